#!/usr/bin/env python3
"""usage: gen_log.py results.jsonl...   append the attempts not yet logged to seeded/LOG.jsonl"""
import json, os, sys
here = os.path.dirname(os.path.abspath(__file__))
log = os.path.join(here, "..", "seeded", "LOG.jsonl")
seen = {(r["definition"], r["edit"]) for r in map(json.loads, open(log))} if os.path.exists(log) else set()
n = 0
with open(log, "a") as out:
    for f in sys.argv[1:]:
        for r in map(json.loads, open(f)):
            if r["status"] != "done": continue
            e = f'{r["edit"]}: `{r["old"].strip()}` -> `{r["new"].strip()}`'
            if (r["def"], e) in seen: continue
            if not r["breaks"]: claim = "none (harmless edit, control)"
            else: claim = ", ".join(r["breaks"])
            out.write(json.dumps({"definition": r["def"], "file": r["file"], "edit": e, "claim": claim,
                "theorems_failed": r["failed"], "theorems_tightened": r.get("tightened", []),
                "verdict": r["verdict"]}, ensure_ascii=False) + "\n"); n += 1
print(n, "added")
