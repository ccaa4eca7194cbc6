#!/usr/bin/env python3
"""usage: review.py deps.txt results.jsonl...

For each mutation, list the property theorems whose statement reaches the edited definition and which
still proved.  deps.txt lists, for each theorem, the constants its statement reaches."""
import json, re, sys
deps = {}
for m in re.finditer(r"DEP StdBLAS\.(?:\w+\.)*(C\d\d\w+)\s*\[(.*?)\]", open(sys.argv[1]).read(), re.S):
    deps[m.group(1)] = {x.split(".", 1)[1] for x in re.split(r",\s*", m.group(2).strip()) if "." in x}
for f in sys.argv[2:]:
    for r in map(json.loads, open(f)):
        if r["status"] != "done":
            print("??", r["def"], "|", r["edit"], "|", r["status"], r["out"][:200]); continue
        surv = [n for n, d in deps.items() if any(x == r["def"] or x.endswith("." + r["def"]) for x in d) and n not in r["failed"]]
        if surv: print(r["def"], "|", r["edit"], "|", r["breaks"], "|", " ".join(sorted(surv)))
