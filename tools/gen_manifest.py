#!/usr/bin/env python3
"""Write MANIFEST.json from the theorem names in lean/Verif/Props and the notes below."""
import json, re, pathlib
root = pathlib.Path(__file__).resolve().parent.parent
STATUS = {}
NOTES = {}
exec((root / "tools" / "manifest_notes.py").read_text())
names = {}
for f in sorted((root / "lean" / "Verif").rglob("*.lean")):
    ns = []
    for line in f.read_text().splitlines():
        m = re.match(r"namespace (\S+)", line)
        if m: ns.append(m.group(1))
        m = re.match(r"end (\S+)", line)
        if m and ns and ns[-1] == m.group(1): ns.pop()
        m = re.match(r"theorem (C(\d\d)_\S+)", line)
        if m: names.setdefault("C" + m.group(2), []).append(".".join(ns + [m.group(1)]))
claims = []
for line in (root / "properties.jsonl").read_text().splitlines():
    p = json.loads(line)["id"]
    th = names.get(p, [])
    st = STATUS.get(p, "proved" if th else "partial")
    claims.append({"property": p, "status": st, "theorems": th, "note": NOTES.get(p, "" if th else "not yet modelled")})
(root / "MANIFEST.json").write_text(json.dumps({"claims": claims}, indent=1) + "\n")
print(sum(len(c["theorems"]) for c in claims), "theorems;", [c["property"] for c in claims if not c["theorems"]])
