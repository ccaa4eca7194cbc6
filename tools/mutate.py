#!/usr/bin/env python3
"""Test the theorems against wrong programs.

usage: mutate.py mutations.json results.jsonl [workdir [--only]]

With --only just the modules that state theorems about the claims in "breaks" are built.

Each mutation is {"def", "file", "old", "new", "edit", "breaks": ["C01", ...]}; "also" lists further
edits {"def", "file", "old", "new"} (the same algorithm where it is modelled a second time).  In a scratch copy of
the Lean project the text `old` (within definition `def`) is replaced by `new`; then the project is
built.  A theorem whose proof fails is replaced by `sorry` so that the build can go on; at the end every
property theorem that depends on `sorryAx` counts as failed.
"""
import json, os, re, shutil, subprocess, sys

SRC = os.path.join(os.path.dirname(os.path.abspath(__file__)), "..", "lean")
DECL = re.compile(r"^(?:@\[[^\]]*\]\s*)?(?:private |protected |noncomputable |local )*(theorem|lemma|def|instance|example|structure|inductive|class|abbrev)\b\s*([^\s({\[:]*)")
START = re.compile(r"^(?:/--|@\[|(?:private |protected |noncomputable |local )*(?:theorem|lemma|def|instance|example|structure|inductive|class|abbrev)\b|end |namespace |section|variable|open |/-!|omit |set_option)")

def sh(cmd, cwd):
    return subprocess.run(cmd, cwd=cwd, shell=True, stdout=subprocess.PIPE, stderr=subprocess.STDOUT, text=True).stdout

def decl_at(lines, ln):
    i = ln
    while i >= 0 and not DECL.match(lines[i]):
        i -= 1
    if i < 0: return None
    j = i + 1
    while j < len(lines) and not START.match(lines[j]): j += 1
    m = DECL.match(lines[i])
    return i, j, m.group(1), m.group(2)

def stub(text):
    """replace the proof of a theorem by sorry"""
    depth = 0; k = 0
    while k < len(text):
        c = text[k]
        if c in "([{⟨": depth += 1
        elif c in ")]}⟩": depth -= 1
        elif text.startswith(":=", k) and depth == 0:
            line = text[text.rfind("\n", 0, k) + 1:k]
            if not re.search(r"\b(let|have)\b", line) or re.match(r"\s*(theorem|lemma)", line):
                return text[:k] + ":= sorry\n\n"
        k += 1
    m = re.search(r"\n\s*\|", text)
    return None

def modules(work, claims):
    """the modules that state theorems about the claims"""
    res = []
    for d, _, fs in os.walk(os.path.join(work, "Verif")):
        for f in fs:
            if f.endswith(".lean"):
                t = open(os.path.join(d, f)).read()
                if any(re.search(r"^theorem " + c + "_", t, re.M) for c in claims):
                    res.append(os.path.relpath(os.path.join(d, f), work)[:-5].replace("/", "."))
    return sorted(res)

def run(m, work):
    sh(f"rm -rf {work} && cp -a {work}.base {work}", "/")
    for e in [m] + m.get("also", []):
        path = os.path.join(work, e["file"])
        s = open(path).read()
        p = re.search(r"^(?:noncomputable )?def (?:[A-Za-z0-9_]+\.)*" + re.escape(e["def"]) + r"\b", s, re.M)
        assert p, e["def"]
        body = s[p.start():]
        assert e["old"] in body, (e["def"], e["old"])
        body = body.replace(e["old"], e["new"], e.get("count", 1))
        open(path, "w").write(s[:p.start()] + body)
    mods = modules(work, m["breaks"]) if "--only" in sys.argv else []
    failed = []
    stubbed = set()
    for rnd in range(60):
        out = sh(f"lake build {' '.join(mods)} 2>&1", work)
        errs = re.findall(r"^error: (Verif/\S+\.lean):(\d+):\d+: (.*)$", out, re.M)
        if not errs:
            if "Build completed successfully" in out: break
            return {"status": "broken", "out": out[-1500:]}
        byfile = {}
        for f, l, msg in errs: byfile.setdefault(f, set()).add(int(l))
        for f, ls in byfile.items():
            fp = os.path.join(work, f)
            lines = open(fp).read().split("\n")
            spans = {}
            for l in ls:
                d = decl_at(lines, l - 1)
                if d is None: return {"status": "broken", "out": f"{f}:{l}"}
                spans[d[0]] = d
            for i in sorted(spans, reverse=True):
                i, j, kind, name = spans[i]
                key = (f, name if name else f"example@{i}")
                if kind in ("def", "instance", "structure", "inductive", "class", "abbrev"):
                    if f == m["file"] or kind != "instance":
                        return {"status": "broken", "out": f"{f}:{i} {kind} {name}: " + out[-1500:]}
                failed.append(key[1])
                text = "\n".join(lines[i:j])
                new = None
                if kind in ("theorem", "lemma") and key not in stubbed:
                    new = stub(text)
                stubbed.add(key)
                if new is None: new = ""
                lines[i:j] = new.split("\n")
            # doc comments of removed declarations
            txt = "\n".join(lines)
            txt = re.sub(r"/--(?:(?!-/).)*?-/\s*(?=/--|/-!|end |example_removed|$)", "", txt, flags=re.S)
            open(fp, "w").write(txt)
    else:
        return {"status": "broken", "out": "too many rounds"}
    chk = os.path.join(work, "Check.lean")
    open(chk, "w").write("".join(f"import {x}\n" for x in mods or ["Verif"]) + """import Lean
open Lean Elab Command
run_cmd do
  let env ← getEnv
  for (n, _) in env.constants.map₁.toList do
    if (`StdBLAS).isPrefixOf n && n.componentsRev.head!.toString.startsWith "C" && !n.isInternal then
      match env.find? n with
      | some (.thmInfo _) =>
        let ax ← liftCoreM (collectAxioms n)
        logInfo m!"{if ax.contains ``sorryAx then "BAD" else "OK"} {n}"
      | _ => pure ()
""")
    out = sh("lake env lean Check.lean", work)
    os.remove(chk)
    bad = sorted(re.findall(r"BAD StdBLAS\.(?:\w+\.)*(\S+)", out))
    ok = sorted(re.findall(r"OK StdBLAS\.(?:\w+\.)*(\S+)", out))
    gone = [n for n in failed if re.match(r"C\d\d", n) and n not in bad and n not in ok]
    bad = sorted(set(bad + gone))
    return {"status": "done", "direct": sorted(set(failed)), "failed": bad, "survived": ok}

def main():
    muts = json.load(open(sys.argv[1])); res = sys.argv[2]
    work = sys.argv[3] if len(sys.argv) > 3 else "/tmp/mut/work"
    sh(f"mkdir -p {work} && rm -rf {work}.base && cp -a {SRC} {work}.base", "/")
    assert "successfully" in sh("lake build 2>&1", work + ".base")
    done = set()
    if os.path.exists(res):
        done = {(r["def"], r["edit"]) for r in map(json.loads, open(res))}
    for m in muts:
        if (m["def"], m["edit"]) in done: continue
        try:
            r = run(m, work)
        except Exception as e:
            r = {"status": "broken", "out": repr(e)}
        r = {**m, **r}
        if r["status"] == "done":
            r["verdict"] = {c: ("killed" if any(n.startswith(c + "_") for n in r["failed"]) else "SURVIVED") for c in m["breaks"]}
            r["review"] = [n for n in r["survived"] if n[:3] in m["breaks"]]
        with open(res, "a") as f: f.write(json.dumps(r) + "\n")
        print(m["def"], "|", m["edit"], "|", r.get("verdict", r["status"]), flush=True)

main()
