#!/usr/bin/env python3
"""Regenerate MANIFEST.json from the theorem names in lean/Verif/Props and the notes in tools/notes.json.

A property is "partial" if one of its theorems carries the suffix _partial, or if notes.json says so.
With --axioms a Lean file printing the axioms of all property theorems is written to the given path.
"""
import json, re, sys, pathlib

root = pathlib.Path(__file__).resolve().parent.parent
notes = json.loads((root / "tools/notes.json").read_text())
thms = {}
for f in sorted((root / "lean/Verif/Props").glob("*.lean")):
    ns = []
    for line in f.read_text().splitlines():
        if m := re.match(r"namespace (\S+)", line):
            ns.append(m[1])
        elif m := re.match(r"end (\S+)", line):
            if ns and ns[-1] == m[1]:
                ns.pop()
        elif m := re.match(r"(?:private )?theorem ((C\d\d+)_\S+)", line):
            thms.setdefault(m[2], []).append(".".join(ns + [m[1]]))
claims = []
for line in (root / "properties.jsonl").read_text().splitlines():
    pid = json.loads(line)["id"]
    n = notes.get(pid, {})
    ts = thms.get(pid, [])
    status = n.get("status")
    if status is None:
        if not ts:
            continue
        status = "partial" if any("_partial" in t for t in ts) else "proved"
    claims.append({"property": pid, "status": status, "theorems": ts, "note": n.get("note", "")})
(root / "MANIFEST.json").write_text(json.dumps({"claims": claims}, indent=1, ensure_ascii=False) + "\n")
print(len(claims), "claims", sum(len(c["theorems"]) for c in claims), "theorems",
      [c["property"] for c in claims if c["status"] == "partial"])
if "--axioms" in sys.argv:
    out = pathlib.Path(sys.argv[sys.argv.index("--axioms") + 1])
    out.write_text("import Verif\n" + "".join(f"#print axioms {t}\n" for c in claims for t in c["theorems"]))
