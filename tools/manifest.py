#!/usr/bin/env python3
"""Collects C??_ theorems from lean/Verif/Props and writes MANIFEST.json, Verif.lean and an axiom check file."""
import json, pathlib, re
root = pathlib.Path(__file__).resolve().parent.parent
notes = json.loads((root/"tools"/"notes.json").read_text())
props = [json.loads(l)["id"] for l in (root/"properties.jsonl").read_text().splitlines()]
thms = {}
for f in sorted((root/"lean"/"Verif"/"Props").glob("*.lean")):
    ns = []
    for line in f.read_text().splitlines():
        m = re.match(r"namespace (\S+)", line)
        if m: ns.append(m.group(1))
        m = re.match(r"end (\S+)", line)
        if m and ns and ns[-1] == m.group(1): ns.pop()
        m = re.match(r"(?:private )?theorem (C\d+_\S+)", line)
        if m:
            name = m.group(1)
            thms.setdefault(name.split("_")[0], []).append(".".join(ns+[name]))
claims = []
for p in props:
    t = thms.get(p, [])
    n = notes.get(p, {})
    if not t and n.get("status") != "not_applicable":
        continue
    weak = any(x.endswith("_partial") or "_violated" in x or x.endswith("_missing") for x in t)
    status = n.get("status") or ("partial" if weak else "proved")
    claims.append(dict(property=p, status=status, theorems=t, note=n.get("note", "")))
(root/"MANIFEST.json").write_text(json.dumps({"claims": claims}, indent=1)+"\n")
mods = sorted(str(f.relative_to(root/"lean"))[:-5].replace("/", ".") for f in (root/"lean"/"Verif").rglob("*.lean"))
(root/"lean"/"Verif.lean").write_text("".join(f"import {m}\n" for m in mods))
ax = "import Verif\n" + "".join(f"#print axioms {t}\n" for c in claims for t in c["theorems"])
pathlib.Path("/tmp/Axioms.lean").write_text(ax)
print(len(claims), "claims", sum(len(c["theorems"]) for c in claims), "theorems; missing:", [p for p in props if p not in thms])
