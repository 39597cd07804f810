#!/usr/bin/env python3
"""Writes MANIFEST.json from the table below and checks that every theorem named exists."""
import json, re, pathlib, sys
root = pathlib.Path(__file__).resolve().parent.parent
P, Q, N = "proved", "partial", "not_applicable"
T = {}
exec((root / "tools" / "claims.py").read_text())
names = set()
for f in (root / "lean/Verif").rglob("*.lean"):
    names |= set(re.findall(r"^\s*(?:private |protected )?theorem\s+([^\s:({\[]+)", f.read_text(), re.M))
props = [json.loads(l)["id"] for l in (root / "properties.jsonl").read_text().splitlines() if l.strip()]
claims, bad = [], []
for p in props:
    if p not in T:
        continue
    st, th, note = T[p]
    for t in th:
        if t not in names:
            bad.append((p, t))
    claims.append({"property": p, "status": st, "theorems": ["Verif." + t for t in th], "note": note})
(root / "MANIFEST.json").write_text(json.dumps({"claims": claims}, indent=1, ensure_ascii=False) + "\n")
print(len(claims), "claims of", len(props), "properties; missing:", [p for p in props if p not in T])
if bad:
    print("UNKNOWN", bad); sys.exit(1)
