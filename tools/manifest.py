#!/usr/bin/env python3
"""Rebuild MANIFEST.json from the theorem names in lean/Verif/Props and tools/notes.json."""
import json, re, pathlib
root = pathlib.Path(__file__).resolve().parent.parent
notes = json.loads((root / "tools/notes.json").read_text())
thms = {}
for f in sorted((root / "lean/Verif/Props").rglob("*.lean")):
    ns = []
    for line in f.read_text().splitlines():
        m = re.match(r"namespace\s+(\S+)", line)
        if m: ns.append(m.group(1))
        m = re.match(r"end\s+(\S+)", line)
        if m and ns:
            if ns[-1] == m.group(1): ns.pop()
            elif ns[-1].endswith("." + m.group(1)): ns[-1] = ns[-1][: -len(m.group(1)) - 1]
        m = re.match(r"(?:private\s+)?theorem\s+((C\d+)_\S+)", line)
        if m: thms.setdefault(m.group(2), []).append(".".join(ns + [m.group(1)]))
claims = []
for line in (root / "properties.jsonl").read_text().splitlines():
    p = json.loads(line)["id"]
    n = notes.get(p, {})
    t = thms.get(p, [])
    status = n.get("status") or ("proved" if t else None)
    if status is None: continue
    claims.append({"property": p, "status": status, "theorems": t, "note": n.get("note", "")})
(root / "MANIFEST.json").write_text(json.dumps({"claims": claims}, indent=1) + "\n")
print(len(claims), "claims,", sum(len(c["theorems"]) for c in claims), "theorems")
unused = set(thms) - {c["property"] for c in claims}
if unused: print("theorems without property:", unused)
