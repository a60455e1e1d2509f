#!/usr/bin/env python3
"""Writes AXIOMS.md: the axioms every theorem named in MANIFEST.json depends on, as reported by Lean. Run after `lake build`."""
import json, pathlib, re, subprocess, tempfile
root = pathlib.Path(__file__).resolve().parent.parent
claims = json.loads((root / "MANIFEST.json").read_text())["claims"]
names = [t for c in claims for t in c["theorems"]]
with tempfile.NamedTemporaryFile("w", suffix=".lean", delete=False) as f:
    f.write("import Verif\n" + "".join(f"#print axioms {n}\n" for n in names))
out = subprocess.run(["lake", "env", "lean", f.name], cwd=root / "lean", capture_output=True, text=True).stdout
deps = {}
for m in re.finditer(r"'([^']+)'\s+(does not depend on any axioms|depends on axioms:\s+\[([^\]]*)\])", out):
    deps[m.group(1)] = ", ".join(sorted(x.strip() for x in (m.group(3) or "").split(","))) or "none"
missing = [n for n in names if n not in deps]
groups = {}
for n in names:
    groups.setdefault(deps.get(n, "?"), []).append(n)
with open(root / "AXIOMS.md", "w") as g:
    g.write("# Axioms per theorem\n\nOutput of `#print axioms` for every theorem of `MANIFEST.json` (`tools/axioms.py`).\n")
    for k in sorted(groups, key=lambda k: -len(groups[k])):
        g.write(f"\n## {k} ({len(groups[k])} theorems)\n\n")
        for c in claims:
            ts = [t for t in c["theorems"] if deps.get(t, "?") == k]
            if ts:
                g.write(f"* {c['property']}: " + ", ".join(f"`{t}`" for t in ts) + "\n")
print({k: len(v) for k, v in groups.items()}, "missing", missing)
