#!/usr/bin/env python3
"""Write COVERAGE.md: for every function of /repo/resdx, the model definitions whose comment cites lines inside it."""
import ast, pathlib, re, sys
repo = pathlib.Path(sys.argv[1] if len(sys.argv) > 1 else '/repo')
root = pathlib.Path(__file__).resolve().parent.parent
cites = []  # (file, lo, hi, definition)
for f in sorted((root / 'lean/Verif/Model').glob('*.lean')):
    text = f.read_text()
    for m in re.finditer(r'/--(.*?)-/\s*((?:@\[[^\]]*\]\s*)?(?:noncomputable |private )*(?:def|structure|inductive|abbrev|instance)\s+(\S+))', text, re.S):
        doc, name = m.group(1), m.group(3)
        for c in re.finditer(r'(resdx/[\w/]+\.py):((?:\d+(?:-\d+)?(?:,? and |, |; )?)+)', doc):
            for r in re.finditer(r'(\d+)(?:-(\d+))?', c.group(2)):
                lo = int(r.group(1)); hi = int(r.group(2) or lo)
                cites.append((c.group(1), lo, hi, f'{f.stem}.{name}'))
out = ['# Coverage of the code by the model', '',
       'Generated by `tools/coverage.py` from the citations in `lean/Verif/Model`. For every function of the package: the model',
       'definitions that cite lines inside it. `not modelled` marks functions without one.', '']
tot = cov = tl = cl = 0
for p in sorted((repo / 'resdx').rglob('*.py')):
    rel = str(p.relative_to(repo))
    tree = ast.parse(p.read_text())
    rows = []
    def visit(node, prefix, outer):
        global tot, cov, tl, cl
        for n in ast.iter_child_nodes(node):
            if isinstance(n, ast.ClassDef):
                visit(n, prefix + n.name + '.', outer)
            elif isinstance(n, (ast.FunctionDef,)):
                lo, hi = n.lineno, n.end_lineno
                ds = []
                for (f, a, b, d) in cites:
                    if f == rel and a >= lo - 2 and b <= hi + 1 and d not in ds:
                        ds.append(d)
                if not ds:
                    for (f, a, b, d) in cites:
                        if f == rel and a <= lo and b >= hi and d not in ds:
                            ds.append(d)
                body = [s for s in n.body if not (isinstance(s, ast.Expr) and isinstance(getattr(s, 'value', None), ast.Constant))]
                abstract = len(body) == 1 and isinstance(body[0], ast.Raise)
                tot += 1; tl += hi - lo + 1
                if ds or abstract: cov += 1; cl += hi - lo + 1
                rows.append((f'`{prefix}{n.name}` ({lo}-{hi})', 'abstract (raises NotImplementedError)' if abstract and not ds else ', '.join(f'`{d}`' for d in ds) or 'not modelled'))
    visit(tree, '', None)
    if rows:
        out += [f'## {rel}', '', '| function | model |', '|---|---|'] + [f'| {a} | {b} |' for a, b in rows] + ['']
out[4:4] = [f'{cov} of {tot} functions ({cl} of {tl} lines in functions) are modelled or abstract.', '']
(root / 'COVERAGE.md').write_text('\n'.join(out))
print(out[4])
