#!/usr/bin/env python3
"""Which functions of /repo/xoa are cited (file:lines) by the definitions of the model. Prints a table."""
import ast, glob, os, re
root = os.path.dirname(os.path.dirname(os.path.abspath(__file__)))
cites = {}
for f in sorted(glob.glob(root + "/lean/Verif/*.lean")):
    t = open(f).read()
    for m in re.finditer(r"(\w+\.py):((?:\d+(?:-\d+)?)(?:(?:,| and)\s*\d+(?:-\d+)?)*)", t):
        for r in re.findall(r"\d+(?:-\d+)?", m.group(2)):
            a, *b = map(int, r.split("-"))
            cites.setdefault(m.group(1), []).append((a, b[0] if b else a, os.path.basename(f)))
for py in sorted(glob.glob("/repo/xoa/*.py")):
    name = os.path.basename(py)
    tree = ast.parse(open(py).read())
    def walk(node, pre):
        for n in node.body:
            if isinstance(n, (ast.FunctionDef, ast.AsyncFunctionDef)):
                fs = sorted({c for a, b, c in cites.get(name, []) if a <= n.end_lineno and b >= n.lineno})
                print(f"{name}\t{pre}{n.name}\t{n.lineno}-{n.end_lineno}\t{' '.join(fs) or '-'}")
            elif isinstance(n, ast.ClassDef):
                walk(n, pre + n.name + ".")
    walk(tree, "")
