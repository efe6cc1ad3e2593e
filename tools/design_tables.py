#!/usr/bin/env python3
"""Refresh the generated tables of DESIGN.md (properties -> modules) and AXIOMS.md (axioms of each theorem; needs a built lean/)."""
import json, re, glob, os, subprocess, sys
root = os.path.dirname(os.path.dirname(os.path.abspath(__file__)))
where = {}
for f in sorted(glob.glob(root + "/lean/Verif/*.lean")):
    for m in re.finditer(r"^(?:private )?theorem (C\d+\w*)", open(f).read(), re.M):
        where[m.group(1)] = os.path.basename(f)[:-5]
claims = {c["property"]: c for c in json.load(open(root + "/MANIFEST.json"))["claims"]}
rows = ["| id | property | status | modules |", "|---|---|---|---|"]
for l in open(root + "/properties.jsonl"):
    if l.strip():
        p = json.loads(l)
        c = claims[p["id"]]
        mods = sorted({where[t] for t in c["theorems"]})
        rows.append(f"| {p['id']} | {p['title']} | {c['status']} | {', '.join(mods)} |")
d = open(root + "/DESIGN.md").read()
a, b = "<!-- table:begin -->\n", "<!-- table:end -->"
d = d[:d.index(a) + len(a)] + "\n".join(rows) + "\n" + d[d.index(b):]
open(root + "/DESIGN.md", "w").write(d)
if "--axioms" in sys.argv:
    names = sorted(where, key=lambda t: (int(re.match(r"C(\d+)", t).group(1)), t))
    src = "import Verif\nopen Xoa\n" + "".join(f"#print axioms {n}\n" for n in names)
    open("/tmp/Axioms.lean", "w").write(src)
    out = subprocess.run(["lake", "env", "lean", "/tmp/Axioms.lean"], cwd=root + "/lean", capture_output=True, text=True).stdout
    out = re.sub(r",\s*\n\s*", ", ", out)
    groups = {}
    for l in out.splitlines():
        m = re.match(r"'(?:Xoa\.)?(\w+)' depends on axioms: \[(.*)\]", l)
        if m:
            groups.setdefault(m.group(2), []).append(m.group(1))
        else:
            m = re.match(r"'(?:Xoa\.)?(\w+)' does not depend on any axioms", l)
            if m:
                groups.setdefault("none", []).append(m.group(1))
            elif l.strip():
                print("??", l)
    n = sum(map(len, groups.values()))
    print(n, len(names), list(groups))
    t = "# Axioms of each property theorem\n\nGenerated by `tools/design_tables.py --axioms` from Lean's own report.\n"
    for g in sorted(groups):
        t += f"\n## {g}\n\n" + ", ".join(groups[g]) + "\n"
    open(root + "/AXIOMS.md", "w").write(t)
