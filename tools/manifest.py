#!/usr/bin/env python3
"""Regenerate MANIFEST.json from the theorem names (Cnn_...) and tools/notes.json."""
import json, re, glob, os
root = os.path.dirname(os.path.dirname(os.path.abspath(__file__)))
th = {}
for f in sorted(glob.glob(root + "/lean/Verif/*.lean")):
    for m in re.finditer(r"^(?:private )?theorem ((C\d+)_\w*|C\d+\b)", open(f).read(), re.M):
        th.setdefault(m.group(2) or m.group(1), []).append(m.group(1))
notes = json.load(open(root + "/tools/notes.json"))
ids = [json.loads(l)["id"] for l in open(root + "/properties.jsonl") if l.strip()]
claims = []
for i in ids:
    n = notes.get(i, {})
    if isinstance(n, str):
        n = {"note": n}
    names = th.get(i, [])
    st = n.get("status")
    if st is None:
        if not names:
            continue
        st = "partial" if any("_partial" in x or "_violated" in x or "_counterexample" in x for x in names) else "proved"
    claims.append({"property": i, "status": st, "theorems": names, "note": n.get("note", "")})
assert set(th) <= set(ids), set(th) - set(ids)
json.dump({"claims": claims}, open(root + "/MANIFEST.json", "w"), indent=1, ensure_ascii=False)
print({s: sum(c["status"] == s for c in claims) for s in ("proved", "partial", "not_applicable")},
      "missing", [i for i in ids if i not in [c["property"] for c in claims]])
