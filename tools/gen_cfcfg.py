#!/usr/bin/env python3
"""Generate lean/Verif/CfBuiltinRaw.lean: the contents of xoa/cf.cfg, as the parser of ConfigObj gives them.

A value with commas is a list of texts, any other value is a text. The file has no quote, no interpolation and no
empty value (checked here); a comma at the end of a list is ignored."""
import re, sys
SRC = sys.argv[1] if len(sys.argv) > 1 else "/repo/xoa/cf.cfg"
OUT = sys.argv[2] if len(sys.argv) > 2 else "/verif/lean/Verif/CfBuiltinRaw.lean"
root, stack, where = {}, None, {}
stack = [root]
for num, line in enumerate(open(SRC), 1):
    l = line.strip()
    if not l or l.startswith("#"):
        continue
    m = re.fullmatch(r"(\[+)([^\[\]]*)(\]+)", l)
    if m:
        assert len(m.group(1)) == len(m.group(3))
        d, name = len(m.group(1)), m.group(2).strip()
        stack = stack[:d]
        assert name not in stack[-1], name
        stack[-1][name] = {}
        stack.append(stack[-1][name])
        where.setdefault(id(stack[-1]), num)
        continue
    k, v = (x.strip() for x in l.split("=", 1))
    assert k not in stack[-1] and v and not re.search(r"['\"%$#]", v), l
    stack[-1][k] = v
assert list(root) == ["data_vars", "coords", "dims"]


def s(x):
    assert x.isascii() and "'" not in x and "\\" not in x
    return "[%s]" % ", ".join("'%s'" % c for c in x)


def val(v):
    if "," in v:
        items = [x.strip() for x in v.split(",")]
        if items[-1] == "":  # a comma at the end is allowed in a list
            items.pop()
        assert all(items), v
        return ".list [%s]" % ", ".join(map(s, items))
    return ".str %s" % s(v)


def text(n, e):
    return "[[%s]] " % n + "; ".join("%s = %s" % kv for kv in e.items() if not isinstance(kv[1], dict)) + (
        " [[[attrs]]] " + "; ".join("%s = %s" % kv for kv in e["attrs"].items()) if "attrs" in e else "")


def entry(n, e):
    keys = ["(%s, %s)" % (s(k), val(v)) for k, v in e.items() if not isinstance(v, dict)]
    subs = [k for k, v in e.items() if isinstance(v, dict)]
    assert subs in ([], ["attrs"]), subs
    attrs = ["(%s, %s)" % (s(k), val(v)) for k, v in e.get("attrs", {}).items()]
    return "  -- %s\n  (%s, [%s],\n    [%s])" % (text(n, e), s(n), ", ".join(keys), ", ".join(attrs))


out = ["import Verif.CfInherit", "", "/-!", "# The built-in CF specifications, as they are in xoa/cf.cfg", "",
       "Generated by tools/gen_cfcfg.py. For each item: its name, its keys and the section `attrs` (empty when there is none).",
       "Texts are lists of characters, which the kernel reads faster than literals; the comments have the lines of the file.", "-/", "",
       "set_option maxRecDepth 20000", "", "namespace Xoa", "",
       "/-- an item of the file: its name, its keys and its section `attrs` -/",
       "abbrev RawItem := Str × List (Str × FV) × List (Str × FV)", ""]
lines = open(SRC).read().split("\n")
pos = {c: lines.index("[%s]" % c) + 1 for c in root}
for c, name in (("data_vars", "rawVars"), ("coords", "rawCoords")):
    last = (pos["coords"] if c == "data_vars" else pos["dims"]) - 1
    out += ["/-- section `%s`, xoa/cf.cfg:%d-%d -/" % (c, pos[c], last), "def %s : List RawItem := [" % name,
            ",\n".join(entry(n, e) for n, e in root[c].items()) + "]", ""]
out += ["/-- section `dims`, xoa/cf.cfg:%d-%d -/" % (pos["dims"], len(lines) - 1), "def rawDims : List (Str × FV) := ["
        + ", ".join("(%s, %s)" % (s(k), val(v)) for k, v in root["dims"].items()) + "]", "", "end Xoa", ""]
open(OUT, "w").write("\n".join(out))
