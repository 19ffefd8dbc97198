#!/usr/bin/env python3
"""Writes lean/Verif/Model/PlatformReadme.lean from /repo/platforms/README.md."""
import sys
def ch(x): return "[" + ", ".join("'%s'" % c for c in x) + "]"
src = open("/repo/platforms/README.md").read().split("\n")
start = src.index("### Tier 1")
lines = src[start:]
assert lines[-1] == ""
lines = lines[:-1]
assert all('"' not in l and "\\" not in l for l in lines)
out = ["import Verif.Model.Str", "", "/-!", "# The tables in the README", "",
       "Generated by `tools/gen_platform_readme.py` from `/repo/platforms/README.md`; do not edit.", "-/", "",
       "namespace Verif.PlatGen", ""]
n = 25
parts = [lines[i:i + n] for i in range(0, len(lines), n)]
for k, p in enumerate(parts):
    a = start + 1 + k * n
    out.append(f"/-- `platforms/README.md:{a}-{a + len(p) - 1}`. -/")
    out.append(f"def readme{k} : List Str := [")
    out.append(",\n".join('  ' + ch(l) for l in p) + "]")
    out.append("")
out.append(f"/-- `platforms/README.md:{start + 1}-{start + len(lines)}`: the tables and links. -/")
out.append("def readmeLines : List Str := " + " ++ ".join(f"readme{k}" for k in range(len(parts))))
out += ["", "end Verif.PlatGen", ""]
open(sys.argv[1], "w").write("\n".join(out))
