#!/usr/bin/env python3
"""Generates lean/Verif/Model/PlatformTable.lean from /repo/platforms/src.

Copies: the enums `Arch`, `Os`, `Env`, `Endian`, `PointerWidth`, `Tier` (variants, `as_str` arms and `from_str`
arms, each in source order) and the platform list `ALL`.
"""
import re, sys
SRC = "/repo/platforms/src/"
OUT = "/verif/lean/Verif/Model/PlatformTable.lean"

def ln(s, pos): return s.count("\n", 0, pos) + 1
def chars(t): return "[" + ", ".join("'%s'" % c for c in t) + "]"
def low(v):
    if v.isupper() and len(v) <= 3: return v.lower()
    r = v[0].lower() + v[1:]
    return {"none": "none"}.get(r, r)

ENUMS = [("Arch", "target/arch.rs"), ("Os", "target/os.rs"), ("Env", "target/env.rs"),
         ("Endian", "target/endian.rs"), ("PointerWidth", "target/pointer_width.rs"),
         ("Tier", "platform/tier.rs")]
o = []
w = o.append
w("import Verif.Model.Str")
w("")
w("/-!\n# Platform enums and the platform table\n\nGenerated by `tools/gen_platforms.py` from `/repo/platforms/src`; do not edit.\n-/\n")
w("namespace Verif.Plat\n")
for name, path in ENUMS:
    s = open(SRC + path).read()
    m = re.search(r"pub enum %s \{(.*?)\n\}" % name, s, re.S)
    a, b = ln(s, m.start()), ln(s, m.end())
    body = re.sub(r"///.*", "", m.group(1)); body = re.sub(r"#\[.*?\]", "", body)
    vs = [x.strip() for x in body.split(",") if x.strip()]
    w(f"/-- `{name}` (`platforms/src/{path}:{a}-{b}`), variants in declaration order. -/")
    w(f"inductive {name} where")
    for v in vs: w(f"  | {low(v)}")
    w("  deriving DecidableEq, Repr\n")
    w(f"/-- Every variant of `{name}`. -/")
    w(f"def {name}.all : List {name} := [" + ", ".join("." + low(v) for v in vs) + "]\n")
    m = re.search(r"pub fn as_str\(self\).*?match self \{(.*?)\n        \}", s, re.S)
    a, b = ln(s, m.start()), ln(s, m.end())
    arms = re.findall(r'Self::(\w+) => "(.*?)"', m.group(1))
    assert len(arms) == len(vs), (name, len(arms), len(vs))
    w(f"/-- `{name}::as_str` (`platforms/src/{path}:{a}-{b}`). -/")
    w(f"def {name}.asStr : {name} → Str")
    for v, t in arms: w(f'  | .{low(v)} => {chars(t)}')
    w("")
    m = re.search(r"fn from_str\(\w+: &str\).*?match \w+ \{(.*?)\n        \}", s, re.S)
    a, b = ln(s, m.start()), ln(s, m.end())
    arms = re.findall(r'"(.*?)" => (?:Ok\()?Self::(\w+)', m.group(1))
    assert len(arms) == len(vs)
    w(f"/-- The arms of `{name}::from_str` in order (`platforms/src/{path}:{a}-{b}`). -/")
    w(f"def {name}.table : List (Str × {name}) := [")
    w(",\n".join(f'  ({chars(t)}, .{low(v)})' for t, v in arms) + "]\n")
    w(f"/-- `{name}::from_str` (`platforms/src/{path}:{a}-{b}`): the first arm equal to the text; `none` is `Err(Error)`. -/")
    w(f"def {name}.fromStr (s : Str) : Option {name} := {name}.table.lookup s\n")
w("""/-- `Platform` (`platforms/src/platform/mod.rs:23-57`). -/
structure Platform where
  triple : Str
  arch : Arch
  os : Os
  env : Env
  endian : Endian
  pointerWidth : PointerWidth
  tier : Tier
  deriving DecidableEq, Repr
""")
s = open(SRC + "platform/platforms.rs").read()
m = re.search(r"const ALL: &\[Platform\] = &\[(.*?)\];", s, re.S)
a, b = ln(s, m.start()), ln(s, m.end())
names = [x.strip() for x in m.group(1).split(",") if x.strip()]
consts = {}
for c in re.finditer(r"const (\w+): Platform = Platform \{(.*?)\};", s, re.S):
    consts[c.group(1)] = (dict(re.findall(r'(\w+): ("?[^,]*"?),', c.group(2))), ln(s, c.start()), ln(s, c.end()))
parts = [names[i:i + 48] for i in range(0, len(names), 48)]
for i, p in enumerate(parts):
    lo = min(consts[n][1] for n in p); hi = max(consts[n][2] for n in p)
    w(f"/-- Entries {48*i}–{48*i+len(p)-1} of `ALL` (`platforms/src/platform/platforms.rs:{a}-{b}`, constants at lines {lo}-{hi}). -/")
    w(f"def all{i} : List Platform := [")
    rows = []
    for n in p:
        d = consts[n][0]
        g = lambda k: "." + low(d[k].split("::")[1])
        rows.append(f'  ⟨{chars(d["target_triple"][1:-1])}, {g("target_arch")}, {g("target_os")}, {g("target_env")}, {g("target_endian")}, {g("target_pointer_width")}, {g("tier")}⟩')
    w(",\n".join(rows) + "]\n")
w(f"/-- `Platform::ALL` (`platforms/src/platform/platforms.rs:{a}-{b}`, `platforms/src/platform/mod.rs:63`). -/")
w("def Platform.all : List Platform :=\n  " + " ++ ".join(f"all{i}" for i in range(len(parts))) + "\n")
w("end Verif.Plat")
open(OUT, "w").write("\n".join(o) + "\n")
