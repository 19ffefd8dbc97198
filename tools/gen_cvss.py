#!/usr/bin/env python3
"""Generate the metric tables of the CVSS models from the Rust source.

For every metric file of /repo/cvss/src/v{2,3,4} this writes one Lean inductive type per Rust enum and
its `as_str`, `FromStr`, weight/level and `merge` tables, each with the file and lines it was read from.
"""
import re, glob, os, sys
R = '/repo/cvss/src/'
OUT = os.path.join(os.path.dirname(os.path.abspath(__file__)), '../lean/Verif/Model/')

def lc(n):
    r = n[0].lower() + n[1:]
    if r == 'partial': r = 'part'  # `partial` is a Lean keyword
    return r

def rat(s):
    ip, fp = s.split('.')
    if fp == '': fp = '0'
    fp = fp.rstrip('0')
    if fp == '': return str(int(ip))
    return f'{int(ip + fp)} / {10 ** len(fp)}'

def blocks(src):
    """(header, body, first line, last line) of every item with braces whose header is an enum or impl."""
    out = []
    for m in re.finditer(r'^[ ]*(?:pub(?:\(crate\))? )?(enum \w+|impl(?:<[^>]*>)? [^{\n]*?|fn [^{;]*?) ?\{', src, re.M):
        i = m.end(); d = 1
        while d:
            if src[i] == '{': d += 1
            elif src[i] == '}': d -= 1
            i += 1
        out.append((' '.join(m.group(1).split()), src[m.end():i-1], src.count('\n', 0, m.start()) + 1, src.count('\n', 0, i) + 1))
    return out

def variants(body):
    body = re.sub(r'//[^\n]*', '', body)
    vs = []
    default = None
    for part in body.split(','):
        p = part.strip()
        if not p: continue
        d = '#[default]' in p
        p = re.sub(r'#\[[^\]]*\]', '', p).strip()
        vs.append(p)
        if d: default = p
    return vs, default

def fn(body, name):
    for h, b, a, z in blocks(body):
        if h.startswith('fn ' + name + '('): return b
    return None

def clean(b): return ' '.join(re.sub(r'//[^\n]*', '', b).split())

def gen(ver, files, metricfile, ns):
    L = []
    w = L.append
    w('import Verif.Model.Str')
    w('')
    w('/-!')
    w(f'# CVSS {ver} metrics')
    w('')
    w('Generated from the Rust source by `/verif/tools/gen_cvss.py`: one inductive type per Rust enum, and its')
    w('`as_str`, `FromStr`, weight, level and merge tables.  A Rust `match` on string literals is a table looked up')
    w('from the top (`lookupStr`).')
    w('-/')
    w('')
    if ver == 'v2':
        pass
    w(f'namespace Verif.Cvss.{ns}')
    w('')
    types = {}
    for f in files:
        src = open(R + f).read()
        cut = src.find('#[cfg(test)]')
        if cut >= 0: src = src[:cut]
        bl = blocks(src)
        for h, b, a, z in bl:
            if h.startswith('enum '):
                n = h[5:]
                vs, d = variants(b)
                w(f'/-- `{n}`: cvss/src/{f}:{a}-{z}. -/')
                w(f'inductive {n} where')
                for v in vs: w(f'  | {lc(v)}')
                w('  deriving DecidableEq, Repr')
                w('')
                w(f'/-- All values of `{n}`, in declaration order. -/')
                w(f'def {n}.all : List {n} := [' + ', '.join('.' + lc(v) for v in vs) + ']')
                w('')
                w(f'theorem {n}.mem_all : ∀ x : {n}, x ∈ {n}.all := by intro x; cases x <;> decide')
                w('')
                if d:
                    w(f'/-- `{n}::default()`: cvss/src/{f}:{a}-{z}. -/')
                    w(f'def {n}.default : {n} := .{lc(d)}')
                    w('')
        for h, b, a, z in bl:
            m = re.match(r'impl Metric for (\w+)$', h)
            if m:
                n = m.group(1)
                t = re.search(r'const TYPE: MetricType = MetricType::(\w+)', b).group(1)
                types[t] = n
                arms = re.findall(r'Self::(\w+) => "(\w+)"', clean(fn(b, 'as_str')))
                w(f'/-- `{n}::as_str`: cvss/src/{f}:{a}-{z}. -/')
                w(f'def {n}.asStr : {n} → Str')
                for v, s in arms: w(f'  | .{lc(v)} => "{s}".toList')
                w('')
                sc = fn(b, 'score')
                if sc is not None:
                    arms = re.findall(r'Self::(\w+) => ([\d.]+)', clean(sc))
                    if arms:
                        w(f'/-- `{n}::score` (the decimal literal; rounding is applied where it is used): cvss/src/{f}:{a}-{z}. -/')
                        w(f'def {n}.score : {n} → Rat')
                        for v, s in arms: w(f'  | .{lc(v)} => {rat(s)}')
                        w('')
            m = re.match(r'impl FromStr for (\w+)$', h)
            if m:
                n = m.group(1)
                arms = re.findall(r'"(\w+)" => Ok\(Self::(\w+)\)', clean(b))
                w(f'/-- `{n}::from_str`: cvss/src/{f}:{a}-{z}. -/')
                w(f'def {n}.table : List (Str × {n}) :=')
                w('  [' + ', '.join(f'("{s}".toList, .{lc(v)})' for s, v in arms) + ']')
                w('')
            m = re.match(r'impl MetricLevel for (\w+)$', h)
            if m:
                n = m.group(1)
                arms = re.findall(r'Self::(\w+) => ([\d.]+)', clean(fn(b, 'level')))
                w(f'/-- `{n}::level` (the decimal literal): cvss/src/{f}:{a}-{z}. -/')
                w(f'def {n}.level : {n} → Rat')
                for v, s in arms: w(f'  | .{lc(v)} => {rat(s)}')
                w('')
        for h, b, a, z in bl:
            m = re.match(r'impl (\w+)$', h)
            if m and fn(b, 'merge') is not None:
                n = m.group(1)
                mb = clean(fn(b, 'merge'))
                inner = re.findall(r'Self::(\w+) => \{? ?(\w+)::(\w+)', mb)
                outer = re.findall(r'Some\((\w+)::(\w+)\) => \{? ?(\w+)::(\w+)', mb)
                res = inner[0][1]
                if outer:
                    mod = outer[0][0]
                    nd = re.findall(r'Some\((\w+)::(\w+)\) \| None => ', mb)
                    assert nd == [(mod, 'NotDefined')], (f, nd)
                    w(f'/-- `{n}::merge` with no modified value (the inner `match self`): cvss/src/{f}:{a}-{z}. -/')
                    w(f'def {n}.keep : {n} → {res}')
                    for v, r_, rv in inner: w(f'  | .{lc(v)} => .{lc(rv)}')
                    w('')
                    w(f'/-- `{n}::merge`: cvss/src/{f}:{a}-{z}. -/')
                    w(f'def {n}.merge (self : {n}) : Option {mod}_ → {res}'.replace('_', ''))
                    w(f'  | .some .notDefined => self.keep')
                    w(f'  | .none => self.keep')
                    for mo, v, r_, rv in outer:
                        assert mo == mod and r_ == res
                        w(f'  | .some .{lc(v)} => .{lc(rv)}')
                    w('')
                else:
                    w(f'/-- `{n}::merge`: cvss/src/{f}:{a}-{z}. -/')
                    w(f'def {n}.merge : {n} → {res}')
                    for v, r_, rv in inner: w(f'  | .{lc(v)} => .{lc(rv)}')
                    w('')
    src = open(R + metricfile).read()
    bl = blocks(src)
    for h, b, a, z in bl:
        if h == 'enum MetricType':
            mt, _ = variants(b)
            w(f'/-- `MetricType`: cvss/src/{metricfile}:{a}-{z}. -/')
            w('inductive MetricType where')
            for v in mt: w(f'  | {v}')
            w('  deriving DecidableEq, Repr')
            w('')
            w('/-- All metric types, in declaration order. -/')
            w('def MetricType.all : List MetricType := [' + ', '.join('.' + v for v in mt) + ']')
            w('')
            w('theorem MetricType.mem_all : ∀ m : MetricType, m ∈ MetricType.all := by intro m; cases m <;> decide')
            w('')
    for h, b, a, z in bl:
        if h == 'impl MetricType':
            arms = re.findall(r'Self::(\w+) => "(\w+)"', clean(fn(b, 'name')))
            w(f'/-- `MetricType::name`: cvss/src/{metricfile}:{a}-{z}. -/')
            w('def MetricType.name : MetricType → Str')
            for v, s in arms: w(f'  | .{v} => "{s}".toList')
            w('')
        if h == 'impl FromStr for MetricType':
            arms = re.findall(r'"(\w+)" => Ok\(Self::(\w+)\)', clean(b))
            w(f'/-- `MetricType::from_str`: cvss/src/{metricfile}:{a}-{z}. -/')
            w('def MetricType.table : List (Str × MetricType) :=')
            w('  [' + ', '.join(f'("{s}".toList, .{v})' for s, v in arms) + ']')
            w('')
    assert set(mt) == set(types), (set(mt) ^ set(types))
    w('/-- The value type of each metric (`const TYPE` of the metric files; the field types of the vector). -/')
    w('abbrev MetricType.Val : MetricType → Type')
    for v in mt: w(f'  | .{v} => {types[v]}')
    w('')
    w('instance (m : MetricType) : DecidableEq m.Val := by cases m <;> (simp only [MetricType.Val]; infer_instance)')
    w('')
    for what, ty in (('asStr', 'm.Val → Str'), ('table', 'List (Str × m.Val)'), ('all', 'List m.Val')):
        nm = {'asStr': 'asStr', 'table': 'valueTable', 'all': 'values'}[what]
        doc = {'asStr': '`as_str` of each metric', 'table': '`FromStr` table of each metric', 'all': 'all values of each metric'}[what]
        w(f'/-- {doc}. -/')
        w(f'def MetricType.{nm} : (m : MetricType) → {ty}')
        for v in mt: w(f'  | .{v} => {types[v]}.{what}')
        w('')
    w('theorem MetricType.mem_values : (m : MetricType) → (x : m.Val) → x ∈ m.values')
    for v in mt: w(f'  | .{v} => {types[v]}.mem_all')
    w('')
    w(f'end Verif.Cvss.{ns}')
    open(OUT + f'Cvss{ns}Metrics.lean', 'w').write('\n'.join(L) + '\n')

def g(pat): return [os.path.relpath(p, R) for p in sorted(glob.glob(R + pat))]
gen('v2', g('v2/metric/base/*.rs') + g('v2/metric/temporal/*.rs') + g('v2/metric/environmental/*.rs'), 'v2/metric.rs', 'V2')
gen('v3', g('v3/base/*.rs'), 'v3/metric.rs', 'V3')
# the merge functions mention the modified enums: environmental files first
gen('v4', g('v4/metric/environmental/*.rs') + g('v4/metric/base/*.rs') + g('v4/metric/threat/*.rs') + g('v4/metric/supplemental/*.rs'), 'v4/metric.rs', 'V4')

# the lookup table
L = ['import Verif.Model.Basic', '', '/-!', '# The CVSS v4 macro vector scores', '',
     'Generated from cvss/src/v4/scoring/lookup.rs by `/verif/tools/gen_cvss.py`.', '-/', '', 'namespace Verif.Cvss.V4', '']
n = 0
rows = []
for l in open(R + 'v4/scoring/lookup.rs'):
    m = re.match(r'\s*\((\d), (\d), (\d), (\d), (\d), (\d)\) => Some\(([\d.]+)\)', l)
    if m:
        rows.append((m.groups()[:6], int(round(float(m.group(7)) * 10)), m.group(7)))
        assert rat(m.group(7)) in (f'{rows[-1][1]} / 10', str(rows[-1][1] // 10))
L.append('/-- `lookup_global`, in tenths (every literal of the table has at most one decimal):')
L.append('cvss/src/v4/scoring/lookup.rs:6-279. -/')
L.append('def lookupTenths : Nat → Nat → Nat → Nat → Nat → Nat → Option Nat')
for k, v, _ in rows: L.append('  | ' + ', '.join(k) + f' => some {v}')
L.append('  | _, _, _, _, _, _ => none')
L.append('')
L.append('end Verif.Cvss.V4')
open(OUT + 'CvssV4Lookup.lean', 'w').write('\n'.join(L) + '\n')
