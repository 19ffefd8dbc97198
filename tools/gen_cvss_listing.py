#!/usr/bin/env python3
"""Generate Verif/Model/CvssListing.lean: descriptions, `Debug` texts of metric values and the rows of `metrics()`.

Reads /repo/cvss/src/v{2,3,4}.  A row of `metrics()` pairs a label with the field whose value it lists; the
field is named by the metric type of its declared type.
"""
import re, glob, os
R = '/repo/cvss/src/'
OUT = os.path.join(os.path.dirname(os.path.abspath(__file__)), '../lean/Verif/Model/CvssListing.lean')

def lc(n):
    r = n[0].lower() + n[1:]
    return 'part' if r == 'partial' else r

def chars(s): return '[' + ', '.join("'%s'" % c for c in s) + ']'

def g(pat): return [os.path.relpath(p, R) for p in sorted(glob.glob(R + pat))]

L = ['import Verif.Model.CvssText', '', '/-!', '# Listing the metrics of a vector: `metrics()`, `MetricType::description`, `Debug`', '',
 'Generated from the Rust source by `/verif/tools/gen_cvss_listing.py`.  The values are listed as `&dyn Debug`; what a',
 'caller can observe of one is the text of its derived `Debug`, the name of the variant.', '-/', '', 'namespace Verif.Cvss', '']
w = L.append
sample = {}
for ver, ns, files, vec in (
    ('v2', 'V2', g('v2/metric/base/*.rs') + g('v2/metric/temporal/*.rs') + g('v2/metric/environmental/*.rs'), 'v2/vector.rs'),
    ('v3', 'V3', g('v3/base/*.rs'), 'v3/base.rs'),
    ('v4', 'V4', g('v4/metric/base/*.rs') + g('v4/metric/threat/*.rs') + g('v4/metric/environmental/*.rs') + g('v4/metric/supplemental/*.rs'), 'v4/vector.rs')):
    w(f'namespace {ns}'); w('')
    types = {}
    for f in files:
        src = open(R + f).read()
        t = re.search(r'const TYPE: MetricType = MetricType::(\w+)', src).group(1)
        n = re.search(r'impl Metric for (\w+)', src).group(1)
        types[n] = t
        m = re.search(r'#\[derive\(([^)]*)\)\]\npub enum ' + n + r' \{(.*?)\n\}', src, re.S)
        assert 'Debug' in m.group(1)
        body = re.sub(r'//[^\n]*|#\[[^\]]*\]', '', m.group(2))
        vs = [v.strip() for v in body.split(',') if v.strip()]
        a = src.count('\n', 0, m.start()) + 1; z = src.count('\n', 0, m.end()) + 1
        w(f'/-- `Debug` of `{n}` (derived): cvss/src/{f}:{a}-{z}. -/')
        w(f'def {n}.debug : {n} → Str')
        for v in vs: w(f'  | .{lc(v)} => {chars(v)}')
        w('')
        sample[(ver, t)] = (vs, re.findall(r'Self::(\w+) => "(\w+)"', src))
    w('/-- `Debug` of the value of each metric. -/')
    w('def MetricType.debug : (m : MetricType) → m.Val → Str')
    for n, t in types.items(): w(f'  | .{t} => {n}.debug')
    w('')
    src = open(R + ver + '/metric.rs').read()
    m = re.search(r'pub fn description\(self\).*?\n    \}', src, re.S)
    a = src.count('\n', 0, m.start()) + 1; z = src.count('\n', 0, m.end()) + 1
    w(f'/-- `MetricType::description`: cvss/src/{ver}/metric.rs:{a}-{z}. -/')
    w('def MetricType.description : MetricType → Str')
    for k, v in re.findall(r'Self::(\w+) => "([^"]*)"', m.group(0)): w(f'  | .{k} => {chars(v)}')
    w('')
    src = open(R + vec).read()
    st = re.search(r'pub struct (?:Vector|Base) \{(.*?)\n\}', src, re.S).group(1)
    fields = {k: types[t] for k, t in re.findall(r'pub(?:\(crate\))? (\w+): Option<(?:[\w:]*::)?(\w+)>', st)}
    assert sorted(fields.values()) == sorted(types.values())
    m = re.search(r'pub fn metrics\(&self\).*?\n    \}', src, re.S)
    a = src.count('\n', 0, m.start()) + 1; z = src.count('\n', 0, m.end()) + 1
    rows = re.findall(r'\(\s*MetricType::(\w+),\s*self\.(\w+)\.as_ref\(\)', m.group(0))
    assert len(rows) == m.group(0).count('MetricType::')
    w(f'/-- The array of `metrics()`: the label of each row and the field it lists.  cvss/src/{vec}:{a}-{z}. -/')
    w('def listRows : List (MetricType × MetricType) :=')
    out, line = [], '  ['
    for i, (l, f) in enumerate(rows):
        line += f'(.{l}, .{fields[f]})' + (', ' if i + 1 < len(rows) else ']')
        if len(line) > 95: out.append(line.rstrip()); line = '    '
    if line.strip(): out.append(line)
    L.extend(out); w('')
    w(f'/-- One row of `metrics()`, if its metric is present: `filter_map` (cvss/src/{vec}:{z-2}-{z-1}). -/')
    w('def listRow (v : scheme.Metrics) (r : MetricType × MetricType) : Option (MetricType × Str) :=')
    w('  (v r.2).map fun x => (r.1, r.2.debug x)'); w('')
    w(f'/-- `metrics()`: the metrics that are present, each with the `Debug` text of its value. cvss/src/{vec}:{a}-{z}. -/')
    w('def listed (v : scheme.Metrics) : List (MetricType × Str) := listRows.filterMap (listRow v)'); w('')
    w(f'end {ns}'); w('')
w('''/-- `MetricType` across versions (cvss/src/cvss.rs:174-187). -/
inductive MetricType where
  | v2 (m : V2.MetricType)
  | v3 (m : V3.MetricType)
  | v4 (m : V4.MetricType)
  deriving DecidableEq

/-- `MetricType::name` (cvss/src/cvss.rs:190-200). -/
def MetricType.name : MetricType → Str
  | .v2 m => m.name
  | .v3 m => m.name
  | .v4 m => m.name

/-- `MetricType::description` (cvss/src/cvss.rs:202-212). -/
def MetricType.description : MetricType → Str
  | .v2 m => m.description
  | .v3 m => m.description
  | .v4 m => m.description

/-- `Cvss::metrics` (cvss/src/cvss.rs:78-93). -/
def Cvss.listed : Cvss → List (MetricType × Str)
  | .v20 v => (V2.listed v).map fun p => (.v2 p.1, p.2)
  | .v30 b => (V3.listed b.metrics).map fun p => (.v3 p.1, p.2)
  | .v31 b => (V3.listed b.metrics).map fun p => (.v3 p.1, p.2)
  | .v40 v => (V4.listed v.metrics).map fun p => (.v4 p.1, p.2)

end Verif.Cvss''')
open(OUT, 'w').write('\n'.join(L) + '\n')
if __name__ == '__main__' and os.environ.get('SHOW'):
    for (v, t), (vs, arms) in sample.items(): print(v, t, arms)
