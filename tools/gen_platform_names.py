import re
def ch(x): return '['+', '.join("'%s'"%c for c in x)+']'
R='/repo/platforms/src/'
out=["import Verif.Model.Str","","/-!","# Names in the committed platform tables","","Generated by `tools/gen_platform_names.py` from `/repo/platforms/src`; do not edit.","-/","","namespace Verif.PlatGen",""]
s=open(R+'platform/platforms.rs').read()
allb=re.search(r'pub\(crate\) const ALL: &\[Platform\] = &\[\n(.*?)\];',s,re.S).group(1)
names=[l.strip().rstrip(',') for l in allb.strip().split('\n')]
cons=re.findall(r'pub\(crate\) const (\w+): Platform = Platform \{\n    target_triple: "([^"]*)"',s)
def ln(n): return s[:s.index(n)].count('\n')+1
out.append("/-- `platforms.rs:%d-%d`: the entries of `ALL`. -/"%(ln('pub(crate) const ALL'),ln('pub(crate) const ALL')+len(names)+1))
out.append("def committedAll : List Str := [")
out.append(",\n".join('  '+ch(n) for n in names)+"]\n")
out.append("/-- `platforms.rs:%d-%d`: the constants, and the triple of each. -/"%(ln('const AARCH64_APPLE_DARWIN: '),s.count('\n')))
parts=[cons[i:i+50] for i in range(0,len(cons),50)]
out.append("def committedConsts : List (Str × Str) := "+" ++ ".join("consts%d"%i for i in range(len(parts)))+"\n")
k=len(out)-2
defs=[]
for i,q in enumerate(parts):
    defs.append("/-- `platforms.rs`: constants %d to %d, and the triple of each. -/"%(50*i,50*i+len(q)-1))
    defs.append("def consts%d : List (Str × Str) := ["%i)
    defs.append(",\n".join('  (%s, %s)'%(ch(c[0]),ch(c[1])) for c in q)+"]\n")
out[k:k]=defs
for f in ['arch','os','env','endian','pointer_width']:
    t=open(R+'target/%s.rs'%f).read()
    m=re.search(r'pub fn as_str\(self\) -> &\'static str \{\n        match self \{\n(.*?)\n        \}',t,re.S)
    pr=re.findall(r'Self::(\w+) => "([^"]*)"',m.group(1))
    a=t[:m.start()].count('\n')+1
    out.append("/-- `platforms/src/target/%s.rs:%d-%d`: the variants, and the text of each. -/"%(f,a,a+len(pr)+2))
    nm=''.join(x.capitalize() for x in f.split('_'))
    out.append("def committed%s : List (Str × Str) := [%s]\n"%(nm,", ".join('(%s, %s)'%(ch(p[0]),ch(p[1])) for p in pr)))
out.append("end Verif.PlatGen")
import sys
open(sys.argv[1],'w').write("\n".join(out)+"\n")
print(len(names),len(cons))
