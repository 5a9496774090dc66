"""Generates lean/Verif/Model/RecoveryTables.lean from /repo/src/recovery/get_extrap_matrix.rs."""
import re
src=open('/repo/src/recovery/get_extrap_matrix.rs').read().split('\n')
o=['''import Verif.Model.Gauss

/-!
# Tables of `src/recovery/get_extrap_matrix.rs`: transposed pseudo-inverses of the coordinates of the integration points

GENERATED by `tools/gen_recovery.py`. Every entry is the rational number denoted by the source literal, digit by digit.
(Simplification: in Rust the literals are rounded to the nearest `f64`.)
-/

namespace Gemlab
namespace RecoveryTab

''']
i=0
def camel(k):
    a=k.split('_')[3:]
    return 'tr'+a[0].capitalize()+a[1].capitalize()+a[2]
names={}
def num(s):
    s=s.strip().lower()
    m=re.fullmatch(r'(-?\d+\.\d+)e([+-])0*(\d+)',s)
    a,sg,e=m[1],m[2],m[3]
    e=int(e)
    if e==0: return a
    return f"{a}e{'-' if sg=='-' else ''}{e}"
while i<len(src):
    m=re.match(r'const (TR_PINV_HXI_\w+): \[\[f64; 4\]; (\d+)\] = \[',src[i])
    if m:
        j=i+1; rows=[]
        while not src[j].startswith('];'):
            r=src[j].strip().rstrip(',').strip()
            rows.append([num(x) for x in r.strip('[]').split(',')])
            j+=1
        assert len(rows)==int(m[2]) and all(len(r)==4 for r in rows)
        names[m[1]]=camel(m[1])
        o.append(f"/-- `{m[1]}` — get_extrap_matrix.rs:{i+1}-{j+1}. -/\ndef {camel(m[1])} : List GaussRow := [\n"+',\n'.join('  ('+', '.join(r)+')' for r in rows)+']\n\n')
        i=j
    i+=1
o.append('end RecoveryTab\n\nopen RecoveryTab in\n/-- `get_tr_pinv_hxi` — get_extrap_matrix.rs:221-272 (`unreachable!` is a panic). -/\ndef getTrPinvHxi (cls : GeoClass) (ngauss : Nat) : Res (List GaussRow) :=\n  match cls, ngauss with\n')
cls=None
for l in src[220:272]:
    m=re.search(r'GeoClass::(\w+) =>',l)
    if m: cls=m[1].lower()
    m=re.search(r'(\d+) => &(\w+),',l)
    if m: o.append(f'  | .{cls}, {m[1]} => .ok {names[m[2]]}\n')
o.append('  | _, _ => .panic\n\nend Gemlab\n')
open('/verif/lean/Verif/Model/RecoveryTables.lean','w').write(''.join(o))
