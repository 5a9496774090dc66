"""Generates lean/Verif/Model/Gauss.lean from /repo/src/integ/gauss.rs."""
import re
from fractions import Fraction as F
from math import factorial as f
src=open('/repo/src/integ/gauss.rs').read().split('\n')
tabs={}
i=0
while i<len(src):
    m=re.match(r'const (IP_\w+): \[\[f64; 4\]; (\d+)\] = \[',src[i])
    if m:
        j=i+1; rows=[]
        while not src[j].startswith('];'):
            r=src[j].strip().split('//')[0].rstrip(',').strip()
            assert r.startswith('[') and r.rstrip().endswith(']'),r
            rows.append([x.strip() for x in r.strip().strip('[]').split(',')])
            j+=1
        assert len(rows)==int(m[2]) and all(len(r)==4 for r in rows)
        tabs[m[1]]=(i+1,j+1,rows)
        i=j
    i+=1
def val(t):
    if '/' in t:
        a,b=t.split('/'); return F(a.strip())/F(b.strip())
    return F(t)
vals={k:[[val(x) for x in r] for r in v[2]] for k,v in tabs.items()}
def cls(k): return k.split('_')[1]
def dim(k): return {'LIN':1,'TRI':2,'QUA':2,'TET':3,'HEX':3}[cls(k)]
def integ(k,a):
    d=dim(k)
    if cls(k) in('LIN','QUA','HEX'):
        r=F(1)
        for e in a[:d]: r*= F(0) if e%2 else F(2,e+1)
        return r
    n=1
    for e in a[:d]: n*=f(e)
    return F(n,f(sum(a[:d])+d))
def quad(k,a):
    s=F(0)
    for r in vals[k]:
        t=r[3]
        for i in range(dim(k)): t*=r[i]**a[i]
        s+=t
    return s
def monos(k,deg):
    d=dim(k)
    import itertools
    for a in itertools.product(range(deg+1),repeat=d):
        if sum(a)<=deg: yield a
def monosT(k,deg):
    import itertools
    yield from itertools.product(range(deg+1),repeat=dim(k))
import sys
names={}
o=[]
o.append('''import Mathlib.Data.Real.Basic
import Verif.Model.Integ
import Verif.Model.GeoKind

/-!
# Model of `src/integ/gauss.rs`: integration-point tables and their selection

GENERATED by `tools/gen_gauss.py` from the tables in `/repo/src/integ/gauss.rs`.

Every entry is the rational number denoted by the source literal, digit by digit (`1.0 / 3.0` is
the exact quotient). Simplification: in Rust the entries are `f64`, that is, the literals rounded
to the nearest double; the optional fields `ksi_hat`, `ksi_hat_inv` (always `None` at construction)
are not part of this model.
-/

namespace Gemlab

/-- One row `[f64; 4]` of a table: the three coordinates and the weight — gauss.rs:53-59. -/
abbrev GaussRow := ℚ × ℚ × ℚ × ℚ

namespace GaussTab
''')
def camel(k):
    a=k.split('_'); return 'ip'+a[1].capitalize()+a[2].capitalize()+a[3]
for k,(a,b,rows) in tabs.items():
    names[k]=camel(k)
    o.append(f'/-- `{k}` — gauss.rs:{a}-{b}. -/\ndef {camel(k)} : List GaussRow := [')
    o.append(',\n'.join('  ('+', '.join(r)+')' for r in rows)+']\n')
o.append('end GaussTab\n')
src=open('/repo/src/integ/gauss.rs').read().split('\n')
o.append('''/-- `struct Gauss` — gauss.rs:48-70: the class and the selected table. -/
structure GaussTable where
  cls : GeoClass
  data : List GaussRow

open GaussTab in
/-- `Gauss::new` — gauss.rs:87-121. -/
def GaussTable.new (kind : GeoKind) : GaussTable :=
  { cls := kind.classOf,
    data := match kind with''')
for l in src[87:114]:
    m=re.match(r'\s*GeoKind::(\w+) => &(IP_\w+),',l)
    if m: o.append(f'      | .{m[1].lower()} => {names[m[2]]}')
o[-1]+=' }\n'
o.append('''open GaussTab in
/-- `Gauss::new_sized` — gauss.rs:189-246. -/
def GaussTable.newSized (cls : GeoClass) (ngauss : Nat) : Res GaussTable := do
  let data ← match cls, ngauss with''')
cur=None
for l in src[188:240]:
    m=re.match(r'\s*GeoClass::(\w+) => match',l)
    if m: cur=m[1]
    m=re.match(r'\s*(\d+) => &(IP_\w+),',l)
    if m: o.append(f'    | .{cur.lower()}, {m[1]} => Res.ok {names[m[2]]}')
    m=re.match(r'\s*_ => return Err\("(.*)"\)',l)
    if m: o.append(f'    | .{cur.lower()}, _ => Res.err "{m[1]}"')
o.append('  Res.ok { cls := cls, data := data }\n')
o.append('''/-- `Gauss::new_or_sized` — gauss.rs:254-259. -/
def GaussTable.newOrSized (kind : GeoKind) (ngauss : Option Nat) : Res GaussTable :=
  match ngauss with
  | some n => GaussTable.newSized kind.classOf n
  | none => Res.ok (GaussTable.new kind)

/-- `Gauss::npoint` — gauss.rs:263-265. -/
def GaussTable.npoint (g : GaussTable) : Nat := g.data.length

/-- Entry `i` of a row (`row[i]`); the rows have length 4. -/
def GaussRow.get (r : GaussRow) (i : Nat) : ℚ :=
  match i with
  | 0 => r.1
  | 1 => r.2.1
  | 2 => r.2.2.1
  | 3 => r.2.2.2
  | _ => 0

/-- The value passed to the integration routines (`Verif.Model.Integ`): point `p` is row `p` of the
table — gauss.rs:283-304. Simplification: rows out of range are zero rather than a panic; the
integration routines only read rows `p < npoint`. -/
noncomputable def GaussTable.toGauss (g : GaussTable) : Gauss :=
  { npoint := g.npoint,
    data := fun p i => ((GaussRow.get (g.data.getD p (0, 0, 0, 0)) i : ℚ) : ℝ) }

end Gemlab
''')
open('/verif/lean/Verif/Model/Gauss.lean','w').write('\n'.join(o))
