#!/usr/bin/env python3
"""Transcribes the straight-line arithmetic of /repo/src/integ/analytical_*.rs into Lean (lean/Verif/Model/Analytical.lean).
Every `let` is kept; `Matrix::from`, `Vector::from` and `vec!` literals become lists."""
import re, os
R='/repo/src/integ/'
OUT=os.path.join(os.path.dirname(os.path.abspath(__file__)),'../lean/Verif/Model/Analytical.lean')
def src(n):
    t=open(R+n).read()
    i=t.find('#[cfg(test)]')
    return t[:i] if i>=0 else t
def lineno(t,p): return t.count('\n',0,p)+1
def blank(t): return re.sub(r'//[^\n]*',lambda m:' '*len(m.group(0)),t)
def fnbody(t,name,nth=0):
    ms=[m for m in re.finditer(r'pub fn %s\((.*?)\)\s*->\s*([^{]*?)\s*\{'%name,t,re.S)]
    m=ms[nth]; i=m.end(); d=1; j=i
    while d:
        if t[j]=='{': d+=1
        if t[j]=='}': d-=1
        j+=1
    return m.group(1),t[i:j-1],lineno(t,m.start()),lineno(t,j)
def expr(e):
    e=' '.join(e.split())
    e=re.sub(r'f64::sqrt\(',r'Real.sqrt (',e)
    e=re.sub(r'pad\.xxt\.get\((\d), ?(\d)\)',r'(pad.xxt \1 \2)',e)
    e=re.sub(r'self\.bb\.get\((\d), ?(\d)\)',r'(self.bb.at \1 \2)',e)
    e=re.sub(r'\bg\.get\((\d), ?(\d)\)',r'(g.at \1 \2)',e)
    e=re.sub(r'\bmat\.get\((\d), ?(\d)\)',r'(mat \1 \2)',e)
    e=re.sub(r'\btt\.get\((\d), ?(\d)\)',r'(asMatrix tt \1 \2)',e)
    e=re.sub(r'\b(tt|sig)\.as_matrix\(\)',r'asMatrix \1',e)
    e=re.sub(r'\btt\.vector\(\)\[(\d)\]',r'(tt \1)',e)
    e=e.replace('SQRT_2','sqrt2').replace('&self','self')
    e=re.sub(r'(\d+)\.0\b',r'\1',e); e=re.sub(r'(\d+)\.(?!\d)',r'\1',e)
    e=re.sub(r'^Matrix::from\(\[?&?',r'',e) if False else e
    e=re.sub(r'(?:Matrix|Vector)::from\(&(\[.*\])\)$',r'\1',e)
    e=re.sub(r'^vec!',r'',e)
    e=re.sub(r',\s*\]',' ]',e)
    return e
def split_top(s):
    out=[];d=0;b=''
    for ch in s:
        if ch in '([{': d+=1
        if ch in ')]}': d-=1
        if ch==',' and d==0: out.append(b); b=''
        else: b+=ch
    if b.strip(): out.append(b)
    return [x.strip() for x in out]
def stmts(body,ind):
    """let-statements and the final expression of a block without control flow"""
    body=re.sub(r'#\[[^\]]*\]','',body)
    parts=[];d=0;b=''
    for ch in body:
        if ch in '([{': d+=1
        if ch in ')]}': d-=1
        if ch==';' and d==0: parts.append(b); b=''
        else: b+=ch
    last=b.strip(); out=[]
    for p in parts:
        p=p.strip()
        m=re.match(r'let (?:mut )?(\(.*?\)|\w+)\s*=\s*(.*)$',p,re.S)
        assert m,p
        lhs,rhs=m.group(1),m.group(2).strip()
        if lhs[0]=='(':
            ls=split_top(lhs[1:-1]); rs=split_top(rhs[1:-1]); assert len(ls)==len(rs)
            for l,r in zip(ls,rs): out.append(f"{ind}let {l} : ℝ := {expr(r)}")
        else:
            e=expr(rhs); ty='List (List ℝ)' if e.startswith('[ [') or e.startswith('[[') else 'List ℝ' if e.startswith('[') else None
            if ty is None and not (e.startswith('asMatrix') or e=='self.bb'): ty='ℝ'
            out.append(f"{ind}let {lhs}"+(f" : {ty}" if ty else '')+f" := {e}")
    return out,last
def table(e,ind):
    e=expr(e)
    if e.startswith('[ [') or e.startswith('[['):
        rows=split_top(e[1:-1].strip())
        return '['+(',\n'+ind+' ').join(r.strip() for r in rows)+']'
    if len(e)>100: return '['+(',\n'+ind+' ').join(split_top(e[1:-1].strip()))+']'
    return e
def args(a):
    out=[]
    for x in split_top(a):
        if x in('&self','&mut self'): continue
        n,t=[y.strip() for y in x.split(':')]
        t={'f64':'ℝ','usize':'Nat','bool':'Bool','&Scratchpad':'Scratchpad','&Tensor2':'Nat → ℝ'}[t]
        out.append(f"({n} : {t})")
    return ' '.join(out)
def camel(n):
    p=n.split('_'); return p[0]+''.join(x[0].upper()+x[1:] if x[0].isalpha() else x for x in p[1:])
def simple(struct,file,t,name,ret,doc=''):
    a,b,l0,l1=fnbody(t,name)
    ls,last=stmts(b,'  ')
    ty={'v':'List ℝ','m':'List (List ℝ)'}[ret]
    o=f"/-- `{struct}::{name}`{doc} — {file}:{l0}-{l1}. -/\ndef {camel(name)} (self : {struct}) {args(a)} : {ty} :=\n"
    return o+''.join(x+'\n' for x in ls)+'  '+table(last,'  ')+'\n'
def axi(struct,file,t,name,ret):
    """`lets; if axisymmetric { block } else { block }`"""
    a,b,l0,l1=fnbody(t,name)
    i=b.index('if axisymmetric'); j=b.index('{',i); d=1;k=j+1
    while d:
        if b[k]=='{': d+=1
        if b[k]=='}': d-=1
        k+=1
    th=b[j+1:k-1]; m=b.index('{',k); el=b[m+1:b.rindex('}')]
    pre,_=stmts(b[:i],'  ')
    ty={'v':'List ℝ','m':'List (List ℝ)'}[ret]
    o=f"/-- `{struct}::{name}` — {file}:{l0}-{l1}. -/\ndef {camel(name)} (self : {struct}) {args(a)} : {ty} :=\n"+''.join(x+'\n' for x in pre)
    for kw,bl in (('if axisymmetric then',th),('else',el)):
        ls,last=stmts(bl,'    ')
        o+='  '+kw+'\n'+''.join(x+'\n' for x in ls)+'    '+table(last,'    ')+'\n'
    return o
def bry(struct,file,t,name,ret):
    a,b,l0,l1=fnbody(t,name)
    sides=re.findall(r'(\d) => \(self\.(x\d), self\.(x\d)\)',b)
    i=b.index('};')+2; j=b.index('} else {'); th=b[i:j]; el=b[j+8:b.rindex('}')]
    th=th.replace('self.ll[side]','l'); el=el.replace('self.ll[side]','l')
    ty={'v':'List ℝ','m':'List (List ℝ)'}[ret]
    o=f"/-- The `match side` of `{struct}::{name}` — {file}:{l0+2}-{l0+7}. -/\ndef {camel(name)}Side (self : {struct}) (side : Nat) : Res (ℝ × ℝ) :=\n  match side with\n"
    for s,p,q in sides: o+=f"  | {s} => .ok (self.{p}, self.{q})\n"
    o+='  | _ => .panic\n\n'
    o+=f"/-- `{struct}::{name}` (an invalid side is a panic, by `panic!` or by `self.ll[side]`) — {file}:{l0}-{l1}. -/\ndef {camel(name)} (self : {struct}) {args(a)} : Res ({ty}) :=\n"
    o+=f'  if axisymmetric then do\n    let (a0, a1) ← self.{camel(name)}Side side\n    let l ← Res.idx self.ll side\n'
    ls,last=stmts(th,'    '); o+=''.join(x+'\n' for x in ls)+'    return '+table(last,'      ')+'\n'
    ls,last=stmts(el,'    '); o+='  else do\n    let l ← Res.idx self.ll side\n'+''.join(x+'\n' for x in ls)+'    return '+table(last,'      ')+'\n'
    return o
H='''import Verif.Model.Integ

/-!
# Model of the analytical integrals, `/repo/src/integ/analytical_{tri3,tet4,qua4,qua8}.rs`

GENERATED by `tools/gen_analytical.py` from the Rust source, statement by statement. A `Vector` or `Vec<f64>` is the list of its
entries, a `Matrix` the list of its rows, a symmetric `Tensor2` its Mandel vector (4 components in 2D, 6 in 3D); arithmetic is exact
(division by a zero area gives 0 here and infinities in the code: the theorems assume that the area is not zero).
The elastic modulus (`russell_tensor::LinElasticity`) is not modelled: its Mandel matrix is an argument of `mat10Bdb`.
-/
namespace Gemlab.Analytical
set_option linter.unusedVariables false
open Gemlab.Integ
noncomputable section

/-- Entry of a `Matrix` given by its rows. -/
def _root_.List.at (t : List (List ℝ)) (i j : Nat) : ℝ := (t.getD i []).getD j 0

/-- `Tensor2::as_matrix` (and `Tensor2::get`) of a symmetric tensor given by its Mandel vector (`russell_tensor`). -/
def asMatrix (tt : Nat → ℝ) (i j : Nat) : ℝ :=
  match i, j with
  | 0, 0 => tt 0
  | 1, 1 => tt 1
  | 2, 2 => tt 2
  | 0, 1 => tt 3 / sqrt2
  | 1, 0 => tt 3 / sqrt2
  | 1, 2 => tt 4 / sqrt2
  | 2, 1 => tt 4 / sqrt2
  | 0, 2 => tt 5 / sqrt2
  | 2, 0 => tt 5 / sqrt2
  | _, _ => 0

/-- `mat_t_mat_mul(c, 1.0, a, b, 0.0)` with `a` of `n` rows and `r` columns and `b` of `n` rows and `s` columns (`russell_lab`). -/
def matTMatMul (n r s : Nat) (a : List (List ℝ)) (b : Nat → Nat → ℝ) : List (List ℝ) :=
  (List.range r).map fun i => (List.range s).map fun j => ∑ k ∈ Finset.range n, a.at k i * b k j

/-- `mat_mat_mul(c, alpha, a, b, 0.0)` with `a` of `r` rows and `n` columns and `b` of `n` rows and `s` columns (`russell_lab`). -/
def matMatMul (n r s : Nat) (alpha : ℝ) (a b : List (List ℝ)) : List (List ℝ) :=
  (List.range r).map fun i => (List.range s).map fun j => alpha * ∑ k ∈ Finset.range n, a.at i k * b.at k j
'''
o=H
def new(struct,file,t,fields,result,kind):
    a,b,l0,l1=fnbody(t,'new')
    m=re.search(r'assert_eq!\(pad\.kind, GeoKind::(\w+)\);',b)
    kd=m.group(1); b=b.replace(m.group(0),'')
    k=b.rindex(struct); ls,_=stmts(b[:k],'  ')
    lit=b[k:]; lit=lit[lit.index('{')+1:lit.rindex('}')]
    fs=[]
    for x in split_top(lit):
        if ':' in x:
            n,e=x.split(':'); fs.append(f"{n.strip()} := {expr(e)}")
        else: fs.append(f"{x} := {x}")
    o=f"/-- `{struct}::new`, for a pad of the right kind — {file}:{l0}-{l1}. -/\ndef {struct}.compute (pad : Scratchpad) : {struct} :=\n"
    o+=''.join((x if '[' not in x else x.replace(':= [ [',':=\n    [[').replace('], [','],\n     ['))+'\n' for x in ls)
    o+='  { '+', '.join(fs)+' }\n\n'
    o+=f"/-- `{struct}::new` (another kind is a panic) — {file}:{l0}-{l1}. -/\ndef {struct}.new (pad : Scratchpad) : Res {struct} :=\n  if pad.kind = .{kd[0].lower()+kd[1:]} then .ok ({struct}.compute pad) else .panic\n"
    return o
T=[]
f='analytical_tri3.rs'; t=blank(src(f)); S='AnalyticalTri3'
T.append(f"/-- `AnalyticalTri3` — {f}:8-35. -/\nstructure AnalyticalTri3 where\n  area : ℝ\n  bb : List (List ℝ)\n  bbe : List (List ℝ)\n  ll : List ℝ\n  x0 : ℝ\n  x1 : ℝ\n  x2 : ℝ\n")
T.append(new(S,f,t,None,None,None))
T.append("namespace AnalyticalTri3\n")
T.append(axi(S,f,t,'vec_01_ns','v')); T.append(bry(S,f,t,'vec_01_ns_bry','v'))
T.append(simple(S,f,t,'vec_02_nv','v')); T.append(simple(S,f,t,'vec_03_bv','v')); T.append(simple(S,f,t,'vec_03_bv_bilinear','v'))
T.append(axi(S,f,t,'vec_04_bt','v')); T.append(simple(S,f,t,'mat_01_nsn','m')); T.append(bry(S,f,t,'mat_01_nsn_bry','m'))
T.append(simple(S,f,t,'mat_02_bvn','m')); T.append(simple(S,f,t,'mat_02_bvn_bilinear','m'))
a,b,l0,l1=fnbody(t,'mat_03_btb')
b=re.sub(r'let c = if axisymmetric \{\s*(.*?)\s*\} else \{\s*(.*?)\s*\};',lambda m:'let c = if axisymmetric then (%s) else (%s);'%(m.group(1),m.group(2)),b,flags=re.S)
ls,last=stmts(b,'  ')
T.append(f"/-- `{S}::mat_03_btb` — {f}:{l0}-{l1}. -/\ndef mat03Btb (self : {S}) {args(a)} : List (List ℝ) :=\n"+''.join(x+'\n' for x in ls)+'  '+table(last,'  ')+'\n')
T.append(simple(S,f,t,'mat_08_ntn','m')); T.append(simple(S,f,t,'mat_09_nvb','m'))
_,_,l0,l1=fnbody(t,'mat_10_bdb')
T.append(f"/-- `{S}::mat_10_bdb`, `dd` being the modulus computed from `young`, `poisson` and `plane_stress` — {f}:{l0}-{l1}. -/\ndef mat10Bdb (self : {S}) (dd : Nat → Nat → ℝ) (th : ℝ) : List (List ℝ) :=\n  let bb_t_dd := matTMatMul 4 6 4 self.bbe dd\n  matMatMul 4 6 6 (th * self.area) bb_t_dd self.bbe\n")
T.append("end AnalyticalTri3\n")
f='analytical_tet4.rs'; t=blank(src(f)); S='AnalyticalTet4'
T.append(f"/-- `AnalyticalTet4` — {f}:8-27. -/\nstructure AnalyticalTet4 where\n  volume : ℝ\n  bb : List (List ℝ)\n  bbe : List (List ℝ)\n")
T.append(new(S,f,t,None,None,None))
T.append("namespace AnalyticalTet4\n")
for n in 'vec_01_ns vec_01_ns_linear_along_z vec_02_nv vec_03_bv vec_04_bt'.split(): T.append(simple(S,f,t,n,'v'))
for n in 'mat_01_nsn mat_02_bvn mat_03_btb mat_04_nsb mat_05_btn mat_06_nvn mat_07_bsn mat_08_ntn mat_09_nvb'.split(): T.append(simple(S,f,t,n,'m'))
_,_,l0,l1=fnbody(t,'mat_10_bdb')
T.append(f"/-- `{S}::mat_10_bdb`, `dd` being the modulus computed from `young` and `poisson` — {f}:{l0}-{l1}. -/\ndef mat10Bdb (self : {S}) (dd : Nat → Nat → ℝ) : List (List ℝ) :=\n  let bb_t_dd := matTMatMul 6 12 6 self.bbe dd\n  matMatMul 6 12 12 self.volume bb_t_dd self.bbe\n")
T.append("end AnalyticalTet4\n")
for f,S,ns in (('analytical_qua4.rs','AnalyticalQua4','mat_01_nsn mat_03_btb'),('analytical_qua8.rs','AnalyticalQua8','mat_01_nsn mat_03_btb mat_04_nsb mat_05_btn mat_06_nvn mat_07_bsn')):
    t=blank(src(f)); l0=lineno(t,t.index('pub struct')); _,_,n0,n1=fnbody(t,'new')
    T.append(f"/-- `{S}` and `{S}::new` (half side lengths) — {f}:{l0}-{l0+3}, {n0}-{n1}. -/\nstructure {S} where\n  a : ℝ\n  b : ℝ\n")
    T.append(f"namespace {S}\n")
    for n in ns.split(): T.append(simple(S,f,t,n,'m'))
    T.append(f"end {S}\n")
o+='\n'+'\n'.join(T)+'\nend\nend Gemlab.Analytical\n'
open(OUT,'w').write(o)
