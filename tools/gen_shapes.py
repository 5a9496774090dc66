#!/usr/bin/env python3
"""Transcribes the constant tables and the straight-line arithmetic of /repo/src/shapes/*.rs into Lean.
Output: lean/Verif/Model/GeoKind.lean (kinds, tables) and lean/Verif/Model/Shapes.lean (interpolation functions)."""
import re, os, sys
from fractions import Fraction
R='/repo/src/shapes/'
OUT=os.path.join(os.path.dirname(os.path.abspath(__file__)),'../lean/Verif/Model/')
KINDS="Lin2 Lin3 Lin4 Lin5 Tri3 Tri6 Tri10 Tri15 Qua4 Qua8 Qua9 Qua12 Qua16 Qua17 Tet4 Tet10 Tet20 Hex8 Hex20 Hex32".split()
def lo(k): return k[0].lower()+k[1:]
def src(k):
    t=open(R+k.lower()+'.rs').read()
    i=t.find('#[cfg(test)]')
    return t if i<0 else t[:i]
def lineno(t,pos): return t.count('\n',0,pos)+1
def nocomment(s): return re.sub(r'/\*.*?\*/','',re.sub(r'//[^\n]*','',s))
def frac(tok):
    tok=tok.strip()
    tok=tok.replace('ONE_BY_3','1.0/3.0').replace('TWO_BY_3','2.0/3.0')
    m=re.fullmatch(r'(-?)([0-9.]+)(?:\s*/\s*([0-9.]+))?',tok)
    assert m,tok
    f=Fraction(m.group(2))/(Fraction(m.group(3)) if m.group(3) else 1)
    return -f if m.group(1) else f
def fl(f):
    if f.denominator==1: return str(f.numerator)
    return f"{f.numerator}/{f.denominator}"
def const_scalar(t,name):
    m=re.search(r'pub const %s: usize = (\d+);'%name,t)
    return int(m.group(1)) if m else None
def const_table(t,name):
    m=re.search(r'pub const %s: \[(.*?)\] = \['%name,t)
    if not m: return None
    # bracket matching from the last '['
    i=m.end()-1; d=0; j=i
    body=t
    while True:
        ch=body[j]
        if ch=='/' and body[j+1]=='/':
            j=body.index('\n',j); continue
        if ch=='[': d+=1
        if ch==']':
            d-=1
            if d==0: break
        j+=1
    return nocomment(body[i:j+1]), lineno(t,m.start()), lineno(t,j)
def parse_nested(s,conv):
    s=s.strip()
    # recursive
    pos=0
    def rec():
        nonlocal pos
        assert s[pos]=='['; pos+=1
        out=[]; buf=''
        while True:
            ch=s[pos]
            if ch=='[':
                out.append(rec()); buf=''
            elif ch==',':
                if buf.strip(): out.append(conv(buf))
                buf=''; pos+=1
            elif ch==']':
                if buf.strip(): out.append(conv(buf))
                pos+=1
                return out
            else:
                buf+=ch; pos+=1
    return rec()
def lean(x,conv=str):
    if isinstance(x,list): return '['+', '.join(lean(y,conv) for y in x)+']'
    return conv(x)

def fn_body(t,name):
    m=re.search(r'pub fn %s\([^)]*\) \{'%name,t)
    i=m.end(); d=1; j=i
    while d>0:
        if t[j]=='{': d+=1
        if t[j]=='}': d-=1
        j+=1
    return t[i:j-1], lineno(t,m.start()), lineno(t,j)
# expression translation: Rust float expr -> Lean PE expr
TOK=re.compile(r'\s*(\d+\.\d*|\d+|[A-Za-z_][A-Za-z0-9_]*(?:\[\d+\])?|[-+*/()])')
def tr(e):
    out=[];pos=0;e=' '.join(e.split())
    while pos<len(e):
        if e[pos]==' ': pos+=1; continue
        m=TOK.match(e,pos); assert m,(e,pos)
        tk=m.group(1); pos=m.end()
        if re.fullmatch(r'\d+\.\d*',tk):
            f=Fraction(tk)
            out.append(str(f.numerator) if f.denominator==1 else f"(PE.c ({f.numerator}/{f.denominator}))")
        elif re.fullmatch(r'ksi\[(\d)\]',tk): out.append(f"(PE.x {tk[4]})")
        else: out.append(tk)
    s=' '.join(out)
    s=s.replace('( ','(').replace(' )',')')
    return s
def stmts(body): 
    b=nocomment(body)
    return [' '.join(x.split()) for x in b.split(';') if x.strip()]

def gen_geokind():
    en=open(R+'enums.rs').read()
    L=[]
    w=L.append
    w('import Mathlib.Data.Rat.Defs\n')
    w('''/-!
# Model of `/repo/src/shapes/enums.rs` and of the constant tables in `/repo/src/shapes/*.rs`

GENERATED by `tools/gen_shapes.py` from the Rust source (tables are copied entry by entry). Reference coordinates are
exact rationals (`1.0 / 3.0` is 1/3). A function of the Rust code that indexes a table (`edge_node_id(e, i)` = `TABLE[e][i]`,
which panics out of range) is given here as the table itself, `edgeNodeIds`; kinds without the table have an empty one.
-/''')
    w('namespace Gemlab\n')
    w('/-- `GeoClass` — enums.rs:84-99. -/\ninductive GeoClass where\n  | lin | tri | qua | tet | hex\n  deriving DecidableEq, Repr\n')
    w('/-- `GeoKind` — enums.rs:116-176. -/\ninductive GeoKind where\n  | '+' | '.join(lo(k) for k in KINDS)+'\n  deriving DecidableEq, Repr\n')
    w('/-- `GeoKind::VALUES` — enums.rs:1467-1493. -/\ndef GeoKind.values : List GeoKind := ['+', '.join('.'+lo(k) for k in re.findall(r'Self::(\w+),',en[en.index('pub const VALUES'):]))+']\n')
    def match_fn(rust,leanname,ty,conv,doc=None):
        m=re.search(r'pub fn %s\(&self[^)]*\) -> [^{]*\{'%rust,en)
        body,l1,l2=fn_body2(en,m)
        arms=re.findall(r'(?:Self|GeoKind)::(\w+) => (.*?),\n',body)
        assert [a for a,_ in arms]==KINDS,(rust,arms)
        w(f'/-- `GeoKind::{rust}` — enums.rs:{l1}-{l2}. -/\ndef GeoKind.{leanname} : GeoKind → {ty}')
        for k,v in arms: w(f'  | .{lo(k)} => {conv(v)}')
        w('')
    def fn_body2(t,m):
        i=m.end(); d=1; j=i
        while d>0:
            if t[j]=='{': d+=1
            if t[j]=='}': d-=1
            j+=1
        return t[i:j-1], lineno(t,m.start()), lineno(t,j)
    srcs={k:src(k) for k in KINDS}
    # from
    m=re.search(r'pub fn from\(kind: &str\) -> Result<Self, StrError> \{',en)
    body,l1,l2=fn_body2(en,m)
    arms=re.findall(r'"(\w+)" => Ok\(Self::(\w+)\)',body)
    w(f'/-- `GeoKind::from` — enums.rs:{l1}-{l2} (`none` is the error). -/\ndef GeoKind.fromString : String → Option GeoKind')
    for s,k in arms: w(f'  | "{s}" => some .{lo(k)}')
    w('  | _ => none\n')
    match_fn('to_string','toStr','String',lambda v:re.match(r'("\w+")',v).group(1))
    match_fn('class','classOf','GeoClass',lambda v:'.'+v.split('::')[1].lower())
    def sc(v):
        mm=re.fullmatch(r'(\w+)::(\w+)',v)
        if mm:
            r=const_scalar(srcs[mm.group(1)],mm.group(2)); assert r is not None,v
            return str(r)
        return str(int(v))
    for rust,ln in [('ndim','ndim'),('nnode','nnode'),('nedge','nedge'),('nface','nface'),('edge_nnode','edgeNnode'),('face_nnode','faceNnode'),('face_nedge','faceNedge'),('n_interior_nodes','nInteriorNodes'),('triangulate_ntriangle','triangulateNtriangle'),('triangulate_extra_nnode','triangulateExtraNnode')]:
        # class ndim comes first in file: need the GeoKind one
        if rust=='ndim':
            ms=list(re.finditer(r'pub fn ndim\(&self\) -> usize \{',en)); m=ms[1]
            body,l1,l2=fn_body2(en,m)
            arms=re.findall(r'Self::(\w+) => (.*?),\n',body)
            assert [a for a,_ in arms]==KINDS
            w(f'/-- `GeoKind::ndim` — enums.rs:{l1}-{l2}. -/\ndef GeoKind.ndim : GeoKind → Nat')
            for k,v in arms: w(f'  | .{lo(k)} => {sc(v)}')
            w('')
        else: match_fn(rust,ln,'Nat',sc)
    w('/-- `GeoClass::ndim` — enums.rs:103-111. -/\ndef GeoClass.ndim : GeoClass → Nat\n  | .lin => 1 | .tri => 2 | .qua => 2 | .tet => 3 | .hex => 3\n')
    def opt(v):
        if v=='None': return 'none'
        mm=re.fullmatch(r'Some\(GeoKind::(\w+)\)',v)
        return 'some .'+lo(mm.group(1))
    for rust,ln in [('edge_kind','edgeKind'),('face_kind','faceKind'),('lower_order','lowerOrder')]:
        match_fn(rust,ln,'Option GeoKind',opt)
    vt=dict(re.findall(r'const (VTK_\w+): usize = (\d+);',en))
    match_fn('vtk_type','vtkType','Option Nat',lambda v:'none' if v=='None' else 'some '+vt[re.match(r'Some\((\w+)\)',v).group(1)])
    for rust,ln in [('is_lin','isLin'),('is_tri_or_tet','isTriOrTet'),('is_qua_or_hex','isQuaOrHex')]:
        match_fn(rust,ln,'Bool',lambda v:v)
    match_fn('ksi_min_ksi_del','ksiMinKsiDel','ℚ × ℚ',lambda v:'('+', '.join(fl(frac(x)) for x in v.strip('()').split(','))+')')
    def table_fn(rust,ln,ty,conv):
        m=re.search(r'pub fn %s\(&self[^)]*\) -> [^{]*\{'%rust,en)
        body,l1,l2=fn_body2(en,m)
        arms=re.findall(r'(?:Self|GeoKind)::(\w+) => (.*?),\n',body)
        assert [a for a,_ in arms]==KINDS
        refs=[]
        rows=[]
        for k,v in arms:
            mm=re.match(r'&?(\w+)::([A-Z_]+)\[',v)
            if mm:
                t=srcs[mm.group(1)]
                s,a,b=const_table(t,mm.group(2))
                tab=parse_nested(s,conv)
                refs.append(f'{mm.group(1).lower()}.rs:{a}-{b}')
                rows.append((k,lean(tab,fl if conv is frac else str)))
            else: rows.append((k,'[]'))
        w(f'/-- The table behind `GeoKind::{rust}` — enums.rs:{l1}-{l2}; '+', '.join(refs)+f'. -/\ndef GeoKind.{ln} : GeoKind → {ty}')
        for k,v in rows: w(f'  | .{lo(k)} => {v}')
        w('')
    I=lambda x:int(x)
    table_fn('edge_node_id','edgeNodeIds','List (List Nat)',I)
    table_fn('edge_node_id_inward','edgeNodeIdsInward','List (List Nat)',I)
    table_fn('face_node_id','faceNodeIds','List (List Nat)',I)
    table_fn('face_edge_node_id','faceEdgeNodeIds','List (List (List Nat))',I)
    table_fn('interior_node','interiorNodes','List Nat',I)
    table_fn('reference_coords','referenceCoords','List (List ℚ)',frac)
    table_fn('triangulate_triangle_nodes','triangulateTriangles','List (List Nat)',I)
    table_fn('triangulate_extra_coords','triangulateExtraCoords','List (List ℚ)',frac)
    m=re.search(r'pub const HEX_EDGE_TO_FACE: \[\[usize; 2\]; 12\] = ',en)
    s,a,b=const_table(en,'HEX_EDGE_TO_FACE')
    w(f'/-- `HEX_EDGE_TO_FACE` — enums.rs:{a}-{b}. -/\ndef hexEdgeToFace : List (List Nat) := '+lean(parse_nested(s,I))+'\n')
    w('end Gemlab')
    open(OUT+'GeoKind.lean','w').write('\n'.join(L)+'\n')

def gen_shapes():
    L=[];w=L.append
    w('import Verif.Lib.PolyExpr\nimport Verif.Model.GeoKind\n')
    w('''/-!
# Model of the interpolation functions and their coded derivatives, `/repo/src/shapes/{lin,tri,qua,tet,hex}*.rs`

GENERATED by `tools/gen_shapes.py` from the Rust source, statement by statement: each `let` is kept, `interp[m] = e` gives
entry `m` of the list, `deriv.set(m, i, e)` gives entry `[m][i]` of the table (the generator checks that every entry is
assigned exactly once). Expressions are terms of `PE`, evaluated in exact arithmetic (`1.0 / 3.0` is the rational 1/3).
-/''')
    w('namespace Gemlab.Shapes\nset_option linter.unusedVariables false\n')
    for k in KINDS:
        t=src(k)
        nn=const_scalar(t,'NNODE'); nd=const_scalar(t,'GEO_NDIM')
        for fn in ['calc_interp','calc_deriv']:
            body,l1,l2=fn_body(t,fn)
            lets=[];ent={}
            for s in stmts(body):
                m=re.fullmatch(r'let \(([a-z, ]+)\) = \((.*)\)',s)
                if m:
                    for a,b in zip(m.group(1).split(','),m.group(2).split(',')): lets.append((a.strip(),tr(b)))
                    continue
                m=re.fullmatch(r'let (\w+) = (.*)',s)
                if m: 
                    assert not ent
                    lets.append((m.group(1),tr(m.group(2)))); continue
                m=re.fullmatch(r'interp\[(\d+)\] = (.*)',s)
                if m:
                    assert int(m.group(1)) not in ent
                    ent[int(m.group(1))]=tr(m.group(2)); continue
                m=re.fullmatch(r'deriv\.set\( ?(\d+), (\d+), (.*?),? ?\)',s)
                assert m,(k,s)
                key=(int(m.group(1)),int(m.group(2))); assert key not in ent
                ent[key]=tr(m.group(3))
            nm=lo(k)+('Interp' if fn=='calc_interp' else 'Deriv')
            ty='List PE' if fn=='calc_interp' else 'List (List PE)'
            w(f'/-- `{k}::{fn}` — {k.lower()}.rs:{l1}-{l2}. -/\ndef {nm} : {ty} :=')
            for a,b in lets: w(f'  let {a} : PE := {b}')
            if fn=='calc_interp':
                assert sorted(ent)==list(range(nn)),(k,sorted(ent))
                w('  [ '+',\n    '.join(ent[i] for i in range(nn))+' ]\n')
            else:
                assert sorted(ent)==[(i,j) for i in range(nn) for j in range(nd)],(k,sorted(ent))
                w('  [ '+',\n    '.join('['+', '.join(ent[(i,j)] for j in range(nd))+']' for i in range(nn))+' ]\n')
    en=open(R+'enums.rs').read()
    m=re.search(r'pub fn functions\(&self\) -> \(FnInterp, FnDeriv\) \{(.*?)\n    \}\n',en,re.S)
    arms=re.findall(r'Self::(\w+) => \((\w+)::(\w+), (\w+)::(\w+)\)',m.group(1))
    assert [a[0] for a in arms]==KINDS and all(a[2]=='calc_interp' and a[4]=='calc_deriv' for a in arms)
    w('/-- First component of `GeoKind::functions` — enums.rs:1124-1152. -/\ndef interp : GeoKind → List PE')
    for a in arms: w(f'  | .{lo(a[0])} => {lo(a[1])}Interp')
    w('\n/-- Second component of `GeoKind::functions` — enums.rs:1124-1152. -/\ndef deriv : GeoKind → List (List PE)')
    for a in arms: w(f'  | .{lo(a[0])} => {lo(a[3])}Deriv')
    w('\nend Gemlab.Shapes')
    open(OUT+'Shapes.lean','w').write('\n'.join(L)+'\n')
gen_geokind(); gen_shapes()
