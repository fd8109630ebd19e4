#!/usr/bin/env python3
"""Translate the formulas of /repo/include/hpp/bezier-com-traj/waypoints/*.hh to Lean.
The translation is purely textual: one Lean definition per C++ function, one field per
C++ assignment; vectors are written componentwise (index k), 3x3 blocks entrywise (i j)."""
import re, os
REPO='/repo/include/hpp/bezier-com-traj/waypoints/'
OUT='/verif/lean/Verif/Waypoints/'
os.makedirs(OUT,exist_ok=True)
REL='include/hpp/bezier-com-traj/waypoints/'

def func(src,name):
    """return (body statements, first line, last line)"""
    m=re.search(r'^[^\n/]*\b'+name+r'\(',src,re.M)
    if not m: return None
    start=m.start()
    # body begins at first '{' after the parameter list's ')'
    i=src.index('(',m.start()); d=0
    while True:
        if src[i]=='(':d+=1
        if src[i]==')':
            d-=1
            if d==0: break
        i+=1
    b=src.index('{',i); d=0; j=b
    while True:
        if src[j]=='{':d+=1
        if src[j]=='}':
            d-=1
            if d==0: break
        j+=1
    body=src[b+1:j]
    l0=src[:start].count('\n')+1; l1=src[:j].count('\n')+1
    body=re.sub(r'//[^\n]*','',body)
    st=[re.sub(r'\s+',' ',s).strip() for s in body.split(';')]
    return [s for s in st if s],l0,l1

def num(e):
    e=re.sub(r'(?<![\w.])(\d+)\.0*(?!\d)',r'\1',e)
    return e
def common(e):
    e=num(e)
    e=re.sub(r'pow\((\w+), (\d+)\)',r'\1 ^ \2',e)
    e=re.sub(r'(^|\()\s*\+',r'\1',e)
    return e
def scal(e): return common(e)
def vec(e):
    e=common(e)
    # matrix-vector products
    e=re.sub(r'Cg \* T2 \* pi\[(\d+)\]',r'T2 * (skew g *ᵥ pi \1) k',e)
    e=re.sub(r'Cg \* pi\[(\d+)\]',r'(skew g *ᵥ pi \1) k',e)
    e=re.sub(r'Cpi\[(\d+)\] \* pi\[(\d+)\]',r'(skew (pi \1) *ᵥ pi \2) k',e)
    assert 'Cpi' not in e and 'Cg' not in e, e
    e=re.sub(r'(?<!ᵥ )pi\[(\d+)\]',r'pi \1 k',e)
    e=re.sub(r'pData\.(\w+)_\b',r'd.\1 k',e)
    e=e.replace('point_t::Zero()','0').replace('point3_t::Zero()','0')
    assert '[' not in e and '::' not in e, e
    return e
def mat(e):
    e=common(e)
    e=re.sub(r'Cpi\[(\d+)\]',r'skew (pi \1) i j',e)
    e=re.sub(r'\bCg\b','skew g i j',e)
    e=e.replace('Matrix3::Identity()','(1 : M3) i j')
    e=re.sub(r'\bId\b','(1 : M3) i j',e)
    assert '[' not in e and '::' not in e, e
    return e
def blk(e):
    """scalar multiplying Identity"""
    e=common(e)
    e=re.sub(r'^Matrix3::Identity\(\) \* ','',e)
    e=re.sub(r' \* Matrix3::Identity\(\)$','',e)
    e=re.sub(r'^Matrix3::Identity\(\) \* ','',e)
    assert '::' not in e,e
    return e
def wrap(e,ind=4,width=96):
    out=[];line=' '*ind
    for w in e.split(' '):
        if len(line)+len(w)+1>width:
            out.append(line.rstrip()); line=' '*(ind+2)
        line+=w+' '
    out.append(line.rstrip())
    return '\n'.join(out)
def lets(st):
    o=[]
    for s in st:
        m=re.match(r'(?:const )?(?:double|int) (\w+) = (.*)$',s)
        if m and m.group(1) not in('DIM_POINT','DIM_VAR','norm'):
            o.append(f'  let {m.group(1)} : ℝ := {scal(m.group(2))}')
    return '\n'.join(o)
def doc(fn,l0,l1,extra=''):
    return f'/-- `{fn}`, {REL}{FILE}:{l0}-{l1}. {extra}-/\n'

def evalfun(src,fn,hasT):
    st,l0,l1=func(src,fn)
    f=[s for s in st if s.startswith('wp.first =')][0].split('=',1)[1].strip()
    s2=[s for s in st if s.startswith('wp.second =')][0].split('=',1)[1].strip()
    args='(pi : ℕ → V3) '+('(T t : ℝ)' if hasT else '(t : ℝ)')
    return (doc(fn,l0,l1,'Exact arithmetic, componentwise. ')+f'noncomputable def {fn} {args} : Coefs :=\n{lets(st)}\n'
      f'  {{ first :=\n{wrap(scal(f),6)}\n    second := fun k =>\n{wrap(vec(s2),6)} }}\n\n')

def evalblk(src,fn,hasT,K):
    st,l0,l1=func(src,fn)
    bl={}
    for s in st:
        m=re.match(r'wp\.first\.block<3, 3>\(0, (\d+)\) = (.*)$',s)
        if m: bl[int(m.group(1))//3]=blk(m.group(2))
    s2=[s for s in st if s.startswith('wp.second =')][0].split('=',1)[1].strip()
    args='(pi : ℕ → V3) '+('(T t : ℝ)' if hasT else '(t : ℝ)')
    def fix(e):
        return e if e else '1'
    fs=',\n'.join(wrap(fix(bl.get(i,'0')),8) for i in range(K))
    return (doc(fn,l0,l1,'The 3x3 block of free point `j` is `first j` times the identity. ')+f'noncomputable def {fn} {args} : WpB {K} :=\n{lets(st)}\n'
      f'  {{ first := ![\n{fs}]\n    second := fun k =>\n{wrap(vec(s2),6)} }}\n\n')

def constwp(src):
    st,l0,l1=func(src,'computeConstantWaypoints')
    pts=[]
    guard=False
    for s in st:
        m=re.search(r'pi\.push_back\((.*)\)$',s)
        if m: pts.append(vec(m.group(1)))
        if 'throw' in s: guard=True
    L=',\n'.join('    (fun k => '+wrap(p,0).strip()+')' for p in pts)
    nm='computeConstantWaypoints'
    extra=''
    if guard: extra='The exception raised when `dc1_.norm() != 0` is modelled in `Dispatch`. '
    return doc(nm,l0,l1,extra)+f'noncomputable def {nm} (d : BC) (T : ℝ) : List V3 :=\n{lets(st)}\n  [\n{L}]\n\n',len(pts)

def wways(src):
    st,l0,l1=func(src,'computeWwaypoints')
    ws={}; order=[]
    for s in st:
        m=re.match(r'wps\.push_back\((w\d+)\)',s)
        if m: order.append(m.group(1)); continue
        m=re.match(r'(w\d+)\.(first\.block<3, 3>\((\d), 0\)|second\.(head|tail)<3>\(\)) = (.*)$',s)
        if m:
            w=ws.setdefault(m.group(1),{})
            if m.group(3)=='0': w['top']=mat(m.group(5))
            elif m.group(3)=='3': w['bot']=mat(m.group(5))
            else: w[m.group(4)]=vec(m.group(5))
    o=doc('computeWwaypoints',l0,l1,'The 6x3 matrix is split in two 3x3 blocks, the 6-vector in head and tail. `g` is `contacts_.front().contactPhase_->m_gravity`; scalar factors are commuted past matrix-vector products. ')
    o+='noncomputable def computeWwaypoints (pi : ℕ → V3) (g : V3) (T : ℝ) : List Wp6 :=\n'
    o+=lets(st)+'\n  [\n'
    items=[]
    for n in order:
        w=ws.get(n,{})
        def mm(k): return ('fun i j =>\n'+wrap(w[k],8)) if k in w else '0'
        def vv(k): return ('fun k =>\n'+wrap(w[k],8)) if k in w else '0'
        items.append(f'    {{ top := {mm("top")}\n      bot := {mm("bot")}\n      head := {vv("head")}\n      tail := {vv("tail")} }}')
    o+=',\n'.join(items)+']\n\n'
    return o

def finvel(src):
    st,l0,l1=func(src,'computeFinalVelocityPoint')
    f=[s for s in st if s.startswith('v.first')][0].split('=',1)[1].strip()
    s2=[s for s in st if s.startswith('v.second')][0].split('=',1)[1].strip()
    return doc('computeFinalVelocityPoint',l0,l1,'`pi` is the list returned by `computeConstantWaypoints`. ')+f'noncomputable def computeFinalVelocityPoint (d : BC) (pi : ℕ → V3) (T : ℝ) : Coefs :=\n  {{ first := {scal(f)}\n    second := fun k => {vec(s2)} }}\n\n'

def wlist(src,fn,K):
    st,l0,l1=func(src,fn)
    cur={}; items=[]
    for s in st:
        if s.startswith('w = initwp') or s.startswith('waypoint_t w = initwp'): cur={}
        m=re.match(r'w\.first = (.*)$',s)
        if m: cur[0]=blk(m.group(1))
        m=re.match(r'w\.first\.block<3, 3>\(0, (\d+)\) = (.*)$',s)
        if m: cur[int(m.group(1))//3]=blk(m.group(2))
        m=re.match(r'w\.second = (.*)$',s)
        if m: cur['s']=vec(m.group(1))
        if s=='wps.push_back(w)':
            fs=', '.join(cur.get(i,'0') for i in range(K))
            sec='fun k => '+cur['s'] if 's' in cur else '0'
            items.append(f'    {{ first := ![{fs}], second := {sec} }}')
    return doc(fn,l0,l1)+f'noncomputable def {fn} (pi : ℕ → V3) (T : ℝ) : List (WpB {K}) :=\n{lets(st)}\n  [\n'+',\n'.join(items)+']\n\n'

def velcost(src,K):
    st,l0,l1=func(src,'computeVelocityCost')
    g={};H={}
    for s in st:
        m=re.match(r'g = (.*)$',s)
        if m: g[0]=vec(m.group(1))
        m=re.match(r'g\.segment<3>\((\d+)\) = (.*)$',s)
        if m: g[int(m.group(1))//3]=vec(m.group(2))
        m=re.match(r'H = (.*)$',s)
        if m: H[(0,0)]=blk(m.group(1))
        m=re.match(r'H\.block<3, 3>\((\d+), (\d+)\) = (.*)$',s)
        if m: H[(int(m.group(1))//3,int(m.group(2))//3)]=blk(m.group(3))
    o=doc('computeVelocityCost',l0,l1,'Matrix `H` before the division by its norm: block `(a,b)` is this scalar times the identity. ')
    o+=f'noncomputable def velocityCostH (T : ℝ) : Matrix (Fin {K}) (Fin {K}) ℝ :=\n  ![\n'
    o+=',\n'.join('    ![ '+', '.join(H.get((a,b),'0') for b in range(K))+']' for a in range(K))+']\n\n'
    o+=doc('computeVelocityCost',l0,l1,'Vector `g` before the division by the norm of `H`. ')
    o+=f'noncomputable def velocityCostG (pi : ℕ → V3) (T : ℝ) : Fin {K} → V3 :=\n  ![\n'
    o+=',\n'.join('    (fun k =>\n'+wrap(g[a],6)+')' for a in range(K))+']\n\n'
    return o

def head(mod):
    return f'''import Verif.Model.Basic

/-!
Formulas of {REL}{FILE}, transcribed by `tools/gen_waypoints.py`.
-/

set_option linter.unusedVariables false

namespace Verif.{mod}
open Matrix

'''
sets=['c0_dc0_c1','c0_dc0_dc1','c0_dc0_ddc0','c0_dc0_dc1_c1','c0_dc0_ddc0_c1','c0_dc0_ddc0_dc1_c1','c0_dc0_ddc0_ddc1_dc1_c1']
for s in sets:
    FILE=f'waypoints_{s}.hh'; src=open(REPO+FILE).read()
    o=head(s)
    o+=evalfun(src,'evaluateCurveAtTime',False)+evalfun(src,'evaluateAccelerationCurveAtTime',True)
    c,n=constwp(src); o+=c
    if s!='c0_dc0_dc1': o+=wways(src)
    else:
        _,l0,l1=func(src,'computeWwaypoints')
        o+=doc('computeWwaypoints',l0,l1,'Same splitting as in the other sets; this one is transcribed by hand (`skew` of sums, `.cross`). ')+open('/verif/tools/c0_dc0_dc1_W.txt').read()+'\n'
    o+=finvel(src)
    o+=f'end Verif.{s}\n'
    open(OUT+s+'.lean','w').write(o)
for s,K in [('c0_dc0_ddc0_j0_j1_ddc1_dc1_c1',1),('c0_dc0_ddc0_j0_x3_j1_ddc1_dc1_c1',3),('c0_dc0_ddc0_j0_x5_j1_ddc1_dc1_c1',5)]:
    FILE=f'waypoints_{s}.hh'; src=open(REPO+FILE).read()
    o=head(s)
    if K==1:
        o+=evalfun(src,'evaluateCurveAtTime',False)
        for f in ['evaluateVelocityCurveAtTime','evaluateAccelerationCurveAtTime','evaluateJerkCurveAtTime']: o+=evalfun(src,f,True)
        for f,a in [('CurveWaypointAtTime',0),('VelocityCurveWaypointAtTime',1),('AccelerationCurveWaypointAtTime',1),('JerkCurveWaypointAtTime',1)]:
            fn='evaluate'+f; _,l0,l1=func(src,fn); base=fn.replace('Waypoint','')
            ar,ap=('(T t : ℝ)','T t') if a else ('(t : ℝ)','t')
            o+=doc(fn,l0,l1)+f'noncomputable def {fn} (pi : ℕ → V3) {ar} : WpB 1 :=\n  {{ first := ![({base} pi {ap}).first], second := ({base} pi {ap}).second }}\n\n'
    else:
        for f,a in [('CurveWaypointAtTime',0),('VelocityCurveWaypointAtTime',1),('AccelerationCurveWaypointAtTime',1),('JerkCurveWaypointAtTime',1)]:
            o+=evalblk(src,'evaluate'+f,a,K)
    c,n=constwp(src); o+=c
    if K==1: o+=wways(src)
    for f in ['computeVelocityWaypoints','computeAccelerationWaypoints','computeJerkWaypoints']: o+=wlist(src,f,K)
    o+=finvel(src)
    o+=velcost(src,K)
    o+=f'end Verif.{s}\n'
    open(OUT+s+'.lean','w').write(o)

def fplets(st): return lets(st).replace(': ℝ :=',': FExp :=')
def fp(e): return re.sub(r'\bd\.(\w+) k',r'\1 k',e)
def fpconst(src):
    st,l0,l1=func(src,'computeConstantWaypoints')
    pts=[fp(vec(m.group(1))) for m in (re.search(r'pi\.push_back\((.*)\)$',s) for s in st) if m]
    L=',\n'.join('    '+wrap(p,0).strip() for p in pts)
    return doc('computeConstantWaypoints',l0,l1,'Component `k` of the points. ')+f'def computeConstantWaypoints (k : Fin 3) : List FExp :=\n{fplets(st)}\n  [\n{L}]\n\n'
def fpeval(src,fn):
    st,l0,l1=func(src,fn)
    f=[s for s in st if s.startswith('wp.first =')][0].split('=',1)[1].strip()
    s2=[s for s in st if s.startswith('wp.second =')][0].split('=',1)[1].strip()
    return doc(fn,l0,l1,'The factor of the free point, and component `k` of the constant term. ')+f'def {fn} (k : Fin 3) : FExp × FExp :=\n{fplets(st)}\n  ({wrap(scal(f),4).strip()},\n{wrap(fp(vec(s2)),4)})\n\n'
def fpfinvel(src):
    st,l0,l1=func(src,'computeFinalVelocityPoint')
    f=[s for s in st if s.startswith('v.first')][0].split('=',1)[1].strip()
    s2=[s for s in st if s.startswith('v.second')][0].split('=',1)[1].strip()
    return doc('computeFinalVelocityPoint',l0,l1)+f'def computeFinalVelocityPoint (k : Fin 3) : FExp × FExp :=\n  ({scal(f)},\n   {fp(vec(s2))})\n\n'
o="""import Verif.Model.Fp

/-!
Formulas of include/hpp/bezier-com-traj/waypoints as floating-point expressions, transcribed by `tools/gen_waypoints.py`.
-/

set_option linter.unusedVariables false

namespace Verif.Fp
open FExp

"""
for v in ['c0','dc0','ddc0','j0','c1','dc1','ddc1','j1','g']: o+=f'/-- Component `k` of `{v}`. -/\ndef {v} (k : Fin 3) : FExp := .var (.{v} k)\n\n'
o+='/-- Component `k` of `pi[i]`. -/\ndef pi (i : ℕ) (k : Fin 3) : FExp := .var (.pi i k)\n\n'
for v,w in [('T','duration'),('t','time')]: o+=f'/-- The {w}. -/\ndef {v} : FExp := .var .{v}\n\n'
for s in sets:
    FILE=f'waypoints_{s}.hh'; src=open(REPO+FILE).read()
    o+=f'namespace {s}\n\n'+fpconst(src)+fpeval(src,'evaluateCurveAtTime')+fpeval(src,'evaluateAccelerationCurveAtTime')+fpfinvel(src)+f'end {s}\n\n'
for s in ['c0_dc0_ddc0_j0_j1_ddc1_dc1_c1','c0_dc0_ddc0_j0_x3_j1_ddc1_dc1_c1','c0_dc0_ddc0_j0_x5_j1_ddc1_dc1_c1']:
    FILE=f'waypoints_{s}.hh'; src=open(REPO+FILE).read()
    o+=f'namespace {s}\n\n'+fpconst(src)+f'end {s}\n\n'
o+='end Verif.Fp\n'
open(OUT+'Fp.lean','w').write(o)

# computeWwaypoints as floating-point expressions, in the syntax of the source
def cpp(e):
    e=common(e)
    e=re.sub(r'(?<![\w.\[<])(\d+(?:\.\d+)?)(?![\w.\]])',r'(\1 : FExp)',e)
    e=re.sub(r'Cpi\[(\d+)\]',r'Cpi \1',e)
    e=re.sub(r'(?<!C)pi\[(\d+)\]',r'pi \1',e)
    e=re.sub(r'Matrix3::Identity\(\)|\bId\b','I3',e)
    e=re.sub(r'\bskew\(',r'FMat.skew (',e)
    m=re.search(r'\(([^()]*\([^()]*\)[^()]*)\)\.cross\(([^()]*)\)',e)
    if m: e=e[:m.start()]+f'FVec.cross ({m.group(1)}) ({m.group(2)})'+e[m.end():]
    assert '[' not in e and '::' not in e and ').cross' not in e, e
    return e
def fpw(src):
    st,l0,l1=func(src,'computeWwaypoints')
    ws={}; order=[]
    for s in st:
        m=re.match(r'wps\.push_back\((w\d+)\)',s)
        if m: order.append(m.group(1)); continue
        m=re.match(r'(w\d+)\.(first\.block<3, 3>\((\d), 0\)|second\.(head|tail)<3>\(\)) = (.*)$',s)
        if m: ws.setdefault(m.group(1),{})[{'0':'top','3':'bot',None:m.group(4)}[m.group(3)]]=cpp(m.group(5))
    o=doc('computeWwaypoints',l0,l1,'In the syntax and order of operations of the source; 3x3 products from left to right. ')
    o+='def computeWwaypoints : List FWp6 :=\n'+fplets(st)+'\n  [\n'
    o+=',\n'.join('    { '+'\n      '.join(f'{k} := '+wrap(ws.get(n,{}).get(k,'FMat.zero' if k in('top','bot') else 'FVec.zero'),10).strip() for k in('top','bot','head','tail'))+' }' for n in order)
    return o+']\n\n'
o="""import Verif.Waypoints.Fp
import Verif.Model.FpVec

/-!
`computeWwaypoints` of include/hpp/bezier-com-traj/waypoints as floating-point expressions, transcribed by `tools/gen_waypoints.py`.
-/

set_option linter.unusedVariables false

namespace Verif.FpW
open FExp Fp.Vec

/-- The duration. -/
def T : FExp := .var .T

"""
for s in sets:
    FILE=f'waypoints_{s}.hh'; src=open(REPO+FILE).read()
    o+=f'namespace {s}\n\n'+fpw(src)+f'end {s}\n\n'
o+='end Verif.FpW\n'
open(OUT+'FpW.lean','w').write(o)
