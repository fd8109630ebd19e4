"""Write lean/Verif/WRounded*.lean: exact rational versions of the wrench waypoints of the two sets
whose C++ coefficients are truncated decimals, the exact identities, and the distance between both."""
import re
from fractions import Fraction
base='/verif/lean/Verif/'
for s,n,f,tag in [("c0_dc0_ddc0_dc1_c1",5,31,"5"),("c0_dc0_ddc0_ddc1_dc1_c1",6,63,"6")]:
    m=2*n-3
    src=open(base+f'Waypoints/{s}.lean').read()
    a=src.index("noncomputable def computeWwaypoints"); b=src.index("/-- `computeFinalVelocityPoint`")
    body=src[a:b].rstrip()
    dens=set(); maxerr=0
    def rep(mm):
        global maxerr
        x=Fraction(mm.group(0)); y=x.limit_denominator(1000)
        dens.add(y.denominator); maxerr=max(maxerr,abs(float(x-y)))
        return f"({y.numerator} / {y.denominator})"
    body=re.sub(r'\d+\.\d+',rep,body).replace("computeWwaypoints",f"exactW")
    print(s,dens,maxerr)
    out=f'''import Verif.WExact

/-!
# Helper for C04: the set {s}

Its `computeWwaypoints` uses truncated decimals. `exactW` is the same list with the rational numbers
these decimals stand for (it is not part of the model: only an auxiliary of the proof).
Written by tools/gen_wrounded.py.
-/

set_option linter.unusedVariables false
set_option linter.unusedSimpArgs false
set_option linter.unusedTactic false
set_option linter.unreachableTactic false

namespace Verif
open Matrix

namespace {s}
/-- Auxiliary: `computeWwaypoints` with exact rational coefficients. -/
{body}
end {s}

theorem {s}.exact_head_eq (pi : ℕ → V3) (g x : V3) (T t : ℝ) (hT : T ≠ 0) :
    headCurve ({s}.exactW pi g T) x t
      = bez {n-2} (accPt {n} (fill {f}#32 pi x) T) t := by
  funext k
  have hl : ({s}.exactW pi g T).length - 1 = {m} := rfl
  rw [headCurve, hl, bez_apply, bez_apply, bezS{m}, bezS{n-2}]
  fin_cases k <;>
    simp [{s}.exactW, Wp6.headAt, accPt, hodo, fill, freeSlots, mulVec,
      dotProduct, Fin.sum_univ_three, skew, Matrix.one_apply] <;> field_simp <;> ring

set_option maxHeartbeats 1000000 in
theorem {s}.exact_tail_eq (pi : ℕ → V3) (g x : V3) (T t : ℝ) (hT : T ≠ 0) :
    tailCurve ({s}.exactW pi g T) x t
      = wrenchTail g (bez {n} (fill {f}#32 pi x) t) (bez {n-2} (accPt {n} (fill {f}#32 pi x) T) t) := by
  funext k
  have hl : ({s}.exactW pi g T).length - 1 = {m} := rfl
  rw [tailCurve, hl, bez_apply, bezS{m}, wrenchTail, cr, cr, cross_apply, cross_apply]
  fin_cases k <;>
    simp [{s}.exactW, Wp6.tailAt, accPt, hodo, fill, freeSlots, mulVec,
      dotProduct, Fin.sum_univ_three, skew, Matrix.one_apply, bez_apply, bezS{n}, bezS{n-2}] <;>
    field_simp <;> ring

end Verif
'''
    open(base+f'WRounded{tag}.lean','w').write(out)

def terms(txt):
    txt=re.sub(r'\s+',' ',txt)
    txt=txt.replace('(skew (pi ','(skew (pi ')
    res={}
    def add(key,sg,c):
        x=Fraction(c)*(-1 if sg=='-' else 1); y=x.limit_denominator(1000)
        res[key]=res.get(key,0)+x-y
    for sg,c,t2,A,B in re.findall(r'([-+]?) ?(\d+(?:\.\d+)?) \* (T2 \* )?\(skew (g|\(pi \d\)) \*ᵥ pi (\d)\) k',txt):
        add(('v',A,f'pi {B}',bool(t2)),sg,c)
    for sg,c,A,t2 in re.findall(r'([-+]?) ?(\d+(?:\.\d+)?) \* skew (g|\(pi \d\)) i j( \* T2)?',txt):
        add(('v',A,'x',bool(t2)),sg,c)
    return res
def hterms(top,head):
    res={}
    top=re.sub(r'\s+',' ',top);head=re.sub(r'\s+',' ',head)
    def add(key,sg,c):
        x=Fraction(c)*(-1 if sg=='-' else 1); y=x.limit_denominator(1000)
        res[key]=res.get(key,0)+x-y
    for sg,c in re.findall(r'([-+]?) ?(\d+(?:\.\d+)?) \* alpha \* \(1 : M3\)',top): add('x',sg,c)
    for sg,c,B in re.findall(r'([-+]?) ?(\d+(?:\.\d+)?) \* pi (\d) k',head): add(f'pi {B}',sg,c)
    return res
def lean(fr): return f"({fr.numerator} / {fr.denominator} : ℝ)"
for s,n,f,tag in [("c0_dc0_ddc0_dc1_c1",5,31,"5"),("c0_dc0_ddc0_ddc1_dc1_c1",6,63,"6")]:
    m=2*n-3
    src=open(base+f'Waypoints/{s}.lean').read()
    a=src.index("noncomputable def computeWwaypoints"); b=src.index("/-- `computeFinalVelocityPoint`")
    body=src[a:b]
    entries=re.findall(r'\{ top :=(.*?)bot :=(.*?)head :=(.*?)tail :=(.*?)\}',body,re.S)
    assert len(entries)==m+1
    out=f'''import Verif.WRounded{tag}
import Mathlib.Tactic.IntervalCases

/-!
# Helper for C04: distance between the truncated decimals and the exact rationals, set {s}

Written by tools/gen_wrounded.py.
-/

set_option linter.unusedVariables false
set_option linter.unusedSimpArgs false
set_option linter.unusedTactic false
set_option linter.unreachableTactic false

namespace Verif
open Matrix

'''
    for i,(top,bot,head,tail) in enumerate(entries):
        h={k:v for k,v in hterms(top,head).items() if v!=0}
        t={k:v for k,v in {**terms(bot),**terms(tail)}.items() if v!=0}
        hs=" + ".join(f"{lean(v)} * {k} k" if k!='x' else f"{lean(v)} * x k" for k,v in h.items()) or "0"
        ts=" + ".join(f"{lean(v)} * "+("T ^ 2 * " if k[3] else "")+f"(skew {k[1]} *ᵥ {k[2]}) k" for k,v in t.items()) or "0"
        U=f"(({s}.computeWwaypoints pi g T)[{i}]!)"; E=f"(({s}.exactW pi g T)[{i}]!)"
        hb="\n".join(f"    have := abs_le.mp ({'hx' if k=='x' else 'hp '+k[3:]} k)" for k in h)
        tb="\n".join(f"    have := abs_le.mp ({'skew_bound' if not k[3] else 'skew_bound_T hT2'} {'hg' if k[1]=='g' else '(hp '+k[1][4:-1]+')'} {'hx' if k[2]=='x' else '(hp '+k[2][3:]+')'} k)" for k in t)
        for nm,sm,bd,bs,w in [("headAt",hs,"1e-12 * M",hb,"(hT2 : 0 ≤ T ^ 2) (hM : 0 ≤ M)"),("tailAt",ts,"1e-12 * (M * M + T ^ 2 * (G * M))",tb,"(hT2 : 0 ≤ T ^ 2) (hM : 0 ≤ M) (hG : 0 ≤ G)")]:
            out+=f'''theorem {s}.{nm}_diff_{i} (pi : ℕ → V3) (g x : V3) (T : ℝ) (hT : T ≠ 0) (k : Fin 3) :
    ({U}.{nm} x k - {E}.{nm} x k) * T ^ 2
      = {sm} := by
  fin_cases k <;>
    simp [{s}.computeWwaypoints, {s}.exactW, Wp6.{nm}, mulVec,
      dotProduct, Fin.sum_univ_three, skew, Matrix.one_apply] <;> field_simp <;> ring

theorem {s}.{nm}_bound_{i} (pi : ℕ → V3) (g x : V3) (T M G : ℝ) (hT : T ≠ 0) (k : Fin 3)
    (hp : ∀ i k, |pi i k| ≤ M) (hx : ∀ k, |x k| ≤ M) (hg : ∀ k, |g k| ≤ G) {w} :
    |({U}.{nm} x k - {E}.{nm} x k) * T ^ 2| ≤ {bd} := by
  rw [{s}.{nm}_diff_{i} pi g x T hT k]
'''
            if nm=="tailAt": out+='''  have hMM : 0 ≤ M * M := by positivity
  have hGM : 0 ≤ T ^ 2 * (G * M) := by positivity
'''
            if sm=="0": out+="  rw [abs_zero]; positivity\n\n"
            else: out+="  rw [abs_le]\n  constructor\n  all_goals\n"+bs+"\n    norm_num at *\n    linarith\n\n"
    out+="end Verif\n"
    open(base+f'WDiff{tag}.lean','w').write(out)
