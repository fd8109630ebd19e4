S7=['c0_dc0_c1','c0_dc0_dc1','c0_dc0_dc1_c1','c0_dc0_ddc0','c0_dc0_ddc0_c1','c0_dc0_ddc0_dc1_c1','c0_dc0_ddc0_ddc1_dc1_c1']
J='c0_dc0_ddc0_j0_j1_ddc1_dc1_c1';X3='c0_dc0_ddc0_j0_x3_j1_ddc1_dc1_c1';X5='c0_dc0_ddc0_j0_x5_j1_ddc1_dc1_c1'
flags={
'c0_dc0_c1':('INIT_POS ||| INIT_VEL ||| END_POS','waypoints_c0_dc0_c1.hh:14'),
'c0_dc0_dc1':('INIT_POS ||| INIT_VEL ||| END_VEL','waypoints_c0_dc0_dc1.hh:14'),
'c0_dc0_dc1_c1':('INIT_POS ||| INIT_VEL ||| END_POS ||| END_VEL','waypoints_c0_dc0_dc1_c1.hh:14'),
'c0_dc0_ddc0':('INIT_POS ||| INIT_VEL ||| INIT_ACC','waypoints_c0_dc0_ddc0.hh:14'),
'c0_dc0_ddc0_c1':('INIT_POS ||| INIT_VEL ||| INIT_ACC ||| END_POS','waypoints_c0_dc0_ddc0_c1.hh:14'),
'c0_dc0_ddc0_dc1_c1':('INIT_POS ||| INIT_VEL ||| INIT_ACC ||| END_VEL ||| END_POS','waypoints_c0_dc0_ddc0_dc1_c1.hh:14-15'),
'c0_dc0_ddc0_ddc1_dc1_c1':('INIT_POS ||| INIT_VEL ||| INIT_ACC ||| END_ACC ||| END_VEL ||| END_POS','waypoints_c0_dc0_ddc0_ddc1_dc1_c1.hh:14-15'),
J:('INIT_POS ||| INIT_VEL ||| INIT_ACC ||| END_ACC ||| END_VEL ||| END_POS ||| INIT_JERK |||\n    END_JERK','waypoints_'+J+'.hh:14-15'),
X3:('INIT_POS ||| INIT_VEL ||| INIT_ACC ||| END_ACC ||| END_VEL ||| END_POS ||| INIT_JERK |||\n    END_JERK ||| THREE_FREE_VAR','waypoints_'+X3+'.hh:14-16'),
X5:('INIT_POS ||| INIT_VEL ||| INIT_ACC ||| END_ACC ||| END_VEL ||| END_POS ||| INIT_JERK |||\n    END_JERK ||| FIVE_FREE_VAR','waypoints_'+X5+'.hh:14-16')}
o='import Verif.Model.Data\n'
for s in S7+[J,X3,X5]: o+=f'import Verif.Waypoints.{s}\n'
o+='import Mathlib.Analysis.SpecialFunctions.Pow.Real\n\n'
o+='''/-!
# Dispatch on the constraint flag

Model of src/waypoints_definition.cpp: every public query looks the flag up in a table
(`std::map`, exact match) and throws when it is absent. The tables are modelled as chains of
equality tests. Written by `tools/gen_dispatch.py`.
-/

namespace Verif
open Matrix

'''
for s in S7+[J,X3,X5]:
    e,c=flags[s]
    o+=f'/-- include/hpp/bezier-com-traj/waypoints/{c}. -/\ndef {s}.flag : Flag :=\n  {e}\n\n'
o+='''/-- Message thrown by all dispatch functions (e.g. src/waypoints_definition.cpp:75). -/
def notImplemented : String := "Current constraints set are not implemented"

/-- Indexing `pi[i]` of a `std::vector`; only used below the length checked by `withPts`. -/
def nth (l : List V3) (i : ℕ) : V3 := l.getD i 0

/-- A formula reading `pi[0] ... pi[n-1]`: out of range access when the vector is shorter. -/
noncomputable def withPts {α : Type} (n : ℕ) (pi : List V3) (f : (ℕ → V3) → α) : Out α :=
  if pi.length < n then .ub else .ok (f (nth pi))

'''
def chain(doc,name,args,ret,cases,lines):
    r=f'/-- `{name}`, src/waypoints_definition.cpp:{lines}. {doc}-/\nnoncomputable def {name} {args} : Out {ret} :=\n'
    for i,(s,e) in enumerate(cases):
        r+=f'  {"if" if i==0 else "else if"} flag = {s}.flag then\n    {e}\n'
    r+='  else .throw notImplemented\n\n'
    return r
mx={'c0_dc0_c1':(4,4),'c0_dc0_dc1':(2,2),'c0_dc0_dc1_c1':(5,5),'c0_dc0_ddc0':(3,3),'c0_dc0_ddc0_c1':(5,5),'c0_dc0_ddc0_dc1_c1':(6,6),'c0_dc0_ddc0_ddc1_dc1_c1':(7,7),J:(9,9)}
o+=chain('','evaluateCurveAtTime','(flag : Flag) (pi : List V3) (t : ℝ)','Coefs',[(s,f'withPts {mx[s][0]} pi (fun p => {s}.evaluateCurveAtTime p t)') for s in S7+[J]],'47-78')
o+=chain('','evaluateAccelerationCurveAtTime','(flag : Flag) (pi : List V3) (T t : ℝ)','Coefs',[(s,f'withPts {mx[s][1]} pi (fun p => {s}.evaluateAccelerationCurveAtTime p T t)') for s in S7+[J]],'80-117')
o+='''/-- A `waypoint_t` whose number of free points depends on the flag. -/
abbrev WpS := Σ K : ℕ, WpB K

'''
E3=[(J,1,9),(X3,3,11),(X5,5,13)]
for nm,hasT,lines,npts in [('evaluateCurveWaypointAtTime',0,'119-151',(9,11,13)),('evaluateVelocityCurveWaypointAtTime',1,'152-188',(9,11,11)),('evaluateAccelerationCurveWaypointAtTime',1,'189-227',(9,11,11)),('evaluateJerkCurveWaypointAtTime',1,'228-262',(9,11,11))]:
    a='(T t : ℝ)' if hasT else '(t : ℝ)'; b='T t' if hasT else 't'
    o+=chain('',nm,f'(flag : Flag) (pi : List V3) {a}','WpS',[(s,f'withPts {npts[i]} pi (fun p => ⟨{K}, {s}.{nm} p {b}⟩)') for i,(s,K,n) in enumerate(E3)],lines)
o+=chain('`c0_dc0_dc1` throws when `dc1_.norm() != 0` (waypoints_c0_dc0_dc1.hh:53-55). ','computeConstantWaypoints','(flag : Flag) (d : BC) (T : ℝ)','(List V3)',
  [(s,f'.ok ({s}.computeConstantWaypoints d T)' if s!='c0_dc0_dc1' else 'open Classical in\n    if d.dc1 ≠ 0 then .throw "Capturability not implemented for spped different than 0"\n    else .ok (c0_dc0_dc1.computeConstantWaypoints d T)') for s in S7+[J,X3,X5]],'264-296')
o+='''/-- `dimVar`, src/waypoints_definition.cpp:30-41, divided by three (number of free points). -/
def dimVarPts (flag : Flag) : ℕ :=
  if flag.has FIVE_FREE_VAR then 5
  else if flag.has FOUR_FREE_VAR then 4
  else if flag.has THREE_FREE_VAR then 3
  else if flag.has TWO_FREE_VAR then 2
  else 1

/-- Eigen's `isZero()` on a 3-vector with the default precision `1e-12`. -/
def eigenIsZero (v : V3) : Prop := ∀ k, |v k| ≤ 1e-12

/-- One iteration of the loop of `computeConstantWaypointsSymbolic`,
src/waypoints_definition.cpp:303-312: a waypoint that is (numerically) zero becomes the rectangular
identity `MatrixXX::Identity(3, DIM_VAR)` (first block the identity, the other blocks zero). -/
noncomputable def symbolicOf (K : ℕ) (p : V3) : WpB K :=
  open Classical in
  if eigenIsZero p then { first := fun j => if j.val = 0 then 1 else 0, second := 0 }
  else { first := 0, second := p }

/-- `computeConstantWaypointsSymbolic`, src/waypoints_definition.cpp:297-314. -/
noncomputable def computeConstantWaypointsSymbolic (flag : Flag) (d : BC) (T : ℝ) :
    Out (Σ K : ℕ, List (WpB K)) := do
  let pts ← computeConstantWaypoints flag d T
  return ⟨dimVarPts flag, pts.map (symbolicOf (dimVarPts flag))⟩

'''
for nm,lines in [('computeVelocityWaypoints','316-345'),('computeAccelerationWaypoints','347-376'),('computeJerkWaypoints','378-407')]:
    o+=f'''/-- `{nm}`, src/waypoints_definition.cpp:{lines}, with the defaulting of an empty `pi` and the
assertion on its size made by the three headers. -/
noncomputable def {nm} (flag : Flag) (d : BC) (T : ℝ) (pi : List V3) :
    Out (Σ K : ℕ, List (WpB K)) :=
'''
    for i,(s,K,n) in enumerate(E3):
        o+=f'''  {"if" if i==0 else "else if"} flag = {s}.flag then
    let pi := if pi.length = 0 then {s}.computeConstantWaypoints d T else pi
    if pi.length = {n} then .ok ⟨{K}, {s}.{nm} (nth pi) T⟩ else .assertFail
'''
    o+='  else .throw notImplemented\n\n'
o+='''/-- `pData.contacts_.front().contactPhase_->m_gravity` (first lines of every `computeWwaypoints`):
`front()` of an empty vector and a null pointer are undefined behaviour. -/
def frontGravity (contacts : List ContactData) : Out V3 :=
  match contacts with
  | [] => .ub
  | c :: _ => match c.contactPhase with
    | none => .ub
    | some e => .ok e.gravity

/-- `computeWwaypoints`, src/waypoints_definition.cpp:409-439. -/
noncomputable def computeWwaypoints (flag : Flag) (contacts : List ContactData) (d : BC) (T : ℝ) :
    Out (List Wp6) :=
'''
for i,s in enumerate(S7+[J]):
    o+=f'''  {"if" if i==0 else "else if"} flag = {s}.flag then do
    let pi ← computeConstantWaypoints {s}.flag d T
    let g ← frontGravity contacts
    return {s}.computeWwaypoints (nth pi) g T
'''
o+='  else .throw notImplemented\n\n'
o+='''/-- `computeFinalVelocityPoint`, src/waypoints_definition.cpp:441-463. -/
noncomputable def computeFinalVelocityPoint (flag : Flag) (d : BC) (T : ℝ) : Out Coefs :=
'''
for i,s in enumerate(S7):
    if s in('c0_dc0_c1','c0_dc0_ddc0_c1'):
        o+=f'''  {"if" if i==0 else "else if"} flag = {s}.flag then
    .ok ({s}.computeFinalVelocityPoint d (nth []) T)
'''
    else:
        o+=f'''  {"if" if i==0 else "else if"} flag = {s}.flag then do
    let pi ← computeConstantWaypoints {s}.flag d T
    return {s}.computeFinalVelocityPoint d (nth pi) T
'''
o+='  else .throw notImplemented\n\n'
o+='''/-- `H.norm()` in the three `computeVelocityCost`: Frobenius norm of the 3Kx3K matrix whose blocks
are `H a b` times the 3x3 identity. -/
noncomputable def blockNorm {K : ℕ} (H : Matrix (Fin K) (Fin K) ℝ) : ℝ :=
  Real.sqrt (∑ a, ∑ b, 3 * H a b ^ 2)

/-- Common end of the three `computeVelocityCost` functions
(e.g. waypoints_c0_dc0_ddc0_j0_x3_j1_ddc1_dc1_c1.hh:489-494). -/
noncomputable def normalizeCost {K : ℕ} (H : Matrix (Fin K) (Fin K) ℝ) (g : Fin K → V3) :
    Matrix (Fin K) (Fin K) ℝ × (Fin K → V3) :=
  (fun a b => H a b / blockNorm H, fun a k => g a k / blockNorm H)

/-- `computeVelocityCost`, src/waypoints_definition.cpp:465-497. -/
noncomputable def computeVelocityCost (flag : Flag) (d : BC) (T : ℝ) (pi : List V3) :
    Out (Σ K : ℕ, Matrix (Fin K) (Fin K) ℝ × (Fin K → V3)) :=
'''
for i,(s,K,n) in enumerate(E3):
    o+=f'''  {"if" if i==0 else "else if"} flag = {s}.flag then
    withPts {n} (if pi.length = 0 then {s}.computeConstantWaypoints d T else pi)
      (fun p => ⟨{K}, normalizeCost ({s}.velocityCostH T) ({s}.velocityCostG p T)⟩)
'''
o+='  else .throw notImplemented\n\nend Verif\n'
open('/verif/lean/Verif/Model/Dispatch.lean','w').write(o)
