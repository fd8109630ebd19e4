import Verif.Model.OneStep

/-!
# Continuous constraints

Model of src/computeCOMTraj.cpp:149-160 and 343-527 (continuous formulation), with the contract of
the curves of the library `ndcurves` they use.
-/

namespace Verif
open Matrix

/-! ## Contract of `ndcurves::bezier_curve` (external)

The library is templated on the type of points and uses only `+`, `-` and `*` by a scalar; for
`waypoint_t` these act on the matrix and on the vector separately (`C57`). The type of points is
any real vector space here; `Coefs` and `Wp6` are seen as products. -/

section Curve
variable {E : Type} [AddCommGroup E] [Module ℝ E]

/-- Control points after splitting at parameter `a` and keeping the right part, then splitting at
`s` and keeping the left part (de Casteljau). -/
noncomputable def extractCtrl (P : List E) (a s : ℝ) : List E :=
  (List.range P.length).map fun k =>
    bez k (fun j => bez (P.length - 1 - j) (fun i => P.getD (j + i) 0) a) s

/-- `extract(t1, t2)` on a curve defined over `[0, T]`: control points of the curve restricted to
`[t1, t2]`. Times out of range throw. The library snaps times closer than a millisecond to an end of
the range; this is not modelled. -/
noncomputable def extract (P : List E) (T t1 t2 : ℝ) : Out (List E) :=
  open Classical in
  if t1 < 0 ∨ T < t1 ∨ t2 < 0 ∨ T < t2 then .throw "In Extract curve : times out of bounds"
  else if t1 = T then .throw "can't split curve, interval range is equal to original curve"
  else .ok (extractCtrl P (t1 / T) ((t2 / T - t1 / T) / (1 - t1 / T)))

/-- Control points of the derivative, before the factor `1 / T`. -/
noncomputable def derivCtrl (P : List E) : List E :=
  List.zipWith (fun p q => ((P.length - 1 : ℕ) : ℝ) • (q - p)) P P.tail

end Curve

/-- A 3x3 waypoint as an element of a vector space (the matrix is a multiple of the identity). -/
def Coefs.toProd (w : Coefs) : ℝ × V3 := (w.first, w.second)
/-- Inverse of `Coefs.toProd`. -/
def Coefs.ofProd (w : ℝ × V3) : Coefs := { first := w.1, second := w.2 }
/-- A 6x3 waypoint as an element of a vector space. -/
def Wp6.toProd (w : Wp6) : M3 × M3 × V3 × V3 := (w.top, w.bot, w.head, w.tail)
/-- Inverse of `Wp6.toProd`. -/
def Wp6.ofProd (w : M3 × M3 × V3 × V3) : Wp6 :=
  { top := w.1, bot := w.2.1, head := w.2.2.1, tail := w.2.2.2 }

/-- `c.extract(t1, t2).waypoints()`. -/
noncomputable def extractCoefs (P : List Coefs) (T t1 t2 : ℝ) : Out (List Coefs) := do
  let l ← extract (P.map Coefs.toProd) T t1 t2
  return l.map Coefs.ofProd

/-- `w.extract(t1, t2).waypoints()`. -/
noncomputable def extractWp6 (P : List Wp6) (T t1 t2 : ℝ) : Out (List Wp6) := do
  let l ← extract (P.map Wp6.toProd) T t1 t2
  return l.map Wp6.ofProd

/-- `c.compute_derivate(2).waypoints()`. The library keeps the factor `1 / T ^ 2` of the second
derivative apart from the control points (member `mult_T_`, see
tests/test-zero-step-capturability.cpp:137) and `waypoints()` returns the bare control points.
The factor `κ` actually carried by the control points is a parameter of the model. -/
noncomputable def secondDeriv (κ : ℝ) (P : List Coefs) : List Coefs :=
  (derivCtrl (derivCtrl (P.map Coefs.toProd))).map fun q => Coefs.ofProd (κ • q)

/-! ## The functions -/

/-- Loop of `computeNumIneqContinuous`, src/computeCOMTraj.cpp:361-370. -/
def numIneqContLoop (degree w_degree : ℤ) (useDD : Bool) : List ContactData → Out ℤ
  | [] => .ok 0
  | ct :: l => do
    let r ← numIneqContLoop degree w_degree useDD l
    if useDD then
      match ct.contactPhase with
      | none => .ub
      | some e => return ct.kin.length * (degree + 1) + e.poly.length * (w_degree + 1) + r
    else return ct.kin.length * (degree + 1) + r

/-- `computeNumIneqContinuous`, src/computeCOMTraj.cpp:355-374. -/
def computeNumIneqContinuous (contacts : List ContactData) (nTs : ℕ) (degree w_degree : ℤ)
    (useDD : Bool) : Out ℤ := do
  let r ← numIneqContLoop degree w_degree useDD contacts
  return r + (degree - 1) * 6 * nTs

/-- Loop of `computeNumEqContinuous`, src/computeCOMTraj.cpp:396-409: the pair
`(numEq, forceVarDim)`. The second iterator is one element ahead of the first. -/
def numEqLoop (w_degree : ℤ) : List ContactData → ℕ → Out (ℤ × ℤ)
  | [], _ => .ok (0, 0)
  | ct :: l, cSize =>
    match ct.contactPhase with
    | none => .ub
    | some e => do
      let cols := e.gens.length
      let currentDegree := if cSize ≠ 0 ∧ cols > cSize then w_degree + 1 - 1 else w_degree + 1
      let currentDegree ← match l with
        | [] => Out.ok currentDegree
        | ct2 :: _ => match ct2.contactPhase with
          | none => Out.ub
          | some e2 => Out.ok (if e2.gens.length ≤ cols then currentDegree - 1 else currentDegree)
      let r ← numEqLoop w_degree l cols
      return (6 * currentDegree + r.1, cols * currentDegree + r.2)

/-- `computeNumEqContinuous`, src/computeCOMTraj.cpp:386-412. `++it2` on an empty vector is past
the end; the last increment of `it2` (past the end as well, never dereferenced) is ignored. -/
def computeNumEqContinuous (contacts : List ContactData) (w_degree : ℤ) (useForce : Bool) :
    Out (ℤ × ℤ) :=
  if useForce then
    if contacts = [] then .ub else numEqLoop w_degree contacts 0
  else .ok (0, 0)

/-- The equality system under construction. -/
structure AsmF where
  D : Buf
  d : Buf
  row : ℕ
  col : ℕ

/-- Component `r` of a 6-vector given by its two halves. -/
def get6 (f τ : V3) (r : ℕ) : ℝ := if r < 3 then V3.get f r else V3.get τ (r - 3)

/-- Entry `(r, c)` of the 6x3 matrix of a waypoint. -/
def Wp6.entry (w : Wp6) (r c : ℕ) : ℝ :=
  if r < 3 then V3.get (w.top (Fin.ofNat 3 r)) c else V3.get (w.bot (Fin.ofNat 3 (r - 3))) c

/-- `assignStabilityConstraintsForTimeStepForce`, src/computeCOMTraj.cpp:149-160, followed by
`rowIdx += 6` (494). -/
def assignForce (w : Wp6) (e : Equilibrium) (s : AsmF) : Out AsmF := do
  let D ← s.D.write s.row s.col 6 e.gens.length fun r c =>
    get6 (e.gens.getD c 0).1 (e.gens.getD c 0).2 r
  let D ← D.write s.row 0 6 3 fun r c => e.mass * w.entry r c
  let d ← s.d.write s.row 0 6 1 fun r _ => e.mass * (get6 e.gravity 0 r - get6 w.head w.tail r)
  return { D := D, d := d, row := s.row + 6, col := s.col + e.gens.length }

/-- Loop of src/computeCOMTraj.cpp:493-497. -/
def forceLoop (e : Equilibrium) : List Wp6 → AsmF → Out AsmF
  | [], s => .ok s
  | w :: ws, s => do
    let s ← assignForce w e s
    forceLoop e ws s

/-- Kinematic rows of one phase, src/computeCOMTraj.cpp:470-476. Unlike the discretised formulation
there is no test of the number of rows: different row counts of `Kin_` and `kin_` violate an Eigen
assertion even when `kin_` is empty. -/
noncomputable def kinContLoop (ct : ContactData) : List Coefs → Asm → Out Asm
  | [], st => .ok st
  | co :: cs, st =>
    if ct.Kin.length = ct.kin.length then do
      let st ← st.put (List.zipWith (fun K k => (co.first • K, k - K ⬝ᵥ co.second)) ct.Kin ct.kin)
        ct.kin.length
      kinContLoop ct cs st
    else .assertFail

/-- Stability rows of one phase, src/computeCOMTraj.cpp:480-483. -/
noncomputable def stabContLoop (mH : HRows) (g : V3) : List Wp6 → Asm → Out Asm
  | [], st => .ok st
  | w :: ws, st => do
    let st ← assignStabilityConstraintsForTimeStep st mH g w
    stabContLoop mH g ws st

/-- The wrench waypoints that get equality constraints, src/computeCOMTraj.cpp:485-492: the last one
is left to the next phase when that phase has no more generators, the first one is left to the
previous phase when that phase had fewer. -/
def forceRange (ws : List Wp6) (cSize cols : ℕ) (next : Option ℕ) : List Wp6 :=
  let ws := match next with
    | some n => if n ≤ cols then ws.dropLast else ws
    | none => ws
  if cSize > 0 ∧ cSize < cols then ws.drop 1 else ws

/-- Number of generators of contact phase `i`. -/
def gensOf (contacts : List ContactData) (i : ℕ) : Out ℕ :=
  match contacts[i]? with
  | none => .ub
  | some ct => match ct.contactPhase with
    | none => .ub
    | some e => .ok e.gens.length

/-- Number of generators of the next phase, read only when there is one,
src/computeCOMTraj.cpp:487-489. -/
def nextGensOf (contacts : List ContactData) (i : ℕ) (more : Bool) : Out (Option ℕ) :=
  if more then do
    let n ← gensOf contacts (i + 1)
    return some n
  else .ok none

/-- Body of the loop over the phases, src/computeCOMTraj.cpp:461-508; `more` tells whether a phase
follows, `cs`, `ddcs`, `ws` are the waypoints of the extracted curves. -/
noncomputable def contPhase (pData : ProblemData) (useDD : Bool) (i : ℕ) (more : Bool)
    (cs ddcs : List Coefs) (ws : List Wp6) (cSize : ℕ) (st : Asm) (sf : AsmF) :
    Out (ℕ × Asm × AsmF) :=
  match pData.contacts[i]? with
  | none => .ub
  | some ct => do
    let st ← kinContLoop ct cs st
    if useDD then do
      let mH ← updateH pData.reduce_h ct
      match ct.contactPhase with
      | none => .ub
      | some e => do
        let st ← stabContLoop mH e.gravity ws st
        let st ← accLoop pData.maxAcceleration ddcs st
        return (cSize, st, sf)
    else
      match ct.contactPhase with
      | none => .ub
      | some e => do
        let next ← nextGensOf pData.contacts i more
        let sf ← forceLoop e (forceRange ws cSize e.gens.length next) sf
        let st ← accLoop pData.maxAcceleration ddcs st
        return (e.gens.length, st, sf)

/-- Loop over the phases, src/computeCOMTraj.cpp:461-508. `c`, `ddc`, `w` are the waypoints of the
three curves over `[0, T]`. -/
noncomputable def contLoop (pData : ProblemData) (useDD : Bool) (T : ℝ)
    (c ddc : List Coefs) (w : List Wp6) :
    List ℝ → ℕ → ℝ → ℕ → Asm → AsmF → Out (Asm × AsmF)
  | [], _, _, _, st, sf => .ok (st, sf)
  | D :: Ts, i, t, cSize, st, sf => do
    let cs ← extractCoefs c T t (D + t)
    let ddcs ← extractCoefs ddc T t (D + t)
    let ws ← extractWp6 w T t (D + t)
    let r ← contPhase pData useDD i (!Ts.isEmpty) cs ddcs ws cSize st sf
    contLoop pData useDD T c ddc w Ts (i + 1) (t + D) r.1 r.2.1 r.2.2

/-- The systems returned: `A y <= b`, `D y = d`, and the lower bounds (empty when there are none). -/
structure ContSystem where
  A : Mat
  b : Mat
  D : Mat
  d : Mat
  minBounds : List ℝ

/-- A 3x3K symbolic waypoint used with 3 columns. -/
def WpB.toCoefs (w : WpB 1) : Coefs := { first := w.first 0, second := w.second }

/-- src/computeCOMTraj.cpp:429-527: the part of `computeConstraintsContinuous` after the waypoints `c`
and `w` of the two curves have been computed. `minBounds` has size zero with the double description;
`solvers::UNBOUNDED_DOWN` is -100000. -/
noncomputable def contBody (κ : ℝ) (pData : ProblemData) (Ts : List ℝ) (c : List Coefs) (w : List Wp6) :
    Out ContSystem := do
  let useDD := pData.representation == DOUBLE_DESCRIPTION
  let ddc := secondDeriv κ c
  let num_ineq ← computeNumIneqContinuous pData.contacts Ts.length (c.length - 1) (w.length - 1) useDD
  let eq ← computeNumEqContinuous pData.contacts (w.length - 1) (!useDD)
  let total := 3 + eq.2.toNat
  let st : Asm := { A := Buf.zero num_ineq.toNat total, b := Buf.zero num_ineq.toNat 1, row := 0 }
  let sf : AsmF := { D := Buf.zero eq.1.toNat total, d := Buf.zero eq.1.toNat 1, row := 0, col := 3 }
  let r ← contLoop pData useDD Ts.sum c ddc w Ts 0 0 0 st sf
  let minBounds : List ℝ :=
    if useDD then [] else List.replicate 3 (-100000) ++ List.replicate eq.2.toNat 0
  if r.1.row = r.1.A.rows ∧ r.1.row = r.1.b.rows ∧ r.2.col = r.2.D.cols ∧ r.2.row = r.2.d.rows then do
    let A ← r.1.A.value
    let b ← r.1.b.value
    let D ← r.2.D.value
    let d ← r.2.d.value
    return { A := A, b := b, D := D, d := d, minBounds := minBounds }
  else .assertFail

/-- `computeConstraintsContinuous`, src/computeCOMTraj.cpp:414-527. `dimVarX` is 3; waypoints with
more columns would not fit in the blocks (the sets that have some are already rejected by
`computeWwaypoints`). -/
noncomputable def computeConstraintsContinuous (κ : ℝ) (pData : ProblemData) (Ts : List ℝ) :
    Out ContSystem := do
  let wc ← computeConstantWaypointsSymbolic pData.flag pData.bc Ts.sum
  let w ← computeWwaypoints pData.flag pData.contacts pData.bc Ts.sum
  match wc with
  | ⟨1, l⟩ => contBody κ pData Ts (l.map WpB.toCoefs) w
  | _ => .assertFail

end Verif
