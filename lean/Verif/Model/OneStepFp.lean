import Verif.Model.OneStep
import Verif.Model.WaypointsFp
import Verif.Waypoints.FpW

/-!
# Discretised constraints with rounded arithmetic

Model of src/computeCOMTraj.cpp:21-306 in which every number is computed with rounding. The assembly of the matrices, which computes no number, takes
the numerical parts as functions (`RowFns`); `RowFns.Rounded` says which results rounded arithmetic may give, `RowFns.exact` are the functions of
`Verif.Model.OneStep`. Overflow and underflow are not modelled. Sums may be computed in any order.
-/

namespace Verif
open Matrix FExp

/-! ## Rounded operations -/

/-- A relative error made of at most `k` roundings. -/
def RelTo (k : ℕ) (u x r : ℝ) : Prop := |r - x| ≤ ((1 + u) ^ k - 1) * |x|

/-- A sum of the terms `x` in any order, where every term is rounded at most `k` times. -/
def SumTo (k : ℕ) (u : ℝ) {n : ℕ} (x : Fin n → ℝ) (r : ℝ) : Prop := |r - ∑ i, x i| ≤ ((1 + u) ^ k - 1) * ∑ i, |x i|

/-- `a += b * p` for each pair of the list. -/
def AccFp (u : ℝ) : List (ℝ × ℝ) → ℝ → ℝ → Prop
  | [], a, r => r = a
  | (b, p) :: l, a, r => ∃ m a', RoundsTo u (b * p) m ∧ RoundsTo u (a + m) a' ∧ AccFp u l a' r

/-! ## Six-dimensional data -/

/-- The six components of a wrench or of a row of the polytope. -/
def six {α : Type} (r : (Fin 3 → α) × (Fin 3 → α)) : Fin 6 → α := ![r.1 0, r.1 1, r.1 2, r.2 0, r.2 1, r.2 2]

/-- `first`, a 6x3 matrix. -/
def Wp6.mat (w : Wp6) (i : Fin 6) (j : Fin 3) : ℝ := six (fun k => w.top k j, fun k => w.bot k j) i

/-- `second`, a 6-vector. -/
def Wp6.vec (w : Wp6) : Fin 6 → ℝ := six (w.head, w.tail)

/-- `first`. -/
def FWp6.mat (w : FWp6) (i : Fin 6) (j : Fin 3) : FExp := six (fun k => w.top.e k j, fun k => w.bot.e k j) i

/-- `second`. -/
def FWp6.vec (w : FWp6) : Fin 6 → FExp := six (w.head.e, w.tail.e)

/-! ## Wrench waypoints -/

/-- `computeWwaypoints`, src/waypoints_definition.cpp:409-439: the expressions. -/
def wwaypointsFp (flag : Flag) : Option (List FWp6) :=
  if flag = c0_dc0_c1.flag then some FpW.c0_dc0_c1.computeWwaypoints
  else if flag = c0_dc0_dc1.flag then some FpW.c0_dc0_dc1.computeWwaypoints
  else if flag = c0_dc0_dc1_c1.flag then some FpW.c0_dc0_dc1_c1.computeWwaypoints
  else if flag = c0_dc0_ddc0.flag then some FpW.c0_dc0_ddc0.computeWwaypoints
  else if flag = c0_dc0_ddc0_c1.flag then some FpW.c0_dc0_ddc0_c1.computeWwaypoints
  else if flag = c0_dc0_ddc0_dc1_c1.flag then some FpW.c0_dc0_ddc0_dc1_c1.computeWwaypoints
  else if flag = c0_dc0_ddc0_ddc1_dc1_c1.flag then some FpW.c0_dc0_ddc0_ddc1_dc1_c1.computeWwaypoints
  else none

/-- `computeWwaypoints`, src/waypoints_definition.cpp:427-439, with rounding, from the waypoints `pts` and the gravity `g`: it may return `ws`. -/
def WwaypointsFp (u : ℝ) (flag : Flag) (pts : List V3) (g : V3) (T : ℝ) (ws : List Wp6) : Prop :=
  ∃ es, wwaypointsFp flag = some es ∧ List.Forall₂ (fun (e : FWp6) (w : Wp6) => ∀ i, ∀ d t,
    (∀ j, (e.mat i j).Computes u (env d (nth pts) g T t) (w.mat i j)) ∧ (e.vec i).Computes u (env d (nth pts) g T t) (w.vec i)) es ws

/-- `std::min(t / T, 1.)`, src/computeCOMTraj.cpp:32, common_solve_methods.inl:12, 26. -/
def TimeFp (u t T s : ℝ) : Prop := ∃ r, RoundsTo u (t / T) r ∧ s = min r 1

/-- Inner loop of `computeDiscretizedWwaypoints`, src/computeCOMTraj.cpp:31-37. The value of a Bernstein polynomial, computed by ndcurves, is
supposed to have a relative error of at most 64 roundings. -/
def WSumFp (u : ℝ) (ws : List Wp6) (s : ℝ) (w : Wp6) : Prop :=
  ∃ bs : List ℝ, List.Forall₂ (fun i b => RelTo 64 u ((Bern.mk (ws.length - 1) i).eval s) b) (List.range ws.length) bs ∧
    ∀ i, (∀ j, AccFp u (List.zipWith (fun b p => (b, p.mat i j)) bs ws) 0 (w.mat i j)) ∧
      AccFp u (List.zipWith (fun b p => (b, p.vec i)) bs ws) 0 (w.vec i)

/-! ## Rows -/

/-- One row of `updateH`, src/computeCOMTraj.cpp:129-134: product with the mass, division by the norm, reduction of the right-hand side. -/
def UpdateHRowFp (u m ρ : ℝ) (r q : (V3 × V3) × ℝ) : Prop :=
  ∃ (y : Fin 6 → ℝ) (z n : ℝ), (∀ i, RoundsTo u (-(six r.1 i * m)) (y i)) ∧ SumTo 6 u (fun i => y i * y i) z ∧ RoundsTo u (Real.sqrt z) n ∧
    (∀ i, RoundsTo u (y i / n) (six q.1 i)) ∧ if 0 < ρ then RoundsTo u (r.2 - ρ) q.2 else q.2 = r.2

/-- A row divided by its norm, `Normalize`, src/common_solve_methods.cpp:81-83. -/
def NormRowFp (u : ℝ) (r q : V3 × ℝ) : Prop :=
  ∃ z n, SumTo 3 u (fun i => r.1 i * r.1 i) z ∧ RoundsTo u (Real.sqrt z) n ∧ (∀ j, RoundsTo u (r.1 j / n) (q.1 j)) ∧ RoundsTo u (r.2 / n) q.2

/-- `Normalize`, src/common_solve_methods.cpp:78-86. `removeZeroRows` compares the computed coefficients with zero. -/
def NormalizeFp (u : ℝ) (rows out : List (V3 × ℝ)) : Prop :=
  match removeZeroRows rows with
  | (l, none) => out = l
  | (l, some k) => ∃ t, List.Forall₂ (NormRowFp u) (l.take k) t ∧ out = t ++ l.drop k

/-- One row of `A` and `b` before `Normalize`, `dynamicStabilityConstraints`, src/computeCOMTraj.cpp:69-72. -/
def StabRowFp (u : ℝ) (g : V3) (w : Wp6) (r : (V3 × V3) × ℝ) (q : V3 × ℝ) : Prop :=
  (∀ j, SumTo 6 u (fun i => six r.1 i * w.mat i j) (q.1 j)) ∧
    ∃ y : Fin 6 → ℝ, (∀ i, RoundsTo u (six (g, 0) i - w.vec i) (y i)) ∧
      SumTo 7 u (Fin.cons r.2 fun i => six r.1 i * y i : Fin 7 → ℝ) q.2

/-- `dynamicStabilityConstraints`, src/computeCOMTraj.cpp:62-75, with rounding: it may return `out`. -/
def StabFp (u : ℝ) (H : HRows) (g : V3) (w : Wp6) (out : List (V3 × ℝ)) : Prop :=
  ∃ raw, List.Forall₂ (StabRowFp u g w) H raw ∧ NormalizeFp u raw out

/-- One row of the kinematic constraints, src/computeCOMTraj.cpp:229-233. -/
def KinRowFp (u : ℝ) (co : Coefs) (q : V3 × ℝ) (r : V3 × ℝ) : Prop :=
  (∀ j, RoundsTo u (q.1 j * co.first) (r.1 j)) ∧ SumTo 4 u (Fin.cons q.2 fun j => -(q.1 j * co.second j) : Fin 4 → ℝ) r.2

/-- The six rows of the acceleration constraints at one sample, src/computeCOMTraj.cpp:271-276: the products with the identity are exact. -/
def AccRowsFp (u B : ℝ) (co : Coefs) (out : List (V3 × ℝ)) : Prop :=
  ∃ p q : V3, (∀ i, RoundsTo u (B - co.second i) (p i)) ∧ (∀ i, RoundsTo u (B + co.second i) (q i)) ∧
    out = (List.finRange 3).map (fun i => (co.first • unit3 i, p i)) ++ (List.finRange 3).map (fun i => (-(co.first • unit3 i), q i))

/-! ## Assembly -/

/-- The numerical parts of the assembly: the coefficients of the wrench, of the position and of the acceleration at the time of a sample, the polytope
of a contact phase, and the rows of the three kinds of constraints. -/
structure RowFns where
  w : ℝ → Out Wp6
  co : ℝ → Out Coefs
  ac : ℝ → Out Coefs
  updH : ContactData → Out HRows
  stab : HRows → V3 → Wp6 → List (V3 × ℝ)
  kin : ContactData → Coefs → List (V3 × ℝ)
  acc : Coefs → List (V3 × ℝ)

/-- The functions of the exact model. -/
noncomputable def RowFns.exact (pData : ProblemData) (T : ℝ) : RowFns where
  w t := do
    let wps ← computeWwaypoints pData.flag pData.contacts pData.bc T
    let berns ← ComputeBersteinPolynoms (BitVec.ofNat 32 (wps.length - 1)) (2 ^ 33)
    wSum wps berns (min (t / T) 1) ⟨0, 0, 0, 0⟩
  co t := do
    let pi ← computeConstantWaypoints pData.flag pData.bc T
    evaluateCurveAtTime pData.flag pi (min (t / T) 1)
  ac t := do
    let pi ← computeConstantWaypoints pData.flag pData.bc T
    evaluateAccelerationCurveAtTime pData.flag pi T (min (t / T) 1)
  updH ct := updateH pData.reduce_h ct
  stab := dynamicStabilityConstraints
  kin ct co := List.zipWith (fun K k => (co.first • K, k - K ⬝ᵥ co.second)) ct.Kin ct.kin
  acc co := accRows pData.maxAcceleration co

/-- The results that rounded arithmetic may give, for the gravity `g` of the first contact phase. -/
structure RowFns.Rounded (F : RowFns) (u : ℝ) (pData : ProblemData) (g : V3) (T : ℝ) : Prop where
  w : ∃ pts ws, ConstantWaypointsFp u pData.flag pData.bc T pts ∧ WwaypointsFp u pData.flag pts g T ws ∧
    ∀ t, ∃ s w, TimeFp u t T s ∧ WSumFp u ws s w ∧ F.w t = .ok w
  co : ∃ pts, ConstantWaypointsFp u pData.flag pData.bc T pts ∧
    ∀ t, ∃ s co, TimeFp u t T s ∧ EvaluateCurveFp u pData.flag pts s co ∧ F.co t = .ok co
  ac : ∃ pts, ConstantWaypointsFp u pData.flag pData.bc T pts ∧
    ∀ t, ∃ s co, TimeFp u t T s ∧ EvaluateAccelerationFp u pData.flag pts T s co ∧ F.ac t = .ok co
  updH : ∀ ct e, ct.contactPhase = some e → e.polyOk = true → e.mass ≠ 0 → (∀ r ∈ e.poly, r.1 ≠ 0) →
    ∃ H, List.Forall₂ (UpdateHRowFp u e.mass pData.reduce_h) e.poly H ∧ F.updH ct = .ok H
  stab : ∀ H g w, StabFp u H g w (F.stab H g w)
  kin : ∀ ct co, List.Forall₂ (KinRowFp u co) (List.zip ct.Kin ct.kin) (F.kin ct co)
  acc : ∀ co, AccRowsFp u pData.maxAcceleration co (F.acc co)

namespace RowFns
variable (F : RowFns)

/-- `assignStabilityConstraintsForTimeStep`, src/computeCOMTraj.cpp:137-147. -/
def assignStab (st : Asm) (mH : HRows) (g : V3) (w : Wp6) : Out Asm := st.put (F.stab mH g w) mH.length

/-- Loop over `stepIdForPhase` inside `assignStabilityConstraints`, src/computeCOMTraj.cpp:199-206, with `switchContactPhase` (162-173) inlined. -/
def switchLoop (pData : ProblemData) (k : ℕ) (w : Wp6) : List ℕ → ℕ × HRows × Asm → Out (ℕ × HRows × Asm)
  | [], s => .ok s
  | i :: l, (p, mH, st) =>
    if k = i then
      match pData.contacts[p + 1]? with
      | none => .ub
      | some ct =>
        match ct.contactPhase with
        | none => .ub
        | some e => do
          let mH ← F.updH ct
          let st ← F.assignStab st mH e.gravity w
          switchLoop pData k w l (p + 1, mH, st)
    else switchLoop pData k w l (p, mH, st)

/-- Loop of `assignStabilityConstraints`, src/computeCOMTraj.cpp:194-207. -/
def stabLoop (pData : ProblemData) (g : V3) (stepIdForPhase : List ℕ) : List Wp6 → ℕ → ℕ → HRows → Asm → Out Asm
  | [], _, _, _, st => .ok st
  | w :: ws, k, p, mH, st => do
    let st ← F.assignStab st mH g w
    let s ← F.switchLoop pData k w stepIdForPhase.dropLast (p, mH, st)
    stabLoop pData g stepIdForPhase ws (k + 1) s.1 s.2.1 s.2.2

/-- `assignStabilityConstraints`, src/computeCOMTraj.cpp:175-209. -/
def assignStabilityConstraints (pData : ProblemData) (st : Asm) (timeArray : TTime) (stepIdForPhase : List ℕ) : Out Asm := do
  let wps_w ← Out.mapList (fun q => F.w q.1) timeArray
  match pData.contacts[0]? with
  | none => .ub
  | some ct =>
    match ct.contactPhase with
    | none => .ub
    | some e => do
      let mH ← F.updH ct
      F.stabLoop pData e.gravity stepIdForPhase wps_w 0 0 mH st

/-- The kinematic rows of one contact phase at one sample, src/computeCOMTraj.cpp:227-236 and again 246-255. -/
def assignKin (pData : ProblemData) (st : Asm) (p : ℕ) (co : Coefs) : Out Asm :=
  match pData.contacts[p]? with
  | none => .ub
  | some ct =>
    if ct.kin.length > 0 then
      if ct.Kin.length = ct.kin.length then st.put (F.kin ct co) ct.kin.length
      else .assertFail
    else .ok st

/-- Loop over `stepIdForPhase` in `assignKinematicConstraints`, src/computeCOMTraj.cpp:239-257. -/
def kinSwitchLoop (pData : ProblemData) (k : ℕ) (co : Coefs) : List ℕ → ℕ → ℕ × Asm → Out (ℕ × Asm)
  | [], _, s => .ok s
  | s :: l, i, (p, st) =>
    if k = s then do
      let st ← F.assignKin pData st (i + 1) co
      kinSwitchLoop pData k co l (i + 1) (i + 1, st)
    else kinSwitchLoop pData k co l (i + 1) (p, st)

/-- Loop of `assignKinematicConstraints`, src/computeCOMTraj.cpp:223-258. -/
def kinLoop (pData : ProblemData) (stepIdForPhase : List ℕ) : List Coefs → ℕ → ℕ → Asm → Out Asm
  | [], _, _, st => .ok st
  | co :: cs, k, p, st => do
    let st ← F.assignKin pData st p co
    let s ← F.kinSwitchLoop pData k co stepIdForPhase.dropLast 0 (p, st)
    kinLoop pData stepIdForPhase cs (k + 1) s.1 s.2

/-- `assignKinematicConstraints`, src/computeCOMTraj.cpp:211-259. -/
def assignKinematicConstraints (pData : ProblemData) (st : Asm) (timeArray : TTime) (stepIdForPhase : List ℕ) : Out Asm := do
  let wps_c ← Out.mapList (fun q => F.co q.1) timeArray
  F.kinLoop pData stepIdForPhase wps_c 0 0 st

/-- Loop of `assignAccelerationConstraints`, src/computeCOMTraj.cpp:270-278. -/
def accLoop : List Coefs → Asm → Out Asm
  | [], st => .ok st
  | co :: cs, st => do
    let st ← st.put (F.acc co) 6
    accLoop cs st

/-- `assignAccelerationConstraints`, src/computeCOMTraj.cpp:260-280. -/
def assignAccelerationConstraints (pData : ProblemData) (st : Asm) (timeArray : TTime) : Out Asm :=
  if pData.constraintAcceleration then do
    let wps ← Out.mapList (fun q => F.ac q.1) timeArray
    F.accLoop wps st
  else .ok st

/-- `computeConstraintsOneStep`, src/computeCOMTraj.cpp:282-306. -/
noncomputable def computeConstraintsOneStep (pData : ProblemData) (numPhases : ℕ) (timeArray : TTime) : Out (Mat × Mat) := do
  let stepIdForPhase ← stepIdPerPhase timeArray
  let num_ineq ← computeNumIneq pData numPhases stepIdForPhase
  let st : Asm := { A := Buf.zero num_ineq.toNat 3, b := Buf.uninit num_ineq.toNat 1, row := 0 }
  let st ← F.assignStabilityConstraints pData st timeArray stepIdForPhase
  let st ← F.assignKinematicConstraints pData st timeArray stepIdForPhase
  let st ← F.assignAccelerationConstraints pData st timeArray
  if st.row = st.A.rows then do
    let A ← st.A.value
    let b ← st.b.value
    return (A, b)
  else .assertFail

end RowFns

end Verif
