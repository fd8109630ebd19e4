import Verif.Model.Rows
import Verif.Model.Utils
import Verif.Model.Dispatch

/-!
# Discretised constraints

Model of src/computeCOMTraj.cpp:21-306 (discretised formulation) and of
include/hpp/bezier-com-traj/common_solve_methods.inl. Divisions by the total duration assume it
is not zero (with `T = 0` the C++ code computes NaNs).
-/

namespace Verif
open Matrix

/-- Applying a function that may fail to all elements, in order (a `for` loop with `push_back`). -/
def Out.mapList {α β : Type} (f : α → Out β) : List α → Out (List β)
  | [] => .ok []
  | a :: l => do
    let b ← f a
    let r ← Out.mapList f l
    return b :: r

/-- `w.first += b * wp.first; w.second += b * wp.second`, src/computeCOMTraj.cpp:35-36. -/
def Wp6.addScaled (w : Wp6) (b : ℝ) (p : Wp6) : Wp6 :=
  { top := w.top + b • p.top, bot := w.bot + b • p.bot,
    head := w.head + b • p.head, tail := w.tail + b • p.tail }

/-- Inner loop of `computeDiscretizedWwaypoints`, src/computeCOMTraj.cpp:33-37; reading `berns[j]`
past the end is undefined behaviour. -/
noncomputable def wSum : List Wp6 → List Bern → ℝ → Wp6 → Out Wp6
  | [], _, _, w => .ok w
  | p :: ps, b :: bs, t, w => wSum ps bs t (w.addScaled (b.eval t) p)
  | _ :: _, [], _, _ => .ub

/-- `computeDiscretizedWwaypoints`, src/computeCOMTraj.cpp:21-41. `dimVar` is 3 for every flag
accepted by `computeWwaypoints`. The Bernstein loop is given `2^33` iterations, more than the
32 bit counter can take. -/
noncomputable def computeDiscretizedWwaypoints (pData : ProblemData) (T : ℝ) (timeArray : TTime) :
    Out (List Wp6) := do
  let wps ← computeWwaypoints pData.flag pData.contacts pData.bc T
  let berns ← ComputeBersteinPolynoms (BitVec.ofNat 32 (wps.length - 1)) (2 ^ 33)
  Out.mapList (fun q => wSum wps berns (min (q.1 / T) 1) ⟨0, 0, 0, 0⟩) timeArray

/-- `computeDiscretizedWaypoints`, common_solve_methods.inl:4-16. -/
noncomputable def computeDiscretizedWaypoints (pData : ProblemData) (T : ℝ) (timeArray : TTime) :
    Out (List Coefs) := do
  let pi ← computeConstantWaypoints pData.flag pData.bc T
  Out.mapList (fun q => evaluateCurveAtTime pData.flag pi (min (q.1 / T) 1)) timeArray

/-- `computeDiscretizedAccelerationWaypoints`, common_solve_methods.inl:18-30. -/
noncomputable def computeDiscretizedAccelerationWaypoints (pData : ProblemData) (T : ℝ)
    (timeArray : TTime) : Out (List Coefs) := do
  let pi ← computeConstantWaypoints pData.flag pData.bc T
  Out.mapList (fun q => evaluateAccelerationCurveAtTime pData.flag pi T (min (q.1 / T) 1)) timeArray

/-- Rows of a wrench inequality system `mH w <= h`. -/
abbrev HRows := List ((V3 × V3) × ℝ)

/-- `dynamicStabilityConstraints`, src/computeCOMTraj.cpp:62-75. The status returned by `Normalize`
is ignored, as in the code. -/
noncomputable def dynamicStabilityConstraints (mH : HRows) (g : V3) (w : Wp6) : List (V3 × ℝ) :=
  (Normalize (mH.map fun r =>
    (r.1.1 ᵥ* w.top + r.1.2 ᵥ* w.bot,
      r.2 + (r.1.1 ⬝ᵥ (g - w.head) + r.1.2 ⬝ᵥ (0 - w.tail))))).1

/-- Norm of a row of six coefficients. -/
noncomputable def norm6 (r : V3 × V3) : ℝ := Real.sqrt (r.1 ⬝ᵥ r.1 + r.2 ⬝ᵥ r.2)

/-- `updateH`, src/computeCOMTraj.cpp:121-135. `mH.rowwise().normalize()` divides every row by its
norm; a zero row would give NaN coefficients, which `assert(!is_nan(A))` in the solver
(src/solver-abstract.cpp:89) rejects: modelled as an assertion failure here. -/
noncomputable def updateH (reduce_h : ℝ) (phase : ContactData) : Out HRows :=
  open Classical in
  match phase.contactPhase with
  | none => .ub
  | some e =>
    if e.polyOk then
      let mH := e.poly.map fun r => ((-(e.mass • r.1.1), -(e.mass • r.1.2)), r.2)
      if ∀ r ∈ mH, r.1 ≠ 0 then
        .ok (mH.map fun r =>
          (((norm6 r.1)⁻¹ • r.1.1, (norm6 r.1)⁻¹ • r.1.2),
            if 0 < reduce_h then r.2 - reduce_h else r.2))
      else .assertFail
    else .assertFail

/-- Loop of `stepIdPerPhase`, src/computeCOMTraj.cpp:81-90. -/
def stepIdGo : ℕ → List ℤ → List ℕ
  | i, a :: b :: rest => (if b ≠ a then [i] else []) ++ stepIdGo (i + 1) (b :: rest)
  | i, _ => [i]

/-- `stepIdPerPhase`, src/computeCOMTraj.cpp:77-91. On an empty array `begin() + 1` is past the
end. -/
def stepIdPerPhase (timeArray : TTime) : Out (List ℕ) :=
  if timeArray = [] then .ub else .ok (stepIdGo 0 (timeArray.map (·.2)))

/-- Loop of `computeNumIneq`, src/computeCOMTraj.cpp:102-113, over the phases `i, i+1, ...`
(`n` of them): the two counters `num_stab_ineq`, `num_kin_ineq` added together. -/
def numIneqLoop (contacts : List ContactData) (phaseSwitch : List ℕ) :
    ℕ → ℕ → ℤ → ℤ → Out ℤ
  | 0, _, _, acc => .ok acc
  | n + 1, i, cumulated, acc =>
    match contacts[i]?, phaseSwitch[i]? with
    | some ct, some ps =>
      match ct.contactPhase with
      | none => .ub
      | some e =>
        let numStep : ℤ := ps + 1 - cumulated
        let numStep := if i > 0 then numStep + 1 else numStep
        numIneqLoop contacts phaseSwitch n (i + 1) (ps + 1)
          (acc + e.poly.length * numStep + ct.kin.length * numStep)
    | _, _ => .ub

/-- `computeNumIneq`, src/computeCOMTraj.cpp:93-119. -/
def computeNumIneq (pData : ProblemData) (numPhases : ℕ) (phaseSwitch : List ℕ) : Out ℤ :=
  match phaseSwitch.getLast? with
  | none => .ub
  | some b => do
    let res ← numIneqLoop pData.contacts phaseSwitch numPhases 0 0 0
    return if pData.constraintAcceleration then res + 2 * 3 * ((b : ℤ) + 1) else res

/-- The matrices being filled and the current row `id_rows`. -/
structure Asm where
  A : Buf
  b : Buf
  row : ℕ

/-- Writing the rows `M` at the current position of `A` (first three columns) and `b`, then
advancing by `n`. -/
def Asm.put (st : Asm) (M : List (V3 × ℝ)) (n : ℕ) : Out Asm := do
  let A ← st.A.writeRows st.row 0 (M.map (·.1))
  let b ← st.b.writeSeg st.row (M.map (·.2))
  return { A := A, b := b, row := st.row + n }

/-- `assignStabilityConstraintsForTimeStep`, src/computeCOMTraj.cpp:137-147. -/
noncomputable def assignStabilityConstraintsForTimeStep (st : Asm) (mH : HRows) (g : V3) (w : Wp6) :
    Out Asm :=
  st.put (dynamicStabilityConstraints mH g w) mH.length

/-- Loop over `stepIdForPhase` inside `assignStabilityConstraints`, src/computeCOMTraj.cpp:199-206,
with `switchContactPhase` (162-173) inlined. -/
noncomputable def switchLoop (pData : ProblemData) (k : ℕ) (w : Wp6) :
    List ℕ → ℕ × HRows × Asm → Out (ℕ × HRows × Asm)
  | [], s => .ok s
  | i :: l, (p, mH, st) =>
    if k = i then
      match pData.contacts[p + 1]? with
      | none => .ub
      | some ct =>
        match ct.contactPhase with
        | none => .ub
        | some e => do
          let mH ← updateH pData.reduce_h ct
          let st ← assignStabilityConstraintsForTimeStep st mH e.gravity w
          switchLoop pData k w l (p + 1, mH, st)
    else switchLoop pData k w l (p, mH, st)

/-- Loop of `assignStabilityConstraints`, src/computeCOMTraj.cpp:194-207; `g` is the gravity of the
first contact phase. -/
noncomputable def stabLoop (pData : ProblemData) (g : V3) (stepIdForPhase : List ℕ) :
    List Wp6 → ℕ → ℕ → HRows → Asm → Out Asm
  | [], _, _, _, st => .ok st
  | w :: ws, k, p, mH, st => do
    let st ← assignStabilityConstraintsForTimeStep st mH g w
    let s ← switchLoop pData k w stepIdForPhase.dropLast (p, mH, st)
    stabLoop pData g stepIdForPhase ws (k + 1) s.1 s.2.1 s.2.2

/-- `assignStabilityConstraints`, src/computeCOMTraj.cpp:175-209. -/
noncomputable def assignStabilityConstraints (pData : ProblemData) (st : Asm) (timeArray : TTime)
    (t_total : ℝ) (stepIdForPhase : List ℕ) : Out Asm := do
  let wps_w ← computeDiscretizedWwaypoints pData t_total timeArray
  match pData.contacts[0]? with
  | none => .ub
  | some ct =>
    match ct.contactPhase with
    | none => .ub
    | some e => do
      let mH ← updateH pData.reduce_h ct
      stabLoop pData e.gravity stepIdForPhase wps_w 0 0 mH st

/-- The kinematic rows of one contact phase at one sample, src/computeCOMTraj.cpp:227-236 and
again 246-255. Different row counts of `Kin_` and `kin_` violate an Eigen assertion. -/
noncomputable def assignKin (pData : ProblemData) (st : Asm) (p : ℕ) (co : Coefs) : Out Asm :=
  match pData.contacts[p]? with
  | none => .ub
  | some ct =>
    if ct.kin.length > 0 then
      if ct.Kin.length = ct.kin.length then
        st.put (List.zipWith (fun K k => (co.first • K, k - K ⬝ᵥ co.second)) ct.Kin ct.kin)
          ct.kin.length
      else .assertFail
    else .ok st

/-- Loop over `stepIdForPhase` in `assignKinematicConstraints`, src/computeCOMTraj.cpp:239-257;
`i` is the index in the vector. -/
noncomputable def kinSwitchLoop (pData : ProblemData) (k : ℕ) (co : Coefs) :
    List ℕ → ℕ → ℕ × Asm → Out (ℕ × Asm)
  | [], _, s => .ok s
  | s :: l, i, (p, st) =>
    if k = s then do
      let st ← assignKin pData st (i + 1) co
      kinSwitchLoop pData k co l (i + 1) (i + 1, st)
    else kinSwitchLoop pData k co l (i + 1) (p, st)

/-- Loop of `assignKinematicConstraints`, src/computeCOMTraj.cpp:223-258. -/
noncomputable def kinLoop (pData : ProblemData) (stepIdForPhase : List ℕ) :
    List Coefs → ℕ → ℕ → Asm → Out Asm
  | [], _, _, st => .ok st
  | co :: cs, k, p, st => do
    let st ← assignKin pData st p co
    let s ← kinSwitchLoop pData k co stepIdForPhase.dropLast 0 (p, st)
    kinLoop pData stepIdForPhase cs (k + 1) s.1 s.2

/-- `assignKinematicConstraints`, src/computeCOMTraj.cpp:211-259. -/
noncomputable def assignKinematicConstraints (pData : ProblemData) (st : Asm) (timeArray : TTime)
    (t_total : ℝ) (stepIdForPhase : List ℕ) : Out Asm := do
  let wps_c ← computeDiscretizedWaypoints pData t_total timeArray
  kinLoop pData stepIdForPhase wps_c 0 0 st

/-- Unit vectors. -/
def unit3 (i : Fin 3) : V3 := fun j => if j = i then 1 else 0

/-- The six rows written for one sample, src/computeCOMTraj.cpp:271-276. -/
noncomputable def accRows (bound : ℝ) (co : Coefs) : List (V3 × ℝ) :=
  (List.finRange 3).map (fun i => (co.first • unit3 i, bound - co.second i)) ++
  (List.finRange 3).map (fun i => (-(co.first • unit3 i), bound + co.second i))

/-- Loop of `assignAccelerationConstraints`, src/computeCOMTraj.cpp:270-278 (the two blocks of three
rows are written as one block of six). -/
noncomputable def accLoop (bound : ℝ) : List Coefs → Asm → Out Asm
  | [], st => .ok st
  | co :: cs, st => do
    let st ← st.put (accRows bound co) 6
    accLoop bound cs st

/-- `assignAccelerationConstraints`, src/computeCOMTraj.cpp:260-280. -/
noncomputable def assignAccelerationConstraints (pData : ProblemData) (st : Asm) (timeArray : TTime)
    (t_total : ℝ) : Out Asm :=
  if pData.constraintAcceleration then do
    let wps ← computeDiscretizedAccelerationWaypoints pData t_total timeArray
    accLoop pData.maxAcceleration wps st
  else .ok st

/-- `computeConstraintsOneStep`, src/computeCOMTraj.cpp:282-306; `numPhases` is `Ts.size()`. The
result is read by the solver: an unassigned coefficient is undefined behaviour. -/
noncomputable def computeConstraintsOneStep (pData : ProblemData) (numPhases : ℕ) (t_total : ℝ)
    (timeArray : TTime) : Out (Mat × Mat) := do
  let stepIdForPhase ← stepIdPerPhase timeArray
  let num_ineq ← computeNumIneq pData numPhases stepIdForPhase
  let st : Asm := { A := Buf.zero num_ineq.toNat 3, b := Buf.uninit num_ineq.toNat 1, row := 0 }
  let st ← assignStabilityConstraints pData st timeArray t_total stepIdForPhase
  let st ← assignKinematicConstraints pData st timeArray t_total stepIdForPhase
  let st ← assignAccelerationConstraints pData st timeArray t_total
  if st.row = st.A.rows then do
    let A ← st.A.value
    let b ← st.b.value
    return (A, b)
  else .assertFail

end Verif
