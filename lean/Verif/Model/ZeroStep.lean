import Verif.Model.Com

/-!
# The zero step problem

Model of src/solve_0_step.cpp and of the parts of src/common_solve_methods.cpp it uses (8-54 and 88-163).
-/

namespace Verif
open Matrix

/-- `w0`, src/solve_0_step.cpp:12-21. -/
noncomputable def w0 (p0 p1 g : V3) (alpha : ℝ) : Wp6 :=
  { top := fun i j => 6 * alpha * (1 : M3) i j
    bot := fun i j => 6 * alpha * skew p0 i j
    head := fun k => 6 * alpha * (p0 k - 2 * p1 k)
    tail := eigenCross (-p0) (fun k => 12 * alpha * p1 k + g k) }

/-- `w1`, src/solve_0_step.cpp:23-32. -/
noncomputable def w1 (p0 p1 g : V3) (alpha : ℝ) : Wp6 :=
  { top := fun i j => 3 * alpha * (1 : M3) i j
    bot := fun i j => skew (fun k => 1.5 * (3 * p1 k - p0 k)) i j * alpha
    head := fun k => 1.5 * alpha * (3 * p0 k - 5 * p1 k)
    tail := fun k => eigenCross (fun k => 3 * alpha * p0 k) (-p1) k + 0.25 * (skew g *ᵥ fun k => 3 * p1 k + p0 k) k }

/-- `w2`, src/solve_0_step.cpp:34-43. -/
noncomputable def w2 (p0 p1 g : V3) (alpha : ℝ) : Wp6 :=
  { top := 0
    bot := skew (fun k => 0.5 * g k - 3 * alpha * p0 k + 3 * alpha * p1 k)
    head := fun k => 3 * alpha * (p0 k - p1 k)
    tail := fun k => 0.5 * (skew g *ᵥ p1) k }

/-- `w3`, src/solve_0_step.cpp:45-54. -/
noncomputable def w3 (p0 p1 g : V3) (alpha : ℝ) : Wp6 :=
  { top := fun i j => -3 * alpha * (1 : M3) i j
    bot := skew (fun k => g k - 1.5 * alpha * (p1 k + p0 k))
    head := fun k => 1.5 * alpha * (p1 k + p0 k)
    tail := 0 }

/-- `w4`, src/solve_0_step.cpp:56-65. -/
noncomputable def w4 (p1 g : V3) (alpha : ℝ) : Wp6 :=
  { top := fun i j => -6 * alpha * (1 : M3) i j
    bot := skew (fun k => g k - 6 * alpha * p1 k)
    head := fun k => 6 * alpha * p1 k
    tail := 0 }

/-- `u0`, src/solve_0_step.cpp:67-74. -/
noncomputable def u0 (l0 : V3) (alpha : ℝ) : Wp6 :=
  { top := 0, bot := fun i j => 3 * alpha * (1 : M3) i j, head := 0, tail := fun k => -3 * alpha * l0 k }

/-- `u1`, src/solve_0_step.cpp:76-83. -/
noncomputable def u1 (l0 : V3) (alpha : ℝ) : Wp6 :=
  { top := 0, bot := 0, head := 0, tail := fun k => -1.5 * alpha * l0 k }

/-- `u2`, src/solve_0_step.cpp:85-92. -/
noncomputable def u2 (l0 : V3) (alpha : ℝ) : Wp6 :=
  { top := 0, bot := fun i j => -1.5 * alpha * (1 : M3) i j, head := 0, tail := fun k => -l0 k / 2 * alpha }

/-- `u3`, src/solve_0_step.cpp:94-100. -/
noncomputable def u3 (alpha : ℝ) : Wp6 :=
  { top := 0, bot := fun i j => -1.5 * alpha * (1 : M3) i j, head := 0, tail := 0 }

/-- `u4`, src/solve_0_step.cpp:102-109. -/
def u4 : Wp6 := { top := 0, bot := 0, head := 0, tail := 0 }

/-- `computeNumSteps`, src/solve_0_step.cpp:111-113. The conversion of a `double` to `int` truncates and is
undefined when the result does not fit in 32 bits. -/
noncomputable def computeNumSteps (T timeStep : ℝ) : Out ℤ :=
  open Classical in
  if timeStep > 0 then
    let n : ℤ := if 0 ≤ T / timeStep then ⌊T / timeStep⌋ else ⌈T / timeStep⌉
    if -2 ^ 31 ≤ n ∧ n < 2 ^ 31 then .ok n else .ub
  else .ok (-1)

/-- `ComputeDiscretizedWaypoints`, src/common_solve_methods.cpp:8-23, for `numSteps > 0`; the five waypoints and
polynomials must exist, `numSteps + 1` must not overflow. -/
noncomputable def ComputeDiscretizedWaypoints (wps : List Wp6) (berns : List Bern) (numSteps : ℕ) : Out (List Wp6) :=
  if wps.length < 5 ∨ berns.length < 5 ∨ 2 ^ 31 ≤ numSteps + 1 then .ub
  else
    let dt : ℝ := 1 / (numSteps : ℝ)
    Out.mapList (fun i : ℕ => wSum (wps.take 5) berns (i * dt) ⟨0, 0, 0, 0⟩) (List.range (numSteps + 1))

/-- The end of `ComputeAllWaypoints` and of `ComputeAllWaypointsAngularMomentum`, src/solve_0_step.cpp:131-134
and 148-151. -/
noncomputable def discretizeIf (numSteps : ℤ) (wps : List Wp6) : Out (List Wp6) :=
  if numSteps > 0 then do
    let berns ← ComputeBersteinPolynoms 4#32 (2 ^ 33)
    ComputeDiscretizedWaypoints wps berns numSteps.toNat
  else .ok wps

/-- `ComputeAllWaypoints`, src/solve_0_step.cpp:115-136. -/
noncomputable def ComputeAllWaypoints (p0 dc0 g : V3) (T timeStep : ℝ) : Out (List Wp6) := do
  let numSteps ← computeNumSteps T timeStep
  let p1 : V3 := fun k => dc0 k * T / 3 + p0 k
  let alpha : ℝ := 1 / (T * T)
  discretizeIf numSteps [w0 p0 p1 g alpha, w1 p0 p1 g alpha, w2 p0 p1 g alpha, w3 p0 p1 g alpha, w4 p1 g alpha]

/-- `ComputeAllWaypointsAngularMomentum`, src/solve_0_step.cpp:138-153. -/
noncomputable def ComputeAllWaypointsAngularMomentum (l0 : V3) (T timeStep : ℝ) : Out (List Wp6) := do
  let numSteps ← computeNumSteps T timeStep
  let alpha : ℝ := 1 / T
  discretizeIf numSteps [u0 l0 alpha, u1 l0 alpha, u2 l0 alpha, u3 alpha, u4]

/-- Row `(u, v)` times the 6x3 matrix of a waypoint. -/
def rowMul (r : V3 × V3) (w : Wp6) : V3 := r.1 ᵥ* w.top + r.2 ᵥ* w.bot

/-- Row `(u, v)` times a 6-vector. -/
def rowDot (r : V3 × V3) (f τ : V3) : ℝ := r.1 ⬝ᵥ f + r.2 ⬝ᵥ τ

/-- The loop of `compute6dControlPointInequalities`, src/common_solve_methods.cpp:115-125. -/
noncomputable def loop6d (m : ℝ) (g : V3) (H : List (V3 × V3)) (useAng : Bool) :
    List Wp6 → List Wp6 → ℕ → Buf → Buf → Out (Buf × Buf)
  | [], _, _, A, b => .ok (A, b)
  | w :: ws, wpL, i, A, b => do
    let A ← A.writeRows (i * H.length) 0 (H.map fun r => m • rowMul r w)
    let b ← b.writeSeg (i * H.length) (H.map fun r => m * rowDot r (g - w.head) (0 - w.tail))
    if useAng then
      match wpL with
      | [] => .ub
      | u :: us => do
        let A ← A.writeRows (i * H.length) 3 (H.map fun r => rowMul r u)
        let b ← b.writeSeg (i * H.length)
          (H.map fun r => m * rowDot r (g - w.head) (0 - w.tail) + rowDot r (-u.head) (-u.tail))
        loop6d m g H useAng ws us (i + 1) A b
    else loop6d m g H useAng ws wpL (i + 1) A b

/-- `addKinematic`, src/common_solve_methods.cpp:39-45. A negative row index is undefined. -/
def addKinematic (A b : Buf) (Kin : List V3) (kin : List ℝ) (other : ℕ) : Out (Buf × Buf) :=
  if kin.length = 0 then .ok (A, b)
  else if Kin.length = kin.length then
    if kin.length + other ≤ A.rows then do
      let A' ← A.writeRows (A.rows - kin.length - other) 0 Kin
      let b' ← b.writeSeg (A.rows - kin.length - other) kin
      return (A', b')
    else .ub
  else .assertFail

/-- `addAngularMomentum`, src/common_solve_methods.cpp:47-54. -/
def addAngularMomentum (A b : Buf) (Ang : List V3) (ang : List ℝ) : Out (Buf × Buf) :=
  if ang.length > 0 then
    if Ang.length = ang.length then
      if ang.length ≤ A.rows ∧ ang.length ≤ b.rows then do
        let A' ← A.writeRows (A.rows - ang.length) 3 Ang
        let b' ← b.writeSeg (b.rows - ang.length) ang
        return (A', b')
      else .ub
    else .assertFail
  else .ok (A, b)

/-- `if (useAngMomentum) addAngularMomentum(A, b, cData.Kin_, cData.kin_)`,
src/common_solve_methods.cpp:127: the kinematic constraints are passed again. -/
def addAngularIf (useAng : Bool) (cData : ContactData) (q : Buf × Buf) : Out (Buf × Buf) :=
  if useAng then addAngularMomentum q.1 q.2 cData.Kin cData.kin else .ok q

/-- `compute6dControlPointInequalities`, src/common_solve_methods.cpp:88-141 (`fail` is always false). The right-hand
side of the polytope is not used. `H.rowwise().normalize()` makes NaNs from a zero row, which `assert(!is_nan(A))`
rejects in the solver (src/solver-abstract.cpp:89): modelled as an assertion failure here. When
`getPolytopeInequalities` fails `H` has no columns and the product `mH * wpcit->first` violates an assertion. -/
noncomputable def compute6dControlPointInequalities (cData : ContactData) (wps wpL : List Wp6) (useAng : Bool) :
    Out (Mat × Mat) :=
  open Classical in
  match cData.contactPhase with
  | none => .ub
  | some e =>
    if e.isPP ∧ e.polyOk ∧ ∀ r ∈ e.poly, r.1 ≠ 0 then do
      let H := e.poly.map fun r => (-((norm6 r.1)⁻¹ • r.1.1), -((norm6 r.1)⁻¹ • r.1.2))
      let dimAng := if useAng then cData.ang.length else 0
      let rows := H.length * wps.length + (cData.kin.length + dimAng)
      let q ← loop6d e.mass e.gravity H useAng wps wpL 0 (Buf.zero rows (if useAng then 6 else 3)) (Buf.zero rows 1)
      let q ← addKinematic q.1 q.2 cData.Kin cData.kin dimAng
      let q ← addAngularIf useAng cData q
      let A ← q.1.value
      let b ← q.2.value
      return (A, b)
    else .assertFail

/-- `ComputeAllWaypointsAngularMomentum` when it is needed, src/solve_0_step.cpp:172. -/
noncomputable def angularWaypoints (useAng : Bool) (l0 : V3) (T timeStep : ℝ) : Out (List Wp6) :=
  if useAng then ComputeAllWaypointsAngularMomentum l0 T timeStep else .ok []

/-- The other `compute6dControlPointInequalities`, src/solve_0_step.cpp:165-175. -/
noncomputable def zeroStepInequalities (cData : ContactData) (c0 dc0 l0 : V3) (useAng : Bool) (T timeStep : ℝ) :
    Out (Mat × Mat) :=
  match cData.contactPhase with
  | none => .ub
  | some e => do
    let wps ← ComputeAllWaypoints c0 dc0 e.gravity T timeStep
    let wpL ← angularWaypoints useAng l0 T timeStep
    compute6dControlPointInequalities cData wps wpL useAng

/-- `computeCostFunction`, src/solve_0_step.cpp:177-197. -/
noncomputable def zeroStepCost (p0 l0 : V3) (useAng : Bool) : Mat × Mat :=
  let dimPb := if useAng then 6 else 3
  let weightDist : ℝ := if useAng then 0.0001 else 1
  ({ rows := dimPb, cols := dimPb, e := fun r c =>
      if r < 3 ∧ c < 3 then (if r = c then weightDist else 0)
      else if 3 ≤ r ∧ 3 ≤ c then (if r = c then 6 / 5 else 0) else 0 },
   { rows := dimPb, cols := 1, e := fun r _ =>
      if r < 3 then -V3.get p0 r * weightDist else 0.5 * (-(9 * V3.get l0 (r - 3)) / 5) })

/-- `x.tail(3)`. -/
def tail3 (x : List ℝ) : Out V3 :=
  if 3 ≤ x.length then .ok fun k => x.getD (x.length - 3 + k) 0 else .ub

/-- `computeRealCost`, src/solve_0_step.cpp:199-206. -/
noncomputable def computeRealCost (pData : ProblemData) (x : List ℝ) : Out ℝ :=
  if pData.useAngularMomentum then do
    let xL ← tail3 x
    return 1 / 5 * (9 * (pData.l0 ⬝ᵥ pData.l0) - 9 * (pData.l0 ⬝ᵥ xL) + 6 * (xL ⬝ᵥ xL))
  else if x.length = 3 then
    .ok (eNorm fun k : Fin 3 => pData.bc.c0 k - x.getD k 0)
  else .assertFail

/-- `computeC_of_T`, src/solve_0_step.cpp:208-216. -/
noncomputable def zeroStepCurve (pData : ProblemData) (T : ℝ) (x : List ℝ) : Out Bezier := do
  let p ← head3 x
  mkBezier [pData.bc.c0, fun k => pData.bc.dc0 k * T / 3 + pData.bc.c0 k, p, p] T 1

/-- `computedL_of_T`, src/solve_0_step.cpp:218-228. -/
noncomputable def computedL_of_T (pData : ProblemData) (T : ℝ) (x : List ℝ) : Out Bezier :=
  if pData.useAngularMomentum then do
    let xL ← tail3 x
    mkBezier [fun k => 3 * (xL k - pData.l0 k), fun k => 3 * -xL k, 0] T (1 / T)
  else .ok (Bezier.zero T)

/-- The end of `solve0step`, src/solve_0_step.cpp:251-257. -/
noncomputable def zeroStepResult (pData : ProblemData) (T : ℝ) (resQp : ResultData) : Out ResultDataCOMTraj :=
  if resQp.success then do
    let cost ← computeRealCost pData resQp.x
    let c ← zeroStepCurve pData T resQp.x
    let dL ← computedL_of_T pData T resQp.x
    return { ResultDataCOMTraj.default with success := true, cost := cost, x := resQp.x, c_of_t := c, dL_of_t := dL }
  else .ok ResultDataCOMTraj.default

/-- `init`, src/solve_0_step.cpp:246-248. -/
def zeroStepInit (pData : ProblemData) : List ℝ :=
  List.ofFn pData.bc.c0 ++ (if pData.useAngularMomentum then List.ofFn pData.l0 else [])

/-- `solve0step`, src/solve_0_step.cpp:231-259, with the overload of `solve` it calls
(src/common_solve_methods.cpp:151-163: no equalities, no bounds, the quadratic solver). -/
noncomputable def solve0step (lib : Lib) (fuel : ℕ) (pData : ProblemData) (Ts : List ℝ) (timeStep : ℝ) :
    Out ResultDataCOMTraj :=
  if pData.representation = DOUBLE_DESCRIPTION then
    match pData.contacts, Ts with
    | [ct], [T] => do
      let Ab ← zeroStepInequalities ct pData.bc.c0 pData.bc.dc0 pData.l0 pData.useAngularMomentum T timeStep
      let Hg := zeroStepCost pData.bc.c0 pData.l0 pData.useAngularMomentum
      let resQp ← solversSolve lib fuel Ab.1 Ab.2 (Mat.noRows Ab.1.cols) (Mat.noRows 1) Hg.1 Hg.2
        (zeroStepInit pData) [] [] SOLVER_QUADPROG
      zeroStepResult pData T resQp
    | _, _ => .assertFail
  else .assertFail

end Verif
