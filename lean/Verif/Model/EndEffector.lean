import Verif.Model.Com
import Verif.Model.Dispatch

/-!
# The end effector planner

Model of include/hpp/bezier-com-traj/solve_end_effector.hh. A `waypoint_t` is a `WpB K` where `3 K` is the number of
unknowns; a cost is given by the factors of the 3x3 identity in the blocks of `H` and by the blocks of `g`. A `Path`
is a function from the reals to points. A norm equal to zero, by which the code divides, gives NaN in the code and
`assertFail` here.
-/

namespace Verif
open Matrix

/-- `computeConstantWaypointsInitPredef`, solve_end_effector.hh:47-70. -/
noncomputable def computeConstantWaypointsInitPredef (d : BC) (T : ℝ) : List V3 :=
  let n : ℝ := 4
  [d.c0,
   (fun k => d.dc0 k * T / n + d.c0 k),
   (fun k => (n * n * d.c0 k - n * d.c0 k + 2 * n * d.dc0 k * T - 2 * d.dc0 k * T + d.ddc0 k * T * T) / (n * (n - 1))),
   (fun k => (n * n * d.c0 k - n * d.c0 k + 3 * n * d.dc0 k * T - 3 * d.dc0 k * T + 3 * d.ddc0 k * T * T) / (n * (n - 1))),
   d.c1]

/-- `computeConstantWaypointsGoalPredef`, solve_end_effector.hh:74-97. -/
noncomputable def computeConstantWaypointsGoalPredef (d : BC) (T : ℝ) : List V3 :=
  let n : ℝ := 4
  [d.c0,
   (fun k => (n * n * d.c1 k - n * d.c1 k - 3 * n * d.dc1 k * T + 3 * d.dc1 k * T + 3 * d.ddc1 k * T * T) / (n * (n - 1))),
   (fun k => (n * n * d.c1 k - n * d.c1 k - 2 * n * d.dc1 k * T + 2 * d.dc1 k * T + d.ddc1 k * T * T) / (n * (n - 1))),
   (fun k => -d.dc1 k * T / n + d.c1 k),
   d.c1]

/-! ## Constraints -/

/-- Row `r` (of 3), column `c` (of `3 K`) of `first`. -/
def WpB.entry {K : ℕ} (w : WpB K) (r c : ℕ) : ℝ :=
  if c % 3 = r then (if h : c / 3 < K then w.first ⟨c / 3, h⟩ else 0) else 0

/-- `first.isZero(std::numeric_limits<double>::epsilon())`, solve_end_effector.hh:117, 122, 127. -/
def WpB.isZero {K : ℕ} (w : WpB K) : Prop := ∀ j, |w.first j| ≤ 1 / 2 ^ 52

/-- The number of waypoints with `!first.isZero(epsilon)`: `size() - empty`, solve_end_effector.hh:112-138. -/
noncomputable def countBound {K : ℕ} : List (WpB K) → ℕ
  | [] => 0
  | w :: ws => open Classical in if w.isZero then countBound ws else countBound ws + 1

/-- One loop over waypoints, solve_end_effector.hh:142-196; `s` is `1` for an upper and `-1` for a lower bound:
`A.block(3 i, 0, 3, DIM_VAR) = s first`, `b.segment<3>(3 i) = bounds - s second`. -/
noncomputable def boundLoop {K : ℕ} (s : ℝ) (bounds : V3) : List (WpB K) → ℕ → Buf → Buf → Out (ℕ × Buf × Buf)
  | [], i, A, b => .ok (i, A, b)
  | w :: ws, i, A, b =>
    open Classical in
    if w.isZero then boundLoop s bounds ws i A b
    else do
      let A ← A.write (i * 3) 0 3 (3 * K) fun r c => s * w.entry r c
      let b ← b.write (i * 3) 0 3 1 fun r _ => V3.get (bounds - s • w.second) r
      boundLoop s bounds ws (i + 1) A b

/-- `computeConstraintsMatrix`, solve_end_effector.hh:99-222, with `K = dimVar / 3`. The upper bound of the jerk is
`vel_bounds`, as in the code (line 184). The loop of lines 204-208 is written in closed form. -/
noncomputable def computeConstraintsMatrix {K : ℕ} (d : BC) (wps_acc wps_vel : List (WpB K)) (acc_bounds vel_bounds : V3)
    (wps_jerk : List (WpB K)) (jerk_bounds : V3) : Out (Mat × Mat) := do
  let n := 2 * 3 * (countBound wps_acc + countBound wps_vel + countBound wps_jerk) + 3 * K
  let A := Buf.zero n (3 * K)
  let b := Buf.zero n 1
  let s ← boundLoop 1 acc_bounds wps_acc 0 A b
  let s ← boundLoop (-1) acc_bounds wps_acc s.1 s.2.1 s.2.2
  let s ← boundLoop 1 vel_bounds wps_vel s.1 s.2.1 s.2.2
  let s ← boundLoop (-1) vel_bounds wps_vel s.1 s.2.1 s.2.2
  let s ← boundLoop 1 vel_bounds wps_jerk s.1 s.2.1 s.2.2
  let s ← boundLoop (-1) jerk_bounds wps_jerk s.1 s.2.1 s.2.2
  let A ← s.2.1.write (s.1 * 3) 0 (3 * K) (3 * K) fun r c => if r = c ∧ r % 3 = 2 then -1 else 0
  let b ← s.2.2.write (s.1 * 3) 0 (3 * K) 1 fun r _ => if r % 3 = 2 then -(min (d.c0 2) (d.c1 2)) else 0
  if s.1 * 3 + 3 * K = A.rows then do
    let A ← A.value
    let b ← b.value
    return (A, b)
  else .assertFail

/-- Waypoints with another number of columns than `3 K` violate an Eigen assertion when they are copied. -/
def asPts (K : ℕ) (ws : Σ K : ℕ, List (WpB K)) : Out (List (WpB K)) :=
  if h : ws.1 = K then .ok (h ▸ ws.2) else .assertFail

/-- `computeEndEffectorConstraints`, solve_end_effector.hh:364-380. -/
noncomputable def computeEndEffectorConstraints (flag : Flag) (d : BC) (T : ℝ) (pi : List V3) : Out (Mat × Mat) := do
  let jerk ← computeJerkWaypoints flag d T pi
  let acc ← computeAccelerationWaypoints flag d T pi
  let vel ← computeVelocityWaypoints flag d T pi
  let wps_jerk ← asPts (dimVarPts flag) jerk
  let wps_acc ← asPts (dimVarPts flag) acc
  let wps_vel ← asPts (dimVarPts flag) vel
  computeConstraintsMatrix d wps_acc wps_vel (fun _ => 10000) (fun _ => 10000) wps_jerk (fun _ => 10000)

/-! ## Costs -/

/-- A cost: factors of the identity in the blocks of `H`, blocks of `g`. -/
abbrev BlockCost (K : ℕ) := Matrix (Fin K) (Fin K) ℝ × (Fin K → V3)

/-- A waypoint with another number of columns violates an Eigen assertion when it is used with `H` and `g`. -/
def asPt (K : ℕ) (w : WpS) : Out (WpB K) :=
  if h : w.1 = K then .ok (h ▸ w.2) else .assertFail

/-- `H += first^T first`, `g += first^T (second - p)`, solve_end_effector.hh:241-242 (and 327-328, 352-353 with
`p = 0`). -/
def addSquare {K : ℕ} (c : BlockCost K) (w : WpB K) (p : V3) : BlockCost K :=
  (fun a b => c.1 a b + w.first a * w.first b, fun a => c.2 a + w.first a • (w.second - p))

/-- The loop of solve_end_effector.hh:235-243, from sample `i` on, in steps of `step`. -/
noncomputable def distanceLoop (flag : Flag) (pi : List V3) (step : ℝ) :
    List V3 → ℕ → BlockCost (dimVarPts flag) → Out (BlockCost (dimVarPts flag))
  | [], _, c => .ok c
  | p :: ps, i, c => do
    let w ← evaluateCurveWaypointAtTime flag pi ((i : ℝ) * step)
    let w ← asPt (dimVarPts flag) w
    distanceLoop flag pi step ps (i + 1) (addSquare c w p)

/-- `H /= norm; g /= norm`, solve_end_effector.hh:244-246. -/
noncomputable def divideByNorm {K : ℕ} (c : BlockCost K) : Out (BlockCost K) :=
  open Classical in
  if blockNorm c.1 = 0 then .assertFail else .ok (normalizeCost c.1 c.2)

/-- `computeDistanceCostFunction` on points, solve_end_effector.hh:224-248. With one point the step is infinite and the
first sampling time NaN. -/
noncomputable def computeDistanceCostFunction (flag : Flag) (d : BC) (T : ℝ) (numPoints : ℕ) (pts_path : List V3) :
    Out (BlockCost (dimVarPts flag)) :=
  if numPoints = pts_path.length ∧ numPoints ≠ 1 then do
    let pi ← computeConstantWaypoints flag d T
    let c ← distanceLoop flag pi (1 / ((numPoints : ℝ) - 1)) pts_path 0 (0, 0)
    divideByNorm c
  else .assertFail

/-- The points of solve_end_effector.hh:253-256. -/
noncomputable def samplePath (numPoints : ℕ) (path : ℝ → V3) : List V3 :=
  (List.range numPoints).map fun i : ℕ => path ((i : ℝ) * (1 / ((numPoints : ℝ) - 1)))

/-- `computeDistanceCostFunction` on a path, solve_end_effector.hh:250-258. -/
noncomputable def computeDistanceCostFunctionPath (flag : Flag) (d : BC) (T : ℝ) (numPoints : ℕ) (path : ℝ → V3) :
    Out (BlockCost (dimVarPts flag)) :=
  computeDistanceCostFunction flag d T numPoints (samplePath numPoints path)

/-- The block-diagonal update of solve_end_effector.hh:296-301. -/
def addDiagonal {K : ℕ} (c : BlockCost K) (w : WpB K) : BlockCost K :=
  (fun a b => if a = b then c.1 a b + w.first a * w.first a else c.1 a b, fun a => c.2 a + w.first a • w.second)

/-- The sampling and accumulation loops shared by the three functions below; `n` samples are left, `i` is the number
of the next one. -/
noncomputable def sampleLoop (flag : Flag) (eval : ℝ → Out WpS)
    (add : BlockCost (dimVarPts flag) → WpB (dimVarPts flag) → BlockCost (dimVarPts flag)) (step : ℝ) :
    ℕ → ℕ → BlockCost (dimVarPts flag) → Out (BlockCost (dimVarPts flag))
  | 0, _, c => .ok c
  | n + 1, i, c => do
    let w ← eval ((i : ℝ) * step)
    let w ← asPt (dimVarPts flag) w
    sampleLoop flag eval add step n (i + 1) (add c w)

/-- `computeVelCostFunctionDiscretized`, solve_end_effector.hh:282-310. One point: as above. -/
noncomputable def computeVelCostFunctionDiscretized (numPoints : ℕ) (flag : Flag) (d : BC) (T : ℝ) :
    Out (BlockCost (dimVarPts flag)) :=
  if numPoints = 1 then .assertFail
  else do
    let pi ← computeConstantWaypoints flag d T
    sampleLoop flag (evaluateVelocityCurveWaypointAtTime flag pi T) addDiagonal (1 / ((numPoints : ℝ) - 1)) numPoints 0 (0, 0)

/-- `computeAccelerationCostFunctionDiscretized`, solve_end_effector.hh:312-337. -/
noncomputable def computeAccelerationCostFunctionDiscretized (numPoints : ℕ) (flag : Flag) (d : BC) (T : ℝ) :
    Out (BlockCost (dimVarPts flag)) :=
  if numPoints = 1 then .assertFail
  else do
    let pi ← computeConstantWaypoints flag d T
    sampleLoop flag (evaluateAccelerationCurveWaypointAtTime flag pi T) (fun c w => addSquare c w 0)
      (1 / ((numPoints : ℝ) - 1)) numPoints 0 (0, 0)

/-- `computeJerkCostFunctionDiscretized`, solve_end_effector.hh:339-362. -/
noncomputable def computeJerkCostFunctionDiscretized (numPoints : ℕ) (flag : Flag) (d : BC) (T : ℝ) :
    Out (BlockCost (dimVarPts flag)) :=
  if numPoints = 1 then .assertFail
  else do
    let pi ← computeConstantWaypoints flag d T
    sampleLoop flag (evaluateJerkCurveWaypointAtTime flag pi T) (fun c w => addSquare c w 0)
      (1 / ((numPoints : ℝ) - 1)) numPoints 0 (0, 0)

/-- The cost returned by `computeVelocityCost`, whose size must be that of the other terms. -/
def asCost (K : ℕ) (c : Σ K : ℕ, Matrix (Fin K) (Fin K) ℝ × (Fin K → V3)) : Out (BlockCost K) :=
  if h : c.1 = K then .ok (h ▸ c.2) else .assertFail

/-- `Hg_rrt`, solve_end_effector.hh:397-402. -/
noncomputable def endEffectorDistanceCost (flag : Flag) (d : BC) (path : ℝ → V3) (T weightDistance : ℝ) :
    Out (BlockCost (dimVarPts flag)) :=
  open Classical in
  if weightDistance > 0 then computeDistanceCostFunctionPath flag d T 50 path else .ok (0, 0)

/-- `computeEndEffectorCost`, solve_end_effector.hh:382-420. -/
noncomputable def computeEndEffectorCost (flag : Flag) (d : BC) (path : ℝ → V3) (T weightDistance : ℝ) (pi : List V3) :
    Out (BlockCost (dimVarPts flag)) :=
  open Classical in
  if weightDistance ≥ 0 ∧ weightDistance ≤ 1 then do
    let rrt ← endEffectorDistanceCost flag d path T weightDistance
    let smooth ← computeVelocityCost flag d T pi
    let smooth ← asCost (dimVarPts flag) smooth
    return (fun a b => (1 - weightDistance) * smooth.1 a b + weightDistance * rrt.1 a b,
      fun a k => (1 - weightDistance) * smooth.2 a k + weightDistance * rrt.2 a k)
  else .assertFail

/-! ## Planner -/

/-- `H` as a matrix. -/
def BlockCost.H {K : ℕ} (c : BlockCost K) : Mat where
  rows := 3 * K
  cols := 3 * K
  e := fun r s =>
    if r % 3 = s % 3 then
      (if hr : r / 3 < K then (if hs : s / 3 < K then c.1 ⟨r / 3, hr⟩ ⟨s / 3, hs⟩ else 0) else 0) else 0

/-- `g` as a vector. -/
def BlockCost.g {K : ℕ} (c : BlockCost K) : Mat where
  rows := 3 * K
  cols := 1
  e := fun r _ => if h : r / 3 < K then V3.get (c.2 ⟨r / 3, h⟩) (r % 3) else 0

/-- `wps[i] = x.segment<3>(3 j)`. -/
def setPt (x : List ℝ) (i j : ℕ) (wps : List V3) : Out (List V3) :=
  if i < wps.length ∧ 3 * j + 3 ≤ x.length then .ok (wps.set i fun k => x.getD (3 * j + k) 0) else .ub

/-- The free points of `computeC_of_T`, solve_end_effector.hh:263-275. -/
def setFreePts (K : ℕ) (x : List ℝ) (wps : List V3) : Out (List V3) :=
  if K = 1 then (if x.length = 3 then setPt x 4 0 wps else .assertFail)
  else if K = 3 then do
    let wps ← setPt x 4 0 wps
    let wps ← setPt x 5 1 wps
    setPt x 6 2 wps
  else if K = 5 then do
    let wps ← setPt x 4 0 wps
    let wps ← setPt x 5 1 wps
    let wps ← setPt x 6 2 wps
    let wps ← setPt x 7 3 wps
    setPt x 8 4 wps
  else .ok wps

/-- `computeC_of_T`, solve_end_effector.hh:261-280. -/
noncomputable def endEffectorCurve (flag : Flag) (d : BC) (T : ℝ) (x : List ℝ) : Out Bezier := do
  let wps ← computeConstantWaypoints flag d T
  let wps ← setFreePts (dimVarPts flag) x wps
  mkBezier wps T 1

/-- The end of `solveEndEffector`, solve_end_effector.hh:453-460. -/
noncomputable def endEffectorResult (flag : Flag) (d : BC) (T : ℝ) (resQp : ResultData) : Out ResultDataCOMTraj :=
  if resQp.success then do
    let c ← endEffectorCurve flag d T resQp.x
    return { ResultDataCOMTraj.default with success := true, x := resQp.x, c_of_t := c }
  else .ok ResultDataCOMTraj.default

/-- `solveEndEffector`, solve_end_effector.hh:422-467; `init` is the vector of line 445, whose contents are
indeterminate. `solve(Ab, Hg, init)` is src/common_solve_methods.cpp:151-163, without equalities and bounds, with the
default solver. -/
noncomputable def solveEndEffector (lib : Lib) (fuel : ℕ) (flag : Flag) (d : BC) (path : ℝ → V3) (T weightDistance : ℝ)
    (init : List ℝ) : Out ResultDataCOMTraj := do
  let pi ← computeConstantWaypoints flag d T
  let Ab ← computeEndEffectorConstraints flag d T pi
  let Hg ← computeEndEffectorCost flag d path T weightDistance pi
  let resQp ← solversSolve lib fuel Ab.1 Ab.2 { rows := 0, cols := Ab.1.cols, e := fun _ _ => 0 }
    { rows := 0, cols := 1, e := fun _ _ => 0 } Hg.H Hg.g init [] [] SOLVER_QUADPROG
  endEffectorResult flag d T resQp

end Verif
