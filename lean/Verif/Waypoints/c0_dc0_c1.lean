import Verif.Model.Basic

/-!
Formulas of include/hpp/bezier-com-traj/waypoints/waypoints_c0_dc0_c1.hh, transcribed by `tools/gen_waypoints.py`.
-/

set_option linter.unusedVariables false

namespace Verif.c0_dc0_c1
open Matrix

/-- `evaluateCurveAtTime`, include/hpp/bezier-com-traj/waypoints/waypoints_c0_dc0_c1.hh:25-35. Exact arithmetic, componentwise. -/
noncomputable def evaluateCurveAtTime (pi : ℕ → V3) (t : ℝ) : Coefs :=
  let t2 : ℝ := t * t
  let t3 : ℝ := t2 * t
  { first :=
      -3 * t3 + 3 * t2
    second := fun k =>
      -1 * pi 0 k * t3 + 3 * pi 0 k * t2 - 3 * pi 0 k * t + 1 * pi 0 k + 3 * pi 1 k * t3 - 6 *
        pi 1 k * t2 + 3 * pi 1 k * t + 1 * pi 3 k * t3 }

/-- `evaluateAccelerationCurveAtTime`, include/hpp/bezier-com-traj/waypoints/waypoints_c0_dc0_c1.hh:37-47. Exact arithmetic, componentwise. -/
noncomputable def evaluateAccelerationCurveAtTime (pi : ℕ → V3) (T t : ℝ) : Coefs :=
  let alpha : ℝ := 1 / (T * T)
  { first :=
      (-18 * t + 6) * alpha
    second := fun k =>
      (-6 * pi 0 k * t + 6 * pi 0 k + 18 * pi 1 k * t - 12 * pi 1 k + 6 * pi 3 k * t) * alpha }

/-- `computeConstantWaypoints`, include/hpp/bezier-com-traj/waypoints/waypoints_c0_dc0_c1.hh:49-62. -/
noncomputable def computeConstantWaypoints (d : BC) (T : ℝ) : List V3 :=
  let n : ℝ := 3
  [
    (fun k => d.c0 k),
    (fun k => (d.dc0 k * T / n) + d.c0 k),
    (fun k => 0),
    (fun k => d.c1 k)]

/-- `computeWwaypoints`, include/hpp/bezier-com-traj/waypoints/waypoints_c0_dc0_c1.hh:64-107. The 6x3 matrix is split in two 3x3 blocks, the 6-vector in head and tail. `g` is `contacts_.front().contactPhase_->m_gravity`; scalar factors are commuted past matrix-vector products. -/
noncomputable def computeWwaypoints (pi : ℕ → V3) (g : V3) (T : ℝ) : List Wp6 :=
  let T2 : ℝ := T * T
  let alpha : ℝ := 1 / (T2)
  [
    { top := fun i j =>
        6 * alpha * (1 : M3) i j
      bot := fun i j =>
        6 * skew (pi 0) i j * alpha
      head := fun k =>
        (6 * pi 0 k - 12 * pi 1 k) * alpha
      tail := fun k =>
        1 * (1 * T2 * (skew g *ᵥ pi 0) k - 12 * (skew (pi 0) *ᵥ pi 1) k) * alpha },
    { top := 0
      bot := fun i j =>
        1 * (-6 * skew (pi 0) i j + 6 * skew (pi 1) i j) * alpha
      head := fun k =>
        1 * (4 * pi 0 k - 6 * pi 1 k + 2 * pi 3 k) * alpha
      tail := fun k =>
        1 * (1 * T2 * (skew g *ᵥ pi 1) k + 2 * (skew (pi 0) *ᵥ pi 3) k) * alpha },
    { top := fun i j =>
        -6 * alpha * (1 : M3) i j
      bot := fun i j =>
        1 * (1 * skew g i j * T2 - 6 * skew (pi 1) i j) * alpha
      head := fun k =>
        1 * (2 * pi 0 k + 4 * pi 3 k) * alpha
      tail := fun k =>
        1 * (-2 * (skew (pi 0) *ᵥ pi 3) k + 6 * (skew (pi 1) *ᵥ pi 3) k) * alpha },
    { top := fun i j =>
        -12 * alpha * (1 : M3) i j
      bot := fun i j =>
        -12 * skew (pi 3) i j * alpha
      head := fun k =>
        (6 * pi 1 k + 6 * pi 3 k) * alpha
      tail := fun k =>
        1 * (1 * T2 * (skew g *ᵥ pi 3) k - 6 * (skew (pi 1) *ᵥ pi 3) k) * alpha }]

/-- `computeFinalVelocityPoint`, include/hpp/bezier-com-traj/waypoints/waypoints_c0_dc0_c1.hh:109-115. `pi` is the list returned by `computeConstantWaypoints`. -/
noncomputable def computeFinalVelocityPoint (d : BC) (pi : ℕ → V3) (T : ℝ) : Coefs :=
  { first := -3 / T
    second := fun k => 3 * d.c1 k / T }

end Verif.c0_dc0_c1
