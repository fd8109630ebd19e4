import Verif.Model.Basic

/-!
Formulas of include/hpp/bezier-com-traj/waypoints/waypoints_c0_dc0_dc1_c1.hh, transcribed by `tools/gen_waypoints.py`.
-/

set_option linter.unusedVariables false

namespace Verif.c0_dc0_dc1_c1
open Matrix

/-- `evaluateCurveAtTime`, include/hpp/bezier-com-traj/waypoints/waypoints_c0_dc0_dc1_c1.hh:25-37. Exact arithmetic, componentwise. -/
noncomputable def evaluateCurveAtTime (pi : ℕ → V3) (t : ℝ) : Coefs :=
  let t2 : ℝ := t * t
  let t3 : ℝ := t2 * t
  let t4 : ℝ := t3 * t
  { first :=
      (6 * t4 - 12 * t3 + 6 * t2)
    second := fun k =>
      1 * pi 0 k * t4 - 4 * pi 0 k * t3 + 6 * pi 0 k * t2 - 4 * pi 0 k * t + 1 * pi 0 k - 4 *
        pi 1 k * t4 + 12 * pi 1 k * t3 - 12 * pi 1 k * t2 + 4 * pi 1 k * t - 4 * pi 3 k * t4 +
        4 * pi 3 k * t3 + 1 * pi 4 k * t4 }

/-- `evaluateAccelerationCurveAtTime`, include/hpp/bezier-com-traj/waypoints/waypoints_c0_dc0_dc1_c1.hh:39-50. Exact arithmetic, componentwise. -/
noncomputable def evaluateAccelerationCurveAtTime (pi : ℕ → V3) (T t : ℝ) : Coefs :=
  let alpha : ℝ := 1 / (T * T)
  { first :=
      (72 * t * t - 72 * t + 12) * alpha
    second := fun k =>
      (12 * pi 0 k * t * t - 24 * pi 0 k * t + 12 * pi 0 k - 48 * pi 1 k * t * t + 72 * pi 1 k
        * t - 24 * pi 1 k - 48 * pi 3 k * t * t + 24 * pi 3 k * t + 12 * pi 4 k * t * t) *
        alpha }

/-- `computeConstantWaypoints`, include/hpp/bezier-com-traj/waypoints/waypoints_c0_dc0_dc1_c1.hh:52-65. -/
noncomputable def computeConstantWaypoints (d : BC) (T : ℝ) : List V3 :=
  let n : ℝ := 4
  [
    (fun k => d.c0 k),
    (fun k => (d.dc0 k * T / n) + d.c0 k),
    (fun k => 0),
    (fun k => (-d.dc1 k * T / n) + d.c1 k),
    (fun k => d.c1 k)]

/-- `computeWwaypoints`, include/hpp/bezier-com-traj/waypoints/waypoints_c0_dc0_dc1_c1.hh:67-127. The 6x3 matrix is split in two 3x3 blocks, the 6-vector in head and tail. `g` is `contacts_.front().contactPhase_->m_gravity`; scalar factors are commuted past matrix-vector products. -/
noncomputable def computeWwaypoints (pi : ℕ → V3) (g : V3) (T : ℝ) : List Wp6 :=
  let T2 : ℝ := T * T
  let alpha : ℝ := 1 / (T2)
  [
    { top := fun i j =>
        12 * alpha * (1 : M3) i j
      bot := fun i j =>
        12 * alpha * skew (pi 0) i j
      head := fun k =>
        (12 * pi 0 k - 24 * pi 1 k) * alpha
      tail := fun k =>
        1 * (skew g *ᵥ pi 0) k - (24 * (skew (pi 0) *ᵥ pi 1) k) * alpha },
    { top := fun i j =>
        -2.4 * alpha * (1 : M3) i j
      bot := fun i j =>
        (-12 * skew (pi 0) i j + 9.6 * skew (pi 1) i j) * alpha
      head := fun k =>
        (7.2 * pi 0 k - 9.6 * pi 1 k + 4.8 * pi 3 k) * alpha
      tail := fun k =>
        (0.2 * T2 * (skew g *ᵥ pi 0) k + 0.8 * T2 * (skew g *ᵥ pi 1) k + 4.8 * (skew (pi 0) *ᵥ
          pi 3) k) * alpha },
    { top := fun i j =>
        -9.6 * alpha * (1 : M3) i j
      bot := fun i j =>
        (0.6 * skew g i j * T2 - 9.6 * skew (pi 1) i j) * alpha
      head := fun k =>
        (3.6 * pi 0 k + 4.8 * pi 3 k + 1.2 * pi 4 k) * alpha
      tail := fun k =>
        (0.4 * T2 * (skew g *ᵥ pi 1) k - 4.8 * (skew (pi 0) *ᵥ pi 3) k + 1.2 * (skew (pi 0) *ᵥ
          pi 4) k + 9.6 * (skew (pi 1) *ᵥ pi 3) k) * alpha },
    { top := fun i j =>
        -9.6 * alpha * (1 : M3) i j
      bot := fun i j =>
        (0.6 * skew g i j * T2 - 9.6 * skew (pi 3) i j) * alpha
      head := fun k =>
        (1.2 * pi 0 k + 4.8 * pi 1 k + 3.6 * pi 4 k) * alpha
      tail := fun k =>
        (0.4 * T2 * (skew g *ᵥ pi 3) k - 1.2 * (skew (pi 0) *ᵥ pi 4) k - 9.6 * (skew (pi 1) *ᵥ
          pi 3) k + 4.8 * (skew (pi 1) *ᵥ pi 4) k) * alpha },
    { top := fun i j =>
        -2.4 * alpha * (1 : M3) i j
      bot := fun i j =>
        (9.6 * skew (pi 3) i j - 12 * skew (pi 4) i j) * alpha
      head := fun k =>
        (4.8 * pi 1 k - 9.6 * pi 3 k + 7.2 * pi 4 k) * alpha
      tail := fun k =>
        (0.8 * T2 * (skew g *ᵥ pi 3) k + 0.2 * T2 * (skew g *ᵥ pi 4) k - 4.8 * (skew (pi 1) *ᵥ
          pi 4) k) * alpha },
    { top := fun i j =>
        12 * alpha * (1 : M3) i j
      bot := fun i j =>
        12 * skew (pi 4) i j * alpha
      head := fun k =>
        (-24 * pi 3 k + 12 * pi 4 k) * alpha
      tail := fun k =>
        (T2 * (skew g *ᵥ pi 4) k + 24 * (skew (pi 3) *ᵥ pi 4) k) * alpha }]

/-- `computeFinalVelocityPoint`, include/hpp/bezier-com-traj/waypoints/waypoints_c0_dc0_dc1_c1.hh:129-136. `pi` is the list returned by `computeConstantWaypoints`. -/
noncomputable def computeFinalVelocityPoint (d : BC) (pi : ℕ → V3) (T : ℝ) : Coefs :=
  { first := 0
    second := fun k => (-4 * pi 3 k + 4 * pi 4 k) / T }

end Verif.c0_dc0_dc1_c1
