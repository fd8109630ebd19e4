import Verif.Model.Basic

/-!
Formulas of include/hpp/bezier-com-traj/waypoints/waypoints_c0_dc0_ddc0.hh, transcribed by `tools/gen_waypoints.py`.
-/

set_option linter.unusedVariables false

namespace Verif.c0_dc0_ddc0
open Matrix

/-- `evaluateCurveAtTime`, include/hpp/bezier-com-traj/waypoints/waypoints_c0_dc0_ddc0.hh:26-39. Exact arithmetic, componentwise. -/
noncomputable def evaluateCurveAtTime (pi : ℕ → V3) (t : ℝ) : Coefs :=
  let t2 : ℝ := t * t
  let t3 : ℝ := t2 * t
  { first :=
      t3
    second := fun k =>
      t3 * (3 * (pi 1 k - pi 2 k) - pi 0 k) + t2 * (3 * (pi 0 k + pi 2 k) - 6 * pi 1 k) + 3 * t
        * (pi 1 k - pi 0 k) + pi 0 k }

/-- `evaluateAccelerationCurveAtTime`, include/hpp/bezier-com-traj/waypoints/waypoints_c0_dc0_ddc0.hh:41-52. Exact arithmetic, componentwise. -/
noncomputable def evaluateAccelerationCurveAtTime (pi : ℕ → V3) (T t : ℝ) : Coefs :=
  let alpha : ℝ := 1 / (T * T)
  { first :=
      6 * t * alpha
    second := fun k =>
      (18 * (pi 1 k - pi 2 k) - 6 * pi 0 k) * alpha * t + (6 * (pi 0 k + pi 2 k) - 12 * pi 1 k)
        * alpha }

/-- `computeConstantWaypoints`, include/hpp/bezier-com-traj/waypoints/waypoints_c0_dc0_ddc0.hh:54-67. -/
noncomputable def computeConstantWaypoints (d : BC) (T : ℝ) : List V3 :=
  let n : ℝ := 3
  [
    (fun k => d.c0 k),
    (fun k => (d.dc0 k * T / n) + d.c0 k),
    (fun k => (d.ddc0 k * T * T / (n * (n - 1))) + (2 * d.dc0 k * T / n) + d.c0 k),
    (fun k => 0)]

/-- `computeWwaypoints`, include/hpp/bezier-com-traj/waypoints/waypoints_c0_dc0_ddc0.hh:69-116. The 6x3 matrix is split in two 3x3 blocks, the 6-vector in head and tail. `g` is `contacts_.front().contactPhase_->m_gravity`; scalar factors are commuted past matrix-vector products. -/
noncomputable def computeWwaypoints (pi : ℕ → V3) (g : V3) (T : ℝ) : List Wp6 :=
  let T2 : ℝ := T * T
  let alpha : ℝ := 1 / (T2)
  [
    { top := 0
      bot := 0
      head := fun k =>
        (6 * pi 0 k - 12 * pi 1 k + 6 * pi 2 k) * alpha
      tail := fun k =>
        1 * (1 * T2 * (skew g *ᵥ pi 0) k - 12 * (skew (pi 0) *ᵥ pi 1) k + 6 * (skew (pi 0) *ᵥ
          pi 2) k) * alpha },
    { top := fun i j =>
        2 * alpha * (1 : M3) i j
      bot := fun i j =>
        2 * skew (pi 0) i j * alpha
      head := fun k =>
        1 * (4 * pi 0 k - 6 * pi 1 k) * alpha
      tail := fun k =>
        1 * (1 * T2 * (skew g *ᵥ pi 1) k - 6 * (skew (pi 0) *ᵥ pi 2) k + 6 * (skew (pi 1) *ᵥ pi
          2) k) * alpha },
    { top := fun i j =>
        4 * alpha * (1 : M3) i j
      bot := fun i j =>
        1 * (-2 * skew (pi 0) i j + 6 * skew (pi 1) i j) * alpha
      head := fun k =>
        1 * (2 * pi 0 k - 6 * pi 2 k) * alpha
      tail := fun k =>
        1 * (1 * T2 * (skew g *ᵥ pi 2) k - 6 * (skew (pi 1) *ᵥ pi 2) k) * alpha },
    { top := fun i j =>
        6 * alpha * (1 : M3) i j
      bot := fun i j =>
        1 * (1 * skew g i j * T2 - 6 * skew (pi 1) i j + 12 * skew (pi 2) i j) * alpha
      head := fun k =>
        (6 * pi 1 k - 12 * pi 2 k) * alpha
      tail := 0 }]

/-- `computeFinalVelocityPoint`, include/hpp/bezier-com-traj/waypoints/waypoints_c0_dc0_ddc0.hh:118-126. `pi` is the list returned by `computeConstantWaypoints`. -/
noncomputable def computeFinalVelocityPoint (d : BC) (pi : ℕ → V3) (T : ℝ) : Coefs :=
  { first := 3 / T
    second := fun k => -3 * pi 2 k / T }

end Verif.c0_dc0_ddc0
