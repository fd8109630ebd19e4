import Verif.Model.Basic

/-!
Formulas of include/hpp/bezier-com-traj/waypoints/waypoints_c0_dc0_dc1.hh, transcribed by `tools/gen_waypoints.py`.
-/

set_option linter.unusedVariables false

namespace Verif.c0_dc0_dc1
open Matrix

/-- `evaluateCurveAtTime`, include/hpp/bezier-com-traj/waypoints/waypoints_c0_dc0_dc1.hh:25-35. Exact arithmetic, componentwise. -/
noncomputable def evaluateCurveAtTime (pi : ℕ → V3) (t : ℝ) : Coefs :=
  let t2 : ℝ := t * t
  let t3 : ℝ := t2 * t
  { first :=
      -2 * t3 + 3 * t2
    second := fun k =>
      -1 * pi 0 k * t3 + 3 * pi 0 k * t2 - 3 * pi 0 k * t + 1 * pi 0 k + 3 * pi 1 k * t3 - 6 *
        pi 1 k * t2 + 3 * pi 1 k * t }

/-- `evaluateAccelerationCurveAtTime`, include/hpp/bezier-com-traj/waypoints/waypoints_c0_dc0_dc1.hh:37-47. Exact arithmetic, componentwise. -/
noncomputable def evaluateAccelerationCurveAtTime (pi : ℕ → V3) (T t : ℝ) : Coefs :=
  let alpha : ℝ := 1 / (T * T)
  { first :=
      (-12 * t + 6) * alpha
    second := fun k =>
      (-6 * pi 0 k * t + 6 * pi 0 k + 18 * pi 1 k * t - 12 * pi 1 k) * alpha }

/-- `computeConstantWaypoints`, include/hpp/bezier-com-traj/waypoints/waypoints_c0_dc0_dc1.hh:49-63. The exception raised when `dc1_.norm() != 0` is modelled in `Dispatch`. -/
noncomputable def computeConstantWaypoints (d : BC) (T : ℝ) : List V3 :=

  [
    (fun k => d.c0 k),
    (fun k => (d.dc0 k * T / 3) + d.c0 k),
    (fun k => 0),
    (fun k => 0)]

/-- `computeWwaypoints`, include/hpp/bezier-com-traj/waypoints/waypoints_c0_dc0_dc1.hh:65-113. Same splitting as in the other sets; this one is transcribed by hand (`skew` of sums, `.cross`). -/
noncomputable def computeWwaypoints (pi : ℕ → V3) (g : V3) (T : ℝ) : List Wp6 :=
  let T2 : ℝ := T * T
  let alpha : ℝ := 1 / (T2)
  [
    { top := fun i j => 6 * alpha * (1 : M3) i j
      bot := fun i j => 6 * skew (pi 0) i j * alpha
      head := fun k => (6 * pi 0 k - 12 * pi 1 k) * alpha
      tail := (- skew (pi 0)) *ᵥ (fun k => 12 * pi 1 k * alpha + g k) },
    { top := fun i j => 3 * alpha * (1 : M3) i j
      bot := fun i j => skew (fun k => 1.5 * (3 * pi 1 k - pi 0 k)) i j * alpha
      head := fun k => 1.5 * alpha * (3 * pi 0 k - 5 * pi 1 k)
      tail := fun k =>
        (eigenCross (fun k => 3 * alpha * pi 0 k) (fun k => - pi 1 k)) k
          + 0.25 * (skew g *ᵥ (fun k => 3 * pi 1 k + pi 0 k)) k },
    { top := fun i j => 0 * alpha * (1 : M3) i j
      bot := skew (fun k => 0.5 * g k - 3 * alpha * pi 0 k + 3 * alpha * pi 1 k)
      head := fun k => 3 * alpha * (pi 0 k - pi 1 k)
      tail := fun k => 0.5 * (skew g *ᵥ pi 1) k },
    { top := fun i j => -3 * alpha * (1 : M3) i j
      bot := skew (fun k => g k - 1.5 * alpha * (pi 1 k + pi 0 k))
      head := fun k => 1.5 * alpha * (pi 1 k + pi 0 k)
      tail := 0 },
    { top := fun i j => -6 * alpha * (1 : M3) i j
      bot := skew (fun k => g k - 6 * alpha * pi 1 k)
      head := fun k => 6 * pi 1 k * alpha
      tail := 0 }]

/-- `computeFinalVelocityPoint`, include/hpp/bezier-com-traj/waypoints/waypoints_c0_dc0_dc1.hh:115-122. `pi` is the list returned by `computeConstantWaypoints`. -/
noncomputable def computeFinalVelocityPoint (d : BC) (pi : ℕ → V3) (T : ℝ) : Coefs :=
  { first := 0
    second := fun k => 0 }

end Verif.c0_dc0_dc1
