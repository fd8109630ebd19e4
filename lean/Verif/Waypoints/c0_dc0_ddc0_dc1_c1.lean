import Verif.Model.Basic

/-!
Formulas of include/hpp/bezier-com-traj/waypoints/waypoints_c0_dc0_ddc0_dc1_c1.hh, transcribed by `tools/gen_waypoints.py`.
-/

set_option linter.unusedVariables false

namespace Verif.c0_dc0_ddc0_dc1_c1
open Matrix

/-- `evaluateCurveAtTime`, include/hpp/bezier-com-traj/waypoints/waypoints_c0_dc0_ddc0_dc1_c1.hh:28-43. Exact arithmetic, componentwise. -/
noncomputable def evaluateCurveAtTime (pi : ℕ → V3) (t : ℝ) : Coefs :=
  let t2 : ℝ := t * t
  let t3 : ℝ := t2 * t
  let t4 : ℝ := t3 * t
  let t5 : ℝ := t4 * t
  { first :=
      10 * t5 - 20 * t4 + 10 * t3
    second := fun k =>
      -1 * pi 0 k * t5 + 5 * pi 0 k * t4 - 10 * pi 0 k * t3 + 10 * pi 0 k * t2 - 5 * pi 0 k * t
        + 1 * pi 0 k + 5 * pi 1 k * t5 - 20 * pi 1 k * t4 + 30 * pi 1 k * t3 - 20 * pi 1 k * t2
        + 5 * pi 1 k * t - 10 * pi 2 k * t5 + 30 * pi 2 k * t4 - 30 * pi 2 k * t3 + 10 * pi 2 k
        * t2 - 5 * pi 4 k * t5 + 5 * pi 4 k * t4 + 1 * pi 5 k * t5 }

/-- `evaluateAccelerationCurveAtTime`, include/hpp/bezier-com-traj/waypoints/waypoints_c0_dc0_ddc0_dc1_c1.hh:45-61. Exact arithmetic, componentwise. -/
noncomputable def evaluateAccelerationCurveAtTime (pi : ℕ → V3) (T t : ℝ) : Coefs :=
  let alpha : ℝ := 1 / (T * T)
  let t2 : ℝ := t * t
  let t3 : ℝ := t2 * t
  { first :=
      (200 * t3 - 240 * t2 + 60 * t) * alpha
    second := fun k =>
      1 * (-20 * pi 0 k * t3 + 60 * pi 0 k * t2 - 60 * pi 0 k * t + 20 * pi 0 k + 100 * pi 1 k
        * t3 - 240 * pi 1 k * t2 + 180 * pi 1 k * t - 40 * pi 1 k - 200 * pi 2 k * t3 + 360 *
        pi 2 k * t2 - 180 * pi 2 k * t + 20 * pi 2 k - 100 * pi 4 k * t3 + 60 * pi 4 k * t2 +
        20 * pi 5 k * t3) * alpha }

/-- `computeConstantWaypoints`, include/hpp/bezier-com-traj/waypoints/waypoints_c0_dc0_ddc0_dc1_c1.hh:63-78. -/
noncomputable def computeConstantWaypoints (d : BC) (T : ℝ) : List V3 :=
  let n : ℝ := 5
  [
    (fun k => d.c0 k),
    (fun k => (d.dc0 k * T / n) + d.c0 k),
    (fun k => (d.ddc0 k * T * T / (n * (n - 1))) + (2 * d.dc0 k * T / n) + d.c0 k),
    (fun k => 0),
    (fun k => (-d.dc1 k * T / n) + d.c1 k),
    (fun k => d.c1 k)]

/-- `computeWwaypoints`, include/hpp/bezier-com-traj/waypoints/waypoints_c0_dc0_ddc0_dc1_c1.hh:80-207. The 6x3 matrix is split in two 3x3 blocks, the 6-vector in head and tail. `g` is `contacts_.front().contactPhase_->m_gravity`; scalar factors are commuted past matrix-vector products. -/
noncomputable def computeWwaypoints (pi : ℕ → V3) (g : V3) (T : ℝ) : List Wp6 :=
  let T2 : ℝ := T * T
  let alpha : ℝ := 1 / (T2)
  [
    { top := 0
      bot := 0
      head := fun k =>
        (20 * pi 0 k - 40 * pi 1 k + 20 * pi 2 k) * alpha
      tail := fun k =>
        1 * (1 * T2 * (skew g *ᵥ pi 0) k - 40 * (skew (pi 0) *ᵥ pi 1) k + 20 * (skew (pi 0) *ᵥ
          pi 2) k) * alpha },
    { top := fun i j =>
        8.57142857142857 * alpha * (1 : M3) i j
      bot := fun i j =>
        8.57142857142857 * skew (pi 0) i j * alpha
      head := fun k =>
        1 * (11.4285714285714 * pi 0 k - 14.2857142857143 * pi 1 k - 5.71428571428572 * pi 2 k)
          * alpha
      tail := fun k =>
        1 * (0.285714285714286 * T2 * (skew g *ᵥ pi 0) k + 0.714285714285714 * T2 * (skew g *ᵥ
          pi 1) k - 20 * (skew (pi 0) *ᵥ pi 2) k + 14.2857142857143 * (skew (pi 1) *ᵥ pi 2) k)
          * alpha },
    { top := fun i j =>
        5.71428571428571 * alpha * (1 : M3) i j
      bot := fun i j =>
        1 * (-8.57142857142857 * skew (pi 0) i j + 14.2857142857143 * skew (pi 1) i j) * alpha
      head := fun k =>
        1 * (5.71428571428571 * pi 0 k - 14.2857142857143 * pi 2 k + 2.85714285714286 * pi 4 k)
          * alpha
      tail := fun k =>
        1 * (0.0476190476190479 * T2 * (skew g *ᵥ pi 0) k + 0.476190476190476 * T2 * (skew g *ᵥ
          pi 1) k + 0.476190476190476 * T2 * (skew g *ᵥ pi 2) k + 2.85714285714286 * (skew (pi
          0) *ᵥ pi 4) k - 14.2857142857143 * (skew (pi 1) *ᵥ pi 2) k) * alpha },
    { top := fun i j =>
        -2.85714285714286 * alpha * (1 : M3) i j
      bot := fun i j =>
        1 * (0.285714285714286 * skew g i j * T2 - 14.2857142857143 * skew (pi 1) i j +
          11.4285714285714 * skew (pi 2) i j) * alpha
      head := fun k =>
        1 * (2.28571428571429 * pi 0 k + 5.71428571428571 * pi 1 k - 11.4285714285714 * pi 2 k
          + 5.71428571428571 * pi 4 k + 0.571428571428571 * pi 5 k) * alpha
      tail := fun k =>
        1 * (0.142857142857143 * T2 * (skew g *ᵥ pi 1) k + 0.571428571428571 * T2 * (skew g *ᵥ
          pi 2) k - 2.85714285714286 * (skew (pi 0) *ᵥ pi 4) k + 0.571428571428571 * (skew (pi
          0) *ᵥ pi 5) k + 8.57142857142857 * (skew (pi 1) *ᵥ pi 4) k) * alpha },
    { top := fun i j =>
        -11.4285714285714 * alpha * (1 : M3) i j
      bot := fun i j =>
        1 * (0.571428571428571 * skew g i j * T2 - 11.4285714285714 * skew (pi 2) i j) * alpha
      head := fun k =>
        1 * (0.571428571428571 * pi 0 k + 5.71428571428571 * pi 1 k - 2.85714285714286 * pi 2 k
          + 5.71428571428571 * pi 4 k + 2.28571428571429 * pi 5 k) * alpha
      tail := fun k =>
        1 * (0.285714285714286 * T2 * (skew g *ᵥ pi 2) k + 0.142857142857143 * T2 * (skew g *ᵥ
          pi 4) k - 0.571428571428572 * (skew (pi 0) *ᵥ pi 5) k - 8.57142857142857 * (skew (pi
          1) *ᵥ pi 4) k + 2.85714285714286 * (skew (pi 1) *ᵥ pi 5) k + 14.2857142857143 * (skew
          (pi 2) *ᵥ pi 4) k) * alpha },
    { top := fun i j =>
        -14.2857142857143 * alpha * (1 : M3) i j
      bot := fun i j =>
        1 * (0.476190476190476 * skew g i j * T2 - 14.2857142857143 * skew (pi 4) i j) * alpha
      head := fun k =>
        1 * (2.85714285714286 * pi 1 k + 5.71428571428571 * pi 2 k + 5.71428571428571 * pi 5 k)
          * alpha
      tail := fun k =>
        1 * (0.476190476190476 * T2 * (skew g *ᵥ pi 4) k + 0.0476190476190476 * T2 * (skew g *ᵥ
          pi 5) k - 2.85714285714286 * (skew (pi 1) *ᵥ pi 5) k - 14.2857142857143 * (skew (pi
          2) *ᵥ pi 4) k + 8.57142857142857 * (skew (pi 2) *ᵥ pi 5) k) * alpha },
    { top := fun i j =>
        -5.71428571428572 * alpha * (1 : M3) i j
      bot := fun i j =>
        1 * (14.2857142857143 * skew (pi 4) i j - 20 * skew (pi 5) i j) * alpha
      head := fun k =>
        1 * (8.57142857142857 * pi 2 k - 14.2857142857143 * pi 4 k + 11.4285714285714 * pi 5 k)
          * alpha
      tail := fun k =>
        1 * (0.714285714285714 * T2 * (skew g *ᵥ pi 4) k + 0.285714285714286 * T2 * (skew g *ᵥ
          pi 5) k - 8.57142857142858 * (skew (pi 2) *ᵥ pi 5) k) * alpha },
    { top := fun i j =>
        20 * alpha * (1 : M3) i j
      bot := fun i j =>
        1 * (20 * skew (pi 5) i j) * alpha
      head := fun k =>
        (-40 * pi 4 k + 20 * pi 5 k) * alpha
      tail := fun k =>
        1 * (1 * T2 * (skew g *ᵥ pi 5) k + 40 * (skew (pi 4) *ᵥ pi 5) k) * alpha }]

/-- `computeFinalVelocityPoint`, include/hpp/bezier-com-traj/waypoints/waypoints_c0_dc0_ddc0_dc1_c1.hh:209-216. `pi` is the list returned by `computeConstantWaypoints`. -/
noncomputable def computeFinalVelocityPoint (d : BC) (pi : ℕ → V3) (T : ℝ) : Coefs :=
  { first := 0
    second := fun k => (-5 * pi 4 k + 5 * pi 5 k) / T }

end Verif.c0_dc0_ddc0_dc1_c1
