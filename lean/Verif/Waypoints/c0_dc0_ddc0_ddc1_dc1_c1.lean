import Verif.Model.Basic

/-!
Formulas of include/hpp/bezier-com-traj/waypoints/waypoints_c0_dc0_ddc0_ddc1_dc1_c1.hh, transcribed by `tools/gen_waypoints.py`.
-/

set_option linter.unusedVariables false

namespace Verif.c0_dc0_ddc0_ddc1_dc1_c1
open Matrix

/-- `evaluateCurveAtTime`, include/hpp/bezier-com-traj/waypoints/waypoints_c0_dc0_ddc0_ddc1_dc1_c1.hh:28-46. Exact arithmetic, componentwise. -/
noncomputable def evaluateCurveAtTime (pi : ℕ → V3) (t : ℝ) : Coefs :=
  let t2 : ℝ := t * t
  let t3 : ℝ := t2 * t
  let t4 : ℝ := t3 * t
  let t5 : ℝ := t4 * t
  let t6 : ℝ := t5 * t
  { first :=
      -20 * t6 + 60 * t5 - 60 * t4 + 20 * t3
    second := fun k =>
      1 * pi 0 k * t6 - 6 * pi 0 k * t5 + 15 * pi 0 k * t4 - 20 * pi 0 k * t3 + 15 * pi 0 k *
        t2 - 6 * pi 0 k * t + 1 * pi 0 k - 6 * pi 1 k * t6 + 30 * pi 1 k * t5 - 60 * pi 1 k *
        t4 + 60 * pi 1 k * t3 - 30 * pi 1 k * t2 + 6 * pi 1 k * t + 15 * pi 2 k * t6 - 60 * pi
        2 k * t5 + 90 * pi 2 k * t4 - 60 * pi 2 k * t3 + 15 * pi 2 k * t2 + 15 * pi 4 k * t6 -
        30 * pi 4 k * t5 + 15 * pi 4 k * t4 - 6 * pi 5 k * t6 + 6 * pi 5 k * t5 + 1 * pi 6 k *
        t6 }

/-- `evaluateAccelerationCurveAtTime`, include/hpp/bezier-com-traj/waypoints/waypoints_c0_dc0_ddc0_ddc1_dc1_c1.hh:48-67. Exact arithmetic, componentwise. -/
noncomputable def evaluateAccelerationCurveAtTime (pi : ℕ → V3) (T t : ℝ) : Coefs :=
  let alpha : ℝ := 1 / (T * T)
  let t2 : ℝ := t * t
  let t3 : ℝ := t2 * t
  let t4 : ℝ := t3 * t
  { first :=
      1 * (-600 * t4 + 1200 * t3 - 720 * t2 + 120 * t) * alpha
    second := fun k =>
      1 * (30 * pi 0 k * t4 - 120 * pi 0 k * t3 + 180 * pi 0 k * t2 - 120 * pi 0 k * t + 30 *
        pi 0 k - 180 * pi 1 k * t4 + 600 * pi 1 k * t3 - 720 * pi 1 k * t2 + 360 * pi 1 k * t -
        60 * pi 1 k + 450 * pi 2 k * t4 - 1200 * pi 2 k * t3 + 1080 * pi 2 k * t2 - 360 * pi 2
        k * t + 30 * pi 2 k + 450 * pi 4 k * t4 - 600 * pi 4 k * t3 + 180 * pi 4 k * t2 - 180 *
        pi 5 k * t4 + 120 * pi 5 k * t3 + 30 * pi 6 k * t4) * alpha }

/-- `computeConstantWaypoints`, include/hpp/bezier-com-traj/waypoints/waypoints_c0_dc0_ddc0_ddc1_dc1_c1.hh:69-86. -/
noncomputable def computeConstantWaypoints (d : BC) (T : ℝ) : List V3 :=
  let n : ℝ := 6
  [
    (fun k => d.c0 k),
    (fun k => (d.dc0 k * T / n) + d.c0 k),
    (fun k => (d.ddc0 k * T * T / (n * (n - 1))) + (2 * d.dc0 k * T / n) + d.c0 k),
    (fun k => 0),
    (fun k => (d.ddc1 k * T * T / (n * (n - 1))) - (2 * d.dc1 k * T / n) + d.c1 k),
    (fun k => (-d.dc1 k * T / n) + d.c1 k),
    (fun k => d.c1 k)]

/-- `computeWwaypoints`, include/hpp/bezier-com-traj/waypoints/waypoints_c0_dc0_ddc0_ddc1_dc1_c1.hh:88-245. The 6x3 matrix is split in two 3x3 blocks, the 6-vector in head and tail. `g` is `contacts_.front().contactPhase_->m_gravity`; scalar factors are commuted past matrix-vector products. -/
noncomputable def computeWwaypoints (pi : ℕ → V3) (g : V3) (T : ℝ) : List Wp6 :=
  let T2 : ℝ := T * T
  let alpha : ℝ := 1 / (T2)
  [
    { top := 0
      bot := 0
      head := fun k =>
        (30 * pi 0 k - 60 * pi 1 k + 30 * pi 2 k) * alpha
      tail := fun k =>
        1 * (1 * T2 * (skew g *ᵥ pi 0) k - 60 * (skew (pi 0) *ᵥ pi 1) k + 30 * (skew (pi 0) *ᵥ
          pi 2) k) * alpha },
    { top := fun i j =>
        13.3333333333333 * alpha * (1 : M3) i j
      bot := fun i j =>
        13.3333333333333 * skew (pi 0) i j * alpha
      head := fun k =>
        1 * (16.6666666666667 * pi 0 k - 20 * pi 1 k - 10 * pi 2 k) * alpha
      tail := fun k =>
        1 * (0.333333333333333 * T2 * (skew g *ᵥ pi 0) k + 0.666666666666667 * T2 * (skew g *ᵥ
          pi 1) k - 30 * (skew (pi 0) *ᵥ pi 2) k + 20 * (skew (pi 1) *ᵥ pi 2) k) * alpha },
    { top := fun i j =>
        6.66666666666667 * alpha * (1 : M3) i j
      bot := fun i j =>
        1 * (-13.3333333333333 * skew (pi 0) i j + 20 * skew (pi 1) i j) * alpha
      head := fun k =>
        1 * (8.33333333333333 * pi 0 k - 20 * pi 2 k + 5 * pi 4 k) * alpha
      tail := fun k =>
        1 * (0.0833333333333334 * T2 * (skew g *ᵥ pi 0) k + 0.5 * T2 * (skew g *ᵥ pi 1) k +
          0.416666666666667 * T2 * (skew g *ᵥ pi 2) k + 5 * (skew (pi 0) *ᵥ pi 4) k - 20 *
          (skew (pi 1) *ᵥ pi 2) k) * alpha },
    { top := fun i j =>
        -5.71428571428572 * alpha * (1 : M3) i j
      bot := fun i j =>
        1 * (0.238095238095238 * skew g i j * T2 - 20 * skew (pi 1) i j + 14.2857142857143 *
          skew (pi 2) i j) * alpha
      head := fun k =>
        1 * (3.57142857142857 * pi 0 k + 7.14285714285714 * pi 1 k - 14.2857142857143 * pi 2 k
          + 7.85714285714286 * pi 4 k + 1.42857142857143 * pi 5 k) * alpha
      tail := fun k =>
        1 * (0.0119047619047619 * T2 * (skew g *ᵥ pi 0) k + 0.214285714285714 * T2 * (skew g *ᵥ
          pi 1) k + 0.535714285714286 * T2 * (skew g *ᵥ pi 2) k - 5 * (skew (pi 0) *ᵥ pi 4) k +
          1.42857142857143 * (skew (pi 0) *ᵥ pi 5) k + 12.8571428571429 * (skew (pi 1) *ᵥ pi 4)
          k) * alpha },
    { top := fun i j =>
        -14.2857142857143 * alpha * (1 : M3) i j
      bot := fun i j =>
        1 * (0.476190476190476 * skew g i j * T2 - 14.2857142857143 * skew (pi 2) i j) * alpha
      head := fun k =>
        1 * (1.19047619047619 * pi 0 k + 7.14285714285714 * pi 1 k - 3.57142857142857 * pi 2 k
          + 5 * pi 4 k + 4.28571428571429 * pi 5 k + 0.238095238095238 * pi 6 k) * alpha
      tail := fun k =>
        1 * (0.0476190476190471 * T2 * (skew g *ᵥ pi 1) k + 0.357142857142857 * T2 * (skew g *ᵥ
          pi 2) k + 0.119047619047619 * T2 * (skew g *ᵥ pi 4) k - 1.42857142857143 * (skew (pi
          0) *ᵥ pi 5) k + 0.238095238095238 * (skew (pi 0) *ᵥ pi 6) k - 12.8571428571429 *
          (skew (pi 1) *ᵥ pi 4) k + 5.71428571428571 * (skew (pi 1) *ᵥ pi 5) k +
          17.8571428571429 * (skew (pi 2) *ᵥ pi 4) k) * alpha },
    { top := fun i j =>
        -14.2857142857143 * alpha * (1 : M3) i j
      bot := fun i j =>
        1 * (0.476190476190476 * skew g i j * T2 - 14.2857142857143 * skew (pi 4) i j) * alpha
      head := fun k =>
        1 * (0.238095238095238 * pi 0 k + 4.28571428571429 * pi 1 k + 5 * pi 2 k -
          3.57142857142857 * pi 4 k + 7.14285714285714 * pi 5 k + 1.19047619047619 * pi 6 k) *
          alpha
      tail := fun k =>
        1 * (0.11904761904762 * T2 * (skew g *ᵥ pi 2) k + 0.357142857142857 * T2 * (skew g *ᵥ
          pi 4) k + 0.0476190476190476 * T2 * (skew g *ᵥ pi 5) k - 0.238095238095238 * (skew
          (pi 0) *ᵥ pi 6) k - 5.71428571428572 * (skew (pi 1) *ᵥ pi 5) k + 1.42857142857143 *
          (skew (pi 1) *ᵥ pi 6) k - 17.8571428571429 * (skew (pi 2) *ᵥ pi 4) k +
          12.8571428571429 * (skew (pi 2) *ᵥ pi 5) k) * alpha },
    { top := fun i j =>
        -5.71428571428571 * alpha * (1 : M3) i j
      bot := fun i j =>
        1 * (0.238095238095238 * skew g i j * T2 + 14.2857142857143 * skew (pi 4) i j - 20 *
          skew (pi 5) i j) * alpha
      head := fun k =>
        1 * (1.42857142857143 * pi 1 k + 7.85714285714286 * pi 2 k - 14.2857142857143 * pi 4 k
          + 7.14285714285715 * pi 5 k + 3.57142857142857 * pi 6 k) * alpha
      tail := fun k =>
        1 * (0.535714285714286 * T2 * (skew g *ᵥ pi 4) k + 0.214285714285714 * T2 * (skew g *ᵥ
          pi 5) k + 0.0119047619047619 * T2 * (skew g *ᵥ pi 6) k - 1.42857142857143 * (skew (pi
          1) *ᵥ pi 6) k - 12.8571428571429 * (skew (pi 2) *ᵥ pi 5) k + 5 * (skew (pi 2) *ᵥ pi
          6) k) * alpha },
    { top := fun i j =>
        6.66666666666667 * alpha * (1 : M3) i j
      bot := fun i j =>
        1 * (20 * skew (pi 5) i j - 13.3333333333333 * skew (pi 6) i j) * alpha
      head := fun k =>
        1 * (5 * pi 2 k - 20 * pi 4 k + 8.33333333333333 * pi 6 k) * alpha
      tail := fun k =>
        1 * (0.416666666666667 * T2 * (skew g *ᵥ pi 4) k + 0.5 * T2 * (skew g *ᵥ pi 5) k +
          0.0833333333333333 * T2 * (skew g *ᵥ pi 6) k - 5 * (skew (pi 2) *ᵥ pi 6) k + 20 *
          (skew (pi 4) *ᵥ pi 5) k) * alpha },
    { top := fun i j =>
        13.3333333333333 * alpha * (1 : M3) i j
      bot := fun i j =>
        1 * (13.3333333333333 * skew (pi 6) i j) * alpha
      head := fun k =>
        1 * (-9.99999999999999 * pi 4 k - 20 * pi 5 k + 16.6666666666667 * pi 6 k) * alpha
      tail := fun k =>
        1 * (0.666666666666667 * T2 * (skew g *ᵥ pi 5) k + 0.333333333333333 * T2 * (skew g *ᵥ
          pi 6) k - 20 * (skew (pi 4) *ᵥ pi 5) k + 30 * (skew (pi 4) *ᵥ pi 6) k) * alpha },
    { top := 0
      bot := 0
      head := fun k =>
        (30 * pi 4 k - 60 * pi 5 k + 30 * pi 6 k) * alpha
      tail := fun k =>
        1 * (1 * T2 * (skew g *ᵥ pi 6) k - 30 * (skew (pi 4) *ᵥ pi 6) k + 60 * (skew (pi 5) *ᵥ
          pi 6) k) * alpha }]

/-- `computeFinalVelocityPoint`, include/hpp/bezier-com-traj/waypoints/waypoints_c0_dc0_ddc0_ddc1_dc1_c1.hh:247-254. `pi` is the list returned by `computeConstantWaypoints`. -/
noncomputable def computeFinalVelocityPoint (d : BC) (pi : ℕ → V3) (T : ℝ) : Coefs :=
  { first := 0
    second := fun k => (-6 * pi 5 k + 6 * pi 6 k) / T }

end Verif.c0_dc0_ddc0_ddc1_dc1_c1
