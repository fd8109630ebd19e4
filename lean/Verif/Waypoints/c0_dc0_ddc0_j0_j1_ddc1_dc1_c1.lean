import Verif.Model.Basic

/-!
Formulas of include/hpp/bezier-com-traj/waypoints/waypoints_c0_dc0_ddc0_j0_j1_ddc1_dc1_c1.hh, transcribed by `tools/gen_waypoints.py`.
-/

set_option linter.unusedVariables false

namespace Verif.c0_dc0_ddc0_j0_j1_ddc1_dc1_c1
open Matrix

/-- `evaluateCurveAtTime`, include/hpp/bezier-com-traj/waypoints/waypoints_c0_dc0_ddc0_j0_j1_ddc1_dc1_c1.hh:30-56. Exact arithmetic, componentwise. -/
noncomputable def evaluateCurveAtTime (pi : ℕ → V3) (t : ℝ) : Coefs :=
  let t2 : ℝ := t * t
  let t3 : ℝ := t2 * t
  let t4 : ℝ := t3 * t
  let t5 : ℝ := t4 * t
  let t6 : ℝ := t5 * t
  let t7 : ℝ := t6 * t
  let t8 : ℝ := t7 * t
  { first :=
      70 * t8 - 280 * t7 + 420 * t6 - 280 * t5 + 70 * t4
    second := fun k =>
      1 * pi 8 k * t8 - 8 * pi 8 k * t7 + 28 * pi 8 k * t6 - 56 * pi 8 k * t5 + 70 * pi 8 k *
        t4 - 56 * pi 8 k * t3 + 28 * pi 8 k * t2 - 8 * pi 8 k * t + 1 * pi 8 k - 8 * pi 1 k *
        t8 + 56 * pi 1 k * t7 - 168 * pi 1 k * t6 + 280 * pi 1 k * t5 - 280 * pi 1 k * t4 + 168
        * pi 1 k * t3 - 56 * pi 1 k * t2 + 8 * pi 1 k * t + 28 * pi 2 k * t8 - 168 * pi 2 k *
        t7 + 420 * pi 2 k * t6 - 560 * pi 2 k * t5 + 420 * pi 2 k * t4 - 168 * pi 2 k * t3 + 28
        * pi 2 k * t2 - 56 * pi 3 k * t ^ 8 + 280 * pi 3 k * t7 - 560 * pi 3 k * t6 + 560 * pi
        3 k * t5 - 280 * pi 3 k * t4 + 56 * pi 3 k * t3 - 56 * pi 5 k * t8 + 168 * pi 5 k * t7
        - 168 * pi 5 k * t6 + 56 * pi 5 k * t ^ 5 + 28 * pi 6 k * t8 - 56 * pi 6 k * t7 + 28 *
        pi 6 k * t6 - 8 * pi 7 k * t8 + 8 * pi 7 k * t7 + 1 * pi 8 k * t8 }

/-- `evaluateVelocityCurveAtTime`, include/hpp/bezier-com-traj/waypoints/waypoints_c0_dc0_ddc0_j0_j1_ddc1_dc1_c1.hh:58-87. Exact arithmetic, componentwise. -/
noncomputable def evaluateVelocityCurveAtTime (pi : ℕ → V3) (T t : ℝ) : Coefs :=
  let alpha : ℝ := 1 / (T)
  let t2 : ℝ := t * t
  let t3 : ℝ := t2 * t
  let t4 : ℝ := t3 * t
  let t5 : ℝ := t4 * t
  let t6 : ℝ := t5 * t
  let t7 : ℝ := t6 * t
  { first :=
      (560 * t7 - 1960 * t6 + 2520 * t5 - 1400 * t4 + 280 * t3) * alpha
    second := fun k =>
      (8 * pi 8 k * t7 - 56 * pi 8 k * t6 + 168 * pi 8 k * t5 - 280 * pi 8 k * t4 + 280 * pi 8
        k * t3 - 168 * pi 8 k * t2 + 56 * pi 8 k * t - 8 * pi 8 k - 64 * pi 1 k * t7 + 392 * pi
        1 k * t6 - 1008 * pi 1 k * t5 + 1400 * pi 1 k * t4 - 1120 * pi 1 k * t3 + 504 * pi 1 k
        * t2 - 112 * pi 1 k * t + 8 * pi 1 k + 224 * pi 2 k * t7 - 1176 * pi 2 k * t6 + 2520 *
        pi 2 k * t5 - 2800 * pi 2 k * t4 + 1680 * pi 2 k * t3 - 504 * pi 2 k * t2 + 56 * pi 2 k
        * t - 448 * pi 3 k * t7 + 1960 * pi 3 k * t6 - 3360 * pi 3 k * t5 + 2800 * pi 3 k * t4
        - 1120 * pi 3 k * t3 + 168 * pi 3 k * t2 - 448 * pi 5 k * t7 + 1176 * pi 5 k * t6 -
        1008 * pi 5 k * t5 + 280 * pi 5 k * t4 + 224 * pi 6 k * t7 - 392 * pi 6 k * t6 + 168 *
        pi 6 k * t5 - 64 * pi 7 k * t7 + 56 * pi 7 k * t6 + 8 * pi 8 k * t7) * alpha }

/-- `evaluateAccelerationCurveAtTime`, include/hpp/bezier-com-traj/waypoints/waypoints_c0_dc0_ddc0_j0_j1_ddc1_dc1_c1.hh:89-117. Exact arithmetic, componentwise. -/
noncomputable def evaluateAccelerationCurveAtTime (pi : ℕ → V3) (T t : ℝ) : Coefs :=
  let alpha : ℝ := 1 / (T * T)
  let t2 : ℝ := t * t
  let t3 : ℝ := t2 * t
  let t4 : ℝ := t3 * t
  let t5 : ℝ := t4 * t
  let t6 : ℝ := t5 * t
  { first :=
      ((3920 * t6 - 11760 * t5 + 12600 * t4 - 5600 * t3 + 840 * t2)) * alpha
    second := fun k =>
      (56 * pi 8 k * t6 - 336 * pi 8 k * t5 + 840 * pi 8 k * t4 - 1120 * pi 8 k * t3 + 840 * pi
        8 k * t2 - 336 * pi 8 k * t + 56 * pi 8 k - 448 * pi 1 k * t6 + 2352 * pi 1 k * t5 -
        5040 * pi 1 k * t4 + 5600 * pi 1 k * t3 - 3360 * pi 1 k * t2 + 1008 * pi 1 k * t - 112
        * pi 1 k + 1568 * pi 2 k * t6 - 7056 * pi 2 k * t5 + 12600 * pi 2 k * t4 - 11200 * pi 2
        k * t3 + 5040 * pi 2 k * t2 - 1008 * pi 2 k * t + 56 * pi 2 k - 3136 * pi 3 k * t6 +
        11760 * pi 3 k * t5 - 16800 * pi 3 k * t4 + 11200 * pi 3 k * t3 - 3360 * pi 3 k * t2 +
        336 * pi 3 k * t - 3136 * pi 5 k * t6 + 7056 * pi 5 k * t5 - 5040 * pi 5 k * t4 + 1120
        * pi 5 k * t3 + 1568 * pi 6 k * t6 - 2352 * pi 6 k * t5 + 840 * pi 6 k * t4 - 448 * pi
        7 k * t6 + 336 * pi 7 k * t5 + 56 * pi 8 k * t6) * alpha }

/-- `evaluateJerkCurveAtTime`, include/hpp/bezier-com-traj/waypoints/waypoints_c0_dc0_ddc0_j0_j1_ddc1_dc1_c1.hh:119-147. Exact arithmetic, componentwise. -/
noncomputable def evaluateJerkCurveAtTime (pi : ℕ → V3) (T t : ℝ) : Coefs :=
  let alpha : ℝ := 1 / (T * T * T)
  let t2 : ℝ := t * t
  let t3 : ℝ := t2 * t
  let t4 : ℝ := t3 * t
  let t5 : ℝ := t4 * t
  { first :=
      (23520 * t5 - 58800 * t4 + 50400 * t3 - 16800 * t2 + 1680 * t) * alpha
    second := fun k =>
      1 * (336 * pi 0 k * t5 - 1680 * pi 0 k * t4 + 3360 * pi 0 k * t3 - 3360 * pi 0 k * t2 +
        1680 * pi 0 k * t - 336 * pi 0 k - 2688 * pi 1 k * t5 + 11760 * pi 1 k * t4 - 20160 *
        pi 1 k * t3 + 16800 * pi 1 k * t2 - 6720 * pi 1 k * t + 1008 * pi 1 k + 9408 * pi 2 k *
        t5 - 35280 * pi 2 k * t4 + 50400 * pi 2 k * t3 - 33600 * pi 2 k * t2 + 10080 * pi 2 k *
        t - 1008 * pi 2 k - 18816 * pi 3 k * t5 + 58800 * pi 3 k * t4 - 67200 * pi 3 k * t3 +
        33600 * pi 3 k * t2 - 6720 * pi 3 k * t + 336 * pi 3 k - 18816 * pi 5 k * t5 + 35280 *
        pi 5 k * t4 - 20160 * pi 5 k * t3 + 3360 * pi 5 k * t2 + 9408 * pi 6 k * t5 - 11760 *
        pi 6 k * t4 + 3360 * pi 6 k * t3 - 2688 * pi 7 k * t5 + 1680 * pi 7 k * t4 + 336 * pi 8
        k * t5) * alpha }

/-- `evaluateCurveWaypointAtTime`, include/hpp/bezier-com-traj/waypoints/waypoints_c0_dc0_ddc0_j0_j1_ddc1_dc1_c1.hh:148-155. -/
noncomputable def evaluateCurveWaypointAtTime (pi : ℕ → V3) (t : ℝ) : WpB 1 :=
  { first := ![(evaluateCurveAtTime pi t).first], second := (evaluateCurveAtTime pi t).second }

/-- `evaluateVelocityCurveWaypointAtTime`, include/hpp/bezier-com-traj/waypoints/waypoints_c0_dc0_ddc0_j0_j1_ddc1_dc1_c1.hh:156-163. -/
noncomputable def evaluateVelocityCurveWaypointAtTime (pi : ℕ → V3) (T t : ℝ) : WpB 1 :=
  { first := ![(evaluateVelocityCurveAtTime pi T t).first], second := (evaluateVelocityCurveAtTime pi T t).second }

/-- `evaluateAccelerationCurveWaypointAtTime`, include/hpp/bezier-com-traj/waypoints/waypoints_c0_dc0_ddc0_j0_j1_ddc1_dc1_c1.hh:164-171. -/
noncomputable def evaluateAccelerationCurveWaypointAtTime (pi : ℕ → V3) (T t : ℝ) : WpB 1 :=
  { first := ![(evaluateAccelerationCurveAtTime pi T t).first], second := (evaluateAccelerationCurveAtTime pi T t).second }

/-- `evaluateJerkCurveWaypointAtTime`, include/hpp/bezier-com-traj/waypoints/waypoints_c0_dc0_ddc0_j0_j1_ddc1_dc1_c1.hh:173-180. -/
noncomputable def evaluateJerkCurveWaypointAtTime (pi : ℕ → V3) (T t : ℝ) : WpB 1 :=
  { first := ![(evaluateJerkCurveAtTime pi T t).first], second := (evaluateJerkCurveAtTime pi T t).second }

/-- `computeConstantWaypoints`, include/hpp/bezier-com-traj/waypoints/waypoints_c0_dc0_ddc0_j0_j1_ddc1_dc1_c1.hh:182-206. -/
noncomputable def computeConstantWaypoints (d : BC) (T : ℝ) : List V3 :=
  let n : ℝ := 8
  [
    (fun k => d.c0 k),
    (fun k => (d.dc0 k * T / n) + d.c0 k),
    (fun k => (d.ddc0 k * T * T / (n * (n - 1))) + (2 * d.dc0 k * T / n) + d.c0 k),
    (fun k => (d.j0 k * T * T * T / (n * (n - 1) * (n - 2))) + (3 * d.ddc0 k * T * T / (n * (n - 1))) + (3 *
  d.dc0 k * T / n) + d.c0 k),
    (fun k => 0),
    (fun k => (-d.j1 k * T * T * T / (n * (n - 1) * (n - 2))) + (3 * d.ddc1 k * T * T / (n * (n - 1))) - (3 *
  d.dc1 k * T / n) + d.c1 k),
    (fun k => (d.ddc1 k * T * T / (n * (n - 1))) - (2 * d.dc1 k * T / n) + d.c1 k),
    (fun k => (-d.dc1 k * T / n) + d.c1 k),
    (fun k => d.c1 k)]

/-- `computeWwaypoints`, include/hpp/bezier-com-traj/waypoints/waypoints_c0_dc0_ddc0_j0_j1_ddc1_dc1_c1.hh:208-365. The 6x3 matrix is split in two 3x3 blocks, the 6-vector in head and tail. `g` is `contacts_.front().contactPhase_->m_gravity`; scalar factors are commuted past matrix-vector products. -/
noncomputable def computeWwaypoints (pi : ℕ → V3) (g : V3) (T : ℝ) : List Wp6 :=
  let T2 : ℝ := T * T
  let alpha : ℝ := 1 / (T2)
  [
    { top := 0
      bot := 0
      head := fun k =>
        (30 * pi 0 k - 60 * pi 1 k + 30 * pi 2 k) * alpha
      tail := fun k =>
        1 * (1 * T2 * (skew g *ᵥ pi 0) k - 60 * (skew (pi 0) *ᵥ pi 1) k + 30 * (skew (pi 0) *ᵥ
          pi 2) k) * alpha },
    { top := fun i j =>
        13.3333333333333 * alpha * (1 : M3) i j
      bot := fun i j =>
        13.3333333333333 * skew (pi 0) i j * alpha
      head := fun k =>
        1 * (16.6666666666667 * pi 0 k - 20 * pi 1 k - 10 * pi 2 k) * alpha
      tail := fun k =>
        1 * (0.333333333333333 * T2 * (skew g *ᵥ pi 0) k + 0.666666666666667 * T2 * (skew g *ᵥ
          pi 1) k - 30 * (skew (pi 0) *ᵥ pi 2) k + 20 * (skew (pi 1) *ᵥ pi 2) k) * alpha },
    { top := fun i j =>
        6.66666666666667 * alpha * (1 : M3) i j
      bot := fun i j =>
        1 * (-13.3333333333333 * skew (pi 0) i j + 20 * skew (pi 1) i j) * alpha
      head := fun k =>
        1 * (8.33333333333333 * pi 0 k - 20 * pi 2 k + 5 * pi 4 k) * alpha
      tail := fun k =>
        1 * (0.0833333333333334 * T2 * (skew g *ᵥ pi 0) k + 0.5 * T2 * (skew g *ᵥ pi 1) k +
          0.416666666666667 * T2 * (skew g *ᵥ pi 2) k + 5 * (skew (pi 0) *ᵥ pi 4) k - 20 *
          (skew (pi 1) *ᵥ pi 2) k) * alpha },
    { top := fun i j =>
        -5.71428571428572 * alpha * (1 : M3) i j
      bot := fun i j =>
        1 * (0.238095238095238 * skew g i j * T2 - 20 * skew (pi 1) i j + 14.2857142857143 *
          skew (pi 2) i j) * alpha
      head := fun k =>
        1 * (3.57142857142857 * pi 0 k + 7.14285714285714 * pi 1 k - 14.2857142857143 * pi 2 k
          + 7.85714285714286 * pi 4 k + 1.42857142857143 * pi 5 k) * alpha
      tail := fun k =>
        1 * (0.0119047619047619 * T2 * (skew g *ᵥ pi 0) k + 0.214285714285714 * T2 * (skew g *ᵥ
          pi 1) k + 0.535714285714286 * T2 * (skew g *ᵥ pi 2) k - 5 * (skew (pi 0) *ᵥ pi 4) k +
          1.42857142857143 * (skew (pi 0) *ᵥ pi 5) k + 12.8571428571429 * (skew (pi 1) *ᵥ pi 4)
          k) * alpha },
    { top := fun i j =>
        -14.2857142857143 * alpha * (1 : M3) i j
      bot := fun i j =>
        1 * (0.476190476190476 * skew g i j * T2 - 14.2857142857143 * skew (pi 2) i j) * alpha
      head := fun k =>
        1 * (1.19047619047619 * pi 0 k + 7.14285714285714 * pi 1 k - 3.57142857142857 * pi 2 k
          + 5 * pi 4 k + 4.28571428571429 * pi 5 k + 0.238095238095238 * pi 6 k) * alpha
      tail := fun k =>
        1 * (0.0476190476190471 * T2 * (skew g *ᵥ pi 1) k + 0.357142857142857 * T2 * (skew g *ᵥ
          pi 2) k + 0.119047619047619 * T2 * (skew g *ᵥ pi 4) k - 1.42857142857143 * (skew (pi
          0) *ᵥ pi 5) k + 0.238095238095238 * (skew (pi 0) *ᵥ pi 6) k - 12.8571428571429 *
          (skew (pi 1) *ᵥ pi 4) k + 5.71428571428571 * (skew (pi 1) *ᵥ pi 5) k +
          17.8571428571429 * (skew (pi 2) *ᵥ pi 4) k) * alpha },
    { top := fun i j =>
        -14.2857142857143 * alpha * (1 : M3) i j
      bot := fun i j =>
        1 * (0.476190476190476 * skew g i j * T2 - 14.2857142857143 * skew (pi 4) i j) * alpha
      head := fun k =>
        1 * (0.238095238095238 * pi 0 k + 4.28571428571429 * pi 1 k + 5 * pi 2 k -
          3.57142857142857 * pi 4 k + 7.14285714285714 * pi 5 k + 1.19047619047619 * pi 6 k) *
          alpha
      tail := fun k =>
        1 * (0.11904761904762 * T2 * (skew g *ᵥ pi 2) k + 0.357142857142857 * T2 * (skew g *ᵥ
          pi 4) k + 0.0476190476190476 * T2 * (skew g *ᵥ pi 5) k - 0.238095238095238 * (skew
          (pi 0) *ᵥ pi 6) k - 5.71428571428572 * (skew (pi 1) *ᵥ pi 5) k + 1.42857142857143 *
          (skew (pi 1) *ᵥ pi 6) k - 17.8571428571429 * (skew (pi 2) *ᵥ pi 4) k +
          12.8571428571429 * (skew (pi 2) *ᵥ pi 5) k) * alpha },
    { top := fun i j =>
        -5.71428571428571 * alpha * (1 : M3) i j
      bot := fun i j =>
        1 * (0.238095238095238 * skew g i j * T2 + 14.2857142857143 * skew (pi 4) i j - 20 *
          skew (pi 5) i j) * alpha
      head := fun k =>
        1 * (1.42857142857143 * pi 1 k + 7.85714285714286 * pi 2 k - 14.2857142857143 * pi 4 k
          + 7.14285714285715 * pi 5 k + 3.57142857142857 * pi 6 k) * alpha
      tail := fun k =>
        1 * (0.535714285714286 * T2 * (skew g *ᵥ pi 4) k + 0.214285714285714 * T2 * (skew g *ᵥ
          pi 5) k + 0.0119047619047619 * T2 * (skew g *ᵥ pi 6) k - 1.42857142857143 * (skew (pi
          1) *ᵥ pi 6) k - 12.8571428571429 * (skew (pi 2) *ᵥ pi 5) k + 5 * (skew (pi 2) *ᵥ pi
          6) k) * alpha },
    { top := fun i j =>
        6.66666666666667 * alpha * (1 : M3) i j
      bot := fun i j =>
        1 * (20 * skew (pi 5) i j - 13.3333333333333 * skew (pi 6) i j) * alpha
      head := fun k =>
        1 * (5 * pi 2 k - 20 * pi 4 k + 8.33333333333333 * pi 6 k) * alpha
      tail := fun k =>
        1 * (0.416666666666667 * T2 * (skew g *ᵥ pi 4) k + 0.5 * T2 * (skew g *ᵥ pi 5) k +
          0.0833333333333333 * T2 * (skew g *ᵥ pi 6) k - 5 * (skew (pi 2) *ᵥ pi 6) k + 20 *
          (skew (pi 4) *ᵥ pi 5) k) * alpha },
    { top := fun i j =>
        13.3333333333333 * alpha * (1 : M3) i j
      bot := fun i j =>
        1 * (13.3333333333333 * skew (pi 6) i j) * alpha
      head := fun k =>
        1 * (-9.99999999999999 * pi 4 k - 20 * pi 5 k + 16.6666666666667 * pi 6 k) * alpha
      tail := fun k =>
        1 * (0.666666666666667 * T2 * (skew g *ᵥ pi 5) k + 0.333333333333333 * T2 * (skew g *ᵥ
          pi 6) k - 20 * (skew (pi 4) *ᵥ pi 5) k + 30 * (skew (pi 4) *ᵥ pi 6) k) * alpha },
    { top := 0
      bot := 0
      head := fun k =>
        (30 * pi 4 k - 60 * pi 5 k + 30 * pi 6 k) * alpha
      tail := fun k =>
        1 * (1 * T2 * (skew g *ᵥ pi 6) k - 30 * (skew (pi 4) *ᵥ pi 6) k + 60 * (skew (pi 5) *ᵥ
          pi 6) k) * alpha }]

/-- `computeVelocityWaypoints`, include/hpp/bezier-com-traj/waypoints/waypoints_c0_dc0_ddc0_j0_j1_ddc1_dc1_c1.hh:367-411. -/
noncomputable def computeVelocityWaypoints (pi : ℕ → V3) (T : ℝ) : List (WpB 1) :=
  let alpha : ℝ := 1 / (T)
  [
    { first := ![0], second := fun k => alpha * 8 * (-pi 0 k + pi 1 k) },
    { first := ![0], second := fun k => alpha * 8 * (-pi 1 k + pi 2 k) },
    { first := ![0], second := fun k => alpha * 8 * (-pi 2 k + pi 3 k) },
    { first := ![8 * alpha], second := fun k => alpha * -8 * pi 3 k },
    { first := ![-8 * alpha], second := fun k => alpha * 8 * pi 5 k },
    { first := ![0], second := fun k => alpha * 8 * (-pi 5 k + pi 6 k) },
    { first := ![0], second := fun k => alpha * 8 * (-pi 6 k + pi 7 k) },
    { first := ![0], second := fun k => alpha * 8 * (-pi 7 k + pi 8 k) }]

/-- `computeAccelerationWaypoints`, include/hpp/bezier-com-traj/waypoints/waypoints_c0_dc0_ddc0_j0_j1_ddc1_dc1_c1.hh:413-455. -/
noncomputable def computeAccelerationWaypoints (pi : ℕ → V3) (T : ℝ) : List (WpB 1) :=
  let alpha : ℝ := 1 / (T * T)
  [
    { first := ![0], second := fun k => 56 * alpha * (pi 0 k - 2 * pi 1 k + pi 2 k) },
    { first := ![0], second := fun k => 56 * alpha * (pi 1 k - 2 * pi 2 k + pi 3 k) },
    { first := ![56 * alpha], second := fun k => (56 * pi 2 k - 112 * pi 3 k) * alpha },
    { first := ![-112 * alpha], second := fun k => (56 * pi 3 k + 56 * pi 8 k) * alpha },
    { first := ![56 * alpha], second := fun k => (-112 * pi 5 k + 56 * pi 6 k) * alpha },
    { first := ![0], second := fun k => 56 * alpha * (pi 5 k - 2 * pi 6 k + pi 7 k) },
    { first := ![0], second := fun k => 56 * alpha * (pi 6 k - 2 * pi 7 k + pi 8 k) }]

/-- `computeJerkWaypoints`, include/hpp/bezier-com-traj/waypoints/waypoints_c0_dc0_ddc0_j0_j1_ddc1_dc1_c1.hh:457-497. -/
noncomputable def computeJerkWaypoints (pi : ℕ → V3) (T : ℝ) : List (WpB 1) :=
  let alpha : ℝ := 1 / (T * T * T)
  [
    { first := ![0], second := fun k => 336 * (-pi 0 k + 3 * pi 1 k - 3 * pi 2 k + pi 3 k) * alpha },
    { first := ![336 * alpha], second := fun k => 336 * (-pi 1 k + 3 * pi 2 k - 3 * pi 3 k) * alpha },
    { first := ![-3 * 336 * alpha], second := fun k => 336 * (-pi 2 k + 3 * pi 3 k + pi 5 k) * alpha },
    { first := ![3 * 336 * alpha], second := fun k => 336 * (-pi 3 k - 3 * pi 5 k + pi 6 k) * alpha },
    { first := ![-336 * alpha], second := fun k => 336 * (3 * pi 5 k - 3 * pi 6 k + pi 7 k) * alpha },
    { first := ![0], second := fun k => 336 * (-pi 5 k + 3 * pi 6 k - 3 * pi 7 k + pi 8 k) * alpha }]

/-- `computeFinalVelocityPoint`, include/hpp/bezier-com-traj/waypoints/waypoints_c0_dc0_ddc0_j0_j1_ddc1_dc1_c1.hh:499-506. `pi` is the list returned by `computeConstantWaypoints`. -/
noncomputable def computeFinalVelocityPoint (d : BC) (pi : ℕ → V3) (T : ℝ) : Coefs :=
  { first := 0
    second := fun k => (-6 * pi 5 k + 6 * pi 6 k) / T }

/-- `computeVelocityCost`, include/hpp/bezier-com-traj/waypoints/waypoints_c0_dc0_ddc0_j0_j1_ddc1_dc1_c1.hh:508-526. Matrix `H` before the division by its norm: block `(a,b)` is this scalar times the identity. -/
noncomputable def velocityCostH (T : ℝ) : Matrix (Fin 1) (Fin 1) ℝ :=
  ![
    ![ 6.52680652684107 / (T)]]

/-- `computeVelocityCost`, include/hpp/bezier-com-traj/waypoints/waypoints_c0_dc0_ddc0_j0_j1_ddc1_dc1_c1.hh:508-526. Vector `g` before the division by the norm of `H`. -/
noncomputable def velocityCostG (pi : ℕ → V3) (T : ℝ) : Fin 1 → V3 :=
  ![
    (fun k =>
      (-7.8321678321748 * pi 0 k - 7.83216783237586 * pi 1 k + 9.13752913728184 * pi 3 k +
        9.13752913758454 * pi 5 k - 7.83216783216697 * pi 7 k - 7.83216783216777 * pi 8 k) / (2
        * T))]

end Verif.c0_dc0_ddc0_j0_j1_ddc1_dc1_c1
