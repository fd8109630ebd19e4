import Verif.Model.Basic

/-!
Formulas of include/hpp/bezier-com-traj/waypoints/waypoints_c0_dc0_ddc0_j0_x3_j1_ddc1_dc1_c1.hh, transcribed by `tools/gen_waypoints.py`.
-/

set_option linter.unusedVariables false

namespace Verif.c0_dc0_ddc0_j0_x3_j1_ddc1_dc1_c1
open Matrix

/-- `evaluateCurveWaypointAtTime`, include/hpp/bezier-com-traj/waypoints/waypoints_c0_dc0_ddc0_j0_x3_j1_ddc1_dc1_c1.hh:32-72. The 3x3 block of free point `j` is `first j` times the identity. -/
noncomputable def evaluateCurveWaypointAtTime (pi : ℕ → V3) (t : ℝ) : WpB 3 :=
  let t2 : ℝ := t * t
  let t3 : ℝ := t2 * t
  let t4 : ℝ := t3 * t
  let t5 : ℝ := t4 * t
  let t6 : ℝ := t5 * t
  let t7 : ℝ := t6 * t
  let t8 : ℝ := t7 * t
  let t9 : ℝ := t8 * t
  let t10 : ℝ := t9 * t
  { first := ![
        (t4 * 210 - t5 * 1260 + t6 * 3150 - 4200 * t7 + 3150 * t8 - 1260 * t9 + 210 * t10),
        (252 * t5 - 1260 * t6 + 2520 * t7 - 2520 * t8 + 1260 * t9 - 252 * t10),
        (210 * t6 - 840 * t7 + 1260 * t8 - 840 * t9 + 210 * t10)]
    second := fun k =>
      1 * pi 0 k + t * (-10 * pi 0 k + 10 * pi 1 k) + t2 * (45 * pi 0 k - 90 * pi 1 k + 45 * pi
        2 k) + t3 * (-120 * pi 0 k + 360 * pi 1 k - 360 * pi 2 k + 120 * pi 3 k) + t4 * (210 *
        pi 0 k - 840 * pi 1 k + 1260 * pi 2 k - 840 * pi 3 k) + t5 * (-252 * pi 0 k + 1260 * pi
        1 k - 2520 * pi 2 k + 2520 * pi 3 k) + t6 * (210 * pi 0 k - 1260 * pi 1 k + 3150 * pi 2
        k - 4200 * pi 3 k) + t7 * (-120 * pi 0 k + 840 * pi 1 k - 2520 * pi 2 k + 4200 * pi 3 k
        + 120 * pi 7 k) + t8 * (45 * pi 0 k - 360 * pi 1 k + 1260 * pi 2 k - 2520 * pi 3 k -
        360 * pi 7 k + 45 * pi 8 k) + t9 * (-10 * pi 0 k + 90 * pi 1 k - 360 * pi 2 k + 840 *
        pi 3 k + 360 * pi 7 k - 90 * pi 8 k + 10 * pi 9 k) + t10 * (1 * pi 0 k + 1 * pi 10 k -
        10 * pi 1 k + 45 * pi 2 k - 120 * pi 3 k - 120 * pi 7 k + 45 * pi 8 k - 10 * pi 9 k) }

/-- `evaluateVelocityCurveWaypointAtTime`, include/hpp/bezier-com-traj/waypoints/waypoints_c0_dc0_ddc0_j0_x3_j1_ddc1_dc1_c1.hh:75-123. The 3x3 block of free point `j` is `first j` times the identity. -/
noncomputable def evaluateVelocityCurveWaypointAtTime (pi : ℕ → V3) (T t : ℝ) : WpB 3 :=
  let alpha : ℝ := 1 / (T)
  let t2 : ℝ := t * t
  let t3 : ℝ := t2 * t
  let t4 : ℝ := t3 * t
  let t5 : ℝ := t4 * t
  let t6 : ℝ := t5 * t
  let t7 : ℝ := t6 * t
  let t8 : ℝ := t7 * t
  let t9 : ℝ := t8 * t
  { first := ![
        alpha * (1 * (2100 * t9 - 11340 * t8 + 25200 * t7 - 29400 * t6 + 18900 * t5 - 6300 * t4
          + 840 * t3)),
        alpha * (1 * (-2520 * t9 + 11340 * t8 - 20160 * t7 + 17640 * t6 - 7560 * t5 + 1260 *
          t4)),
        alpha * (1 * (2100 * t9 - 7560 * t8 + 10080 * t7 - 5880 * t6 + 1260 * t5))]
    second := fun k =>
      (1 * (-10 * pi 0 k + 10 * pi 1 k) + t * (1 * (90 * pi 0 k - 180 * pi 1 k + 90 * pi 2 k))
        + t2 * (1 * (-360 * pi 0 k + 1080 * pi 1 k - 1080 * pi 2 k + 360 * pi 3 k)) + t3 * (1 *
        (-90 * pi 0 k + 810 * pi 1 k - 3240 * pi 2 k + 7560 * pi 3 k + 3240 * pi 7 k - 810 * pi
        8 k + 90 * pi 9 k)) + t4 * (1 * (840 * pi 0 k - 3360 * pi 1 k + 5040 * pi 2 k - 3360 *
        pi 3 k)) + t5 * (1 * (10 * pi 0 k + 10 * pi 10 k - 100 * pi 1 k + 450 * pi 2 k - 1200 *
        pi 3 k - 1200 * pi 7 k + 450 * pi 8 k - 100 * pi 9 k)) + t6 * (1 * (-1260 * pi 0 k +
        6300 * pi 1 k - 12600 * pi 2 k + 12600 * pi 3 k)) + t7 * (1 * (1260 * pi 0 k - 7560 *
        pi 1 k + 18900 * pi 2 k - 25200 * pi 3 k)) + t8 * (1 * (-840 * pi 0 k + 5880 * pi 1 k -
        17640 * pi 2 k + 29400 * pi 3 k + 840 * pi 7 k)) + t9 * (1 * (360 * pi 0 k - 2880 * pi
        1 k + 10080 * pi 2 k - 20160 * pi 3 k - 2880 * pi 7 k + 360 * pi 8 k))) * alpha }

/-- `evaluateAccelerationCurveWaypointAtTime`, include/hpp/bezier-com-traj/waypoints/waypoints_c0_dc0_ddc0_j0_x3_j1_ddc1_dc1_c1.hh:126-172. The 3x3 block of free point `j` is `first j` times the identity. -/
noncomputable def evaluateAccelerationCurveWaypointAtTime (pi : ℕ → V3) (T t : ℝ) : WpB 3 :=
  let alpha : ℝ := 1 / (T * T)
  let t2 : ℝ := t * t
  let t3 : ℝ := t2 * t
  let t4 : ℝ := t3 * t
  let t5 : ℝ := t4 * t
  let t6 : ℝ := t5 * t
  let t7 : ℝ := t6 * t
  let t8 : ℝ := t7 * t
  { first := ![
        alpha * (1 * (18900 * t8 - 90720 * t7 + 176400 * t6 - 176400 * t5 + 94500 * t4 - 25200
          * t3 + 2520 * t2)),
        alpha * (1 * (-22680 * t8 + 90720 * t7 - 141120 * t6 + 105840 * t5 - 37800 * t4 + 5040
          * t3)),
        alpha * (1 * (18900 * t8 - 60480 * t7 + 70560 * t6 - 35280 * t5 + 6300 * t4))]
    second := fun k =>
      (1 * (90 * pi 0 k - 180 * pi 1 k + 90 * pi 2 k) + t * (1 * (-720 * pi 0 k + 2160 * pi 1 k
        - 2160 * pi 2 k + 720 * pi 3 k)) + t2 * (1 * (2520 * pi 0 k - 10080 * pi 1 k + 15120 *
        pi 2 k - 10080 * pi 3 k)) + t3 * (1 * (90 * pi 0 k + 90 * pi 10 k - 900 * pi 1 k + 4050
        * pi 2 k - 10800 * pi 3 k - 10800 * pi 7 k + 4050 * pi 8 k - 900 * pi 9 k)) + t4 * (1 *
        (-5040 * pi 0 k + 25200 * pi 1 k - 50400 * pi 2 k + 50400 * pi 3 k)) + t5 * (1 * (6300
        * pi 0 k - 37800 * pi 1 k + 94500 * pi 2 k - 126000 * pi 3 k)) + t6 * (1 * (-5040 * pi
        0 k + 35280 * pi 1 k - 105840 * pi 2 k + 176400 * pi 3 k + 5040 * pi 7 k)) + t7 * (1 *
        (2520 * pi 0 k - 20160 * pi 1 k + 70560 * pi 2 k - 141120 * pi 3 k - 20160 * pi 7 k +
        2520 * pi 8 k)) + t8 * (1 * (-720 * pi 0 k + 6480 * pi 1 k - 25920 * pi 2 k + 60480 *
        pi 3 k + 25920 * pi 7 k - 6480 * pi 8 k + 720 * pi 9 k))) * alpha }

/-- `evaluateJerkCurveWaypointAtTime`, include/hpp/bezier-com-traj/waypoints/waypoints_c0_dc0_ddc0_j0_x3_j1_ddc1_dc1_c1.hh:175-219. The 3x3 block of free point `j` is `first j` times the identity. -/
noncomputable def evaluateJerkCurveWaypointAtTime (pi : ℕ → V3) (T t : ℝ) : WpB 3 :=
  let alpha : ℝ := 1 / (T * T * T)
  let t2 : ℝ := t * t
  let t3 : ℝ := t2 * t
  let t4 : ℝ := t3 * t
  let t5 : ℝ := t4 * t
  let t6 : ℝ := t5 * t
  let t7 : ℝ := t6 * t
  { first := ![
        alpha * (1 * (151200 * t7 - 635040 * t6 + 1058400 * t5 - 882000 * t4 + 378000 * t3 -
          75600 * t2 + 5040 * t)),
        alpha * (1 * (-181440 * t7 + 635040 * t6 - 846720 * t5 + 529200 * t4 - 151200 * t3 +
          15120 * t2)),
        alpha * (1 * (151200 * t7 - 423360 * t6 + 423360 * t5 - 176400 * t4 + 25200 * t3))]
    second := fun k =>
      (1 * (-720 * pi 0 k + 2160 * pi 1 k - 2160 * pi 2 k + 720 * pi 3 k) + t * (1 * (5040 * pi
        0 k - 20160 * pi 1 k + 30240 * pi 2 k - 20160 * pi 3 k)) + t2 * (1 * (-15120 * pi 0 k +
        75600 * pi 1 k - 151200 * pi 2 k + 151200 * pi 3 k)) + t3 * (1 * (25200 * pi 0 k -
        151200 * pi 1 k + 378000 * pi 2 k - 504000 * pi 3 k)) + t4 * (1 * (-25200 * pi 0 k +
        176400 * pi 1 k - 529200 * pi 2 k + 882000 * pi 3 k + 25200 * pi 7 k)) + t5 * (1 *
        (15120 * pi 0 k - 120960 * pi 1 k + 423360 * pi 2 k - 846720 * pi 3 k - 120960 * pi 7 k
        + 15120 * pi 8 k)) + t6 * (1 * (-5040 * pi 0 k + 45360 * pi 1 k - 181440 * pi 2 k +
        423360 * pi 3 k + 181440 * pi 7 k - 45360 * pi 8 k + 5040 * pi 9 k)) + t7 * (1 * (720 *
        pi 0 k + 720 * pi 10 k - 7200 * pi 1 k + 32400 * pi 2 k - 86400 * pi 3 k - 86400 * pi 7
        k + 32400 * pi 8 k - 7200 * pi 9 k))) * alpha }

/-- `computeConstantWaypoints`, include/hpp/bezier-com-traj/waypoints/waypoints_c0_dc0_ddc0_j0_x3_j1_ddc1_dc1_c1.hh:221-247. -/
noncomputable def computeConstantWaypoints (d : BC) (T : ℝ) : List V3 :=
  let n : ℝ := 10
  [
    (fun k => d.c0 k),
    (fun k => (d.dc0 k * T / n) + d.c0 k),
    (fun k => (d.ddc0 k * T * T / (n * (n - 1))) + (2 * d.dc0 k * T / n) + d.c0 k),
    (fun k => (d.j0 k * T * T * T / (n * (n - 1) * (n - 2))) + (3 * d.ddc0 k * T * T / (n * (n - 1))) + (3 *
  d.dc0 k * T / n) + d.c0 k),
    (fun k => 0),
    (fun k => 0),
    (fun k => 0),
    (fun k => (-d.j1 k * T * T * T / (n * (n - 1) * (n - 2))) + (3 * d.ddc1 k * T * T / (n * (n - 1))) - (3 *
  d.dc1 k * T / n) + d.c1 k),
    (fun k => (d.ddc1 k * T * T / (n * (n - 1))) - (2 * d.dc1 k * T / n) + d.c1 k),
    (fun k => (-d.dc1 k * T / n) + d.c1 k),
    (fun k => d.c1 k)]

/-- `computeVelocityWaypoints`, include/hpp/bezier-com-traj/waypoints/waypoints_c0_dc0_ddc0_j0_x3_j1_ddc1_dc1_c1.hh:268-323. -/
noncomputable def computeVelocityWaypoints (pi : ℕ → V3) (T : ℝ) : List (WpB 3) :=
  let alpha : ℝ := 1 / (T)
  [
    { first := ![0, 0, 0], second := fun k => alpha * 10 * (-pi 0 k + pi 1 k) },
    { first := ![0, 0, 0], second := fun k => alpha * 10 * (-pi 1 k + pi 2 k) },
    { first := ![0, 0, 0], second := fun k => alpha * 10 * (-pi 2 k + pi 3 k) },
    { first := ![10 * alpha, 0, 0], second := fun k => alpha * 10 * (-pi 3 k) },
    { first := ![-10 * alpha, 10 * alpha, 0], second := 0 },
    { first := ![0, -10 * alpha, 10 * alpha], second := 0 },
    { first := ![0, 0, -10 * alpha], second := fun k => alpha * 10 * pi 7 k },
    { first := ![0, 0, 0], second := fun k => alpha * 10 * (-pi 7 k + pi 8 k) },
    { first := ![0, 0, 0], second := fun k => alpha * 10 * (-pi 8 k + pi 9 k) },
    { first := ![0, 0, 0], second := fun k => alpha * 10 * (pi 10 k - pi 9 k) }]

/-- `computeAccelerationWaypoints`, include/hpp/bezier-com-traj/waypoints/waypoints_c0_dc0_ddc0_j0_x3_j1_ddc1_dc1_c1.hh:325-381. -/
noncomputable def computeAccelerationWaypoints (pi : ℕ → V3) (T : ℝ) : List (WpB 3) :=
  let alpha : ℝ := 1 / (T * T)
  [
    { first := ![0, 0, 0], second := fun k => alpha * 90 * (pi 0 k - 2 * pi 1 k + pi 2 k) },
    { first := ![0, 0, 0], second := fun k => alpha * 90 * (pi 1 k - 2 * pi 2 k + pi 3 k) },
    { first := ![90 * alpha, 0, 0], second := fun k => alpha * 90 * (pi 2 k - pi 3 k) },
    { first := ![-180 * alpha, 90 * alpha, 0], second := fun k => alpha * 90 * pi 3 k },
    { first := ![90 * alpha, -180 * alpha, 90 * alpha], second := 0 },
    { first := ![0, 90 * alpha, -180 * alpha], second := fun k => alpha * 90 * pi 7 k },
    { first := ![0, 0, 90 * alpha], second := fun k => alpha * 90 * (-2 * pi 7 k + pi 8 k) },
    { first := ![0, 0, 0], second := fun k => alpha * 90 * (pi 7 k - 2 * pi 8 k + pi 9 k) },
    { first := ![0, 0, 0], second := fun k => alpha * 90 * (pi 7 k - 2 * pi 8 k + pi 9 k) },
    { first := ![0, 0, 0], second := fun k => alpha * 90 * (pi 10 k + pi 8 k - 2 * pi 9 k) }]

/-- `computeJerkWaypoints`, include/hpp/bezier-com-traj/waypoints/waypoints_c0_dc0_ddc0_j0_x3_j1_ddc1_dc1_c1.hh:383-439. -/
noncomputable def computeJerkWaypoints (pi : ℕ → V3) (T : ℝ) : List (WpB 3) :=
  let alpha : ℝ := 1 / (T * T * T)
  [
    { first := ![0, 0, 0], second := fun k => alpha * 720 * (-pi 0 k + 3 * pi 1 k - 3 * pi 2 k + pi 3 k) },
    { first := ![720 * alpha, 0, 0], second := fun k => alpha * 720 * (-pi 1 k + 3 * pi 2 k - 3 * pi 3 k) },
    { first := ![720 * -3 * alpha, 720 * alpha, 0], second := fun k => alpha * 720 * (-pi 2 k + 3 * pi 3 k) },
    { first := ![720 * 3 * alpha, 720 * -3 * alpha, 720 * alpha], second := fun k => alpha * 720 * (-pi 3 k) },
    { first := ![-720 * alpha, 720 * 3 * alpha, 720 * -3 * alpha], second := fun k => alpha * 720 * pi 7 k },
    { first := ![0, -720 * alpha, 720 * 3 * alpha], second := fun k => alpha * 720 * (-3 * pi 7 k + pi 8 k) },
    { first := ![0, 0, -720 * alpha], second := fun k => alpha * 720 * (3 * pi 7 k - 3 * pi 8 k + pi 9 k) },
    { first := ![0, 0, 0], second := fun k => alpha * 720 * (pi 10 k - pi 7 k + 3 * pi 8 k - 3 * pi 9 k) }]

/-- `computeFinalVelocityPoint`, include/hpp/bezier-com-traj/waypoints/waypoints_c0_dc0_ddc0_j0_x3_j1_ddc1_dc1_c1.hh:442-449. `pi` is the list returned by `computeConstantWaypoints`. -/
noncomputable def computeFinalVelocityPoint (d : BC) (pi : ℕ → V3) (T : ℝ) : Coefs :=
  { first := 0
    second := fun k => (-6 * pi 5 k + 6 * pi 6 k) / T }

/-- `computeVelocityCost`, include/hpp/bezier-com-traj/waypoints/waypoints_c0_dc0_ddc0_j0_x3_j1_ddc1_dc1_c1.hh:451-495. Matrix `H` before the division by its norm: block `(a,b)` is this scalar times the identity. -/
noncomputable def velocityCostH (T : ℝ) : Matrix (Fin 3) (Fin 3) ℝ :=
  ![
    ![ 7.77457833646806 / (T), 10.8844097406652 / (2 * T), 2.41875768460934 / (2 * T)],
    ![ 10.8844097406652 / (2 * T), 7.25627312788583 / (T), 10.8844097036619 / (2 * T)],
    ![ 2.41875768460934 / (2 * T), 10.8844097036619 / (2 * T), 7.77457836216558 / (T)]]

/-- `computeVelocityCost`, include/hpp/bezier-com-traj/waypoints/waypoints_c0_dc0_ddc0_j0_x3_j1_ddc1_dc1_c1.hh:451-495. Vector `g` before the division by the norm of `H`. -/
noncomputable def velocityCostG (pi : ℕ → V3) (T : ℝ) : Fin 3 → V3 :=
  ![
    (fun k =>
      (-12.352941184069 * pi 0 k - 2.03619909502433 * pi 10 k - 10.5882353430148 * pi 1 k +
        1.2217194516605 * pi 2 k + 12.2171947000329 * pi 3 k - 4.66474701697538 * pi 7 k -
        7.21925133730399 * pi 8 k - 5.42986425333795 * pi 9 k) / (2 * T)),
    (fun k =>
      (-5.29411764601331 * pi 0 k - 5.29411764705762 * pi 10 k - 8.95927605247282 * pi 1 k -
        6.10859723220821 * pi 2 k + 2.2213080007358 * pi 3 k + 2.22130810120924 * pi 7 k -
        6.10859728485633 * pi 8 k - 8.95927601808432 * pi 9 k) / (2 * T)),
    (fun k =>
      (-2.03619909557297 * pi 0 k - 12.3529411764706 * pi 10 k - 5.42986425052241 * pi 1 k -
        7.21925133714926 * pi 2 k - 4.66474700749421 * pi 3 k + 12.2171945706055 * pi 7 k +
        1.22171945695766 * pi 8 k - 10.5882352941172 * pi 9 k) / (2 * T))]

end Verif.c0_dc0_ddc0_j0_x3_j1_ddc1_dc1_c1
