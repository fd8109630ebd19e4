import Verif.Model.Basic

/-!
Formulas of include/hpp/bezier-com-traj/waypoints/waypoints_c0_dc0_ddc0_j0_x5_j1_ddc1_dc1_c1.hh, transcribed by `tools/gen_waypoints.py`.
-/

set_option linter.unusedVariables false

namespace Verif.c0_dc0_ddc0_j0_x5_j1_ddc1_dc1_c1
open Matrix

/-- `evaluateCurveWaypointAtTime`, include/hpp/bezier-com-traj/waypoints/waypoints_c0_dc0_ddc0_j0_x5_j1_ddc1_dc1_c1.hh:31-87. The 3x3 block of free point `j` is `first j` times the identity. -/
noncomputable def evaluateCurveWaypointAtTime (pi : ℕ → V3) (t : ℝ) : WpB 5 :=
  let t2 : ℝ := t * t
  let t3 : ℝ := t2 * t
  let t4 : ℝ := t3 * t
  let t5 : ℝ := t4 * t
  let t6 : ℝ := t5 * t
  let t7 : ℝ := t6 * t
  let t8 : ℝ := t7 * t
  let t9 : ℝ := t8 * t
  let t10 : ℝ := t9 * t
  let t11 : ℝ := t10 * t
  let t12 : ℝ := t11 * t
  { first := ![
        (495 * t4 - 3960 * t5 + 13860 * t6 - 27720 * t7 + 34650 * t8 - 27720 * t9 + 13860 * t10
          - 3960 * t11 + 495 * t12),
        (792 * t5 - 5544 * t6 + 16632 * t7 - 27720 * t8 + 27720 * t9 - 16632 * t10 + 5544 * t11
          - 792 * t12),
        (924 * t6 - 5544 * t7 + 13860 * t8 - 18480 * t9 + 13860 * t10 - 5544 * t11 + 924 * t12),
        (792 * t7 - 3960 * t8 + 7920 * t9 - 7920 * t10 + 3960 * t11 - 792 * t12),
        (495 * t8 - 1980 * t9 + 2970 * t10 - 1980 * t11 + 495 * t12)]
    second := fun k =>
      1 * pi 0 k + t * (-12 * pi 0 k + 12 * pi 1 k) + t2 * (66 * pi 0 k - 132 * pi 1 k + 66 *
        pi 2 k) + t3 * (-220 * pi 0 k + 660 * pi 1 k - 660 * pi 2 k + 220 * pi 3 k) + t4 * (495
        * pi 0 k - 1980 * pi 1 k + 2970 * pi 2 k - 1980 * pi 3 k) + t5 * (-792 * pi 0 k + 3960
        * pi 1 k - 7920 * pi 2 k + 7920 * pi 3 k) + t6 * (924 * pi 0 k - 5544 * pi 1 k + 13860
        * pi 2 k - 18480 * pi 3 k) + t7 * (-792 * pi 0 k + 5544 * pi 1 k - 16632 * pi 2 k +
        27720 * pi 3 k) + t8 * (495 * pi 0 k - 3960 * pi 1 k + 13860 * pi 2 k - 27720 * pi 3 k)
        + t9 * (-220 * pi 0 k + 1980 * pi 1 k - 7920 * pi 2 k + 18480 * pi 3 k + 220 * pi 9 k)
        + t10 * (66 * pi 0 k + 66 * pi 10 k - 660 * pi 1 k + 2970 * pi 2 k - 7920 * pi 3 k -
        660 * pi 9 k) + t11 * (-12 * pi 0 k - 132 * pi 10 k + 12 * pi 11 k + 132 * pi 1 k - 660
        * pi 2 k + 1980 * pi 3 k + 660 * pi 9 k) + t12 * (1 * pi 0 k + 66 * pi 10 k - 12 * pi
        11 k + 1 * pi 12 k - 12 * pi 1 k + 66 * pi 2 k - 220 * pi 3 k - 220 * pi 9 k) }

/-- `evaluateVelocityCurveWaypointAtTime`, include/hpp/bezier-com-traj/waypoints/waypoints_c0_dc0_ddc0_j0_x5_j1_ddc1_dc1_c1.hh:90-135. The 3x3 block of free point `j` is `first j` times the identity. -/
noncomputable def evaluateVelocityCurveWaypointAtTime (pi : ℕ → V3) (T t : ℝ) : WpB 5 :=
  let alpha : ℝ := 1 / (T)
  let t2 : ℝ := t * t
  let t3 : ℝ := t2 * t
  let t4 : ℝ := t3 * t
  let t5 : ℝ := t4 * t
  let t6 : ℝ := t5 * t
  let t7 : ℝ := t6 * t
  let t8 : ℝ := t7 * t
  let t9 : ℝ := t8 * t
  { first := ![
        alpha,
        alpha,
        alpha,
        alpha,
        alpha]
    second := fun k =>
      (1 * (-10 * pi 0 k + 10 * pi 1 k) + t * (1 * (90 * pi 0 k - 180 * pi 1 k + 90 * pi 2 k))
        + t2 * (1 * (-360 * pi 0 k + 1080 * pi 1 k - 1080 * pi 2 k + 360 * pi 3 k)) + t3 * (1 *
        (-90 * pi 0 k + 810 * pi 1 k - 3240 * pi 2 k + 7560 * pi 3 k + 3240 * pi 7 k - 810 * pi
        8 k + 90 * pi 9 k)) + t4 * (1 * (840 * pi 0 k - 3360 * pi 1 k + 5040 * pi 2 k - 3360 *
        pi 3 k)) + t5 * (1 * (10 * pi 0 k + 10 * pi 10 k - 100 * pi 1 k + 450 * pi 2 k - 1200 *
        pi 3 k - 1200 * pi 7 k + 450 * pi 8 k - 100 * pi 9 k)) + t6 * (1 * (-1260 * pi 0 k +
        6300 * pi 1 k - 12600 * pi 2 k + 12600 * pi 3 k)) + t7 * (1 * (1260 * pi 0 k - 7560 *
        pi 1 k + 18900 * pi 2 k - 25200 * pi 3 k)) + t8 * (1 * (-840 * pi 0 k + 5880 * pi 1 k -
        17640 * pi 2 k + 29400 * pi 3 k + 840 * pi 7 k)) + t9 * (1 * (360 * pi 0 k - 2880 * pi
        1 k + 10080 * pi 2 k - 20160 * pi 3 k - 2880 * pi 7 k + 360 * pi 8 k))) * alpha }

/-- `evaluateAccelerationCurveWaypointAtTime`, include/hpp/bezier-com-traj/waypoints/waypoints_c0_dc0_ddc0_j0_x5_j1_ddc1_dc1_c1.hh:138-186. The 3x3 block of free point `j` is `first j` times the identity. -/
noncomputable def evaluateAccelerationCurveWaypointAtTime (pi : ℕ → V3) (T t : ℝ) : WpB 5 :=
  let alpha : ℝ := 1 / (T * T)
  let t2 : ℝ := t * t
  let t3 : ℝ := t2 * t
  let t4 : ℝ := t3 * t
  let t5 : ℝ := t4 * t
  let t6 : ℝ := t5 * t
  let t7 : ℝ := t6 * t
  let t8 : ℝ := t7 * t
  { first := ![
        alpha * (1 * (18900 * t8 - 90720 * t7 + 176400 * t6 - 176400 * t5 + 94500 * t4 - 25200
          * t3 + 2520 * t2)),
        alpha * (1 * (-22680 * t8 + 90720 * t7 - 141120 * t6 + 105840 * t5 - 37800 * t4 + 5040
          * t3)),
        alpha * (1 * (18900 * t8 - 60480 * t7 + 70560 * t6 - 35280 * t5 + 6300 * t4)),
        0,
        0]
    second := fun k =>
      (1 * (90 * pi 0 k - 180 * pi 1 k + 90 * pi 2 k) + t * (1 * (-720 * pi 0 k + 2160 * pi 1 k
        - 2160 * pi 2 k + 720 * pi 3 k)) + t2 * (1 * (2520 * pi 0 k - 10080 * pi 1 k + 15120 *
        pi 2 k - 10080 * pi 3 k)) + t3 * (1 * (90 * pi 0 k + 90 * pi 10 k - 900 * pi 1 k + 4050
        * pi 2 k - 10800 * pi 3 k - 10800 * pi 7 k + 4050 * pi 8 k - 900 * pi 9 k)) + t4 * (1 *
        (-5040 * pi 0 k + 25200 * pi 1 k - 50400 * pi 2 k + 50400 * pi 3 k)) + t5 * (1 * (6300
        * pi 0 k - 37800 * pi 1 k + 94500 * pi 2 k - 126000 * pi 3 k)) + t6 * (1 * (-5040 * pi
        0 k + 35280 * pi 1 k - 105840 * pi 2 k + 176400 * pi 3 k + 5040 * pi 7 k)) + t7 * (1 *
        (2520 * pi 0 k - 20160 * pi 1 k + 70560 * pi 2 k - 141120 * pi 3 k - 20160 * pi 7 k +
        2520 * pi 8 k)) + t8 * (1 * (-720 * pi 0 k + 6480 * pi 1 k - 25920 * pi 2 k + 60480 *
        pi 3 k + 25920 * pi 7 k - 6480 * pi 8 k + 720 * pi 9 k))) * alpha }

/-- `evaluateJerkCurveWaypointAtTime`, include/hpp/bezier-com-traj/waypoints/waypoints_c0_dc0_ddc0_j0_x5_j1_ddc1_dc1_c1.hh:189-235. The 3x3 block of free point `j` is `first j` times the identity. -/
noncomputable def evaluateJerkCurveWaypointAtTime (pi : ℕ → V3) (T t : ℝ) : WpB 5 :=
  let alpha : ℝ := 1 / (T * T * T)
  let t2 : ℝ := t * t
  let t3 : ℝ := t2 * t
  let t4 : ℝ := t3 * t
  let t5 : ℝ := t4 * t
  let t6 : ℝ := t5 * t
  let t7 : ℝ := t6 * t
  { first := ![
        alpha * (1 * (151200 * t7 - 635040 * t6 + 1058400 * t5 - 882000 * t4 + 378000 * t3 -
          75600 * t2 + 5040 * t)),
        alpha * (1 * (-181440 * t7 + 635040 * t6 - 846720 * t5 + 529200 * t4 - 151200 * t3 +
          15120 * t2)),
        alpha * (1 * (151200 * t7 - 423360 * t6 + 423360 * t5 - 176400 * t4 + 25200 * t3)),
        0,
        0]
    second := fun k =>
      (1 * (-720 * pi 0 k + 2160 * pi 1 k - 2160 * pi 2 k + 720 * pi 3 k) + t * (1 * (5040 * pi
        0 k - 20160 * pi 1 k + 30240 * pi 2 k - 20160 * pi 3 k)) + t2 * (1 * (-15120 * pi 0 k +
        75600 * pi 1 k - 151200 * pi 2 k + 151200 * pi 3 k)) + t3 * (1 * (25200 * pi 0 k -
        151200 * pi 1 k + 378000 * pi 2 k - 504000 * pi 3 k)) + t4 * (1 * (-25200 * pi 0 k +
        176400 * pi 1 k - 529200 * pi 2 k + 882000 * pi 3 k + 25200 * pi 7 k)) + t5 * (1 *
        (15120 * pi 0 k - 120960 * pi 1 k + 423360 * pi 2 k - 846720 * pi 3 k - 120960 * pi 7 k
        + 15120 * pi 8 k)) + t6 * (1 * (-5040 * pi 0 k + 45360 * pi 1 k - 181440 * pi 2 k +
        423360 * pi 3 k + 181440 * pi 7 k - 45360 * pi 8 k + 5040 * pi 9 k)) + t7 * (1 * (720 *
        pi 0 k + 720 * pi 10 k - 7200 * pi 1 k + 32400 * pi 2 k - 86400 * pi 3 k - 86400 * pi 7
        k + 32400 * pi 8 k - 7200 * pi 9 k))) * alpha }

/-- `computeConstantWaypoints`, include/hpp/bezier-com-traj/waypoints/waypoints_c0_dc0_ddc0_j0_x5_j1_ddc1_dc1_c1.hh:237-265. -/
noncomputable def computeConstantWaypoints (d : BC) (T : ℝ) : List V3 :=
  let n : ℝ := 12
  [
    (fun k => d.c0 k),
    (fun k => (d.dc0 k * T / n) + d.c0 k),
    (fun k => (d.ddc0 k * T * T / (n * (n - 1))) + (2 * d.dc0 k * T / n) + d.c0 k),
    (fun k => (d.j0 k * T * T * T / (n * (n - 1) * (n - 2))) + (3 * d.ddc0 k * T * T / (n * (n - 1))) + (3 *
  d.dc0 k * T / n) + d.c0 k),
    (fun k => 0),
    (fun k => 0),
    (fun k => 0),
    (fun k => 0),
    (fun k => 0),
    (fun k => (-d.j1 k * T * T * T / (n * (n - 1) * (n - 2))) + (3 * d.ddc1 k * T * T / (n * (n - 1))) - (3 *
  d.dc1 k * T / n) + d.c1 k),
    (fun k => (d.ddc1 k * T * T / (n * (n - 1))) - (2 * d.dc1 k * T / n) + d.c1 k),
    (fun k => (-d.dc1 k * T / n) + d.c1 k),
    (fun k => d.c1 k)]

/-- `computeVelocityWaypoints`, include/hpp/bezier-com-traj/waypoints/waypoints_c0_dc0_ddc0_j0_x5_j1_ddc1_dc1_c1.hh:286-351. -/
noncomputable def computeVelocityWaypoints (pi : ℕ → V3) (T : ℝ) : List (WpB 5) :=
  let alpha : ℝ := 1 / (T)
  [
    { first := ![0, 0, 0, 0, 0], second := fun k => alpha * 12 * (-pi 0 k + pi 1 k) },
    { first := ![0, 0, 0, 0, 0], second := fun k => alpha * 12 * (-pi 1 k + pi 2 k) },
    { first := ![0, 0, 0, 0, 0], second := fun k => alpha * 12 * (-pi 2 k + pi 3 k) },
    { first := ![12 * alpha, 0, 0, 0, 0], second := fun k => alpha * 12 * (-pi 3 k) },
    { first := ![-12 * alpha, 12 * alpha, 0, 0, 0], second := 0 },
    { first := ![0, -12 * alpha, 12 * alpha, 0, 0], second := 0 },
    { first := ![0, 0, -12 * alpha, 12 * alpha, 0], second := 0 },
    { first := ![0, 0, 0, -12 * alpha, 12 * alpha], second := 0 },
    { first := ![0, 0, 0, 0, -12 * alpha], second := fun k => alpha * 12 * pi 9 k },
    { first := ![0, 0, 0, 0, 0], second := fun k => alpha * 12 * (-pi 9 k + pi 10 k) },
    { first := ![0, 0, 0, 0, 0], second := fun k => alpha * 12 * (-pi 10 k + pi 11 k) },
    { first := ![0, 0, 0, 0, 0], second := fun k => alpha * 12 * (-pi 11 k + pi 12 k) }]

/-- `computeAccelerationWaypoints`, include/hpp/bezier-com-traj/waypoints/waypoints_c0_dc0_ddc0_j0_x5_j1_ddc1_dc1_c1.hh:353-421. -/
noncomputable def computeAccelerationWaypoints (pi : ℕ → V3) (T : ℝ) : List (WpB 5) :=
  let alpha : ℝ := 1 / (T * T)
  [
    { first := ![0, 0, 0, 0, 0], second := fun k => alpha * 132 * (pi 0 k - 2 * pi 1 k + pi 2 k) },
    { first := ![0, 0, 0, 0, 0], second := fun k => alpha * 132 * (pi 1 k - 2 * pi 2 k + pi 3 k) },
    { first := ![132 * alpha, 0, 0, 0, 0], second := fun k => alpha * 132 * (pi 2 k - pi 3 k) },
    { first := ![-264 * alpha, 132 * alpha, 0, 0, 0], second := fun k => alpha * 132 * pi 3 k },
    { first := ![132 * alpha, -264 * alpha, 132 * alpha, 0, 0], second := 0 },
    { first := ![0, 132 * alpha, -264 * alpha, 132 * alpha, 0], second := 0 },
    { first := ![0, 0, 132 * alpha, -264 * alpha, 132 * alpha], second := 0 },
    { first := ![0, 0, 0, 132 * alpha, -264 * alpha], second := fun k => alpha * 132 * pi 7 k },
    { first := ![0, 0, 0, 0, 132 * alpha], second := fun k => alpha * 132 * (-2 * pi 9 k + pi 10 k) },
    { first := ![0, 0, 0, 0, 0], second := fun k => alpha * 132 * (pi 9 k - 2 * pi 10 k + pi 11 k) },
    { first := ![0, 0, 0, 0, 0], second := fun k => alpha * 132 * (pi 9 k - 2 * pi 10 k + pi 11 k) },
    { first := ![0, 0, 0, 0, 0], second := fun k => alpha * 132 * (pi 12 k + pi 10 k - 2 * pi 11 k) }]

/-- `computeJerkWaypoints`, include/hpp/bezier-com-traj/waypoints/waypoints_c0_dc0_ddc0_j0_x5_j1_ddc1_dc1_c1.hh:423-493. -/
noncomputable def computeJerkWaypoints (pi : ℕ → V3) (T : ℝ) : List (WpB 5) :=
  let alpha : ℝ := 1 / (T * T * T)
  [
    { first := ![0, 0, 0, 0, 0], second := fun k => alpha * 1320 * (-pi 0 k + 3 * pi 1 k - 3 * pi 2 k + pi 3 k) },
    { first := ![1320 * alpha, 0, 0, 0, 0], second := fun k => alpha * 1320 * (-pi 1 k + 3 * pi 2 k - 3 * pi 3 k) },
    { first := ![1320 * -3 * alpha, 1320 * alpha, 0, 0, 0], second := fun k => alpha * 1320 * (-pi 2 k + 3 * pi 3 k) },
    { first := ![1320 * 3 * alpha, 1320 * -3 * alpha, 1320 * alpha, 0, 0], second := fun k => alpha * 1320 * (-pi 3 k) },
    { first := ![-1320 * alpha, 1320 * 3 * alpha, 1320 * -3 * alpha, 1320 * alpha, 0], second := 0 },
    { first := ![0, -1320 * alpha, 1320 * 3 * alpha, 1320 * -3 * alpha, 1320 * alpha], second := 0 },
    { first := ![0, 0, -1320 * alpha, 1320 * 3 * alpha, 1320 * -3 * alpha], second := fun k => alpha * 1320 * pi 9 k },
    { first := ![0, 0, 0, -1320 * alpha, 1320 * 3 * alpha], second := fun k => alpha * 1320 * (-3 * pi 9 k + pi 10 k) },
    { first := ![0, 0, 0, 0, -1320 * alpha], second := fun k => alpha * 1320 * (3 * pi 9 k - 3 * pi 10 k + pi 11 k) },
    { first := ![0, 0, 0, 0, 0], second := fun k => alpha * 1320 * (pi 12 k - pi 9 k + 3 * pi 10 k - 3 * pi 11 k) }]

/-- `computeFinalVelocityPoint`, include/hpp/bezier-com-traj/waypoints/waypoints_c0_dc0_ddc0_j0_x5_j1_ddc1_dc1_c1.hh:496-503. `pi` is the list returned by `computeConstantWaypoints`. -/
noncomputable def computeFinalVelocityPoint (d : BC) (pi : ℕ → V3) (T : ℝ) : Coefs :=
  { first := 0
    second := fun k => (-6 * pi 5 k + 6 * pi 6 k) / T }

/-- `computeVelocityCost`, include/hpp/bezier-com-traj/waypoints/waypoints_c0_dc0_ddc0_j0_x5_j1_ddc1_dc1_c1.hh:506-594. Matrix `H` before the division by its norm: block `(a,b)` is this scalar times the identity. -/
noncomputable def velocityCostH (T : ℝ) : Matrix (Fin 5) (Fin 5) ℝ :=
  ![
    ![ 9.63290527229048 / (T), 13.4860690009623 / (2 * T), 4.14955180440231 / (2 * T), -3.55676093144659 / (2 * T), -7.07311260219052 / (2 * T)],
    ![ 13.4860690009623 / (2 * T), 8.29911962311903 / (T), 12.4486856197374 / (2 * T), 4.20345048607838 / (2 * T), -3.55676456195318 / (2 * T)],
    ![ 4.14955180440231 / (2 * T), 12.4486856197374 / (2 * T), 7.92188615942945 / (T), 12.448679688301 / (2 * T), 4.149559164651 / (2 * T)],
    ![ -3.55676093144659 / (2 * T), 4.20345048607838 / (2 * T), 12.448679688301 / (2 * T), 8.29911871865983 / (T), 13.4860680294621 / (2 * T)],
    ![ -7.07311260219052 / (2 * T), -3.55676456195318 / (2 * T), 4.149559164651 / (2 * T), 13.4860680294621 / (2 * T), 9.63290582796267 / (T)]]

/-- `computeVelocityCost`, include/hpp/bezier-com-traj/waypoints/waypoints_c0_dc0_ddc0_j0_x5_j1_ddc1_dc1_c1.hh:506-594. Vector `g` before the division by the norm of `H`. -/
noncomputable def velocityCostG (pi : ℕ → V3) (T : ℝ) : Fin 5 → V3 :=
  ![
    (fun k =>
      ((-17.8646615739593 * pi 0 k - 4.24835843773412 * pi 10 k - 1.80981866649436 * pi 11 k -
        0.408668730537654 * pi 12 k - 13.8947369836412 * pi 1 k + 2.56878303943036 * pi 2 k +
        16.0548432515434 * pi 3 k - 6.66893486967885 * pi 9 k)) / (2 * T)),
    (fun k =>
      ((-7.93984965058761 * pi 0 k - 7.0641309185535 * pi 10 k - 4.08668730511085 * pi 11 k -
        1.22600619206665 * pi 12 k - 12.1432972410894 * pi 1 k - 7.06413670827152 * pi 2 k +
        3.85315840674136 * pi 3 k - 7.50872663647158 * pi 9 k)) / (2 * T)),
    (fun k =>
      (-3.26934980716442 * pi 0 k - 8.9907120599184 * pi 10 k - 7.76470588258269 * pi 11 k -
        3.26934984520124 * pi 12 k - 7.76470597007188 * pi 1 k - 8.99071211730055 * pi 2 k -
        4.49535589801788 * pi 3 k - 4.49535607858364 * pi 9 k) / (2 * T)),
    (fun k =>
      (-1.22600620726636 * pi 0 k - 7.06413092270385 * pi 10 k - 12.1432994250704 * pi 11 k -
        7.93984962409094 * pi 12 k - 4.08668774398579 * pi 1 k - 7.0641311269266 * pi 2 k -
        7.50872489092664 * pi 3 k + 3.85316232209763 * pi 9 k) / (2 * T)),
    (fun k =>
      (-0.408668732514974 * pi 0 k + 2.56877487851457 * pi 10 k - 13.8947368423667 * pi 11 k -
        17.8646616541281 * pi 12 k - 1.80981880873492 * pi 1 k - 4.2483587965255 * pi 2 k -
        6.66893350792178 * pi 3 k + 16.0548429731073 * pi 9 k) / (2 * T))]

end Verif.c0_dc0_ddc0_j0_x5_j1_ddc1_dc1_c1
