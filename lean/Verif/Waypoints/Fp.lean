import Verif.Model.Fp

/-!
Formulas of include/hpp/bezier-com-traj/waypoints as floating-point expressions, transcribed by `tools/gen_waypoints.py`.
-/

set_option linter.unusedVariables false

namespace Verif.Fp
open FExp

/-- Component `k` of `c0`. -/
def c0 (k : Fin 3) : FExp := .var (.c0 k)

/-- Component `k` of `dc0`. -/
def dc0 (k : Fin 3) : FExp := .var (.dc0 k)

/-- Component `k` of `ddc0`. -/
def ddc0 (k : Fin 3) : FExp := .var (.ddc0 k)

/-- Component `k` of `j0`. -/
def j0 (k : Fin 3) : FExp := .var (.j0 k)

/-- Component `k` of `c1`. -/
def c1 (k : Fin 3) : FExp := .var (.c1 k)

/-- Component `k` of `dc1`. -/
def dc1 (k : Fin 3) : FExp := .var (.dc1 k)

/-- Component `k` of `ddc1`. -/
def ddc1 (k : Fin 3) : FExp := .var (.ddc1 k)

/-- Component `k` of `j1`. -/
def j1 (k : Fin 3) : FExp := .var (.j1 k)

/-- Component `k` of `g`. -/
def g (k : Fin 3) : FExp := .var (.g k)

/-- Component `k` of `pi[i]`. -/
def pi (i : ℕ) (k : Fin 3) : FExp := .var (.pi i k)

/-- The duration. -/
def T : FExp := .var .T

/-- The time. -/
def t : FExp := .var .t

namespace c0_dc0_c1

/-- `computeConstantWaypoints`, include/hpp/bezier-com-traj/waypoints/waypoints_c0_dc0_c1.hh:49-62. Component `k` of the points. -/
def computeConstantWaypoints (k : Fin 3) : List FExp :=
  let n : FExp := 3
  [
    c0 k,
    (dc0 k * T / n) + c0 k,
    0,
    c1 k]

/-- `evaluateCurveAtTime`, include/hpp/bezier-com-traj/waypoints/waypoints_c0_dc0_c1.hh:25-35. The factor of the free point, and component `k` of the constant term. -/
def evaluateCurveAtTime (k : Fin 3) : FExp × FExp :=
  let t2 : FExp := t * t
  let t3 : FExp := t2 * t
  (-3 * t3 + 3 * t2,
    -1 * pi 0 k * t3 + 3 * pi 0 k * t2 - 3 * pi 0 k * t + 1 * pi 0 k + 3 * pi 1 k * t3 - 6 * pi
      1 k * t2 + 3 * pi 1 k * t + 1 * pi 3 k * t3)

/-- `evaluateAccelerationCurveAtTime`, include/hpp/bezier-com-traj/waypoints/waypoints_c0_dc0_c1.hh:37-47. The factor of the free point, and component `k` of the constant term. -/
def evaluateAccelerationCurveAtTime (k : Fin 3) : FExp × FExp :=
  let alpha : FExp := 1 / (T * T)
  ((-18 * t + 6) * alpha,
    (-6 * pi 0 k * t + 6 * pi 0 k + 18 * pi 1 k * t - 12 * pi 1 k + 6 * pi 3 k * t) * alpha)

/-- `computeFinalVelocityPoint`, include/hpp/bezier-com-traj/waypoints/waypoints_c0_dc0_c1.hh:109-115. -/
def computeFinalVelocityPoint (k : Fin 3) : FExp × FExp :=
  (-3 / T,
   3 * c1 k / T)

end c0_dc0_c1

namespace c0_dc0_dc1

/-- `computeConstantWaypoints`, include/hpp/bezier-com-traj/waypoints/waypoints_c0_dc0_dc1.hh:49-63. Component `k` of the points. -/
def computeConstantWaypoints (k : Fin 3) : List FExp :=

  [
    c0 k,
    (dc0 k * T / 3) + c0 k,
    0,
    0]

/-- `evaluateCurveAtTime`, include/hpp/bezier-com-traj/waypoints/waypoints_c0_dc0_dc1.hh:25-35. The factor of the free point, and component `k` of the constant term. -/
def evaluateCurveAtTime (k : Fin 3) : FExp × FExp :=
  let t2 : FExp := t * t
  let t3 : FExp := t2 * t
  (-2 * t3 + 3 * t2,
    -1 * pi 0 k * t3 + 3 * pi 0 k * t2 - 3 * pi 0 k * t + 1 * pi 0 k + 3 * pi 1 k * t3 - 6 * pi
      1 k * t2 + 3 * pi 1 k * t)

/-- `evaluateAccelerationCurveAtTime`, include/hpp/bezier-com-traj/waypoints/waypoints_c0_dc0_dc1.hh:37-47. The factor of the free point, and component `k` of the constant term. -/
def evaluateAccelerationCurveAtTime (k : Fin 3) : FExp × FExp :=
  let alpha : FExp := 1 / (T * T)
  ((-12 * t + 6) * alpha,
    (-6 * pi 0 k * t + 6 * pi 0 k + 18 * pi 1 k * t - 12 * pi 1 k) * alpha)

/-- `computeFinalVelocityPoint`, include/hpp/bezier-com-traj/waypoints/waypoints_c0_dc0_dc1.hh:115-122. -/
def computeFinalVelocityPoint (k : Fin 3) : FExp × FExp :=
  (0,
   0)

end c0_dc0_dc1

namespace c0_dc0_ddc0

/-- `computeConstantWaypoints`, include/hpp/bezier-com-traj/waypoints/waypoints_c0_dc0_ddc0.hh:54-67. Component `k` of the points. -/
def computeConstantWaypoints (k : Fin 3) : List FExp :=
  let n : FExp := 3
  [
    c0 k,
    (dc0 k * T / n) + c0 k,
    (ddc0 k * T * T / (n * (n - 1))) + (2 * dc0 k * T / n) + c0 k,
    0]

/-- `evaluateCurveAtTime`, include/hpp/bezier-com-traj/waypoints/waypoints_c0_dc0_ddc0.hh:26-39. The factor of the free point, and component `k` of the constant term. -/
def evaluateCurveAtTime (k : Fin 3) : FExp × FExp :=
  let t2 : FExp := t * t
  let t3 : FExp := t2 * t
  (t3,
    t3 * (3 * (pi 1 k - pi 2 k) - pi 0 k) + t2 * (3 * (pi 0 k + pi 2 k) - 6 * pi 1 k) + 3 * t *
      (pi 1 k - pi 0 k) + pi 0 k)

/-- `evaluateAccelerationCurveAtTime`, include/hpp/bezier-com-traj/waypoints/waypoints_c0_dc0_ddc0.hh:41-52. The factor of the free point, and component `k` of the constant term. -/
def evaluateAccelerationCurveAtTime (k : Fin 3) : FExp × FExp :=
  let alpha : FExp := 1 / (T * T)
  (6 * t * alpha,
    (18 * (pi 1 k - pi 2 k) - 6 * pi 0 k) * alpha * t + (6 * (pi 0 k + pi 2 k) - 12 * pi 1 k) *
      alpha)

/-- `computeFinalVelocityPoint`, include/hpp/bezier-com-traj/waypoints/waypoints_c0_dc0_ddc0.hh:118-126. -/
def computeFinalVelocityPoint (k : Fin 3) : FExp × FExp :=
  (3 / T,
   -3 * pi 2 k / T)

end c0_dc0_ddc0

namespace c0_dc0_dc1_c1

/-- `computeConstantWaypoints`, include/hpp/bezier-com-traj/waypoints/waypoints_c0_dc0_dc1_c1.hh:52-65. Component `k` of the points. -/
def computeConstantWaypoints (k : Fin 3) : List FExp :=
  let n : FExp := 4
  [
    c0 k,
    (dc0 k * T / n) + c0 k,
    0,
    (-dc1 k * T / n) + c1 k,
    c1 k]

/-- `evaluateCurveAtTime`, include/hpp/bezier-com-traj/waypoints/waypoints_c0_dc0_dc1_c1.hh:25-37. The factor of the free point, and component `k` of the constant term. -/
def evaluateCurveAtTime (k : Fin 3) : FExp × FExp :=
  let t2 : FExp := t * t
  let t3 : FExp := t2 * t
  let t4 : FExp := t3 * t
  ((6 * t4 - 12 * t3 + 6 * t2),
    1 * pi 0 k * t4 - 4 * pi 0 k * t3 + 6 * pi 0 k * t2 - 4 * pi 0 k * t + 1 * pi 0 k - 4 * pi
      1 k * t4 + 12 * pi 1 k * t3 - 12 * pi 1 k * t2 + 4 * pi 1 k * t - 4 * pi 3 k * t4 + 4 *
      pi 3 k * t3 + 1 * pi 4 k * t4)

/-- `evaluateAccelerationCurveAtTime`, include/hpp/bezier-com-traj/waypoints/waypoints_c0_dc0_dc1_c1.hh:39-50. The factor of the free point, and component `k` of the constant term. -/
def evaluateAccelerationCurveAtTime (k : Fin 3) : FExp × FExp :=
  let alpha : FExp := 1 / (T * T)
  ((72 * t * t - 72 * t + 12) * alpha,
    (12 * pi 0 k * t * t - 24 * pi 0 k * t + 12 * pi 0 k - 48 * pi 1 k * t * t + 72 * pi 1 k *
      t - 24 * pi 1 k - 48 * pi 3 k * t * t + 24 * pi 3 k * t + 12 * pi 4 k * t * t) * alpha)

/-- `computeFinalVelocityPoint`, include/hpp/bezier-com-traj/waypoints/waypoints_c0_dc0_dc1_c1.hh:129-136. -/
def computeFinalVelocityPoint (k : Fin 3) : FExp × FExp :=
  (0,
   (-4 * pi 3 k + 4 * pi 4 k) / T)

end c0_dc0_dc1_c1

namespace c0_dc0_ddc0_c1

/-- `computeConstantWaypoints`, include/hpp/bezier-com-traj/waypoints/waypoints_c0_dc0_ddc0_c1.hh:56-70. Component `k` of the points. -/
def computeConstantWaypoints (k : Fin 3) : List FExp :=
  let n : FExp := 4
  [
    c0 k,
    (dc0 k * T / n) + c0 k,
    (ddc0 k * T * T / (n * (n - 1))) + (2 * dc0 k * T / n) + c0 k,
    0,
    c1 k]

/-- `evaluateCurveAtTime`, include/hpp/bezier-com-traj/waypoints/waypoints_c0_dc0_ddc0_c1.hh:26-39. The factor of the free point, and component `k` of the constant term. -/
def evaluateCurveAtTime (k : Fin 3) : FExp × FExp :=
  let t2 : FExp := t * t
  let t3 : FExp := t2 * t
  let t4 : FExp := t3 * t
  (-4 * t4 + 4 * t3,
    1 * pi 0 k * t4 - 4 * pi 0 k * t3 + 6 * pi 0 k * t2 - 4 * pi 0 k * t + 1 * pi 0 k - 4 * pi
      1 k * t4 + 12 * pi 1 k * t3 - 12 * pi 1 k * t2 + 4 * pi 1 k * t + 6 * pi 2 k * t4 - 12 *
      pi 2 k * t3 + 6 * pi 2 k * t2 + 1 * pi 4 k * t4)

/-- `evaluateAccelerationCurveAtTime`, include/hpp/bezier-com-traj/waypoints/waypoints_c0_dc0_ddc0_c1.hh:41-54. The factor of the free point, and component `k` of the constant term. -/
def evaluateAccelerationCurveAtTime (k : Fin 3) : FExp × FExp :=
  let alpha : FExp := 1 / (T * T)
  let t2 : FExp := t * t
  ((-48 * t2 + 24 * t) * alpha,
    (12 * pi 0 k * t2 - 24 * pi 0 k * t + 12 * pi 0 k - 48 * pi 1 k * t2 + 72 * pi 1 k * t - 24
      * pi 1 k + 72 * pi 2 k * t2 - 72 * pi 2 k * t + 12 * pi 2 k + 12 * pi 4 k * t2) * alpha)

/-- `computeFinalVelocityPoint`, include/hpp/bezier-com-traj/waypoints/waypoints_c0_dc0_ddc0_c1.hh:142-148. -/
def computeFinalVelocityPoint (k : Fin 3) : FExp × FExp :=
  (-4 / T,
   4 * c1 k / T)

end c0_dc0_ddc0_c1

namespace c0_dc0_ddc0_dc1_c1

/-- `computeConstantWaypoints`, include/hpp/bezier-com-traj/waypoints/waypoints_c0_dc0_ddc0_dc1_c1.hh:63-78. Component `k` of the points. -/
def computeConstantWaypoints (k : Fin 3) : List FExp :=
  let n : FExp := 5
  [
    c0 k,
    (dc0 k * T / n) + c0 k,
    (ddc0 k * T * T / (n * (n - 1))) + (2 * dc0 k * T / n) + c0 k,
    0,
    (-dc1 k * T / n) + c1 k,
    c1 k]

/-- `evaluateCurveAtTime`, include/hpp/bezier-com-traj/waypoints/waypoints_c0_dc0_ddc0_dc1_c1.hh:28-43. The factor of the free point, and component `k` of the constant term. -/
def evaluateCurveAtTime (k : Fin 3) : FExp × FExp :=
  let t2 : FExp := t * t
  let t3 : FExp := t2 * t
  let t4 : FExp := t3 * t
  let t5 : FExp := t4 * t
  (10 * t5 - 20 * t4 + 10 * t3,
    -1 * pi 0 k * t5 + 5 * pi 0 k * t4 - 10 * pi 0 k * t3 + 10 * pi 0 k * t2 - 5 * pi 0 k * t +
      1 * pi 0 k + 5 * pi 1 k * t5 - 20 * pi 1 k * t4 + 30 * pi 1 k * t3 - 20 * pi 1 k * t2 + 5
      * pi 1 k * t - 10 * pi 2 k * t5 + 30 * pi 2 k * t4 - 30 * pi 2 k * t3 + 10 * pi 2 k * t2
      - 5 * pi 4 k * t5 + 5 * pi 4 k * t4 + 1 * pi 5 k * t5)

/-- `evaluateAccelerationCurveAtTime`, include/hpp/bezier-com-traj/waypoints/waypoints_c0_dc0_ddc0_dc1_c1.hh:45-61. The factor of the free point, and component `k` of the constant term. -/
def evaluateAccelerationCurveAtTime (k : Fin 3) : FExp × FExp :=
  let alpha : FExp := 1 / (T * T)
  let t2 : FExp := t * t
  let t3 : FExp := t2 * t
  ((200 * t3 - 240 * t2 + 60 * t) * alpha,
    1 * (-20 * pi 0 k * t3 + 60 * pi 0 k * t2 - 60 * pi 0 k * t + 20 * pi 0 k + 100 * pi 1 k *
      t3 - 240 * pi 1 k * t2 + 180 * pi 1 k * t - 40 * pi 1 k - 200 * pi 2 k * t3 + 360 * pi 2
      k * t2 - 180 * pi 2 k * t + 20 * pi 2 k - 100 * pi 4 k * t3 + 60 * pi 4 k * t2 + 20 * pi
      5 k * t3) * alpha)

/-- `computeFinalVelocityPoint`, include/hpp/bezier-com-traj/waypoints/waypoints_c0_dc0_ddc0_dc1_c1.hh:209-216. -/
def computeFinalVelocityPoint (k : Fin 3) : FExp × FExp :=
  (0,
   (-5 * pi 4 k + 5 * pi 5 k) / T)

end c0_dc0_ddc0_dc1_c1

namespace c0_dc0_ddc0_ddc1_dc1_c1

/-- `computeConstantWaypoints`, include/hpp/bezier-com-traj/waypoints/waypoints_c0_dc0_ddc0_ddc1_dc1_c1.hh:69-86. Component `k` of the points. -/
def computeConstantWaypoints (k : Fin 3) : List FExp :=
  let n : FExp := 6
  [
    c0 k,
    (dc0 k * T / n) + c0 k,
    (ddc0 k * T * T / (n * (n - 1))) + (2 * dc0 k * T / n) + c0 k,
    0,
    (ddc1 k * T * T / (n * (n - 1))) - (2 * dc1 k * T / n) + c1 k,
    (-dc1 k * T / n) + c1 k,
    c1 k]

/-- `evaluateCurveAtTime`, include/hpp/bezier-com-traj/waypoints/waypoints_c0_dc0_ddc0_ddc1_dc1_c1.hh:28-46. The factor of the free point, and component `k` of the constant term. -/
def evaluateCurveAtTime (k : Fin 3) : FExp × FExp :=
  let t2 : FExp := t * t
  let t3 : FExp := t2 * t
  let t4 : FExp := t3 * t
  let t5 : FExp := t4 * t
  let t6 : FExp := t5 * t
  (-20 * t6 + 60 * t5 - 60 * t4 + 20 * t3,
    1 * pi 0 k * t6 - 6 * pi 0 k * t5 + 15 * pi 0 k * t4 - 20 * pi 0 k * t3 + 15 * pi 0 k * t2
      - 6 * pi 0 k * t + 1 * pi 0 k - 6 * pi 1 k * t6 + 30 * pi 1 k * t5 - 60 * pi 1 k * t4 +
      60 * pi 1 k * t3 - 30 * pi 1 k * t2 + 6 * pi 1 k * t + 15 * pi 2 k * t6 - 60 * pi 2 k *
      t5 + 90 * pi 2 k * t4 - 60 * pi 2 k * t3 + 15 * pi 2 k * t2 + 15 * pi 4 k * t6 - 30 * pi
      4 k * t5 + 15 * pi 4 k * t4 - 6 * pi 5 k * t6 + 6 * pi 5 k * t5 + 1 * pi 6 k * t6)

/-- `evaluateAccelerationCurveAtTime`, include/hpp/bezier-com-traj/waypoints/waypoints_c0_dc0_ddc0_ddc1_dc1_c1.hh:48-67. The factor of the free point, and component `k` of the constant term. -/
def evaluateAccelerationCurveAtTime (k : Fin 3) : FExp × FExp :=
  let alpha : FExp := 1 / (T * T)
  let t2 : FExp := t * t
  let t3 : FExp := t2 * t
  let t4 : FExp := t3 * t
  (1 * (-600 * t4 + 1200 * t3 - 720 * t2 + 120 * t) * alpha,
    1 * (30 * pi 0 k * t4 - 120 * pi 0 k * t3 + 180 * pi 0 k * t2 - 120 * pi 0 k * t + 30 * pi
      0 k - 180 * pi 1 k * t4 + 600 * pi 1 k * t3 - 720 * pi 1 k * t2 + 360 * pi 1 k * t - 60 *
      pi 1 k + 450 * pi 2 k * t4 - 1200 * pi 2 k * t3 + 1080 * pi 2 k * t2 - 360 * pi 2 k * t +
      30 * pi 2 k + 450 * pi 4 k * t4 - 600 * pi 4 k * t3 + 180 * pi 4 k * t2 - 180 * pi 5 k *
      t4 + 120 * pi 5 k * t3 + 30 * pi 6 k * t4) * alpha)

/-- `computeFinalVelocityPoint`, include/hpp/bezier-com-traj/waypoints/waypoints_c0_dc0_ddc0_ddc1_dc1_c1.hh:247-254. -/
def computeFinalVelocityPoint (k : Fin 3) : FExp × FExp :=
  (0,
   (-6 * pi 5 k + 6 * pi 6 k) / T)

end c0_dc0_ddc0_ddc1_dc1_c1

namespace c0_dc0_ddc0_j0_j1_ddc1_dc1_c1

/-- `computeConstantWaypoints`, include/hpp/bezier-com-traj/waypoints/waypoints_c0_dc0_ddc0_j0_j1_ddc1_dc1_c1.hh:182-206. Component `k` of the points. -/
def computeConstantWaypoints (k : Fin 3) : List FExp :=
  let n : FExp := 8
  [
    c0 k,
    (dc0 k * T / n) + c0 k,
    (ddc0 k * T * T / (n * (n - 1))) + (2 * dc0 k * T / n) + c0 k,
    (j0 k * T * T * T / (n * (n - 1) * (n - 2))) + (3 * ddc0 k * T * T / (n * (n - 1))) + (3 * dc0
  k * T / n) + c0 k,
    0,
    (-j1 k * T * T * T / (n * (n - 1) * (n - 2))) + (3 * ddc1 k * T * T / (n * (n - 1))) - (3 * dc1
  k * T / n) + c1 k,
    (ddc1 k * T * T / (n * (n - 1))) - (2 * dc1 k * T / n) + c1 k,
    (-dc1 k * T / n) + c1 k,
    c1 k]

end c0_dc0_ddc0_j0_j1_ddc1_dc1_c1

namespace c0_dc0_ddc0_j0_x3_j1_ddc1_dc1_c1

/-- `computeConstantWaypoints`, include/hpp/bezier-com-traj/waypoints/waypoints_c0_dc0_ddc0_j0_x3_j1_ddc1_dc1_c1.hh:221-247. Component `k` of the points. -/
def computeConstantWaypoints (k : Fin 3) : List FExp :=
  let n : FExp := 10
  [
    c0 k,
    (dc0 k * T / n) + c0 k,
    (ddc0 k * T * T / (n * (n - 1))) + (2 * dc0 k * T / n) + c0 k,
    (j0 k * T * T * T / (n * (n - 1) * (n - 2))) + (3 * ddc0 k * T * T / (n * (n - 1))) + (3 * dc0
  k * T / n) + c0 k,
    0,
    0,
    0,
    (-j1 k * T * T * T / (n * (n - 1) * (n - 2))) + (3 * ddc1 k * T * T / (n * (n - 1))) - (3 * dc1
  k * T / n) + c1 k,
    (ddc1 k * T * T / (n * (n - 1))) - (2 * dc1 k * T / n) + c1 k,
    (-dc1 k * T / n) + c1 k,
    c1 k]

end c0_dc0_ddc0_j0_x3_j1_ddc1_dc1_c1

namespace c0_dc0_ddc0_j0_x5_j1_ddc1_dc1_c1

/-- `computeConstantWaypoints`, include/hpp/bezier-com-traj/waypoints/waypoints_c0_dc0_ddc0_j0_x5_j1_ddc1_dc1_c1.hh:237-265. Component `k` of the points. -/
def computeConstantWaypoints (k : Fin 3) : List FExp :=
  let n : FExp := 12
  [
    c0 k,
    (dc0 k * T / n) + c0 k,
    (ddc0 k * T * T / (n * (n - 1))) + (2 * dc0 k * T / n) + c0 k,
    (j0 k * T * T * T / (n * (n - 1) * (n - 2))) + (3 * ddc0 k * T * T / (n * (n - 1))) + (3 * dc0
  k * T / n) + c0 k,
    0,
    0,
    0,
    0,
    0,
    (-j1 k * T * T * T / (n * (n - 1) * (n - 2))) + (3 * ddc1 k * T * T / (n * (n - 1))) - (3 * dc1
  k * T / n) + c1 k,
    (ddc1 k * T * T / (n * (n - 1))) - (2 * dc1 k * T / n) + c1 k,
    (-dc1 k * T / n) + c1 k,
    c1 k]

end c0_dc0_ddc0_j0_x5_j1_ddc1_dc1_c1

end Verif.Fp
