import Verif.Waypoints.Fp
import Verif.Model.Dispatch

/-!
# Queries of src/waypoints_definition.cpp with rounded arithmetic

Each query returns any of the results that rounded arithmetic may give: the model is a relation between its arguments
and its result.
-/

namespace Verif

/-- `computeConstantWaypoints`, src/waypoints_definition.cpp:264-296: the expressions of the points. -/
def pointsFp (flag : Flag) : Option (Fin 3 → List FExp) :=
  if flag = c0_dc0_c1.flag then some Fp.c0_dc0_c1.computeConstantWaypoints
  else if flag = c0_dc0_dc1.flag then some Fp.c0_dc0_dc1.computeConstantWaypoints
  else if flag = c0_dc0_dc1_c1.flag then some Fp.c0_dc0_dc1_c1.computeConstantWaypoints
  else if flag = c0_dc0_ddc0.flag then some Fp.c0_dc0_ddc0.computeConstantWaypoints
  else if flag = c0_dc0_ddc0_c1.flag then some Fp.c0_dc0_ddc0_c1.computeConstantWaypoints
  else if flag = c0_dc0_ddc0_dc1_c1.flag then some Fp.c0_dc0_ddc0_dc1_c1.computeConstantWaypoints
  else if flag = c0_dc0_ddc0_ddc1_dc1_c1.flag then some Fp.c0_dc0_ddc0_ddc1_dc1_c1.computeConstantWaypoints
  else if flag = c0_dc0_ddc0_j0_j1_ddc1_dc1_c1.flag then some Fp.c0_dc0_ddc0_j0_j1_ddc1_dc1_c1.computeConstantWaypoints
  else if flag = c0_dc0_ddc0_j0_x3_j1_ddc1_dc1_c1.flag then some Fp.c0_dc0_ddc0_j0_x3_j1_ddc1_dc1_c1.computeConstantWaypoints
  else if flag = c0_dc0_ddc0_j0_x5_j1_ddc1_dc1_c1.flag then some Fp.c0_dc0_ddc0_j0_x5_j1_ddc1_dc1_c1.computeConstantWaypoints
  else none

/-- `computeConstantWaypoints`, src/waypoints_definition.cpp:264-296, with rounding: it may return `pts`. `c0_dc0_dc1`
throws when `dc1_.norm() != 0` (waypoints_c0_dc0_dc1.hh:53-55). -/
def ConstantWaypointsFp (u : ℝ) (flag : Flag) (d : BC) (T : ℝ) (pts : List V3) : Prop :=
  (flag = c0_dc0_dc1.flag → d.dc1 = 0) ∧ ∃ es, pointsFp flag = some es ∧
    ∀ k, pts.length = (es k).length ∧
      ∀ (i : ℕ) (e : FExp), (es k)[i]? = some e → e.Computes u (FExp.env d 0 0 T 0) (nth pts i k)

/-- `evaluateCurveAtTime`, src/waypoints_definition.cpp:47-78, for the seven sets of the planner: the number of points read and the
expressions of the result. -/
def curveFp (flag : Flag) : Option (ℕ × (Fin 3 → FExp × FExp)) :=
  if flag = c0_dc0_c1.flag then some (4, Fp.c0_dc0_c1.evaluateCurveAtTime)
  else if flag = c0_dc0_dc1.flag then some (2, Fp.c0_dc0_dc1.evaluateCurveAtTime)
  else if flag = c0_dc0_dc1_c1.flag then some (5, Fp.c0_dc0_dc1_c1.evaluateCurveAtTime)
  else if flag = c0_dc0_ddc0.flag then some (3, Fp.c0_dc0_ddc0.evaluateCurveAtTime)
  else if flag = c0_dc0_ddc0_c1.flag then some (5, Fp.c0_dc0_ddc0_c1.evaluateCurveAtTime)
  else if flag = c0_dc0_ddc0_dc1_c1.flag then some (6, Fp.c0_dc0_ddc0_dc1_c1.evaluateCurveAtTime)
  else if flag = c0_dc0_ddc0_ddc1_dc1_c1.flag then some (7, Fp.c0_dc0_ddc0_ddc1_dc1_c1.evaluateCurveAtTime)
  else none

/-- `evaluateCurveAtTime`, src/waypoints_definition.cpp:68-78, with rounding: it may return `co`. -/
def EvaluateCurveFp (u : ℝ) (flag : Flag) (pts : List V3) (t : ℝ) (co : Coefs) : Prop :=
  ∃ n es, curveFp flag = some (n, es) ∧ n ≤ pts.length ∧ ∀ k, ∀ d g T,
    (es k).1.Computes u (FExp.env d (nth pts) g T t) co.first ∧ (es k).2.Computes u (FExp.env d (nth pts) g T t) (co.second k)

/-- `evaluateAccelerationCurveAtTime`, src/waypoints_definition.cpp:80-94, for the seven sets of the planner. -/
def accelerationFp (flag : Flag) : Option (ℕ × (Fin 3 → FExp × FExp)) :=
  if flag = c0_dc0_c1.flag then some (4, Fp.c0_dc0_c1.evaluateAccelerationCurveAtTime)
  else if flag = c0_dc0_dc1.flag then some (2, Fp.c0_dc0_dc1.evaluateAccelerationCurveAtTime)
  else if flag = c0_dc0_dc1_c1.flag then some (5, Fp.c0_dc0_dc1_c1.evaluateAccelerationCurveAtTime)
  else if flag = c0_dc0_ddc0.flag then some (3, Fp.c0_dc0_ddc0.evaluateAccelerationCurveAtTime)
  else if flag = c0_dc0_ddc0_c1.flag then some (5, Fp.c0_dc0_ddc0_c1.evaluateAccelerationCurveAtTime)
  else if flag = c0_dc0_ddc0_dc1_c1.flag then some (6, Fp.c0_dc0_ddc0_dc1_c1.evaluateAccelerationCurveAtTime)
  else if flag = c0_dc0_ddc0_ddc1_dc1_c1.flag then some (7, Fp.c0_dc0_ddc0_ddc1_dc1_c1.evaluateAccelerationCurveAtTime)
  else none

/-- `evaluateAccelerationCurveAtTime`, src/waypoints_definition.cpp:103-115, with rounding: it may return `co`. -/
def EvaluateAccelerationFp (u : ℝ) (flag : Flag) (pts : List V3) (T t : ℝ) (co : Coefs) : Prop :=
  ∃ n es, accelerationFp flag = some (n, es) ∧ n ≤ pts.length ∧ ∀ k, ∀ d g,
    (es k).1.Computes u (FExp.env d (nth pts) g T t) co.first ∧ (es k).2.Computes u (FExp.env d (nth pts) g T t) (co.second k)

/-- `computeFinalVelocityPoint`, src/waypoints_definition.cpp:421-463: the expressions of the result. -/
def finalVelocityFp (flag : Flag) : Option (Fin 3 → FExp × FExp) :=
  if flag = c0_dc0_c1.flag then some Fp.c0_dc0_c1.computeFinalVelocityPoint
  else if flag = c0_dc0_dc1.flag then some Fp.c0_dc0_dc1.computeFinalVelocityPoint
  else if flag = c0_dc0_dc1_c1.flag then some Fp.c0_dc0_dc1_c1.computeFinalVelocityPoint
  else if flag = c0_dc0_ddc0.flag then some Fp.c0_dc0_ddc0.computeFinalVelocityPoint
  else if flag = c0_dc0_ddc0_c1.flag then some Fp.c0_dc0_ddc0_c1.computeFinalVelocityPoint
  else if flag = c0_dc0_ddc0_dc1_c1.flag then some Fp.c0_dc0_ddc0_dc1_c1.computeFinalVelocityPoint
  else if flag = c0_dc0_ddc0_ddc1_dc1_c1.flag then some Fp.c0_dc0_ddc0_ddc1_dc1_c1.computeFinalVelocityPoint
  else none

/-- `computeFinalVelocityPoint`, src/waypoints_definition.cpp:441-463, with rounding: it may return `co` when the waypoints it
computes are `pts`. -/
def FinalVelocityFp (u : ℝ) (flag : Flag) (d : BC) (T : ℝ) (pts : List V3) (co : Coefs) : Prop :=
  ConstantWaypointsFp u flag d T pts ∧ ∃ es, finalVelocityFp flag = some es ∧ ∀ k, ∀ g t,
    (es k).1.Computes u (FExp.env d (nth pts) g T t) co.first ∧ (es k).2.Computes u (FExp.env d (nth pts) g T t) (co.second k)

end Verif
