import Verif.Model.OneStep

/-!
# Cost functions

Model of src/costfunction_definition.cpp and of `genCostFunction`, src/computeCOMTraj.cpp:316-324.
-/

namespace Verif

/-- `H.block<3, 3>(0, 0) = k * Matrix3::Identity()`. -/
def setBlock33 (H : Mat) (k : ℝ) : Out Mat :=
  if 3 ≤ H.rows ∧ 3 ≤ H.cols then
    .ok { H with e := fun r c => if r < 3 ∧ c < 3 then (if r = c then k else 0) else H.e r c }
  else .ub

/-- `g.head<3>() = v`. -/
def setHead3 (g : Mat) (v : V3) : Out Mat :=
  if 3 ≤ g.rows then .ok { g with e := fun r c => if r < 3 then V3.get v r else g.e r c } else .ub

/-- `computeCostMidPoint`, src/costfunction_definition.cpp:13-21. -/
noncomputable def computeCostMidPoint (d : BC) (H g : Mat) : Out (Mat × Mat) := do
  let midPoint : V3 := fun k => (d.c0 k + d.c1 k) / 2
  let H ← setBlock33 H 1
  let g ← setHead3 g (-midPoint)
  return (H, g)

/-- `computeCostEndVelocity` after the test, src/costfunction_definition.cpp:31-33. -/
noncomputable def endVelocityBody (flag : Flag) (d : BC) (T : ℝ) (H g : Mat) : Out (Mat × Mat) := do
  let v ← computeFinalVelocityPoint flag d T
  let H ← setBlock33 H (v.first * v.first)
  let g ← setHead3 g (v.first • (v.second - d.dc1))
  return (H, g)

/-- `computeCostEndVelocity`, src/costfunction_definition.cpp:24-34. The test is `flag_ && END_VEL`: a
logical, not a bitwise, conjunction with a nonzero constant. -/
noncomputable def computeCostEndVelocity (flag : Flag) (d : BC) (T : ℝ) (H g : Mat) : Out (Mat × Mat) :=
  if flag ≠ 0#32 ∧ END_VEL ≠ 0#32 then
    .throw "Can't use computeCostEndVelocity as cost function when end velocity is a contraint"
  else endVelocityBody flag d T H g

/-- The loop of `computeCostMinAcceleration`, src/costfunction_definition.cpp:49-53: the factor of the identity
in the first block of `H`, and the head of `g`. -/
noncomputable def accelSums : List Coefs → ℝ × V3 → ℝ × V3
  | [], s => s
  | co :: l, s => accelSums l (s.1 + co.first * co.first, s.2 + co.first • co.second)

/-- `computeCostMinAcceleration`, src/costfunction_definition.cpp:37-54. -/
noncomputable def computeCostMinAcceleration (pData : ProblemData) (Ts : List ℝ) (timeArray : TTime) (H g : Mat) :
    Out (Mat × Mat) := do
  let wps ← computeDiscretizedAccelerationWaypoints pData Ts.sum timeArray
  let s := accelSums wps (0, 0)
  let H ← setBlock33 H s.1
  let g ← setHead3 g s.2
  return (H, g)

/-- `cost::genCostFunction`, src/costfunction_definition.cpp:56-75. -/
noncomputable def costGenCostFunction (pData : ProblemData) (Ts : List ℝ) (T : ℝ) (timeArray : TTime) (H g : Mat) :
    Out (Mat × Mat) :=
  if pData.costFunction = ACCELERATION then computeCostMinAcceleration pData Ts timeArray H g
  else if pData.costFunction = DISTANCE_TRAVELED then computeCostMidPoint pData.bc H g
  else if pData.costFunction = TARGET_END_VELOCITY then computeCostEndVelocity pData.flag pData.bc T H g
  else .throw "Unknown cost function"

/-- `genCostFunction`, src/computeCOMTraj.cpp:316-324: `H = 1e-6 * Identity`, `g = 0` to start with. -/
noncomputable def genCostFunction (pData : ProblemData) (Ts : List ℝ) (T : ℝ) (timeArray : TTime) (dim : ℕ) :
    Out (Mat × Mat) :=
  costGenCostFunction pData Ts T timeArray
    { rows := dim, cols := dim, e := fun r c => if r = c then 1e-6 else 0 }
    { rows := dim, cols := 1, e := fun _ _ => 0 }

end Verif
