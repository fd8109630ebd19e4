import Verif.Model.Continuous
import Verif.Model.Solver
import Verif.Model.Cost

/-!
# The planner

Model of src/computeCOMTraj.cpp:308-340 and 529-589.
-/

namespace Verif

/-- `ResultDataCOMTraj`, include/hpp/bezier-com-traj/data.hh:122-136. -/
structure ResultDataCOMTraj where
  success : Bool
  cost : ℝ
  x : List ℝ
  c_of_t : Bezier
  dL_of_t : Bezier
  dc1 : V3
  ddc1 : V3

/-- Default constructor, data.hh:123-129. -/
def ResultDataCOMTraj.default : ResultDataCOMTraj :=
  { success := false, cost := -1, x := [], c_of_t := Bezier.zero 1, dL_of_t := Bezier.zero 1, dc1 := 0, ddc1 := 0 }

/-- `x.head<3>()`. -/
def head3 (x : List ℝ) : Out V3 :=
  if 3 ≤ x.length then .ok fun k => x.getD k 0 else .ub

/-- `genTraj`, src/computeCOMTraj.cpp:326-341, with `computeFinalVelocity` and `computeFinalAcceleration`
(308-314); `c_of_t_.max()` is the duration of the curve. -/
noncomputable def genTraj (resQp : ResultData) (pData : ProblemData) (T : ℝ) : Out ResultDataCOMTraj :=
  if resQp.success then do
    let x ← head3 resQp.x
    let pis ← computeConstantWaypoints pData.flag pData.bc T
    let c ← computeBezierCurve pData.flag T pis x
    return { success := true, cost := resQp.cost, x := List.ofFn x, c_of_t := c, dL_of_t := Bezier.zero T,
             dc1 := c.derivate c.T 1, ddc1 := c.derivate c.T 2 }
  else .ok ResultDataCOMTraj.default

/-- The message of src/computeCOMTraj.cpp:534 and 559. -/
def sizeMsg : String := "Time phase vector has different size than the number of contact phases"

/-- An empty vector, or a matrix without rows. -/
def Mat.noRows (cols : ℕ) : Mat := { rows := 0, cols := cols, e := fun _ _ => 0 }

/-- `computeCOMTrajFixedSize`, src/computeCOMTraj.cpp:529-552. -/
noncomputable def computeCOMTrajFixedSize (lib : Lib) (fuel : ℕ) (pData : ProblemData) (Ts : List ℝ)
    (pointsPerPhase : ℕ) : Out ResultDataCOMTraj :=
  if pData.representation = DOUBLE_DESCRIPTION then
    if Ts.length ≠ pData.contacts.length then .throw sizeMsg
    else do
      let timeArray := computeDiscretizedTimeFixed Ts pointsPerPhase
      let Ab ← computeConstraintsOneStep pData Ts.length Ts.sum timeArray
      let Hg ← genCostFunction pData Ts Ts.sum timeArray 3
      let resQp ← solversSolve lib fuel Ab.1 Ab.2 (Mat.noRows Ab.1.cols) (Mat.noRows 1) Hg.1 Hg.2
        (List.replicate 3 0) [] [] SOLVER_QUADPROG
      genTraj resQp pData Ts.sum
  else .assertFail

/-- The constraints of `computeCOMTraj`, src/computeCOMTraj.cpp:561-580: `timeArray` and the systems. -/
noncomputable def comSystem (κ : ℝ) (fuel : ℕ) (pData : ProblemData) (Ts : List ℝ) (timeStep : ℝ) :
    Out (TTime × ContSystem) :=
  open Classical in
  if timeStep > 0 then
    if pData.representation = DOUBLE_DESCRIPTION then do
      let timeArray ← computeDiscretizedTime Ts timeStep fuel
      let Ab ← computeConstraintsOneStep pData Ts.length Ts.sum timeArray
      return (timeArray, { A := Ab.1, b := Ab.2, D := Mat.noRows Ab.1.cols, d := Mat.noRows 1, minBounds := [] })
    else .assertFail
  else do
    let S ← computeConstraintsContinuous κ pData Ts
    return (computeDiscretizedTimeFixed Ts 7, S)

/-- `computeCOMTraj`, src/computeCOMTraj.cpp:554-589. -/
noncomputable def computeCOMTraj (κ : ℝ) (lib : Lib) (fuel : ℕ) (pData : ProblemData) (Ts : List ℝ) (timeStep : ℝ)
    (solver : SolverType) : Out ResultDataCOMTraj :=
  if Ts.length ≠ pData.contacts.length then .throw sizeMsg
  else do
    let q ← comSystem κ fuel pData Ts timeStep
    let Hg ← genCostFunction pData Ts Ts.sum q.1 q.2.A.cols
    let resQp ← solversSolve lib fuel q.2.A q.2.b q.2.D q.2.d Hg.1 Hg.2 (List.replicate q.2.A.cols 0)
      q.2.minBounds [] solver
    genTraj resQp pData Ts.sum

end Verif
