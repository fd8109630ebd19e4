import Verif.Model.Rows
import Verif.Model.Quadprog

/-!
# Solver front end

Model of src/solver-abstract.cpp and src/glpk-wrapper.cpp. The matrices are those of `Verif.Model.Rows`;
a vector is a matrix with one column, except `x`, `minBounds` and `maxBounds` which are lists. The NaN
assertions (solver-abstract.cpp:89-93, 108) always hold in the model.
-/

namespace Verif
open Matrix

/-! ## GLPK -/

/-- Bound types of GLPK. -/
inductive BndType where
  | FR | LO | UP | DB | FX
  deriving DecidableEq

/-- Bounds of a row or of a column. -/
structure LPBnd where
  type : BndType
  lb : ℝ
  ub : ℝ

/-- What is known to GLPK when `glp_simplex` is called: bounds of the rows, bounds of the columns,
objective coefficients, and the triples `(ia, ja, ar)`; rows and columns are numbered from 1. -/
structure LP where
  rows : List LPBnd
  cols : List LPBnd
  obj : List ℝ
  entries : List (ℕ × ℕ × ℝ)

/-- Answer of GLPK (external): whether the status is `GLP_OPT`, objective value, primal values by column
number. -/
structure LPAnswer where
  opt : Bool
  val : ℝ
  prim : ℕ → ℝ

/-- Writing `ia[k]`, `ja[k]`, `ar[k]` with `k = idConsMat` in arrays of size `1 + 20000`,
src/glpk-wrapper.cpp:47-49, 70-72 and 81-83; `acc` holds the triples `1 … idConsMat - 1`. -/
def pushEntry (acc : List (ℕ × ℕ × ℝ)) (e : ℕ × ℕ × ℝ) : Out (List (ℕ × ℕ × ℝ)) :=
  if acc.length + 1 < 1 + 20000 then .ok (acc ++ [e]) else .ub

/-- Loop over the columns `j, …` of row `i` of `M`, src/glpk-wrapper.cpp:68-74 (and 79-85); `n` is the
number of columns left. -/
noncomputable def loadCols (M : Mat) (i idrow : ℕ) : ℕ → ℕ → List (ℕ × ℕ × ℝ) → Out (List (ℕ × ℕ × ℝ))
  | 0, _, acc => .ok acc
  | n + 1, j, acc =>
    open Classical in
    if j < M.cols then
      if M.e i j ≠ 0 then do
        let acc ← pushEntry acc (idrow, j + 1, M.e i j)
        loadCols M i idrow n (j + 1) acc
      else loadCols M i idrow n (j + 1) acc
    else .ub

/-- Loop over the rows `i, …` of `M` with right-hand side `v`, src/glpk-wrapper.cpp:66-76 and 77-87; `n` is
the number of rows left and `mk` the bounds given to `glp_set_row_bnds`. -/
noncomputable def loadRows (M v : Mat) (xsize : ℕ) (mk : ℝ → LPBnd) :
    ℕ → ℕ → ℕ → List LPBnd × List (ℕ × ℕ × ℝ) → Out (List LPBnd × List (ℕ × ℕ × ℝ))
  | 0, _, _, st => .ok st
  | n + 1, i, idrow, st =>
    if i < v.rows then do
      let es ← loadCols M i idrow xsize 0 st.2
      loadRows M v xsize mk n (i + 1) (idrow + 1) (st.1 ++ [mk (v.e i 0)], es)
    else .ub

/-- `getType`, src/glpk-wrapper.cpp:26-37, with `UNBOUNDED_DOWN = -100000`, `UNBOUNDED_UP = 100000`
(solver-abstract.hpp:31-32). -/
noncomputable def getType (mib mab : ℝ) : BndType :=
  open Classical in
  if mib > -100000 ∧ mab < 100000 then .DB
  else if mib > -100000 then .LO
  else if mab < 100000 then .UP
  else .FR

/-- Loop over the columns, src/glpk-wrapper.cpp:95-98; `n` is the number of columns left. -/
noncomputable def loadBounds (g0 : Mat) (miB maB : List ℝ) :
    ℕ → ℕ → List LPBnd × List ℝ → Out (List LPBnd × List ℝ)
  | 0, _, st => .ok st
  | n + 1, i, st =>
    match miB[i]?, maB[i]? with
    | some lo, some up =>
      if i < g0.rows then
        loadBounds g0 miB maB n (i + 1) (st.1 ++ [⟨getType lo up, lo, up⟩], st.2 ++ [g0.e i 0])
      else .ub
    | _, _ => .ub

/-- The problem built by `solveglpk`, src/glpk-wrapper.cpp:43-99. `glp_add_rows` and `glp_add_cols` abort
when asked for no row or no column. -/
noncomputable def glpkProblem (g0 CE ce0 CI ci0 : Mat) (minBounds maxBounds : List ℝ) (xsize : ℕ) : Out LP :=
  if CE.rows + CI.rows = 0 ∨ xsize = 0 then .assertFail
  else do
    let st ← loadRows CI ci0 xsize (fun v => ⟨.UP, 0, v⟩) CI.rows 0 1 ([], [])
    let st ← loadRows CE ce0 xsize (fun v => ⟨.FX, v, v⟩) CE.rows 0 (CI.rows + 1) st
    let miB := if minBounds.length > 0 then minBounds else List.replicate xsize (-100000)
    let maB := if maxBounds.length > 0 then maxBounds else List.replicate xsize 100000
    let c ← loadBounds g0 miB maB xsize 0 ([], [])
    return { rows := st.1, cols := c.1, obj := c.2, entries := st.2 }

/-! ## `solvers::solve` -/

/-- `SolverType`, solver-abstract.hpp:39-46. -/
abbrev SolverType := ℕ
/-- solver-abstract.hpp:40 -/
def SOLVER_QUADPROG : SolverType := 1
/-- solver-abstract.hpp:44 -/
def SOLVER_GLPK : SolverType := 2

/-- `ResultData`, solver-abstract.hpp:52-71. -/
structure ResultData where
  success : Bool
  cost : ℝ
  x : List ℝ

/-- What is not modelled: machine epsilon, iteration limit of the QP solver (`DEFAULT_MAX_ITER` is 1000),
`L^-T` for the Cholesky factor `L` of a matrix, initial contents of the work arrays, and GLPK (`none` when
the library is compiled without `USE_GLPK_SOLVER`). -/
structure Lib where
  eps : ℝ
  maxIter : ℕ
  chol : (n : ℕ) → Matrix (Fin n) (Fin n) ℝ → ℕ → VecN n
  work : (n : ℕ) → Work n
  glpk : Option (LP → LPAnswer)

/-- `addConstraintMinBoundQuadProg`, solver-abstract.cpp:41-55. -/
noncomputable def addConstraintMinBoundQuadProg (minBounds : List ℝ) (A b : Mat) : Out (Mat × Mat) :=
  if minBounds.length = 0 then .ok (A, b)
  else do
    let D ← (Buf.uninit (A.rows + A.cols) A.cols).write 0 0 A.rows A.cols A.e
    let D ← D.write A.rows 0 A.cols A.cols fun r c => if r = c then -1 else 0
    let d ← (Buf.uninit (b.rows + A.cols) 1).write 0 0 b.rows 1 b.e
    if minBounds.length = A.cols then do
      let d ← d.write b.rows 0 A.cols 1 fun r _ => -(minBounds.getD r 0)
      let D ← D.value
      let d ← d.value
      return (D, d)
    else .assertFail

/-- `addConstraintMaxBoundQuadProg`, solver-abstract.cpp:57-71. A negative size violates an Eigen
assertion. -/
noncomputable def addConstraintMaxBoundQuadProg (maxBounds : List ℝ) (A b : Mat) : Out (Mat × Mat) :=
  if maxBounds.length = 0 then .ok (A, b)
  else if A.rows + A.cols < 3 then .assertFail
  else do
    let D ← (Buf.uninit (A.rows + A.cols - 3) A.cols).write 0 0 A.rows A.cols A.e
    let D ← D.write A.rows 0 A.cols A.cols fun r c => if r = c then 1 else 0
    let d ← (Buf.uninit (b.rows + A.cols) 1).write 0 0 b.rows 1 b.e
    if maxBounds.length = A.cols then do
      let d ← d.write b.rows 0 A.cols 1 fun r _ => maxBounds.getD r 0
      let D ← D.value
      let d ← d.value
      return (D, d)
    else .assertFail

/-- `addBoundaryConstraintsQuadProg`, solver-abstract.cpp:73-82. -/
noncomputable def addBoundaryConstraintsQuadProg (minBounds maxBounds : List ℝ) (CI ci0 : Mat) :
    Out (Mat × Mat) := do
  let q ← addConstraintMinBoundQuadProg minBounds CI ci0
  addConstraintMaxBoundQuadProg maxBounds q.1 q.2

/-- `-M`. -/
def Mat.neg (M : Mat) : Mat := { M with e := fun r c => -(M.e r c) }

/-- Row `r` of a matrix as a vector of `n` coefficients. -/
def Mat.rowN (M : Mat) (n r : ℕ) : VecN n := fun j => M.e r j

/-- The arguments of `solve_quadprog` as a problem in `n` variables. -/
def qpOf (n : ℕ) (Hess g CE ce0 CI ci0 : Mat) : QP n where
  G := fun i j => Hess.e i j
  g := fun i => g.e i 0
  CE := (List.range CE.rows).map fun r => (CE.rowN n r, ce0.e r 0)
  CI := (List.range CI.rows).map fun r => (CI.rowN n r, ci0.e r 0)

/-- Calling `solve_quadprog` on a new object, eiquadprog-fast.cpp:230-247: the sizes are asserted. The status,
`getObjValue()` and the vector `x`. -/
noncomputable def callQuadprog (lib : Lib) (fuel : ℕ) (Hess g CE ce0 CI ci0 : Mat) :
    Out (QPStatus × ℝ × List ℝ) :=
  if Hess.rows = g.rows ∧ Hess.cols = g.rows ∧ CE.rows = ce0.rows ∧ CE.cols = g.rows ∧
      CI.rows = ci0.rows ∧ CI.cols = g.rows then do
    let P := qpOf g.rows Hess g CE ce0 CI ci0
    let r ← solveQuadprog lib.eps lib.maxIter P (lib.chol g.rows P.G) (lib.work g.rows) fuel
    return (r.1, r.2.f, List.ofFn r.2.x)
  else .assertFail

/-- `solvers::solve`, solver-abstract.cpp:85-137. -/
noncomputable def solversSolve (lib : Lib) (fuel : ℕ) (A b D d Hess g : Mat) (initGuess minBounds maxBounds : List ℝ)
    (solver : SolverType) : Out ResultData :=
  if solver = SOLVER_QUADPROG then do
    let CIp ← addBoundaryConstraintsQuadProg minBounds maxBounds A b
    let r ← callQuadprog lib fuel Hess g D d.neg CIp.1.neg CIp.2
    return { success := r.1 = .optimal, cost := if r.1 = .optimal then r.2.1 else -1, x := r.2.2 }
  else
    match lib.glpk with
    | none => .throw "Unknown solver type in solver-asbtract"
    | some simplex =>
      if solver = SOLVER_GLPK then do
        let lp ← glpkProblem g D d A b minBounds maxBounds initGuess.length
        let a := simplex lp
        if a.opt then
          return { success := true, cost := a.val, x := (List.range initGuess.length).map fun i => a.prim (i + 1) }
        else return { success := false, cost := -1, x := initGuess }
      else .throw "Unknown solver type in solver-asbtract"

end Verif
