import Verif.SpecConstraints
import Verif.Model.Solver

/-!
# Vocabulary for the linear programs given to GLPK

The meaning of a problem object of GLPK, from the reference manual: row `r` is the linear form with the
loaded coefficients of number `r`, and rows and columns are bounded according to their type.
-/

namespace Verif

/-- The values a bound allows. -/
def LPBnd.Admits (b : LPBnd) (v : ℝ) : Prop :=
  match b.type with
  | .FR => True
  | .LO => b.lb ≤ v
  | .UP => v ≤ b.ub
  | .DB => b.lb ≤ v ∧ v ≤ b.ub
  | .FX => v = b.lb

/-- `glp_simplex` refuses double bounds whose lower bound is not less than the upper one (`GLP_EBOUND`). -/
def LPBnd.Valid (b : LPBnd) : Prop := b.type = .DB → b.lb < b.ub

/-- Value of row `r` (numbered from 1) at the point `y` (columns numbered from 1). -/
def LP.rowVal (lp : LP) (r : ℕ) (y : ℕ → ℝ) : ℝ :=
  ((lp.entries.filter fun e => e.1 = r).map fun e => e.2.2 * y e.2.1).sum

/-- The point is allowed by the bounds of the rows and of the columns. -/
def LP.Feasible (lp : LP) (y : ℕ → ℝ) : Prop :=
  (∀ r (b : LPBnd), lp.rows[r]? = some b → b.Admits (lp.rowVal (r + 1) y)) ∧
  (∀ c (b : LPBnd), lp.cols[c]? = some b → b.Admits (y (c + 1)))

/-- Objective at a point. -/
noncomputable def LP.value (lp : LP) (y : ℕ → ℝ) : ℝ := ∑ c ∈ Finset.range lp.obj.length, lp.obj.getD c 0 * y (c + 1)

/-- GLPK accepts the bounds. -/
def LP.Valid (lp : LP) : Prop := (∀ b ∈ lp.rows, b.Valid) ∧ ∀ b ∈ lp.cols, b.Valid

/-- What is assumed of GLPK, in exact arithmetic: on a valid problem the status is `GLP_OPT` exactly when there is an
optimal point, and then the primal values are one and the objective value is its value; on another problem the search is
not started and the status is not `GLP_OPT`. -/
def GlpkOk (simplex : LP → LPAnswer) : Prop :=
  ∀ lp, ((simplex lp).opt = true ↔ lp.Valid ∧ ∃ y, lp.Feasible y ∧ ∀ z, lp.Feasible z → lp.value y ≤ lp.value z) ∧
    ((simplex lp).opt = true → lp.Feasible (simplex lp).prim ∧ (simplex lp).val = lp.value (simplex lp).prim ∧
      ∀ z, lp.Feasible z → lp.value (simplex lp).prim ≤ lp.value z)

open Classical in
/-- Number of coefficients that are not zero. -/
noncomputable def nonzeros (M : Mat) : ℕ :=
  ((Finset.range M.rows ×ˢ Finset.range M.cols).filter fun p => M.e p.1 p.2 ≠ 0).card

/-- The values between the bounds, where a bound at or beyond 100000 in absolute value is no bound. -/
def InBox (lo up : List ℝ) (y : ℕ → ℝ) : Prop :=
  (∀ c b, lo[c]? = some b → -100000 < b → b ≤ y c) ∧ (∀ c b, up[c]? = some b → b < 100000 → y c ≤ b)

end Verif
