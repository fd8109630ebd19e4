import Verif.Model.Quadprog

/-!
# Specification: quadratic programs

Independent of the solver: the objective, feasibility, solutions and multipliers.
-/

namespace Verif
open Matrix

/-- `½ x' G x + g' x`. -/
noncomputable def qpObj {n : ℕ} (P : QP n) (x : VecN n) : ℝ := 1 / 2 * (x ⬝ᵥ P.G *ᵥ x) + P.g ⬝ᵥ x

/-- `CE x + ce0 = 0`. -/
def EqHolds {n : ℕ} (P : QP n) (x : VecN n) : Prop := ∀ e ∈ P.CE, e.1 ⬝ᵥ x + e.2 = 0

/-- `CE x + ce0 = 0` and `CI x + ci0 ≥ 0`. -/
def QPFeasible {n : ℕ} (P : QP n) (x : VecN n) : Prop := EqHolds P x ∧ ∀ e ∈ P.CI, 0 ≤ e.1 ⬝ᵥ x + e.2

/-- The sum of the violations of the inequalities. -/
noncomputable def violation {n : ℕ} (P : QP n) (x : VecN n) : ℝ :=
  (P.CI.map fun e => max 0 (-(e.1 ⬝ᵥ x + e.2))).sum

/-- A feasible point where the objective is least. -/
def QPSolution {n : ℕ} (P : QP n) (x : VecN n) : Prop := QPFeasible P x ∧ ∀ y, QPFeasible P y → qpObj P x ≤ qpObj P y

/-- What the factorisation of the Hessian must provide: `J J'` is the inverse of `G`. Eigen's `LLT` gives
`J = L^-T` when the Hessian is symmetric positive definite. -/
def Factor {n : ℕ} (G : Matrix (Fin n) (Fin n) ℝ) (J : ℕ → VecN n) : Prop :=
  ∀ v : VecN n, G *ᵥ (∑ j ∈ Finset.range n, (J j ⬝ᵥ v) • J j) = v

end Verif
