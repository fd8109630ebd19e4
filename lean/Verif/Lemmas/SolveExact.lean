import Verif.Props.C26
import Verif.Props.C36
import Verif.Props.C39
import Verif.Lemmas.Factor
import Mathlib.LinearAlgebra.Matrix.PosDef

/-!
# The solver front end in exact arithmetic
-/

namespace Verif
open Matrix

/-- The contract of the Cholesky factorisation. -/
def LibOk (lib : Lib) : Prop :=
  ∀ (n : ℕ) (G : Matrix (Fin n) (Fin n) ℝ), G.PosDef → Factor G (lib.chol n G)

/-- A library in exact arithmetic that meets the contract. -/
noncomputable def exactLib (maxIter : ℕ) : Lib :=
  open Classical in
  { eps := 0, maxIter := maxIter, chol := fun n G => if h : G.PosDef then ((factor_iff_posDef G).mpr h).choose else 0,
    work := fun _ => ⟨0, 0, 0, fun _ => false, 0, 0, 0, 0⟩, glpk := none }

theorem exactLib_ok (maxIter : ℕ) : LibOk (exactLib maxIter) := by
  intro n G h
  simp only [exactLib, dif_pos h]
  exact ((factor_iff_posDef G).mpr h).choose_spec

/-- The Hessians of the cost functions are positive definite. -/
theorem costH_posDef (n : ℕ) (k : ℝ) (hk : 0 < k) :
    Matrix.PosDef (fun i j : Fin (3 + n) => (costH n k).e i j : Matrix (Fin (3 + n)) (Fin (3 + n)) ℝ) := by
  have e : (fun i j : Fin (3 + n) => (costH n k).e i j : Matrix (Fin (3 + n)) (Fin (3 + n)) ℝ)
      = Matrix.diagonal fun i : Fin (3 + n) => if i.val < 3 then k else 1e-6 := by
    ext i j
    simp only [costH, Matrix.diagonal_apply, Fin.ext_iff]
    by_cases h : i.val = j.val
    · simp [h]
    · simp [h]
  rw [e, Matrix.posDef_diagonal_iff]
  intro i
  split_ifs
  · exact hk
  · norm_num

theorem qpObj_quadForm {n : ℕ} (P : QP n) (Hess g : Mat) (h1 : ∀ i j, P.G i j = Hess.e i j)
    (h2 : ∀ i, P.g i = g.e i 0) (y : ℕ → ℝ) : 2 * qpObj P (fun i => y i) = quadForm Hess g n y := by
  unfold qpObj quadForm
  have e1 : (fun i : Fin n => y i) ⬝ᵥ P.G *ᵥ (fun i : Fin n => y i)
      = ∑ r ∈ Finset.range n, ∑ c ∈ Finset.range n, y r * Hess.e r c * y c := by
    rw [dotProduct, Finset.sum_range]
    refine Finset.sum_congr rfl fun i _ => ?_
    rw [mulVec, dotProduct, Finset.mul_sum, Finset.sum_range]
    refine Finset.sum_congr rfl fun j _ => ?_
    rw [h1]; ring
  have e2 : P.g ⬝ᵥ (fun i : Fin n => y i) = ∑ r ∈ Finset.range n, g.e r 0 * y r := by
    rw [dotProduct, Finset.sum_range]
    exact Finset.sum_congr rfl fun i _ => by rw [h2]
  rw [e1, e2]; ring

/-- The unknowns read from the list the solver returns. -/
def unk (x : List ℝ) : ℕ → ℝ := fun c => x.getD c 0

theorem unk_ofFn {n : ℕ} (x : VecN n) : unk (List.ofFn x) = extN x := by
  funext c
  unfold unk extN
  by_cases h : c < n
  · rw [dif_pos h, List.getD_eq_getElem?_getD, List.getElem?_ofFn, dif_pos h]; rfl
  · rw [dif_neg h, List.getD_eq_getElem?_getD, List.getElem?_ofFn, dif_neg h]; rfl

/-- All constraints given to `solve`. -/
def AllSat (A b D d : Mat) (m : List ℝ) (y : ℕ → ℝ) : Prop := Sat A b y ∧ EqSat D d y ∧ AboveBounds m y

/-- `solve` with the quadratic solver in exact arithmetic: it returns; `success_` comes with a point that satisfies
all constraints and where the cost is least, `cost_` being half of it; without `success_`, there is no such point, or
a row of `D` is a combination of the ones before it, or the iteration limit is at most `2 ^ (number of inequalities)`. -/
theorem solve_exact (lib : Lib) (hL : LibOk lib) (he : lib.eps = 0) {A b D d Hess g : Mat}
    (h : Fits A b D d Hess g) (m init : List ℝ) (hm : m = [] ∨ m.length = g.rows)
    (hpd : Matrix.PosDef (fun i j : Fin g.rows => Hess.e i j : Matrix (Fin g.rows) (Fin g.rows) ℝ)) (hE : D.rows ≤ g.rows) :
    ∃ q N, (∀ fuel ≥ N, solversSolve lib fuel A b D d Hess g init m [] SOLVER_QUADPROG = .ok q) ∧
      q.x.length = g.rows ∧
      (q.success = true → AllSat A b D d m (unk q.x) ∧ 2 * q.cost = quadForm Hess g g.rows (unk q.x) ∧
        ∀ z, AllSat A b D d m z → quadForm Hess g g.rows (unk q.x) ≤ quadForm Hess g g.rows z) ∧
      (q.success = false → lib.maxIter ≤ 2 ^ (A.rows + m.length) ∨ (∀ z, ¬ AllSat A b D d m z) ∨
        ∃ i < D.rows, ∃ c : ℕ → ℝ, ∀ j < g.rows, D.e i j = ∑ k ∈ Finset.range i, c k * D.e k j) := by
  obtain ⟨P, hG, hg, hCI, hCE, -, hrow, hf, -, -, hrun⟩ := C36_problem h m hm
  have hF : Factor P.G (lib.chol g.rows P.G) := by
    apply hL
    have : P.G = (fun i j : Fin g.rows => Hess.e i j) := by ext i j; exact hG i j
    rw [this]; exact hpd
  have hE' : P.CE.length ≤ g.rows := by rw [hCE]; exact hE
  have hX := exactRun_zero (maxIter := lib.maxIter) (lib.work g.rows) hF hE'
  obtain ⟨r, s, hr, hmax⟩ := C42_terminates_partial le_rfl hF hE' hX
  refine ⟨{ success := r = .optimal, cost := if r = .optimal then s.f else -1, x := List.ofFn s.x },
    P.CE.length + 2 + lib.maxIter * (g.rows + 3), fun fuel hfuel => ?_, by simp, ?_, ?_⟩
  · rw [hrun, he, hr fuel hfuel]; rfl
  · intro hs
    have hopt : r = .optimal := by simpa using hs
    subst hopt
    obtain ⟨⟨s1, s2⟩, s3, -⟩ := C40_solution_exact_partial hF hE' (hr _ le_rfl)
    rw [unk_ofFn]
    refine ⟨(hf _).mp (by rw [extN_restrict]; exact s1), ?_, fun z hz => ?_⟩
    · rw [← qpObj_quadForm P Hess g hG hg, extN_restrict, ← s3]; simp
    · rw [← qpObj_quadForm P Hess g hG hg, ← qpObj_quadForm P Hess g hG hg, extN_restrict]
      have := s2 _ ((hf z).mpr hz)
      linarith
  · intro hs
    have hopt : r ≠ .optimal := by simpa using hs
    rw [← hCI]
    cases r with
    | optimal => exact absurd rfl hopt
    | maxIterReached => exact Or.inl (hmax rfl)
    | unbounded =>
      right; left
      intro z hz
      exact C41_infeasible_partial le_rfl hF hE' hX (hr _ le_rfl) _ ((hf z).mpr hz)
    | infeasible => exact absurd (hr _ le_rfl) (C41_never_infeasible_status_partial le_rfl hF hE' hX)
    | redundantEqualities =>
      right; right
      obtain ⟨i, hi, c, hc⟩ := C44_redundant_partial le_rfl hF hE' hX (hr _ le_rfl)
      rw [hCE] at hi
      refine ⟨i, hi, c, fun j hj => ?_⟩
      have := congrFun hc ⟨j, hj⟩
      rw [hrow i hi, Finset.sum_apply] at this
      rw [this]
      refine Finset.sum_congr rfl fun k hk => ?_
      have hk := Finset.mem_range.mp hk
      rw [Pi.smul_apply, hrow k (by omega), smul_eq_mul]

end Verif
