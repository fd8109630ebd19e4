import Verif.Lemmas.QuadMove
import Verif.Props.C45
import Verif.SpecQP
import Mathlib.LinearAlgebra.Matrix.NonsingularInverse

/-!
# C107: the QP solver commutes with translations

Neither the tests on thresholds nor the iterations depend on where the origin of the variable is.
-/

namespace Verif
open Matrix

variable {n : ℕ}

/-- The problem written for the variable `x + p`. -/
def QP.translate (P : QP n) (p : VecN n) : QP n :=
  { G := P.G, g := P.g - P.G *ᵥ p, CE := P.CE.map (rowMove p), CI := P.CI.map (rowMove p) }

/-- What the translation adds to the objective. -/
noncomputable def QP.translateCost (P : QP n) (p : VecN n) : ℝ := P.g ⬝ᵥ p - 1 / 2 * (P.G *ᵥ p ⬝ᵥ p)

/-- Two answers of the solver, the second one moved by `p`: same status, active set and multipliers. -/
structure MovedRes (p : VecN n) (δ : ℝ) (a b : QPStatus × QState n) : Prop where
  status : b.1 = a.1
  x : b.2.x = a.2.x + p
  f : b.2.f = a.2.f + δ
  iq : b.2.iq = a.2.iq
  A : ∀ k < a.2.iq, b.2.A k = a.2.A k
  u : ∀ k < a.2.iq, b.2.u k = a.2.u k

/-- `J J'` as a matrix. -/
noncomputable def colsGram (J : ℕ → VecN n) : Matrix (Fin n) (Fin n) ℝ :=
  Matrix.of fun a b => ∑ j ∈ Finset.range n, J j a * J j b

theorem colsGram_mulVec (J : ℕ → VecN n) (v : VecN n) :
    colsGram J *ᵥ v = ∑ j ∈ Finset.range n, (J j ⬝ᵥ v) • J j := by
  ext a
  simp only [mulVec, dotProduct, colsGram, Matrix.of_apply, Finset.sum_apply, Pi.smul_apply, smul_eq_mul, Finset.sum_mul]
  rw [Finset.sum_comm]
  exact Finset.sum_congr rfl fun j _ => Finset.sum_congr rfl fun b _ => by ring

theorem colsGram_symm (J : ℕ → VecN n) : (colsGram J)ᵀ = colsGram J := by
  ext a b
  simp only [colsGram, Matrix.transpose_apply, Matrix.of_apply]
  exact Finset.sum_congr rfl fun j _ => mul_comm _ _

theorem Factor.cols_left {G : Matrix (Fin n) (Fin n) ℝ} {J : ℕ → VecN n} (h : Factor G J) (v : VecN n) :
    ∑ j ∈ Finset.range n, (J j ⬝ᵥ G *ᵥ v) • J j = v := by
  have h1 : G * colsGram J = 1 := by
    apply Matrix.ext_of_mulVec_single
    intro i
    rw [← mulVec_mulVec, colsGram_mulVec, h, one_mulVec]
  rw [← colsGram_mulVec, mulVec_mulVec, mul_eq_one_comm.mp h1, one_mulVec]

/-- The Hessian of a problem with a factor is symmetric. -/
theorem Factor.cols_symm {G : Matrix (Fin n) (Fin n) ℝ} {J : ℕ → VecN n} (h : Factor G J) (u v : VecN n) :
    u ⬝ᵥ G *ᵥ v = G *ᵥ u ⬝ᵥ v := by
  have h2 := h.cols_left v
  rw [← colsGram_mulVec] at h2
  have h3 := h.cols_left u
  rw [← colsGram_mulVec] at h3
  calc u ⬝ᵥ G *ᵥ v = (colsGram J *ᵥ (G *ᵥ u)) ⬝ᵥ G *ᵥ v := by rw [h3]
    _ = (G *ᵥ u) ⬝ᵥ (colsGram J *ᵥ (G *ᵥ v)) := by
      rw [dotProduct_comm, dotProduct_mulVec, ← mulVec_transpose, colsGram_symm, dotProduct_comm]
    _ = G *ᵥ u ⬝ᵥ v := by rw [h2]

theorem qpInit_translate {P : QP n} {J0 : ℕ → VecN n} (hF : Factor P.G J0) (p : VecN n) (w : Work n) :
    qpInit (P.translate p) J0 { w with xOld := w.xOld + p } = (qpInit P J0 w).mv p (P.translateCost p) := by
  have hx : -∑ j ∈ Finset.range n, (J0 j ⬝ᵥ (P.g - P.G *ᵥ p)) • J0 j
      = -∑ j ∈ Finset.range n, (J0 j ⬝ᵥ P.g) • J0 j + p := by
    simp only [dotProduct_sub, sub_smul, Finset.sum_sub_distrib, hF.cols_left]
    abel
  have hGx : P.G *ᵥ (-∑ j ∈ Finset.range n, (J0 j ⬝ᵥ P.g) • J0 j) = -P.g := by rw [mulVec_neg, hF]
  have hs := hF.cols_symm p (-∑ j ∈ Finset.range n, (J0 j ⬝ᵥ P.g) • J0 j)
  rw [hGx, dotProduct_neg] at hs
  unfold qpInit QP.translate QP.translateCost
  dsimp only [QState.mv]
  rw [hx]
  congr 1
  rw [sub_dotProduct, dotProduct_add, dotProduct_add, ← hs, dotProduct_comm P.g p]
  ring

/-- C107. When the problem is written for a variable moved by `p`, `solve_quadprog` ends in the same way: with the
same status, active set and multipliers, at the point moved by `p`. It holds for any limit of iterations, any value
of the machine precision in the tests and any contents of the work arrays. -/
theorem C107_translate (eps : ℝ) (maxIter : ℕ) (P : QP n) {J0 : ℕ → VecN n} (hF : Factor P.G J0) (p : VecN n)
    (w w' : Work n) (fuel : ℕ) :
    SameOut (MovedRes p (P.translateCost p)) (solveQuadprog eps maxIter P J0 w fuel)
      (solveQuadprog eps maxIter (P.translate p) J0 w' fuel) := by
  have hm : MovedRows p P (P.translate p) := ⟨rfl, rfl⟩
  have ht : qpTol eps (P.translate p) J0 = qpTol eps P J0 := by
    unfold qpTol
    rw [hm.lenI]
    rfl
  have h1 := qpRun_mv (eps := eps) (maxIter := maxIter) (J0 := J0) hm ht (P.translateCost p) fuel (.eq 0 (qpInit P J0 w))
  have h2 := C45_reuse eps maxIter (P.translate p) J0 { w with xOld := w.xOld + p } w' fuel
  unfold solveQuadprog at h2 ⊢
  rw [qpInit_translate hF] at h2
  replace h1 : qpRun eps maxIter (P.translate p) J0 fuel (.eq 0 ((qpInit P J0 w).mv p (P.translateCost p)))
      = (qpRun eps maxIter P J0 fuel (.eq 0 (qpInit P J0 w))).mapOk fun r => (r.1, r.2.mv p (P.translateCost p)) := h1
  rw [h1] at h2
  generalize qpRun eps maxIter P J0 fuel (.eq 0 (qpInit P J0 w)) = X at h2 ⊢
  generalize qpRun eps maxIter (P.translate p) J0 fuel (.eq 0 (qpInit (P.translate p) J0 w')) = Y at h2 ⊢
  cases X with
  | ok a =>
    cases h2 with
    | ok h =>
      obtain ⟨hst, hx, hf, hiq, hA, hu⟩ := h
      exact .ok ⟨hst.symm, hx.symm, hf.symm, hiq.symm, fun k hk => (hA k hk).symm, fun k hk => (hu k hk).symm⟩
  | throw e => cases h2; exact .throw
  | assertFail => cases h2; exact .assertFail
  | ub => cases h2; exact .ub
  | diverge => cases h2; exact .diverge

/-- What `translate` means: the moved point satisfies the moved constraints exactly when the point satisfies the
constraints, and all costs differ by the same constant. -/
theorem C107_meaning (P : QP n) {J0 : ℕ → VecN n} (hF : Factor P.G J0) (p x : VecN n) :
    (QPFeasible (P.translate p) (x + p) ↔ QPFeasible P x)
      ∧ qpObj (P.translate p) (x + p) = qpObj P x + P.translateCost p := by
  have key : ∀ e : VecN n × ℝ, (rowMove p e).1 ⬝ᵥ (x + p) + (rowMove p e).2 = e.1 ⬝ᵥ x + e.2 := by
    intro e
    simp only [rowMove, dotProduct_add]
    ring
  constructor
  · unfold QPFeasible EqHolds QP.translate
    dsimp only
    simp only [List.forall_mem_map, key]
  · unfold qpObj QP.translate QP.translateCost
    dsimp only
    have h1 := hF.cols_symm p x
    have h2 := dotProduct_comm p (P.G *ᵥ x)
    rw [mulVec_add, dotProduct_add, add_dotProduct, add_dotProduct, sub_dotProduct, dotProduct_add, dotProduct_add,
      ← h1, dotProduct_comm x (P.G *ᵥ p), ← h1, dotProduct_comm p (P.G *ᵥ p)]
    ring

/-- The Hessian of the distance cost has a factor, and there are translations other than zero. -/
example : ∃ J0 : ℕ → VecN 2, Factor (1 : Matrix (Fin 2) (Fin 2) ℝ) J0 ∧ ((![1, 2] : VecN 2) ≠ 0) := by
  refine ⟨idCols 2, fun v => ?_, fun h => ?_⟩
  · rw [one_mulVec]
    ext i
    fin_cases i <;> simp [Finset.sum_range_succ, idCols, dotProduct, Fin.sum_univ_two]
  · have := congrFun h 0
    simp at this

end Verif
