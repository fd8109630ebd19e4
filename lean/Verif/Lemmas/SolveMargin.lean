import Verif.Lemmas.SolveTol
import Verif.Props.C79

/-!
# The solver front end on rows that some point satisfies with a margin
-/

namespace Verif
open Matrix

/-- Without bounds, `solve` calls the QP solver on the given rows. -/
theorem solve_call (lib : Lib) (fuel : ℕ) (A b D d Hess g : Mat) (init : List ℝ) :
    solversSolve lib fuel A b D d Hess g init [] [] SOLVER_QUADPROG = (do
      let r ← callQuadprog lib fuel Hess g D d.neg A.neg b
      return { success := r.1 = .optimal, cost := if r.1 = .optimal then r.2.1 else -1, x := r.2.2 }) := by
  unfold solversSolve addBoundaryConstraintsQuadProg
  rw [if_pos rfl]
  simp [addConstraintMinBoundQuadProg, addConstraintMaxBoundQuadProg, Out.ok_bind]

/-- `solve` with the thresholds of the code, for the Hessian `k` times the identity in dimension three, no equations and
no bounds, rows of norm at most `R` that hold at `y` with the margin `m`: the call succeeds, or the QP solver used up its
iterations; no point that satisfies the rows is better by more than the given amount. -/
theorem solve_margin (lib : Lib) (hL : LibOk lib) (he : 0 ≤ lib.eps) {A b D d : Mat} {k R : ℝ} (hk : 0 < k) (w : V3)
    (h : Fits A b D d (costH 0 k) (costG 0 w)) (hD : D.rows = 0) (init : List ℝ)
    (hR : ∀ r < A.rows, ∑ c ∈ Finset.range 3, A.e r c ^ 2 ≤ R ^ 2)
    (h1 : lib.eps ≤ k) (h2 : lib.eps * R ^ 2 ≤ k ^ 2) {m F : ℝ} (hm : 0 < m) (y : ℕ → ℝ) (hy : SatTol A b (-m) y)
    (hF : ∀ x, quadForm (costH 0 k) (costG 0 w) 3 y - quadForm (costH 0 k) (costG 0 w) 3 x ≤ F)
    (hi : 1 ≤ lib.maxIter) (hc : 32 * lib.maxIter ^ 2 * k * lib.eps * F ≤ m ^ 2) :
    ∃ q N, (∀ fuel ≥ N, solversSolve lib fuel A b D d (costH 0 k) (costG 0 w) init [] [] SOLVER_QUADPROG = .ok q) ∧
      q.x.length = 3 ∧
      (q.success = true ∨
        ∃ o, ∀ fuel ≥ N, callQuadprog lib fuel (costH 0 k) (costG 0 w) D d.neg A.neg b = .ok (.maxIterReached, o)) ∧
      (q.success = true → SatTol A b (solverTol lib.eps k A.rows) (unk q.x) ∧
        ∀ v, Sat A b v → quadForm (costH 0 k) (costG 0 w) 3 (unk q.x) ≤ quadForm (costH 0 k) (costG 0 w) 3 v
          + 4 * lib.maxIter ^ 2 * k * lib.eps * F ^ 2 / m ^ 2) := by
  have hn : (costG 0 w).rows = 3 := rfl
  have hAc : A.cols = 3 := h.ineq.2.2
  obtain ⟨q, N, hrun, hxl, hsucc⟩ := solve_tol lib hL he hk w h hD init hR h1 h2
  set P := qpOf 3 (costH 0 k) (costG 0 w) D d.neg A.neg b with hP
  have hGv : ∀ v, P.G *ᵥ v = k • v := by
    intro v
    funext i
    have : ∀ j, P.G i j = if i = j then k else 0 := by
      intro j
      have hi : i.val < 3 := i.2
      have hj : j.val < 3 := j.2
      simp only [hP, qpOf, costH, hi, hj, and_self, if_true, Fin.ext_iff]
    simp only [mulVec, dotProduct, this, Pi.smul_apply, smul_eq_mul]
    simp
  have hFac : Factor P.G (lib.chol 3 P.G) := by
    apply hL
    exact costH_posDef 0 k hk
  have hE : P.CE = [] := by simp [hP, qpOf, hD]
  have hCI : ∀ δ (z : ℕ → ℝ), (∀ e ∈ P.CI, -δ ≤ e.1 ⬝ᵥ (fun i => z i) + e.2) ↔ SatTol A b δ z :=
    qpOf_ineqTol 3 _ _ _ _ _ _ hAc
  have hC : Conditioned lib.eps k (max 1 (R ^ 2 / k)) P (lib.chol 3 P.G) := by
    refine conditioned_of_norms hFac he hk (fun v => ?_) (fun e he => ?_) (fun e he => ?_) h1 h2
    · rw [hGv, dotProduct_smul, smul_eq_mul]
    · rw [hE] at he; simp at he
    · simp only [hP, qpOf, List.mem_map, List.mem_range] at he
      obtain ⟨r, hr, rfl⟩ := he
      refine le_trans (le_of_eq ?_) (hR r hr)
      rw [dotProduct, Finset.sum_range]
      refine Finset.sum_congr rfl fun j _ => ?_
      simp only [Mat.rowN, Mat.neg]; ring
  have hobj : ∀ z : ℕ → ℝ, 2 * qpObj P (fun i => z i) = quadForm (costH 0 k) (costG 0 w) 3 z :=
    qpObj_quadForm P _ _ (fun _ _ => rfl) (fun _ => rfl)
  obtain ⟨r, s, hok, hv⟩ := C79_margin (m := m) (F := F / 2) (Lam := k ^ 2) (maxIter := lib.maxIter)
    (y := fun i => y i) (lib.work 3) hFac hC hk hE
    ⟨by positivity, fun v => by rw [hGv, smul_dotProduct, dotProduct_smul, smul_eq_mul, smul_eq_mul]; nlinarith⟩ hm
    (fun e he => Or.inl (by have := (hCI (-m) y).mpr hy e he; rwa [neg_neg] at this))
    (fun x => by
      have e1 := hF (extN x)
      rw [← hobj, ← hobj, extN_restrict] at e1
      linarith) hi
    (by
      have := mul_le_mul_of_nonneg_left hc hk.le
      refine le_trans (le_of_eq ?_) this
      ring)
  have hcall : ∀ fuel ≥ 2 + lib.maxIter * (3 + 3),
      callQuadprog lib fuel (costH 0 k) (costG 0 w) D d.neg A.neg b = .ok (r, s.f, List.ofFn s.x) := by
    intro fuel hfuel
    unfold callQuadprog
    rw [if_pos ⟨h.hess.1, h.hess.2, by simp [Mat.neg, h.eqs.1], h.eqs.2, by simp [Mat.neg, h.ineq.1], by
      simp [Mat.neg, h.ineq.2.2]⟩]
    change (do
      let r ← solveQuadprog lib.eps lib.maxIter P (lib.chol 3 P.G) (lib.work 3) fuel
      return (r.1, r.2.f, List.ofFn r.2.x)) = _
    rw [hok fuel hfuel]
    rfl
  set M := max N (2 + lib.maxIter * (3 + 3)) with hM
  have hq : q = { success := r = .optimal, cost := if r = .optimal then s.f else -1, x := List.ofFn s.x } := by
    have e := hrun M (le_max_left _ _)
    rw [solve_call, hcall M (le_max_right _ _)] at e
    exact (Out.ok.inj e).symm
  refine ⟨q, M, fun fuel hfuel => hrun fuel ((le_max_left _ _).trans hfuel), hxl, ?_, fun hs => ⟨hsucc hs, fun v hv' => ?_⟩⟩
  · rcases hv with rfl | ⟨rfl, -⟩
    · exact Or.inr ⟨_, fun fuel hfuel => hcall fuel ((le_max_right _ _).trans hfuel)⟩
    · exact Or.inl (by rw [hq]; rfl)
  · rw [hq] at hs ⊢
    have hopt : r = .optimal := by simpa using hs
    rcases hv with rfl | ⟨-, -, hv⟩
    · cases hopt
    · have e := hv (fun i => v i) ⟨by intro e he; rw [hE] at he; simp at he, fun e he => by
        have := (hCI 0 v).mpr ((satTol_zero A b v).mpr hv') e he
        rwa [neg_zero] at this⟩
      rw [← hobj v]
      dsimp only
      rw [unk_ofFn, ← hobj, extN_restrict]
      have e2 : 8 * (lib.maxIter : ℝ) ^ 2 * k ^ 2 * lib.eps * (F / 2) ^ 2 / (k * m ^ 2)
          = 2 * lib.maxIter ^ 2 * k * lib.eps * F ^ 2 / m ^ 2 := by
        have := hk.ne'
        have := hm.ne'
        field_simp
        ring
      rw [e2] at e
      have e3 : 4 * (lib.maxIter : ℝ) ^ 2 * k * lib.eps * F ^ 2 / m ^ 2
          = 2 * (2 * lib.maxIter ^ 2 * k * lib.eps * F ^ 2 / m ^ 2) := by ring
      rw [e3]
      linarith

end Verif
