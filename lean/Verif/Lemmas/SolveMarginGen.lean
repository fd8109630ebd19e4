import Verif.Lemmas.SolveTolGen
import Verif.Lemmas.SolveMargin

/-!
# The solver front end on rows that some point satisfies with a margin: any Hessian, any dimension
-/

namespace Verif
open Matrix

/-- The rows hold at `y` with the margin `m`, except zero rows that hold everywhere. -/
def SatMargin (A b : Mat) (m : ℝ) (y : ℕ → ℝ) : Prop :=
  ∀ r < A.rows, ∑ c ∈ Finset.range A.cols, A.e r c * y c ≤ b.e r 0 - m ∨ (∀ c < A.cols, A.e r c = 0) ∧ 0 ≤ b.e r 0

theorem SatMargin.of_satTol {A b : Mat} {m : ℝ} {y : ℕ → ℝ} (h : SatTol A b (-m) y) : SatMargin A b m y :=
  fun r hr => Or.inl (by have := h r hr; linarith)

/-- `solve` with the thresholds of the code, no equations and no bounds, rows of norm at most `R` that hold at `y` with the
margin `m`, a Hessian between `k` and the root of `Λ`: the call succeeds, or the QP solver used up its iterations; no point that satisfies
the rows is better by more than the given amount. -/
theorem solve_margin_gen (lib : Lib) (hL : LibOk lib) (he : 0 ≤ lib.eps) {A b D d Hess g : Mat} {k Λ R : ℝ} (hk : 0 < k)
    (h : Fits A b D d Hess g) (hD : D.rows = 0) (init : List ℝ)
    (hpd : Matrix.PosDef (fun i j : Fin g.rows => Hess.e i j : Matrix (Fin g.rows) (Fin g.rows) ℝ))
    (hess : ∀ v : VecN g.rows, k * (v ⬝ᵥ v) ≤ v ⬝ᵥ (fun i j => Hess.e i j : Matrix (Fin g.rows) (Fin g.rows) ℝ) *ᵥ v)
    (hΛ : 0 ≤ Λ) (hessLe : ∀ v : VecN g.rows, (fun i j => Hess.e i j : Matrix (Fin g.rows) (Fin g.rows) ℝ) *ᵥ v ⬝ᵥ
      (fun i j => Hess.e i j : Matrix (Fin g.rows) (Fin g.rows) ℝ) *ᵥ v ≤ Λ * (v ⬝ᵥ v))
    (hR : ∀ r < A.rows, ∑ c ∈ Finset.range g.rows, A.e r c ^ 2 ≤ R ^ 2)
    (h1 : lib.eps ≤ k) (h2 : lib.eps * R ^ 2 ≤ k ^ 2) {m F : ℝ} (hm : 0 < m) (y : ℕ → ℝ) (hy : SatMargin A b m y)
    (hF : ∀ x, quadForm Hess g g.rows y - quadForm Hess g g.rows x ≤ F)
    (hi : 1 ≤ lib.maxIter) (hc : 32 * lib.maxIter ^ 2 * Λ * lib.eps * F ≤ k * m ^ 2) :
    ∃ q N, (∀ fuel ≥ N, solversSolve lib fuel A b D d Hess g init [] [] SOLVER_QUADPROG = .ok q) ∧
      q.x.length = g.rows ∧
      (q.success = true ∨
        ∃ o, ∀ fuel ≥ N, callQuadprog lib fuel Hess g D d.neg A.neg b = .ok (.maxIterReached, o)) ∧
      (q.success = true → SatTol A b (solverTolGen lib.eps k (∑ i ∈ Finset.range g.rows, Hess.e i i) g.rows A.rows) (unk q.x) ∧
        ∀ v, Sat A b v → quadForm Hess g g.rows (unk q.x) ≤ quadForm Hess g g.rows v
          + 4 * lib.maxIter ^ 2 * Λ * lib.eps * F ^ 2 / (k * m ^ 2)) := by
  have hAc : A.cols = g.rows := h.ineq.2.2
  obtain ⟨q, N, hrun, hxl, hsucc⟩ := solve_tol_gen lib hL he hk h hD init hpd hess hR h1 h2
  set P := qpOf g.rows Hess g D d.neg A.neg b with hP
  have hG : P.G = (fun i j : Fin g.rows => Hess.e i j) := rfl
  have hFac : Factor P.G (lib.chol g.rows P.G) := hL _ _ hpd
  have hE : P.CE = [] := by simp [hP, qpOf, hD]
  have hCI : ∀ δ (z : ℕ → ℝ), (∀ e ∈ P.CI, -δ ≤ e.1 ⬝ᵥ (fun i => z i) + e.2) ↔ SatTol A b δ z :=
    qpOf_ineqTol g.rows _ _ _ _ _ _ hAc
  have hC : Conditioned lib.eps k (max 1 (R ^ 2 / k)) P (lib.chol g.rows P.G) := by
    refine conditioned_of_norms hFac he hk hess (fun e he => ?_) (fun e he => ?_) h1 h2
    · rw [hE] at he; simp at he
    · simp only [hP, qpOf, List.mem_map, List.mem_range] at he
      obtain ⟨r, hr, rfl⟩ := he
      refine le_trans (le_of_eq ?_) (hR r hr)
      rw [dotProduct, Finset.sum_range]
      refine Finset.sum_congr rfl fun j _ => ?_
      simp only [Mat.rowN, Mat.neg]; ring
  have hobj : ∀ z : ℕ → ℝ, 2 * qpObj P (fun i => z i) = quadForm Hess g g.rows z :=
    qpObj_quadForm P _ _ (fun _ _ => rfl) (fun _ => rfl)
  have hmar : ∀ e ∈ P.CI, m ≤ e.1 ⬝ᵥ (fun i : Fin g.rows => y i) + e.2 ∨ e.1 = 0 ∧ 0 ≤ e.2 := by
    intro e he
    simp only [hP, qpOf, List.mem_map, List.mem_range] at he
    obtain ⟨r, hr, rfl⟩ := he
    rcases hy r hr with hy | ⟨hz, hb⟩
    · left
      have e : (A.neg.rowN g.rows r) ⬝ᵥ (fun i : Fin g.rows => y i) = -∑ c ∈ Finset.range A.cols, A.e r c * y c := by
        rw [hAc, Finset.sum_range, dotProduct, ← Finset.sum_neg_distrib]
        refine Finset.sum_congr rfl fun j _ => ?_
        simp only [Mat.rowN, Mat.neg]; ring
      dsimp only
      rw [e]
      linarith
    · right
      refine ⟨funext fun j => ?_, hb⟩
      simp only [Mat.rowN, Mat.neg, Pi.zero_apply]
      rw [hz j (by rw [hAc]; exact j.2), neg_zero]
  obtain ⟨r, s, hok, hv⟩ := C79_margin (m := m) (F := F / 2) (Lam := Λ) (maxIter := lib.maxIter)
    (y := fun i => y i) (lib.work g.rows) hFac hC hk hE ⟨hΛ, hessLe⟩ hm hmar
    (fun x => by
      have e1 := hF (extN x)
      rw [← hobj, ← hobj, extN_restrict] at e1
      linarith) hi (by linarith)
  have hcall : ∀ fuel ≥ 2 + lib.maxIter * (g.rows + 3),
      callQuadprog lib fuel Hess g D d.neg A.neg b = .ok (r, s.f, List.ofFn s.x) := by
    intro fuel hfuel
    unfold callQuadprog
    rw [if_pos ⟨h.hess.1, h.hess.2, by simp [Mat.neg, h.eqs.1], h.eqs.2, by simp [Mat.neg, h.ineq.1], by
      simp [Mat.neg, h.ineq.2.2]⟩]
    change (do
      let r ← solveQuadprog lib.eps lib.maxIter P (lib.chol g.rows P.G) (lib.work g.rows) fuel
      return (r.1, r.2.f, List.ofFn r.2.x)) = _
    rw [hok fuel hfuel]
    rfl
  set M := max N (2 + lib.maxIter * (g.rows + 3)) with hM
  have hq : q = { success := r = .optimal, cost := if r = .optimal then s.f else -1, x := List.ofFn s.x } := by
    have e := hrun M (le_max_left _ _)
    rw [solve_call, hcall M (le_max_right _ _)] at e
    exact (Out.ok.inj e).symm
  refine ⟨q, M, fun fuel hfuel => hrun fuel ((le_max_left _ _).trans hfuel), hxl, ?_, fun hs => ⟨hsucc hs, fun v hv' => ?_⟩⟩
  · rcases hv with rfl | ⟨rfl, -⟩
    · exact Or.inr ⟨_, fun fuel hfuel => hcall fuel ((le_max_right _ _).trans hfuel)⟩
    · exact Or.inl (by rw [hq]; rfl)
  · rw [hq] at hs ⊢
    have hopt : r = .optimal := by simpa using hs
    rcases hv with rfl | ⟨-, -, hv⟩
    · cases hopt
    · have e := hv (fun i => v i) ⟨by intro e he; rw [hE] at he; simp at he, fun e he => by
        have := (hCI 0 v).mpr ((satTol_zero A b v).mpr hv') e he
        rwa [neg_zero] at this⟩
      rw [← hobj v]
      dsimp only
      rw [unk_ofFn, ← hobj, extN_restrict]
      have e3 : 4 * (lib.maxIter : ℝ) ^ 2 * Λ * lib.eps * F ^ 2 / (k * m ^ 2)
          = 2 * (8 * lib.maxIter ^ 2 * Λ * lib.eps * (F / 2) ^ 2 / (k * m ^ 2)) := by ring
      rw [e3]
      linarith

theorem costH_mulVec (k : ℝ) (v : VecN (3 + 0)) :
    (fun i j => (costH 0 k).e i j : Matrix (Fin (3 + 0)) (Fin (3 + 0)) ℝ) *ᵥ v = k • v := by
  funext i
  have hi : i.val < 3 := i.2
  have : ∀ j : Fin (3 + 0), (costH 0 k).e i j = if i = j then k else 0 := by
    intro j
    simp only [costH, Fin.ext_iff]
    by_cases h : i.val = j.val
    · rw [if_pos h, if_pos ⟨hi, j.2⟩]
    · rw [if_neg h, if_neg h, ite_self]
  simp only [mulVec, dotProduct, this, ite_mul, zero_mul, Pi.smul_apply, smul_eq_mul]
  simp

theorem costH_lower3 (k : ℝ) (v : VecN (3 + 0)) :
    k * (v ⬝ᵥ v) ≤ v ⬝ᵥ (fun i j => (costH 0 k).e i j : Matrix (Fin (3 + 0)) (Fin (3 + 0)) ℝ) *ᵥ v := by
  rw [costH_mulVec, dotProduct_smul, smul_eq_mul]

theorem costH_upper3 (k : ℝ) (v : VecN (3 + 0)) :
    (fun i j => (costH 0 k).e i j : Matrix (Fin (3 + 0)) (Fin (3 + 0)) ℝ) *ᵥ v ⬝ᵥ
      (fun i j => (costH 0 k).e i j : Matrix (Fin (3 + 0)) (Fin (3 + 0)) ℝ) *ᵥ v ≤ k ^ 2 * (v ⬝ᵥ v) := by
  rw [costH_mulVec, dotProduct_smul, smul_dotProduct, smul_eq_mul, smul_eq_mul]
  exact le_of_eq (by ring)

/-- `solve_margin` for rows some of which may be zero: those need no margin. -/
theorem solve_margin_zero (lib : Lib) (hL : LibOk lib) (he : 0 ≤ lib.eps) {A b D d : Mat} {k R : ℝ} (hk : 0 < k) (w : V3)
    (h : Fits A b D d (costH 0 k) (costG 0 w)) (hD : D.rows = 0) (init : List ℝ)
    (hR : ∀ r < A.rows, ∑ c ∈ Finset.range 3, A.e r c ^ 2 ≤ R ^ 2)
    (h1 : lib.eps ≤ k) (h2 : lib.eps * R ^ 2 ≤ k ^ 2) {m F : ℝ} (hm : 0 < m) (y : ℕ → ℝ) (hy : SatMargin A b m y)
    (hF : ∀ x, quadForm (costH 0 k) (costG 0 w) 3 y - quadForm (costH 0 k) (costG 0 w) 3 x ≤ F)
    (hi : 1 ≤ lib.maxIter) (hc : 32 * lib.maxIter ^ 2 * k * lib.eps * F ≤ m ^ 2) :
    ∃ q N, (∀ fuel ≥ N, solversSolve lib fuel A b D d (costH 0 k) (costG 0 w) init [] [] SOLVER_QUADPROG = .ok q) ∧
      q.x.length = 3 ∧
      (q.success = true ∨
        ∃ o, ∀ fuel ≥ N, callQuadprog lib fuel (costH 0 k) (costG 0 w) D d.neg A.neg b = .ok (.maxIterReached, o)) ∧
      (q.success = true → SatTol A b (solverTol lib.eps k A.rows) (unk q.x) ∧
        ∀ v, Sat A b v → quadForm (costH 0 k) (costG 0 w) 3 (unk q.x) ≤ quadForm (costH 0 k) (costG 0 w) 3 v
          + 4 * lib.maxIter ^ 2 * k * lib.eps * F ^ 2 / m ^ 2) := by
  obtain ⟨q, N, h3, h4, h5, h6⟩ := solve_margin_gen lib hL he (Λ := k ^ 2) hk h hD init (costH_posDef 0 k hk)
    (costH_lower3 k) (sq_nonneg k) (costH_upper3 k) hR h1 h2 hm y hy hF hi (by
      have := mul_le_mul_of_nonneg_left hc hk.le
      refine le_trans (le_of_eq ?_) this
      ring)
  have hrows : (costG 0 w).rows = 3 := rfl
  have htr : ∑ i ∈ Finset.range (costG 0 w).rows, (costH 0 k).e i i = 3 * k := by
    rw [hrows]
    simp [Finset.sum_range_succ, costH]
    ring
  have htol : solverTolGen lib.eps k (∑ i ∈ Finset.range (costG 0 w).rows, (costH 0 k).e i i) (costG 0 w).rows A.rows
      = solverTol lib.eps k A.rows := by
    rw [htr, hrows]
    unfold solverTolGen solverTol
    have hs : 0 < Real.sqrt k := Real.sqrt_pos.mpr hk
    have hkk : k = Real.sqrt k * Real.sqrt k := (Real.mul_self_sqrt hk.le).symm
    field_simp
    rw [← Real.mul_self_sqrt hk.le]
    simp
    ring
  refine ⟨q, N, h3, h4, h5, fun hs => ?_⟩
  obtain ⟨a1, a2⟩ := h6 hs
  rw [htol] at a1
  refine ⟨a1, fun v hv => (a2 v hv).trans (le_of_eq ?_)⟩
  rw [hrows]
  congr 1
  field_simp

end Verif
