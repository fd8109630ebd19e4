import Verif.Lemmas.SolveExact
import Verif.Lemmas.Tolerance
import Verif.Props.C43

/-!
# The solver front end with the thresholds of the code
-/

namespace Verif
open Matrix

/-- The diagonal of a factor of the inverse of `k` times the identity. -/
theorem factor_diag {n : ℕ} {G : Matrix (Fin n) (Fin n) ℝ} {J : ℕ → VecN n} (hF : Factor G J) {k : ℝ} (hk : 0 < k)
    (hG : ∀ v, G *ᵥ v = k • v) (i : Fin n) : J i.val i ≤ 1 / Real.sqrt k := by
  have h1 := hF (Pi.single i 1)
  rw [hG] at h1
  have h2 : (Pi.single i 1 : VecN n) ⬝ᵥ jj J (Pi.single i 1) = 1 / k := by
    have : k * ((Pi.single i 1 : VecN n) ⬝ᵥ jj J (Pi.single i 1)) = 1 := by
      rw [← smul_eq_mul, ← dotProduct_smul, show k • jj J (Pi.single i 1) = Pi.single i 1 from h1]
      simp
    field_simp
    linarith
  rw [jj_dot] at h2
  have h3 : (J i.val ⬝ᵥ Pi.single i 1) * (J i.val ⬝ᵥ Pi.single i 1)
      ≤ ∑ j ∈ Finset.range n, (J j ⬝ᵥ Pi.single i 1) * (J j ⬝ᵥ Pi.single i 1) :=
    Finset.single_le_sum (f := fun j => (J j ⬝ᵥ Pi.single i 1) * (J j ⬝ᵥ Pi.single i 1))
      (fun j _ => mul_self_nonneg _) (Finset.mem_range.mpr i.2)
  rw [h2] at h3
  simp only [dotProduct_single, mul_one] at h3
  have h4 : J i.val i ≤ Real.sqrt (1 / k) := Real.le_sqrt_of_sq_le (by rw [sq]; exact h3)
  rwa [Real.sqrt_div zero_le_one, Real.sqrt_one] at h4

theorem violation_ge {n : ℕ} (P : QP n) (x : VecN n) : ∀ e ∈ P.CI, -violation P x ≤ e.1 ⬝ᵥ x + e.2 := by
  intro e he
  have h : max 0 (-(e.1 ⬝ᵥ x + e.2)) ≤ violation P x := by
    unfold violation
    refine List.single_le_sum ?_ _ (List.mem_map.mpr ⟨e, he, rfl⟩)
    intro a ha
    obtain ⟨e', -, rfl⟩ := List.mem_map.mp ha
    exact le_max_left _ _
  have := (le_max_right _ _).trans h
  linarith

/-- The tolerance of the solver on a system with `rows` inequalities and the Hessian `k` times the identity. -/
noncomputable def solverTol (eps k : ℝ) (rows : ℕ) : ℝ := 900 * rows * eps * Real.sqrt k

/-- `solve` with the thresholds of the code, for the Hessian `k` times the identity in dimension three, no equations and
no bounds, rows of norm at most `R`: the call returns, and `success_` comes with a point that satisfies the
inequalities up to the tolerance. -/
theorem solve_tol (lib : Lib) (hL : LibOk lib) (he : 0 ≤ lib.eps) {A b D d : Mat} {k R : ℝ} (hk : 0 < k) (w : V3)
    (h : Fits A b D d (costH 0 k) (costG 0 w)) (hD : D.rows = 0) (init : List ℝ)
    (hR : ∀ r < A.rows, ∑ c ∈ Finset.range 3, A.e r c ^ 2 ≤ R ^ 2)
    (h1 : lib.eps ≤ k) (h2 : lib.eps * R ^ 2 ≤ k ^ 2) :
    ∃ q N, (∀ fuel ≥ N, solversSolve lib fuel A b D d (costH 0 k) (costG 0 w) init [] [] SOLVER_QUADPROG = .ok q) ∧
      q.x.length = 3 ∧ (q.success = true → SatTol A b (solverTol lib.eps k A.rows) (unk q.x)) := by
  obtain ⟨P, hG, hg, hCI, hCE, hrow, -, -, htol, -, hrun⟩ := C36_problem h [] (Or.inl rfl)
  have hn : (costG 0 w).rows = 3 := rfl
  have hGv : ∀ v, P.G *ᵥ v = k • v := by
    intro v
    funext i
    have : ∀ j, P.G i j = if i = j then k else 0 := by
      intro j
      rw [hG]
      have hi : i.val < 3 := i.2
      have hj : j.val < 3 := j.2
      simp only [costH, hi, hj, and_self, if_true, Fin.ext_iff]
    simp only [mulVec, dotProduct, this, Pi.smul_apply, smul_eq_mul]
    simp
  have hF : Factor P.G (lib.chol (costG 0 w).rows P.G) := by
    apply hL
    have : P.G = (fun i j : Fin (3 + 0) => (costH 0 k).e i j) := by ext i j; exact hG i j
    rw [this]; exact costH_posDef 0 k hk
  have hE : P.CE.length ≤ (costG 0 w).rows := by rw [hCE, hD]; exact Nat.zero_le _
  have hC : Conditioned lib.eps k (max 1 (R ^ 2 / k)) P (lib.chol (costG 0 w).rows P.G) := by
    refine conditioned_of_norms hF he hk (fun v => ?_) (fun e he => ?_) (fun e he => ?_) h1 h2
    · rw [hGv, dotProduct_smul, smul_eq_mul]
    · have : P.CE = [] := List.length_eq_zero_iff.mp (by rw [hCE, hD])
      rw [this] at he; simp at he
    · rcases hrow e he with ⟨r, hr, hj⟩ | ⟨hne, -⟩
      · refine le_trans (le_of_eq ?_) (hR r hr)
        rw [dotProduct, Finset.sum_range]
        refine Finset.sum_congr rfl fun j _ => ?_
        rw [hj j, sq]; ring
      · exact absurd rfl hne
  obtain ⟨r, s, hok⟩ := C43_in_bounds_partial lib.maxIter (lib.work _) hF hC hE
  refine ⟨{ success := r = .optimal, cost := if r = .optimal then s.f else -1, x := List.ofFn s.x },
    P.CE.length + 2 + lib.maxIter * ((costG 0 w).rows + 3), fun fuel hfuel => ?_, by simp [hn], ?_⟩
  · rw [hrun, hok fuel hfuel]; rfl
  · intro hs
    have hopt : r = .optimal := by simpa using hs
    subst hopt
    obtain ⟨hv, -⟩ := C39_feasible_conditioned_partial hF hC hE (hok _ le_rfl)
    have hT : max 0 (qpTol lib.eps P (lib.chol (costG 0 w).rows P.G)) ≤ solverTol lib.eps k A.rows := by
      have hsk : 0 < Real.sqrt k := Real.sqrt_pos.mpr hk
      apply max_le
      · unfold solverTol; positivity
      · unfold qpTol solverTol
        have t1 : ∑ i : Fin (costG 0 w).rows, P.G i i = 3 * k := by
          have : ∀ i, P.G i i = k := by
            intro i
            rw [hG]
            have hi : i.val < 3 := i.2
            simp only [costH, hi, and_self, if_true]
          simp only [this, Finset.sum_const, Finset.card_univ, Fintype.card_fin, hn, nsmul_eq_mul]
          norm_num
        have t2 : ∑ i : Fin (costG 0 w).rows, lib.chol (costG 0 w).rows P.G i.val i ≤ 3 * (1 / Real.sqrt k) := by
          refine (Finset.sum_le_sum fun i _ => factor_diag hF hk hGv i).trans (le_of_eq ?_)
          simp only [Finset.sum_const, Finset.card_univ, Fintype.card_fin, hn, nsmul_eq_mul]
          norm_num
        rw [t1, hCI]
        have hpos : 0 ≤ ((A.rows + ([] : List ℝ).length : ℕ) : ℝ) * lib.eps * (3 * k) := by positivity
        have := mul_le_mul_of_nonneg_left t2 hpos
        have e : ((A.rows + ([] : List ℝ).length : ℕ) : ℝ) * lib.eps * (3 * k) * (3 * (1 / Real.sqrt k)) * 100
            = 900 * A.rows * lib.eps * Real.sqrt k := by
          have hkk : k = Real.sqrt k * Real.sqrt k := (Real.mul_self_sqrt hk.le).symm
          simp only [List.length_nil, Nat.add_zero]
          rw [show A.rows * lib.eps * (3 * k) * (3 * (1 / Real.sqrt k)) * 100
            = 900 * A.rows * lib.eps * (k / Real.sqrt k) by ring, Real.div_sqrt]
        rw [← e]
        linarith
    have := (htol (solverTol lib.eps k A.rows) (extN s.x)).mp (by
      rw [extN_restrict]
      intro e he
      have := violation_ge P s.x e he
      linarith [hv.trans hT])
    rw [unk_ofFn]
    exact this.1

end Verif
