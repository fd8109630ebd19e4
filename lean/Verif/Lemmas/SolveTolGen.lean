import Verif.Lemmas.SolveTol

/-!
# The solver front end with the thresholds of the code: any Hessian, any dimension
-/

namespace Verif
open Matrix

/-- The diagonal of a factor of the inverse of a matrix that is at least `k` times the identity. -/
theorem factor_diag_ge {n : ℕ} {G : Matrix (Fin n) (Fin n) ℝ} {J : ℕ → VecN n} (hF : Factor G J) {k : ℝ} (hk : 0 < k)
    (hess : ∀ v : VecN n, k * (v ⬝ᵥ v) ≤ v ⬝ᵥ G *ᵥ v) (i : Fin n) : J i.val i ≤ 1 / Real.sqrt k := by
  set u : VecN n := Pi.single i 1 with hu
  set y := jj J u with hy
  have e1 : G *ᵥ y = u := hF u
  have e2 := hess y
  rw [e1, dotProduct_comm y u] at e2
  have e3 := dot_sq_le u y
  have e4 : u ⬝ᵥ u = 1 := by rw [hu]; simp
  rw [e4, one_mul] at e3
  have h2 : u ⬝ᵥ y ≤ 1 / k := by
    rw [le_div_iff₀ hk]
    rcases le_or_gt (u ⬝ᵥ y) 0 with hn | hp
    · nlinarith
    · have : (u ⬝ᵥ y) * ((u ⬝ᵥ y) * k) ≤ (u ⬝ᵥ y) * 1 := by nlinarith
      exact le_of_mul_le_mul_left this hp
  rw [hy, jj_dot] at h2
  have h3 : (J i.val ⬝ᵥ u) * (J i.val ⬝ᵥ u) ≤ ∑ j ∈ Finset.range n, (J j ⬝ᵥ u) * (J j ⬝ᵥ u) :=
    Finset.single_le_sum (f := fun j => (J j ⬝ᵥ u) * (J j ⬝ᵥ u)) (fun j _ => mul_self_nonneg _) (Finset.mem_range.mpr i.2)
  have h5 := h3.trans h2
  rw [hu] at h5
  simp only [dotProduct_single, mul_one] at h5
  have h4 : J i.val i ≤ Real.sqrt (1 / k) := Real.le_sqrt_of_sq_le (by rw [sq]; exact h5)
  rwa [Real.sqrt_div zero_le_one, Real.sqrt_one] at h4

/-- The tolerance of the solver on a system with `rows` inequalities, `n` unknowns, a Hessian of trace `τ` that is at
least `k` times the identity. -/
noncomputable def solverTolGen (eps k τ : ℝ) (n rows : ℕ) : ℝ := 100 * rows * eps * τ * (n / Real.sqrt k)

/-- `solve` with the thresholds of the code, no equations and no bounds, rows of norm at most `R`: the call returns, and
`success_` comes with a point that satisfies the inequalities up to the tolerance. -/
theorem solve_tol_gen (lib : Lib) (hL : LibOk lib) (he : 0 ≤ lib.eps) {A b D d Hess g : Mat} {k R : ℝ} (hk : 0 < k)
    (h : Fits A b D d Hess g) (hD : D.rows = 0) (init : List ℝ)
    (hpd : Matrix.PosDef (fun i j : Fin g.rows => Hess.e i j : Matrix (Fin g.rows) (Fin g.rows) ℝ))
    (hess : ∀ v : VecN g.rows, k * (v ⬝ᵥ v) ≤ v ⬝ᵥ (fun i j => Hess.e i j : Matrix (Fin g.rows) (Fin g.rows) ℝ) *ᵥ v)
    (hR : ∀ r < A.rows, ∑ c ∈ Finset.range g.rows, A.e r c ^ 2 ≤ R ^ 2)
    (h1 : lib.eps ≤ k) (h2 : lib.eps * R ^ 2 ≤ k ^ 2) :
    ∃ q N, (∀ fuel ≥ N, solversSolve lib fuel A b D d Hess g init [] [] SOLVER_QUADPROG = .ok q) ∧
      q.x.length = g.rows ∧ (q.success = true →
        SatTol A b (solverTolGen lib.eps k (∑ i ∈ Finset.range g.rows, Hess.e i i) g.rows A.rows) (unk q.x)) := by
  obtain ⟨P, hG, hg, hCI, hCE, hrow, -, -, htol, -, hrun⟩ := C36_problem h [] (Or.inl rfl)
  have hGe : P.G = (fun i j : Fin g.rows => Hess.e i j) := by ext i j; exact hG i j
  have hF : Factor P.G (lib.chol g.rows P.G) := by
    apply hL
    rw [hGe]; exact hpd
  have hess' : ∀ v : VecN g.rows, k * (v ⬝ᵥ v) ≤ v ⬝ᵥ P.G *ᵥ v := by rw [hGe]; exact hess
  have hE : P.CE.length ≤ g.rows := by rw [hCE, hD]; exact Nat.zero_le _
  have hC : Conditioned lib.eps k (max 1 (R ^ 2 / k)) P (lib.chol g.rows P.G) := by
    refine conditioned_of_norms hF he hk hess' (fun e he => ?_) (fun e he => ?_) h1 h2
    · have : P.CE = [] := List.length_eq_zero_iff.mp (by rw [hCE, hD])
      rw [this] at he; simp at he
    · rcases hrow e he with ⟨r, hr, hj⟩ | ⟨hne, -⟩
      · refine le_trans (le_of_eq ?_) (hR r hr)
        rw [dotProduct, Finset.sum_range]
        refine Finset.sum_congr rfl fun j _ => ?_
        rw [hj j, sq]; ring
      · exact absurd rfl hne
  obtain ⟨r, s, hok⟩ := C43_in_bounds_partial lib.maxIter (lib.work _) hF hC hE
  refine ⟨{ success := r = .optimal, cost := if r = .optimal then s.f else -1, x := List.ofFn s.x },
    P.CE.length + 2 + lib.maxIter * (g.rows + 3), fun fuel hfuel => ?_, by simp, ?_⟩
  · rw [hrun, hok fuel hfuel]; rfl
  · intro hs
    have hopt : r = .optimal := by simpa using hs
    subst hopt
    obtain ⟨hv, -⟩ := C39_feasible_conditioned_partial hF hC hE (hok _ le_rfl)
    have htr : ∑ i : Fin g.rows, P.G i i = ∑ i ∈ Finset.range g.rows, Hess.e i i := by
      rw [Finset.sum_range]
      exact Finset.sum_congr rfl fun i _ => hG i i
    have htr0 : 0 ≤ ∑ i : Fin g.rows, P.G i i := by
      refine Finset.sum_nonneg fun i _ => ?_
      have := hess' (Pi.single i 1)
      simp at this
      linarith
    have hT : max 0 (qpTol lib.eps P (lib.chol g.rows P.G))
        ≤ solverTolGen lib.eps k (∑ i ∈ Finset.range g.rows, Hess.e i i) g.rows A.rows := by
      have hsk : 0 < Real.sqrt k := Real.sqrt_pos.mpr hk
      rw [← htr]
      apply max_le
      · unfold solverTolGen; positivity
      · unfold qpTol solverTolGen
        have t2 : ∑ i : Fin g.rows, lib.chol g.rows P.G i.val i ≤ g.rows * (1 / Real.sqrt k) := by
          refine (Finset.sum_le_sum fun i _ => factor_diag_ge hF hk hess' i).trans (le_of_eq ?_)
          simp only [Finset.sum_const, Finset.card_univ, Fintype.card_fin, nsmul_eq_mul]
        rw [hCI]
        have hpos : 0 ≤ ((A.rows + ([] : List ℝ).length : ℕ) : ℝ) * lib.eps * (∑ i : Fin g.rows, P.G i i) := by positivity
        have := mul_le_mul_of_nonneg_left t2 hpos
        simp only [List.length_nil, Nat.add_zero] at this ⊢
        refine (mul_le_mul_of_nonneg_right this (by norm_num : (0 : ℝ) ≤ 100)).trans (le_of_eq ?_)
        ring
    have := (htol (solverTolGen lib.eps k (∑ i ∈ Finset.range g.rows, Hess.e i i) g.rows A.rows) (extN s.x)).mp (by
      rw [extN_restrict]
      intro e he
      have := violation_ge P s.x e he
      linarith [hv.trans hT])
    rw [unk_ofFn]
    exact this.1

end Verif
