import Verif.Lemmas.SolveTolGen
import Mathlib.Analysis.InnerProductSpace.PiL2
import Mathlib.Analysis.Normed.Module.FiniteDimension

/-!
# The solver front end with the thresholds of the code: equations and bounds
-/

namespace Verif
open Matrix

/-- The equations are independent by a margin: no row is within `√s` of a combination of the ones before it. -/
def RowsSep (D : Mat) (s : ℝ) : Prop :=
  ∀ i < D.rows, ∀ c : ℕ → ℝ,
    s < ∑ j ∈ Finset.range D.cols, (D.e i j - ∑ k ∈ Finset.range i, c k * D.e k j) ^ 2

/-- `solve` with the thresholds of the code, equations independent by a margin, bounds, rows of norm at most `R`: the call
returns, and `success_` comes with a point that satisfies the equations exactly, the inequalities and the bounds up to
the tolerance. -/
theorem solve_tol_full (lib : Lib) (hL : LibOk lib) (he : 0 ≤ lib.eps) {A b D d Hess g : Mat} {k Lam R : ℝ} (hk : 0 < k)
    (h : Fits A b D d Hess g) (m : List ℝ) (hm : m = [] ∨ m.length = g.rows) (init : List ℝ)
    (hpd : Matrix.PosDef (fun i j : Fin g.rows => Hess.e i j : Matrix (Fin g.rows) (Fin g.rows) ℝ))
    (hess : ∀ v : VecN g.rows, k * (v ⬝ᵥ v) ≤ v ⬝ᵥ (fun i j => Hess.e i j : Matrix (Fin g.rows) (Fin g.rows) ℝ) *ᵥ v)
    (hLam : 0 ≤ Lam)
    (hess' : ∀ v : VecN g.rows, (fun i j => Hess.e i j : Matrix (Fin g.rows) (Fin g.rows) ℝ) *ᵥ v ⬝ᵥ
      (fun i j => Hess.e i j : Matrix (Fin g.rows) (Fin g.rows) ℝ) *ᵥ v ≤ Lam * (v ⬝ᵥ v))
    (hE : D.rows ≤ g.rows) (hR1 : 1 ≤ R)
    (hR : ∀ r < A.rows, ∑ c ∈ Finset.range g.rows, A.e r c ^ 2 ≤ R ^ 2)
    (hD : ∀ r < D.rows, ∑ c ∈ Finset.range g.rows, D.e r c ^ 2 ≤ R ^ 2)
    (hsep : RowsSep D (lib.eps * Lam))
    (h1 : lib.eps ≤ k) (h2 : lib.eps * R ^ 2 ≤ k ^ 2) :
    ∃ q N, (∀ fuel ≥ N, solversSolve lib fuel A b D d Hess g init m [] SOLVER_QUADPROG = .ok q) ∧
      q.x.length = g.rows ∧ (q.success = true →
        SatTol A b (solverTolGen lib.eps k (∑ i ∈ Finset.range g.rows, Hess.e i i) g.rows (A.rows + m.length)) (unk q.x) ∧
        AboveBoundsTol m (solverTolGen lib.eps k (∑ i ∈ Finset.range g.rows, Hess.e i i) g.rows (A.rows + m.length))
          (unk q.x) ∧ EqSat D d (unk q.x)) := by
  obtain ⟨P, hG, hg, hCI, hCE, hrow, hrowE, -, htol, heq, hrun⟩ := C36_problem h m hm
  have hGe : P.G = (fun i j : Fin g.rows => Hess.e i j) := by ext i j; exact hG i j
  have hF : Factor P.G (lib.chol g.rows P.G) := by
    apply hL
    rw [hGe]; exact hpd
  have hess1 : ∀ v : VecN g.rows, k * (v ⬝ᵥ v) ≤ v ⬝ᵥ P.G *ᵥ v := by rw [hGe]; exact hess
  have hE' : P.CE.length ≤ g.rows := by rw [hCE]; exact hE
  have hcols : D.cols = g.rows := by obtain ⟨-, -, h3⟩ := h; exact h3.2
  have hC : Conditioned lib.eps k (max 1 (R ^ 2 / k)) P (lib.chol g.rows P.G) := by
    refine conditioned_of_norms hF he hk hess1 (fun e he => ?_) (fun e he => ?_) h1 h2
    · obtain ⟨i, hi, rfl⟩ := List.getElem_of_mem he
      have hi' : i < D.rows := by rw [← hCE]; exact hi
      refine le_trans (le_of_eq ?_) (hD i hi')
      rw [dotProduct, Finset.sum_range]
      refine Finset.sum_congr rfl fun j _ => ?_
      have := hrowE i hi' j
      rw [List.getD_eq_getElem?_getD, List.getElem?_eq_getElem hi, Option.getD_some] at this
      rw [this, sq]
    · rcases hrow e he with ⟨r, hr, hj⟩ | ⟨-, l, hj⟩
      · refine le_trans (le_of_eq ?_) (hR r hr)
        rw [dotProduct, Finset.sum_range]
        refine Finset.sum_congr rfl fun j _ => ?_
        rw [hj j, sq]; ring
      · have : e.1 = Pi.single l 1 := by
          funext j
          rw [hj j, Pi.single_apply]
        rw [this, single_dotProduct, Pi.single_eq_same]
        nlinarith
  have hS : EqSep lib.eps P := by
    refine ⟨Lam, ⟨hLam, by rw [hGe]; exact hess'⟩, fun i hi c => ?_⟩
    have hi' : i < D.rows := by rw [← hCE]; exact hi
    refine lt_of_lt_of_eq (hsep i hi' c) ?_
    rw [hcols, dotProduct, Finset.sum_range]
    refine Finset.sum_congr rfl fun j _ => ?_
    have : eqRest P i c j = D.e i j - ∑ k ∈ Finset.range i, c k * D.e k j := by
      unfold eqRest
      rw [Pi.sub_apply, Finset.sum_apply, hrowE i hi' j]
      congr 1
      refine Finset.sum_congr rfl fun l hl => ?_
      rw [Pi.smul_apply, smul_eq_mul, hrowE l (lt_trans (Finset.mem_range.mp hl) hi') j]
    rw [this, sq]
  obtain ⟨r, s, hok⟩ := C43_in_bounds_partial lib.maxIter (lib.work _) hF hC hE'
  refine ⟨{ success := r = .optimal, cost := if r = .optimal then s.f else -1, x := List.ofFn s.x },
    P.CE.length + 2 + lib.maxIter * (g.rows + 3), fun fuel hfuel => ?_, by simp, ?_⟩
  · rw [hrun, hok fuel hfuel]; rfl
  · intro hs
    have hopt : r = .optimal := by simpa using hs
    subst hopt
    obtain ⟨hv, heqs⟩ := C39_feasible_conditioned_partial hF hC hE' (hok _ le_rfl)
    have htr : ∑ i : Fin g.rows, P.G i i = ∑ i ∈ Finset.range g.rows, Hess.e i i := by
      rw [Finset.sum_range]
      exact Finset.sum_congr rfl fun i _ => hG i i
    have htr0 : 0 ≤ ∑ i : Fin g.rows, P.G i i := by
      refine Finset.sum_nonneg fun i _ => ?_
      have := hess1 (Pi.single i 1)
      simp at this
      linarith
    have hT : max 0 (qpTol lib.eps P (lib.chol g.rows P.G))
        ≤ solverTolGen lib.eps k (∑ i ∈ Finset.range g.rows, Hess.e i i) g.rows (A.rows + m.length) := by
      have hsk : 0 < Real.sqrt k := Real.sqrt_pos.mpr hk
      rw [← htr]
      apply max_le
      · unfold solverTolGen; positivity
      · unfold qpTol solverTolGen
        have t2 : ∑ i : Fin g.rows, lib.chol g.rows P.G i.val i ≤ g.rows * (1 / Real.sqrt k) := by
          refine (Finset.sum_le_sum fun i _ => factor_diag_ge hF hk hess1 i).trans (le_of_eq ?_)
          simp only [Finset.sum_const, Finset.card_univ, Fintype.card_fin, nsmul_eq_mul]
        rw [hCI]
        have hpos : 0 ≤ ((A.rows + m.length : ℕ) : ℝ) * lib.eps * (∑ i : Fin g.rows, P.G i i) := by positivity
        have := mul_le_mul_of_nonneg_left t2 hpos
        refine (mul_le_mul_of_nonneg_right this (by norm_num : (0 : ℝ) ≤ 100)).trans (le_of_eq ?_)
        ring
    have := (htol (solverTolGen lib.eps k (∑ i ∈ Finset.range g.rows, Hess.e i i) g.rows (A.rows + m.length))
      (extN s.x)).mp (by
      rw [extN_restrict]
      intro e he
      have := violation_ge P s.x e he
      linarith [hv.trans hT])
    rw [unk_ofFn]
    refine ⟨this.1, this.2, (heq (extN s.x)).mp ?_⟩
    rw [extN_restrict]
    exact heqs hS

theorem exists_lower (n : ℕ) (f : ℕ → ℝ) (h : ∀ i < n, 0 < f i) : ∃ s, 0 < s ∧ ∀ i < n, s < f i := by
  induction n with
  | zero => exact ⟨1, one_pos, fun i hi => absurd hi (Nat.not_lt_zero _)⟩
  | succ n ih =>
    obtain ⟨s, h0, hs⟩ := ih fun i hi => h i (by omega)
    have hn := h n (by omega)
    refine ⟨min s (f n / 2), lt_min h0 (by linarith), fun i hi => ?_⟩
    rcases Nat.lt_succ_iff_lt_or_eq.mp hi with h' | rfl
    · exact lt_of_le_of_lt (min_le_left _ _) (hs i h')
    · exact lt_of_le_of_lt (min_le_right _ _) (by linarith)

/-- Equations that are linearly independent are so by a margin. -/
theorem rowsSep_of_independent (D : Mat)
    (h : ∀ i < D.rows, ∀ c : ℕ → ℝ, ¬ ∀ j < D.cols, D.e i j = ∑ k ∈ Finset.range i, c k * D.e k j) :
    ∃ s, 0 < s ∧ RowsSep D s := by
  let v : ℕ → EuclideanSpace ℝ (Fin D.cols) := fun i => WithLp.toLp 2 fun j : Fin D.cols => D.e i j
  have hv : ∀ i j, v i j = D.e i j := fun i j => rfl
  have key : ∀ i, ∃ r, (i < D.rows → 0 < r) ∧ ∀ c : ℕ → ℝ,
      r ≤ ∑ j ∈ Finset.range D.cols, (D.e i j - ∑ k ∈ Finset.range i, c k * D.e k j) ^ 2 := by
    intro i
    let W : Submodule ℝ (EuclideanSpace ℝ (Fin D.cols)) := Submodule.span ℝ (Set.range fun k : Fin i => v k)
    refine ⟨Metric.infDist (v i) (W : Set (EuclideanSpace ℝ (Fin D.cols))) ^ 2, fun hi => ?_, fun c => ?_⟩
    · have hnot : v i ∉ (W : Set (EuclideanSpace ℝ (Fin D.cols))) := by
        intro hmem
        obtain ⟨c, hc⟩ := (Submodule.mem_span_range_iff_exists_fun ℝ).mp hmem
        refine h i hi (fun k => if hk : k < i then c ⟨k, hk⟩ else 0) fun j hj => ?_
        have := congrFun (congrArg WithLp.ofLp hc) ⟨j, hj⟩
        rw [Finset.sum_range]
        rw [show D.e i j = (v i).ofLp ⟨j, hj⟩ from rfl, ← this]
        simp [v]
      have := ((Submodule.closed_of_finiteDimensional W).notMem_iff_infDist_pos ⟨0, W.zero_mem⟩).mp hnot
      positivity
    · have hmem : ∑ k ∈ Finset.range i, c k • v k ∈ W :=
        W.sum_mem fun k hk => W.smul_mem _ (Submodule.subset_span ⟨⟨k, Finset.mem_range.mp hk⟩, rfl⟩)
      have h1 := Metric.infDist_le_dist_of_mem (x := v i) (SetLike.mem_coe.mpr hmem)
      have h2 := pow_le_pow_left₀ Metric.infDist_nonneg h1 2
      refine h2.trans (le_of_eq ?_)
      rw [EuclideanSpace.dist_eq, Real.sq_sqrt (Finset.sum_nonneg fun _ _ => sq_nonneg _), Finset.sum_range (n := D.cols)]
      refine Finset.sum_congr rfl fun j _ => ?_
      rw [Real.dist_eq, sq_abs]
      simp [v]
  choose r hr using key
  obtain ⟨s, h0, hs⟩ := exists_lower D.rows r fun i hi => (hr i).1 hi
  exact ⟨s, h0, fun i hi c => lt_of_lt_of_le (hs i hi) ((hr i).2 c)⟩

end Verif
