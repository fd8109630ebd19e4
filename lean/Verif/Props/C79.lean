import Verif.Lemmas.QuadSlater
import Verif.Props.C43

/-!
# C79: inequalities that some point satisfies with a margin

The threshold tests of the solver are as in the code. Nothing is assumed about the rows being separated: parallel,
duplicated and nearly dependent rows are allowed.
-/

namespace Verif
open Matrix

variable {n : ℕ}

/-- A margin that is large compared to the threshold. -/
theorem Slater.of_margin {eps lam Lam m F : ℝ} {maxIter : ℕ} {P : QP n} {y : VecN n} (h0 : 0 ≤ eps) (hl : 0 < lam)
    (hS : EqSep eps P) (hye : ∀ e ∈ P.CE, e.1 ⬝ᵥ y + e.2 = 0) (hH : HessLe P Lam) (hm : 0 < m)
    (hy : ∀ e ∈ P.CI, m ≤ e.1 ⬝ᵥ y + e.2 ∨ e.1 = 0 ∧ 0 ≤ e.2)
    (hF : ∀ x, (∀ e ∈ P.CE, e.1 ⬝ᵥ x + e.2 = 0) → qpObj P y - qpObj P x ≤ F) (hi : 1 ≤ maxIter)
    (hc : 64 * maxIter ^ 2 * Lam * eps * F ≤ lam * m ^ 2) :
    Slater eps lam maxIter P y m (Real.sqrt (Lam * eps)) F (2 * Real.sqrt (F / lam)) (Real.sqrt (F * lam) / 2) := by
  have hF0 : 0 ≤ F := by simpa using hF y hye
  have hL0 := hH.1
  set a := Real.sqrt (Lam * eps) with ha
  set r := Real.sqrt (F / lam) with hr
  have ha0 : 0 ≤ a := Real.sqrt_nonneg _
  have hr0 : 0 ≤ r := Real.sqrt_nonneg _
  have ha2 : a ^ 2 = Lam * eps := Real.sq_sqrt (mul_nonneg hL0 h0)
  have hr2 : lam * r ^ 2 = F := by rw [hr, Real.sq_sqrt (div_nonneg hF0 hl.le)]; field_simp
  have hs : Real.sqrt (F * lam) = lam * r := by
    rw [← hr2, show lam * r ^ 2 * lam = (lam * r) ^ 2 by ring, Real.sqrt_sq (mul_nonneg hl.le hr0)]
  have hi' : (1 : ℝ) ≤ maxIter := by exact_mod_cast hi
  have hi2 : (1 : ℝ) ≤ (maxIter : ℝ) ^ 2 := one_le_pow₀ hi'
  -- the condition without roots
  have hroot : 8 * maxIter * a * r ≤ m := by
    apply le_of_sq_le_sq _ hm.le
    have : lam * (8 * maxIter * a * r) ^ 2 ≤ lam * m ^ 2 := by
      refine le_trans (le_of_eq ?_) hc
      rw [← hr2, show (64 : ℝ) * maxIter ^ 2 * Lam * eps * (lam * r ^ 2)
        = 64 * maxIter ^ 2 * (Lam * eps) * (lam * r ^ 2) by ring, ← ha2]
      ring
    exact le_of_mul_le_mul_left this hl
  rw [hs]
  refine ⟨hS, hye, hl, ha0, fun v hv => ?_, hm, hy, hF, by positivity, by positivity, ?_, ?_, ?_, ?_⟩
  · rw [ha2]
    exact (hH.2 v).trans (mul_le_mul_of_nonneg_left hv hL0)
  · nlinarith
  · nlinarith [mul_nonneg hl.le hr0]
  · have : 4 * a * r ≤ 8 * maxIter * a * r := by
      have h1 := mul_nonneg ha0 hr0
      nlinarith
    linarith
  · have e : F + lam * r / 2 * (2 * r) = 2 * lam * r ^ 2 := by rw [← hr2]; ring
    rw [e, show (maxIter : ℝ) * (a * (2 * (2 * lam * r ^ 2) / m)) = (8 * maxIter * a * r) * (lam * r / 2) / m by ring,
      div_le_iff₀ hm, mul_comm]
    exact mul_le_mul_of_nonneg_left hroot (by positivity)

/-- C79 with equalities. The equalities, whose normals are independent by more than the threshold, hold at `y`, the inequalities
hold at `y` with the margin `m` (those with zero normal and offset at least zero, which hold everywhere, need no margin), `F`
bounds how far the objective at `y` is from its least value under the equalities, and the margin is large compared to the
threshold: the solver returns, and its status is OPTIMAL, or MAX_ITER_REACHED when it used up its iterations; it is neither
UNBOUNDED nor REDUNDANT_EQUALITIES. The answer satisfies the equalities exactly and the inequalities up to the tolerance of the
code, and no feasible point is better by more than the given amount. -/
theorem C79_equalities {eps lam B Lam m F : ℝ} {maxIter : ℕ} {P : QP n} {J0 : ℕ → VecN n} {y : VecN n} (w : Work n)
    (hJ : Factor P.G J0) (hC : Conditioned eps lam B P J0) (hl : 0 < lam) (hE : P.CE.length ≤ n) (hS : EqSep eps P)
    (hye : ∀ e ∈ P.CE, e.1 ⬝ᵥ y + e.2 = 0) (hH : HessLe P Lam) (hm : 0 < m)
    (hy : ∀ e ∈ P.CI, m ≤ e.1 ⬝ᵥ y + e.2 ∨ e.1 = 0 ∧ 0 ≤ e.2)
    (hF : ∀ x, (∀ e ∈ P.CE, e.1 ⬝ᵥ x + e.2 = 0) → qpObj P y - qpObj P x ≤ F) (hi : 1 ≤ maxIter)
    (hc : 64 * maxIter ^ 2 * Lam * eps * F ≤ lam * m ^ 2) :
    ∃ r s, (∀ fuel, P.CE.length + 2 + maxIter * (n + 3) ≤ fuel → solveQuadprog eps maxIter P J0 w fuel = .ok (r, s)) ∧
      (r = .maxIterReached ∨ r = .optimal ∧ (∀ e ∈ P.CE, e.1 ⬝ᵥ s.x + e.2 = 0) ∧ violation P s.x ≤ max 0 (qpTol eps P J0) ∧
        ∀ v, QPFeasible P v → qpObj P s.x ≤ qpObj P v + 8 * maxIter ^ 2 * Lam * eps * F ^ 2 / (lam * m ^ 2)) := by
  obtain ⟨r, s, h⟩ := C43_in_bounds_partial maxIter w hJ hC hE
  have hS := Slater.of_margin hC.eps0 hl hS hye hH hm hy hF hi hc
  refine ⟨r, s, h, ?_⟩
  have hF0 := hS.F0
  refine (hS.verdict hJ hC hE (h _ le_rfl)).imp_right fun ⟨h1, h2, h3, h4⟩ => ⟨h1, h2, h3, fun v hv => (h4 v hv).trans ?_⟩
  refine add_le_add le_rfl (le_of_eq ?_)
  have e : Real.sqrt (F * lam) / 2 * (2 * Real.sqrt (F / lam)) = F := by
    rw [show Real.sqrt (F * lam) / 2 * (2 * Real.sqrt (F / lam)) = Real.sqrt (F * lam) * Real.sqrt (F / lam) by ring,
      ← Real.sqrt_mul (mul_nonneg hF0 hl.le), show F * lam * (F / lam) = F ^ 2 by field_simp, Real.sqrt_sq hF0]
  unfold Slater.U
  rw [e, mul_pow, mul_pow, Real.sq_sqrt (mul_nonneg hH.1 hC.eps0)]
  have := hm.ne'
  have := hl.ne'
  field_simp
  ring

/-- C79. The inequalities hold at `y` with the margin `m` (those with zero normal and offset at least zero, which hold everywhere,
need no margin), `F` bounds how far the objective at `y` is from its least
value, and the margin is large compared to the threshold: the solver returns, and its status is OPTIMAL, or
MAX_ITER_REACHED when it used up its iterations; it is never UNBOUNDED. The answer satisfies the inequalities up
to the tolerance of the code, and no feasible point is better by more than the given amount. -/
theorem C79_margin {eps lam B Lam m F : ℝ} {maxIter : ℕ} {P : QP n} {J0 : ℕ → VecN n} {y : VecN n} (w : Work n)
    (hJ : Factor P.G J0) (hC : Conditioned eps lam B P J0) (hl : 0 < lam) (hE : P.CE = []) (hH : HessLe P Lam)
    (hm : 0 < m) (hy : ∀ e ∈ P.CI, m ≤ e.1 ⬝ᵥ y + e.2 ∨ e.1 = 0 ∧ 0 ≤ e.2) (hF : ∀ x, qpObj P y - qpObj P x ≤ F) (hi : 1 ≤ maxIter)
    (hc : 64 * maxIter ^ 2 * Lam * eps * F ≤ lam * m ^ 2) :
    ∃ r s, (∀ fuel, 2 + maxIter * (n + 3) ≤ fuel → solveQuadprog eps maxIter P J0 w fuel = .ok (r, s)) ∧
      (r = .maxIterReached ∨ r = .optimal ∧ violation P s.x ≤ max 0 (qpTol eps P J0) ∧
        ∀ v, QPFeasible P v → qpObj P s.x ≤ qpObj P v + 8 * maxIter ^ 2 * Lam * eps * F ^ 2 / (lam * m ^ 2)) := by
  have hlen : P.CE.length = 0 := by rw [hE]; rfl
  obtain ⟨r, s, h, h'⟩ := C79_equalities w hJ hC hl (by omega) ⟨Lam, hH, fun i hi => by omega⟩ (fun e he => by rw [hE] at he; simp at he)
    hH hm hy (fun x _ => hF x) hi hc
  rw [hlen, zero_add] at h
  exact ⟨r, s, h, h'.imp_right fun ⟨h1, _, h3, h4⟩ => ⟨h1, h3, h4⟩⟩

end Verif
