import Verif.Lemmas.QuadFlArith
import Verif.Lemmas.QuadRoundedInf

/-!
# Back substitution with rounding

A triangular solver that meets the hypothesis on the triangular solver of Eigen: rows from the last one to the first one, in place, sums from left to right.
-/

namespace Verif

open Arith

/-- One row of the substitution. -/
noncomputable def backRow (fl : ℝ → ℝ) (R : ℕ → ℕ → ℝ) (d : ℕ → ℝ) (iq i : ℕ) (r : ℕ → ℝ) : ℝ :=
  fl (flSum fl (d i) (((List.range' (i + 1) (iq - (i + 1))).map fun k => R i k * -r k).map fl) / R i i)

/-- The rows `k - 1`, …, `0`, in place. -/
noncomputable def backLoop (fl : ℝ → ℝ) (R : ℕ → ℕ → ℝ) (d : ℕ → ℝ) (iq : ℕ) : ℕ → (ℕ → ℝ) → ℕ → ℝ
  | 0, r => r
  | k + 1, r => backLoop fl R d iq k (Function.update r k (backRow fl R d iq k r))

noncomputable def backSubFl (fl : ℝ → ℝ) (R : ℕ → ℕ → ℝ) (d : ℕ → ℝ) (iq : ℕ) : ℕ → ℝ := backLoop fl R d iq iq fun _ => 0

variable {fl : ℝ → ℝ} {R : ℕ → ℕ → ℝ} {d : ℕ → ℝ} {iq : ℕ}

theorem backRow_congr {i : ℕ} {r r' : ℕ → ℝ} (h : ∀ k, i < k → r k = r' k) : backRow fl R d iq i r = backRow fl R d iq i r' := by
  unfold backRow
  rw [show ((List.range' (i + 1) (iq - (i + 1))).map fun k => R i k * -r k) = (List.range' (i + 1) (iq - (i + 1))).map fun k => R i k * -r' k from
    List.map_congr_left fun k hk => by rw [h k (by have := (List.mem_range'_1.mp hk).1; omega)]]

theorem backLoop_spec : ∀ (k : ℕ) (r : ℕ → ℝ),
    (∀ i, k ≤ i → backLoop fl R d iq k r i = r i) ∧ ∀ i < k, backLoop fl R d iq k r i = backRow fl R d iq i (backLoop fl R d iq k r)
  | 0, r => ⟨fun _ _ => rfl, fun i hi => absurd hi (Nat.not_lt_zero i)⟩
  | k + 1, r => by
    obtain ⟨h1, h2⟩ := backLoop_spec k (Function.update r k (backRow fl R d iq k r))
    refine ⟨fun i hi => ?_, fun i hi => ?_⟩
    · show backLoop fl R d iq k _ i = r i
      rw [h1 i (by omega), Function.update_of_ne (by omega)]
    · show backLoop fl R d iq k _ i = backRow fl R d iq i (backLoop fl R d iq k _)
      rcases Nat.lt_succ_iff_lt_or_eq.mp hi with hi | rfl
      · exact h2 i hi
      · rw [h1 i le_rfl, Function.update_self]
        refine backRow_congr fun k hk => ?_
        rw [h1 k (by omega), Function.update_of_ne (by omega)]

theorem sum_range'_Ico (f : ℕ → ℝ) (i j : ℕ) : ((List.range' i (j - i)).map f).sum = ∑ k ∈ Finset.Ico i j, f k := by
  rcases Nat.le_total j i with h | h
  · rw [Nat.sub_eq_zero_of_le h, Finset.Ico_eq_empty_of_le h]; simp
  · induction j, h using Nat.le_induction with
    | base => simp
    | succ j hj ih =>
      rw [Finset.sum_Ico_succ_top hj, ← ih, Nat.succ_sub hj, Nat.succ_eq_add_one, List.range'_concat, List.map_append, List.sum_append]
      simp [Nat.add_sub_cancel' hj]

/-- The backward error of back substitution. -/
theorem backSubFl_error {u : ℝ} (hu : 0 ≤ u) (hu1 : u ≤ 1 / 1000) (hfl : ∀ x, |fl x - x| ≤ u * |x|) {N : ℕ} (hN : iq ≤ N)
    (hg : (1 + u) ^ (N + 1) - 1 ≤ 1 / 100) (hd : ∀ k < iq, R k k ≠ 0) {i : ℕ} (hi : i < iq) :
    |∑ k ∈ Finset.Ico i iq, R i k * backSubFl fl R d iq k - d i| ≤
      3 * (((1 + u) ^ (N + 1) - 1) + u) * ∑ k ∈ Finset.Ico i iq, |R i k * backSubFl fl R d iq k| := by
  have hs := (backLoop_spec (fl := fl) (R := R) (d := d) (iq := iq) iq fun _ => 0).2 i hi
  change backSubFl fl R d iq i = backRow fl R d iq i (backSubFl fl R d iq) at hs
  generalize backSubFl fl R d iq = r at *
  unfold backRow at hs
  have h1 := flSum_prod_error hu hfl ((List.range' (i + 1) (iq - (i + 1))).map fun k => R i k * -r k) (d i) (N := N)
    (by rw [List.length_map, List.length_range']; omega)
  generalize hS : flSum fl (d i) (((List.range' (i + 1) (iq - (i + 1))).map fun k => R i k * -r k).map fl) = S at *
  rw [List.map_map, sum_range'_Ico, sum_range'_Ico] at h1
  rw [Finset.sum_eq_sum_Ico_succ_bot hi, Finset.sum_eq_sum_Ico_succ_bot hi]
  have e1 : ∑ k ∈ Finset.Ico (i + 1) iq, R i k * -r k = -∑ k ∈ Finset.Ico (i + 1) iq, R i k * r k := by
    rw [← Finset.sum_neg_distrib]
    exact Finset.sum_congr rfl fun k _ => by ring
  have e2 : ∑ k ∈ Finset.Ico (i + 1) iq, (_root_.abs ∘ fun k => R i k * -r k) k = ∑ k ∈ Finset.Ico (i + 1) iq, |R i k * r k| :=
    Finset.sum_congr rfl fun k _ => by simp [abs_mul]
  rw [e1, e2] at h1
  have hT := Finset.abs_sum_le_sum_abs (fun k => R i k * r k) (Finset.Ico (i + 1) iq)
  have hg0 : 0 ≤ (1 + u) ^ (N + 1) - 1 := by
    have : (1 : ℝ) ≤ (1 + u) ^ (N + 1) := one_le_pow₀ (by linarith)
    linarith
  generalize (1 + u) ^ (N + 1) - 1 = g at *
  generalize ∑ k ∈ Finset.Ico (i + 1) iq, R i k * r k = T at *
  generalize ∑ k ∈ Finset.Ico (i + 1) iq, |R i k * r k| = T' at *
  have h2 := hfl (S / R i i)
  rw [← hs] at h2
  have hR := hd i hi
  have h3 : |R i i * r i - S| ≤ u * |S| := by
    have e : R i i * r i - S = R i i * (r i - S / R i i) := by field_simp
    rw [e, abs_mul]
    have := mul_le_mul_of_nonneg_left h2 (abs_nonneg (R i i))
    refine le_trans this (le_of_eq ?_)
    rw [abs_div]
    have := abs_ne_zero.mpr hR
    field_simp
  generalize R i i * r i = M at *
  have a1 := abs_sub_abs_le_abs_sub S M
  rw [abs_sub_comm S M] at a1
  have a2 : |S| ≤ 1.01 * |M| := by nlinarith [abs_nonneg S, abs_nonneg M]
  have a3 : |M + T - d i| ≤ |M - S| + |S - (d i + -T)| := by
    have := abs_add_le (M - S) (S - (d i + -T))
    rwa [show M - S + (S - (d i + -T)) = M + T - d i by ring] at this
  have a4 : |d i| ≤ |M + T - d i| + |M| + |T| := by
    have k1 := abs_sub_le (d i) (M + T) 0
    have k2 := abs_add_le M T
    rw [sub_zero, sub_zero, abs_sub_comm] at k1
    linarith
  generalize |M + T - d i| = E at *
  have hM := abs_nonneg M
  have hT0 : 0 ≤ T' := le_trans (abs_nonneg _) hT
  have hE : E ≤ 1.01 * (u * |M|) + g * (E + |M| + 2 * T') := by
    have := mul_le_mul_of_nonneg_left a2 hu
    have k : g * (|d i| + T') ≤ g * (E + |M| + 2 * T') := mul_le_mul_of_nonneg_left (by linarith) hg0
    linarith
  by_cases hE0 : E ≤ 0
  · have : 0 ≤ 3 * (g + u) * (|M| + T') := by positivity
    linarith
  · have : g * E ≤ 1 / 100 * E := mul_le_mul_of_nonneg_right hg (by linarith)
    have k1 : 0 ≤ g * |M| := by positivity
    have k2 : 0 ≤ g * T' := by positivity
    have k3 : 0 ≤ u * |M| := by positivity
    have k4 : 0 ≤ u * T' := by positivity
    nlinarith

/-- The arithmetic with back substitution meets the hypothesis on the triangular solver. -/
theorem flArith_tri {n : ℕ} {u : ℝ} (hu : 0 ≤ u) (hu1 : u ≤ 1 / 1000) (hfl : ∀ x, |fl x - x| ≤ u * |x|) {N : ℕ} (hN : n ≤ N)
    (hg : (1 + u) ^ (N + 1) - 1 ≤ 1 / 100) (eps : ℝ) :
    (flArith fl eps (backSubFl fl) n).TriRounded (3 * (((1 + u) ^ (N + 1) - 1) + u)) :=
  fun _ _ _ hiq hd _ hi => backSubFl_error hu hu1 hfl (le_trans hiq hN) hg hd hi

end Verif
