import Verif.BezLemmas

/-!
Explicit expansions of scalar Bernstein sums (degrees 0 to 12), generated by
`tools/gen_expand.py`.
-/

namespace Verif

theorem bezS0 (p : ℕ → ℝ) (t : ℝ) : bez 0 p t =
      p 0 := by
  simp only [bez, Finset.sum_range_succ, Finset.sum_range_zero, smul_eq_mul, Nat.choose]
  norm_num

theorem bezS1 (p : ℕ → ℝ) (t : ℝ) : bez 1 p t =
      (1 - t) * p 0 +
      t * p 1 := by
  simp only [bez, Finset.sum_range_succ, Finset.sum_range_zero, smul_eq_mul, Nat.choose]
  norm_num

theorem bezS2 (p : ℕ → ℝ) (t : ℝ) : bez 2 p t =
      (1 - t) ^ 2 * p 0 +
      2 * t * (1 - t) * p 1 +
      t ^ 2 * p 2 := by
  simp only [bez, Finset.sum_range_succ, Finset.sum_range_zero, smul_eq_mul, Nat.choose]
  norm_num

theorem bezS3 (p : ℕ → ℝ) (t : ℝ) : bez 3 p t =
      (1 - t) ^ 3 * p 0 +
      3 * t * (1 - t) ^ 2 * p 1 +
      3 * t ^ 2 * (1 - t) * p 2 +
      t ^ 3 * p 3 := by
  simp only [bez, Finset.sum_range_succ, Finset.sum_range_zero, smul_eq_mul, Nat.choose]
  norm_num

theorem bezS4 (p : ℕ → ℝ) (t : ℝ) : bez 4 p t =
      (1 - t) ^ 4 * p 0 +
      4 * t * (1 - t) ^ 3 * p 1 +
      6 * t ^ 2 * (1 - t) ^ 2 * p 2 +
      4 * t ^ 3 * (1 - t) * p 3 +
      t ^ 4 * p 4 := by
  simp only [bez, Finset.sum_range_succ, Finset.sum_range_zero, smul_eq_mul, Nat.choose]
  norm_num

theorem bezS5 (p : ℕ → ℝ) (t : ℝ) : bez 5 p t =
      (1 - t) ^ 5 * p 0 +
      5 * t * (1 - t) ^ 4 * p 1 +
      10 * t ^ 2 * (1 - t) ^ 3 * p 2 +
      10 * t ^ 3 * (1 - t) ^ 2 * p 3 +
      5 * t ^ 4 * (1 - t) * p 4 +
      t ^ 5 * p 5 := by
  simp only [bez, Finset.sum_range_succ, Finset.sum_range_zero, smul_eq_mul, Nat.choose]
  norm_num

theorem bezS6 (p : ℕ → ℝ) (t : ℝ) : bez 6 p t =
      (1 - t) ^ 6 * p 0 +
      6 * t * (1 - t) ^ 5 * p 1 +
      15 * t ^ 2 * (1 - t) ^ 4 * p 2 +
      20 * t ^ 3 * (1 - t) ^ 3 * p 3 +
      15 * t ^ 4 * (1 - t) ^ 2 * p 4 +
      6 * t ^ 5 * (1 - t) * p 5 +
      t ^ 6 * p 6 := by
  simp only [bez, Finset.sum_range_succ, Finset.sum_range_zero, smul_eq_mul, Nat.choose]
  norm_num

theorem bezS7 (p : ℕ → ℝ) (t : ℝ) : bez 7 p t =
      (1 - t) ^ 7 * p 0 +
      7 * t * (1 - t) ^ 6 * p 1 +
      21 * t ^ 2 * (1 - t) ^ 5 * p 2 +
      35 * t ^ 3 * (1 - t) ^ 4 * p 3 +
      35 * t ^ 4 * (1 - t) ^ 3 * p 4 +
      21 * t ^ 5 * (1 - t) ^ 2 * p 5 +
      7 * t ^ 6 * (1 - t) * p 6 +
      t ^ 7 * p 7 := by
  simp only [bez, Finset.sum_range_succ, Finset.sum_range_zero, smul_eq_mul, Nat.choose]
  norm_num

theorem bezS8 (p : ℕ → ℝ) (t : ℝ) : bez 8 p t =
      (1 - t) ^ 8 * p 0 +
      8 * t * (1 - t) ^ 7 * p 1 +
      28 * t ^ 2 * (1 - t) ^ 6 * p 2 +
      56 * t ^ 3 * (1 - t) ^ 5 * p 3 +
      70 * t ^ 4 * (1 - t) ^ 4 * p 4 +
      56 * t ^ 5 * (1 - t) ^ 3 * p 5 +
      28 * t ^ 6 * (1 - t) ^ 2 * p 6 +
      8 * t ^ 7 * (1 - t) * p 7 +
      t ^ 8 * p 8 := by
  simp only [bez, Finset.sum_range_succ, Finset.sum_range_zero, smul_eq_mul, Nat.choose]
  norm_num

theorem bezS9 (p : ℕ → ℝ) (t : ℝ) : bez 9 p t =
      (1 - t) ^ 9 * p 0 +
      9 * t * (1 - t) ^ 8 * p 1 +
      36 * t ^ 2 * (1 - t) ^ 7 * p 2 +
      84 * t ^ 3 * (1 - t) ^ 6 * p 3 +
      126 * t ^ 4 * (1 - t) ^ 5 * p 4 +
      126 * t ^ 5 * (1 - t) ^ 4 * p 5 +
      84 * t ^ 6 * (1 - t) ^ 3 * p 6 +
      36 * t ^ 7 * (1 - t) ^ 2 * p 7 +
      9 * t ^ 8 * (1 - t) * p 8 +
      t ^ 9 * p 9 := by
  simp only [bez, Finset.sum_range_succ, Finset.sum_range_zero, smul_eq_mul, Nat.choose]
  norm_num

theorem bezS10 (p : ℕ → ℝ) (t : ℝ) : bez 10 p t =
      (1 - t) ^ 10 * p 0 +
      10 * t * (1 - t) ^ 9 * p 1 +
      45 * t ^ 2 * (1 - t) ^ 8 * p 2 +
      120 * t ^ 3 * (1 - t) ^ 7 * p 3 +
      210 * t ^ 4 * (1 - t) ^ 6 * p 4 +
      252 * t ^ 5 * (1 - t) ^ 5 * p 5 +
      210 * t ^ 6 * (1 - t) ^ 4 * p 6 +
      120 * t ^ 7 * (1 - t) ^ 3 * p 7 +
      45 * t ^ 8 * (1 - t) ^ 2 * p 8 +
      10 * t ^ 9 * (1 - t) * p 9 +
      t ^ 10 * p 10 := by
  simp only [bez, Finset.sum_range_succ, Finset.sum_range_zero, smul_eq_mul, Nat.choose]
  norm_num

theorem bezS11 (p : ℕ → ℝ) (t : ℝ) : bez 11 p t =
      (1 - t) ^ 11 * p 0 +
      11 * t * (1 - t) ^ 10 * p 1 +
      55 * t ^ 2 * (1 - t) ^ 9 * p 2 +
      165 * t ^ 3 * (1 - t) ^ 8 * p 3 +
      330 * t ^ 4 * (1 - t) ^ 7 * p 4 +
      462 * t ^ 5 * (1 - t) ^ 6 * p 5 +
      462 * t ^ 6 * (1 - t) ^ 5 * p 6 +
      330 * t ^ 7 * (1 - t) ^ 4 * p 7 +
      165 * t ^ 8 * (1 - t) ^ 3 * p 8 +
      55 * t ^ 9 * (1 - t) ^ 2 * p 9 +
      11 * t ^ 10 * (1 - t) * p 10 +
      t ^ 11 * p 11 := by
  simp only [bez, Finset.sum_range_succ, Finset.sum_range_zero, smul_eq_mul, Nat.choose]
  norm_num

theorem bezS12 (p : ℕ → ℝ) (t : ℝ) : bez 12 p t =
      (1 - t) ^ 12 * p 0 +
      12 * t * (1 - t) ^ 11 * p 1 +
      66 * t ^ 2 * (1 - t) ^ 10 * p 2 +
      220 * t ^ 3 * (1 - t) ^ 9 * p 3 +
      495 * t ^ 4 * (1 - t) ^ 8 * p 4 +
      792 * t ^ 5 * (1 - t) ^ 7 * p 5 +
      924 * t ^ 6 * (1 - t) ^ 6 * p 6 +
      792 * t ^ 7 * (1 - t) ^ 5 * p 7 +
      495 * t ^ 8 * (1 - t) ^ 4 * p 8 +
      220 * t ^ 9 * (1 - t) ^ 3 * p 9 +
      66 * t ^ 10 * (1 - t) ^ 2 * p 10 +
      12 * t ^ 11 * (1 - t) * p 11 +
      t ^ 12 * p 12 := by
  simp only [bez, Finset.sum_range_succ, Finset.sum_range_zero, smul_eq_mul, Nat.choose]
  norm_num

end Verif
