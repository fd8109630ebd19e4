import Verif.WRounded6
import Mathlib.Tactic.IntervalCases

/-!
# Helper for C04: distance between the truncated decimals and the exact rationals, set c0_dc0_ddc0_ddc1_dc1_c1

Written by tools/gen_wrounded.py.
-/

set_option linter.unusedVariables false
set_option linter.unusedSimpArgs false
set_option linter.unusedTactic false
set_option linter.unreachableTactic false

namespace Verif
open Matrix

theorem c0_dc0_ddc0_ddc1_dc1_c1.headAt_diff_0 (pi : ℕ → V3) (g x : V3) (T : ℝ) (hT : T ≠ 0) (k : Fin 3) :
    (((c0_dc0_ddc0_ddc1_dc1_c1.computeWwaypoints pi g T)[0]!).headAt x k - ((c0_dc0_ddc0_ddc1_dc1_c1.exactW pi g T)[0]!).headAt x k) * T ^ 2
      = 0 := by
  fin_cases k <;>
    simp [c0_dc0_ddc0_ddc1_dc1_c1.computeWwaypoints, c0_dc0_ddc0_ddc1_dc1_c1.exactW, Wp6.headAt, mulVec,
      dotProduct, Fin.sum_univ_three, skew, Matrix.one_apply] <;> field_simp <;> ring

theorem c0_dc0_ddc0_ddc1_dc1_c1.headAt_bound_0 (pi : ℕ → V3) (g x : V3) (T M G : ℝ) (hT : T ≠ 0) (k : Fin 3)
    (hp : ∀ i k, |pi i k| ≤ M) (hx : ∀ k, |x k| ≤ M) (hg : ∀ k, |g k| ≤ G) (hT2 : 0 ≤ T ^ 2) (hM : 0 ≤ M) :
    |(((c0_dc0_ddc0_ddc1_dc1_c1.computeWwaypoints pi g T)[0]!).headAt x k - ((c0_dc0_ddc0_ddc1_dc1_c1.exactW pi g T)[0]!).headAt x k) * T ^ 2| ≤ 1e-12 * M := by
  rw [c0_dc0_ddc0_ddc1_dc1_c1.headAt_diff_0 pi g x T hT k]
  rw [abs_zero]; positivity

theorem c0_dc0_ddc0_ddc1_dc1_c1.tailAt_diff_0 (pi : ℕ → V3) (g x : V3) (T : ℝ) (hT : T ≠ 0) (k : Fin 3) :
    (((c0_dc0_ddc0_ddc1_dc1_c1.computeWwaypoints pi g T)[0]!).tailAt x k - ((c0_dc0_ddc0_ddc1_dc1_c1.exactW pi g T)[0]!).tailAt x k) * T ^ 2
      = 0 := by
  fin_cases k <;>
    simp [c0_dc0_ddc0_ddc1_dc1_c1.computeWwaypoints, c0_dc0_ddc0_ddc1_dc1_c1.exactW, Wp6.tailAt, mulVec,
      dotProduct, Fin.sum_univ_three, skew, Matrix.one_apply] <;> field_simp <;> ring

theorem c0_dc0_ddc0_ddc1_dc1_c1.tailAt_bound_0 (pi : ℕ → V3) (g x : V3) (T M G : ℝ) (hT : T ≠ 0) (k : Fin 3)
    (hp : ∀ i k, |pi i k| ≤ M) (hx : ∀ k, |x k| ≤ M) (hg : ∀ k, |g k| ≤ G) (hT2 : 0 ≤ T ^ 2) (hM : 0 ≤ M) (hG : 0 ≤ G) :
    |(((c0_dc0_ddc0_ddc1_dc1_c1.computeWwaypoints pi g T)[0]!).tailAt x k - ((c0_dc0_ddc0_ddc1_dc1_c1.exactW pi g T)[0]!).tailAt x k) * T ^ 2| ≤ 1e-12 * (M * M + T ^ 2 * (G * M)) := by
  rw [c0_dc0_ddc0_ddc1_dc1_c1.tailAt_diff_0 pi g x T hT k]
  have hMM : 0 ≤ M * M := by positivity
  have hGM : 0 ≤ T ^ 2 * (G * M) := by positivity
  rw [abs_zero]; positivity

theorem c0_dc0_ddc0_ddc1_dc1_c1.headAt_diff_1 (pi : ℕ → V3) (g x : V3) (T : ℝ) (hT : T ≠ 0) (k : Fin 3) :
    (((c0_dc0_ddc0_ddc1_dc1_c1.computeWwaypoints pi g T)[1]!).headAt x k - ((c0_dc0_ddc0_ddc1_dc1_c1.exactW pi g T)[1]!).headAt x k) * T ^ 2
      = (-1 / 30000000000000 : ℝ) * x k + (1 / 30000000000000 : ℝ) * pi 0 k := by
  fin_cases k <;>
    simp [c0_dc0_ddc0_ddc1_dc1_c1.computeWwaypoints, c0_dc0_ddc0_ddc1_dc1_c1.exactW, Wp6.headAt, mulVec,
      dotProduct, Fin.sum_univ_three, skew, Matrix.one_apply] <;> field_simp <;> ring

theorem c0_dc0_ddc0_ddc1_dc1_c1.headAt_bound_1 (pi : ℕ → V3) (g x : V3) (T M G : ℝ) (hT : T ≠ 0) (k : Fin 3)
    (hp : ∀ i k, |pi i k| ≤ M) (hx : ∀ k, |x k| ≤ M) (hg : ∀ k, |g k| ≤ G) (hT2 : 0 ≤ T ^ 2) (hM : 0 ≤ M) :
    |(((c0_dc0_ddc0_ddc1_dc1_c1.computeWwaypoints pi g T)[1]!).headAt x k - ((c0_dc0_ddc0_ddc1_dc1_c1.exactW pi g T)[1]!).headAt x k) * T ^ 2| ≤ 1e-12 * M := by
  rw [c0_dc0_ddc0_ddc1_dc1_c1.headAt_diff_1 pi g x T hT k]
  rw [abs_le]
  constructor
  all_goals
    have := abs_le.mp (hx k)
    have := abs_le.mp (hp 0 k)
    norm_num at *
    linarith

theorem c0_dc0_ddc0_ddc1_dc1_c1.tailAt_diff_1 (pi : ℕ → V3) (g x : V3) (T : ℝ) (hT : T ≠ 0) (k : Fin 3) :
    (((c0_dc0_ddc0_ddc1_dc1_c1.computeWwaypoints pi g T)[1]!).tailAt x k - ((c0_dc0_ddc0_ddc1_dc1_c1.exactW pi g T)[1]!).tailAt x k) * T ^ 2
      = (-1 / 30000000000000 : ℝ) * (skew (pi 0) *ᵥ x) k + (-1 / 3000000000000000 : ℝ) * T ^ 2 * (skew g *ᵥ pi 0) k + (1 / 3000000000000000 : ℝ) * T ^ 2 * (skew g *ᵥ pi 1) k := by
  fin_cases k <;>
    simp [c0_dc0_ddc0_ddc1_dc1_c1.computeWwaypoints, c0_dc0_ddc0_ddc1_dc1_c1.exactW, Wp6.tailAt, mulVec,
      dotProduct, Fin.sum_univ_three, skew, Matrix.one_apply] <;> field_simp <;> ring

theorem c0_dc0_ddc0_ddc1_dc1_c1.tailAt_bound_1 (pi : ℕ → V3) (g x : V3) (T M G : ℝ) (hT : T ≠ 0) (k : Fin 3)
    (hp : ∀ i k, |pi i k| ≤ M) (hx : ∀ k, |x k| ≤ M) (hg : ∀ k, |g k| ≤ G) (hT2 : 0 ≤ T ^ 2) (hM : 0 ≤ M) (hG : 0 ≤ G) :
    |(((c0_dc0_ddc0_ddc1_dc1_c1.computeWwaypoints pi g T)[1]!).tailAt x k - ((c0_dc0_ddc0_ddc1_dc1_c1.exactW pi g T)[1]!).tailAt x k) * T ^ 2| ≤ 1e-12 * (M * M + T ^ 2 * (G * M)) := by
  rw [c0_dc0_ddc0_ddc1_dc1_c1.tailAt_diff_1 pi g x T hT k]
  have hMM : 0 ≤ M * M := by positivity
  have hGM : 0 ≤ T ^ 2 * (G * M) := by positivity
  rw [abs_le]
  constructor
  all_goals
    have := abs_le.mp (skew_bound (hp 0) hx k)
    have := abs_le.mp (skew_bound_T hT2 hg (hp 0) k)
    have := abs_le.mp (skew_bound_T hT2 hg (hp 1) k)
    norm_num at *
    linarith

theorem c0_dc0_ddc0_ddc1_dc1_c1.headAt_diff_2 (pi : ℕ → V3) (g x : V3) (T : ℝ) (hT : T ≠ 0) (k : Fin 3) :
    (((c0_dc0_ddc0_ddc1_dc1_c1.computeWwaypoints pi g T)[2]!).headAt x k - ((c0_dc0_ddc0_ddc1_dc1_c1.exactW pi g T)[2]!).headAt x k) * T ^ 2
      = (1 / 300000000000000 : ℝ) * x k + (-1 / 300000000000000 : ℝ) * pi 0 k := by
  fin_cases k <;>
    simp [c0_dc0_ddc0_ddc1_dc1_c1.computeWwaypoints, c0_dc0_ddc0_ddc1_dc1_c1.exactW, Wp6.headAt, mulVec,
      dotProduct, Fin.sum_univ_three, skew, Matrix.one_apply] <;> field_simp <;> ring

theorem c0_dc0_ddc0_ddc1_dc1_c1.headAt_bound_2 (pi : ℕ → V3) (g x : V3) (T M G : ℝ) (hT : T ≠ 0) (k : Fin 3)
    (hp : ∀ i k, |pi i k| ≤ M) (hx : ∀ k, |x k| ≤ M) (hg : ∀ k, |g k| ≤ G) (hT2 : 0 ≤ T ^ 2) (hM : 0 ≤ M) :
    |(((c0_dc0_ddc0_ddc1_dc1_c1.computeWwaypoints pi g T)[2]!).headAt x k - ((c0_dc0_ddc0_ddc1_dc1_c1.exactW pi g T)[2]!).headAt x k) * T ^ 2| ≤ 1e-12 * M := by
  rw [c0_dc0_ddc0_ddc1_dc1_c1.headAt_diff_2 pi g x T hT k]
  rw [abs_le]
  constructor
  all_goals
    have := abs_le.mp (hx k)
    have := abs_le.mp (hp 0 k)
    norm_num at *
    linarith

theorem c0_dc0_ddc0_ddc1_dc1_c1.tailAt_diff_2 (pi : ℕ → V3) (g x : V3) (T : ℝ) (hT : T ≠ 0) (k : Fin 3) :
    (((c0_dc0_ddc0_ddc1_dc1_c1.computeWwaypoints pi g T)[2]!).tailAt x k - ((c0_dc0_ddc0_ddc1_dc1_c1.exactW pi g T)[2]!).tailAt x k) * T ^ 2
      = (1 / 30000000000000 : ℝ) * (skew (pi 0) *ᵥ x) k + (1 / 15000000000000000 : ℝ) * T ^ 2 * (skew g *ᵥ pi 0) k + (1 / 3000000000000000 : ℝ) * T ^ 2 * (skew g *ᵥ pi 2) k := by
  fin_cases k <;>
    simp [c0_dc0_ddc0_ddc1_dc1_c1.computeWwaypoints, c0_dc0_ddc0_ddc1_dc1_c1.exactW, Wp6.tailAt, mulVec,
      dotProduct, Fin.sum_univ_three, skew, Matrix.one_apply] <;> field_simp <;> ring

theorem c0_dc0_ddc0_ddc1_dc1_c1.tailAt_bound_2 (pi : ℕ → V3) (g x : V3) (T M G : ℝ) (hT : T ≠ 0) (k : Fin 3)
    (hp : ∀ i k, |pi i k| ≤ M) (hx : ∀ k, |x k| ≤ M) (hg : ∀ k, |g k| ≤ G) (hT2 : 0 ≤ T ^ 2) (hM : 0 ≤ M) (hG : 0 ≤ G) :
    |(((c0_dc0_ddc0_ddc1_dc1_c1.computeWwaypoints pi g T)[2]!).tailAt x k - ((c0_dc0_ddc0_ddc1_dc1_c1.exactW pi g T)[2]!).tailAt x k) * T ^ 2| ≤ 1e-12 * (M * M + T ^ 2 * (G * M)) := by
  rw [c0_dc0_ddc0_ddc1_dc1_c1.tailAt_diff_2 pi g x T hT k]
  have hMM : 0 ≤ M * M := by positivity
  have hGM : 0 ≤ T ^ 2 * (G * M) := by positivity
  rw [abs_le]
  constructor
  all_goals
    have := abs_le.mp (skew_bound (hp 0) hx k)
    have := abs_le.mp (skew_bound_T hT2 hg (hp 0) k)
    have := abs_le.mp (skew_bound_T hT2 hg (hp 2) k)
    norm_num at *
    linarith

theorem c0_dc0_ddc0_ddc1_dc1_c1.headAt_diff_3 (pi : ℕ → V3) (g x : V3) (T : ℝ) (hT : T ≠ 0) (k : Fin 3) :
    (((c0_dc0_ddc0_ddc1_dc1_c1.computeWwaypoints pi g T)[3]!).headAt x k - ((c0_dc0_ddc0_ddc1_dc1_c1.exactW pi g T)[3]!).headAt x k) * T ^ 2
      = (-1 / 175000000000000 : ℝ) * x k + (-1 / 700000000000000 : ℝ) * pi 0 k + (-1 / 350000000000000 : ℝ) * pi 1 k + (-1 / 70000000000000 : ℝ) * pi 2 k + (1 / 350000000000000 : ℝ) * pi 4 k + (1 / 700000000000000 : ℝ) * pi 5 k := by
  fin_cases k <;>
    simp [c0_dc0_ddc0_ddc1_dc1_c1.computeWwaypoints, c0_dc0_ddc0_ddc1_dc1_c1.exactW, Wp6.headAt, mulVec,
      dotProduct, Fin.sum_univ_three, skew, Matrix.one_apply] <;> field_simp <;> ring

theorem c0_dc0_ddc0_ddc1_dc1_c1.headAt_bound_3 (pi : ℕ → V3) (g x : V3) (T M G : ℝ) (hT : T ≠ 0) (k : Fin 3)
    (hp : ∀ i k, |pi i k| ≤ M) (hx : ∀ k, |x k| ≤ M) (hg : ∀ k, |g k| ≤ G) (hT2 : 0 ≤ T ^ 2) (hM : 0 ≤ M) :
    |(((c0_dc0_ddc0_ddc1_dc1_c1.computeWwaypoints pi g T)[3]!).headAt x k - ((c0_dc0_ddc0_ddc1_dc1_c1.exactW pi g T)[3]!).headAt x k) * T ^ 2| ≤ 1e-12 * M := by
  rw [c0_dc0_ddc0_ddc1_dc1_c1.headAt_diff_3 pi g x T hT k]
  rw [abs_le]
  constructor
  all_goals
    have := abs_le.mp (hx k)
    have := abs_le.mp (hp 0 k)
    have := abs_le.mp (hp 1 k)
    have := abs_le.mp (hp 2 k)
    have := abs_le.mp (hp 4 k)
    have := abs_le.mp (hp 5 k)
    norm_num at *
    linarith

theorem c0_dc0_ddc0_ddc1_dc1_c1.tailAt_diff_3 (pi : ℕ → V3) (g x : V3) (T : ℝ) (hT : T ≠ 0) (k : Fin 3) :
    (((c0_dc0_ddc0_ddc1_dc1_c1.computeWwaypoints pi g T)[3]!).tailAt x k - ((c0_dc0_ddc0_ddc1_dc1_c1.exactW pi g T)[3]!).tailAt x k) * T ^ 2
      = (-1 / 10500000000000000 : ℝ) * T ^ 2 * (skew g *ᵥ x) k + (1 / 70000000000000 : ℝ) * (skew (pi 2) *ᵥ x) k + (-1 / 210000000000000000 : ℝ) * T ^ 2 * (skew g *ᵥ pi 0) k + (-1 / 3500000000000000 : ℝ) * T ^ 2 * (skew g *ᵥ pi 1) k + (1 / 3500000000000000 : ℝ) * T ^ 2 * (skew g *ᵥ pi 2) k + (1 / 700000000000000 : ℝ) * (skew (pi 0) *ᵥ pi 5) k + (3 / 70000000000000 : ℝ) * (skew (pi 1) *ᵥ pi 4) k := by
  fin_cases k <;>
    simp [c0_dc0_ddc0_ddc1_dc1_c1.computeWwaypoints, c0_dc0_ddc0_ddc1_dc1_c1.exactW, Wp6.tailAt, mulVec,
      dotProduct, Fin.sum_univ_three, skew, Matrix.one_apply] <;> field_simp <;> ring

theorem c0_dc0_ddc0_ddc1_dc1_c1.tailAt_bound_3 (pi : ℕ → V3) (g x : V3) (T M G : ℝ) (hT : T ≠ 0) (k : Fin 3)
    (hp : ∀ i k, |pi i k| ≤ M) (hx : ∀ k, |x k| ≤ M) (hg : ∀ k, |g k| ≤ G) (hT2 : 0 ≤ T ^ 2) (hM : 0 ≤ M) (hG : 0 ≤ G) :
    |(((c0_dc0_ddc0_ddc1_dc1_c1.computeWwaypoints pi g T)[3]!).tailAt x k - ((c0_dc0_ddc0_ddc1_dc1_c1.exactW pi g T)[3]!).tailAt x k) * T ^ 2| ≤ 1e-12 * (M * M + T ^ 2 * (G * M)) := by
  rw [c0_dc0_ddc0_ddc1_dc1_c1.tailAt_diff_3 pi g x T hT k]
  have hMM : 0 ≤ M * M := by positivity
  have hGM : 0 ≤ T ^ 2 * (G * M) := by positivity
  rw [abs_le]
  constructor
  all_goals
    have := abs_le.mp (skew_bound_T hT2 hg hx k)
    have := abs_le.mp (skew_bound (hp 2) hx k)
    have := abs_le.mp (skew_bound_T hT2 hg (hp 0) k)
    have := abs_le.mp (skew_bound_T hT2 hg (hp 1) k)
    have := abs_le.mp (skew_bound_T hT2 hg (hp 2) k)
    have := abs_le.mp (skew_bound (hp 0) (hp 5) k)
    have := abs_le.mp (skew_bound (hp 1) (hp 4) k)
    norm_num at *
    linarith

theorem c0_dc0_ddc0_ddc1_dc1_c1.headAt_diff_4 (pi : ℕ → V3) (g x : V3) (T : ℝ) (hT : T ≠ 0) (k : Fin 3) :
    (((c0_dc0_ddc0_ddc1_dc1_c1.computeWwaypoints pi g T)[4]!).headAt x k - ((c0_dc0_ddc0_ddc1_dc1_c1.exactW pi g T)[4]!).headAt x k) * T ^ 2
      = (-1 / 70000000000000 : ℝ) * x k + (-1 / 2100000000000000 : ℝ) * pi 0 k + (-1 / 350000000000000 : ℝ) * pi 1 k + (1 / 700000000000000 : ℝ) * pi 2 k + (3 / 700000000000000 : ℝ) * pi 5 k + (-1 / 10500000000000000 : ℝ) * pi 6 k := by
  fin_cases k <;>
    simp [c0_dc0_ddc0_ddc1_dc1_c1.computeWwaypoints, c0_dc0_ddc0_ddc1_dc1_c1.exactW, Wp6.headAt, mulVec,
      dotProduct, Fin.sum_univ_three, skew, Matrix.one_apply] <;> field_simp <;> ring

theorem c0_dc0_ddc0_ddc1_dc1_c1.headAt_bound_4 (pi : ℕ → V3) (g x : V3) (T M G : ℝ) (hT : T ≠ 0) (k : Fin 3)
    (hp : ∀ i k, |pi i k| ≤ M) (hx : ∀ k, |x k| ≤ M) (hg : ∀ k, |g k| ≤ G) (hT2 : 0 ≤ T ^ 2) (hM : 0 ≤ M) :
    |(((c0_dc0_ddc0_ddc1_dc1_c1.computeWwaypoints pi g T)[4]!).headAt x k - ((c0_dc0_ddc0_ddc1_dc1_c1.exactW pi g T)[4]!).headAt x k) * T ^ 2| ≤ 1e-12 * M := by
  rw [c0_dc0_ddc0_ddc1_dc1_c1.headAt_diff_4 pi g x T hT k]
  rw [abs_le]
  constructor
  all_goals
    have := abs_le.mp (hx k)
    have := abs_le.mp (hp 0 k)
    have := abs_le.mp (hp 1 k)
    have := abs_le.mp (hp 2 k)
    have := abs_le.mp (hp 5 k)
    have := abs_le.mp (hp 6 k)
    norm_num at *
    linarith

theorem c0_dc0_ddc0_ddc1_dc1_c1.tailAt_diff_4 (pi : ℕ → V3) (g x : V3) (T : ℝ) (hT : T ≠ 0) (k : Fin 3) :
    (((c0_dc0_ddc0_ddc1_dc1_c1.computeWwaypoints pi g T)[4]!).tailAt x k - ((c0_dc0_ddc0_ddc1_dc1_c1.exactW pi g T)[4]!).tailAt x k) * T ^ 2
      = (-1 / 5250000000000000 : ℝ) * T ^ 2 * (skew g *ᵥ x) k + (-1 / 70000000000000 : ℝ) * (skew (pi 2) *ᵥ x) k + (-109 / 210000000000000000 : ℝ) * T ^ 2 * (skew g *ᵥ pi 1) k + (-1 / 7000000000000000 : ℝ) * T ^ 2 * (skew g *ᵥ pi 2) k + (-1 / 21000000000000000 : ℝ) * T ^ 2 * (skew g *ᵥ pi 4) k + (-1 / 700000000000000 : ℝ) * (skew (pi 0) *ᵥ pi 5) k + (-1 / 10500000000000000 : ℝ) * (skew (pi 0) *ᵥ pi 6) k + (-3 / 70000000000000 : ℝ) * (skew (pi 1) *ᵥ pi 4) k + (-3 / 700000000000000 : ℝ) * (skew (pi 1) *ᵥ pi 5) k + (3 / 70000000000000 : ℝ) * (skew (pi 2) *ᵥ pi 4) k := by
  fin_cases k <;>
    simp [c0_dc0_ddc0_ddc1_dc1_c1.computeWwaypoints, c0_dc0_ddc0_ddc1_dc1_c1.exactW, Wp6.tailAt, mulVec,
      dotProduct, Fin.sum_univ_three, skew, Matrix.one_apply] <;> field_simp <;> ring

theorem c0_dc0_ddc0_ddc1_dc1_c1.tailAt_bound_4 (pi : ℕ → V3) (g x : V3) (T M G : ℝ) (hT : T ≠ 0) (k : Fin 3)
    (hp : ∀ i k, |pi i k| ≤ M) (hx : ∀ k, |x k| ≤ M) (hg : ∀ k, |g k| ≤ G) (hT2 : 0 ≤ T ^ 2) (hM : 0 ≤ M) (hG : 0 ≤ G) :
    |(((c0_dc0_ddc0_ddc1_dc1_c1.computeWwaypoints pi g T)[4]!).tailAt x k - ((c0_dc0_ddc0_ddc1_dc1_c1.exactW pi g T)[4]!).tailAt x k) * T ^ 2| ≤ 1e-12 * (M * M + T ^ 2 * (G * M)) := by
  rw [c0_dc0_ddc0_ddc1_dc1_c1.tailAt_diff_4 pi g x T hT k]
  have hMM : 0 ≤ M * M := by positivity
  have hGM : 0 ≤ T ^ 2 * (G * M) := by positivity
  rw [abs_le]
  constructor
  all_goals
    have := abs_le.mp (skew_bound_T hT2 hg hx k)
    have := abs_le.mp (skew_bound (hp 2) hx k)
    have := abs_le.mp (skew_bound_T hT2 hg (hp 1) k)
    have := abs_le.mp (skew_bound_T hT2 hg (hp 2) k)
    have := abs_le.mp (skew_bound_T hT2 hg (hp 4) k)
    have := abs_le.mp (skew_bound (hp 0) (hp 5) k)
    have := abs_le.mp (skew_bound (hp 0) (hp 6) k)
    have := abs_le.mp (skew_bound (hp 1) (hp 4) k)
    have := abs_le.mp (skew_bound (hp 1) (hp 5) k)
    have := abs_le.mp (skew_bound (hp 2) (hp 4) k)
    norm_num at *
    linarith

theorem c0_dc0_ddc0_ddc1_dc1_c1.headAt_diff_5 (pi : ℕ → V3) (g x : V3) (T : ℝ) (hT : T ≠ 0) (k : Fin 3) :
    (((c0_dc0_ddc0_ddc1_dc1_c1.computeWwaypoints pi g T)[5]!).headAt x k - ((c0_dc0_ddc0_ddc1_dc1_c1.exactW pi g T)[5]!).headAt x k) * T ^ 2
      = (-1 / 70000000000000 : ℝ) * x k + (-1 / 10500000000000000 : ℝ) * pi 0 k + (3 / 700000000000000 : ℝ) * pi 1 k + (1 / 700000000000000 : ℝ) * pi 4 k + (-1 / 350000000000000 : ℝ) * pi 5 k + (-1 / 2100000000000000 : ℝ) * pi 6 k := by
  fin_cases k <;>
    simp [c0_dc0_ddc0_ddc1_dc1_c1.computeWwaypoints, c0_dc0_ddc0_ddc1_dc1_c1.exactW, Wp6.headAt, mulVec,
      dotProduct, Fin.sum_univ_three, skew, Matrix.one_apply] <;> field_simp <;> ring

theorem c0_dc0_ddc0_ddc1_dc1_c1.headAt_bound_5 (pi : ℕ → V3) (g x : V3) (T M G : ℝ) (hT : T ≠ 0) (k : Fin 3)
    (hp : ∀ i k, |pi i k| ≤ M) (hx : ∀ k, |x k| ≤ M) (hg : ∀ k, |g k| ≤ G) (hT2 : 0 ≤ T ^ 2) (hM : 0 ≤ M) :
    |(((c0_dc0_ddc0_ddc1_dc1_c1.computeWwaypoints pi g T)[5]!).headAt x k - ((c0_dc0_ddc0_ddc1_dc1_c1.exactW pi g T)[5]!).headAt x k) * T ^ 2| ≤ 1e-12 * M := by
  rw [c0_dc0_ddc0_ddc1_dc1_c1.headAt_diff_5 pi g x T hT k]
  rw [abs_le]
  constructor
  all_goals
    have := abs_le.mp (hx k)
    have := abs_le.mp (hp 0 k)
    have := abs_le.mp (hp 1 k)
    have := abs_le.mp (hp 4 k)
    have := abs_le.mp (hp 5 k)
    have := abs_le.mp (hp 6 k)
    norm_num at *
    linarith

theorem c0_dc0_ddc0_ddc1_dc1_c1.tailAt_diff_5 (pi : ℕ → V3) (g x : V3) (T : ℝ) (hT : T ≠ 0) (k : Fin 3) :
    (((c0_dc0_ddc0_ddc1_dc1_c1.computeWwaypoints pi g T)[5]!).tailAt x k - ((c0_dc0_ddc0_ddc1_dc1_c1.exactW pi g T)[5]!).tailAt x k) * T ^ 2
      = (-1 / 5250000000000000 : ℝ) * T ^ 2 * (skew g *ᵥ x) k + (-1 / 70000000000000 : ℝ) * (skew (pi 4) *ᵥ x) k + (1 / 1050000000000000 : ℝ) * T ^ 2 * (skew g *ᵥ pi 2) k + (-1 / 7000000000000000 : ℝ) * T ^ 2 * (skew g *ᵥ pi 4) k + (-1 / 52500000000000000 : ℝ) * T ^ 2 * (skew g *ᵥ pi 5) k + (1 / 10500000000000000 : ℝ) * (skew (pi 0) *ᵥ pi 6) k + (-1 / 175000000000000 : ℝ) * (skew (pi 1) *ᵥ pi 5) k + (1 / 700000000000000 : ℝ) * (skew (pi 1) *ᵥ pi 6) k + (-3 / 70000000000000 : ℝ) * (skew (pi 2) *ᵥ pi 4) k + (3 / 70000000000000 : ℝ) * (skew (pi 2) *ᵥ pi 5) k := by
  fin_cases k <;>
    simp [c0_dc0_ddc0_ddc1_dc1_c1.computeWwaypoints, c0_dc0_ddc0_ddc1_dc1_c1.exactW, Wp6.tailAt, mulVec,
      dotProduct, Fin.sum_univ_three, skew, Matrix.one_apply] <;> field_simp <;> ring

theorem c0_dc0_ddc0_ddc1_dc1_c1.tailAt_bound_5 (pi : ℕ → V3) (g x : V3) (T M G : ℝ) (hT : T ≠ 0) (k : Fin 3)
    (hp : ∀ i k, |pi i k| ≤ M) (hx : ∀ k, |x k| ≤ M) (hg : ∀ k, |g k| ≤ G) (hT2 : 0 ≤ T ^ 2) (hM : 0 ≤ M) (hG : 0 ≤ G) :
    |(((c0_dc0_ddc0_ddc1_dc1_c1.computeWwaypoints pi g T)[5]!).tailAt x k - ((c0_dc0_ddc0_ddc1_dc1_c1.exactW pi g T)[5]!).tailAt x k) * T ^ 2| ≤ 1e-12 * (M * M + T ^ 2 * (G * M)) := by
  rw [c0_dc0_ddc0_ddc1_dc1_c1.tailAt_diff_5 pi g x T hT k]
  have hMM : 0 ≤ M * M := by positivity
  have hGM : 0 ≤ T ^ 2 * (G * M) := by positivity
  rw [abs_le]
  constructor
  all_goals
    have := abs_le.mp (skew_bound_T hT2 hg hx k)
    have := abs_le.mp (skew_bound (hp 4) hx k)
    have := abs_le.mp (skew_bound_T hT2 hg (hp 2) k)
    have := abs_le.mp (skew_bound_T hT2 hg (hp 4) k)
    have := abs_le.mp (skew_bound_T hT2 hg (hp 5) k)
    have := abs_le.mp (skew_bound (hp 0) (hp 6) k)
    have := abs_le.mp (skew_bound (hp 1) (hp 5) k)
    have := abs_le.mp (skew_bound (hp 1) (hp 6) k)
    have := abs_le.mp (skew_bound (hp 2) (hp 4) k)
    have := abs_le.mp (skew_bound (hp 2) (hp 5) k)
    norm_num at *
    linarith

theorem c0_dc0_ddc0_ddc1_dc1_c1.headAt_diff_6 (pi : ℕ → V3) (g x : V3) (T : ℝ) (hT : T ≠ 0) (k : Fin 3) :
    (((c0_dc0_ddc0_ddc1_dc1_c1.computeWwaypoints pi g T)[6]!).headAt x k - ((c0_dc0_ddc0_ddc1_dc1_c1.exactW pi g T)[6]!).headAt x k) * T ^ 2
      = (3 / 700000000000000 : ℝ) * x k + (1 / 700000000000000 : ℝ) * pi 1 k + (1 / 350000000000000 : ℝ) * pi 2 k + (-1 / 70000000000000 : ℝ) * pi 4 k + (1 / 140000000000000 : ℝ) * pi 5 k + (-1 / 700000000000000 : ℝ) * pi 6 k := by
  fin_cases k <;>
    simp [c0_dc0_ddc0_ddc1_dc1_c1.computeWwaypoints, c0_dc0_ddc0_ddc1_dc1_c1.exactW, Wp6.headAt, mulVec,
      dotProduct, Fin.sum_univ_three, skew, Matrix.one_apply] <;> field_simp <;> ring

theorem c0_dc0_ddc0_ddc1_dc1_c1.headAt_bound_6 (pi : ℕ → V3) (g x : V3) (T M G : ℝ) (hT : T ≠ 0) (k : Fin 3)
    (hp : ∀ i k, |pi i k| ≤ M) (hx : ∀ k, |x k| ≤ M) (hg : ∀ k, |g k| ≤ G) (hT2 : 0 ≤ T ^ 2) (hM : 0 ≤ M) :
    |(((c0_dc0_ddc0_ddc1_dc1_c1.computeWwaypoints pi g T)[6]!).headAt x k - ((c0_dc0_ddc0_ddc1_dc1_c1.exactW pi g T)[6]!).headAt x k) * T ^ 2| ≤ 1e-12 * M := by
  rw [c0_dc0_ddc0_ddc1_dc1_c1.headAt_diff_6 pi g x T hT k]
  rw [abs_le]
  constructor
  all_goals
    have := abs_le.mp (hx k)
    have := abs_le.mp (hp 1 k)
    have := abs_le.mp (hp 2 k)
    have := abs_le.mp (hp 4 k)
    have := abs_le.mp (hp 5 k)
    have := abs_le.mp (hp 6 k)
    norm_num at *
    linarith

theorem c0_dc0_ddc0_ddc1_dc1_c1.tailAt_diff_6 (pi : ℕ → V3) (g x : V3) (T : ℝ) (hT : T ≠ 0) (k : Fin 3) :
    (((c0_dc0_ddc0_ddc1_dc1_c1.computeWwaypoints pi g T)[6]!).tailAt x k - ((c0_dc0_ddc0_ddc1_dc1_c1.exactW pi g T)[6]!).tailAt x k) * T ^ 2
      = (-1 / 10500000000000000 : ℝ) * T ^ 2 * (skew g *ᵥ x) k + (1 / 70000000000000 : ℝ) * (skew (pi 4) *ᵥ x) k + (1 / 3500000000000000 : ℝ) * T ^ 2 * (skew g *ᵥ pi 4) k + (-1 / 3500000000000000 : ℝ) * T ^ 2 * (skew g *ᵥ pi 5) k + (-1 / 210000000000000000 : ℝ) * T ^ 2 * (skew g *ᵥ pi 6) k + (-1 / 700000000000000 : ℝ) * (skew (pi 1) *ᵥ pi 6) k + (-3 / 70000000000000 : ℝ) * (skew (pi 2) *ᵥ pi 5) k := by
  fin_cases k <;>
    simp [c0_dc0_ddc0_ddc1_dc1_c1.computeWwaypoints, c0_dc0_ddc0_ddc1_dc1_c1.exactW, Wp6.tailAt, mulVec,
      dotProduct, Fin.sum_univ_three, skew, Matrix.one_apply] <;> field_simp <;> ring

theorem c0_dc0_ddc0_ddc1_dc1_c1.tailAt_bound_6 (pi : ℕ → V3) (g x : V3) (T M G : ℝ) (hT : T ≠ 0) (k : Fin 3)
    (hp : ∀ i k, |pi i k| ≤ M) (hx : ∀ k, |x k| ≤ M) (hg : ∀ k, |g k| ≤ G) (hT2 : 0 ≤ T ^ 2) (hM : 0 ≤ M) (hG : 0 ≤ G) :
    |(((c0_dc0_ddc0_ddc1_dc1_c1.computeWwaypoints pi g T)[6]!).tailAt x k - ((c0_dc0_ddc0_ddc1_dc1_c1.exactW pi g T)[6]!).tailAt x k) * T ^ 2| ≤ 1e-12 * (M * M + T ^ 2 * (G * M)) := by
  rw [c0_dc0_ddc0_ddc1_dc1_c1.tailAt_diff_6 pi g x T hT k]
  have hMM : 0 ≤ M * M := by positivity
  have hGM : 0 ≤ T ^ 2 * (G * M) := by positivity
  rw [abs_le]
  constructor
  all_goals
    have := abs_le.mp (skew_bound_T hT2 hg hx k)
    have := abs_le.mp (skew_bound (hp 4) hx k)
    have := abs_le.mp (skew_bound_T hT2 hg (hp 4) k)
    have := abs_le.mp (skew_bound_T hT2 hg (hp 5) k)
    have := abs_le.mp (skew_bound_T hT2 hg (hp 6) k)
    have := abs_le.mp (skew_bound (hp 1) (hp 6) k)
    have := abs_le.mp (skew_bound (hp 2) (hp 5) k)
    norm_num at *
    linarith

theorem c0_dc0_ddc0_ddc1_dc1_c1.headAt_diff_7 (pi : ℕ → V3) (g x : V3) (T : ℝ) (hT : T ≠ 0) (k : Fin 3) :
    (((c0_dc0_ddc0_ddc1_dc1_c1.computeWwaypoints pi g T)[7]!).headAt x k - ((c0_dc0_ddc0_ddc1_dc1_c1.exactW pi g T)[7]!).headAt x k) * T ^ 2
      = (1 / 300000000000000 : ℝ) * x k + (-1 / 300000000000000 : ℝ) * pi 6 k := by
  fin_cases k <;>
    simp [c0_dc0_ddc0_ddc1_dc1_c1.computeWwaypoints, c0_dc0_ddc0_ddc1_dc1_c1.exactW, Wp6.headAt, mulVec,
      dotProduct, Fin.sum_univ_three, skew, Matrix.one_apply] <;> field_simp <;> ring

theorem c0_dc0_ddc0_ddc1_dc1_c1.headAt_bound_7 (pi : ℕ → V3) (g x : V3) (T M G : ℝ) (hT : T ≠ 0) (k : Fin 3)
    (hp : ∀ i k, |pi i k| ≤ M) (hx : ∀ k, |x k| ≤ M) (hg : ∀ k, |g k| ≤ G) (hT2 : 0 ≤ T ^ 2) (hM : 0 ≤ M) :
    |(((c0_dc0_ddc0_ddc1_dc1_c1.computeWwaypoints pi g T)[7]!).headAt x k - ((c0_dc0_ddc0_ddc1_dc1_c1.exactW pi g T)[7]!).headAt x k) * T ^ 2| ≤ 1e-12 * M := by
  rw [c0_dc0_ddc0_ddc1_dc1_c1.headAt_diff_7 pi g x T hT k]
  rw [abs_le]
  constructor
  all_goals
    have := abs_le.mp (hx k)
    have := abs_le.mp (hp 6 k)
    norm_num at *
    linarith

theorem c0_dc0_ddc0_ddc1_dc1_c1.tailAt_diff_7 (pi : ℕ → V3) (g x : V3) (T : ℝ) (hT : T ≠ 0) (k : Fin 3) :
    (((c0_dc0_ddc0_ddc1_dc1_c1.computeWwaypoints pi g T)[7]!).tailAt x k - ((c0_dc0_ddc0_ddc1_dc1_c1.exactW pi g T)[7]!).tailAt x k) * T ^ 2
      = (1 / 30000000000000 : ℝ) * (skew (pi 6) *ᵥ x) k + (1 / 3000000000000000 : ℝ) * T ^ 2 * (skew g *ᵥ pi 4) k + (-1 / 30000000000000000 : ℝ) * T ^ 2 * (skew g *ᵥ pi 6) k := by
  fin_cases k <;>
    simp [c0_dc0_ddc0_ddc1_dc1_c1.computeWwaypoints, c0_dc0_ddc0_ddc1_dc1_c1.exactW, Wp6.tailAt, mulVec,
      dotProduct, Fin.sum_univ_three, skew, Matrix.one_apply] <;> field_simp <;> ring

theorem c0_dc0_ddc0_ddc1_dc1_c1.tailAt_bound_7 (pi : ℕ → V3) (g x : V3) (T M G : ℝ) (hT : T ≠ 0) (k : Fin 3)
    (hp : ∀ i k, |pi i k| ≤ M) (hx : ∀ k, |x k| ≤ M) (hg : ∀ k, |g k| ≤ G) (hT2 : 0 ≤ T ^ 2) (hM : 0 ≤ M) (hG : 0 ≤ G) :
    |(((c0_dc0_ddc0_ddc1_dc1_c1.computeWwaypoints pi g T)[7]!).tailAt x k - ((c0_dc0_ddc0_ddc1_dc1_c1.exactW pi g T)[7]!).tailAt x k) * T ^ 2| ≤ 1e-12 * (M * M + T ^ 2 * (G * M)) := by
  rw [c0_dc0_ddc0_ddc1_dc1_c1.tailAt_diff_7 pi g x T hT k]
  have hMM : 0 ≤ M * M := by positivity
  have hGM : 0 ≤ T ^ 2 * (G * M) := by positivity
  rw [abs_le]
  constructor
  all_goals
    have := abs_le.mp (skew_bound (hp 6) hx k)
    have := abs_le.mp (skew_bound_T hT2 hg (hp 4) k)
    have := abs_le.mp (skew_bound_T hT2 hg (hp 6) k)
    norm_num at *
    linarith

theorem c0_dc0_ddc0_ddc1_dc1_c1.headAt_diff_8 (pi : ℕ → V3) (g x : V3) (T : ℝ) (hT : T ≠ 0) (k : Fin 3) :
    (((c0_dc0_ddc0_ddc1_dc1_c1.computeWwaypoints pi g T)[8]!).headAt x k - ((c0_dc0_ddc0_ddc1_dc1_c1.exactW pi g T)[8]!).headAt x k) * T ^ 2
      = (-1 / 30000000000000 : ℝ) * x k + (1 / 100000000000000 : ℝ) * pi 4 k + (1 / 30000000000000 : ℝ) * pi 6 k := by
  fin_cases k <;>
    simp [c0_dc0_ddc0_ddc1_dc1_c1.computeWwaypoints, c0_dc0_ddc0_ddc1_dc1_c1.exactW, Wp6.headAt, mulVec,
      dotProduct, Fin.sum_univ_three, skew, Matrix.one_apply] <;> field_simp <;> ring

theorem c0_dc0_ddc0_ddc1_dc1_c1.headAt_bound_8 (pi : ℕ → V3) (g x : V3) (T M G : ℝ) (hT : T ≠ 0) (k : Fin 3)
    (hp : ∀ i k, |pi i k| ≤ M) (hx : ∀ k, |x k| ≤ M) (hg : ∀ k, |g k| ≤ G) (hT2 : 0 ≤ T ^ 2) (hM : 0 ≤ M) :
    |(((c0_dc0_ddc0_ddc1_dc1_c1.computeWwaypoints pi g T)[8]!).headAt x k - ((c0_dc0_ddc0_ddc1_dc1_c1.exactW pi g T)[8]!).headAt x k) * T ^ 2| ≤ 1e-12 * M := by
  rw [c0_dc0_ddc0_ddc1_dc1_c1.headAt_diff_8 pi g x T hT k]
  rw [abs_le]
  constructor
  all_goals
    have := abs_le.mp (hx k)
    have := abs_le.mp (hp 4 k)
    have := abs_le.mp (hp 6 k)
    norm_num at *
    linarith

theorem c0_dc0_ddc0_ddc1_dc1_c1.tailAt_diff_8 (pi : ℕ → V3) (g x : V3) (T : ℝ) (hT : T ≠ 0) (k : Fin 3) :
    (((c0_dc0_ddc0_ddc1_dc1_c1.computeWwaypoints pi g T)[8]!).tailAt x k - ((c0_dc0_ddc0_ddc1_dc1_c1.exactW pi g T)[8]!).tailAt x k) * T ^ 2
      = (-1 / 30000000000000 : ℝ) * (skew (pi 6) *ᵥ x) k + (1 / 3000000000000000 : ℝ) * T ^ 2 * (skew g *ᵥ pi 5) k + (-1 / 3000000000000000 : ℝ) * T ^ 2 * (skew g *ᵥ pi 6) k := by
  fin_cases k <;>
    simp [c0_dc0_ddc0_ddc1_dc1_c1.computeWwaypoints, c0_dc0_ddc0_ddc1_dc1_c1.exactW, Wp6.tailAt, mulVec,
      dotProduct, Fin.sum_univ_three, skew, Matrix.one_apply] <;> field_simp <;> ring

theorem c0_dc0_ddc0_ddc1_dc1_c1.tailAt_bound_8 (pi : ℕ → V3) (g x : V3) (T M G : ℝ) (hT : T ≠ 0) (k : Fin 3)
    (hp : ∀ i k, |pi i k| ≤ M) (hx : ∀ k, |x k| ≤ M) (hg : ∀ k, |g k| ≤ G) (hT2 : 0 ≤ T ^ 2) (hM : 0 ≤ M) (hG : 0 ≤ G) :
    |(((c0_dc0_ddc0_ddc1_dc1_c1.computeWwaypoints pi g T)[8]!).tailAt x k - ((c0_dc0_ddc0_ddc1_dc1_c1.exactW pi g T)[8]!).tailAt x k) * T ^ 2| ≤ 1e-12 * (M * M + T ^ 2 * (G * M)) := by
  rw [c0_dc0_ddc0_ddc1_dc1_c1.tailAt_diff_8 pi g x T hT k]
  have hMM : 0 ≤ M * M := by positivity
  have hGM : 0 ≤ T ^ 2 * (G * M) := by positivity
  rw [abs_le]
  constructor
  all_goals
    have := abs_le.mp (skew_bound (hp 6) hx k)
    have := abs_le.mp (skew_bound_T hT2 hg (hp 5) k)
    have := abs_le.mp (skew_bound_T hT2 hg (hp 6) k)
    norm_num at *
    linarith

theorem c0_dc0_ddc0_ddc1_dc1_c1.headAt_diff_9 (pi : ℕ → V3) (g x : V3) (T : ℝ) (hT : T ≠ 0) (k : Fin 3) :
    (((c0_dc0_ddc0_ddc1_dc1_c1.computeWwaypoints pi g T)[9]!).headAt x k - ((c0_dc0_ddc0_ddc1_dc1_c1.exactW pi g T)[9]!).headAt x k) * T ^ 2
      = 0 := by
  fin_cases k <;>
    simp [c0_dc0_ddc0_ddc1_dc1_c1.computeWwaypoints, c0_dc0_ddc0_ddc1_dc1_c1.exactW, Wp6.headAt, mulVec,
      dotProduct, Fin.sum_univ_three, skew, Matrix.one_apply] <;> field_simp <;> ring

theorem c0_dc0_ddc0_ddc1_dc1_c1.headAt_bound_9 (pi : ℕ → V3) (g x : V3) (T M G : ℝ) (hT : T ≠ 0) (k : Fin 3)
    (hp : ∀ i k, |pi i k| ≤ M) (hx : ∀ k, |x k| ≤ M) (hg : ∀ k, |g k| ≤ G) (hT2 : 0 ≤ T ^ 2) (hM : 0 ≤ M) :
    |(((c0_dc0_ddc0_ddc1_dc1_c1.computeWwaypoints pi g T)[9]!).headAt x k - ((c0_dc0_ddc0_ddc1_dc1_c1.exactW pi g T)[9]!).headAt x k) * T ^ 2| ≤ 1e-12 * M := by
  rw [c0_dc0_ddc0_ddc1_dc1_c1.headAt_diff_9 pi g x T hT k]
  rw [abs_zero]; positivity

theorem c0_dc0_ddc0_ddc1_dc1_c1.tailAt_diff_9 (pi : ℕ → V3) (g x : V3) (T : ℝ) (hT : T ≠ 0) (k : Fin 3) :
    (((c0_dc0_ddc0_ddc1_dc1_c1.computeWwaypoints pi g T)[9]!).tailAt x k - ((c0_dc0_ddc0_ddc1_dc1_c1.exactW pi g T)[9]!).tailAt x k) * T ^ 2
      = 0 := by
  fin_cases k <;>
    simp [c0_dc0_ddc0_ddc1_dc1_c1.computeWwaypoints, c0_dc0_ddc0_ddc1_dc1_c1.exactW, Wp6.tailAt, mulVec,
      dotProduct, Fin.sum_univ_three, skew, Matrix.one_apply] <;> field_simp <;> ring

theorem c0_dc0_ddc0_ddc1_dc1_c1.tailAt_bound_9 (pi : ℕ → V3) (g x : V3) (T M G : ℝ) (hT : T ≠ 0) (k : Fin 3)
    (hp : ∀ i k, |pi i k| ≤ M) (hx : ∀ k, |x k| ≤ M) (hg : ∀ k, |g k| ≤ G) (hT2 : 0 ≤ T ^ 2) (hM : 0 ≤ M) (hG : 0 ≤ G) :
    |(((c0_dc0_ddc0_ddc1_dc1_c1.computeWwaypoints pi g T)[9]!).tailAt x k - ((c0_dc0_ddc0_ddc1_dc1_c1.exactW pi g T)[9]!).tailAt x k) * T ^ 2| ≤ 1e-12 * (M * M + T ^ 2 * (G * M)) := by
  rw [c0_dc0_ddc0_ddc1_dc1_c1.tailAt_diff_9 pi g x T hT k]
  have hMM : 0 ≤ M * M := by positivity
  have hGM : 0 ≤ T ^ 2 * (G * M) := by positivity
  rw [abs_zero]; positivity

end Verif
