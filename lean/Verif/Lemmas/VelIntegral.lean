import Mathlib.MeasureTheory.Integral.IntervalIntegral.FundThmCalculus
import Mathlib.Analysis.SpecialFunctions.Integrals.Basic
import Verif.BezLemmas

/-!
# The integral of a squared Bernstein sum
-/

namespace Verif
open Finset

theorem integral_pow_mul_pow (a b : ℕ) :
    ∫ t in (0 : ℝ)..1, t ^ a * (1 - t) ^ b = (a.factorial * b.factorial : ℝ) / (a + b + 1).factorial := by
  induction b generalizing a with
  | zero =>
    simp [integral_pow, Nat.factorial_succ]
    field_simp
  | succ b ih =>
    have hd : ∀ t ∈ Set.uIcc (0 : ℝ) 1, HasDerivAt (fun t : ℝ => t ^ (a + 1) * (1 - t) ^ (b + 1))
        ((a + 1 : ℝ) * (t ^ a * (1 - t) ^ (b + 1)) - (b + 1 : ℝ) * (t ^ (a + 1) * (1 - t) ^ b)) t := by
      intro t _
      have h1 := (hasDerivAt_id t).pow (a + 1)
      have h2 := ((hasDerivAt_const t (1 : ℝ)).sub (hasDerivAt_id t)).pow (b + 1)
      refine (h1.mul h2).congr_deriv ?_
      simp
      ring
    have hi : IntervalIntegrable (fun t : ℝ => (a + 1 : ℝ) * (t ^ a * (1 - t) ^ (b + 1)) - (b + 1 : ℝ) * (t ^ (a + 1) * (1 - t) ^ b))
        MeasureTheory.volume 0 1 := Continuous.intervalIntegrable (by fun_prop) _ _
    have h := intervalIntegral.integral_eq_sub_of_hasDerivAt hd hi
    rw [intervalIntegral.integral_sub (Continuous.intervalIntegrable (by fun_prop) _ _)
      (Continuous.intervalIntegrable (by fun_prop) _ _), intervalIntegral.integral_const_mul,
      intervalIntegral.integral_const_mul, ih] at h
    simp at h
    have e1 : (((a + 1 : ℕ).factorial : ℕ) : ℝ) = (a + 1) * a.factorial := by rw [Nat.factorial_succ]; push_cast; ring
    have e2 : (((b + 1 : ℕ).factorial : ℕ) : ℝ) = (b + 1) * b.factorial := by rw [Nat.factorial_succ]; push_cast; ring
    have e3 : a + 1 + b + 1 = a + (b + 1) + 1 := by ring
    rw [e1, e3] at h
    rw [e2]
    have ha : (a + 1 : ℝ) ≠ 0 := by positivity
    have := mul_left_cancel₀ ha (show (a + 1 : ℝ) * (∫ t in (0 : ℝ)..1, t ^ a * (1 - t) ^ (b + 1))
      = (a + 1) * (a.factorial * ((b + 1) * b.factorial) / (a + (b + 1) + 1).factorial) by
        rw [sub_eq_zero.mp h]; ring)
    exact this

/-- The integral of the product of two Bernstein polynomials of degree `m`. -/
noncomputable def bernProd (m i j : ℕ) : ℝ :=
  (m.choose i * m.choose j : ℝ) * ((i + j).factorial * (m - i + (m - j)).factorial) / (2 * m + 1).factorial

theorem integral_bez_sq (m : ℕ) (p : ℕ → ℝ) :
    ∫ t in (0 : ℝ)..1, bez m p t ^ 2 = ∑ i ∈ range (m + 1), ∑ j ∈ range (m + 1), bernProd m i j * (p i * p j) := by
  have e : ∀ t : ℝ, bez m p t ^ 2 = ∑ i ∈ range (m + 1), ∑ j ∈ range (m + 1),
      (m.choose i * m.choose j * (p i * p j) : ℝ) * (t ^ (i + j) * (1 - t) ^ (m - i + (m - j))) := by
    intro t
    rw [sq]
    unfold bez
    rw [sum_mul_sum]
    refine sum_congr rfl fun i _ => sum_congr rfl fun j _ => ?_
    simp only [smul_eq_mul]
    ring
  simp only [e]
  rw [intervalIntegral.integral_finset_sum fun i _ => Continuous.intervalIntegrable (by fun_prop) _ _]
  refine sum_congr rfl fun i hi => ?_
  rw [intervalIntegral.integral_finset_sum fun j _ => Continuous.intervalIntegrable (by fun_prop) _ _]
  refine sum_congr rfl fun j hj => ?_
  rw [intervalIntegral.integral_const_mul, integral_pow_mul_pow]
  have hi := mem_range.mp hi
  have hj := mem_range.mp hj
  rw [show i + j + (m - i + (m - j)) + 1 = 2 * m + 1 by omega]
  unfold bernProd
  ring

/-- The integral over the duration of a curve. -/
theorem integral_curve_sq (m : ℕ) (p : ℕ → ℝ) (T : ℝ) (hT : 0 < T) :
    ∫ t in (0 : ℝ)..T, bez m p (t / T) ^ 2
      = T * ∑ i ∈ range (m + 1), ∑ j ∈ range (m + 1), bernProd m i j * (p i * p j) := by
  rw [← integral_bez_sq, intervalIntegral.integral_comp_div (fun t => bez m p t ^ 2) hT.ne', zero_div, div_self hT.ne',
    smul_eq_mul]

end Verif
