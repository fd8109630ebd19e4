import Verif.Lemmas.QuadFp
import Mathlib.Tactic.Positivity
import Mathlib.Tactic.Linarith
import Mathlib.Tactic.LinearCombination
import Mathlib.Algebra.Order.BigOperators.Ring.Finset
import Mathlib.Algebra.Order.Chebyshev

/-! Rounding errors of the QP solver. -/

namespace Verif

variable {n : ℕ}

namespace Arith

/-- Real numbers with rounding: every operation has a relative error at most `u`, and the vector operations of Eigen an error at
most `g` times the sum of the absolute values of the terms; `m` bounds the number of terms of the sum of violations. Contraction of a product and a sum into one operation is allowed.
Constants, changes of sign, absolute values and comparisons are exact. Nothing is asked of the triangular solver. Overflow and
underflow are excluded. -/
structure Rounded (o : Arith ℝ n) (m : ℕ) (u g : ℝ) : Prop where
  zero : o.zero = 0
  one : o.one = 1
  two : o.two = 2
  hundred : o.hundred = 100
  eps : 0 ≤ o.eps
  ofNat : ∀ k, o.ofNat k = k
  neg : ∀ a, o.neg a = -a
  abs : ∀ a, o.abs a = |a|
  sqrt : ∀ a, |o.sqrt a - Real.sqrt a| ≤ u * Real.sqrt a
  add : ∀ a b, |o.add a b - (a + b)| ≤ u * |a + b|
  sub : ∀ a b, |o.sub a b - (a - b)| ≤ u * |a - b|
  mul : ∀ a b, |o.mul a b - a * b| ≤ u * |a * b|
  div : ∀ a b, |o.div a b - a / b| ≤ u * |a / b|
  mulAdd : ∀ a b c, |o.mulAdd a b c - (a * b + c)| ≤ u * |a * b + c| + u * (1 + u) * |a * b|
  mulSub : ∀ a b c, |o.mulSub a b c - (a * b - c)| ≤ u * |a * b - c| + u * (1 + u) * |a * b|
  lin2 : ∀ a b c d, |o.lin2 a b c d - (a * b + c * d)| ≤ u * |a * b + c * d| + u * (1 + u) * (|a * b| + |c * d|)
  dot : ∀ a b, |o.dot a b - ∑ i, a i * b i| ≤ g * ∑ i, |a i * b i|
  gemvT : ∀ J v j, j < n → |o.gemvT J v j - ∑ i, J j i * v i| ≤ g * ∑ i, |J j i * v i|
  gemv : ∀ J d iq k, |o.gemv J d iq k - ∑ j ∈ Finset.Ico iq n, d j * J j k| ≤ g * ∑ j ∈ Finset.Ico iq n, |d j * J j k|
  slacks : ∀ CI x i, i < CI.length → |o.slacks CI x i - (∑ k, (CI.getD i (0, 0)).1 k * x k + (CI.getD i (0, 0)).2)| ≤
    g * (∑ k, |(CI.getD i (0, 0)).1 k * x k| + |(CI.getD i (0, 0)).2|)
  sumNeg : ∀ s k, k ≤ m → |o.sumNeg s k - ∑ i ∈ Finset.range k, min 0 (s i)| ≤ g * ∑ i ∈ Finset.range k, |min 0 (s i)|
  trace : ∀ d, |o.trace d - ∑ i, d i| ≤ g * ∑ i, |d i|
  lt : ∀ a b, o.lt a b ↔ a < b
  le : ∀ a b, o.le a b ↔ a ≤ b
  eq : ∀ a b, o.eq a b ↔ a = b
  ltInf : ∀ a, o.ltInf a
  geInf : ∀ a, ¬ o.geInf a

variable {o : Arith ℝ n} {m : ℕ} {u g : ℝ}

theorem Rounded.sane (h : o.Rounded m u g) : o.Sane := by
  refine ⟨?_, by rw [h.le, h.zero], fun a _ => (h.eq a a).mpr rfl⟩
  unfold far
  rw [h.lt, h.abs, h.zero]
  have h1 := h.dot (fun _ => 0) (fun _ => 0)
  simp only [mul_zero, Finset.sum_const_zero, abs_zero, sub_zero] at h1
  have h2 : |o.dot (fun _ => (0 : ℝ)) fun _ => 0| = 0 := le_antisymm h1 (abs_nonneg _)
  rw [h2]
  exact not_lt.mpr h.eps

theorem between_of_rel {u x r : ℝ} (h : |r - x| ≤ u * x) : (1 - u) * x ≤ r ∧ r ≤ (1 + u) * x := by
  obtain ⟨h1, h2⟩ := abs_le.mp h
  constructor <;> linarith

theorem sq_of_rel {u x r : ℝ} (hu0 : 0 ≤ u) (hu : u ≤ 1 / 1000) (hx : 0 ≤ x) (h : |r - x| ≤ u * x) :
    0 ≤ r ∧ (1 - 2 * u) * x ^ 2 ≤ r ^ 2 ∧ r ^ 2 ≤ (1 + 2.01 * u) * x ^ 2 := by
  obtain ⟨h1, h2⟩ := between_of_rel h
  have h0 : 0 ≤ (1 - u) * x := mul_nonneg (by linarith) hx
  have hr : 0 ≤ r := le_trans h0 h1
  have hx2 : 0 ≤ x ^ 2 := sq_nonneg x
  refine ⟨hr, ?_, ?_⟩
  · have e1 : 1 - 2 * u ≤ (1 - u) ^ 2 := by nlinarith
    calc (1 - 2 * u) * x ^ 2 ≤ (1 - u) ^ 2 * x ^ 2 := mul_le_mul_of_nonneg_right e1 hx2
      _ = ((1 - u) * x) ^ 2 := by ring
      _ ≤ r ^ 2 := pow_le_pow_left₀ h0 h1 2
  · have e1 : (1 + u) ^ 2 ≤ 1 + 2.01 * u := by nlinarith
    calc r ^ 2 ≤ ((1 + u) * x) ^ 2 := pow_le_pow_left₀ hr h2 2
      _ = (1 + u) ^ 2 * x ^ 2 := by ring
      _ ≤ (1 + 2.01 * u) * x ^ 2 := mul_le_mul_of_nonneg_right e1 hx2

theorem mulAdd_one_rel {u T0 T e : ℝ} (hu0 : 0 ≤ u) (hu : u ≤ 1 / 1000) (h0 : 0 ≤ T0) (h1 : (1 - 2 * u) * T0 ≤ T)
    (h2 : T ≤ (1 + 2.01 * u) * T0) (h : |e - (T + 1)| ≤ u * (T + 1) + u * (1 + u) * T) :
    0 ≤ e ∧ (1 - 5 * u) * (1 + T0) ≤ e ∧ e ≤ (1 + 5 * u) * (1 + T0) := by
  obtain ⟨h3, h4⟩ := abs_le.mp h
  have hT : 0 ≤ T := le_trans (mul_nonneg (by linarith) h0) h1
  have c1 : u * (1 + u) ≤ 1.001 * u := by nlinarith
  have c2 := mul_le_mul_of_nonneg_right c1 hT
  have l1 : (1 - 2.001 * u) * ((1 - 2 * u) * T0) ≤ (1 - 2.001 * u) * T := mul_le_mul_of_nonneg_left h1 (by linarith)
  have l2 : (1 + 2.001 * u) * T ≤ (1 + 2.001 * u) * ((1 + 2.01 * u) * T0) := mul_le_mul_of_nonneg_left h2 (by linarith)
  have l3 : (1 - 5 * u) * T0 ≤ (1 - 2.001 * u) * ((1 - 2 * u) * T0) := by
    rw [← mul_assoc]
    exact mul_le_mul_of_nonneg_right (by nlinarith) h0
  have l4 : (1 + 2.001 * u) * ((1 + 2.01 * u) * T0) ≤ (1 + 5 * u) * T0 := by
    rw [← mul_assoc]
    exact mul_le_mul_of_nonneg_right (by nlinarith) h0
  have k1 : (1 - 5 * u) * (1 + T0) ≤ e := by linarith
  exact ⟨le_trans (mul_nonneg (by linarith) (by linarith)) k1, k1, by linarith⟩

/-- `distance` computes the hypotenuse with a relative error. -/
theorem Rounded.dist_sq (h : o.Rounded m u g) (hu0 : 0 ≤ u) (hu : u ≤ 1 / 1000) (a b : ℝ) :
    0 ≤ o.dist a b ∧ (1 - 12 * u) * (a ^ 2 + b ^ 2) ≤ o.dist a b ^ 2 ∧ o.dist a b ^ 2 ≤ (1 + 12 * u) * (a ^ 2 + b ^ 2) := by
  classical
  have key : ∀ x y : ℝ, 0 ≤ y → y < x →
      0 ≤ o.mul x (o.sqrt (o.mulAdd (o.div y x) (o.div y x) o.one)) ∧
      (1 - 12 * u) * (x ^ 2 + y ^ 2) ≤ o.mul x (o.sqrt (o.mulAdd (o.div y x) (o.div y x) o.one)) ^ 2 ∧
      o.mul x (o.sqrt (o.mulAdd (o.div y x) (o.div y x) o.one)) ^ 2 ≤ (1 + 12 * u) * (x ^ 2 + y ^ 2) := by
    intro x y hy hx
    have hx0 : 0 < x := lt_of_le_of_lt hy hx
    have ht00 : 0 ≤ y / x := div_nonneg hy hx0.le
    have hd := h.div y x
    rw [abs_of_nonneg ht00] at hd
    have hxy : x ^ 2 + y ^ 2 = x ^ 2 * (1 + (y / x) ^ 2) := by field_simp
    rw [hxy, h.one]
    generalize y / x = t0 at hd ht00
    generalize o.div y x = t at hd
    obtain ⟨htn, ht1, ht2⟩ := sq_of_rel hu0 hu ht00 hd
    have hm := h.mulAdd t t 1
    have htt : 0 ≤ t * t := mul_self_nonneg t
    rw [abs_of_nonneg (by linarith : (0 : ℝ) ≤ t * t + 1), abs_of_nonneg htt] at hm
    generalize o.mulAdd t t 1 = e at hm
    rw [pow_two t] at ht1 ht2
    obtain ⟨he0, he1, he2⟩ := mulAdd_one_rel hu0 hu (sq_nonneg t0) ht1 ht2 hm
    have hs := h.sqrt e
    generalize o.sqrt e = r at hs
    obtain ⟨hr0, hr1, hr2⟩ := sq_of_rel hu0 hu (Real.sqrt_nonneg e) hs
    rw [Real.sq_sqrt he0] at hr1 hr2
    have hxr : 0 ≤ x * r := mul_nonneg hx0.le hr0
    have hp := h.mul x r
    rw [abs_of_nonneg hxr] at hp
    generalize o.mul x r = p at hp
    obtain ⟨hp0, hp1, hp2⟩ := sq_of_rel hu0 hu hxr hp
    rw [mul_pow] at hp1 hp2
    have hx2 : 0 ≤ x ^ 2 := sq_nonneg x
    have hy2 : 0 ≤ x ^ 2 * (1 + t0 ^ 2) := mul_nonneg hx2 (by nlinarith [sq_nonneg t0])
    have n1 : 0 ≤ 1 - 2 * u := by linarith
    have n2 : 0 ≤ 1 + 2.01 * u := by linarith
    refine ⟨hp0, ?_, ?_⟩
    · have c1 : 1 - 12 * u ≤ (1 - 2 * u) * (1 - 2 * u) * (1 - 5 * u) := by nlinarith [pow_two_nonneg u, pow_nonneg hu0 3]
      calc (1 - 12 * u) * (x ^ 2 * (1 + t0 ^ 2)) ≤ (1 - 2 * u) * (1 - 2 * u) * (1 - 5 * u) * (x ^ 2 * (1 + t0 ^ 2)) :=
            mul_le_mul_of_nonneg_right c1 hy2
        _ = (1 - 2 * u) * (x ^ 2 * ((1 - 2 * u) * ((1 - 5 * u) * (1 + t0 ^ 2)))) := by ring
        _ ≤ (1 - 2 * u) * (x ^ 2 * ((1 - 2 * u) * e)) := by gcongr
        _ ≤ (1 - 2 * u) * (x ^ 2 * r ^ 2) := by gcongr
        _ ≤ p ^ 2 := hp1
    · have c1 : (1 + 2.01 * u) * (1 + 2.01 * u) * (1 + 5 * u) ≤ 1 + 12 * u := by
        have e1 : (1 + 2.01 * u) * (1 + 2.01 * u) ≤ 1 + 4.1 * u := by nlinarith
        calc (1 + 2.01 * u) * (1 + 2.01 * u) * (1 + 5 * u) ≤ (1 + 4.1 * u) * (1 + 5 * u) :=
              mul_le_mul_of_nonneg_right e1 (by linarith)
          _ ≤ 1 + 12 * u := by nlinarith
      calc p ^ 2 ≤ (1 + 2.01 * u) * (x ^ 2 * r ^ 2) := hp2
        _ ≤ (1 + 2.01 * u) * (x ^ 2 * ((1 + 2.01 * u) * e)) := by gcongr
        _ ≤ (1 + 2.01 * u) * (x ^ 2 * ((1 + 2.01 * u) * ((1 + 5 * u) * (1 + t0 ^ 2)))) := by gcongr
        _ = (1 + 2.01 * u) * (1 + 2.01 * u) * (1 + 5 * u) * (x ^ 2 * (1 + t0 ^ 2)) := by ring
        _ ≤ (1 + 12 * u) * (x ^ 2 * (1 + t0 ^ 2)) := mul_le_mul_of_nonneg_right c1 hy2
  unfold dist
  dsimp only
  rw [h.abs, h.abs]
  by_cases h1 : |b| < |a|
  · rw [if_pos ((h.lt _ _).mpr h1)]
    simpa [sq_abs] using key |a| |b| (abs_nonneg b) h1
  · rw [if_neg (fun hh => h1 ((h.lt _ _).mp hh))]
    by_cases h2 : |a| < |b|
    · rw [if_pos ((h.lt _ _).mpr h2), add_comm (a ^ 2)]
      simpa [sq_abs] using key |b| |a| (abs_nonneg a) h2
    · rw [if_neg (fun hh => h2 ((h.lt _ _).mp hh)), h.two]
      have hab : |a| = |b| := le_antisymm (not_lt.mp h1) (not_lt.mp h2)
      have hb2 : b ^ 2 = a ^ 2 := by rw [← sq_abs b, ← hab, sq_abs]
      have hs := h.sqrt 2
      generalize o.sqrt 2 = r at hs
      obtain ⟨hr0, hr1, hr2⟩ := sq_of_rel hu0 hu (Real.sqrt_nonneg 2) hs
      rw [Real.sq_sqrt (by norm_num : (0 : ℝ) ≤ 2)] at hr1 hr2
      have hxr : 0 ≤ |a| * r := mul_nonneg (abs_nonneg _) hr0
      have hp := h.mul |a| r
      rw [abs_of_nonneg hxr] at hp
      generalize o.mul |a| r = p at hp
      obtain ⟨hp0, hp1, hp2⟩ := sq_of_rel hu0 hu hxr hp
      rw [mul_pow, sq_abs] at hp1 hp2
      have ha2 : 0 ≤ a ^ 2 := sq_nonneg a
      have n1 : 0 ≤ 1 - 2 * u := by linarith
      have n2 : 0 ≤ 1 + 2.01 * u := by linarith
      rw [hb2]
      refine ⟨hp0, ?_, ?_⟩
      · have c1 : 1 - 12 * u ≤ (1 - 2 * u) * (1 - 2 * u) := by nlinarith
        calc (1 - 12 * u) * (a ^ 2 + a ^ 2) ≤ (1 - 2 * u) * (1 - 2 * u) * (a ^ 2 + a ^ 2) :=
              mul_le_mul_of_nonneg_right c1 (by linarith)
          _ = (1 - 2 * u) * (a ^ 2 * ((1 - 2 * u) * 2)) := by ring
          _ ≤ (1 - 2 * u) * (a ^ 2 * r ^ 2) := by gcongr
          _ ≤ p ^ 2 := hp1
      · have c1 : (1 + 2.01 * u) * (1 + 2.01 * u) ≤ 1 + 12 * u := by nlinarith
        calc p ^ 2 ≤ (1 + 2.01 * u) * (a ^ 2 * r ^ 2) := hp2
          _ ≤ (1 + 2.01 * u) * (a ^ 2 * ((1 + 2.01 * u) * 2)) := by gcongr
          _ = (1 + 2.01 * u) * (1 + 2.01 * u) * (a ^ 2 + a ^ 2) := by ring
          _ ≤ (1 + 12 * u) * (a ^ 2 + a ^ 2) := mul_le_mul_of_nonneg_right c1 (by linarith)

/-- A quotient of rounded terms. -/
theorem sq_div_rel {u x y r : ℝ} (hu0 : 0 ≤ u) (hu : u ≤ 1 / 1000) (h : |r - x / y| ≤ u * |x / y|) :
    (1 - 2 * u) * (x ^ 2 / y ^ 2) ≤ r ^ 2 ∧ r ^ 2 ≤ (1 + 2.01 * u) * (x ^ 2 / y ^ 2) := by
  have h1 : |(|r| - |x / y|)| ≤ u * |x / y| := le_trans (abs_abs_sub_abs_le _ _) h
  obtain ⟨-, h2, h3⟩ := sq_of_rel hu0 hu (abs_nonneg _) h1
  rw [sq_abs, sq_abs, div_pow] at h2 h3
  exact ⟨h2, h3⟩

/-- The rotation coefficients. -/
theorem Rounded.givens_spec (h : o.Rounded m u g) (hu0 : 0 ≤ u) (hu : u ≤ 1 / 1000) {c s : ℝ} (hd : o.dist c s ≠ 0) :
    0 ≤ (o.givens c s).1 ∧ |(o.givens c s).1 ^ 2 + (o.givens c s).2.1 ^ 2 - 1| ≤ 16 * u ∧
      (o.givens c s).2.2 ^ 2 = o.dist c s ^ 2 := by
  classical
  obtain ⟨-, h1, h2⟩ := h.dist_sq hu0 hu c s
  have h3 := sq_div_rel hu0 hu (h.div c (o.dist c s))
  have h4 := sq_div_rel hu0 hu (h.div s (o.dist c s))
  have hp : 0 < o.dist c s ^ 2 := by positivity
  have key : |o.div c (o.dist c s) ^ 2 + o.div s (o.dist c s) ^ 2 - 1| ≤ 16 * u := by
    generalize o.dist c s = y at *
    generalize o.div c y = a at *
    generalize o.div s y = b at *
    have e : c ^ 2 / y ^ 2 + s ^ 2 / y ^ 2 = (c ^ 2 + s ^ 2) / y ^ 2 := by ring
    have hq1 : (c ^ 2 + s ^ 2) / y ^ 2 ≤ 1 + 13 * u := by
      rw [div_le_iff₀ hp]
      have : (1 : ℝ) ≤ (1 + 13 * u) * (1 - 12 * u) := by nlinarith
      calc c ^ 2 + s ^ 2 ≤ (1 + 13 * u) * (1 - 12 * u) * (c ^ 2 + s ^ 2) := le_mul_of_one_le_left (by positivity) this
        _ = (1 + 13 * u) * ((1 - 12 * u) * (c ^ 2 + s ^ 2)) := by ring
        _ ≤ (1 + 13 * u) * y ^ 2 := mul_le_mul_of_nonneg_left h1 (by linarith)
    have hq2 : 1 - 13 * u ≤ (c ^ 2 + s ^ 2) / y ^ 2 := by
      rw [le_div_iff₀ hp]
      have : (1 - 13 * u) * (1 + 12 * u) ≤ 1 := by nlinarith
      calc (1 - 13 * u) * y ^ 2 ≤ (1 - 13 * u) * ((1 + 12 * u) * (c ^ 2 + s ^ 2)) :=
            mul_le_mul_of_nonneg_left h2 (by linarith)
        _ = (1 - 13 * u) * (1 + 12 * u) * (c ^ 2 + s ^ 2) := by ring
        _ ≤ c ^ 2 + s ^ 2 := mul_le_of_le_one_left (by positivity) this
    rw [← e] at hq1 hq2
    generalize c ^ 2 / y ^ 2 = C at *
    generalize s ^ 2 / y ^ 2 = S at *
    rw [abs_le]
    constructor
    · have : (1 - 2 * u) * (1 - 13 * u) ≤ (1 - 2 * u) * (C + S) := mul_le_mul_of_nonneg_left hq2 (by linarith)
      nlinarith
    · have : (1 + 2.01 * u) * (C + S) ≤ (1 + 2.01 * u) * (1 + 13 * u) := mul_le_mul_of_nonneg_left hq1 (by linarith)
      nlinarith
  unfold givens
  dsimp only
  by_cases hlt : o.lt (o.div c (o.dist c s)) o.zero
  · rw [if_pos hlt]
    dsimp only
    rw [h.neg, h.neg, h.neg, neg_sq, neg_sq, neg_sq]
    have := (h.lt _ _).mp hlt
    rw [h.zero] at this
    exact ⟨by linarith, key, rfl⟩
  · rw [if_neg hlt]
    dsimp only
    have := mt (h.lt _ _).mpr hlt
    rw [h.zero, not_lt] at this
    exact ⟨this, key, rfl⟩

/-- Rounding of a quotient with a rounded denominator. -/
theorem div_add_rel {u s c p q : ℝ} (hu0 : 0 ≤ u) (hu : u ≤ 1 / 1000) (hc : 0 ≤ c) (hp : |p - (1 + c)| ≤ u * (1 + c))
    (hq : |q - s / p| ≤ u * |s / p|) : |q - s / (1 + c)| ≤ 2.1 * u * |s / (1 + c)| := by
  obtain ⟨h1, h2⟩ := between_of_rel hp
  have hc1 : 0 < 1 + c := by linarith
  have hp0 : 0 < p := lt_of_lt_of_le (mul_pos (by linarith) hc1) h1
  have e1 : s / p - s / (1 + c) = s / (1 + c) * ((1 + c - p) / p) := by field_simp
  have e2 : |(1 + c - p) / p| ≤ 1.01 * u := by
    rw [abs_div, abs_of_pos hp0, div_le_iff₀ hp0, abs_sub_comm]
    refine le_trans hp ?_
    have : 1 + c ≤ 1.01 * p := by nlinarith
    nlinarith
  have e3 : |s / p - s / (1 + c)| ≤ 1.01 * u * |s / (1 + c)| := by
    rw [e1, abs_mul, mul_comm]
    exact mul_le_mul_of_nonneg_right e2 (abs_nonneg _)
  have e4 : |s / p| ≤ (1 + 1.01 * u) * |s / (1 + c)| := by
    have := abs_sub_abs_le_abs_sub (s / p) (s / (1 + c))
    linarith
  calc |q - s / (1 + c)| ≤ |q - s / p| + |s / p - s / (1 + c)| := abs_sub_le _ _ _
    _ ≤ u * ((1 + 1.01 * u) * |s / (1 + c)|) + 1.01 * u * |s / (1 + c)| :=
      add_le_add (le_trans hq (mul_le_mul_of_nonneg_left e4 hu0)) e3
    _ = (u * (1 + 1.01 * u) + 1.01 * u) * |s / (1 + c)| := by ring
    _ ≤ 2.1 * u * |s / (1 + c)| := mul_le_mul_of_nonneg_right (by nlinarith) (abs_nonneg _)

theorem sq_close {a A e M : ℝ} (h : |a - A| ≤ e) (hA : |A| ≤ M) : a ^ 2 ≤ A ^ 2 + e * (2 * M + e) := by
  have k : a ^ 2 = A ^ 2 + (a - A) * (2 * A + (a - A)) := by ring
  have k1 : |2 * A + (a - A)| ≤ 2 * M + e := by
    refine le_trans (abs_add_le _ _) ?_
    rw [abs_mul, abs_two]
    linarith
  have k2 := le_trans (le_abs_self _) (le_trans (abs_mul (a - A) (2 * A + (a - A))).le
    (mul_le_mul h k1 (abs_nonneg _) (le_trans (abs_nonneg _) h)))
  rw [k]
  linarith

/-- Errors of the rotation, in real numbers. -/
theorem rot_err {u c s t1 t2 a q w b N : ℝ} (hu0 : 0 ≤ u) (hu : u ≤ 1 / 1000) (hc : 0 ≤ c)
    (hcs : |c ^ 2 + s ^ 2 - 1| ≤ 16 * u)
    (ha : |a - (t1 * c + t2 * s)| ≤ u * |t1 * c + t2 * s| + u * (1 + u) * (|t1 * c| + |t2 * s|))
    (hq : |q - s / (1 + c)| ≤ 2.1 * u * |s / (1 + c)|) (hw : |w - (t1 + a)| ≤ u * |t1 + a|)
    (hb : |b - (q * w - t2)| ≤ u * |q * w - t2| + u * (1 + u) * |q * w|) (hN0 : 0 ≤ N) (hN : N ^ 2 = t1 ^ 2 + t2 ^ 2) :
    |a - (t1 * c + t2 * s)| ≤ 4.1 * (u * N) ∧ |b - (s * t1 - c * t2)| ≤ 38 * (u * N) := by
  have ht1 : |t1| ≤ N := abs_le_of_sq_le_sq (by nlinarith [sq_nonneg t2]) hN0
  have ht2 : |t2| ≤ N := abs_le_of_sq_le_sq (by nlinarith [sq_nonneg t1]) hN0
  obtain ⟨hcs1, hcs2⟩ := abs_le.mp hcs
  have hc1 : |c| ≤ 1.01 := abs_le_of_sq_le_sq (by nlinarith [sq_nonneg s]) (by norm_num)
  have hs1 : |s| ≤ 1.01 := abs_le_of_sq_le_sq (by nlinarith [sq_nonneg c]) (by norm_num)
  have hc1' : 0 < 1 + c := by linarith
  have hx : |s / (1 + c)| ≤ 1.01 := by
    rw [abs_div, abs_of_pos hc1', div_le_iff₀ hc1']
    nlinarith
  have huN : 0 ≤ u * N := mul_nonneg hu0 hN0
  have huN' : u * N ≤ 1 / 1000 * N := mul_le_mul_of_nonneg_right hu hN0
  have m1 : |t1 * c| ≤ 1.01 * N := by
    rw [abs_mul, mul_comm]
    exact mul_le_mul hc1 ht1 (abs_nonneg _) (by norm_num)
  have m2 : |t2 * s| ≤ 1.01 * N := by
    rw [abs_mul, mul_comm]
    exact mul_le_mul hs1 ht2 (abs_nonneg _) (by norm_num)
  have mA : |t1 * c + t2 * s| ≤ 2.02 * N := le_trans (abs_add_le _ _) (by linarith)
  have cu : u * (1 + u) ≤ 1.001 * u := by nlinarith
  have eA : |a - (t1 * c + t2 * s)| ≤ 4.1 * (u * N) := by
    have k1 : u * |t1 * c + t2 * s| ≤ u * (2.02 * N) := mul_le_mul_of_nonneg_left mA hu0
    have k2 : u * (1 + u) * (|t1 * c| + |t2 * s|) ≤ 1.001 * u * (2.02 * N) :=
      mul_le_mul cu (by linarith) (by positivity) (by linarith)
    linarith
  have ma : |t1 + a| ≤ 3.1 * N := by
    have k1 : |t1 + a| ≤ |t1| + |a| := abs_add_le _ _
    have k2 := abs_sub_abs_le_abs_sub a (t1 * c + t2 * s)
    linarith
  have ew : |w - (t1 + (t1 * c + t2 * s))| ≤ 7.2 * (u * N) := by
    have k1 : u * |t1 + a| ≤ u * (3.1 * N) := mul_le_mul_of_nonneg_left ma hu0
    have k2 : |w - (t1 + (t1 * c + t2 * s))| ≤ |w - (t1 + a)| + |(t1 + a) - (t1 + (t1 * c + t2 * s))| := abs_sub_le _ _ _
    have k3 : (t1 + a) - (t1 + (t1 * c + t2 * s)) = a - (t1 * c + t2 * s) := by ring
    rw [k3] at k2
    linarith
  have mw : |w| ≤ 3.2 * N := by
    have k2 := abs_sub_abs_le_abs_sub w (t1 + a)
    have k1 : u * |t1 + a| ≤ u * (3.1 * N) := mul_le_mul_of_nonneg_left ma hu0
    linarith
  have eq' : |q - s / (1 + c)| ≤ 2.13 * u := by
    have : 2.1 * u * |s / (1 + c)| ≤ 2.1 * u * 1.01 := mul_le_mul_of_nonneg_left hx (by linarith)
    linarith
  have mq : |q| ≤ 1.02 := by
    have := abs_sub_abs_le_abs_sub q (s / (1 + c))
    linarith
  have mqw : |q * w| ≤ 3.3 * N := by
    rw [abs_mul]
    have : |q| * |w| ≤ 1.02 * (3.2 * N) := mul_le_mul mq mw (abs_nonneg _) (by norm_num)
    linarith
  have mqt : |q * w - t2| ≤ 4.3 * N := le_trans (abs_sub _ _) (by linarith)
  have eb : |b - (q * w - t2)| ≤ 7.7 * (u * N) := by
    have k1 : u * |q * w - t2| ≤ u * (4.3 * N) := mul_le_mul_of_nonneg_left mqt hu0
    have k2 : u * (1 + u) * |q * w| ≤ 1.001 * u * (3.3 * N) := mul_le_mul cu mqw (abs_nonneg _) (by linarith)
    linarith
  have eqw : |q * w - s / (1 + c) * (t1 + (t1 * c + t2 * s))| ≤ 14.2 * (u * N) := by
    have k : q * w - s / (1 + c) * (t1 + (t1 * c + t2 * s)) =
        (q - s / (1 + c)) * w + s / (1 + c) * (w - (t1 + (t1 * c + t2 * s))) := by ring
    rw [k]
    refine le_trans (abs_add_le _ _) ?_
    rw [abs_mul, abs_mul]
    have k1 : |q - s / (1 + c)| * |w| ≤ 2.13 * u * (3.2 * N) := mul_le_mul eq' mw (abs_nonneg _) (by linarith)
    have k2 : |s / (1 + c)| * |w - (t1 + (t1 * c + t2 * s))| ≤ 1.01 * (7.2 * (u * N)) :=
      mul_le_mul hx ew (abs_nonneg _) (by norm_num)
    linarith
  have ex : s / (1 + c) * (t1 + (t1 * c + t2 * s)) - t2 - (s * t1 - c * t2) = t2 * ((c ^ 2 + s ^ 2 - 1) / (1 + c)) := by
    field_simp
    ring
  have ee : |(c ^ 2 + s ^ 2 - 1) / (1 + c)| ≤ 16 * u := by
    rw [abs_div, abs_of_pos hc1', div_le_iff₀ hc1']
    nlinarith
  have eB : |b - (s * t1 - c * t2)| ≤ 38 * (u * N) := by
    have k1 : |t2 * ((c ^ 2 + s ^ 2 - 1) / (1 + c))| ≤ N * (16 * u) := by
      rw [abs_mul]
      exact mul_le_mul ht2 ee (abs_nonneg _) hN0
    have k : b - (s * t1 - c * t2) = (b - (q * w - t2)) + (q * w - s / (1 + c) * (t1 + (t1 * c + t2 * s))) +
        (s / (1 + c) * (t1 + (t1 * c + t2 * s)) - t2 - (s * t1 - c * t2)) := by ring
    rw [k, ex]
    refine le_trans (abs_add_le _ _) ?_
    have k2 := abs_add_le (b - (q * w - t2)) (q * w - s / (1 + c) * (t1 + (t1 * c + t2 * s)))
    linarith
  exact ⟨eA, eB⟩

theorem rot_real {u c s t1 t2 a q w b : ℝ} (hu0 : 0 ≤ u) (hu : u ≤ 1 / 1000) (hc : 0 ≤ c)
    (hcs : |c ^ 2 + s ^ 2 - 1| ≤ 16 * u)
    (ha : |a - (t1 * c + t2 * s)| ≤ u * |t1 * c + t2 * s| + u * (1 + u) * (|t1 * c| + |t2 * s|))
    (hq : |q - s / (1 + c)| ≤ 2.1 * u * |s / (1 + c)|) (hw : |w - (t1 + a)| ≤ u * |t1 + a|)
    (hb : |b - (q * w - t2)| ≤ u * |q * w - t2| + u * (1 + u) * |q * w|) :
    a ^ 2 + b ^ 2 ≤ (1 + 120 * u) * (t1 ^ 2 + t2 ^ 2) := by
  obtain ⟨N, hN0, hN⟩ : ∃ N : ℝ, 0 ≤ N ∧ N ^ 2 = t1 ^ 2 + t2 ^ 2 :=
    ⟨Real.sqrt (t1 ^ 2 + t2 ^ 2), Real.sqrt_nonneg _, Real.sq_sqrt (by positivity)⟩
  obtain ⟨eA, eB⟩ := rot_err hu0 hu hc hcs ha hq hw hb hN0 hN
  obtain ⟨hcs1, hcs2⟩ := abs_le.mp hcs
  have hAB : (t1 * c + t2 * s) ^ 2 + (s * t1 - c * t2) ^ 2 = (c ^ 2 + s ^ 2) * N ^ 2 := by rw [hN]; ring
  have mA' : |t1 * c + t2 * s| ≤ 1.01 * N := by
    refine abs_le_of_sq_le_sq ?_ (by linarith)
    nlinarith [sq_nonneg (s * t1 - c * t2), sq_nonneg N]
  have mB' : |s * t1 - c * t2| ≤ 1.01 * N := by
    refine abs_le_of_sq_le_sq ?_ (by linarith)
    nlinarith [sq_nonneg (t1 * c + t2 * s), sq_nonneg N]
  have k3 : 0 ≤ u * N ^ 2 := by positivity
  have k4 : u * (u * N ^ 2) ≤ 1 / 1000 * (u * N ^ 2) := mul_le_mul_of_nonneg_right hu k3
  have sa := sq_close eA mA'
  have sb := sq_close eB mB'
  have hN2 : 0 ≤ N ^ 2 := sq_nonneg N
  have : (c ^ 2 + s ^ 2) * N ^ 2 ≤ (1 + 16 * u) * N ^ 2 := mul_le_mul_of_nonneg_right (by linarith) hN2
  rw [← hN]
  linarith

/-- One rotation. -/
theorem Rounded.rot_sq (h : o.Rounded m u g) (hu0 : 0 ≤ u) (hu : u ≤ 1 / 1000) {c s : ℝ} (hc : 0 ≤ c)
    (hcs : |c ^ 2 + s ^ 2 - 1| ≤ 16 * u) (t1 t2 : ℝ) :
    o.rotFst c s t1 t2 ^ 2 + o.rotSnd c s t1 t2 ^ 2 ≤ (1 + 120 * u) * (t1 ^ 2 + t2 ^ 2) := by
  have h1 := h.add 1 c
  rw [abs_of_nonneg (by linarith : (0 : ℝ) ≤ 1 + c)] at h1
  unfold rotSnd
  rw [h.one]
  exact rot_real hu0 hu hc hcs (h.lin2 _ _ _ _) (div_add_rel hu0 hu hc h1 (h.div _ _)) (h.add _ _) (h.mulSub _ _ _)

theorem Rounded.rot_sq' (h : o.Rounded m u g) (hu0 : 0 ≤ u) (hu : u ≤ 1 / 1000) {c s : ℝ} (hc : 0 ≤ c)
    (hcs : |c ^ 2 + s ^ 2 - 1| ≤ 16 * u) (t1 t2 : ℝ) :
    o.rotFst c s t1 t2 ^ 2 + o.rotSnd' c s t1 t2 ^ 2 ≤ (1 + 120 * u) * (t1 ^ 2 + t2 ^ 2) := by
  have h1 := h.add 1 c
  rw [abs_of_nonneg (by linarith : (0 : ℝ) ≤ 1 + c)] at h1
  have h2 := h.add (o.rotFst c s t1 t2) t1
  rw [add_comm (o.rotFst c s t1 t2) t1] at h2
  unfold rotSnd'
  rw [h.one]
  exact rot_real hu0 hu hc hcs (h.lin2 _ _ _ _) (div_add_rel hu0 hu hc h1 (h.div _ _)) h2 (h.mulSub _ _ _)

end Arith

end Verif
