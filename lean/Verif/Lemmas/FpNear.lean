import Verif.Model.OneStepFp
import Mathlib.Analysis.SpecialFunctions.Pow.Real
import Mathlib.Tactic.Positivity
import Mathlib.Tactic.Linarith
import Mathlib.Tactic.GCongr

/-!
# Errors of the order of the rounding unit

`Ev P`: for small rounding units `u`, `P u` holds with a bound `C u`. `CloseTo R x`: the numbers that `R u` allows are at a
distance at most `C u` of `x`.
-/

namespace Verif
open FExp

/-- `P u (C u)` holds for some `C` and every small enough `u`. -/
def Ev (P : ℝ → ℝ → Prop) : Prop := ∃ C u0, 0 ≤ C ∧ 0 < u0 ∧ ∀ u, 0 ≤ u → u ≤ u0 → P u (C * u)

/-- The numbers allowed by `R u` are at a distance of the order of `u` from `x`. -/
def CloseTo (R : ℝ → ℝ → Prop) (x : ℝ) : Prop := Ev fun u ε => ∀ r, R u r → |r - x| ≤ ε

theorem Ev.and {P Q : ℝ → ℝ → Prop} (hP : Ev P) (hQ : Ev Q) (mP : ∀ u ε ε', P u ε → ε ≤ ε' → P u ε')
    (mQ : ∀ u ε ε', Q u ε → ε ≤ ε' → Q u ε') : Ev fun u ε => P u ε ∧ Q u ε := by
  obtain ⟨C, u0, hC, hu, h⟩ := hP
  obtain ⟨C', u0', hC', hu', h'⟩ := hQ
  refine ⟨C + C', min u0 u0', by positivity, lt_min hu hu', fun u h0 h1 => ⟨?_, ?_⟩⟩
  · exact mP _ _ _ (h u h0 (h1.trans (min_le_left _ _))) (by nlinarith)
  · exact mQ _ _ _ (h' u h0 (h1.trans (min_le_right _ _))) (by nlinarith)

theorem Ev.forall_list {α : Type*} (l : List α) {P : α → ℝ → ℝ → Prop} (hP : ∀ a ∈ l, Ev (P a))
    (mP : ∀ a ∈ l, ∀ u ε ε', P a u ε → ε ≤ ε' → P a u ε') : Ev fun u ε => ∀ a ∈ l, P a u ε := by
  induction l with
  | nil => exact ⟨0, 1, le_rfl, one_pos, fun u _ _ a ha => by simp at ha⟩
  | cons a l ih =>
    have := (hP a List.mem_cons_self).and (ih (fun b hb => hP b (List.mem_cons_of_mem _ hb)) fun b hb => mP b (List.mem_cons_of_mem _ hb))
      (mP a List.mem_cons_self) fun u ε ε' h hle b hb => mP b (List.mem_cons_of_mem _ hb) _ _ _ (h b hb) hle
    obtain ⟨C, u0, hC, hu, h⟩ := this
    refine ⟨C, u0, hC, hu, fun u h0 h1 b hb => ?_⟩
    rcases List.mem_cons.mp hb with rfl | hb
    · exact (h u h0 h1).1
    · exact (h u h0 h1).2 b hb

theorem Ev.forall_fin {n : ℕ} {P : Fin n → ℝ → ℝ → Prop} (hP : ∀ a, Ev (P a))
    (mP : ∀ a u ε ε', P a u ε → ε ≤ ε' → P a u ε') : Ev fun u ε => ∀ a, P a u ε := by
  obtain ⟨C, u0, hC, hu, h⟩ := Ev.forall_list (List.finRange n) (fun a _ => hP a) fun a _ => mP a
  exact ⟨C, u0, hC, hu, fun u h0 h1 a => h u h0 h1 a (List.mem_finRange a)⟩

theorem Ev.forall_lt {n : ℕ} {P : ℕ → ℝ → ℝ → Prop} (hP : ∀ a < n, Ev (P a))
    (mP : ∀ a < n, ∀ u ε ε', P a u ε → ε ≤ ε' → P a u ε') : Ev fun u ε => ∀ a < n, P a u ε := by
  obtain ⟨C, u0, hC, hu, h⟩ := Ev.forall_list (List.range n) (fun a ha => hP a (List.mem_range.mp ha)) fun a ha => mP a (List.mem_range.mp ha)
  exact ⟨C, u0, hC, hu, fun u h0 h1 a ha => h u h0 h1 a (List.mem_range.mpr ha)⟩

/-- Consequences: `Q` follows from `P` with a bound multiplied by a constant. -/
theorem Ev.imp {P Q : ℝ → ℝ → Prop} (hP : Ev P) (K : ℝ) (hK : 0 ≤ K) (h : ∀ u ε, 0 ≤ u → 0 ≤ ε → P u ε → Q u (K * ε)) : Ev Q := by
  obtain ⟨C, u0, hC, hu, h'⟩ := hP
  refine ⟨K * C, u0, by positivity, hu, fun u h0 h1 => ?_⟩
  rw [mul_assoc]
  exact h _ _ h0 (by positivity) (h' u h0 h1)

/-- The same for `u` at most one and a bound at most one. -/
theorem Ev.imp_small {P Q : ℝ → ℝ → Prop} (hP : Ev P) (K : ℝ) (hK : 0 ≤ K) {s : ℝ} (hs : 0 < s)
    (h : ∀ u ε, 0 ≤ u → u ≤ s → u ≤ ε → ε ≤ s → P u ε → Q u (K * ε)) (mP : ∀ u ε ε', P u ε → ε ≤ ε' → P u ε') : Ev Q := by
  obtain ⟨C, u0, hC, hu, h'⟩ := hP
  refine ⟨K * (C + 1), min u0 (s / (C + 1)), by positivity, lt_min hu (by positivity), fun u h0 h1 => ?_⟩
  have h2 : u ≤ s / (C + 1) := h1.trans (min_le_right _ _)
  have h3 : u * (C + 1) ≤ s := by rwa [le_div_iff₀ (by positivity)] at h2
  rw [mul_assoc]
  exact h _ _ h0 (by nlinarith) (by nlinarith) (by nlinarith) (mP _ _ _ (h' u h0 (h1.trans (min_le_left _ _))) (by nlinarith))

theorem near_mono (R : ℝ → ℝ → Prop) (x : ℝ) : ∀ u ε ε', (∀ r, R u r → |r - x| ≤ ε) → ε ≤ ε' → ∀ r, R u r → |r - x| ≤ ε' :=
  fun _ _ _ h hle r hr => (h r hr).trans hle

theorem CloseTo.sub {R R' : ℝ → ℝ → Prop} {x : ℝ} (h : CloseTo R x) (hR : ∀ u r, 0 ≤ u → R' u r → R u r) : CloseTo R' x := by
  obtain ⟨C, u0, hC, hu, h⟩ := h
  exact ⟨C, u0, hC, hu, fun u h0 h1 r hr => h u h0 h1 r (hR u r h0 hr)⟩

theorem near_exact (x : ℝ) : CloseTo (fun _ r => r = x) x :=
  ⟨0, 1, le_rfl, one_pos, fun u _ _ r hr => by simp [hr]⟩

/-- Two numbers at a time. -/
theorem CloseTo.both {R S : ℝ → ℝ → Prop} {x y : ℝ} (hR : CloseTo R x) (hS : CloseTo S y) :
    Ev fun u ε => (∀ r, R u r → |r - x| ≤ ε) ∧ ∀ r, S u r → |r - y| ≤ ε :=
  Ev.and hR hS (near_mono R x) (near_mono S y)

theorem both_mono (R S : ℝ → ℝ → Prop) (x y : ℝ) : ∀ u ε ε', ((∀ r, R u r → |r - x| ≤ ε) ∧ ∀ r, S u r → |r - y| ≤ ε) → ε ≤ ε' →
    (∀ r, R u r → |r - x| ≤ ε') ∧ ∀ r, S u r → |r - y| ≤ ε' :=
  fun _ _ _ h hle => ⟨fun r hr => (h.1 r hr).trans hle, fun r hr => (h.2 r hr).trans hle⟩

theorem CloseTo.add {R S : ℝ → ℝ → Prop} {x y : ℝ} (hR : CloseTo R x) (hS : CloseTo S y) :
    CloseTo (fun u r => ∃ a b, R u a ∧ S u b ∧ r = a + b) (x + y) := by
  refine (hR.both hS).imp 2 (by norm_num) fun u ε _ _ h r ⟨a, b, ha, hb, hr⟩ => ?_
  have h1 := h.1 a ha
  have h2 := h.2 b hb
  rw [hr, show a + b - (x + y) = (a - x) + (b - y) by ring]
  exact (abs_add_le _ _).trans (by linarith)

theorem CloseTo.neg {R : ℝ → ℝ → Prop} {x : ℝ} (hR : CloseTo R x) : CloseTo (fun u r => ∃ a, R u a ∧ r = -a) (-x) := by
  refine Ev.imp hR 1 zero_le_one fun u ε _ _ h r ⟨a, ha, hr⟩ => ?_
  rw [hr, show -a - -x = -(a - x) by ring, abs_neg, one_mul]
  exact h a ha

theorem CloseTo.sub' {R S : ℝ → ℝ → Prop} {x y : ℝ} (hR : CloseTo R x) (hS : CloseTo S y) :
    CloseTo (fun u r => ∃ a b, R u a ∧ S u b ∧ r = a - b) (x - y) := by
  refine (hR.both hS).imp 2 (by norm_num) fun u ε _ _ h r ⟨a, b, ha, hb, hr⟩ => ?_
  have h1 := h.1 a ha
  have h2 := h.2 b hb
  rw [hr, show a - b - (x - y) = (a - x) - (b - y) by ring]
  exact (abs_sub _ _).trans (by linarith)

theorem CloseTo.mul {R S : ℝ → ℝ → Prop} {x y : ℝ} (hR : CloseTo R x) (hS : CloseTo S y) :
    CloseTo (fun u r => ∃ a b, R u a ∧ S u b ∧ r = a * b) (x * y) := by
  refine (hR.both hS).imp_small (|x| + |y| + 1) (by positivity) one_pos (fun u ε _ _ hu hs h r ⟨a, b, ha, hb, hr⟩ => ?_) (both_mono R S x y)
  have h1 := h.1 a ha
  have h2 := h.2 b hb
  have hε : 0 ≤ ε := (abs_nonneg _).trans h1
  rw [hr, show a * b - x * y = (a - x) * (b - y) + (a - x) * y + x * (b - y) by ring]
  refine (abs_add_three _ _ _).trans ?_
  rw [abs_mul, abs_mul, abs_mul]
  have e1 : |a - x| * |b - y| ≤ ε * 1 := mul_le_mul h1 (h2.trans hs) (abs_nonneg _) hε
  have e2 : |a - x| * |y| ≤ ε * |y| := mul_le_mul_of_nonneg_right h1 (abs_nonneg _)
  have e3 : |x| * |b - y| ≤ |x| * ε := mul_le_mul_of_nonneg_left h2 (abs_nonneg _)
  nlinarith

theorem CloseTo.inv {R : ℝ → ℝ → Prop} {x : ℝ} (hR : CloseTo R x) (hx : x ≠ 0) : CloseTo (fun u r => ∃ a, R u a ∧ r = a⁻¹) x⁻¹ := by
  have hp : 0 < |x| := abs_pos.mpr hx
  refine Ev.imp_small hR (2 / |x| ^ 2) (by positivity) (s := |x| / 2) (by positivity) (fun u ε _ _ hu hs h r ⟨a, ha, hr⟩ => ?_) (near_mono R x)
  have h1 := h a ha
  have hε : 0 ≤ ε := (abs_nonneg _).trans h1
  have ha2 : |x| / 2 ≤ |a| := by
    have := abs_sub_abs_le_abs_sub x a
    rw [abs_sub_comm] at this
    linarith
  have ha0 : 0 < |a| := lt_of_lt_of_le (by positivity) ha2
  have hane : a ≠ 0 := abs_pos.mp ha0
  rw [hr, show a⁻¹ - x⁻¹ = -((a - x) / (a * x)) by field_simp; ring, abs_neg, abs_div, abs_mul, div_le_iff₀ (by positivity)]
  have : 2 / |x| ^ 2 * ε * (|x| / 2 * |x|) ≤ 2 / |x| ^ 2 * ε * (|a| * |x|) := by gcongr
  refine h1.trans (le_trans (le_of_eq ?_) this)
  field_simp

theorem CloseTo.div {R S : ℝ → ℝ → Prop} {x y : ℝ} (hR : CloseTo R x) (hS : CloseTo S y) (hy : y ≠ 0) :
    CloseTo (fun u r => ∃ a b, R u a ∧ S u b ∧ r = a / b) (x / y) := by
  rw [div_eq_mul_inv]
  refine (hR.mul (hS.inv hy)).sub fun u r _ ⟨a, b, ha, hb, hr⟩ => ⟨a, b⁻¹, ha, ⟨b, hb, rfl⟩, by rw [hr, div_eq_mul_inv]⟩

theorem pow_one_add_le (k : ℕ) {u : ℝ} (h0 : 0 ≤ u) (h1 : u ≤ 1) : (1 + u) ^ k - 1 ≤ 2 ^ k * u := by
  have key : (1 + u) ^ k - 1 ≤ (2 ^ k - 1) * u := by
    induction k with
    | zero => simp
    | succ k ih =>
      have h2 : (1 : ℝ) ≤ 2 ^ k := one_le_pow₀ (by norm_num)
      have h3 : (1 + u) ^ k * (1 + u) ≤ ((2 ^ k - 1) * u + 1) * (1 + u) := mul_le_mul_of_nonneg_right (by linarith) (by linarith)
      have h4 : (2 ^ k - 1) * u * u ≤ (2 ^ k - 1) * u * 1 := mul_le_mul_of_nonneg_left h1 (mul_nonneg (by linarith) h0)
      rw [pow_succ, pow_succ]
      nlinarith
  linarith

theorem pow_one_add_nonneg (k : ℕ) {u : ℝ} (h0 : 0 ≤ u) : 0 ≤ (1 + u) ^ k - 1 := by
  have : (1 : ℝ) ≤ (1 + u) ^ k := one_le_pow₀ (by linarith)
  linarith

theorem CloseTo.rel {R : ℝ → ℝ → Prop} {x : ℝ} (hR : CloseTo R x) (k : ℕ) : CloseTo (fun u r => ∃ a, R u a ∧ RelTo k u a r) x := by
  refine Ev.imp_small hR (1 + 2 ^ k * (|x| + 1)) (by positivity) one_pos (fun u ε hu0 hu1 hu hs h r ⟨a, ha, hr⟩ => ?_) (near_mono R x)
  have h1 := h a ha
  have hε : 0 ≤ ε := (abs_nonneg _).trans h1
  have h2 : |a| ≤ |x| + 1 := by
    have := abs_sub_abs_le_abs_sub a x
    linarith
  unfold RelTo at hr
  have h3 : ((1 + u) ^ k - 1) * |a| ≤ 2 ^ k * ε * (|x| + 1) :=
    mul_le_mul ((pow_one_add_le k hu0 hu1).trans (by gcongr)) h2 (abs_nonneg _) (by positivity)
  rw [show r - x = (r - a) + (a - x) by ring]
  refine (abs_add_le _ _).trans ?_
  nlinarith

theorem roundsTo_rel {u x r : ℝ} (h : RoundsTo u x r) : RelTo 1 u x r := by
  unfold RelTo RoundsTo at *
  simpa using h

theorem CloseTo.round {R : ℝ → ℝ → Prop} {x : ℝ} (hR : CloseTo R x) : CloseTo (fun u r => ∃ a, R u a ∧ RoundsTo u a r) x :=
  (hR.rel 1).sub fun _ _ _ ⟨a, ha, hr⟩ => ⟨a, ha, roundsTo_rel hr⟩

theorem near_sqrt {R : ℝ → ℝ → Prop} {x : ℝ} (hR : CloseTo R x) (hx : 0 < x) : CloseTo (fun u r => ∃ a, R u a ∧ r = Real.sqrt a) (Real.sqrt x) := by
  have hs : 0 < Real.sqrt x := Real.sqrt_pos.mpr hx
  refine Ev.imp hR (1 / Real.sqrt x) (by positivity) fun u ε _ _ h r ⟨a, ha, hr⟩ => ?_
  have h1 := h a ha
  rw [hr, div_mul_eq_mul_div, one_mul, le_div_iff₀ hs]
  rcases le_total 0 a with h0 | h0
  · have e : (Real.sqrt a - Real.sqrt x) * (Real.sqrt a + Real.sqrt x) = a - x := by
      have := Real.sq_sqrt h0
      have := Real.sq_sqrt hx.le
      nlinarith
    have e2 : |Real.sqrt a - Real.sqrt x| * (Real.sqrt a + Real.sqrt x) = |a - x| := by
      rw [← e, abs_mul, abs_of_nonneg (add_nonneg (Real.sqrt_nonneg a) hs.le)]
    have := mul_nonneg (abs_nonneg (Real.sqrt a - Real.sqrt x)) (Real.sqrt_nonneg a)
    linarith
  · rw [Real.sqrt_eq_zero_of_nonpos h0, zero_sub, abs_neg, abs_of_pos hs, ← pow_two, Real.sq_sqrt hx.le]
    rw [abs_of_nonpos (by linarith)] at h1
    linarith

theorem near_min {R : ℝ → ℝ → Prop} {x c : ℝ} (hR : CloseTo R x) : CloseTo (fun u r => ∃ a, R u a ∧ r = min a c) (min x c) := by
  refine Ev.imp hR 1 zero_le_one fun u ε _ _ h r ⟨a, ha, hr⟩ => ?_
  rw [hr, one_mul]
  exact (abs_min_sub_min_le_max a c x c).trans (max_le (h a ha) (by simpa using (abs_nonneg _).trans (h a ha)))

theorem near_sum (k : ℕ) {n : ℕ} {R : Fin n → ℝ → ℝ → Prop} {x : Fin n → ℝ} (hR : ∀ i, CloseTo (R i) (x i)) :
    CloseTo (fun u r => ∃ a : Fin n → ℝ, (∀ i, R i u (a i)) ∧ SumTo k u a r) (∑ i, x i) := by
  have hall : Ev fun u ε => ∀ i, ∀ r, R i u r → |r - x i| ≤ ε := Ev.forall_fin hR fun i => near_mono (R i) (x i)
  refine Ev.imp_small hall (n + 2 ^ k * (∑ i, (|x i| + 1))) (by positivity) one_pos (fun u ε hu0 hu1 hu hs h r ⟨a, ha, hr⟩ => ?_)
    fun u ε ε' h hle i r hr => (h i r hr).trans hle
  have hε : 0 ≤ ε := hu0.trans hu
  unfold SumTo at hr
  have h2 : ∑ i, |a i| ≤ ∑ i, (|x i| + 1) := by
    refine Finset.sum_le_sum fun i _ => ?_
    have := abs_sub_abs_le_abs_sub (a i) (x i)
    have := h i _ (ha i)
    linarith
  have h3 : ((1 + u) ^ k - 1) * ∑ i, |a i| ≤ 2 ^ k * ε * (∑ i, (|x i| + 1)) :=
    mul_le_mul ((pow_one_add_le k hu0 hu1).trans (by gcongr)) h2 (Finset.sum_nonneg fun i _ => abs_nonneg _) (by positivity)
  have h4 : |∑ i, a i - ∑ i, x i| ≤ n * ε := by
    rw [← Finset.sum_sub_distrib]
    refine (Finset.abs_sum_le_sum_abs _ _).trans ?_
    refine (Finset.sum_le_sum fun i _ => h i _ (ha i)).trans ?_
    simp
  rw [show r - ∑ i, x i = (r - ∑ i, a i) + (∑ i, a i - ∑ i, x i) by ring]
  refine (abs_add_le _ _).trans ?_
  nlinarith

/-! ## Expressions -/

/-- No division by zero in the exact evaluation. -/
def FExp.Defined (ρ : Var → ℝ) : FExp → Prop
  | lit _ => True
  | dec _ => True
  | var _ => True
  | neg a => a.Defined ρ
  | add a b => a.Defined ρ ∧ b.Defined ρ
  | sub a b => a.Defined ρ ∧ b.Defined ρ
  | mul a b => a.Defined ρ ∧ b.Defined ρ
  | div a b => a.Defined ρ ∧ b.Defined ρ ∧ b.exact ρ ≠ 0

/-- The values that an expression may take are near the exact one, when the values of its variables are. -/
theorem computes_near (e : FExp) (ρ : Var → ℝ) (h : e.Defined ρ) {E : ℝ → (Var → ℝ) → Prop} (hE : ∀ v, CloseTo (fun u r => ∃ ρ', E u ρ' ∧ r = ρ' v) (ρ v)) :
    CloseTo (fun u r => ∃ ρ', E u ρ' ∧ e.Computes u ρ' r) (e.exact ρ) := by
  induction e with
  | lit n => exact (near_exact (n : ℝ)).sub fun u r _ ⟨ρ', _, hr⟩ => hr
  | dec q => exact (near_exact (q : ℝ)).round.sub fun u r _ ⟨ρ', _, hr⟩ => ⟨_, rfl, hr⟩
  | var v => exact (hE v).sub fun u r _ ⟨ρ', h', hr⟩ => ⟨ρ', h', hr⟩
  | neg a iha => exact (iha h).neg.sub fun u r _ ⟨ρ', h', x, hx, hr⟩ => ⟨x, ⟨ρ', h', hx⟩, hr⟩
  | add a b iha ihb =>
    exact ((iha h.1).add (ihb h.2)).round.sub fun u r _ ⟨ρ', h', x, y, hx, hy, hr⟩ => ⟨x + y, ⟨x, y, ⟨ρ', h', hx⟩, ⟨ρ', h', hy⟩, rfl⟩, hr⟩
  | sub a b iha ihb =>
    exact ((iha h.1).sub' (ihb h.2)).round.sub fun u r _ ⟨ρ', h', x, y, hx, hy, hr⟩ => ⟨x - y, ⟨x, y, ⟨ρ', h', hx⟩, ⟨ρ', h', hy⟩, rfl⟩, hr⟩
  | mul a b iha ihb =>
    exact ((iha h.1).mul (ihb h.2)).round.sub fun u r _ ⟨ρ', h', x, y, hx, hy, hr⟩ => ⟨x * y, ⟨x, y, ⟨ρ', h', hx⟩, ⟨ρ', h', hy⟩, rfl⟩, hr⟩
  | div a b iha ihb =>
    exact ((iha h.1).div (ihb h.2.1) h.2.2).round.sub fun u r _ ⟨ρ', h', x, y, hx, hy, hr⟩ => ⟨x / y, ⟨x, y, ⟨ρ', h', hx⟩, ⟨ρ', h', hy⟩, rfl⟩, hr⟩

end Verif
