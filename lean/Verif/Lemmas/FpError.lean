import Verif.Model.Fp
import Mathlib.Tactic.Positivity
import Mathlib.Tactic.FieldSimp
import Mathlib.Tactic.Linarith
import Mathlib.Data.Rat.Cast.CharZero

/-!
# Rounding error of an expression

`FExp.Computes.error`: an expression whose operands undergo at most `n` roundings is computed with an error at most
`n u / (1 - n u)` times the value it takes when all its operands and operations are made positive.
-/

namespace Verif

namespace FExp

/-! ## The size of the rounding error -/

/-- The number denoted by the expression in which every operand is replaced by its absolute value and every subtraction
by an addition. -/
noncomputable def mag (ρ : Var → ℝ) : FExp → ℝ
  | lit n => n
  | dec q => |(q : ℝ)|
  | var v => |ρ v|
  | neg a => a.mag ρ
  | add a b => a.mag ρ + b.mag ρ
  | sub a b => a.mag ρ + b.mag ρ
  | mul a b => a.mag ρ * b.mag ρ
  | div a b => a.mag ρ / |b.exact ρ|

/-- The largest number of roundings undergone by an operand. -/
def ops : FExp → ℕ
  | lit _ => 0
  | dec _ => 1
  | var _ => 0
  | neg a => a.ops
  | add a b => max a.ops b.ops + 1
  | sub a b => max a.ops b.ops + 1
  | mul a b => a.ops + b.ops + 1
  | div a b => a.ops + b.ops + 1

/-- Products and quotients of literals, differences of integer literals and variables. -/
def Mono : FExp → Prop
  | lit _ => True
  | dec _ => True
  | var _ => True
  | neg a => a.Mono
  | add _ _ => False
  | sub a b => (∃ n, a = lit n) ∧ ∃ n, b = lit n
  | mul a b => a.Mono ∧ b.Mono
  | div a b => a.Mono ∧ b.Mono

/-- Every denominator is a product, and is not zero. -/
def Safe (ρ : Var → ℝ) : FExp → Prop
  | lit _ => True
  | dec _ => True
  | var _ => True
  | neg a => a.Safe ρ
  | add a b => a.Safe ρ ∧ b.Safe ρ
  | sub a b => a.Safe ρ ∧ b.Safe ρ
  | mul a b => a.Safe ρ ∧ b.Safe ρ
  | div a b => a.Safe ρ ∧ b.Mono ∧ b.exact ρ ≠ 0

theorem mag_nonneg (ρ : Var → ℝ) (e : FExp) : 0 ≤ e.mag ρ := by
  induction e <;> simp only [mag] <;> positivity

theorem abs_exact_le (ρ : Var → ℝ) (e : FExp) : |e.exact ρ| ≤ e.mag ρ := by
  induction e with
  | lit n => simp [exact, mag]
  | dec q => exact le_rfl
  | var v => exact le_rfl
  | neg a ih => simpa [exact, mag] using ih
  | add a b iha ihb => exact (abs_add_le _ _).trans (add_le_add iha ihb)
  | sub a b iha ihb => exact (abs_sub _ _).trans (add_le_add iha ihb)
  | mul a b iha ihb =>
    simp only [exact, mag, abs_mul]
    exact mul_le_mul iha ihb (abs_nonneg _) (mag_nonneg _ _)
  | div a b iha ihb =>
    simp only [exact, mag, abs_div]
    exact div_le_div_of_nonneg_right iha (abs_nonneg _)

/-- The denominators of an expression. -/
def dens : FExp → List FExp
  | lit _ => []
  | dec _ => []
  | var _ => []
  | neg a => a.dens
  | add a b => a.dens ++ b.dens
  | sub a b => a.dens ++ b.dens
  | mul a b => a.dens ++ b.dens
  | div a b => b :: a.dens

theorem mag_mono {ρ σ : Var → ℝ} (h : ∀ v, |ρ v| ≤ |σ v|) (e : FExp) (hd : ∀ b ∈ e.dens, b.exact ρ = b.exact σ) :
    e.mag ρ ≤ e.mag σ := by
  induction e with
  | lit n => exact le_rfl
  | dec q => exact le_rfl
  | var v => exact h v
  | neg a ih => exact ih hd
  | add a b iha ihb =>
    exact add_le_add (iha fun b hb => hd b (List.mem_append_left _ hb)) (ihb fun b hb => hd b (List.mem_append_right _ hb))
  | sub a b iha ihb =>
    exact add_le_add (iha fun b hb => hd b (List.mem_append_left _ hb)) (ihb fun b hb => hd b (List.mem_append_right _ hb))
  | mul a b iha ihb =>
    exact mul_le_mul (iha fun b hb => hd b (List.mem_append_left _ hb)) (ihb fun b hb => hd b (List.mem_append_right _ hb))
      (mag_nonneg _ _) (mag_nonneg _ _)
  | div a b iha _ =>
    have e : b.exact ρ = b.exact σ := hd b (List.mem_cons_self ..)
    simp only [mag]
    rw [e]
    exact div_le_div_of_nonneg_right (iha fun c hc => hd c (List.mem_cons_of_mem _ hc)) (abs_nonneg _)

section
variable (ρ : Var → ℝ) (a b : FExp)
@[simp] theorem mag_ofNat (n : ℕ) : (no_index (OfNat.ofNat n : FExp)).mag ρ = ((OfNat.ofNat n : ℕ) : ℝ) := rfl
@[simp] theorem mag_var (v : Var) : (var v).mag ρ = |ρ v| := rfl
@[simp] theorem mag_neg : (-a).mag ρ = a.mag ρ := rfl
@[simp] theorem mag_add : (a + b).mag ρ = a.mag ρ + b.mag ρ := rfl
@[simp] theorem mag_sub : (a - b).mag ρ = a.mag ρ + b.mag ρ := rfl
@[simp] theorem mag_mul : (a * b).mag ρ = a.mag ρ * b.mag ρ := rfl
@[simp] theorem mag_div : (a / b).mag ρ = a.mag ρ / |b.exact ρ| := rfl
@[simp] theorem dens_ofNat (n : ℕ) : (no_index (OfNat.ofNat n : FExp)).dens = [] := rfl
@[simp] theorem dens_var (v : Var) : (var v).dens = [] := rfl
@[simp] theorem dens_neg : (-a).dens = a.dens := rfl
@[simp] theorem dens_add : (a + b).dens = a.dens ++ b.dens := rfl
@[simp] theorem dens_sub : (a - b).dens = a.dens ++ b.dens := rfl
@[simp] theorem dens_mul : (a * b).dens = a.dens ++ b.dens := rfl
@[simp] theorem dens_div : (a / b).dens = b :: a.dens := rfl
@[simp] theorem safe_ofNat (n : ℕ) : (no_index (OfNat.ofNat n : FExp)).Safe ρ ↔ True := Iff.rfl
@[simp] theorem safe_var (v : Var) : (var v).Safe ρ ↔ True := Iff.rfl
@[simp] theorem safe_neg : (-a).Safe ρ ↔ a.Safe ρ := Iff.rfl
@[simp] theorem safe_add : (a + b).Safe ρ ↔ a.Safe ρ ∧ b.Safe ρ := Iff.rfl
@[simp] theorem safe_sub : (a - b).Safe ρ ↔ a.Safe ρ ∧ b.Safe ρ := Iff.rfl
@[simp] theorem safe_mul : (a * b).Safe ρ ↔ a.Safe ρ ∧ b.Safe ρ := Iff.rfl
@[simp] theorem safe_div : (a / b).Safe ρ ↔ a.Safe ρ ∧ b.Mono ∧ b.exact ρ ≠ 0 := Iff.rfl
@[simp] theorem ops_ofNat (n : ℕ) : (no_index (OfNat.ofNat n : FExp)).ops = 0 := rfl
@[simp] theorem ops_ofScientific (m : ℕ) (s : Bool) (e : ℕ) : (no_index (OfScientific.ofScientific m s e : FExp)).ops = 1 := rfl
@[simp] theorem ops_var (v : Var) : (var v).ops = 0 := rfl
@[simp] theorem ops_neg : (-a).ops = a.ops := rfl
@[simp] theorem ops_add : (a + b).ops = max a.ops b.ops + 1 := rfl
@[simp] theorem ops_sub : (a - b).ops = max a.ops b.ops + 1 := rfl
@[simp] theorem ops_mul : (a * b).ops = a.ops + b.ops + 1 := rfl
@[simp] theorem ops_div : (a / b).ops = a.ops + b.ops + 1 := rfl
@[simp] theorem mono_ofNat (n : ℕ) : (no_index (OfNat.ofNat n : FExp)).Mono ↔ True := Iff.rfl
@[simp] theorem mono_var (v : Var) : (var v).Mono ↔ True := Iff.rfl
@[simp] theorem mono_mul : (a * b).Mono ↔ a.Mono ∧ b.Mono := Iff.rfl
end

section
variable {u : ℝ} (h0 : 0 ≤ u) (h1 : u < 1)
include h0 h1

theorem one_le_g : 1 ≤ (1 - u)⁻¹ := (one_le_inv₀ (by linarith)).mpr (by linarith)

theorem g_pow (n : ℕ) : 1 ≤ ((1 - u)⁻¹) ^ n := one_le_pow₀ (one_le_g h0 h1)

theorem le_g : 1 + u ≤ (1 - u)⁻¹ := by
  rw [inv_eq_one_div, le_div_iff₀ (by linarith)]
  nlinarith [sq_nonneg u]

/-- One more rounding. -/
theorem round_step {x r e m : ℝ} {n : ℕ} (hr : RoundsTo u x r) (hx : |x - e| ≤ (((1 - u)⁻¹) ^ n - 1) * m) (he : |e| ≤ m) :
    |r - e| ≤ (((1 - u)⁻¹) ^ (n + 1) - 1) * m := by
  have hm : 0 ≤ m := (abs_nonneg e).trans he
  have hxm : |x| ≤ ((1 - u)⁻¹) ^ n * m := by
    have := abs_add_le (x - e) e
    rw [sub_add_cancel] at this
    linarith
  have h2 : |r - e| ≤ |r - x| + |x - e| := by
    have := abs_add_le (r - x) (x - e)
    rwa [sub_add_sub_cancel] at this
  have h3 : |r - x| ≤ u * (((1 - u)⁻¹) ^ n * m) := (show |r - x| ≤ u * |x| from hr).trans (mul_le_mul_of_nonneg_left hxm h0)
  have h4 : (1 + u) * (((1 - u)⁻¹) ^ n * m) ≤ (1 - u)⁻¹ * (((1 - u)⁻¹) ^ n * m) :=
    mul_le_mul_of_nonneg_right (le_g h0 h1) (mul_nonneg (zero_le_one.trans (g_pow h0 h1 n)) hm)
  rw [pow_succ]
  nlinarith

/-- A product or quotient has a relative error. -/
theorem mono_rel (ρ : Var → ℝ) (e : FExp) : ∀ r, e.Mono → e.Computes u ρ r →
    ∃ s, r = s * e.exact ρ ∧ (((1 - u)⁻¹) ^ e.ops)⁻¹ ≤ s ∧ s ≤ ((1 - u)⁻¹) ^ e.ops := by
  have hu : (0 : ℝ) < 1 - u := by linarith
  have hg := one_le_g h0 h1
  have step : ∀ (x r : ℝ), RoundsTo u x r → ∃ s, r = s * x ∧ ((1 - u)⁻¹)⁻¹ ≤ s ∧ s ≤ (1 - u)⁻¹ := by
    intro x r h
    unfold RoundsTo at h
    rcases eq_or_ne x 0 with rfl | hx
    · refine ⟨1, ?_, inv_le_one_of_one_le₀ hg, hg⟩
      rw [abs_zero, mul_zero] at h
      have := abs_nonpos_iff.mp h
      linarith
    · have hs : |r / x - 1| ≤ u := by
        have hd : r / x - 1 = (r - x) / x := by field_simp
        rw [hd, abs_div, div_le_iff₀ (abs_pos.mpr hx)]
        exact h
      obtain ⟨a, b⟩ := abs_le.mp hs
      refine ⟨r / x, by field_simp, ?_, ?_⟩
      · rw [inv_inv]; linarith
      · have := le_g h0 h1; linarith
  have combine : ∀ (n m : ℕ) (s s' t : ℝ), (((1 - u)⁻¹) ^ n)⁻¹ ≤ s → s ≤ ((1 - u)⁻¹) ^ n →
      (((1 - u)⁻¹) ^ m)⁻¹ ≤ s' → s' ≤ ((1 - u)⁻¹) ^ m → ((1 - u)⁻¹)⁻¹ ≤ t → t ≤ (1 - u)⁻¹ →
      (((1 - u)⁻¹) ^ (n + m + 1))⁻¹ ≤ t * (s * s') ∧ t * (s * s') ≤ ((1 - u)⁻¹) ^ (n + m + 1) := by
    intro n m s s' t a1 a2 b1 b2 c1 c2
    have pn : 0 < ((1 - u)⁻¹) ^ n := by positivity
    have pm : 0 < ((1 - u)⁻¹) ^ m := by positivity
    have p1 : (0 : ℝ) < (1 - u)⁻¹ := by positivity
    have hs : 0 ≤ s := (inv_pos.mpr pn).le.trans a1
    have hs' : 0 ≤ s' := (inv_pos.mpr pm).le.trans b1
    have ht : 0 ≤ t := (inv_pos.mpr p1).le.trans c1
    rw [pow_succ, pow_add, mul_inv, mul_inv, mul_comm _ ((1 - u)⁻¹)⁻¹, mul_comm _ ((1 - u)⁻¹)]
    exact ⟨mul_le_mul c1 (mul_le_mul a1 b1 (inv_pos.mpr pm).le hs) (by positivity) ht,
      mul_le_mul c2 (mul_le_mul a2 b2 hs' pn.le) (by positivity) p1.le⟩
  induction e with
  | lit n => intro r _ h; exact ⟨1, by rw [one_mul]; exact h, by simp [ops], by simp [ops]⟩
  | dec q => intro r _ h; simpa [ops, exact] using step q r h
  | var v => intro r _ h; exact ⟨1, by rw [one_mul]; exact h, by simp [ops], by simp [ops]⟩
  | neg a ih =>
    rintro r hM ⟨x, hx, rfl⟩
    obtain ⟨s, hs, h⟩ := ih x hM hx
    exact ⟨s, by rw [hs, exact]; ring, h⟩
  | add a b => intro r hM; exact hM.elim
  | sub a b =>
    rintro r ⟨⟨n, rfl⟩, ⟨m, rfl⟩⟩ ⟨x, y, rfl, rfl, h⟩
    simpa [ops, exact] using step _ r h
  | mul a b iha ihb =>
    rintro r ⟨hA, hB⟩ ⟨x, y, hx, hy, h⟩
    obtain ⟨s, es, hs1, hs2⟩ := iha x hA hx
    obtain ⟨s', es', hs1', hs2'⟩ := ihb y hB hy
    obtain ⟨t, et, ht1, ht2⟩ := step _ r h
    refine ⟨t * (s * s'), ?_, combine _ _ _ _ _ hs1 hs2 hs1' hs2' ht1 ht2⟩
    rw [et, es, es', exact]; ring
  | div a b iha ihb =>
    rintro r ⟨hA, hB⟩ ⟨x, y, hx, hy, h⟩
    obtain ⟨s, es, hs1, hs2⟩ := iha x hA hx
    obtain ⟨s', es', hs1', hs2'⟩ := ihb y hB hy
    obtain ⟨t, et, ht1, ht2⟩ := step _ r h
    have pb : 0 < ((1 - u)⁻¹) ^ b.ops := by positivity
    have hs' : 0 < s' := (inv_pos.mpr pb).trans_le hs1'
    refine ⟨t * (s * s'⁻¹), ?_, combine _ _ _ _ _ hs1 hs2 ?_ ?_ ht1 ht2⟩
    · rw [et, es, es', exact, mul_div_mul_comm]; ring
    · exact inv_anti₀ hs' hs2'
    · rw [inv_le_comm₀ hs' pb]; exact hs1'

/-- The rounding error of an expression. -/
theorem error (ρ : Var → ℝ) (e : FExp) : ∀ r, e.Safe ρ → e.Computes u ρ r →
    |r - e.exact ρ| ≤ (((1 - u)⁻¹) ^ e.ops - 1) * e.mag ρ := by
  have up : ∀ {n m : ℕ} {z : ℝ}, n ≤ m → 0 ≤ z → (((1 - u)⁻¹) ^ n - 1) * z ≤ (((1 - u)⁻¹) ^ m - 1) * z := fun h hz =>
    mul_le_mul_of_nonneg_right (by linarith [pow_le_pow_right₀ (one_le_g h0 h1) h]) hz
  induction e with
  | lit n => intro r _ h; simp [show r = n from h, exact, ops]
  | dec q =>
    intro r _ h
    have h' : |r - q| ≤ u * |(q : ℝ)| := h
    refine h'.trans (mul_le_mul_of_nonneg_right ?_ (abs_nonneg _))
    have := le_g h0 h1
    simp only [ops, pow_one]
    linarith
  | var v => intro r _ h; simp [show r = ρ v from h, exact, ops]
  | neg a ih =>
    rintro r hS ⟨x, hx, rfl⟩
    have := ih x hS hx
    simp only [exact, ops, mag]
    rwa [neg_sub_neg, abs_sub_comm]
  | add a b iha ihb =>
    rintro r ⟨hA, hB⟩ ⟨x, y, hx, hy, h⟩
    refine round_step h0 h1 h ?_ (abs_exact_le ρ (add a b))
    have ha := (iha x hA hx).trans (up (le_max_left a.ops b.ops) (mag_nonneg ρ a))
    have hb := (ihb y hB hy).trans (up (le_max_right a.ops b.ops) (mag_nonneg ρ b))
    have := abs_add_le (x - a.exact ρ) (y - b.exact ρ)
    rw [show x - a.exact ρ + (y - b.exact ρ) = x + y - (add a b).exact ρ by simp only [exact]; ring] at this
    simp only [mag, mul_add]
    linarith
  | sub a b iha ihb =>
    rintro r ⟨hA, hB⟩ ⟨x, y, hx, hy, h⟩
    refine round_step h0 h1 h ?_ (abs_exact_le ρ (sub a b))
    have ha := (iha x hA hx).trans (up (le_max_left a.ops b.ops) (mag_nonneg ρ a))
    have hb := (ihb y hB hy).trans (up (le_max_right a.ops b.ops) (mag_nonneg ρ b))
    have := abs_sub (x - a.exact ρ) (y - b.exact ρ)
    rw [show x - a.exact ρ - (y - b.exact ρ) = x - y - (sub a b).exact ρ by simp only [exact]; ring] at this
    simp only [mag, mul_add]
    linarith
  | mul a b iha ihb =>
    rintro r ⟨hA, hB⟩ ⟨x, y, hx, hy, h⟩
    refine round_step h0 h1 h ?_ (abs_exact_le ρ (mul a b))
    have ha := iha x hA hx
    have hb := ihb y hB hy
    have ea := abs_exact_le ρ a
    have hy' : |y| ≤ ((1 - u)⁻¹) ^ b.ops * b.mag ρ := by
      have := abs_add_le (y - b.exact ρ) (b.exact ρ)
      rw [sub_add_cancel] at this
      linarith [abs_exact_le ρ b]
    have h2 : |x * y - a.exact ρ * b.exact ρ| ≤ |x - a.exact ρ| * |y| + |a.exact ρ| * |y - b.exact ρ| := by
      rw [← abs_mul, ← abs_mul]
      have := abs_add_le ((x - a.exact ρ) * y) (a.exact ρ * (y - b.exact ρ))
      rwa [show (x - a.exact ρ) * y + a.exact ρ * (y - b.exact ρ) = x * y - a.exact ρ * b.exact ρ by ring] at this
    have h3 := mul_le_mul ha hy' (abs_nonneg _) ((abs_nonneg _).trans ha)
    have h4 := mul_le_mul ea hb (abs_nonneg _) (mag_nonneg ρ a)
    simp only [exact, mag]
    refine h2.trans ((add_le_add h3 h4).trans (le_of_eq ?_))
    rw [pow_add]
    ring
  | div a b iha _ =>
    rintro r ⟨hA, hM, hne⟩ ⟨x, y, hx, hy, h⟩
    refine round_step h0 h1 h ?_ (abs_exact_le ρ (div a b))
    have ha := iha x hA hx
    have ea := abs_exact_le ρ a
    obtain ⟨s, rfl, hs1, hs2⟩ := mono_rel h0 h1 ρ b y hM hy
    have pb : 0 < ((1 - u)⁻¹) ^ b.ops := zero_lt_one.trans_le (g_pow h0 h1 _)
    have hs : 0 < s := (inv_pos.mpr pb).trans_le hs1
    have hi1 : s⁻¹ ≤ ((1 - u)⁻¹) ^ b.ops := by rw [inv_le_comm₀ hs pb]; exact hs1
    have hi2 : (((1 - u)⁻¹) ^ b.ops)⁻¹ ≤ s⁻¹ := inv_anti₀ hs hs2
    have hi : |s⁻¹ - 1| ≤ ((1 - u)⁻¹) ^ b.ops - 1 := by
      have hg := g_pow h0 h1 b.ops
      have : 2 - ((1 - u)⁻¹) ^ b.ops ≤ (((1 - u)⁻¹) ^ b.ops)⁻¹ := by
        rw [← one_div ((1 - u)⁻¹ ^ b.ops), le_div_iff₀ pb]
        nlinarith [sq_nonneg (((1 - u)⁻¹) ^ b.ops - 1)]
      exact abs_le.mpr ⟨by linarith, by linarith⟩
    have h2 : |x * s⁻¹ - a.exact ρ| ≤ (((1 - u)⁻¹) ^ (a.ops + b.ops) - 1) * a.mag ρ := by
      have h3 := abs_add_le ((x - a.exact ρ) * s⁻¹) (a.exact ρ * (s⁻¹ - 1))
      rw [show (x - a.exact ρ) * s⁻¹ + a.exact ρ * (s⁻¹ - 1) = x * s⁻¹ - a.exact ρ by ring, abs_mul, abs_mul,
        abs_of_pos (inv_pos.mpr hs)] at h3
      have h4 := mul_le_mul ha hi1 (inv_pos.mpr hs).le ((abs_nonneg _).trans ha)
      have h5 := mul_le_mul ea hi (abs_nonneg _) (mag_nonneg ρ a)
      refine h3.trans ((add_le_add h4 h5).trans (le_of_eq ?_))
      rw [pow_add]
      ring
    have hq : x / (s * b.exact ρ) - (div a b).exact ρ = (x * s⁻¹ - a.exact ρ) / b.exact ρ := by
      simp only [exact]; field_simp
    rw [hq, abs_div, mag, ← mul_div_assoc]
    exact div_le_div_of_nonneg_right h2 (abs_nonneg _)

end

/-- The usual bound on `n` roundings. -/
theorem gamma_le {u : ℝ} (h0 : 0 ≤ u) {n : ℕ} (h : n * u < 1) (hn : 0 < n) : ((1 - u)⁻¹) ^ n - 1 ≤ n * u / (1 - n * u) := by
  have hn1 : (1 : ℝ) ≤ n := by exact_mod_cast hn
  have hu : u < 1 := by nlinarith
  have hb : 1 - n * u ≤ (1 - u) ^ n := by
    have := one_add_mul_le_pow (a := -u) (by linarith) n
    rw [← sub_eq_add_neg] at this
    linarith
  have hp : 0 < 1 - n * u := by linarith
  have : ((1 - u)⁻¹) ^ n ≤ (1 - n * u)⁻¹ := by
    rw [inv_pow]
    exact inv_anti₀ hp hb
  have e : n * u / (1 - n * u) = (1 - n * u)⁻¹ - 1 := by field_simp; ring
  linarith

/-- The usual bound on the relative error of `n` successive roundings. -/
noncomputable def gam (n : ℕ) (u : ℝ) : ℝ := n * u / (1 - n * u)

theorem gam_nonneg {u : ℝ} (h0 : 0 ≤ u) {n : ℕ} (h : n * u < 1) : 0 ≤ gam n u :=
  div_nonneg (by positivity) (by linarith)

theorem gam_mono {u : ℝ} (h0 : 0 ≤ u) {n m : ℕ} (hnm : n ≤ m) (h : m * u < 1) : gam n u ≤ gam m u := by
  have hc : (n : ℝ) ≤ m := by exact_mod_cast hnm
  have h1 : n * u ≤ m * u := mul_le_mul_of_nonneg_right hc h0
  exact div_le_div₀ (by positivity) h1 (by linarith) (by linarith)

/-- The rounding error of an expression, with the usual constant. -/
theorem Computes.error {e : FExp} {u : ℝ} {ρ : Var → ℝ} {r : ℝ} (hr : e.Computes u ρ r) (h0 : 0 ≤ u) {n : ℕ} (hn : 0 < n)
    (h : n * u < 1) (hS : e.Safe ρ) (ho : e.ops ≤ n) : |r - e.exact ρ| ≤ gam n u * e.mag ρ := by
  have hn1 : (1 : ℝ) ≤ n := by exact_mod_cast hn
  have hu : u < 1 := by nlinarith
  refine (FExp.error h0 hu ρ e r hS hr).trans (mul_le_mul_of_nonneg_right ?_ (mag_nonneg ρ e))
  have h1 : _ ≤ gam n u := gamma_le h0 h hn
  have := pow_le_pow_right₀ (one_le_g h0 hu) ho
  linarith

end FExp

end Verif
