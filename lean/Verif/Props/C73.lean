import Verif.Model.Rounded
import Verif.TimeProofs
import Mathlib.Data.Int.Log
import Mathlib.Algebra.Order.Round
import Mathlib.Tactic.LinearCombination

/-!
# C73: time discretisation with rounded arithmetic
-/

namespace Verif

/-! ## Specification -/

/-- The standard model of floating-point arithmetic: every result is rounded with a relative error at most `u`. -/
def Rounding (fl : ℝ → ℝ) (u : ℝ) : Prop := ∀ x, |fl x - x| ≤ u * |x|

/-- The sum of the first `j` durations, rounded after every addition. -/
def roundSum (fl : ℝ → ℝ) (Ts : List ℝ) (j : ℕ) : ℝ := (Ts.take j).foldl (fun s T => fl (s + T)) 0

/-- Samples from `lo` to `hi`: increasing, and no step is longer than `step`, up to rounding. -/
def Sampled (step u lo hi : ℝ) (w : List ℝ) : Prop :=
  w.head? = some lo ∧ w.getLast? = some hi ∧ w.IsChain fun a b => a < b ∧ b ≤ (a + step) * (1 + u)

/-! ## The model generalises the exact one -/

theorem discWhileFl_id (step c : ℝ) (i : ℤ) : ∀ (fuel : ℕ) (t : ℝ) (acc : TTime),
    discWhileFl id step c i fuel t acc = discWhile step c i fuel t acc := by
  intro fuel
  induction fuel with
  | zero => intros; rfl
  | succ f ih => intro t acc; rw [discWhileFl, discWhile, ih]; rfl

theorem computeDiscretizedTimeFl_id (Ts : List ℝ) (step : ℝ) (fuel : ℕ) :
    computeDiscretizedTimeFl id Ts step fuel = computeDiscretizedTime Ts step fuel := by
  have H : ∀ (Ts : List ℝ) (i : ℤ) (c : ℝ) (acc : TTime), discForFl id step fuel Ts i c acc = discFor step fuel Ts i c acc := by
    intro Ts
    induction Ts with
    | nil => intros; rfl
    | cons T Ts ih =>
      intro i c acc
      rw [discForFl, discFor]
      simp only [discWhileFl_id, ih, id]
  exact H Ts 0 0 []

theorem fixedInnerFl_id (step : ℝ) (i : ℤ) : ∀ (n : ℕ) (t : ℝ), fixedInnerFl id step i n t = fixedInner step i n t := by
  intro n
  induction n with
  | zero => intros; rfl
  | succ n ih => intro t; rw [fixedInnerFl, fixedInner, ih]; rfl

theorem computeDiscretizedTimeFixedFl_id (Ts : List ℝ) (n : ℕ) :
    computeDiscretizedTimeFixedFl id Ts.sum Ts n = computeDiscretizedTimeFixed Ts n := by
  have H : ∀ (Ts : List ℝ) (i : ℤ) (t : ℝ), fixedOuterFl id n Ts i t = fixedOuter n Ts i t := by
    intro Ts
    induction Ts with
    | nil => intros; rfl
    | cons T Ts ih => intro i t; simp only [fixedOuterFl, fixedOuter, fixedInnerFl_id, ih, id]
  rw [computeDiscretizedTimeFixedFl, computeDiscretizedTimeFixed, H]

/-! ## Rounding -/

theorem Rounding.bounds {fl : ℝ → ℝ} {u : ℝ} (h : Rounding fl u) {x : ℝ} (hx : 0 ≤ x) :
    x * (1 - u) ≤ fl x ∧ fl x ≤ x * (1 + u) := by
  have := h x
  rw [abs_of_nonneg hx, abs_le] at this
  constructor <;> nlinarith [this.1, this.2]

theorem roundSum_bounds {fl : ℝ → ℝ} {u : ℝ} (h : Rounding fl u) (h0 : 0 ≤ u) (h1 : u ≤ 1) (Ts : List ℝ)
    (hT : ∀ T ∈ Ts, 0 ≤ T) (j : ℕ) :
    (Ts.take j).sum * (1 - u) ^ j ≤ roundSum fl Ts j ∧ roundSum fl Ts j ≤ (Ts.take j).sum * (1 + u) ^ j := by
  have H : ∀ (l : List ℝ) (s S : ℝ) (a : ℕ), (∀ T ∈ l, 0 ≤ T) → 0 ≤ S → S * (1 - u) ^ a ≤ s → s ≤ S * (1 + u) ^ a →
      (S + l.sum) * (1 - u) ^ (a + l.length) ≤ l.foldl (fun s T => fl (s + T)) s ∧
      l.foldl (fun s T => fl (s + T)) s ≤ (S + l.sum) * (1 + u) ^ (a + l.length) := by
    intro l
    induction l with
    | nil => intro s S a _ _ h1 h2; simpa using ⟨h1, h2⟩
    | cons T l ih =>
      intro s S a hl hS hlo hhi
      have hT := hl T List.mem_cons_self
      have hs : 0 ≤ s := le_trans (mul_nonneg hS (pow_nonneg (by linarith) _)) hlo
      obtain ⟨b1, b2⟩ := h.bounds (x := s + T) (by linarith)
      have p1 : (1 - u) ^ a ≤ 1 := pow_le_one₀ (by linarith) (by linarith)
      have p2 : 1 ≤ (1 + u) ^ a := one_le_pow₀ (by linarith)
      have := ih (fl (s + T)) (S + T) (a + 1) (fun T hT => hl T (List.mem_cons_of_mem _ hT)) (by linarith)
        (le_trans (by
          rw [pow_succ, ← mul_assoc]
          exact mul_le_mul_of_nonneg_right (by nlinarith) (by linarith)) b1)
        (le_trans b2 (by
          rw [pow_succ, ← mul_assoc]
          exact mul_le_mul_of_nonneg_right (by nlinarith) (by linarith)))
      simp only [List.sum_cons, List.length_cons, List.foldl_cons]
      rw [show a + (l.length + 1) = a + 1 + l.length by ring, show S + (T + l.sum) = S + T + l.sum by ring]
      exact this
  have hl := H (Ts.take j) 0 0 0 (fun T h => hT T (List.mem_of_mem_take h)) le_rfl (by simp) (by simp)
  simp only [zero_add] at hl
  have hlen : (Ts.take j).length ≤ j := by simp
  have hsum : 0 ≤ (Ts.take j).sum := List.sum_nonneg fun T h => hT T (List.mem_of_mem_take h)
  refine ⟨le_trans (mul_le_mul_of_nonneg_left (pow_le_pow_of_le_one (by linarith) (by linarith) hlen) hsum) hl.1,
    le_trans hl.2 (mul_le_mul_of_nonneg_left (pow_le_pow_right₀ (by linarith) hlen) hsum)⟩

theorem roundSum_succ (fl : ℝ → ℝ) (Ts : List ℝ) (j : ℕ) (hj : j < Ts.length) :
    roundSum fl Ts (j + 1) = fl (roundSum fl Ts j + Ts[j]) := by
  rw [roundSum, List.take_add_one, List.foldl_append, ← roundSum]
  simp [hj]

/-! ## The loops -/

theorem discWhileFl_spec {fl : ℝ → ℝ} {u : ℝ} (h : Rounding fl u) (h0 : 0 ≤ u) {step hi δ : ℝ} (hs : 0 < step)
    (hδ : 0 < δ) (hp : u * (hi + step) + δ ≤ step) (i : ℤ) : ∀ (m : ℕ) (t : ℝ), 0 ≤ t → hi - t ≤ m * δ →
    ∃ w : List ℝ, (∀ fuel ≥ m + 1, ∀ acc, discWhileFl fl step hi i fuel t acc = .ok (acc ++ w.map fun s => (s, i))) ∧
      (t < hi → w.head? = some t) ∧ (hi ≤ t → w = []) ∧
      (w ++ [hi]).IsChain fun a b => a < b ∧ b ≤ (a + step) * (1 + u) := by
  have base : ∀ t m, hi ≤ t → ∃ w : List ℝ, (∀ fuel ≥ m + 1, ∀ acc, discWhileFl fl step hi i fuel t acc
      = .ok (acc ++ w.map fun s => (s, i))) ∧ (t < hi → w.head? = some t) ∧ (hi ≤ t → w = []) ∧
      (w ++ [hi]).IsChain fun a b => a < b ∧ b ≤ (a + step) * (1 + u) := by
    intro t m ht
    refine ⟨[], fun fuel hf acc => ?_, fun h => absurd h (not_lt.mpr ht), fun _ => rfl, by simp⟩
    obtain ⟨f, rfl⟩ : ∃ f, fuel = f + 1 := ⟨fuel - 1, by omega⟩
    rw [discWhileFl, if_neg (not_lt.mpr ht)]
    simp
  intro m
  induction m with
  | zero => intro t _ ht; exact base t 0 (by simpa using ht)
  | succ m ih =>
    intro t h0t ht
    by_cases hlt : t < hi
    · obtain ⟨b1, b2⟩ := h.bounds (x := t + step) (by linarith)
      have hstep : t + δ ≤ fl (t + step) := by
        have : u * (t + step) ≤ u * (hi + step) := mul_le_mul_of_nonneg_left (by linarith) h0
        nlinarith
      obtain ⟨w, hw, hh, he, hc⟩ := ih (fl (t + step)) (by linarith) (by push_cast at ht; linarith)
      refine ⟨t :: w, fun fuel hf acc => ?_, fun _ => rfl, fun h => absurd hlt (not_lt.mpr h), ?_⟩
      · obtain ⟨f, rfl⟩ : ∃ f, fuel = f + 1 := ⟨fuel - 1, by omega⟩
        rw [discWhileFl, if_pos hlt, hw f (by omega)]
        simp
      · by_cases hlt' : fl (t + step) < hi
        · have hh' := hh hlt'
          cases w with
          | nil => simp at hh'
          | cons a w =>
            simp only [List.head?_cons, Option.some.injEq] at hh'
            subst hh'
            rw [List.cons_append, List.cons_append, List.isChain_cons_cons]
            exact ⟨⟨by linarith, b2⟩, hc⟩
        · have hle := not_lt.mp hlt'
          rw [he hle]
          simp only [List.cons_append, List.nil_append, List.isChain_cons_cons, List.isChain_singleton, and_true]
          exact ⟨hlt, le_trans hle b2⟩
    · exact base t _ (not_lt.mp hlt)

/-- The samples of all phases, with their tags. -/
def tagAll : ℤ → List (List ℝ) → TTime
  | _, [] => []
  | i, w :: ws => (w.map fun s => (s, i)) ++ tagAll (i + 1) ws

theorem discForFl_spec {fl : ℝ → ℝ} {u : ℝ} (h : Rounding fl u) (h0 : 0 ≤ u) {step B : ℝ} (hs : 0 < step)
    (hB : u * (B + step) < step) : ∀ (Ts : List ℝ) (i : ℤ) (c : ℝ), 0 ≤ c → (∀ T ∈ Ts, step * 2 ≤ T) →
    (∀ j ≤ Ts.length, (Ts.take j).foldl (fun s T => fl (s + T)) c ≤ B) →
    ∃ N ws, (∀ fuel ≥ N, ∀ acc, discForFl fl step fuel Ts i c acc = .ok (acc ++ tagAll i ws)) ∧
      ws.length = Ts.length ∧ ∀ j (_ : j < Ts.length), ∃ w, ws[j]? = some w ∧
        Sampled step u ((Ts.take j).foldl (fun s T => fl (s + T)) c) ((Ts.take (j + 1)).foldl (fun s T => fl (s + T)) c) w := by
  intro Ts
  induction Ts with
  | nil => intro i c _ _ _; exact ⟨0, [], fun fuel _ acc => by simp [discForFl, tagAll], rfl, fun j hj => absurd hj (Nat.not_lt_zero j)⟩
  | cons T Ts ih =>
    intro i c hc hT hb
    have hT0 := hT T List.mem_cons_self
    have hhi : fl (c + T) ≤ B := by simpa using hb 1 (by simp)
    have hcB : c ≤ B := by simpa using hb 0 (by simp)
    obtain ⟨b1, b2⟩ := h.bounds (x := c + T) (by linarith)
    set δ := step - u * (B + step) with hδ
    have hδ0 : 0 < δ := by rw [hδ]; linarith
    have hu1 : u < 1 := by
      by_contra hcon
      have : (1 : ℝ) * (B + step) ≤ u * (B + step) := mul_le_mul_of_nonneg_right (not_lt.mp hcon) (by linarith)
      linarith
    have hlt : c < fl (c + T) := by
      have e1 : u * (c + step) ≤ u * (B + step) := mul_le_mul_of_nonneg_left (by linarith) h0
      have e2 : (step) * (1 - u) ≤ (T - step) * (1 - u) := mul_le_mul_of_nonneg_right (by linarith) (by linarith)
      nlinarith
    obtain ⟨m, hm⟩ := exists_nat_ge ((fl (c + T) - c) / δ)
    rw [div_le_iff₀ hδ0] at hm
    obtain ⟨w, hw, hh, -, hch⟩ := discWhileFl_spec h h0 hs hδ0 (hi := fl (c + T)) (by
      have : u * (fl (c + T) + step) ≤ u * (B + step) := mul_le_mul_of_nonneg_left (by linarith) h0
      rw [hδ]; linarith) i m c hc hm
    obtain ⟨N, ws, hrun, hlen, hsm⟩ := ih (i + 1) (fl (c + T)) (by linarith) (fun T hT' => hT T (List.mem_cons_of_mem _ hT'))
      (fun j hj => by simpa using hb (j + 1) (by simpa using hj))
    refine ⟨max N (m + 1), (w ++ [fl (c + T)]) :: ws, fun fuel hf acc => ?_, by simp [hlen], fun j hj => ?_⟩
    · rw [discForFl, if_pos hT0, hw fuel (le_trans (le_max_right _ _) hf), Out.ok_bind,
        hrun fuel (le_trans (le_max_left _ _) hf)]
      simp [tagAll]
    · cases j with
      | zero =>
        refine ⟨_, by simp, ?_, by simp, hch⟩
        have := hh hlt
        cases w with
        | nil => simp at this
        | cons a w => simpa using this
      | succ j =>
        obtain ⟨w', h1, h2⟩ := hsm j (by simpa using hj)
        exact ⟨w', by simpa using h1, by simpa using h2⟩

/-! ## C73 -/

/-- C73. With arithmetic rounded to a relative error `u`, a positive step that is large compared to the rounding of the
total duration, and phases of at least two steps, `computeDiscretizedTime` terminates. Its samples are, phase by phase,
increasing from the start to the end of the phase, with no step longer than asked up to rounding. The ends of the phases
are the rounded sums of the durations, which are close to the exact ones. -/
theorem C73_terminates {fl : ℝ → ℝ} {u : ℝ} (h : Rounding fl u) (h0 : 0 ≤ u) (Ts : List ℝ) (step : ℝ) (hs : 0 < step)
    (hT : ∀ T ∈ Ts, step * 2 ≤ T) (hu : u * (Ts.sum * (1 + u) ^ Ts.length + step) < step) :
    ∃ N ws, (∀ fuel ≥ N, computeDiscretizedTimeFl fl Ts step fuel = .ok (tagAll 0 ws)) ∧ ws.length = Ts.length ∧
      (∀ j < Ts.length, ∃ w, ws[j]? = some w ∧ Sampled step u (roundSum fl Ts j) (roundSum fl Ts (j + 1)) w) ∧
      ∀ j ≤ Ts.length, (Ts.take j).sum * (1 - u) ^ j ≤ roundSum fl Ts j ∧
        roundSum fl Ts j ≤ (Ts.take j).sum * (1 + u) ^ j := by
  have hT0 : ∀ T ∈ Ts, 0 ≤ T := fun T h => by have := hT T h; linarith
  have hsum : 0 ≤ Ts.sum := List.sum_nonneg hT0
  have hB0 : 0 ≤ Ts.sum * (1 + u) ^ Ts.length := mul_nonneg hsum (pow_nonneg (by linarith) _)
  have hu1 : u ≤ 1 := by
    by_contra hcon
    have : (1 : ℝ) * (Ts.sum * (1 + u) ^ Ts.length + step) ≤ u * (Ts.sum * (1 + u) ^ Ts.length + step) :=
      mul_le_mul_of_nonneg_right (not_le.mp hcon).le (by linarith)
    linarith
  have hbd := fun j => roundSum_bounds h h0 hu1 Ts hT0 j
  obtain ⟨N, ws, hrun, hlen, hsm⟩ := discForFl_spec h h0 hs hu Ts 0 0 le_rfl hT fun j hj => by
    refine le_trans (hbd j).2 ?_
    have e1 : (Ts.take j).sum ≤ Ts.sum := by
      rw [← List.sum_take_add_sum_drop Ts j]
      have := List.sum_nonneg (l := Ts.drop j) fun T h => hT0 T (List.mem_of_mem_drop h)
      linarith
    exact mul_le_mul e1 (pow_le_pow_right₀ (by linarith) hj) (pow_nonneg (by linarith) _) hsum
  refine ⟨N, ws, fun fuel hf => by rw [computeDiscretizedTimeFl, hrun fuel hf]; simp, hlen, fun j hj => hsm j hj,
    fun j _ => hbd j⟩

/-- C73. When the step is absorbed by the rounding at the start of some phase, `computeDiscretizedTime` never
returns. -/
theorem C73_absorbed (fl : ℝ → ℝ) (Ts : List ℝ) (step : ℝ) (hT : ∀ T ∈ Ts, step * 2 ≤ T) (j : ℕ) (hj : j < Ts.length)
    (habs : fl (roundSum fl Ts j + step) = roundSum fl Ts j) (hlt : roundSum fl Ts j < roundSum fl Ts (j + 1))
    (fuel : ℕ) : computeDiscretizedTimeFl fl Ts step fuel = .diverge := by
  have hw : ∀ (hi : ℝ) (i : ℤ) (fuel : ℕ) (t : ℝ) (acc : TTime), fl (t + step) = t → t < hi →
      discWhileFl fl step hi i fuel t acc = .diverge := by
    intro hi i fuel
    induction fuel with
    | zero => intros; rfl
    | succ f ih => intro t acc h1 h2; rw [discWhileFl, if_pos h2, h1]; exact ih t _ h1 h2
  have hd : ∀ (hi : ℝ) (i : ℤ) (fuel : ℕ) (t : ℝ) (acc : TTime),
      discWhileFl fl step hi i fuel t acc = .diverge ∨ ∃ l, discWhileFl fl step hi i fuel t acc = .ok l := by
    intro hi i fuel
    induction fuel with
    | zero => intros; exact Or.inl rfl
    | succ f ih =>
      intro t acc
      rw [discWhileFl]
      split
      · exact ih _ _
      · exact Or.inr ⟨_, rfl⟩
  have H : ∀ (Ts : List ℝ) (j : ℕ) (i : ℤ) (c : ℝ) (acc : TTime), (∀ T ∈ Ts, step * 2 ≤ T) → j < Ts.length →
      fl ((Ts.take j).foldl (fun s T => fl (s + T)) c + step) = (Ts.take j).foldl (fun s T => fl (s + T)) c →
      (Ts.take j).foldl (fun s T => fl (s + T)) c < (Ts.take (j + 1)).foldl (fun s T => fl (s + T)) c →
      discForFl fl step fuel Ts i c acc = .diverge := by
    intro Ts
    induction Ts with
    | nil => intro j i c acc _ hj; exact absurd hj (Nat.not_lt_zero j)
    | cons T Ts ih =>
      intro j i c acc hT hj h1 h2
      rw [discForFl, if_pos (hT T List.mem_cons_self)]
      cases j with
      | zero =>
        simp only [List.take_zero, List.foldl_nil, zero_add, List.take_succ_cons, List.foldl_cons] at h1 h2
        rw [hw _ i fuel c acc h1 h2]
        rfl
      | succ j =>
        rcases hd (fl (c + T)) i fuel c acc with h3 | ⟨l, h3⟩
        · rw [h3]; rfl
        · rw [h3, Out.ok_bind]
          exact ih j _ _ _ (fun T hT' => hT T (List.mem_cons_of_mem _ hT')) (by simpa using hj) (by simpa using h1)
            (by simpa using h2)
  exact H Ts j 0 0 [] hT hj habs hlt

/-! ## Rounding to nearest53 in double precision -/

/-- Rounding to the nearest number with 53 significant bits. -/
noncomputable def nearest53 (x : ℝ) : ℝ := (round (x / 2 ^ (Int.log 2 |x| - 52)) : ℝ) * 2 ^ (Int.log 2 |x| - 52)

theorem nearest53_rounding : Rounding nearest53 (2 ^ (-53 : ℤ)) := by
  intro x
  by_cases hx : x = 0
  · simp [nearest53, hx]
  have hpos : 0 < |x| := abs_pos.mpr hx
  set e := Int.log 2 |x| - 52 with he
  have h2 : (0 : ℝ) < 2 ^ e := by positivity
  have e1 : nearest53 x - x = ((round (x / 2 ^ e) : ℝ) - x / 2 ^ e) * 2 ^ e := by
    rw [nearest53, ← he, sub_mul, div_mul_cancel₀ _ h2.ne']
  rw [e1, abs_mul, abs_of_pos h2, abs_sub_comm]
  have e2 := abs_sub_round (x / 2 ^ e)
  have e3 : (2 : ℝ) ^ Int.log 2 |x| ≤ |x| := by exact_mod_cast Int.zpow_log_le_self (by norm_num) hpos
  have e4 : (1 / 2 : ℝ) * 2 ^ e = 2 ^ (-53 : ℤ) * 2 ^ Int.log 2 |x| := by
    rw [← zpow_add₀ (by norm_num : (2 : ℝ) ≠ 0), show (1 / 2 : ℝ) = 2 ^ (-1 : ℤ) by norm_num,
      ← zpow_add₀ (by norm_num : (2 : ℝ) ≠ 0)]
    congr 1
    omega
  calc _ ≤ (1 / 2 : ℝ) * 2 ^ e := mul_le_mul_of_nonneg_right e2 h2.le
    _ = 2 ^ (-53 : ℤ) * 2 ^ Int.log 2 |x| := e4
    _ ≤ _ := mul_le_mul_of_nonneg_left e3 (by positivity)

/-- How to compute a rounding that is not a tie. -/
theorem nearest53_eq {x : ℝ} (k m : ℤ) (h1 : (2 : ℝ) ^ k ≤ x) (h2 : x < 2 ^ (k + 1))
    (h3 : (m : ℝ) - 1 / 2 < x / 2 ^ (k - 52)) (h4 : x / 2 ^ (k - 52) < m + 1 / 2) : nearest53 x = m * 2 ^ (k - 52) := by
  have hx : 0 < x := lt_of_lt_of_le (by positivity) h1
  have hlog : Int.log 2 x = k := by
    apply le_antisymm
    · have : x < ((2 : ℕ) : ℝ) ^ (k + 1) := by exact_mod_cast h2
      exact Int.lt_add_one_iff.mp ((Int.lt_zpow_iff_log_lt (by norm_num) hx).mp this)
    · exact (Int.zpow_le_iff_le_log (by norm_num) hx).mp (by exact_mod_cast h1)
  have hr : round (x / 2 ^ (k - 52)) = m := by
    rw [round_eq, Int.floor_eq_iff]
    constructor <;> linarith
  rw [nearest53, abs_of_pos hx, hlog, hr]

theorem nearest53_one : nearest53 1 = 1 := by
  rw [nearest53_eq 0 (2 ^ 52) (by norm_num) (by norm_num) (by norm_num) (by norm_num)]
  norm_num

theorem nearest53_two : nearest53 2 = 2 := by
  rw [nearest53_eq 1 (2 ^ 52) (by norm_num) (by norm_num) (by norm_num) (by norm_num)]
  norm_num

/-- Non-vacuity of C73_terminates: three phases in double precision. -/
example : ∃ N ws, (∀ fuel ≥ N, computeDiscretizedTimeFl nearest53 [1, 1 / 2, 2] (1 / 10) fuel = .ok (tagAll 0 ws)) ∧
    ws.length = 3 := by
  obtain ⟨N, ws, h, h', -⟩ := C73_terminates nearest53_rounding (by positivity) [1, 1 / 2, 2] (1 / 10) (by norm_num)
    (by norm_num) (by norm_num)
  exact ⟨N, ws, h, h'⟩

/-- C73. In double precision `computeDiscretizedTime` does not terminate on every positive step: two phases of one
second and a step of `2 ^ -60` second. -/
theorem C73_refuted : ∃ (Ts : List ℝ) (step : ℝ), 0 < step ∧ (∀ T ∈ Ts, step * 2 ≤ T) ∧
    (∃ N, ∀ fuel ≥ N, ∃ l, computeDiscretizedTime Ts step fuel = .ok l) ∧
    ∀ fuel, computeDiscretizedTimeFl nearest53 Ts step fuel = .diverge := by
  have hT : ∀ T ∈ [(1 : ℝ), 1], (2 : ℝ) ^ (-60 : ℤ) * 2 ≤ T := by norm_num
  refine ⟨[1, 1], 2 ^ (-60 : ℤ), by positivity, hT, ?_, fun fuel => ?_⟩
  · obtain ⟨N, hN⟩ := discFor_eq (2 ^ (-60 : ℤ)) (by positivity) [1, 1] hT
    exact ⟨N, fun fuel hf => ⟨_, hN fuel hf 0 0 []⟩⟩
  · have e1 : roundSum nearest53 [1, 1] 1 = 1 := by simp [roundSum, nearest53_one]
    have e2 : roundSum nearest53 [1, 1] 2 = 2 := by
      simp only [roundSum, List.take_succ_cons, List.take_zero, List.foldl_cons, List.foldl_nil, zero_add, nearest53_one]
      rw [show (1 : ℝ) + 1 = 2 by norm_num, nearest53_two]
    refine C73_absorbed nearest53 [1, 1] _ hT 1 (by simp) ?_ (by rw [e1, e2]; norm_num) fuel
    rw [e1, nearest53_eq 0 (2 ^ 52) (by norm_num) (by norm_num) (by norm_num) (by norm_num)]
    norm_num

/-! ## The fixed number of points per phase -/

/-- `t` is `E` up to `k` roundings. -/
def Near (u : ℝ) (k : ℕ) (E t : ℝ) : Prop := E * (1 - u) ^ k ≤ t ∧ t ≤ E * (1 + u) ^ k

theorem Near.add {fl : ℝ → ℝ} {u : ℝ} (h : Rounding fl u) (h0 : 0 ≤ u) (h1 : u ≤ 1) {k : ℕ} {E t s step : ℝ} (hE : 0 ≤ E)
    (hs : 0 ≤ s) (ht : Near u (k + 1) E t) (hstep : Near u 1 s step) : Near u (k + 2) (E + s) (fl (t + step)) := by
  obtain ⟨a1, a2⟩ := ht
  obtain ⟨c1, c2⟩ := hstep
  rw [pow_one] at c1 c2
  have p1 : (1 - u) ^ (k + 1) ≤ 1 - u := pow_le_of_le_one (by linarith) (by linarith) (by omega)
  have p2 : 1 + u ≤ (1 + u) ^ (k + 1) := le_self_pow₀ (by linarith) (by omega)
  have q1 : 0 ≤ (1 - u) ^ (k + 1) := pow_nonneg (by linarith) _
  have t0 : 0 ≤ t := le_trans (mul_nonneg hE q1) a1
  have s0 : 0 ≤ step := le_trans (mul_nonneg hs (by linarith)) c1
  obtain ⟨b1, b2⟩ := h.bounds (x := t + step) (by linarith)
  constructor
  · refine le_trans ?_ b1
    rw [pow_succ, ← mul_assoc]
    exact mul_le_mul_of_nonneg_right (by nlinarith) (by linarith)
  · refine le_trans b2 ?_
    rw [pow_succ _ (k + 1), ← mul_assoc]
    exact mul_le_mul_of_nonneg_right (by nlinarith) (by linarith)

theorem fixedInnerFl_spec {fl : ℝ → ℝ} {u : ℝ} (h : Rounding fl u) (h0 : 0 ≤ u) (h1 : u ≤ 1) {s step : ℝ} (hs : 0 ≤ s)
    (hstep : Near u 1 s step) (i : ℤ) : ∀ (n k : ℕ) (E t : ℝ), 0 ≤ E → Near u (k + 1) E t →
    (fixedInnerFl fl step i n t).2.length = n ∧ Near u (k + n + 1) (E + n * s) (fixedInnerFl fl step i n t).1 ∧
    ∀ b < n, ∃ τ, (fixedInnerFl fl step i n t).2[b]? = some (τ, i) ∧ Near u (k + b + 2) (E + (b + 1) * s) τ := by
  intro n
  induction n with
  | zero => intro k E t _ ht; exact ⟨rfl, by simpa [fixedInnerFl] using ht, fun b hb => absurd hb (Nat.not_lt_zero b)⟩
  | succ n ih =>
    intro k E t hE ht
    have ht' := ht.add h h0 h1 hE hs hstep
    obtain ⟨i1, i2, i3⟩ := ih (k + 1) (E + s) (fl (t + step)) (by linarith) ht'
    refine ⟨by simp [fixedInnerFl, i1], ?_, fun b hb => ?_⟩
    · have : k + (n + 1) + 1 = k + 1 + n + 1 := by ring
      rw [fixedInnerFl, this, show E + ((n + 1 : ℕ) : ℝ) * s = E + s + n * s by push_cast; ring]
      exact i2
    · cases b with
      | zero => exact ⟨_, by simp [fixedInnerFl]; rfl, by simpa using ht'⟩
      | succ b =>
        obtain ⟨τ, e1, e2⟩ := i3 b (by omega)
        refine ⟨τ, by simpa [fixedInnerFl] using e1, ?_⟩
        rw [show k + (b + 1) + 2 = k + 1 + b + 2 by ring,
          show E + (((b + 1 : ℕ) : ℝ) + 1) * s = E + s + (b + 1) * s by push_cast; ring]
        exact e2

theorem fixedOuterFl_spec {fl : ℝ → ℝ} {u : ℝ} (h : Rounding fl u) (h0 : 0 ≤ u) (h1 : u ≤ 1) (n : ℕ) (hn : 1 ≤ n) :
    ∀ (Ts : List ℝ) (i : ℤ) (k : ℕ) (E t : ℝ), (∀ T ∈ Ts, 0 ≤ T) → 0 ≤ E → Near u (k + 1) E t →
    (fixedOuterFl fl n Ts i t).length = Ts.length * n ∧ ∀ a (ha : a < Ts.length), ∀ b < n, ∃ τ,
      (fixedOuterFl fl n Ts i t)[a * n + b]? = some (τ, i + a) ∧
      Near u (k + (a * n + b) + 2) (E + (Ts.take a).sum + (b + 1) * (Ts[a] / n)) τ := by
  intro Ts
  induction Ts with
  | nil => intro i k E t _ _ _; exact ⟨by simp [fixedOuterFl], fun a ha => absurd ha (Nat.not_lt_zero a)⟩
  | cons T Ts ih =>
    intro i k E t hT hE ht
    have hn0 : (0 : ℝ) < n := by exact_mod_cast hn
    have hs : 0 ≤ T / n := div_nonneg (hT T List.mem_cons_self) hn0.le
    have hstep : Near u 1 (T / n) (fl (T / n)) := by
      obtain ⟨b1, b2⟩ := h.bounds hs
      exact ⟨by simpa using b1, by simpa using b2⟩
    obtain ⟨i1, i2, i3⟩ := fixedInnerFl_spec h h0 h1 hs hstep i n k E t hE ht
    rw [mul_div_cancel₀ _ hn0.ne'] at i2
    obtain ⟨j1, j2⟩ := ih (i + 1) (k + n) (E + T) _ (fun T h => hT T (List.mem_cons_of_mem _ h))
      (by have := hT T List.mem_cons_self; linarith) i2
    refine ⟨by simp [fixedOuterFl, i1, j1]; ring, fun a ha b hb => ?_⟩
    simp only [fixedOuterFl]
    cases a with
    | zero =>
      obtain ⟨τ, e1, e2⟩ := i3 b hb
      refine ⟨τ, ?_, by simpa using e2⟩
      rw [List.getElem?_append_left (by rw [i1]; omega)]
      simpa using e1
    | succ a =>
      obtain ⟨τ, e1, e2⟩ := j2 a (by simpa using ha) b hb
      refine ⟨τ, ?_, ?_⟩
      · have hle : n ≤ (a + 1) * n + b := by nlinarith
        rw [List.getElem?_append_right (by rw [i1]; exact hle), i1,
          show (a + 1) * n + b - n = a * n + b by rw [Nat.succ_mul]; omega, e1]
        congr 2
        push_cast
        ring
      · rw [show k + ((a + 1) * n + b) + 2 = k + n + (a * n + b) + 2 by ring]
        simpa [add_assoc, add_left_comm] using e2

/-- C73, fixed number of points. With rounded arithmetic `computeDiscretizedTimeFixed` returns as many samples as in
exact arithmetic, with the same phases; every sample is the exact one up to one rounding per sample before it, and the
last one is the total duration as computed. -/
theorem C73_fixed {fl : ℝ → ℝ} {u : ℝ} (h : Rounding fl u) (h0 : 0 ≤ u) (h1 : u ≤ 1) (total : ℝ) (Ts : List ℝ)
    (hT : ∀ T ∈ Ts, 0 ≤ T) (n : ℕ) (hn : 1 ≤ n) (hne : Ts ≠ []) :
    (computeDiscretizedTimeFixedFl fl total Ts n).length = Ts.length * n + 1 ∧
    (computeDiscretizedTimeFixedFl fl total Ts n).head? = some (0, 0) ∧
    (computeDiscretizedTimeFixedFl fl total Ts n).getLast? = some (total, (Ts.length : ℤ) - 1) ∧
    ∀ a (ha : a < Ts.length), ∀ b < n, a * n + b + 1 < Ts.length * n → ∃ τ,
      (computeDiscretizedTimeFixedFl fl total Ts n)[a * n + b + 1]? = some (τ, (a : ℤ)) ∧
      ((Ts.take a).sum + (b + 1) * (Ts[a] / n)) * (1 - u) ^ (a * n + b + 2) ≤ τ ∧
      τ ≤ ((Ts.take a).sum + (b + 1) * (Ts[a] / n)) * (1 + u) ^ (a * n + b + 2) := by
  obtain ⟨hl, hs⟩ := fixedOuterFl_spec h h0 h1 n hn Ts 0 0 0 0 hT le_rfl (by simp [Near])
  have hpos : 0 < Ts.length * n := Nat.mul_pos (List.length_pos_iff.mpr hne) hn
  refine ⟨by simp [computeDiscretizedTimeFixedFl, hl], ?_, by simp [computeDiscretizedTimeFixedFl], fun a ha b hb hab => ?_⟩
  · cases hL : fixedOuterFl fl n Ts 0 0 with
    | nil => rw [hL, List.length_nil] at hl; omega
    | cons q l => simp [computeDiscretizedTimeFixedFl, hL]
  · obtain ⟨τ, e1, e2⟩ := hs a ha b hb
    refine ⟨τ, ?_, by simpa [Near] using e2⟩
    rw [computeDiscretizedTimeFixedFl, List.getElem?_append_left (by simp [hl]; omega), List.getElem?_dropLast,
      if_pos (by simp [hl]; omega)]
    simpa using e1

/-- Non-vacuity of C73_fixed. -/
example : (∀ T ∈ [1, (1 : ℝ) / 2], 0 ≤ T) ∧ (2 : ℝ) ^ (-53 : ℤ) ≤ 1 ∧ Rounding nearest53 (2 ^ (-53 : ℤ)) :=
  ⟨by norm_num, by norm_num, nearest53_rounding⟩

/-! ## C74: the continuous formulation and the total duration -/

theorem contLoopFl_id (pData : ProblemData) (useDD : Bool) (T : ℝ) (c ddc : List Coefs) (w : List Wp6) :
    ∀ (Ts : List ℝ) (i : ℕ) (t : ℝ) (cSize : ℕ) (st : Asm) (sf : AsmF),
    contLoopFl id pData useDD T c ddc w Ts i t cSize st sf = contLoop pData useDD T c ddc w Ts i t cSize st sf := by
  intro Ts
  induction Ts with
  | nil => intros; rfl
  | cons D Ts ih => intros; simp only [contLoopFl, contLoop, ih, id]

/-- C74. When the sum of the first durations, accumulated with rounding, exceeds the total duration the curves were built
with, the loop of the continuous formulation does not return. -/
theorem C74_exceeds (fl : ℝ → ℝ) (pData : ProblemData) (useDD : Bool) (T : ℝ) (c ddc : List Coefs) (w : List Wp6)
    (Ts : List ℝ) (cSize : ℕ) (st : Asm) (sf : AsmF) (j : ℕ) (hj : j < Ts.length) (hT : T < roundSum fl Ts (j + 1)) :
    ∀ r, contLoopFl fl pData useDD T c ddc w Ts 0 0 cSize st sf ≠ .ok r := by
  have H : ∀ (Ts : List ℝ) (j i : ℕ) (t : ℝ) (cSize : ℕ) (st : Asm) (sf : AsmF), j < Ts.length →
      T < (Ts.take (j + 1)).foldl (fun s T => fl (s + T)) t →
      ∀ r, contLoopFl fl pData useDD T c ddc w Ts i t cSize st sf ≠ .ok r := by
    intro Ts
    induction Ts with
    | nil => intro j _ _ _ _ _ hj; exact absurd hj (Nat.not_lt_zero j)
    | cons D Ts ih =>
      intro j i t cSize st sf hj hT r hr
      rw [contLoopFl] at hr
      obtain ⟨cs, h1, hr⟩ := Out.bind_eq_ok.mp hr
      obtain ⟨ddcs, h2, hr⟩ := Out.bind_eq_ok.mp hr
      obtain ⟨ws, h3, hr⟩ := Out.bind_eq_ok.mp hr
      obtain ⟨q, h4, hr⟩ := Out.bind_eq_ok.mp hr
      cases j with
      | zero =>
        rw [extractCoefs] at h1
        obtain ⟨l, h1, -⟩ := Out.bind_eq_ok.mp h1
        rw [extract, if_pos] at h1
        · exact absurd h1 (by simp)
        · refine Or.inr (Or.inr (Or.inr ?_))
          rw [add_comm D t]
          simpa using hT
      | succ j => exact ih j _ _ _ _ _ (by simpa using hj) (by simpa using hT) r hr
  exact H Ts j 0 0 cSize st sf hj hT

/-- The sum of four numbers as a vectorised reduction with two lanes computes it. -/
def laneSum (fl : ℝ → ℝ) (a b c d : ℝ) : ℝ := fl (fl (a + c) + fl (b + d))

/-- The double closest to `0.1`. -/
noncomputable def tenth : ℝ := 3602879701896397 / 2 ^ 55

/-- It is the rounding of one tenth. -/
theorem nearest53_tenth : nearest53 (1 / 10) = tenth := by
  rw [nearest53_eq (-4) 7205759403792794] <;> norm_num [tenth]

/-- C74. This happens in double precision: phases of 0.5, 0.5, 0.1 and 0.1 seconds, whose total is computed with two
lanes. The continuous formulation never returns, whatever the problem. -/
theorem C74_refuted (pData : ProblemData) (useDD : Bool) (c ddc : List Coefs) (w : List Wp6) (cSize : ℕ) (st : Asm)
    (sf : AsmF) : ∀ r, contLoopFl nearest53 pData useDD (laneSum nearest53 (1 / 2) (1 / 2) tenth tenth) c ddc w
      [1 / 2, 1 / 2, tenth, tenth] 0 0 cSize st sf ≠ .ok r := by
  apply C74_exceeds nearest53 pData useDD _ c ddc w _ cSize st sf 3 (by simp)
  have h1 : nearest53 (1 / 2) = 1 / 2 := by
    rw [nearest53_eq (-1) (2 ^ 52) (by norm_num) (by norm_num) (by norm_num) (by norm_num)]; norm_num
  have h2 : nearest53 (1 / 2 + tenth) = 5404319552844595 / 2 ^ 53 := by
    rw [nearest53_eq (-1) 5404319552844595] <;> norm_num [tenth]
  have h3 : nearest53 (5404319552844595 / 2 ^ 53 + 5404319552844595 / 2 ^ 53) = 5404319552844595 / 2 ^ 52 := by
    rw [nearest53_eq 0 5404319552844595] <;> norm_num
  have h4 : nearest53 (1 + tenth) = 4953959590107546 / 2 ^ 52 := by
    rw [nearest53_eq 0 4953959590107546] <;> norm_num [tenth]
  have h5 : nearest53 (4953959590107546 / 2 ^ 52 + tenth) = 5404319552844596 / 2 ^ 52 := by
    rw [nearest53_eq 0 5404319552844596] <;> norm_num [tenth]
  have e : roundSum nearest53 [1 / 2, 1 / 2, tenth, tenth] (3 + 1) = 5404319552844596 / 2 ^ 52 := by
    simp only [roundSum, List.take_succ_cons, List.take_zero, List.foldl_cons, List.foldl_nil, zero_add, h1]
    rw [show (1 / 2 : ℝ) + 1 / 2 = 1 by norm_num, nearest53_one, h4, h5]
  rw [e, laneSum, h2, h3]
  norm_num

end Verif
