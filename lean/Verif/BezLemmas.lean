import Verif.Spec

/-!
# Facts about Bernstein sums

Helper lemmas on the specification notion `bez`: de Casteljau recursion, linearity,
derivative, subdivision, convex hull.
-/

namespace Verif
open Finset

variable {E : Type*} [AddCommGroup E] [Module ℝ E]

theorem bez_zero (p : ℕ → E) (t : ℝ) : bez 0 p t = p 0 := by
  simp [bez]

theorem bez_succ (n : ℕ) (p : ℕ → E) (t : ℝ) :
    bez (n + 1) p t = (1 - t) • bez n p t + t • bez n (fun i => p (i + 1)) t := by
  unfold bez
  conv_lhs => rw [sum_range_succ' _ (n + 1), sum_range_succ _ n]
  conv_rhs => rw [smul_sum, smul_sum, sum_range_succ' _ n]
  conv_rhs => arg 2; rw [sum_range_succ _ n]
  have h : ∀ i ∈ range n, (((n + 1).choose (i + 1) : ℝ) * t ^ (i + 1) * (1 - t) ^ (n + 1 - (i + 1))) • p (i + 1)
      = (1 - t) • (((n.choose (i+1) : ℝ) * t ^ (i+1) * (1 - t) ^ (n - (i+1))) • p (i+1))
        + t • (((n.choose i : ℝ) * t ^ i * (1 - t) ^ (n - i)) • p (i + 1)) := by
    intro i hi
    have hi' := mem_range.mp hi
    obtain ⟨k, rfl⟩ : ∃ k, n = i + 1 + k := ⟨n - (i + 1), by omega⟩
    have e1 : i + 1 + k + 1 - (i + 1) = k + 1 := by omega
    have e2 : i + 1 + k - (i + 1) = k := by omega
    have e3 : i + 1 + k - i = k + 1 := by omega
    rw [e1, e2, e3, Nat.choose_succ_succ]
    push_cast
    module
  rw [sum_congr rfl h, sum_add_distrib]
  simp only [Nat.choose_self, Nat.choose_zero_right, Nat.sub_self, Nat.cast_one, pow_zero,
    Nat.sub_zero, mul_one, one_mul]
  module

theorem bez_congr {n : ℕ} {p q : ℕ → E} {t : ℝ} (h : ∀ i ≤ n, p i = q i) : bez n p t = bez n q t := by
  unfold bez
  apply sum_congr rfl
  intro i hi
  rw [h i (by have := mem_range.mp hi; omega)]

theorem bez_add (n : ℕ) (p q : ℕ → E) (t : ℝ) :
    bez n (fun i => p i + q i) t = bez n p t + bez n q t := by
  simp [bez, smul_add, sum_add_distrib]

theorem bez_smul (n : ℕ) (a : ℝ) (p : ℕ → E) (t : ℝ) :
    bez n (fun i => a • p i) t = a • bez n p t := by
  unfold bez
  rw [smul_sum]
  apply sum_congr rfl
  intros
  rw [smul_comm]

theorem bez_sub (n : ℕ) (p q : ℕ → E) (t : ℝ) :
    bez n (fun i => p i - q i) t = bez n p t - bez n q t := by
  simp [bez, smul_sub, sum_sub_distrib]

/-- Linear maps commute with Bernstein sums. -/
theorem bez_map {F : Type*} [AddCommGroup F] [Module ℝ F] (f : E →ₗ[ℝ] F) (n : ℕ) (p : ℕ → E)
    (t : ℝ) : f (bez n p t) = bez n (fun i => f (p i)) t := by
  simp [bez, map_sum]

theorem bez_apply {ι : Type*} (n : ℕ) (p : ℕ → ι → ℝ) (t : ℝ) (k : ι) :
    bez n p t k = bez n (fun i => p i k) t := by
  simp [bez, Finset.sum_apply]

/-- The Bernstein weights sum to one. -/
theorem bez_const (n : ℕ) (a : E) (t : ℝ) : bez n (fun _ => a) t = a := by
  induction n with
  | zero => simp [bez_zero]
  | succ n ih => rw [bez_succ, ih]; module

theorem bez_at_zero (n : ℕ) (p : ℕ → E) : bez n p 0 = p 0 := by
  induction n with
  | zero => simp [bez_zero]
  | succ n ih => rw [bez_succ, ih]; simp

theorem bez_at_one (n : ℕ) (p : ℕ → E) : bez n p 1 = p n := by
  induction n generalizing p with
  | zero => simp [bez_zero]
  | succ n ih => rw [bez_succ, ih, ih]; simp

/-- Convex hull property in scalar form. -/
theorem bez_le {n : ℕ} {p : ℕ → ℝ} {t b : ℝ} (h0 : 0 ≤ t) (h1 : t ≤ 1)
    (hp : ∀ i ≤ n, p i ≤ b) : bez n p t ≤ b := by
  induction n generalizing p with
  | zero => rw [bez_zero]; exact hp 0 le_rfl
  | succ n ih =>
    rw [bez_succ]
    have a1 := ih (p := p) (fun i hi => hp i (by omega))
    have a2 := ih (p := fun i => p (i + 1)) (fun i hi => hp (i + 1) (by omega))
    simp only [smul_eq_mul]
    nlinarith [mul_le_mul_of_nonneg_left a1 (by linarith : (0:ℝ) ≤ 1 - t),
      mul_le_mul_of_nonneg_left a2 h0]

theorem le_bez {n : ℕ} {p : ℕ → ℝ} {t b : ℝ} (h0 : 0 ≤ t) (h1 : t ≤ 1)
    (hp : ∀ i ≤ n, b ≤ p i) : b ≤ bez n p t := by
  have := bez_le (n := n) (p := fun i => (-1 : ℝ) • p i) (b := -b) h0 h1
    (by intro i hi; have := hp i hi; simp only [smul_eq_mul]; linarith)
  rw [bez_smul] at this
  simp only [smul_eq_mul] at this
  linarith

/-- Subdivision, left part: control points `k ↦ bez k p a` give the curve restricted to `[0,a]`. -/
theorem bez_split_left (n : ℕ) (p : ℕ → E) (a u : ℝ) :
    bez n (fun k => bez k p a) u = bez n p (u * a) := by
  induction n generalizing p with
  | zero => simp [bez_zero]
  | succ n ih =>
    rw [bez_succ]
    have : (fun i => bez (i + 1) p a) =
        fun i => (1 - a) • bez i p a + a • bez i (fun j => p (j + 1)) a := by
      funext i; rw [bez_succ]
    rw [this, bez_add, bez_smul, bez_smul, ih, ih, bez_succ]
    module

/-- Subdivision, right part: control points `k ↦ bez (n-k) (shift k p) a` give the curve
restricted to `[a,1]`. -/
theorem bez_split_right (n : ℕ) (p : ℕ → E) (a u : ℝ) :
    bez n (fun k => bez (n - k) (fun j => p (k + j)) a) u = bez n p (a + u * (1 - a)) := by
  induction n generalizing p with
  | zero => simp [bez_zero]
  | succ n ih =>
    rw [bez_succ]
    have e1 : bez n (fun k => bez (n + 1 - k) (fun j => p (k + j)) a) u
        = bez n (fun k => (1 - a) • bez (n - k) (fun j => p (k + j)) a
            + a • bez (n - k) (fun j => p (k + j + 1)) a) u := by
      apply bez_congr
      intro k hk
      rw [show n + 1 - k = (n - k) + 1 by omega, bez_succ]
      rfl
    have e2 : (fun k => bez (n + 1 - (k + 1)) (fun j => p (k + 1 + j)) a)
        = fun k => bez (n - k) (fun j => p (k + j + 1)) a := by
      funext k
      rw [show n + 1 - (k + 1) = n - k by omega]
      congr 1
      funext j
      congr 1
      omega
    have e3 := ih (fun j => p (j + 1))
    rw [e1, e2, bez_add, bez_smul, bez_smul, ih, e3, bez_succ]
    module

variable {F : Type*} [NormedAddCommGroup F] [NormedSpace ℝ F]

/-- Derivative of a Bernstein sum: the hodograph. -/
theorem bez_hasDerivAt (n : ℕ) (p : ℕ → F) (t : ℝ) :
    HasDerivAt (bez (n + 1) p) (((n : ℝ) + 1) • bez n (fun i => p (i + 1) - p i) t) t := by
  induction n generalizing p with
  | zero =>
    have h : bez 1 p = fun t => (1 - t) • p 0 + t • p 1 := by
      funext s; rw [bez_succ, bez_zero, bez_zero]
    have hf : bez (0 + 1) p = fun t => (1 - t) • p 0 + t • p 1 := h
    rw [hf, bez_zero]
    have d1 := ((hasDerivAt_id t).const_sub 1).smul_const (p 0)
    have d2 := (hasDerivAt_id t).smul_const (p 1)
    refine (d1.add d2).congr_deriv ?_
    simp
    abel
  | succ n ih =>
    have h : bez (n + 1 + 1) p = fun t => (1 - t) • bez (n + 1) p t + t • bez (n + 1) (fun i => p (i + 1)) t := by
      funext s; rw [bez_succ]
    rw [h]
    have d1 := ((hasDerivAt_id t).const_sub 1).smul (ih p)
    have d2 := (hasDerivAt_id t).smul (ih (fun i => p (i + 1)))
    have d := d1.add d2
    have e : bez (n + 1) (fun i => p (i + 1) - p i) t
        = bez (n + 1) (fun i => p (i + 1)) t - bez (n + 1) p t := bez_sub _ _ _ _
    have e2 : bez (n + 1) (fun i => p (i + 1) - p i) t
        = (1 - t) • bez n (fun i => p (i + 1) - p i) t
          + t • bez n (fun i => p (i + 1 + 1) - p (i + 1)) t := bez_succ _ _ _
    refine d.congr_deriv ?_
    simp only [id]
    have e3 : ((n + 1 : ℕ) : ℝ) + 1 = (n : ℝ) + 2 := by push_cast; ring
    rw [e3]
    have e4 : ((n : ℝ) + 2) • bez (n + 1) (fun i => p (i + 1) - p i) t
       = bez (n + 1) (fun i => p (i + 1) - p i) t
        + ((n : ℝ) + 1) • bez (n + 1) (fun i => p (i + 1) - p i) t := by module
    rw [e4]
    nth_rewrite 1 [e]
    rw [e2]
    module

/-- Time derivative of `curve`. -/
theorem curve_hasDerivAt (n : ℕ) (p : ℕ → V3) (T s : ℝ) :
    HasDerivAt (curve (n + 1) p T)
      (curve n (fun i => (((n : ℝ) + 1) / T) • (p (i + 1) - p i)) T s) s := by
  unfold curve
  rw [bez_smul]
  have d := (bez_hasDerivAt n p (s / T)).scomp s ((hasDerivAt_id s).div_const T)
  refine d.congr_deriv ?_
  rw [smul_smul]
  congr 1
  ring

/-- Control points of the derivative curve. -/
noncomputable def hodo (n : ℕ) (p : ℕ → V3) (T : ℝ) : ℕ → V3 :=
  fun i => ((n : ℝ) / T) • (p (i + 1) - p i)

theorem curve_isDeriv (n : ℕ) (p : ℕ → V3) (T : ℝ) :
    IsDeriv (curve (n + 1) p T) (curve n (hodo (n + 1) p T) T) := by
  intro s
  have := curve_hasDerivAt n p T s
  unfold hodo
  push_cast
  exact this

theorem IsDeriv.unique {c c' c'' : ℝ → V3} (h : IsDeriv c c') (h' : IsDeriv c c'') : c' = c'' := by
  funext s
  exact (h s).unique (h' s)

end Verif
