import Verif.Model.EndEffector
import Verif.SpecEnd

/-!
# Accumulated quadratic costs of the end effector problem
-/

namespace Verif
open Matrix

theorem dot_add_left (u v w : V3) : dot (u + v) w = dot u w + dot v w := by
  simp only [dot, Pi.add_apply]; ring

theorem dot_smul_left (a : ℝ) (u w : V3) : dot (a • u) w = a * dot u w := by
  simp only [dot, Pi.smul_apply, smul_eq_mul]; ring

theorem dot_symm (u w : V3) : dot u w = dot w u := by
  simp only [dot]; ring

theorem dot_fin_sum_left {K : ℕ} (f : Fin K → ℝ) (X : ℕ → V3) (w : V3) :
    dot (∑ j, f j • X j.val) w = ∑ j, f j * dot (X j.val) w := by
  simp only [dot, Finset.sum_apply, Pi.smul_apply, smul_eq_mul, Finset.sum_mul, ← Finset.sum_add_distrib]
  exact Finset.sum_congr rfl fun j _ => by ring

/-- One accumulation step adds the squared distance to `p`, up to a constant. -/
theorem blockForm_addSquare {K : ℕ} (c : BlockCost K) (w : WpB K) (p : V3) (X : ℕ → V3) :
    blockForm (addSquare c w p).1 (addSquare c w p).2 X
      = blockForm c.1 c.2 X + (sq3 (w.at X - p) - sq3 (w.second - p)) := by
  have e : w.at X - p = ∑ j, w.first j • X j.val + (w.second - p) := by rw [WpB.at]; abel
  have h1 : dot (∑ j, w.first j • X j.val) (∑ j, w.first j • X j.val)
      = ∑ a, ∑ b, w.first a * w.first b * dot (X a.val) (X b.val) := by
    rw [dot_fin_sum_left]
    refine Finset.sum_congr rfl fun a _ => ?_
    rw [dot_symm, dot_fin_sum_left, Finset.mul_sum]
    exact Finset.sum_congr rfl fun b _ => by rw [dot_symm (X b.val)]; ring
  have h2 : dot (∑ j, w.first j • X j.val) (w.second - p) = ∑ a, dot (w.first a • (w.second - p)) (X a.val) := by
    rw [dot_fin_sum_left]
    exact Finset.sum_congr rfl fun a _ => by rw [dot_smul_left, dot_symm]
  rw [e, sq3, sq3]
  generalize hq : w.second - p = q at *
  rw [dot_add_left, dot_symm _ (_ + q), dot_symm q (_ + q), dot_add_left, dot_add_left, h1, dot_symm q, h2]
  unfold blockForm addSquare
  dsimp only
  simp only [add_mul, Finset.sum_add_distrib, dot_add_left, mul_add, hq]
  ring

/-- The sampled cost. -/
theorem sampleLoop_square (flag : Flag) (eval : ℝ → Out WpS) (step : ℝ) (W : ℝ → WpB (dimVarPts flag))
    (hW : ∀ t, eval t = .ok ⟨_, W t⟩) :
    ∀ (n i : ℕ) (c : BlockCost (dimVarPts flag)), ∃ c' C,
      sampleLoop flag eval (fun c w => addSquare c w 0) step n i c = .ok c' ∧
      ∀ X, blockForm c'.1 c'.2 X = blockForm c.1 c.2 X + ∑ k ∈ Finset.range n, sq3 ((W (((i + k : ℕ) : ℝ) * step)).at X) + C := by
  intro n
  induction n with
  | zero => intro i c; exact ⟨c, 0, rfl, fun X => by simp⟩
  | succ n ih =>
    intro i c
    obtain ⟨c', C, h1, h2⟩ := ih (i + 1) (addSquare c (W ((i : ℝ) * step)) 0)
    refine ⟨c', C - sq3 (W ((i : ℝ) * step)).second, ?_, fun X => ?_⟩
    · rw [sampleLoop, hW]
      simp only [Out.ok_bind, asPt, dif_pos]
      exact h1
    · rw [h2, blockForm_addSquare, Finset.sum_range_succ', sub_zero, sub_zero]
      simp only [Nat.add_zero, show ∀ k, i + 1 + k = i + (k + 1) from fun k => by omega]
      ring

/-- The distance cost before normalisation. -/
theorem distanceLoop_spec (flag : Flag) (pi : List V3) (step : ℝ) (W : ℝ → WpB (dimVarPts flag))
    (hW : ∀ t, evaluateCurveWaypointAtTime flag pi t = .ok ⟨_, W t⟩) :
    ∀ (ps : List V3) (i : ℕ) (c : BlockCost (dimVarPts flag)), ∃ c' C,
      distanceLoop flag pi step ps i c = .ok c' ∧
      (∀ a b, c'.1 a b = c.1 a b + ∑ k ∈ Finset.range ps.length,
        (W (((i + k : ℕ) : ℝ) * step)).first a * (W (((i + k : ℕ) : ℝ) * step)).first b) ∧
      ∀ X, blockForm c'.1 c'.2 X = blockForm c.1 c.2 X + ∑ k ∈ Finset.range ps.length,
        sq3 ((W (((i + k : ℕ) : ℝ) * step)).at X - ps.getD k 0) + C := by
  intro ps
  induction ps with
  | nil => intro i c; exact ⟨c, 0, rfl, by simp, fun X => by simp⟩
  | cons p ps ih =>
    intro i c
    obtain ⟨c', C, h1, h3, h2⟩ := ih (i + 1) (addSquare c (W ((i : ℝ) * step)) p)
    refine ⟨c', C - sq3 ((W ((i : ℝ) * step)).second - p), ?_, fun a b => ?_, fun X => ?_⟩
    · rw [distanceLoop, hW]
      simp only [Out.ok_bind, asPt, dif_pos]
      exact h1
    · rw [h3, List.length_cons, Finset.sum_range_succ']
      simp only [Nat.add_zero, show ∀ k, i + 1 + k = i + (k + 1) from fun k => by omega, addSquare]
      ring
    · rw [h2, blockForm_addSquare, List.length_cons, Finset.sum_range_succ']
      simp only [Nat.add_zero, show ∀ k, i + 1 + k = i + (k + 1) from fun k => by omega, List.getD_cons_succ,
        List.getD_cons_zero]
      ring

theorem blockForm_zero {K : ℕ} (X : ℕ → V3) : blockForm (0 : Matrix (Fin K) (Fin K) ℝ) 0 X = 0 := by
  simp [blockForm, dot]

theorem blockForm_normalize {K : ℕ} (H : Matrix (Fin K) (Fin K) ℝ) (g : Fin K → V3) (X : ℕ → V3) :
    blockForm (normalizeCost H g).1 (normalizeCost H g).2 X = (blockNorm H)⁻¹ * blockForm H g X := by
  unfold blockForm normalizeCost
  dsimp only
  have e1 : ∀ a : Fin K, ∑ b, H a b / blockNorm H * dot (X a.val) (X b.val)
      = (blockNorm H)⁻¹ * ∑ b, H a b * dot (X a.val) (X b.val) := fun a => by
    rw [Finset.mul_sum]
    exact Finset.sum_congr rfl fun b _ => by ring
  have e2 : ∀ a : Fin K, dot (fun k => g a k / blockNorm H) (X a.val) = (blockNorm H)⁻¹ * dot (g a) (X a.val) := fun a => by
    simp only [dot]; ring
  simp only [e1, e2, ← Finset.mul_sum]
  ring

theorem blockNorm_pos {K : ℕ} (H : Matrix (Fin K) (Fin K) ℝ) (a b : Fin K) (h : H a b ≠ 0) : 0 < blockNorm H := by
  unfold blockNorm
  rw [Real.sqrt_pos]
  have h0 : ∀ i ∈ Finset.univ, 0 ≤ ∑ j, 3 * H i j ^ 2 := fun i _ => Finset.sum_nonneg fun j _ => by positivity
  refine lt_of_lt_of_le ?_ (Finset.single_le_sum h0 (Finset.mem_univ a))
  have h1 : ∀ j ∈ Finset.univ, 0 ≤ 3 * H a j ^ 2 := fun j _ => by positivity
  refine lt_of_lt_of_le ?_ (Finset.single_le_sum h1 (Finset.mem_univ b))
  positivity

end Verif
