import Verif.WpProofs
import Verif.FlagLemmas

/-!
# Helper identities for C04: wrench waypoints of the sets with exact coefficients
-/

namespace Verif
open Matrix

/-- Second derivative control polygon. -/
noncomputable def accPt (n : ℕ) (q : ℕ → V3) (T : ℝ) : ℕ → V3 := hodo (n - 1) (hodo n q T) T

theorem skew_bound {a b : V3} {A B : ℝ} (ha : ∀ k, |a k| ≤ A) (hb : ∀ k, |b k| ≤ B) (k : Fin 3) :
    |(skew a *ᵥ b) k| ≤ 2 * (A * B) := by
  have hA : 0 ≤ A := le_trans (abs_nonneg _) (ha 0)
  have h : ∀ i j, |a i * b j| ≤ A * B := fun i j => by
    rw [abs_mul]; exact mul_le_mul (ha i) (hb j) (abs_nonneg _) hA
  have h0 := fun i j => abs_le.mp (h i j)
  have := h0 0 1; have := h0 0 2; have := h0 1 0; have := h0 1 2; have := h0 2 0; have := h0 2 1
  rw [abs_le]
  fin_cases k <;> simp [skew, mulVec, dotProduct, Fin.sum_univ_three] <;> constructor <;> linarith

theorem skew_bound_T {a b : V3} {A B T : ℝ} (hT : 0 ≤ T ^ 2) (ha : ∀ k, |a k| ≤ A)
    (hb : ∀ k, |b k| ≤ B) (k : Fin 3) :
    |T ^ 2 * (skew a *ᵥ b) k| ≤ 2 * (T ^ 2 * (A * B)) := by
  rw [abs_mul, abs_of_nonneg hT]
  have := mul_le_mul_of_nonneg_left (skew_bound ha hb k) hT
  linarith

theorem c0_dc0_c1.head_eq (pi : ℕ → V3) (g x : V3) (T t : ℝ) (hT : T ≠ 0) :
    headCurve (c0_dc0_c1.computeWwaypoints pi g T) x t
      = bez 1 (accPt 3 (fill 11#32 pi x) T) t := by
  funext k
  have hl : (c0_dc0_c1.computeWwaypoints pi g T).length - 1 = 3 := rfl
  rw [headCurve, hl, bez_apply, bez_apply, bezS3, bezS1]
  fin_cases k <;>
    simp [c0_dc0_c1.computeWwaypoints, Wp6.headAt, accPt, hodo, fill, freeSlots, mulVec,
      dotProduct, Fin.sum_univ_three, skew, Matrix.one_apply] <;> field_simp <;> ring

theorem c0_dc0_c1.tail_eq (pi : ℕ → V3) (g x : V3) (T t : ℝ) (hT : T ≠ 0) :
    tailCurve (c0_dc0_c1.computeWwaypoints pi g T) x t
      = wrenchTail g (bez 3 (fill 11#32 pi x) t) (bez 1 (accPt 3 (fill 11#32 pi x) T) t) := by
  funext k
  have hl : (c0_dc0_c1.computeWwaypoints pi g T).length - 1 = 3 := rfl
  rw [tailCurve, hl, bez_apply, bezS3, wrenchTail, cr, cr, cross_apply, cross_apply]
  fin_cases k <;>
    simp [c0_dc0_c1.computeWwaypoints, Wp6.tailAt, accPt, hodo, fill, freeSlots, mulVec,
      dotProduct, Fin.sum_univ_three, skew, Matrix.one_apply, bez_apply, bezS3, bezS1] <;>
    field_simp <;> ring

theorem c0_dc0_dc1.head_eq (pi : ℕ → V3) (g x : V3) (T t : ℝ) (hT : T ≠ 0) :
    headCurve (c0_dc0_dc1.computeWwaypoints pi g T) x t
      = bez 1 (accPt 3 (fill 19#32 pi x) T) t := by
  funext k
  have hl : (c0_dc0_dc1.computeWwaypoints pi g T).length - 1 = 4 := rfl
  rw [headCurve, hl, bez_apply, bez_apply, bezS4, bezS1]
  fin_cases k <;>
    simp [c0_dc0_dc1.computeWwaypoints, Wp6.headAt, accPt, hodo, fill, freeSlots, mulVec,
      dotProduct, Fin.sum_univ_three, skew, Matrix.one_apply] <;> field_simp <;> ring

theorem c0_dc0_dc1.tail_eq (pi : ℕ → V3) (g x : V3) (T t : ℝ) (hT : T ≠ 0) :
    tailCurve (c0_dc0_dc1.computeWwaypoints pi g T) x t
      = wrenchTail g (bez 3 (fill 19#32 pi x) t) (bez 1 (accPt 3 (fill 19#32 pi x) T) t) := by
  funext k
  have hl : (c0_dc0_dc1.computeWwaypoints pi g T).length - 1 = 4 := rfl
  rw [tailCurve, hl, bez_apply, bezS4, wrenchTail, cr, cr, cross_apply, cross_apply]
  simp only [c0_dc0_dc1.computeWwaypoints, neg_mulVec]
  fin_cases k <;>
    simp [Wp6.tailAt, accPt, hodo, fill, freeSlots, mulVec,
      dotProduct, Fin.sum_univ_three, skew, eigenCross, Matrix.one_apply, bez_apply, bezS3, bezS1] <;>
    field_simp <;> ring

theorem c0_dc0_dc1_c1.head_eq (pi : ℕ → V3) (g x : V3) (T t : ℝ) (hT : T ≠ 0) :
    headCurve (c0_dc0_dc1_c1.computeWwaypoints pi g T) x t
      = bez 2 (accPt 4 (fill 27#32 pi x) T) t := by
  funext k
  have hl : (c0_dc0_dc1_c1.computeWwaypoints pi g T).length - 1 = 5 := rfl
  rw [headCurve, hl, bez_apply, bez_apply, bezS5, bezS2]
  fin_cases k <;>
    simp [c0_dc0_dc1_c1.computeWwaypoints, Wp6.headAt, accPt, hodo, fill, freeSlots, mulVec,
      dotProduct, Fin.sum_univ_three, skew, Matrix.one_apply] <;> field_simp <;> ring

theorem c0_dc0_dc1_c1.tail_eq (pi : ℕ → V3) (g x : V3) (T t : ℝ) (hT : T ≠ 0) :
    tailCurve (c0_dc0_dc1_c1.computeWwaypoints pi g T) x t
      = wrenchTail g (bez 4 (fill 27#32 pi x) t) (bez 2 (accPt 4 (fill 27#32 pi x) T) t) := by
  funext k
  have hl : (c0_dc0_dc1_c1.computeWwaypoints pi g T).length - 1 = 5 := rfl
  rw [tailCurve, hl, bez_apply, bezS5, wrenchTail, cr, cr, cross_apply, cross_apply]
  fin_cases k <;>
    simp [c0_dc0_dc1_c1.computeWwaypoints, Wp6.tailAt, accPt, hodo, fill, freeSlots, mulVec,
      dotProduct, Fin.sum_univ_three, skew, Matrix.one_apply, bez_apply, bezS4, bezS2] <;>
    field_simp <;> ring

theorem c0_dc0_ddc0.head_eq (pi : ℕ → V3) (g x : V3) (T t : ℝ) (hT : T ≠ 0) :
    headCurve (c0_dc0_ddc0.computeWwaypoints pi g T) x t
      = bez 1 (accPt 3 (fill 7#32 pi x) T) t := by
  funext k
  have hl : (c0_dc0_ddc0.computeWwaypoints pi g T).length - 1 = 3 := rfl
  rw [headCurve, hl, bez_apply, bez_apply, bezS3, bezS1]
  fin_cases k <;>
    simp [c0_dc0_ddc0.computeWwaypoints, Wp6.headAt, accPt, hodo, fill, freeSlots, mulVec,
      dotProduct, Fin.sum_univ_three, skew, Matrix.one_apply] <;> field_simp <;> ring

theorem c0_dc0_ddc0.tail_eq (pi : ℕ → V3) (g x : V3) (T t : ℝ) (hT : T ≠ 0) :
    tailCurve (c0_dc0_ddc0.computeWwaypoints pi g T) x t
      = wrenchTail g (bez 3 (fill 7#32 pi x) t) (bez 1 (accPt 3 (fill 7#32 pi x) T) t) := by
  funext k
  have hl : (c0_dc0_ddc0.computeWwaypoints pi g T).length - 1 = 3 := rfl
  rw [tailCurve, hl, bez_apply, bezS3, wrenchTail, cr, cr, cross_apply, cross_apply]
  fin_cases k <;>
    simp [c0_dc0_ddc0.computeWwaypoints, Wp6.tailAt, accPt, hodo, fill, freeSlots, mulVec,
      dotProduct, Fin.sum_univ_three, skew, Matrix.one_apply, bez_apply, bezS3, bezS1] <;>
    field_simp <;> ring

theorem c0_dc0_ddc0_c1.head_eq (pi : ℕ → V3) (g x : V3) (T t : ℝ) (hT : T ≠ 0) :
    headCurve (c0_dc0_ddc0_c1.computeWwaypoints pi g T) x t
      = bez 2 (accPt 4 (fill 15#32 pi x) T) t := by
  funext k
  have hl : (c0_dc0_ddc0_c1.computeWwaypoints pi g T).length - 1 = 5 := rfl
  rw [headCurve, hl, bez_apply, bez_apply, bezS5, bezS2]
  fin_cases k <;>
    simp [c0_dc0_ddc0_c1.computeWwaypoints, Wp6.headAt, accPt, hodo, fill, freeSlots, mulVec,
      dotProduct, Fin.sum_univ_three, skew, Matrix.one_apply] <;> field_simp <;> ring

theorem c0_dc0_ddc0_c1.tail_eq (pi : ℕ → V3) (g x : V3) (T t : ℝ) (hT : T ≠ 0) :
    tailCurve (c0_dc0_ddc0_c1.computeWwaypoints pi g T) x t
      = wrenchTail g (bez 4 (fill 15#32 pi x) t) (bez 2 (accPt 4 (fill 15#32 pi x) T) t) := by
  funext k
  have hl : (c0_dc0_ddc0_c1.computeWwaypoints pi g T).length - 1 = 5 := rfl
  rw [tailCurve, hl, bez_apply, bezS5, wrenchTail, cr, cr, cross_apply, cross_apply]
  fin_cases k <;>
    simp [c0_dc0_ddc0_c1.computeWwaypoints, Wp6.tailAt, accPt, hodo, fill, freeSlots, mulVec,
      dotProduct, Fin.sum_univ_three, skew, Matrix.one_apply, bez_apply, bezS4, bezS2] <;>
    field_simp <;> ring

end Verif
