import Verif.WExact

/-!
# Helper for C04: the set c0_dc0_ddc0_dc1_c1

Its `computeWwaypoints` uses truncated decimals. `exactW` is the same list with the rational numbers
these decimals stand for (it is not part of the model: only an auxiliary of the proof).
Written by tools/gen_wrounded.py.
-/

set_option linter.unusedVariables false
set_option linter.unusedSimpArgs false
set_option linter.unusedTactic false
set_option linter.unreachableTactic false

namespace Verif
open Matrix

namespace c0_dc0_ddc0_dc1_c1
/-- Auxiliary: `computeWwaypoints` with exact rational coefficients. -/
noncomputable def exactW (pi : ℕ → V3) (g : V3) (T : ℝ) : List Wp6 :=
  let T2 : ℝ := T * T
  let alpha : ℝ := 1 / (T2)
  [
    { top := 0
      bot := 0
      head := fun k =>
        (20 * pi 0 k - 40 * pi 1 k + 20 * pi 2 k) * alpha
      tail := fun k =>
        1 * (1 * T2 * (skew g *ᵥ pi 0) k - 40 * (skew (pi 0) *ᵥ pi 1) k + 20 * (skew (pi 0) *ᵥ
          pi 2) k) * alpha },
    { top := fun i j =>
        (60 / 7) * alpha * (1 : M3) i j
      bot := fun i j =>
        (60 / 7) * skew (pi 0) i j * alpha
      head := fun k =>
        1 * ((80 / 7) * pi 0 k - (100 / 7) * pi 1 k - (40 / 7) * pi 2 k)
          * alpha
      tail := fun k =>
        1 * ((2 / 7) * T2 * (skew g *ᵥ pi 0) k + (5 / 7) * T2 * (skew g *ᵥ
          pi 1) k - 20 * (skew (pi 0) *ᵥ pi 2) k + (100 / 7) * (skew (pi 1) *ᵥ pi 2) k)
          * alpha },
    { top := fun i j =>
        (40 / 7) * alpha * (1 : M3) i j
      bot := fun i j =>
        1 * (-(60 / 7) * skew (pi 0) i j + (100 / 7) * skew (pi 1) i j) * alpha
      head := fun k =>
        1 * ((40 / 7) * pi 0 k - (100 / 7) * pi 2 k + (20 / 7) * pi 4 k)
          * alpha
      tail := fun k =>
        1 * ((1 / 21) * T2 * (skew g *ᵥ pi 0) k + (10 / 21) * T2 * (skew g *ᵥ
          pi 1) k + (10 / 21) * T2 * (skew g *ᵥ pi 2) k + (20 / 7) * (skew (pi
          0) *ᵥ pi 4) k - (100 / 7) * (skew (pi 1) *ᵥ pi 2) k) * alpha },
    { top := fun i j =>
        -(20 / 7) * alpha * (1 : M3) i j
      bot := fun i j =>
        1 * ((2 / 7) * skew g i j * T2 - (100 / 7) * skew (pi 1) i j +
          (80 / 7) * skew (pi 2) i j) * alpha
      head := fun k =>
        1 * ((16 / 7) * pi 0 k + (40 / 7) * pi 1 k - (80 / 7) * pi 2 k
          + (40 / 7) * pi 4 k + (4 / 7) * pi 5 k) * alpha
      tail := fun k =>
        1 * ((1 / 7) * T2 * (skew g *ᵥ pi 1) k + (4 / 7) * T2 * (skew g *ᵥ
          pi 2) k - (20 / 7) * (skew (pi 0) *ᵥ pi 4) k + (4 / 7) * (skew (pi
          0) *ᵥ pi 5) k + (60 / 7) * (skew (pi 1) *ᵥ pi 4) k) * alpha },
    { top := fun i j =>
        -(80 / 7) * alpha * (1 : M3) i j
      bot := fun i j =>
        1 * ((4 / 7) * skew g i j * T2 - (80 / 7) * skew (pi 2) i j) * alpha
      head := fun k =>
        1 * ((4 / 7) * pi 0 k + (40 / 7) * pi 1 k - (20 / 7) * pi 2 k
          + (40 / 7) * pi 4 k + (16 / 7) * pi 5 k) * alpha
      tail := fun k =>
        1 * ((2 / 7) * T2 * (skew g *ᵥ pi 2) k + (1 / 7) * T2 * (skew g *ᵥ
          pi 4) k - (4 / 7) * (skew (pi 0) *ᵥ pi 5) k - (60 / 7) * (skew (pi
          1) *ᵥ pi 4) k + (20 / 7) * (skew (pi 1) *ᵥ pi 5) k + (100 / 7) * (skew
          (pi 2) *ᵥ pi 4) k) * alpha },
    { top := fun i j =>
        -(100 / 7) * alpha * (1 : M3) i j
      bot := fun i j =>
        1 * ((10 / 21) * skew g i j * T2 - (100 / 7) * skew (pi 4) i j) * alpha
      head := fun k =>
        1 * ((20 / 7) * pi 1 k + (40 / 7) * pi 2 k + (40 / 7) * pi 5 k)
          * alpha
      tail := fun k =>
        1 * ((10 / 21) * T2 * (skew g *ᵥ pi 4) k + (1 / 21) * T2 * (skew g *ᵥ
          pi 5) k - (20 / 7) * (skew (pi 1) *ᵥ pi 5) k - (100 / 7) * (skew (pi
          2) *ᵥ pi 4) k + (60 / 7) * (skew (pi 2) *ᵥ pi 5) k) * alpha },
    { top := fun i j =>
        -(40 / 7) * alpha * (1 : M3) i j
      bot := fun i j =>
        1 * ((100 / 7) * skew (pi 4) i j - 20 * skew (pi 5) i j) * alpha
      head := fun k =>
        1 * ((60 / 7) * pi 2 k - (100 / 7) * pi 4 k + (80 / 7) * pi 5 k)
          * alpha
      tail := fun k =>
        1 * ((5 / 7) * T2 * (skew g *ᵥ pi 4) k + (2 / 7) * T2 * (skew g *ᵥ
          pi 5) k - (60 / 7) * (skew (pi 2) *ᵥ pi 5) k) * alpha },
    { top := fun i j =>
        20 * alpha * (1 : M3) i j
      bot := fun i j =>
        1 * (20 * skew (pi 5) i j) * alpha
      head := fun k =>
        (-40 * pi 4 k + 20 * pi 5 k) * alpha
      tail := fun k =>
        1 * (1 * T2 * (skew g *ᵥ pi 5) k + 40 * (skew (pi 4) *ᵥ pi 5) k) * alpha }]
end c0_dc0_ddc0_dc1_c1

theorem c0_dc0_ddc0_dc1_c1.exact_head_eq (pi : ℕ → V3) (g x : V3) (T t : ℝ) (hT : T ≠ 0) :
    headCurve (c0_dc0_ddc0_dc1_c1.exactW pi g T) x t
      = bez 3 (accPt 5 (fill 31#32 pi x) T) t := by
  funext k
  have hl : (c0_dc0_ddc0_dc1_c1.exactW pi g T).length - 1 = 7 := rfl
  rw [headCurve, hl, bez_apply, bez_apply, bezS7, bezS3]
  fin_cases k <;>
    simp [c0_dc0_ddc0_dc1_c1.exactW, Wp6.headAt, accPt, hodo, fill, freeSlots, mulVec,
      dotProduct, Fin.sum_univ_three, skew, Matrix.one_apply] <;> field_simp <;> ring

set_option maxHeartbeats 1000000 in
theorem c0_dc0_ddc0_dc1_c1.exact_tail_eq (pi : ℕ → V3) (g x : V3) (T t : ℝ) (hT : T ≠ 0) :
    tailCurve (c0_dc0_ddc0_dc1_c1.exactW pi g T) x t
      = wrenchTail g (bez 5 (fill 31#32 pi x) t) (bez 3 (accPt 5 (fill 31#32 pi x) T) t) := by
  funext k
  have hl : (c0_dc0_ddc0_dc1_c1.exactW pi g T).length - 1 = 7 := rfl
  rw [tailCurve, hl, bez_apply, bezS7, wrenchTail, cr, cr, cross_apply, cross_apply]
  fin_cases k <;>
    simp [c0_dc0_ddc0_dc1_c1.exactW, Wp6.tailAt, accPt, hodo, fill, freeSlots, mulVec,
      dotProduct, Fin.sum_univ_three, skew, Matrix.one_apply, bez_apply, bezS5, bezS3] <;>
    field_simp <;> ring

end Verif
