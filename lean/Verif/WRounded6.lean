import Verif.WExact

/-!
# Helper for C04: the set c0_dc0_ddc0_ddc1_dc1_c1

Its `computeWwaypoints` uses truncated decimals. `exactW` is the same list with the rational numbers
these decimals stand for (it is not part of the model: only an auxiliary of the proof).
Written by tools/gen_wrounded.py.
-/

set_option linter.unusedVariables false
set_option linter.unusedSimpArgs false
set_option linter.unusedTactic false
set_option linter.unreachableTactic false

namespace Verif
open Matrix

namespace c0_dc0_ddc0_ddc1_dc1_c1
/-- Auxiliary: `computeWwaypoints` with exact rational coefficients. -/
noncomputable def exactW (pi : ℕ → V3) (g : V3) (T : ℝ) : List Wp6 :=
  let T2 : ℝ := T * T
  let alpha : ℝ := 1 / (T2)
  [
    { top := 0
      bot := 0
      head := fun k =>
        (30 * pi 0 k - 60 * pi 1 k + 30 * pi 2 k) * alpha
      tail := fun k =>
        1 * (1 * T2 * (skew g *ᵥ pi 0) k - 60 * (skew (pi 0) *ᵥ pi 1) k + 30 * (skew (pi 0) *ᵥ
          pi 2) k) * alpha },
    { top := fun i j =>
        (40 / 3) * alpha * (1 : M3) i j
      bot := fun i j =>
        (40 / 3) * skew (pi 0) i j * alpha
      head := fun k =>
        1 * ((50 / 3) * pi 0 k - 20 * pi 1 k - 10 * pi 2 k) * alpha
      tail := fun k =>
        1 * ((1 / 3) * T2 * (skew g *ᵥ pi 0) k + (2 / 3) * T2 * (skew g *ᵥ
          pi 1) k - 30 * (skew (pi 0) *ᵥ pi 2) k + 20 * (skew (pi 1) *ᵥ pi 2) k) * alpha },
    { top := fun i j =>
        (20 / 3) * alpha * (1 : M3) i j
      bot := fun i j =>
        1 * (-(40 / 3) * skew (pi 0) i j + 20 * skew (pi 1) i j) * alpha
      head := fun k =>
        1 * ((25 / 3) * pi 0 k - 20 * pi 2 k + 5 * pi 4 k) * alpha
      tail := fun k =>
        1 * ((1 / 12) * T2 * (skew g *ᵥ pi 0) k + (1 / 2) * T2 * (skew g *ᵥ pi 1) k +
          (5 / 12) * T2 * (skew g *ᵥ pi 2) k + 5 * (skew (pi 0) *ᵥ pi 4) k - 20 *
          (skew (pi 1) *ᵥ pi 2) k) * alpha },
    { top := fun i j =>
        -(40 / 7) * alpha * (1 : M3) i j
      bot := fun i j =>
        1 * ((5 / 21) * skew g i j * T2 - 20 * skew (pi 1) i j + (100 / 7) *
          skew (pi 2) i j) * alpha
      head := fun k =>
        1 * ((25 / 7) * pi 0 k + (50 / 7) * pi 1 k - (100 / 7) * pi 2 k
          + (55 / 7) * pi 4 k + (10 / 7) * pi 5 k) * alpha
      tail := fun k =>
        1 * ((1 / 84) * T2 * (skew g *ᵥ pi 0) k + (3 / 14) * T2 * (skew g *ᵥ
          pi 1) k + (15 / 28) * T2 * (skew g *ᵥ pi 2) k - 5 * (skew (pi 0) *ᵥ pi 4) k +
          (10 / 7) * (skew (pi 0) *ᵥ pi 5) k + (90 / 7) * (skew (pi 1) *ᵥ pi 4)
          k) * alpha },
    { top := fun i j =>
        -(100 / 7) * alpha * (1 : M3) i j
      bot := fun i j =>
        1 * ((10 / 21) * skew g i j * T2 - (100 / 7) * skew (pi 2) i j) * alpha
      head := fun k =>
        1 * ((25 / 21) * pi 0 k + (50 / 7) * pi 1 k - (25 / 7) * pi 2 k
          + 5 * pi 4 k + (30 / 7) * pi 5 k + (5 / 21) * pi 6 k) * alpha
      tail := fun k =>
        1 * ((1 / 21) * T2 * (skew g *ᵥ pi 1) k + (5 / 14) * T2 * (skew g *ᵥ
          pi 2) k + (5 / 42) * T2 * (skew g *ᵥ pi 4) k - (10 / 7) * (skew (pi
          0) *ᵥ pi 5) k + (5 / 21) * (skew (pi 0) *ᵥ pi 6) k - (90 / 7) *
          (skew (pi 1) *ᵥ pi 4) k + (40 / 7) * (skew (pi 1) *ᵥ pi 5) k +
          (125 / 7) * (skew (pi 2) *ᵥ pi 4) k) * alpha },
    { top := fun i j =>
        -(100 / 7) * alpha * (1 : M3) i j
      bot := fun i j =>
        1 * ((10 / 21) * skew g i j * T2 - (100 / 7) * skew (pi 4) i j) * alpha
      head := fun k =>
        1 * ((5 / 21) * pi 0 k + (30 / 7) * pi 1 k + 5 * pi 2 k -
          (25 / 7) * pi 4 k + (50 / 7) * pi 5 k + (25 / 21) * pi 6 k) *
          alpha
      tail := fun k =>
        1 * ((5 / 42) * T2 * (skew g *ᵥ pi 2) k + (5 / 14) * T2 * (skew g *ᵥ
          pi 4) k + (1 / 21) * T2 * (skew g *ᵥ pi 5) k - (5 / 21) * (skew
          (pi 0) *ᵥ pi 6) k - (40 / 7) * (skew (pi 1) *ᵥ pi 5) k + (10 / 7) *
          (skew (pi 1) *ᵥ pi 6) k - (125 / 7) * (skew (pi 2) *ᵥ pi 4) k +
          (90 / 7) * (skew (pi 2) *ᵥ pi 5) k) * alpha },
    { top := fun i j =>
        -(40 / 7) * alpha * (1 : M3) i j
      bot := fun i j =>
        1 * ((5 / 21) * skew g i j * T2 + (100 / 7) * skew (pi 4) i j - 20 *
          skew (pi 5) i j) * alpha
      head := fun k =>
        1 * ((10 / 7) * pi 1 k + (55 / 7) * pi 2 k - (100 / 7) * pi 4 k
          + (50 / 7) * pi 5 k + (25 / 7) * pi 6 k) * alpha
      tail := fun k =>
        1 * ((15 / 28) * T2 * (skew g *ᵥ pi 4) k + (3 / 14) * T2 * (skew g *ᵥ
          pi 5) k + (1 / 84) * T2 * (skew g *ᵥ pi 6) k - (10 / 7) * (skew (pi
          1) *ᵥ pi 6) k - (90 / 7) * (skew (pi 2) *ᵥ pi 5) k + 5 * (skew (pi 2) *ᵥ pi
          6) k) * alpha },
    { top := fun i j =>
        (20 / 3) * alpha * (1 : M3) i j
      bot := fun i j =>
        1 * (20 * skew (pi 5) i j - (40 / 3) * skew (pi 6) i j) * alpha
      head := fun k =>
        1 * (5 * pi 2 k - 20 * pi 4 k + (25 / 3) * pi 6 k) * alpha
      tail := fun k =>
        1 * ((5 / 12) * T2 * (skew g *ᵥ pi 4) k + (1 / 2) * T2 * (skew g *ᵥ pi 5) k +
          (1 / 12) * T2 * (skew g *ᵥ pi 6) k - 5 * (skew (pi 2) *ᵥ pi 6) k + 20 *
          (skew (pi 4) *ᵥ pi 5) k) * alpha },
    { top := fun i j =>
        (40 / 3) * alpha * (1 : M3) i j
      bot := fun i j =>
        1 * ((40 / 3) * skew (pi 6) i j) * alpha
      head := fun k =>
        1 * (-(10 / 1) * pi 4 k - 20 * pi 5 k + (50 / 3) * pi 6 k) * alpha
      tail := fun k =>
        1 * ((2 / 3) * T2 * (skew g *ᵥ pi 5) k + (1 / 3) * T2 * (skew g *ᵥ
          pi 6) k - 20 * (skew (pi 4) *ᵥ pi 5) k + 30 * (skew (pi 4) *ᵥ pi 6) k) * alpha },
    { top := 0
      bot := 0
      head := fun k =>
        (30 * pi 4 k - 60 * pi 5 k + 30 * pi 6 k) * alpha
      tail := fun k =>
        1 * (1 * T2 * (skew g *ᵥ pi 6) k - 30 * (skew (pi 4) *ᵥ pi 6) k + 60 * (skew (pi 5) *ᵥ
          pi 6) k) * alpha }]
end c0_dc0_ddc0_ddc1_dc1_c1

theorem c0_dc0_ddc0_ddc1_dc1_c1.exact_head_eq (pi : ℕ → V3) (g x : V3) (T t : ℝ) (hT : T ≠ 0) :
    headCurve (c0_dc0_ddc0_ddc1_dc1_c1.exactW pi g T) x t
      = bez 4 (accPt 6 (fill 63#32 pi x) T) t := by
  funext k
  have hl : (c0_dc0_ddc0_ddc1_dc1_c1.exactW pi g T).length - 1 = 9 := rfl
  rw [headCurve, hl, bez_apply, bez_apply, bezS9, bezS4]
  fin_cases k <;>
    simp [c0_dc0_ddc0_ddc1_dc1_c1.exactW, Wp6.headAt, accPt, hodo, fill, freeSlots, mulVec,
      dotProduct, Fin.sum_univ_three, skew, Matrix.one_apply] <;> field_simp <;> ring

set_option maxHeartbeats 1000000 in
theorem c0_dc0_ddc0_ddc1_dc1_c1.exact_tail_eq (pi : ℕ → V3) (g x : V3) (T t : ℝ) (hT : T ≠ 0) :
    tailCurve (c0_dc0_ddc0_ddc1_dc1_c1.exactW pi g T) x t
      = wrenchTail g (bez 6 (fill 63#32 pi x) t) (bez 4 (accPt 6 (fill 63#32 pi x) T) t) := by
  funext k
  have hl : (c0_dc0_ddc0_ddc1_dc1_c1.exactW pi g T).length - 1 = 9 := rfl
  rw [tailCurve, hl, bez_apply, bezS9, wrenchTail, cr, cr, cross_apply, cross_apply]
  fin_cases k <;>
    simp [c0_dc0_ddc0_ddc1_dc1_c1.exactW, Wp6.tailAt, accPt, hodo, fill, freeSlots, mulVec,
      dotProduct, Fin.sum_univ_three, skew, Matrix.one_apply, bez_apply, bezS6, bezS4] <;>
    field_simp <;> ring

end Verif
