import Verif.SpecTraj

/-!
# Specification: the end effector problem
-/

namespace Verif

/-- The control point depends on the free points, by more than the machine epsilon. -/
def Depends {K : ℕ} (w : WpB K) : Prop := ∃ j, 1 / 2 ^ 52 < |w.first j|

/-- At the free points `X`, each control point of the list that depends on them lies between `-lo` and `up`. -/
def Within {K : ℕ} (ws : List (WpB K)) (lo up : V3) (X : ℕ → V3) : Prop :=
  ∀ w ∈ ws, Depends w → ∀ k, -lo k ≤ w.at X k ∧ w.at X k ≤ up k

/-- The first `K` free points are not lower than the lower end of the motion. -/
def AboveEnds (K : ℕ) (c0 c1 : V3) (X : ℕ → V3) : Prop := ∀ j < K, min (c0 2) (c1 2) ≤ X j 2

/-- Squared length. -/
def sq3 (v : V3) : ℝ := dot v v

/-- Twice the cost with block matrix `H` and block vector `g` at the free points `X`. -/
noncomputable def blockForm {K : ℕ} (H : Matrix (Fin K) (Fin K) ℝ) (g : Fin K → V3) (X : ℕ → V3) : ℝ :=
  ∑ a, ∑ b, H a b * dot (X a.val) (X b.val) + 2 * ∑ a, dot (g a) (X a.val)

end Verif
