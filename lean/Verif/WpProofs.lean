import Verif.BezExpand
import Verif.SpecTraj
import Verif.Model.Dispatch

/-!
# Helper lemmas for the waypoint theorems
-/

namespace Verif

theorem curve_zero (n : ℕ) (q : ℕ → V3) (T : ℝ) : curve n q T 0 = q 0 := by
  simp [curve, bez_at_zero]

theorem curve_end (n : ℕ) (q : ℕ → V3) (T : ℝ) (hT : T ≠ 0) : curve n q T T = q n := by
  simp [curve, div_self hT, bez_at_one]

/-- Sufficient conditions on the control points for the boundary conditions. -/
theorem meets_of_points (m : ℕ) (q : ℕ → V3) (T : ℝ) (hT : T ≠ 0) (flag : BitVec 32) (d : BC)
    (h0 : flag.getLsbD 0 = true → q 0 = d.c0)
    (h1 : flag.getLsbD 1 = true → hodo (m + 3) q T 0 = d.dc0)
    (h2 : flag.getLsbD 2 = true → hodo (m + 2) (hodo (m + 3) q T) T 0 = d.ddc0)
    (h6 : flag.getLsbD 6 = true → hodo (m + 1) (hodo (m + 2) (hodo (m + 3) q T) T) T 0 = d.j0)
    (h3 : flag.getLsbD 3 = true → q (m + 3) = d.c1)
    (h4 : flag.getLsbD 4 = true → hodo (m + 3) q T (m + 2) = d.dc1)
    (h5 : flag.getLsbD 5 = true → hodo (m + 2) (hodo (m + 3) q T) T (m + 1) = d.ddc1)
    (h7 : flag.getLsbD 7 = true →
      hodo (m + 1) (hodo (m + 2) (hodo (m + 3) q T) T) T m = d.j1) :
    MeetsBoundary flag d (curve (m + 3) q T) T := by
  refine ⟨_, _, _, curve_isDeriv (m + 2) q T, curve_isDeriv (m + 1) _ T, curve_isDeriv m _ T,
    ?_, ?_, ?_, ?_, ?_, ?_, ?_, ?_⟩
  · rw [curve_zero]; exact h0
  · rw [curve_zero]; exact h1
  · rw [curve_zero]; exact h2
  · rw [curve_zero]; exact h6
  · rw [curve_end _ _ _ hT]; exact h3
  · rw [curve_end _ _ _ hT]; exact h4
  · rw [curve_end _ _ _ hT]; exact h5
  · rw [curve_end _ _ _ hT]; exact h7

/-- A Bernstein combination of control points that are close is close. -/
theorem bez_close {n : ℕ} {p q : ℕ → ℝ} {t B S : ℝ} (h0 : 0 ≤ t) (h1 : t ≤ 1) (hS : 0 < S)
    (h : ∀ i ≤ n, |(p i - q i) * S| ≤ B) : |bez n p t - bez n q t| ≤ B / S := by
  rw [← bez_sub, abs_le]
  constructor
  · apply le_bez h0 h1
    intro i hi
    have := (abs_le.mp (h i hi)).1
    rw [neg_div', div_le_iff₀ hS]
    exact this
  · apply bez_le h0 h1
    intro i hi
    have := (abs_le.mp (h i hi)).2
    rw [le_div_iff₀ hS]
    exact this

theorem nth_bound {pts : List V3} {M : ℝ} (hM : 0 ≤ M) (h : ∀ p ∈ pts, ∀ k, |p k| ≤ M) :
    ∀ i k, |nth pts i k| ≤ M := by
  intro i k
  unfold nth
  by_cases hi : i < pts.length
  · have e : pts.getD i 0 = pts[i] := by simp [List.getD, hi]
    rw [e]
    exact h _ (List.getElem_mem hi) k
  · have e : pts.getD i 0 = 0 := by simp [List.getD, List.getElem?_eq_none (Nat.le_of_not_lt hi)]
    rw [e]
    simpa using hM

end Verif
