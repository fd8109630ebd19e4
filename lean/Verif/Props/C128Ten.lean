import Verif.Props.C128

/-!
# C128: polynomial motions of degree 10 and the set with five free points
-/

namespace Verif
open Finset

/-- The boundary conditions of the Bezier curve of degree 10 with control points `P 0 ... P 10` and duration `T`. -/
noncomputable def polyEndsTen (P : ℕ → V3) (T : ℝ) : BC where
  c0 := P 0
  dc0 := fun k => 10 * (P 1 k - P 0 k) / T
  ddc0 := fun k => 90 * (P 2 k - 2 * P 1 k + P 0 k) / T ^ 2
  j0 := fun k => 720 * (P 3 k - 3 * P 2 k + 3 * P 1 k - P 0 k) / T ^ 3
  c1 := P 10
  dc1 := fun k => 10 * (P 10 k - P 9 k) / T
  ddc1 := fun k => 90 * (P 10 k - 2 * P 9 k + P 8 k) / T ^ 2
  j1 := fun k => 720 * (P 10 k - 3 * P 9 k + 3 * P 8 k - P 7 k) / T ^ 3

theorem polyTen_pts10 (P : ℕ → V3) (T : ℝ) (hT : 0 < T) : ∃ pi, computeConstantWaypoints 767#32 (polyEndsTen P T) T = .ok pi ∧ pi.length = 11 ∧
    (∀ k, nth pi 0 k = P 0 k) ∧
    (∀ k, nth pi 1 k = P 1 k) ∧
    (∀ k, nth pi 2 k = P 2 k) ∧
    (∀ k, nth pi 3 k = P 3 k) ∧
    (∀ k, nth pi 7 k = P 7 k) ∧
    (∀ k, nth pi 8 k = P 8 k) ∧
    (∀ k, nth pi 9 k = P 9 k) ∧
    (∀ k, nth pi 10 k = P 10 k) := by
  have hT' := hT.ne'
  refine ⟨_, by simp [computeConstantWaypoints]; rfl, by simp [c0_dc0_ddc0_j0_x3_j1_ddc1_dc1_c1.computeConstantWaypoints], ?_⟩
  (repeat' apply And.intro) <;> intro k <;>
    simp [nth, c0_dc0_ddc0_j0_x3_j1_ddc1_dc1_c1.computeConstantWaypoints, polyEndsTen] <;> (try field_simp) <;> (try ring)

/-- The position, the velocity, the acceleration and the jerk of the Bezier curve with control points `P` at its ends are
`polyEndsTen P T`. -/
theorem polyEndsTen_spec (P : ℕ → V3) (T : ℝ) (hT : 0 < T) : MeetsBoundary 767#32 (polyEndsTen P T) (curve 10 P T) T := by
  obtain ⟨pi, hpi, hl, q0, q1, q2, q3, q7, q8, q9, q10⟩ := polyTen_pts10 P T hT
  obtain ⟨pts, e, -, h⟩ := C09_boundary_conditions 767#32 (by decide) (polyEndsTen P T) T hT.ne' fun j => P (j + 4)
  rw [hpi] at e
  obtain rfl := Out.ok.inj e
  have hd : degreeOf 767#32 = 10 := by decide
  have hs : freeSlots 767#32 = [4, 5, 6] := by decide
  have : curve (degreeOf 767#32) (fillMany 767#32 (nth pi) fun j => P (j + 4)) T = curve 10 P T := by
    funext s
    rw [hd]
    unfold curve bez
    refine sum_congr rfl fun i hi => ?_
    have hi := mem_range.mp hi
    congr 1
    funext k
    unfold fillMany
    rw [hs]
    interval_cases i <;> simp [q0, q1, q2, q3, q7, q8, q9, q10]
  rwa [this] at h

theorem polyTen_pts12 (P : ℕ → V3) (T : ℝ) (hT : 0 < T) : ∃ pi, computeConstantWaypoints 2303#32 (polyEndsTen P T) T = .ok pi ∧ pi.length = 13 ∧
    (∀ k, nth pi 0 k = 1 * P 0 k) ∧
    (∀ k, nth pi 1 k = 1 / 6 * P 0 k + 5 / 6 * P 1 k) ∧
    (∀ k, nth pi 2 k = 1 / 66 * P 0 k + 10 / 33 * P 1 k + 15 / 22 * P 2 k) ∧
    (∀ k, nth pi 3 k = 1 / 22 * P 1 k + 9 / 22 * P 2 k + 6 / 11 * P 3 k) ∧
    (∀ k, nth pi 9 k = 6 / 11 * P 7 k + 9 / 22 * P 8 k + 1 / 22 * P 9 k) ∧
    (∀ k, nth pi 10 k = 15 / 22 * P 8 k + 10 / 33 * P 9 k + 1 / 66 * P 10 k) ∧
    (∀ k, nth pi 11 k = 5 / 6 * P 9 k + 1 / 6 * P 10 k) ∧
    (∀ k, nth pi 12 k = 1 * P 10 k) := by
  have hT' := hT.ne'
  refine ⟨_, by simp [computeConstantWaypoints]; rfl, by simp [c0_dc0_ddc0_j0_x5_j1_ddc1_dc1_c1.computeConstantWaypoints], ?_⟩
  (repeat' apply And.intro) <;> intro k <;>
    simp [nth, c0_dc0_ddc0_j0_x5_j1_ddc1_dc1_c1.computeConstantWaypoints, polyEndsTen] <;> field_simp <;> ring

/-- The control points of the velocity, the acceleration and the jerk of the curve of degree 10 are between -10000 and 10000, those of
the acceleration with the margin `m / T ^ 2`. -/
def PolyBoundedTen (P : ℕ → V3) (T : ℝ) (m : V3) : Prop := ∀ k,
  (∀ i < 10, |10 * (P (i + 1) k - P i k)| ≤ 10000 * T) ∧
  (∀ i < 9, |90 * (P (i + 2) k - 2 * P (i + 1) k + P i k)| + m k ≤ 10000 * T ^ 2) ∧
  (∀ i < 8, |720 * (P (i + 3) k - 3 * P (i + 2) k + 3 * P (i + 1) k - P i k)| ≤ 10000 * T ^ 3)

/-- The free points of the curve of degree 12 that is the same motion. -/
noncomputable def raisedTen (P : ℕ → V3) : ℕ → V3
  | 0 => fun k => 1 / 11 * P 2 k + 16 / 33 * P 3 k + 14 / 33 * P 4 k
  | 1 => fun k => 5 / 33 * P 3 k + 35 / 66 * P 4 k + 7 / 22 * P 5 k
  | 2 => fun k => 5 / 22 * P 4 k + 6 / 11 * P 5 k + 5 / 22 * P 6 k
  | 3 => fun k => 7 / 22 * P 5 k + 35 / 66 * P 6 k + 5 / 33 * P 7 k
  | _ => fun k => 14 / 33 * P 6 k + 16 / 33 * P 7 k + 1 / 11 * P 8 k

theorem raisedTen_vel (P : ℕ → V3) (T : ℝ) (hT : 0 < T) (pi : List V3) (hb : PolyBoundedTen P T fun k => 132 * (|1 / 22 * P 1 k + 9 / 22 * P 2 k + 6 / 11 * P 3 k| + |6 / 11 * P 7 k + 9 / 22 * P 8 k + 1 / 22 * P 9 k|))
    (q0 : ∀ k, nth pi 0 k = 1 * P 0 k)
    (q1 : ∀ k, nth pi 1 k = 1 / 6 * P 0 k + 5 / 6 * P 1 k)
    (q2 : ∀ k, nth pi 2 k = 1 / 66 * P 0 k + 10 / 33 * P 1 k + 15 / 22 * P 2 k)
    (q3 : ∀ k, nth pi 3 k = 1 / 22 * P 1 k + 9 / 22 * P 2 k + 6 / 11 * P 3 k)
    (q9 : ∀ k, nth pi 9 k = 6 / 11 * P 7 k + 9 / 22 * P 8 k + 1 / 22 * P 9 k)
    (q10 : ∀ k, nth pi 10 k = 15 / 22 * P 8 k + 10 / 33 * P 9 k + 1 / 66 * P 10 k)
    (q11 : ∀ k, nth pi 11 k = 5 / 6 * P 9 k + 1 / 6 * P 10 k)
    (q12 : ∀ k, nth pi 12 k = 1 * P 10 k) :
    Within (c0_dc0_ddc0_j0_x5_j1_ddc1_dc1_c1.computeVelocityWaypoints (nth pi) T) (fun _ => 10000) (fun _ => 10000) (raisedTen P) := by
  have hT' := hT.ne'
  unfold c0_dc0_ddc0_j0_x5_j1_ddc1_dc1_c1.computeVelocityWaypoints
  refine within_of_rows _ _ _ ?_ ?_
  · exact fun h => absurd h (not_depends5 _)
  refine within_of_rows _ _ _ ?_ ?_
  · exact fun h => absurd h (not_depends5 _)
  refine within_of_rows _ _ _ ?_ ?_
  · exact fun h => absurd h (not_depends5 _)
  refine within_of_rows _ _ _ ?_ ?_
  · intro _ k
    refine abs_row _ (12 * ((1 / 11 * P 2 k + 16 / 33 * P 3 k + 14 / 33 * P 4 k) - (1 / 22 * P 1 k + 9 / 22 * P 2 k + 6 / 11 * P 3 k))) T 1 hT
      (by simp [WpB.at, Fin.sum_univ_succ, raisedTen, q0, q1, q2, q3, q9, q10, q11, q12]; field_simp; ring) ?_
    obtain ⟨h1, h2, h3⟩ := hb k
    have a1 := abs_le.mp (h1 1 (by norm_num))
    have a2 := abs_le.mp (h1 2 (by norm_num))
    have a3 := abs_le.mp (h1 3 (by norm_num))
    norm_num only [pow_one] at *
    try simp only [Nat.reduceAdd, zero_add] at *
    refine abs_le.mpr ⟨?_, ?_⟩ <;> linarith [a1.1, a1.2, a2.1, a2.2, a3.1, a3.2]
  refine within_of_rows _ _ _ ?_ ?_
  · intro _ k
    refine abs_row _ (12 * ((5 / 33 * P 3 k + 35 / 66 * P 4 k + 7 / 22 * P 5 k) - (1 / 11 * P 2 k + 16 / 33 * P 3 k + 14 / 33 * P 4 k))) T 1 hT
      (by simp [WpB.at, Fin.sum_univ_succ, raisedTen, q0, q1, q2, q3, q9, q10, q11, q12]; field_simp; ring) ?_
    obtain ⟨h1, h2, h3⟩ := hb k
    have a2 := abs_le.mp (h1 2 (by norm_num))
    have a3 := abs_le.mp (h1 3 (by norm_num))
    have a4 := abs_le.mp (h1 4 (by norm_num))
    norm_num only [pow_one] at *
    try simp only [Nat.reduceAdd, zero_add] at *
    refine abs_le.mpr ⟨?_, ?_⟩ <;> linarith [a2.1, a2.2, a3.1, a3.2, a4.1, a4.2]
  refine within_of_rows _ _ _ ?_ ?_
  · intro _ k
    refine abs_row _ (12 * ((5 / 22 * P 4 k + 6 / 11 * P 5 k + 5 / 22 * P 6 k) - (5 / 33 * P 3 k + 35 / 66 * P 4 k + 7 / 22 * P 5 k))) T 1 hT
      (by simp [WpB.at, Fin.sum_univ_succ, raisedTen, q0, q1, q2, q3, q9, q10, q11, q12]; field_simp; ring) ?_
    obtain ⟨h1, h2, h3⟩ := hb k
    have a3 := abs_le.mp (h1 3 (by norm_num))
    have a4 := abs_le.mp (h1 4 (by norm_num))
    have a5 := abs_le.mp (h1 5 (by norm_num))
    norm_num only [pow_one] at *
    try simp only [Nat.reduceAdd, zero_add] at *
    refine abs_le.mpr ⟨?_, ?_⟩ <;> linarith [a3.1, a3.2, a4.1, a4.2, a5.1, a5.2]
  refine within_of_rows _ _ _ ?_ ?_
  · intro _ k
    refine abs_row _ (12 * ((7 / 22 * P 5 k + 35 / 66 * P 6 k + 5 / 33 * P 7 k) - (5 / 22 * P 4 k + 6 / 11 * P 5 k + 5 / 22 * P 6 k))) T 1 hT
      (by simp [WpB.at, Fin.sum_univ_succ, raisedTen, q0, q1, q2, q3, q9, q10, q11, q12]; field_simp; ring) ?_
    obtain ⟨h1, h2, h3⟩ := hb k
    have a4 := abs_le.mp (h1 4 (by norm_num))
    have a5 := abs_le.mp (h1 5 (by norm_num))
    have a6 := abs_le.mp (h1 6 (by norm_num))
    norm_num only [pow_one] at *
    try simp only [Nat.reduceAdd, zero_add] at *
    refine abs_le.mpr ⟨?_, ?_⟩ <;> linarith [a4.1, a4.2, a5.1, a5.2, a6.1, a6.2]
  refine within_of_rows _ _ _ ?_ ?_
  · intro _ k
    refine abs_row _ (12 * ((14 / 33 * P 6 k + 16 / 33 * P 7 k + 1 / 11 * P 8 k) - (7 / 22 * P 5 k + 35 / 66 * P 6 k + 5 / 33 * P 7 k))) T 1 hT
      (by simp [WpB.at, Fin.sum_univ_succ, raisedTen, q0, q1, q2, q3, q9, q10, q11, q12]; field_simp; ring) ?_
    obtain ⟨h1, h2, h3⟩ := hb k
    have a5 := abs_le.mp (h1 5 (by norm_num))
    have a6 := abs_le.mp (h1 6 (by norm_num))
    have a7 := abs_le.mp (h1 7 (by norm_num))
    norm_num only [pow_one] at *
    try simp only [Nat.reduceAdd, zero_add] at *
    refine abs_le.mpr ⟨?_, ?_⟩ <;> linarith [a5.1, a5.2, a6.1, a6.2, a7.1, a7.2]
  refine within_of_rows _ _ _ ?_ ?_
  · intro _ k
    refine abs_row _ (12 * ((6 / 11 * P 7 k + 9 / 22 * P 8 k + 1 / 22 * P 9 k) - (14 / 33 * P 6 k + 16 / 33 * P 7 k + 1 / 11 * P 8 k))) T 1 hT
      (by simp [WpB.at, Fin.sum_univ_succ, raisedTen, q0, q1, q2, q3, q9, q10, q11, q12]; field_simp; ring) ?_
    obtain ⟨h1, h2, h3⟩ := hb k
    have a6 := abs_le.mp (h1 6 (by norm_num))
    have a7 := abs_le.mp (h1 7 (by norm_num))
    have a8 := abs_le.mp (h1 8 (by norm_num))
    norm_num only [pow_one] at *
    try simp only [Nat.reduceAdd, zero_add] at *
    refine abs_le.mpr ⟨?_, ?_⟩ <;> linarith [a6.1, a6.2, a7.1, a7.2, a8.1, a8.2]
  refine within_of_rows _ _ _ ?_ ?_
  · exact fun h => absurd h (not_depends5 _)
  refine within_of_rows _ _ _ ?_ ?_
  · exact fun h => absurd h (not_depends5 _)
  refine within_of_rows _ _ _ ?_ ?_
  · exact fun h => absurd h (not_depends5 _)
  simp [Within]

set_option maxHeartbeats 1000000 in
theorem raisedTen_acc (P : ℕ → V3) (T : ℝ) (hT : 0 < T) (pi : List V3) (hb : PolyBoundedTen P T fun k => 132 * (|1 / 22 * P 1 k + 9 / 22 * P 2 k + 6 / 11 * P 3 k| + |6 / 11 * P 7 k + 9 / 22 * P 8 k + 1 / 22 * P 9 k|))
    (q7z : nth pi 7 = 0)
    (q0 : ∀ k, nth pi 0 k = 1 * P 0 k)
    (q1 : ∀ k, nth pi 1 k = 1 / 6 * P 0 k + 5 / 6 * P 1 k)
    (q2 : ∀ k, nth pi 2 k = 1 / 66 * P 0 k + 10 / 33 * P 1 k + 15 / 22 * P 2 k)
    (q3 : ∀ k, nth pi 3 k = 1 / 22 * P 1 k + 9 / 22 * P 2 k + 6 / 11 * P 3 k)
    (q9 : ∀ k, nth pi 9 k = 6 / 11 * P 7 k + 9 / 22 * P 8 k + 1 / 22 * P 9 k)
    (q10 : ∀ k, nth pi 10 k = 15 / 22 * P 8 k + 10 / 33 * P 9 k + 1 / 66 * P 10 k)
    (q11 : ∀ k, nth pi 11 k = 5 / 6 * P 9 k + 1 / 6 * P 10 k)
    (q12 : ∀ k, nth pi 12 k = 1 * P 10 k) :
    Within (c0_dc0_ddc0_j0_x5_j1_ddc1_dc1_c1.computeAccelerationWaypoints (nth pi) T) (fun _ => 10000) (fun _ => 10000) (raisedTen P) := by
  have hT' := hT.ne'
  unfold c0_dc0_ddc0_j0_x5_j1_ddc1_dc1_c1.computeAccelerationWaypoints
  refine within_of_rows _ _ _ ?_ ?_
  · exact fun h => absurd h (not_depends5 _)
  refine within_of_rows _ _ _ ?_ ?_
  · exact fun h => absurd h (not_depends5 _)
  refine within_of_rows _ _ _ ?_ ?_
  · intro _ k
    refine abs_row _ (132 * ((1 / 11 * P 2 k + 16 / 33 * P 3 k + 14 / 33 * P 4 k) - 2 * (1 / 22 * P 1 k + 9 / 22 * P 2 k + 6 / 11 * P 3 k) + (1 / 66 * P 0 k + 10 / 33 * P 1 k + 15 / 22 * P 2 k)) + 132 * (1 / 22 * P 1 k + 9 / 22 * P 2 k + 6 / 11 * P 3 k)) T 2 hT
      (by simp [WpB.at, Fin.sum_univ_succ, raisedTen, q0, q1, q2, q3, q9, q10, q11, q12, q7z]; field_simp; ring) ?_
    obtain ⟨h1, h2, h3⟩ := hb k
    have a0 := h2 0 (by norm_num)
    have b0 := abs_le.mp (le_refl |90 * (P 2 k - 2 * P 1 k + P 0 k)|)
    have a1 := h2 1 (by norm_num)
    have b1 := abs_le.mp (le_refl |90 * (P 3 k - 2 * P 2 k + P 1 k)|)
    have a2 := h2 2 (by norm_num)
    have b2 := abs_le.mp (le_refl |90 * (P 4 k - 2 * P 3 k + P 2 k)|)
    have c := abs_le.mp (le_refl |1 / 22 * P 1 k + 9 / 22 * P 2 k + 6 / 11 * P 3 k|)
    have c0 := abs_nonneg (1 / 22 * P 1 k + 9 / 22 * P 2 k + 6 / 11 * P 3 k)
    have d := abs_le.mp (le_refl |6 / 11 * P 7 k + 9 / 22 * P 8 k + 1 / 22 * P 9 k|)
    have d0 := abs_nonneg (6 / 11 * P 7 k + 9 / 22 * P 8 k + 1 / 22 * P 9 k)
    try simp only [Nat.reduceAdd, zero_add] at *
    refine abs_le.mpr ⟨?_, ?_⟩ <;> linarith [a0, b0.1, b0.2, a1, b1.1, b1.2, a2, b2.1, b2.2, c.1, c.2, c0, d.1, d.2, d0]
  refine within_of_rows _ _ _ ?_ ?_
  · intro _ k
    refine abs_row _ (132 * ((5 / 33 * P 3 k + 35 / 66 * P 4 k + 7 / 22 * P 5 k) - 2 * (1 / 11 * P 2 k + 16 / 33 * P 3 k + 14 / 33 * P 4 k) + (1 / 22 * P 1 k + 9 / 22 * P 2 k + 6 / 11 * P 3 k))) T 2 hT
      (by simp [WpB.at, Fin.sum_univ_succ, raisedTen, q0, q1, q2, q3, q9, q10, q11, q12, q7z]; field_simp; ring) ?_
    obtain ⟨h1, h2, h3⟩ := hb k
    have a1 := h2 1 (by norm_num)
    have b1 := abs_le.mp (le_refl |90 * (P 3 k - 2 * P 2 k + P 1 k)|)
    have a2 := h2 2 (by norm_num)
    have b2 := abs_le.mp (le_refl |90 * (P 4 k - 2 * P 3 k + P 2 k)|)
    have a3 := h2 3 (by norm_num)
    have b3 := abs_le.mp (le_refl |90 * (P 5 k - 2 * P 4 k + P 3 k)|)
    have c := abs_le.mp (le_refl |1 / 22 * P 1 k + 9 / 22 * P 2 k + 6 / 11 * P 3 k|)
    have c0 := abs_nonneg (1 / 22 * P 1 k + 9 / 22 * P 2 k + 6 / 11 * P 3 k)
    have d := abs_le.mp (le_refl |6 / 11 * P 7 k + 9 / 22 * P 8 k + 1 / 22 * P 9 k|)
    have d0 := abs_nonneg (6 / 11 * P 7 k + 9 / 22 * P 8 k + 1 / 22 * P 9 k)
    try simp only [Nat.reduceAdd, zero_add] at *
    refine abs_le.mpr ⟨?_, ?_⟩ <;> linarith [a1, b1.1, b1.2, a2, b2.1, b2.2, a3, b3.1, b3.2, c.1, c.2, c0, d.1, d.2, d0]
  refine within_of_rows _ _ _ ?_ ?_
  · intro _ k
    refine abs_row _ (132 * ((5 / 22 * P 4 k + 6 / 11 * P 5 k + 5 / 22 * P 6 k) - 2 * (5 / 33 * P 3 k + 35 / 66 * P 4 k + 7 / 22 * P 5 k) + (1 / 11 * P 2 k + 16 / 33 * P 3 k + 14 / 33 * P 4 k))) T 2 hT
      (by simp [WpB.at, Fin.sum_univ_succ, raisedTen, q0, q1, q2, q3, q9, q10, q11, q12, q7z]; field_simp; ring) ?_
    obtain ⟨h1, h2, h3⟩ := hb k
    have a2 := h2 2 (by norm_num)
    have b2 := abs_le.mp (le_refl |90 * (P 4 k - 2 * P 3 k + P 2 k)|)
    have a3 := h2 3 (by norm_num)
    have b3 := abs_le.mp (le_refl |90 * (P 5 k - 2 * P 4 k + P 3 k)|)
    have a4 := h2 4 (by norm_num)
    have b4 := abs_le.mp (le_refl |90 * (P 6 k - 2 * P 5 k + P 4 k)|)
    have c := abs_le.mp (le_refl |1 / 22 * P 1 k + 9 / 22 * P 2 k + 6 / 11 * P 3 k|)
    have c0 := abs_nonneg (1 / 22 * P 1 k + 9 / 22 * P 2 k + 6 / 11 * P 3 k)
    have d := abs_le.mp (le_refl |6 / 11 * P 7 k + 9 / 22 * P 8 k + 1 / 22 * P 9 k|)
    have d0 := abs_nonneg (6 / 11 * P 7 k + 9 / 22 * P 8 k + 1 / 22 * P 9 k)
    try simp only [Nat.reduceAdd, zero_add] at *
    refine abs_le.mpr ⟨?_, ?_⟩ <;> linarith [a2, b2.1, b2.2, a3, b3.1, b3.2, a4, b4.1, b4.2, c.1, c.2, c0, d.1, d.2, d0]
  refine within_of_rows _ _ _ ?_ ?_
  · intro _ k
    refine abs_row _ (132 * ((7 / 22 * P 5 k + 35 / 66 * P 6 k + 5 / 33 * P 7 k) - 2 * (5 / 22 * P 4 k + 6 / 11 * P 5 k + 5 / 22 * P 6 k) + (5 / 33 * P 3 k + 35 / 66 * P 4 k + 7 / 22 * P 5 k))) T 2 hT
      (by simp [WpB.at, Fin.sum_univ_succ, raisedTen, q0, q1, q2, q3, q9, q10, q11, q12, q7z]; field_simp; ring) ?_
    obtain ⟨h1, h2, h3⟩ := hb k
    have a3 := h2 3 (by norm_num)
    have b3 := abs_le.mp (le_refl |90 * (P 5 k - 2 * P 4 k + P 3 k)|)
    have a4 := h2 4 (by norm_num)
    have b4 := abs_le.mp (le_refl |90 * (P 6 k - 2 * P 5 k + P 4 k)|)
    have a5 := h2 5 (by norm_num)
    have b5 := abs_le.mp (le_refl |90 * (P 7 k - 2 * P 6 k + P 5 k)|)
    have c := abs_le.mp (le_refl |1 / 22 * P 1 k + 9 / 22 * P 2 k + 6 / 11 * P 3 k|)
    have c0 := abs_nonneg (1 / 22 * P 1 k + 9 / 22 * P 2 k + 6 / 11 * P 3 k)
    have d := abs_le.mp (le_refl |6 / 11 * P 7 k + 9 / 22 * P 8 k + 1 / 22 * P 9 k|)
    have d0 := abs_nonneg (6 / 11 * P 7 k + 9 / 22 * P 8 k + 1 / 22 * P 9 k)
    try simp only [Nat.reduceAdd, zero_add] at *
    refine abs_le.mpr ⟨?_, ?_⟩ <;> linarith [a3, b3.1, b3.2, a4, b4.1, b4.2, a5, b5.1, b5.2, c.1, c.2, c0, d.1, d.2, d0]
  refine within_of_rows _ _ _ ?_ ?_
  · intro _ k
    refine abs_row _ (132 * ((14 / 33 * P 6 k + 16 / 33 * P 7 k + 1 / 11 * P 8 k) - 2 * (7 / 22 * P 5 k + 35 / 66 * P 6 k + 5 / 33 * P 7 k) + (5 / 22 * P 4 k + 6 / 11 * P 5 k + 5 / 22 * P 6 k))) T 2 hT
      (by simp [WpB.at, Fin.sum_univ_succ, raisedTen, q0, q1, q2, q3, q9, q10, q11, q12, q7z]; field_simp; ring) ?_
    obtain ⟨h1, h2, h3⟩ := hb k
    have a4 := h2 4 (by norm_num)
    have b4 := abs_le.mp (le_refl |90 * (P 6 k - 2 * P 5 k + P 4 k)|)
    have a5 := h2 5 (by norm_num)
    have b5 := abs_le.mp (le_refl |90 * (P 7 k - 2 * P 6 k + P 5 k)|)
    have a6 := h2 6 (by norm_num)
    have b6 := abs_le.mp (le_refl |90 * (P 8 k - 2 * P 7 k + P 6 k)|)
    have c := abs_le.mp (le_refl |1 / 22 * P 1 k + 9 / 22 * P 2 k + 6 / 11 * P 3 k|)
    have c0 := abs_nonneg (1 / 22 * P 1 k + 9 / 22 * P 2 k + 6 / 11 * P 3 k)
    have d := abs_le.mp (le_refl |6 / 11 * P 7 k + 9 / 22 * P 8 k + 1 / 22 * P 9 k|)
    have d0 := abs_nonneg (6 / 11 * P 7 k + 9 / 22 * P 8 k + 1 / 22 * P 9 k)
    try simp only [Nat.reduceAdd, zero_add] at *
    refine abs_le.mpr ⟨?_, ?_⟩ <;> linarith [a4, b4.1, b4.2, a5, b5.1, b5.2, a6, b6.1, b6.2, c.1, c.2, c0, d.1, d.2, d0]
  refine within_of_rows _ _ _ ?_ ?_
  · intro _ k
    refine abs_row _ (132 * ((6 / 11 * P 7 k + 9 / 22 * P 8 k + 1 / 22 * P 9 k) - 2 * (14 / 33 * P 6 k + 16 / 33 * P 7 k + 1 / 11 * P 8 k) + (7 / 22 * P 5 k + 35 / 66 * P 6 k + 5 / 33 * P 7 k)) - 132 * (6 / 11 * P 7 k + 9 / 22 * P 8 k + 1 / 22 * P 9 k)) T 2 hT
      (by simp [WpB.at, Fin.sum_univ_succ, raisedTen, q0, q1, q2, q3, q9, q10, q11, q12, q7z]; field_simp; ring) ?_
    obtain ⟨h1, h2, h3⟩ := hb k
    have a5 := h2 5 (by norm_num)
    have b5 := abs_le.mp (le_refl |90 * (P 7 k - 2 * P 6 k + P 5 k)|)
    have a6 := h2 6 (by norm_num)
    have b6 := abs_le.mp (le_refl |90 * (P 8 k - 2 * P 7 k + P 6 k)|)
    have a7 := h2 7 (by norm_num)
    have b7 := abs_le.mp (le_refl |90 * (P 9 k - 2 * P 8 k + P 7 k)|)
    have c := abs_le.mp (le_refl |1 / 22 * P 1 k + 9 / 22 * P 2 k + 6 / 11 * P 3 k|)
    have c0 := abs_nonneg (1 / 22 * P 1 k + 9 / 22 * P 2 k + 6 / 11 * P 3 k)
    have d := abs_le.mp (le_refl |6 / 11 * P 7 k + 9 / 22 * P 8 k + 1 / 22 * P 9 k|)
    have d0 := abs_nonneg (6 / 11 * P 7 k + 9 / 22 * P 8 k + 1 / 22 * P 9 k)
    try simp only [Nat.reduceAdd, zero_add] at *
    refine abs_le.mpr ⟨?_, ?_⟩ <;> linarith [a5, b5.1, b5.2, a6, b6.1, b6.2, a7, b7.1, b7.2, c.1, c.2, c0, d.1, d.2, d0]
  refine within_of_rows _ _ _ ?_ ?_
  · intro _ k
    refine abs_row _ (132 * ((15 / 22 * P 8 k + 10 / 33 * P 9 k + 1 / 66 * P 10 k) - 2 * (6 / 11 * P 7 k + 9 / 22 * P 8 k + 1 / 22 * P 9 k) + (14 / 33 * P 6 k + 16 / 33 * P 7 k + 1 / 11 * P 8 k))) T 2 hT
      (by simp [WpB.at, Fin.sum_univ_succ, raisedTen, q0, q1, q2, q3, q9, q10, q11, q12, q7z]; field_simp; ring) ?_
    obtain ⟨h1, h2, h3⟩ := hb k
    have a6 := h2 6 (by norm_num)
    have b6 := abs_le.mp (le_refl |90 * (P 8 k - 2 * P 7 k + P 6 k)|)
    have a7 := h2 7 (by norm_num)
    have b7 := abs_le.mp (le_refl |90 * (P 9 k - 2 * P 8 k + P 7 k)|)
    have a8 := h2 8 (by norm_num)
    have b8 := abs_le.mp (le_refl |90 * (P 10 k - 2 * P 9 k + P 8 k)|)
    have c := abs_le.mp (le_refl |1 / 22 * P 1 k + 9 / 22 * P 2 k + 6 / 11 * P 3 k|)
    have c0 := abs_nonneg (1 / 22 * P 1 k + 9 / 22 * P 2 k + 6 / 11 * P 3 k)
    have d := abs_le.mp (le_refl |6 / 11 * P 7 k + 9 / 22 * P 8 k + 1 / 22 * P 9 k|)
    have d0 := abs_nonneg (6 / 11 * P 7 k + 9 / 22 * P 8 k + 1 / 22 * P 9 k)
    try simp only [Nat.reduceAdd, zero_add] at *
    refine abs_le.mpr ⟨?_, ?_⟩ <;> linarith [a6, b6.1, b6.2, a7, b7.1, b7.2, a8, b8.1, b8.2, c.1, c.2, c0, d.1, d.2, d0]
  refine within_of_rows _ _ _ ?_ ?_
  · exact fun h => absurd h (not_depends5 _)
  refine within_of_rows _ _ _ ?_ ?_
  · exact fun h => absurd h (not_depends5 _)
  refine within_of_rows _ _ _ ?_ ?_
  · exact fun h => absurd h (not_depends5 _)
  simp [Within]

theorem raisedTen_jerk (P : ℕ → V3) (T : ℝ) (hT : 0 < T) (pi : List V3) (hb : PolyBoundedTen P T fun k => 132 * (|1 / 22 * P 1 k + 9 / 22 * P 2 k + 6 / 11 * P 3 k| + |6 / 11 * P 7 k + 9 / 22 * P 8 k + 1 / 22 * P 9 k|))
    (q0 : ∀ k, nth pi 0 k = 1 * P 0 k)
    (q1 : ∀ k, nth pi 1 k = 1 / 6 * P 0 k + 5 / 6 * P 1 k)
    (q2 : ∀ k, nth pi 2 k = 1 / 66 * P 0 k + 10 / 33 * P 1 k + 15 / 22 * P 2 k)
    (q3 : ∀ k, nth pi 3 k = 1 / 22 * P 1 k + 9 / 22 * P 2 k + 6 / 11 * P 3 k)
    (q9 : ∀ k, nth pi 9 k = 6 / 11 * P 7 k + 9 / 22 * P 8 k + 1 / 22 * P 9 k)
    (q10 : ∀ k, nth pi 10 k = 15 / 22 * P 8 k + 10 / 33 * P 9 k + 1 / 66 * P 10 k)
    (q11 : ∀ k, nth pi 11 k = 5 / 6 * P 9 k + 1 / 6 * P 10 k)
    (q12 : ∀ k, nth pi 12 k = 1 * P 10 k) :
    Within (c0_dc0_ddc0_j0_x5_j1_ddc1_dc1_c1.computeJerkWaypoints (nth pi) T) (fun _ => 10000) (fun _ => 10000) (raisedTen P) := by
  have hT' := hT.ne'
  unfold c0_dc0_ddc0_j0_x5_j1_ddc1_dc1_c1.computeJerkWaypoints
  refine within_of_rows _ _ _ ?_ ?_
  · exact fun h => absurd h (not_depends5 _)
  refine within_of_rows _ _ _ ?_ ?_
  · intro _ k
    refine abs_row _ (1320 * ((1 / 11 * P 2 k + 16 / 33 * P 3 k + 14 / 33 * P 4 k) - 3 * (1 / 22 * P 1 k + 9 / 22 * P 2 k + 6 / 11 * P 3 k) + 3 * (1 / 66 * P 0 k + 10 / 33 * P 1 k + 15 / 22 * P 2 k) - (1 / 6 * P 0 k + 5 / 6 * P 1 k))) T 3 hT
      (by simp [WpB.at, Fin.sum_univ_succ, raisedTen, q0, q1, q2, q3, q9, q10, q11, q12]; field_simp; ring) ?_
    obtain ⟨h1, h2, h3⟩ := hb k
    have a0 := abs_le.mp (h3 0 (by norm_num))
    have a1 := abs_le.mp (h3 1 (by norm_num))
    try simp only [Nat.reduceAdd, zero_add] at *
    refine abs_le.mpr ⟨?_, ?_⟩ <;> linarith [a0.1, a0.2, a1.1, a1.2]
  refine within_of_rows _ _ _ ?_ ?_
  · intro _ k
    refine abs_row _ (1320 * ((5 / 33 * P 3 k + 35 / 66 * P 4 k + 7 / 22 * P 5 k) - 3 * (1 / 11 * P 2 k + 16 / 33 * P 3 k + 14 / 33 * P 4 k) + 3 * (1 / 22 * P 1 k + 9 / 22 * P 2 k + 6 / 11 * P 3 k) - (1 / 66 * P 0 k + 10 / 33 * P 1 k + 15 / 22 * P 2 k))) T 3 hT
      (by simp [WpB.at, Fin.sum_univ_succ, raisedTen, q0, q1, q2, q3, q9, q10, q11, q12]; field_simp; ring) ?_
    obtain ⟨h1, h2, h3⟩ := hb k
    have a0 := abs_le.mp (h3 0 (by norm_num))
    have a1 := abs_le.mp (h3 1 (by norm_num))
    have a2 := abs_le.mp (h3 2 (by norm_num))
    try simp only [Nat.reduceAdd, zero_add] at *
    refine abs_le.mpr ⟨?_, ?_⟩ <;> linarith [a0.1, a0.2, a1.1, a1.2, a2.1, a2.2]
  refine within_of_rows _ _ _ ?_ ?_
  · intro _ k
    refine abs_row _ (1320 * ((5 / 22 * P 4 k + 6 / 11 * P 5 k + 5 / 22 * P 6 k) - 3 * (5 / 33 * P 3 k + 35 / 66 * P 4 k + 7 / 22 * P 5 k) + 3 * (1 / 11 * P 2 k + 16 / 33 * P 3 k + 14 / 33 * P 4 k) - (1 / 22 * P 1 k + 9 / 22 * P 2 k + 6 / 11 * P 3 k))) T 3 hT
      (by simp [WpB.at, Fin.sum_univ_succ, raisedTen, q0, q1, q2, q3, q9, q10, q11, q12]; field_simp; ring) ?_
    obtain ⟨h1, h2, h3⟩ := hb k
    have a1 := abs_le.mp (h3 1 (by norm_num))
    have a2 := abs_le.mp (h3 2 (by norm_num))
    have a3 := abs_le.mp (h3 3 (by norm_num))
    try simp only [Nat.reduceAdd, zero_add] at *
    refine abs_le.mpr ⟨?_, ?_⟩ <;> linarith [a1.1, a1.2, a2.1, a2.2, a3.1, a3.2]
  refine within_of_rows _ _ _ ?_ ?_
  · intro _ k
    refine abs_row _ (1320 * ((7 / 22 * P 5 k + 35 / 66 * P 6 k + 5 / 33 * P 7 k) - 3 * (5 / 22 * P 4 k + 6 / 11 * P 5 k + 5 / 22 * P 6 k) + 3 * (5 / 33 * P 3 k + 35 / 66 * P 4 k + 7 / 22 * P 5 k) - (1 / 11 * P 2 k + 16 / 33 * P 3 k + 14 / 33 * P 4 k))) T 3 hT
      (by simp [WpB.at, Fin.sum_univ_succ, raisedTen, q0, q1, q2, q3, q9, q10, q11, q12]; field_simp; ring) ?_
    obtain ⟨h1, h2, h3⟩ := hb k
    have a2 := abs_le.mp (h3 2 (by norm_num))
    have a3 := abs_le.mp (h3 3 (by norm_num))
    have a4 := abs_le.mp (h3 4 (by norm_num))
    try simp only [Nat.reduceAdd, zero_add] at *
    refine abs_le.mpr ⟨?_, ?_⟩ <;> linarith [a2.1, a2.2, a3.1, a3.2, a4.1, a4.2]
  refine within_of_rows _ _ _ ?_ ?_
  · intro _ k
    refine abs_row _ (1320 * ((14 / 33 * P 6 k + 16 / 33 * P 7 k + 1 / 11 * P 8 k) - 3 * (7 / 22 * P 5 k + 35 / 66 * P 6 k + 5 / 33 * P 7 k) + 3 * (5 / 22 * P 4 k + 6 / 11 * P 5 k + 5 / 22 * P 6 k) - (5 / 33 * P 3 k + 35 / 66 * P 4 k + 7 / 22 * P 5 k))) T 3 hT
      (by simp [WpB.at, Fin.sum_univ_succ, raisedTen, q0, q1, q2, q3, q9, q10, q11, q12]; field_simp; ring) ?_
    obtain ⟨h1, h2, h3⟩ := hb k
    have a3 := abs_le.mp (h3 3 (by norm_num))
    have a4 := abs_le.mp (h3 4 (by norm_num))
    have a5 := abs_le.mp (h3 5 (by norm_num))
    try simp only [Nat.reduceAdd, zero_add] at *
    refine abs_le.mpr ⟨?_, ?_⟩ <;> linarith [a3.1, a3.2, a4.1, a4.2, a5.1, a5.2]
  refine within_of_rows _ _ _ ?_ ?_
  · intro _ k
    refine abs_row _ (1320 * ((6 / 11 * P 7 k + 9 / 22 * P 8 k + 1 / 22 * P 9 k) - 3 * (14 / 33 * P 6 k + 16 / 33 * P 7 k + 1 / 11 * P 8 k) + 3 * (7 / 22 * P 5 k + 35 / 66 * P 6 k + 5 / 33 * P 7 k) - (5 / 22 * P 4 k + 6 / 11 * P 5 k + 5 / 22 * P 6 k))) T 3 hT
      (by simp [WpB.at, Fin.sum_univ_succ, raisedTen, q0, q1, q2, q3, q9, q10, q11, q12]; field_simp; ring) ?_
    obtain ⟨h1, h2, h3⟩ := hb k
    have a4 := abs_le.mp (h3 4 (by norm_num))
    have a5 := abs_le.mp (h3 5 (by norm_num))
    have a6 := abs_le.mp (h3 6 (by norm_num))
    try simp only [Nat.reduceAdd, zero_add] at *
    refine abs_le.mpr ⟨?_, ?_⟩ <;> linarith [a4.1, a4.2, a5.1, a5.2, a6.1, a6.2]
  refine within_of_rows _ _ _ ?_ ?_
  · intro _ k
    refine abs_row _ (1320 * ((15 / 22 * P 8 k + 10 / 33 * P 9 k + 1 / 66 * P 10 k) - 3 * (6 / 11 * P 7 k + 9 / 22 * P 8 k + 1 / 22 * P 9 k) + 3 * (14 / 33 * P 6 k + 16 / 33 * P 7 k + 1 / 11 * P 8 k) - (7 / 22 * P 5 k + 35 / 66 * P 6 k + 5 / 33 * P 7 k))) T 3 hT
      (by simp [WpB.at, Fin.sum_univ_succ, raisedTen, q0, q1, q2, q3, q9, q10, q11, q12]; field_simp; ring) ?_
    obtain ⟨h1, h2, h3⟩ := hb k
    have a5 := abs_le.mp (h3 5 (by norm_num))
    have a6 := abs_le.mp (h3 6 (by norm_num))
    have a7 := abs_le.mp (h3 7 (by norm_num))
    try simp only [Nat.reduceAdd, zero_add] at *
    refine abs_le.mpr ⟨?_, ?_⟩ <;> linarith [a5.1, a5.2, a6.1, a6.2, a7.1, a7.2]
  refine within_of_rows _ _ _ ?_ ?_
  · intro _ k
    refine abs_row _ (1320 * ((5 / 6 * P 9 k + 1 / 6 * P 10 k) - 3 * (15 / 22 * P 8 k + 10 / 33 * P 9 k + 1 / 66 * P 10 k) + 3 * (6 / 11 * P 7 k + 9 / 22 * P 8 k + 1 / 22 * P 9 k) - (14 / 33 * P 6 k + 16 / 33 * P 7 k + 1 / 11 * P 8 k))) T 3 hT
      (by simp [WpB.at, Fin.sum_univ_succ, raisedTen, q0, q1, q2, q3, q9, q10, q11, q12]; field_simp; ring) ?_
    obtain ⟨h1, h2, h3⟩ := hb k
    have a6 := abs_le.mp (h3 6 (by norm_num))
    have a7 := abs_le.mp (h3 7 (by norm_num))
    try simp only [Nat.reduceAdd, zero_add] at *
    refine abs_le.mpr ⟨?_, ?_⟩ <;> linarith [a6.1, a6.2, a7.1, a7.2]
  refine within_of_rows _ _ _ ?_ ?_
  · exact fun h => absurd h (not_depends5 _)
  simp [Within]

/-- C128, motions of degree 10: those whose derivatives have their control points within the bounds, with the same margin, and whose middle
control points are not lower than the lower end, are not refused with five free points. -/
theorem C128_five_ten_partial (P : ℕ → V3) (T : ℝ) (hT : 0 < T) (hb : PolyBoundedTen P T fun k => 132 * (|1 / 22 * P 1 k + 9 / 22 * P 2 k + 6 / 11 * P 3 k| + |6 / 11 * P 7 k + 9 / 22 * P 8 k + 1 / 22 * P 9 k|))
    (hz : ∀ i, 2 ≤ i → i ≤ 8 → min (P 0 2) (P 10 2) ≤ P i 2) : ∃ M, ∀ lib, LibOk lib → lib.eps = 0 → M ≤ lib.maxIter →
    ∀ path w init, 0 ≤ w → w ≤ 1 → ∃ r N, (∀ fuel ≥ N, solveEndEffector lib fuel 2303#32 (polyEndsTen P T) path T w init = .ok r) ∧
      r.success = true := by
  obtain ⟨pi, hpi, hl, q0, q1, q2, q3, q9, q10, q11, q12⟩ := polyTen_pts12 P T hT
  have z : nth pi 7 = 0 := by
    have : computeConstantWaypoints 2303#32 (polyEndsTen P T) T = .ok (c0_dc0_ddc0_j0_x5_j1_ddc1_dc1_c1.computeConstantWaypoints (polyEndsTen P T) T) := by
      simp [computeConstantWaypoints]
    rw [this] at hpi
    obtain rfl := Out.ok.inj hpi
    rfl
  obtain ⟨M, h⟩ := end_verdict 2303#32 (by decide) (polyEndsTen P T) T hT pi hpi
  refine ⟨M, fun lib hL he hm path w init a b => ?_⟩
  obtain ⟨r, N, hr, hv⟩ := h lib hL he hm path w init a b
  refine ⟨r, N, hr, hv.mpr ⟨raisedTen P, _, _, _, by simp [computeVelocityWaypoints, hl]; rfl, by simp [computeAccelerationWaypoints, hl]; rfl,
    by simp [computeJerkWaypoints, hl]; rfl, raisedTen_vel P T hT pi hb q0 q1 q2 q3 q9 q10 q11 q12, raisedTen_acc P T hT pi hb z q0 q1 q2 q3 q9 q10 q11 q12,
    raisedTen_jerk P T hT pi hb q0 q1 q2 q3 q9 q10 q11 q12, fun j hj => ?_⟩⟩
  have e2 := hz 2 (by norm_num) (by norm_num)
  have e3 := hz 3 (by norm_num) (by norm_num)
  have e4 := hz 4 (by norm_num) (by norm_num)
  have e5 := hz 5 (by norm_num) (by norm_num)
  have e6 := hz 6 (by norm_num) (by norm_num)
  have e7 := hz 7 (by norm_num) (by norm_num)
  have e8 := hz 8 (by norm_num) (by norm_num)
  have hd : dimVarPts 2303#32 = 5 := by decide
  rw [hd] at hj
  show min (P 0 2) (P 10 2) ≤ _
  interval_cases j <;> simp only [raisedTen] <;> linarith

/-- A non-trivial case: a motion from the origin to (1,0,0) that rises by one metre in between, in one second. -/
def hop : ℕ → V3 := fun i => ![if i ≤ 5 then 0 else 1, 0, if i = 5 then 1 else 0]

theorem hop_planned : ∃ M, ∀ lib, LibOk lib → lib.eps = 0 → M ≤ lib.maxIter → ∀ path w init, 0 ≤ w → w ≤ 1 → ∃ r N,
    (∀ fuel ≥ N, solveEndEffector lib fuel 2303#32 (polyEndsTen hop 1) path 1 w init = .ok r) ∧ r.success = true := by
  refine C128_five_ten_partial hop 1 one_pos (fun k => ⟨fun i hi => ?_, fun i hi => ?_, fun i hi => ?_⟩) fun i h1 h2 => ?_
  · fin_cases k <;> interval_cases i <;> norm_num [hop, abs_le]
  · fin_cases k <;> interval_cases i <;> norm_num [hop, abs_of_nonneg, abs_of_nonpos]
  · fin_cases k <;> interval_cases i <;> norm_num [hop, abs_le]
  · interval_cases i <;> simp [hop]

end Verif
