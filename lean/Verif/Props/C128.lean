import Verif.Props.C127

/-!
# C128: polynomial motions of degree 8 and the three sets
-/

namespace Verif
open Finset

/-- The boundary conditions of the Bezier curve of degree 8 with control points `P 0 ... P 8` and duration `T`. -/
noncomputable def polyEnds (P : ℕ → V3) (T : ℝ) : BC where
  c0 := P 0
  dc0 := fun k => 8 * (P 1 k - P 0 k) / T
  ddc0 := fun k => 56 * (P 2 k - 2 * P 1 k + P 0 k) / T ^ 2
  j0 := fun k => 336 * (P 3 k - 3 * P 2 k + 3 * P 1 k - P 0 k) / T ^ 3
  c1 := P 8
  dc1 := fun k => 8 * (P 8 k - P 7 k) / T
  ddc1 := fun k => 56 * (P 8 k - 2 * P 7 k + P 6 k) / T ^ 2
  j1 := fun k => 336 * (P 8 k - 3 * P 7 k + 3 * P 6 k - P 5 k) / T ^ 3

theorem poly_pts8 (P : ℕ → V3) (T : ℝ) (hT : 0 < T) : ∃ pi, computeConstantWaypoints 255#32 (polyEnds P T) T = .ok pi ∧ pi.length = 9 ∧
    (∀ k, nth pi 0 k = P 0 k) ∧
    (∀ k, nth pi 1 k = P 1 k) ∧
    (∀ k, nth pi 2 k = P 2 k) ∧
    (∀ k, nth pi 3 k = P 3 k) ∧
    (∀ k, nth pi 5 k = P 5 k) ∧
    (∀ k, nth pi 6 k = P 6 k) ∧
    (∀ k, nth pi 7 k = P 7 k) ∧
    (∀ k, nth pi 8 k = P 8 k) := by
  have hT' := hT.ne'
  refine ⟨_, by simp [computeConstantWaypoints]; rfl, by simp [c0_dc0_ddc0_j0_j1_ddc1_dc1_c1.computeConstantWaypoints], ?_⟩
  (repeat' apply And.intro) <;> intro k <;>
    simp [nth, c0_dc0_ddc0_j0_j1_ddc1_dc1_c1.computeConstantWaypoints, polyEnds] <;> (try field_simp) <;> (try ring)

/-- The position, the velocity, the acceleration and the jerk of the Bezier curve with control points `P` at its ends are `polyEnds P T`. -/
theorem polyEnds_spec (P : ℕ → V3) (T : ℝ) (hT : 0 < T) : MeetsBoundary 255#32 (polyEnds P T) (curve 8 P T) T := by
  obtain ⟨pi, hpi, hl, q0, q1, q2, q3, q5, q6, q7, q8⟩ := poly_pts8 P T hT
  obtain ⟨pts, e, -, h⟩ := C09_boundary_conditions 255#32 (by decide) (polyEnds P T) T hT.ne' fun _ => P 4
  rw [hpi] at e
  obtain rfl := Out.ok.inj e
  have hd : degreeOf 255#32 = 8 := by decide
  have hs : freeSlots 255#32 = [4] := by decide
  have : curve (degreeOf 255#32) (fillMany 255#32 (nth pi) fun _ => P 4) T = curve 8 P T := by
    funext s
    rw [hd]
    unfold curve bez
    refine sum_congr rfl fun i hi => ?_
    have hi := mem_range.mp hi
    congr 1
    funext k
    unfold fillMany
    rw [hs]
    interval_cases i <;> simp [q0, q1, q2, q3, q5, q6, q7, q8]
  rwa [this] at h

theorem poly_pts10 (P : ℕ → V3) (T : ℝ) (hT : 0 < T) : ∃ pi, computeConstantWaypoints 767#32 (polyEnds P T) T = .ok pi ∧ pi.length = 11 ∧
    (∀ k, nth pi 0 k = 1 * P 0 k) ∧
    (∀ k, nth pi 1 k = 1 / 5 * P 0 k + 4 / 5 * P 1 k) ∧
    (∀ k, nth pi 2 k = 1 / 45 * P 0 k + 16 / 45 * P 1 k + 28 / 45 * P 2 k) ∧
    (∀ k, nth pi 3 k = 1 / 15 * P 1 k + 7 / 15 * P 2 k + 7 / 15 * P 3 k) ∧
    (∀ k, nth pi 7 k = 7 / 15 * P 5 k + 7 / 15 * P 6 k + 1 / 15 * P 7 k) ∧
    (∀ k, nth pi 8 k = 28 / 45 * P 6 k + 16 / 45 * P 7 k + 1 / 45 * P 8 k) ∧
    (∀ k, nth pi 9 k = 4 / 5 * P 7 k + 1 / 5 * P 8 k) ∧
    (∀ k, nth pi 10 k = 1 * P 8 k) := by
  have hT' := hT.ne'
  refine ⟨_, by simp [computeConstantWaypoints]; rfl, by simp [c0_dc0_ddc0_j0_x3_j1_ddc1_dc1_c1.computeConstantWaypoints], ?_⟩
  (repeat' apply And.intro) <;> intro k <;>
    simp [nth, c0_dc0_ddc0_j0_x3_j1_ddc1_dc1_c1.computeConstantWaypoints, polyEnds] <;> field_simp <;> ring

theorem poly_pts12 (P : ℕ → V3) (T : ℝ) (hT : 0 < T) : ∃ pi, computeConstantWaypoints 2303#32 (polyEnds P T) T = .ok pi ∧ pi.length = 13 ∧
    (∀ k, nth pi 0 k = 1 * P 0 k) ∧
    (∀ k, nth pi 1 k = 1 / 3 * P 0 k + 2 / 3 * P 1 k) ∧
    (∀ k, nth pi 2 k = 1 / 11 * P 0 k + 16 / 33 * P 1 k + 14 / 33 * P 2 k) ∧
    (∀ k, nth pi 3 k = 1 / 55 * P 0 k + 12 / 55 * P 1 k + 28 / 55 * P 2 k + 14 / 55 * P 3 k) ∧
    (∀ k, nth pi 9 k = 14 / 55 * P 5 k + 28 / 55 * P 6 k + 12 / 55 * P 7 k + 1 / 55 * P 8 k) ∧
    (∀ k, nth pi 10 k = 14 / 33 * P 6 k + 16 / 33 * P 7 k + 1 / 11 * P 8 k) ∧
    (∀ k, nth pi 11 k = 2 / 3 * P 7 k + 1 / 3 * P 8 k) ∧
    (∀ k, nth pi 12 k = 1 * P 8 k) := by
  have hT' := hT.ne'
  refine ⟨_, by simp [computeConstantWaypoints]; rfl, by simp [c0_dc0_ddc0_j0_x5_j1_ddc1_dc1_c1.computeConstantWaypoints], ?_⟩
  (repeat' apply And.intro) <;> intro k <;>
    simp [nth, c0_dc0_ddc0_j0_x5_j1_ddc1_dc1_c1.computeConstantWaypoints, polyEnds] <;> field_simp <;> ring

/-- The control points of the velocity, the acceleration and the jerk of the curve of degree 8 are between -10000 and 10000, those of
the acceleration with the margin `m / T ^ 2`. -/
def PolyBounded (P : ℕ → V3) (T : ℝ) (m : V3) : Prop := ∀ k,
  (∀ i < 8, |8 * (P (i + 1) k - P i k)| ≤ 10000 * T) ∧
  (∀ i < 7, |56 * (P (i + 2) k - 2 * P (i + 1) k + P i k)| + m k ≤ 10000 * T ^ 2) ∧
  (∀ i < 6, |336 * (P (i + 3) k - 3 * P (i + 2) k + 3 * P (i + 1) k - P i k)| ≤ 10000 * T ^ 3)

/-- The free points of the curve of degree 10 that is the same motion. -/
noncomputable def raised10 (P : ℕ → V3) : ℕ → V3
  | 0 => fun k => 2 / 15 * P 2 k + 8 / 15 * P 3 k + 1 / 3 * P 4 k
  | 1 => fun k => 2 / 9 * P 3 k + 5 / 9 * P 4 k + 2 / 9 * P 5 k
  | _ => fun k => 1 / 3 * P 4 k + 8 / 15 * P 5 k + 2 / 15 * P 6 k

/-- The free points of the curve of degree 12 that is the same motion. -/
noncomputable def raised12 (P : ℕ → V3) : ℕ → V3
  | 0 => fun k => 1 / 495 * P 0 k + 32 / 495 * P 1 k + 56 / 165 * P 2 k + 224 / 495 * P 3 k + 14 / 99 * P 4 k
  | 1 => fun k => 1 / 99 * P 1 k + 14 / 99 * P 2 k + 14 / 33 * P 3 k + 35 / 99 * P 4 k + 7 / 99 * P 5 k
  | 2 => fun k => 1 / 33 * P 2 k + 8 / 33 * P 3 k + 5 / 11 * P 4 k + 8 / 33 * P 5 k + 1 / 33 * P 6 k
  | 3 => fun k => 7 / 99 * P 3 k + 35 / 99 * P 4 k + 14 / 33 * P 5 k + 14 / 99 * P 6 k + 1 / 99 * P 7 k
  | _ => fun k => 14 / 99 * P 4 k + 224 / 495 * P 5 k + 56 / 165 * P 6 k + 32 / 495 * P 7 k + 1 / 495 * P 8 k

theorem abs_row (a b T : ℝ) (n : ℕ) (hT : 0 < T) (h : a = b / T ^ n) (hb : |b| ≤ 10000 * T ^ n) : |a| ≤ 10000 := by
  have : 0 < T ^ n := pow_pos hT n
  rw [h, abs_div, abs_of_pos this, div_le_iff₀ this]
  exact hb

theorem within_of_rows {K : ℕ} (w : WpB K) (ws : List (WpB K)) (X : ℕ → V3) (h : Depends w → ∀ k, |w.at X k| ≤ 10000)
    (t : Within ws (fun _ => 10000) (fun _ => 10000) X) : Within (w :: ws) (fun _ => 10000) (fun _ => 10000) X := by
  unfold Within at t ⊢
  intro v hv hd k
  rcases List.mem_cons.mp hv with rfl | hv
  · exact abs_le.mp (h hd k)
  · exact t v hv hd k

theorem not_depends1 (s : V3) : ¬ Depends (⟨![0], s⟩ : WpB 1) := by
  rintro ⟨j, hj⟩
  fin_cases j <;> norm_num at hj

theorem not_depends3 (s : V3) : ¬ Depends (⟨![0, 0, 0], s⟩ : WpB 3) := by
  rintro ⟨j, hj⟩
  fin_cases j <;> norm_num at hj

theorem not_depends5 (s : V3) : ¬ Depends (⟨![0, 0, 0, 0, 0], s⟩ : WpB 5) := by
  rintro ⟨j, hj⟩
  fin_cases j <;> norm_num at hj

theorem raised10_vel (P : ℕ → V3) (T : ℝ) (hT : 0 < T) (pi : List V3) (hb : PolyBounded P T fun k => 90 * |1 / 15 * P 1 k + 7 / 15 * P 2 k + 7 / 15 * P 3 k|)
    (q0 : ∀ k, nth pi 0 k = 1 * P 0 k)
    (q1 : ∀ k, nth pi 1 k = 1 / 5 * P 0 k + 4 / 5 * P 1 k)
    (q2 : ∀ k, nth pi 2 k = 1 / 45 * P 0 k + 16 / 45 * P 1 k + 28 / 45 * P 2 k)
    (q3 : ∀ k, nth pi 3 k = 1 / 15 * P 1 k + 7 / 15 * P 2 k + 7 / 15 * P 3 k)
    (q7 : ∀ k, nth pi 7 k = 7 / 15 * P 5 k + 7 / 15 * P 6 k + 1 / 15 * P 7 k)
    (q8 : ∀ k, nth pi 8 k = 28 / 45 * P 6 k + 16 / 45 * P 7 k + 1 / 45 * P 8 k)
    (q9 : ∀ k, nth pi 9 k = 4 / 5 * P 7 k + 1 / 5 * P 8 k)
    (q10 : ∀ k, nth pi 10 k = 1 * P 8 k) :
    Within (c0_dc0_ddc0_j0_x3_j1_ddc1_dc1_c1.computeVelocityWaypoints (nth pi) T) (fun _ => 10000) (fun _ => 10000) (raised10 P) := by
  have hT' := hT.ne'
  unfold c0_dc0_ddc0_j0_x3_j1_ddc1_dc1_c1.computeVelocityWaypoints
  refine within_of_rows _ _ _ ?_ ?_
  · exact fun h => absurd h (not_depends3 _)
  refine within_of_rows _ _ _ ?_ ?_
  · exact fun h => absurd h (not_depends3 _)
  refine within_of_rows _ _ _ ?_ ?_
  · exact fun h => absurd h (not_depends3 _)
  refine within_of_rows _ _ _ ?_ ?_
  · intro _ k
    refine abs_row _ (10 * ((2 / 15 * P 2 k + 8 / 15 * P 3 k + 1 / 3 * P 4 k) - (1 / 15 * P 1 k + 7 / 15 * P 2 k + 7 / 15 * P 3 k))) T 1 hT
      (by simp [WpB.at, Fin.sum_univ_succ, raised10, q0, q1, q2, q3, q7, q8, q9, q10]; field_simp; ring) ?_
    obtain ⟨h1, h2, h3⟩ := hb k
    have a1 := abs_le.mp (h1 1 (by norm_num))
    have a2 := abs_le.mp (h1 2 (by norm_num))
    have a3 := abs_le.mp (h1 3 (by norm_num))
    norm_num only [pow_one] at *
    try simp only [Nat.reduceAdd, zero_add] at *
    refine abs_le.mpr ⟨?_, ?_⟩ <;> linarith [a1.1, a1.2, a2.1, a2.2, a3.1, a3.2]
  refine within_of_rows _ _ _ ?_ ?_
  · intro _ k
    refine abs_row _ (10 * ((2 / 9 * P 3 k + 5 / 9 * P 4 k + 2 / 9 * P 5 k) - (2 / 15 * P 2 k + 8 / 15 * P 3 k + 1 / 3 * P 4 k))) T 1 hT
      (by simp [WpB.at, Fin.sum_univ_succ, raised10, q0, q1, q2, q3, q7, q8, q9, q10]; field_simp; ring) ?_
    obtain ⟨h1, h2, h3⟩ := hb k
    have a2 := abs_le.mp (h1 2 (by norm_num))
    have a3 := abs_le.mp (h1 3 (by norm_num))
    have a4 := abs_le.mp (h1 4 (by norm_num))
    norm_num only [pow_one] at *
    try simp only [Nat.reduceAdd, zero_add] at *
    refine abs_le.mpr ⟨?_, ?_⟩ <;> linarith [a2.1, a2.2, a3.1, a3.2, a4.1, a4.2]
  refine within_of_rows _ _ _ ?_ ?_
  · intro _ k
    refine abs_row _ (10 * ((1 / 3 * P 4 k + 8 / 15 * P 5 k + 2 / 15 * P 6 k) - (2 / 9 * P 3 k + 5 / 9 * P 4 k + 2 / 9 * P 5 k))) T 1 hT
      (by simp [WpB.at, Fin.sum_univ_succ, raised10, q0, q1, q2, q3, q7, q8, q9, q10]; field_simp; ring) ?_
    obtain ⟨h1, h2, h3⟩ := hb k
    have a3 := abs_le.mp (h1 3 (by norm_num))
    have a4 := abs_le.mp (h1 4 (by norm_num))
    have a5 := abs_le.mp (h1 5 (by norm_num))
    norm_num only [pow_one] at *
    try simp only [Nat.reduceAdd, zero_add] at *
    refine abs_le.mpr ⟨?_, ?_⟩ <;> linarith [a3.1, a3.2, a4.1, a4.2, a5.1, a5.2]
  refine within_of_rows _ _ _ ?_ ?_
  · intro _ k
    refine abs_row _ (10 * ((7 / 15 * P 5 k + 7 / 15 * P 6 k + 1 / 15 * P 7 k) - (1 / 3 * P 4 k + 8 / 15 * P 5 k + 2 / 15 * P 6 k))) T 1 hT
      (by simp [WpB.at, Fin.sum_univ_succ, raised10, q0, q1, q2, q3, q7, q8, q9, q10]; field_simp; ring) ?_
    obtain ⟨h1, h2, h3⟩ := hb k
    have a4 := abs_le.mp (h1 4 (by norm_num))
    have a5 := abs_le.mp (h1 5 (by norm_num))
    have a6 := abs_le.mp (h1 6 (by norm_num))
    norm_num only [pow_one] at *
    try simp only [Nat.reduceAdd, zero_add] at *
    refine abs_le.mpr ⟨?_, ?_⟩ <;> linarith [a4.1, a4.2, a5.1, a5.2, a6.1, a6.2]
  refine within_of_rows _ _ _ ?_ ?_
  · exact fun h => absurd h (not_depends3 _)
  refine within_of_rows _ _ _ ?_ ?_
  · exact fun h => absurd h (not_depends3 _)
  refine within_of_rows _ _ _ ?_ ?_
  · exact fun h => absurd h (not_depends3 _)
  simp [Within]

theorem raised10_acc (P : ℕ → V3) (T : ℝ) (hT : 0 < T) (pi : List V3) (hb : PolyBounded P T fun k => 90 * |1 / 15 * P 1 k + 7 / 15 * P 2 k + 7 / 15 * P 3 k|)
    (q0 : ∀ k, nth pi 0 k = 1 * P 0 k)
    (q1 : ∀ k, nth pi 1 k = 1 / 5 * P 0 k + 4 / 5 * P 1 k)
    (q2 : ∀ k, nth pi 2 k = 1 / 45 * P 0 k + 16 / 45 * P 1 k + 28 / 45 * P 2 k)
    (q3 : ∀ k, nth pi 3 k = 1 / 15 * P 1 k + 7 / 15 * P 2 k + 7 / 15 * P 3 k)
    (q7 : ∀ k, nth pi 7 k = 7 / 15 * P 5 k + 7 / 15 * P 6 k + 1 / 15 * P 7 k)
    (q8 : ∀ k, nth pi 8 k = 28 / 45 * P 6 k + 16 / 45 * P 7 k + 1 / 45 * P 8 k)
    (q9 : ∀ k, nth pi 9 k = 4 / 5 * P 7 k + 1 / 5 * P 8 k)
    (q10 : ∀ k, nth pi 10 k = 1 * P 8 k) :
    Within (c0_dc0_ddc0_j0_x3_j1_ddc1_dc1_c1.computeAccelerationWaypoints (nth pi) T) (fun _ => 10000) (fun _ => 10000) (raised10 P) := by
  have hT' := hT.ne'
  unfold c0_dc0_ddc0_j0_x3_j1_ddc1_dc1_c1.computeAccelerationWaypoints
  refine within_of_rows _ _ _ ?_ ?_
  · exact fun h => absurd h (not_depends3 _)
  refine within_of_rows _ _ _ ?_ ?_
  · exact fun h => absurd h (not_depends3 _)
  refine within_of_rows _ _ _ ?_ ?_
  · intro _ k
    refine abs_row _ (90 * ((2 / 15 * P 2 k + 8 / 15 * P 3 k + 1 / 3 * P 4 k) - 2 * (1 / 15 * P 1 k + 7 / 15 * P 2 k + 7 / 15 * P 3 k) + (1 / 45 * P 0 k + 16 / 45 * P 1 k + 28 / 45 * P 2 k)) + 90 * (1 / 15 * P 1 k + 7 / 15 * P 2 k + 7 / 15 * P 3 k)) T 2 hT
      (by simp [WpB.at, Fin.sum_univ_succ, raised10, q0, q1, q2, q3, q7, q8, q9, q10]; field_simp; ring) ?_
    obtain ⟨h1, h2, h3⟩ := hb k
    have a0 := h2 0 (by norm_num)
    have b0 := abs_le.mp (le_refl |56 * (P 2 k - 2 * P 1 k + P 0 k)|)
    have a1 := h2 1 (by norm_num)
    have b1 := abs_le.mp (le_refl |56 * (P 3 k - 2 * P 2 k + P 1 k)|)
    have a2 := h2 2 (by norm_num)
    have b2 := abs_le.mp (le_refl |56 * (P 4 k - 2 * P 3 k + P 2 k)|)
    have c := abs_le.mp (le_refl |1 / 15 * P 1 k + 7 / 15 * P 2 k + 7 / 15 * P 3 k|)
    have c0 := abs_nonneg (1 / 15 * P 1 k + 7 / 15 * P 2 k + 7 / 15 * P 3 k)
    try simp only [Nat.reduceAdd, zero_add] at *
    refine abs_le.mpr ⟨?_, ?_⟩ <;> linarith [a0, b0.1, b0.2, a1, b1.1, b1.2, a2, b2.1, b2.2, c.1, c.2, c0]
  refine within_of_rows _ _ _ ?_ ?_
  · intro _ k
    refine abs_row _ (90 * ((2 / 9 * P 3 k + 5 / 9 * P 4 k + 2 / 9 * P 5 k) - 2 * (2 / 15 * P 2 k + 8 / 15 * P 3 k + 1 / 3 * P 4 k) + (1 / 15 * P 1 k + 7 / 15 * P 2 k + 7 / 15 * P 3 k))) T 2 hT
      (by simp [WpB.at, Fin.sum_univ_succ, raised10, q0, q1, q2, q3, q7, q8, q9, q10]; field_simp; ring) ?_
    obtain ⟨h1, h2, h3⟩ := hb k
    have a1 := h2 1 (by norm_num)
    have b1 := abs_le.mp (le_refl |56 * (P 3 k - 2 * P 2 k + P 1 k)|)
    have a2 := h2 2 (by norm_num)
    have b2 := abs_le.mp (le_refl |56 * (P 4 k - 2 * P 3 k + P 2 k)|)
    have a3 := h2 3 (by norm_num)
    have b3 := abs_le.mp (le_refl |56 * (P 5 k - 2 * P 4 k + P 3 k)|)
    have c := abs_le.mp (le_refl |1 / 15 * P 1 k + 7 / 15 * P 2 k + 7 / 15 * P 3 k|)
    have c0 := abs_nonneg (1 / 15 * P 1 k + 7 / 15 * P 2 k + 7 / 15 * P 3 k)
    try simp only [Nat.reduceAdd, zero_add] at *
    refine abs_le.mpr ⟨?_, ?_⟩ <;> linarith [a1, b1.1, b1.2, a2, b2.1, b2.2, a3, b3.1, b3.2, c.1, c.2, c0]
  refine within_of_rows _ _ _ ?_ ?_
  · intro _ k
    refine abs_row _ (90 * ((1 / 3 * P 4 k + 8 / 15 * P 5 k + 2 / 15 * P 6 k) - 2 * (2 / 9 * P 3 k + 5 / 9 * P 4 k + 2 / 9 * P 5 k) + (2 / 15 * P 2 k + 8 / 15 * P 3 k + 1 / 3 * P 4 k))) T 2 hT
      (by simp [WpB.at, Fin.sum_univ_succ, raised10, q0, q1, q2, q3, q7, q8, q9, q10]; field_simp; ring) ?_
    obtain ⟨h1, h2, h3⟩ := hb k
    have a2 := h2 2 (by norm_num)
    have b2 := abs_le.mp (le_refl |56 * (P 4 k - 2 * P 3 k + P 2 k)|)
    have a3 := h2 3 (by norm_num)
    have b3 := abs_le.mp (le_refl |56 * (P 5 k - 2 * P 4 k + P 3 k)|)
    have a4 := h2 4 (by norm_num)
    have b4 := abs_le.mp (le_refl |56 * (P 6 k - 2 * P 5 k + P 4 k)|)
    have c := abs_le.mp (le_refl |1 / 15 * P 1 k + 7 / 15 * P 2 k + 7 / 15 * P 3 k|)
    have c0 := abs_nonneg (1 / 15 * P 1 k + 7 / 15 * P 2 k + 7 / 15 * P 3 k)
    try simp only [Nat.reduceAdd, zero_add] at *
    refine abs_le.mpr ⟨?_, ?_⟩ <;> linarith [a2, b2.1, b2.2, a3, b3.1, b3.2, a4, b4.1, b4.2, c.1, c.2, c0]
  refine within_of_rows _ _ _ ?_ ?_
  · intro _ k
    refine abs_row _ (90 * ((7 / 15 * P 5 k + 7 / 15 * P 6 k + 1 / 15 * P 7 k) - 2 * (1 / 3 * P 4 k + 8 / 15 * P 5 k + 2 / 15 * P 6 k) + (2 / 9 * P 3 k + 5 / 9 * P 4 k + 2 / 9 * P 5 k))) T 2 hT
      (by simp [WpB.at, Fin.sum_univ_succ, raised10, q0, q1, q2, q3, q7, q8, q9, q10]; field_simp; ring) ?_
    obtain ⟨h1, h2, h3⟩ := hb k
    have a3 := h2 3 (by norm_num)
    have b3 := abs_le.mp (le_refl |56 * (P 5 k - 2 * P 4 k + P 3 k)|)
    have a4 := h2 4 (by norm_num)
    have b4 := abs_le.mp (le_refl |56 * (P 6 k - 2 * P 5 k + P 4 k)|)
    have a5 := h2 5 (by norm_num)
    have b5 := abs_le.mp (le_refl |56 * (P 7 k - 2 * P 6 k + P 5 k)|)
    have c := abs_le.mp (le_refl |1 / 15 * P 1 k + 7 / 15 * P 2 k + 7 / 15 * P 3 k|)
    have c0 := abs_nonneg (1 / 15 * P 1 k + 7 / 15 * P 2 k + 7 / 15 * P 3 k)
    try simp only [Nat.reduceAdd, zero_add] at *
    refine abs_le.mpr ⟨?_, ?_⟩ <;> linarith [a3, b3.1, b3.2, a4, b4.1, b4.2, a5, b5.1, b5.2, c.1, c.2, c0]
  refine within_of_rows _ _ _ ?_ ?_
  · intro _ k
    refine abs_row _ (90 * ((28 / 45 * P 6 k + 16 / 45 * P 7 k + 1 / 45 * P 8 k) - 2 * (7 / 15 * P 5 k + 7 / 15 * P 6 k + 1 / 15 * P 7 k) + (1 / 3 * P 4 k + 8 / 15 * P 5 k + 2 / 15 * P 6 k))) T 2 hT
      (by simp [WpB.at, Fin.sum_univ_succ, raised10, q0, q1, q2, q3, q7, q8, q9, q10]; field_simp; ring) ?_
    obtain ⟨h1, h2, h3⟩ := hb k
    have a4 := h2 4 (by norm_num)
    have b4 := abs_le.mp (le_refl |56 * (P 6 k - 2 * P 5 k + P 4 k)|)
    have a5 := h2 5 (by norm_num)
    have b5 := abs_le.mp (le_refl |56 * (P 7 k - 2 * P 6 k + P 5 k)|)
    have a6 := h2 6 (by norm_num)
    have b6 := abs_le.mp (le_refl |56 * (P 8 k - 2 * P 7 k + P 6 k)|)
    have c := abs_le.mp (le_refl |1 / 15 * P 1 k + 7 / 15 * P 2 k + 7 / 15 * P 3 k|)
    have c0 := abs_nonneg (1 / 15 * P 1 k + 7 / 15 * P 2 k + 7 / 15 * P 3 k)
    try simp only [Nat.reduceAdd, zero_add] at *
    refine abs_le.mpr ⟨?_, ?_⟩ <;> linarith [a4, b4.1, b4.2, a5, b5.1, b5.2, a6, b6.1, b6.2, c.1, c.2, c0]
  refine within_of_rows _ _ _ ?_ ?_
  · exact fun h => absurd h (not_depends3 _)
  refine within_of_rows _ _ _ ?_ ?_
  · exact fun h => absurd h (not_depends3 _)
  refine within_of_rows _ _ _ ?_ ?_
  · exact fun h => absurd h (not_depends3 _)
  simp [Within]

theorem raised10_jerk (P : ℕ → V3) (T : ℝ) (hT : 0 < T) (pi : List V3) (hb : PolyBounded P T fun k => 90 * |1 / 15 * P 1 k + 7 / 15 * P 2 k + 7 / 15 * P 3 k|)
    (q0 : ∀ k, nth pi 0 k = 1 * P 0 k)
    (q1 : ∀ k, nth pi 1 k = 1 / 5 * P 0 k + 4 / 5 * P 1 k)
    (q2 : ∀ k, nth pi 2 k = 1 / 45 * P 0 k + 16 / 45 * P 1 k + 28 / 45 * P 2 k)
    (q3 : ∀ k, nth pi 3 k = 1 / 15 * P 1 k + 7 / 15 * P 2 k + 7 / 15 * P 3 k)
    (q7 : ∀ k, nth pi 7 k = 7 / 15 * P 5 k + 7 / 15 * P 6 k + 1 / 15 * P 7 k)
    (q8 : ∀ k, nth pi 8 k = 28 / 45 * P 6 k + 16 / 45 * P 7 k + 1 / 45 * P 8 k)
    (q9 : ∀ k, nth pi 9 k = 4 / 5 * P 7 k + 1 / 5 * P 8 k)
    (q10 : ∀ k, nth pi 10 k = 1 * P 8 k) :
    Within (c0_dc0_ddc0_j0_x3_j1_ddc1_dc1_c1.computeJerkWaypoints (nth pi) T) (fun _ => 10000) (fun _ => 10000) (raised10 P) := by
  have hT' := hT.ne'
  unfold c0_dc0_ddc0_j0_x3_j1_ddc1_dc1_c1.computeJerkWaypoints
  refine within_of_rows _ _ _ ?_ ?_
  · exact fun h => absurd h (not_depends3 _)
  refine within_of_rows _ _ _ ?_ ?_
  · intro _ k
    refine abs_row _ (720 * ((2 / 15 * P 2 k + 8 / 15 * P 3 k + 1 / 3 * P 4 k) - 3 * (1 / 15 * P 1 k + 7 / 15 * P 2 k + 7 / 15 * P 3 k) + 3 * (1 / 45 * P 0 k + 16 / 45 * P 1 k + 28 / 45 * P 2 k) - (1 / 5 * P 0 k + 4 / 5 * P 1 k))) T 3 hT
      (by simp [WpB.at, Fin.sum_univ_succ, raised10, q0, q1, q2, q3, q7, q8, q9, q10]; field_simp; ring) ?_
    obtain ⟨h1, h2, h3⟩ := hb k
    have a0 := abs_le.mp (h3 0 (by norm_num))
    have a1 := abs_le.mp (h3 1 (by norm_num))
    try simp only [Nat.reduceAdd, zero_add] at *
    refine abs_le.mpr ⟨?_, ?_⟩ <;> linarith [a0.1, a0.2, a1.1, a1.2]
  refine within_of_rows _ _ _ ?_ ?_
  · intro _ k
    refine abs_row _ (720 * ((2 / 9 * P 3 k + 5 / 9 * P 4 k + 2 / 9 * P 5 k) - 3 * (2 / 15 * P 2 k + 8 / 15 * P 3 k + 1 / 3 * P 4 k) + 3 * (1 / 15 * P 1 k + 7 / 15 * P 2 k + 7 / 15 * P 3 k) - (1 / 45 * P 0 k + 16 / 45 * P 1 k + 28 / 45 * P 2 k))) T 3 hT
      (by simp [WpB.at, Fin.sum_univ_succ, raised10, q0, q1, q2, q3, q7, q8, q9, q10]; field_simp; ring) ?_
    obtain ⟨h1, h2, h3⟩ := hb k
    have a0 := abs_le.mp (h3 0 (by norm_num))
    have a1 := abs_le.mp (h3 1 (by norm_num))
    have a2 := abs_le.mp (h3 2 (by norm_num))
    try simp only [Nat.reduceAdd, zero_add] at *
    refine abs_le.mpr ⟨?_, ?_⟩ <;> linarith [a0.1, a0.2, a1.1, a1.2, a2.1, a2.2]
  refine within_of_rows _ _ _ ?_ ?_
  · intro _ k
    refine abs_row _ (720 * ((1 / 3 * P 4 k + 8 / 15 * P 5 k + 2 / 15 * P 6 k) - 3 * (2 / 9 * P 3 k + 5 / 9 * P 4 k + 2 / 9 * P 5 k) + 3 * (2 / 15 * P 2 k + 8 / 15 * P 3 k + 1 / 3 * P 4 k) - (1 / 15 * P 1 k + 7 / 15 * P 2 k + 7 / 15 * P 3 k))) T 3 hT
      (by simp [WpB.at, Fin.sum_univ_succ, raised10, q0, q1, q2, q3, q7, q8, q9, q10]; field_simp; ring) ?_
    obtain ⟨h1, h2, h3⟩ := hb k
    have a1 := abs_le.mp (h3 1 (by norm_num))
    have a2 := abs_le.mp (h3 2 (by norm_num))
    have a3 := abs_le.mp (h3 3 (by norm_num))
    try simp only [Nat.reduceAdd, zero_add] at *
    refine abs_le.mpr ⟨?_, ?_⟩ <;> linarith [a1.1, a1.2, a2.1, a2.2, a3.1, a3.2]
  refine within_of_rows _ _ _ ?_ ?_
  · intro _ k
    refine abs_row _ (720 * ((7 / 15 * P 5 k + 7 / 15 * P 6 k + 1 / 15 * P 7 k) - 3 * (1 / 3 * P 4 k + 8 / 15 * P 5 k + 2 / 15 * P 6 k) + 3 * (2 / 9 * P 3 k + 5 / 9 * P 4 k + 2 / 9 * P 5 k) - (2 / 15 * P 2 k + 8 / 15 * P 3 k + 1 / 3 * P 4 k))) T 3 hT
      (by simp [WpB.at, Fin.sum_univ_succ, raised10, q0, q1, q2, q3, q7, q8, q9, q10]; field_simp; ring) ?_
    obtain ⟨h1, h2, h3⟩ := hb k
    have a2 := abs_le.mp (h3 2 (by norm_num))
    have a3 := abs_le.mp (h3 3 (by norm_num))
    have a4 := abs_le.mp (h3 4 (by norm_num))
    try simp only [Nat.reduceAdd, zero_add] at *
    refine abs_le.mpr ⟨?_, ?_⟩ <;> linarith [a2.1, a2.2, a3.1, a3.2, a4.1, a4.2]
  refine within_of_rows _ _ _ ?_ ?_
  · intro _ k
    refine abs_row _ (720 * ((28 / 45 * P 6 k + 16 / 45 * P 7 k + 1 / 45 * P 8 k) - 3 * (7 / 15 * P 5 k + 7 / 15 * P 6 k + 1 / 15 * P 7 k) + 3 * (1 / 3 * P 4 k + 8 / 15 * P 5 k + 2 / 15 * P 6 k) - (2 / 9 * P 3 k + 5 / 9 * P 4 k + 2 / 9 * P 5 k))) T 3 hT
      (by simp [WpB.at, Fin.sum_univ_succ, raised10, q0, q1, q2, q3, q7, q8, q9, q10]; field_simp; ring) ?_
    obtain ⟨h1, h2, h3⟩ := hb k
    have a3 := abs_le.mp (h3 3 (by norm_num))
    have a4 := abs_le.mp (h3 4 (by norm_num))
    have a5 := abs_le.mp (h3 5 (by norm_num))
    try simp only [Nat.reduceAdd, zero_add] at *
    refine abs_le.mpr ⟨?_, ?_⟩ <;> linarith [a3.1, a3.2, a4.1, a4.2, a5.1, a5.2]
  refine within_of_rows _ _ _ ?_ ?_
  · intro _ k
    refine abs_row _ (720 * ((4 / 5 * P 7 k + 1 / 5 * P 8 k) - 3 * (28 / 45 * P 6 k + 16 / 45 * P 7 k + 1 / 45 * P 8 k) + 3 * (7 / 15 * P 5 k + 7 / 15 * P 6 k + 1 / 15 * P 7 k) - (1 / 3 * P 4 k + 8 / 15 * P 5 k + 2 / 15 * P 6 k))) T 3 hT
      (by simp [WpB.at, Fin.sum_univ_succ, raised10, q0, q1, q2, q3, q7, q8, q9, q10]; field_simp; ring) ?_
    obtain ⟨h1, h2, h3⟩ := hb k
    have a4 := abs_le.mp (h3 4 (by norm_num))
    have a5 := abs_le.mp (h3 5 (by norm_num))
    try simp only [Nat.reduceAdd, zero_add] at *
    refine abs_le.mpr ⟨?_, ?_⟩ <;> linarith [a4.1, a4.2, a5.1, a5.2]
  refine within_of_rows _ _ _ ?_ ?_
  · exact fun h => absurd h (not_depends3 _)
  simp [Within]

theorem raised12_vel (P : ℕ → V3) (T : ℝ) (hT : 0 < T) (pi : List V3) (hb : PolyBounded P T fun k => 132 * (|1 / 55 * P 0 k + 12 / 55 * P 1 k + 28 / 55 * P 2 k + 14 / 55 * P 3 k| + |14 / 55 * P 5 k + 28 / 55 * P 6 k + 12 / 55 * P 7 k + 1 / 55 * P 8 k|))
    (q0 : ∀ k, nth pi 0 k = 1 * P 0 k)
    (q1 : ∀ k, nth pi 1 k = 1 / 3 * P 0 k + 2 / 3 * P 1 k)
    (q2 : ∀ k, nth pi 2 k = 1 / 11 * P 0 k + 16 / 33 * P 1 k + 14 / 33 * P 2 k)
    (q3 : ∀ k, nth pi 3 k = 1 / 55 * P 0 k + 12 / 55 * P 1 k + 28 / 55 * P 2 k + 14 / 55 * P 3 k)
    (q9 : ∀ k, nth pi 9 k = 14 / 55 * P 5 k + 28 / 55 * P 6 k + 12 / 55 * P 7 k + 1 / 55 * P 8 k)
    (q10 : ∀ k, nth pi 10 k = 14 / 33 * P 6 k + 16 / 33 * P 7 k + 1 / 11 * P 8 k)
    (q11 : ∀ k, nth pi 11 k = 2 / 3 * P 7 k + 1 / 3 * P 8 k)
    (q12 : ∀ k, nth pi 12 k = 1 * P 8 k) :
    Within (c0_dc0_ddc0_j0_x5_j1_ddc1_dc1_c1.computeVelocityWaypoints (nth pi) T) (fun _ => 10000) (fun _ => 10000) (raised12 P) := by
  have hT' := hT.ne'
  unfold c0_dc0_ddc0_j0_x5_j1_ddc1_dc1_c1.computeVelocityWaypoints
  refine within_of_rows _ _ _ ?_ ?_
  · exact fun h => absurd h (not_depends5 _)
  refine within_of_rows _ _ _ ?_ ?_
  · exact fun h => absurd h (not_depends5 _)
  refine within_of_rows _ _ _ ?_ ?_
  · exact fun h => absurd h (not_depends5 _)
  refine within_of_rows _ _ _ ?_ ?_
  · intro _ k
    refine abs_row _ (12 * ((1 / 495 * P 0 k + 32 / 495 * P 1 k + 56 / 165 * P 2 k + 224 / 495 * P 3 k + 14 / 99 * P 4 k) - (1 / 55 * P 0 k + 12 / 55 * P 1 k + 28 / 55 * P 2 k + 14 / 55 * P 3 k))) T 1 hT
      (by simp [WpB.at, Fin.sum_univ_succ, raised12, q0, q1, q2, q3, q9, q10, q11, q12]; field_simp; ring) ?_
    obtain ⟨h1, h2, h3⟩ := hb k
    have a0 := abs_le.mp (h1 0 (by norm_num))
    have a1 := abs_le.mp (h1 1 (by norm_num))
    have a2 := abs_le.mp (h1 2 (by norm_num))
    have a3 := abs_le.mp (h1 3 (by norm_num))
    norm_num only [pow_one] at *
    try simp only [Nat.reduceAdd, zero_add] at *
    refine abs_le.mpr ⟨?_, ?_⟩ <;> linarith [a0.1, a0.2, a1.1, a1.2, a2.1, a2.2, a3.1, a3.2]
  refine within_of_rows _ _ _ ?_ ?_
  · intro _ k
    refine abs_row _ (12 * ((1 / 99 * P 1 k + 14 / 99 * P 2 k + 14 / 33 * P 3 k + 35 / 99 * P 4 k + 7 / 99 * P 5 k) - (1 / 495 * P 0 k + 32 / 495 * P 1 k + 56 / 165 * P 2 k + 224 / 495 * P 3 k + 14 / 99 * P 4 k))) T 1 hT
      (by simp [WpB.at, Fin.sum_univ_succ, raised12, q0, q1, q2, q3, q9, q10, q11, q12]; field_simp; ring) ?_
    obtain ⟨h1, h2, h3⟩ := hb k
    have a0 := abs_le.mp (h1 0 (by norm_num))
    have a1 := abs_le.mp (h1 1 (by norm_num))
    have a2 := abs_le.mp (h1 2 (by norm_num))
    have a3 := abs_le.mp (h1 3 (by norm_num))
    have a4 := abs_le.mp (h1 4 (by norm_num))
    norm_num only [pow_one] at *
    try simp only [Nat.reduceAdd, zero_add] at *
    refine abs_le.mpr ⟨?_, ?_⟩ <;> linarith [a0.1, a0.2, a1.1, a1.2, a2.1, a2.2, a3.1, a3.2, a4.1, a4.2]
  refine within_of_rows _ _ _ ?_ ?_
  · intro _ k
    refine abs_row _ (12 * ((1 / 33 * P 2 k + 8 / 33 * P 3 k + 5 / 11 * P 4 k + 8 / 33 * P 5 k + 1 / 33 * P 6 k) - (1 / 99 * P 1 k + 14 / 99 * P 2 k + 14 / 33 * P 3 k + 35 / 99 * P 4 k + 7 / 99 * P 5 k))) T 1 hT
      (by simp [WpB.at, Fin.sum_univ_succ, raised12, q0, q1, q2, q3, q9, q10, q11, q12]; field_simp; ring) ?_
    obtain ⟨h1, h2, h3⟩ := hb k
    have a1 := abs_le.mp (h1 1 (by norm_num))
    have a2 := abs_le.mp (h1 2 (by norm_num))
    have a3 := abs_le.mp (h1 3 (by norm_num))
    have a4 := abs_le.mp (h1 4 (by norm_num))
    have a5 := abs_le.mp (h1 5 (by norm_num))
    norm_num only [pow_one] at *
    try simp only [Nat.reduceAdd, zero_add] at *
    refine abs_le.mpr ⟨?_, ?_⟩ <;> linarith [a1.1, a1.2, a2.1, a2.2, a3.1, a3.2, a4.1, a4.2, a5.1, a5.2]
  refine within_of_rows _ _ _ ?_ ?_
  · intro _ k
    refine abs_row _ (12 * ((7 / 99 * P 3 k + 35 / 99 * P 4 k + 14 / 33 * P 5 k + 14 / 99 * P 6 k + 1 / 99 * P 7 k) - (1 / 33 * P 2 k + 8 / 33 * P 3 k + 5 / 11 * P 4 k + 8 / 33 * P 5 k + 1 / 33 * P 6 k))) T 1 hT
      (by simp [WpB.at, Fin.sum_univ_succ, raised12, q0, q1, q2, q3, q9, q10, q11, q12]; field_simp; ring) ?_
    obtain ⟨h1, h2, h3⟩ := hb k
    have a2 := abs_le.mp (h1 2 (by norm_num))
    have a3 := abs_le.mp (h1 3 (by norm_num))
    have a4 := abs_le.mp (h1 4 (by norm_num))
    have a5 := abs_le.mp (h1 5 (by norm_num))
    have a6 := abs_le.mp (h1 6 (by norm_num))
    norm_num only [pow_one] at *
    try simp only [Nat.reduceAdd, zero_add] at *
    refine abs_le.mpr ⟨?_, ?_⟩ <;> linarith [a2.1, a2.2, a3.1, a3.2, a4.1, a4.2, a5.1, a5.2, a6.1, a6.2]
  refine within_of_rows _ _ _ ?_ ?_
  · intro _ k
    refine abs_row _ (12 * ((14 / 99 * P 4 k + 224 / 495 * P 5 k + 56 / 165 * P 6 k + 32 / 495 * P 7 k + 1 / 495 * P 8 k) - (7 / 99 * P 3 k + 35 / 99 * P 4 k + 14 / 33 * P 5 k + 14 / 99 * P 6 k + 1 / 99 * P 7 k))) T 1 hT
      (by simp [WpB.at, Fin.sum_univ_succ, raised12, q0, q1, q2, q3, q9, q10, q11, q12]; field_simp; ring) ?_
    obtain ⟨h1, h2, h3⟩ := hb k
    have a3 := abs_le.mp (h1 3 (by norm_num))
    have a4 := abs_le.mp (h1 4 (by norm_num))
    have a5 := abs_le.mp (h1 5 (by norm_num))
    have a6 := abs_le.mp (h1 6 (by norm_num))
    have a7 := abs_le.mp (h1 7 (by norm_num))
    norm_num only [pow_one] at *
    try simp only [Nat.reduceAdd, zero_add] at *
    refine abs_le.mpr ⟨?_, ?_⟩ <;> linarith [a3.1, a3.2, a4.1, a4.2, a5.1, a5.2, a6.1, a6.2, a7.1, a7.2]
  refine within_of_rows _ _ _ ?_ ?_
  · intro _ k
    refine abs_row _ (12 * ((14 / 55 * P 5 k + 28 / 55 * P 6 k + 12 / 55 * P 7 k + 1 / 55 * P 8 k) - (14 / 99 * P 4 k + 224 / 495 * P 5 k + 56 / 165 * P 6 k + 32 / 495 * P 7 k + 1 / 495 * P 8 k))) T 1 hT
      (by simp [WpB.at, Fin.sum_univ_succ, raised12, q0, q1, q2, q3, q9, q10, q11, q12]; field_simp; ring) ?_
    obtain ⟨h1, h2, h3⟩ := hb k
    have a4 := abs_le.mp (h1 4 (by norm_num))
    have a5 := abs_le.mp (h1 5 (by norm_num))
    have a6 := abs_le.mp (h1 6 (by norm_num))
    have a7 := abs_le.mp (h1 7 (by norm_num))
    norm_num only [pow_one] at *
    try simp only [Nat.reduceAdd, zero_add] at *
    refine abs_le.mpr ⟨?_, ?_⟩ <;> linarith [a4.1, a4.2, a5.1, a5.2, a6.1, a6.2, a7.1, a7.2]
  refine within_of_rows _ _ _ ?_ ?_
  · exact fun h => absurd h (not_depends5 _)
  refine within_of_rows _ _ _ ?_ ?_
  · exact fun h => absurd h (not_depends5 _)
  refine within_of_rows _ _ _ ?_ ?_
  · exact fun h => absurd h (not_depends5 _)
  simp [Within]

set_option maxHeartbeats 1000000 in
theorem raised12_acc (P : ℕ → V3) (T : ℝ) (hT : 0 < T) (pi : List V3) (hb : PolyBounded P T fun k => 132 * (|1 / 55 * P 0 k + 12 / 55 * P 1 k + 28 / 55 * P 2 k + 14 / 55 * P 3 k| + |14 / 55 * P 5 k + 28 / 55 * P 6 k + 12 / 55 * P 7 k + 1 / 55 * P 8 k|))
    (q7z : nth pi 7 = 0)
    (q0 : ∀ k, nth pi 0 k = 1 * P 0 k)
    (q1 : ∀ k, nth pi 1 k = 1 / 3 * P 0 k + 2 / 3 * P 1 k)
    (q2 : ∀ k, nth pi 2 k = 1 / 11 * P 0 k + 16 / 33 * P 1 k + 14 / 33 * P 2 k)
    (q3 : ∀ k, nth pi 3 k = 1 / 55 * P 0 k + 12 / 55 * P 1 k + 28 / 55 * P 2 k + 14 / 55 * P 3 k)
    (q9 : ∀ k, nth pi 9 k = 14 / 55 * P 5 k + 28 / 55 * P 6 k + 12 / 55 * P 7 k + 1 / 55 * P 8 k)
    (q10 : ∀ k, nth pi 10 k = 14 / 33 * P 6 k + 16 / 33 * P 7 k + 1 / 11 * P 8 k)
    (q11 : ∀ k, nth pi 11 k = 2 / 3 * P 7 k + 1 / 3 * P 8 k)
    (q12 : ∀ k, nth pi 12 k = 1 * P 8 k) :
    Within (c0_dc0_ddc0_j0_x5_j1_ddc1_dc1_c1.computeAccelerationWaypoints (nth pi) T) (fun _ => 10000) (fun _ => 10000) (raised12 P) := by
  have hT' := hT.ne'
  unfold c0_dc0_ddc0_j0_x5_j1_ddc1_dc1_c1.computeAccelerationWaypoints
  refine within_of_rows _ _ _ ?_ ?_
  · exact fun h => absurd h (not_depends5 _)
  refine within_of_rows _ _ _ ?_ ?_
  · exact fun h => absurd h (not_depends5 _)
  refine within_of_rows _ _ _ ?_ ?_
  · intro _ k
    refine abs_row _ (132 * ((1 / 495 * P 0 k + 32 / 495 * P 1 k + 56 / 165 * P 2 k + 224 / 495 * P 3 k + 14 / 99 * P 4 k) - 2 * (1 / 55 * P 0 k + 12 / 55 * P 1 k + 28 / 55 * P 2 k + 14 / 55 * P 3 k) + (1 / 11 * P 0 k + 16 / 33 * P 1 k + 14 / 33 * P 2 k)) + 132 * (1 / 55 * P 0 k + 12 / 55 * P 1 k + 28 / 55 * P 2 k + 14 / 55 * P 3 k)) T 2 hT
      (by simp [WpB.at, Fin.sum_univ_succ, raised12, q0, q1, q2, q3, q9, q10, q11, q12, q7z]; field_simp; ring) ?_
    obtain ⟨h1, h2, h3⟩ := hb k
    have a0 := h2 0 (by norm_num)
    have b0 := abs_le.mp (le_refl |56 * (P 2 k - 2 * P 1 k + P 0 k)|)
    have a1 := h2 1 (by norm_num)
    have b1 := abs_le.mp (le_refl |56 * (P 3 k - 2 * P 2 k + P 1 k)|)
    have a2 := h2 2 (by norm_num)
    have b2 := abs_le.mp (le_refl |56 * (P 4 k - 2 * P 3 k + P 2 k)|)
    have c := abs_le.mp (le_refl |1 / 55 * P 0 k + 12 / 55 * P 1 k + 28 / 55 * P 2 k + 14 / 55 * P 3 k|)
    have c0 := abs_nonneg (1 / 55 * P 0 k + 12 / 55 * P 1 k + 28 / 55 * P 2 k + 14 / 55 * P 3 k)
    have d := abs_le.mp (le_refl |14 / 55 * P 5 k + 28 / 55 * P 6 k + 12 / 55 * P 7 k + 1 / 55 * P 8 k|)
    have d0 := abs_nonneg (14 / 55 * P 5 k + 28 / 55 * P 6 k + 12 / 55 * P 7 k + 1 / 55 * P 8 k)
    try simp only [Nat.reduceAdd, zero_add] at *
    refine abs_le.mpr ⟨?_, ?_⟩ <;> linarith [a0, b0.1, b0.2, a1, b1.1, b1.2, a2, b2.1, b2.2, c.1, c.2, c0, d.1, d.2, d0]
  refine within_of_rows _ _ _ ?_ ?_
  · intro _ k
    refine abs_row _ (132 * ((1 / 99 * P 1 k + 14 / 99 * P 2 k + 14 / 33 * P 3 k + 35 / 99 * P 4 k + 7 / 99 * P 5 k) - 2 * (1 / 495 * P 0 k + 32 / 495 * P 1 k + 56 / 165 * P 2 k + 224 / 495 * P 3 k + 14 / 99 * P 4 k) + (1 / 55 * P 0 k + 12 / 55 * P 1 k + 28 / 55 * P 2 k + 14 / 55 * P 3 k))) T 2 hT
      (by simp [WpB.at, Fin.sum_univ_succ, raised12, q0, q1, q2, q3, q9, q10, q11, q12, q7z]; field_simp; ring) ?_
    obtain ⟨h1, h2, h3⟩ := hb k
    have a0 := h2 0 (by norm_num)
    have b0 := abs_le.mp (le_refl |56 * (P 2 k - 2 * P 1 k + P 0 k)|)
    have a1 := h2 1 (by norm_num)
    have b1 := abs_le.mp (le_refl |56 * (P 3 k - 2 * P 2 k + P 1 k)|)
    have a2 := h2 2 (by norm_num)
    have b2 := abs_le.mp (le_refl |56 * (P 4 k - 2 * P 3 k + P 2 k)|)
    have a3 := h2 3 (by norm_num)
    have b3 := abs_le.mp (le_refl |56 * (P 5 k - 2 * P 4 k + P 3 k)|)
    have c := abs_le.mp (le_refl |1 / 55 * P 0 k + 12 / 55 * P 1 k + 28 / 55 * P 2 k + 14 / 55 * P 3 k|)
    have c0 := abs_nonneg (1 / 55 * P 0 k + 12 / 55 * P 1 k + 28 / 55 * P 2 k + 14 / 55 * P 3 k)
    have d := abs_le.mp (le_refl |14 / 55 * P 5 k + 28 / 55 * P 6 k + 12 / 55 * P 7 k + 1 / 55 * P 8 k|)
    have d0 := abs_nonneg (14 / 55 * P 5 k + 28 / 55 * P 6 k + 12 / 55 * P 7 k + 1 / 55 * P 8 k)
    try simp only [Nat.reduceAdd, zero_add] at *
    refine abs_le.mpr ⟨?_, ?_⟩ <;> linarith [a0, b0.1, b0.2, a1, b1.1, b1.2, a2, b2.1, b2.2, a3, b3.1, b3.2, c.1, c.2, c0, d.1, d.2, d0]
  refine within_of_rows _ _ _ ?_ ?_
  · intro _ k
    refine abs_row _ (132 * ((1 / 33 * P 2 k + 8 / 33 * P 3 k + 5 / 11 * P 4 k + 8 / 33 * P 5 k + 1 / 33 * P 6 k) - 2 * (1 / 99 * P 1 k + 14 / 99 * P 2 k + 14 / 33 * P 3 k + 35 / 99 * P 4 k + 7 / 99 * P 5 k) + (1 / 495 * P 0 k + 32 / 495 * P 1 k + 56 / 165 * P 2 k + 224 / 495 * P 3 k + 14 / 99 * P 4 k))) T 2 hT
      (by simp [WpB.at, Fin.sum_univ_succ, raised12, q0, q1, q2, q3, q9, q10, q11, q12, q7z]; field_simp; ring) ?_
    obtain ⟨h1, h2, h3⟩ := hb k
    have a0 := h2 0 (by norm_num)
    have b0 := abs_le.mp (le_refl |56 * (P 2 k - 2 * P 1 k + P 0 k)|)
    have a1 := h2 1 (by norm_num)
    have b1 := abs_le.mp (le_refl |56 * (P 3 k - 2 * P 2 k + P 1 k)|)
    have a2 := h2 2 (by norm_num)
    have b2 := abs_le.mp (le_refl |56 * (P 4 k - 2 * P 3 k + P 2 k)|)
    have a3 := h2 3 (by norm_num)
    have b3 := abs_le.mp (le_refl |56 * (P 5 k - 2 * P 4 k + P 3 k)|)
    have a4 := h2 4 (by norm_num)
    have b4 := abs_le.mp (le_refl |56 * (P 6 k - 2 * P 5 k + P 4 k)|)
    have c := abs_le.mp (le_refl |1 / 55 * P 0 k + 12 / 55 * P 1 k + 28 / 55 * P 2 k + 14 / 55 * P 3 k|)
    have c0 := abs_nonneg (1 / 55 * P 0 k + 12 / 55 * P 1 k + 28 / 55 * P 2 k + 14 / 55 * P 3 k)
    have d := abs_le.mp (le_refl |14 / 55 * P 5 k + 28 / 55 * P 6 k + 12 / 55 * P 7 k + 1 / 55 * P 8 k|)
    have d0 := abs_nonneg (14 / 55 * P 5 k + 28 / 55 * P 6 k + 12 / 55 * P 7 k + 1 / 55 * P 8 k)
    try simp only [Nat.reduceAdd, zero_add] at *
    refine abs_le.mpr ⟨?_, ?_⟩ <;> linarith [a0, b0.1, b0.2, a1, b1.1, b1.2, a2, b2.1, b2.2, a3, b3.1, b3.2, a4, b4.1, b4.2, c.1, c.2, c0, d.1, d.2, d0]
  refine within_of_rows _ _ _ ?_ ?_
  · intro _ k
    refine abs_row _ (132 * ((7 / 99 * P 3 k + 35 / 99 * P 4 k + 14 / 33 * P 5 k + 14 / 99 * P 6 k + 1 / 99 * P 7 k) - 2 * (1 / 33 * P 2 k + 8 / 33 * P 3 k + 5 / 11 * P 4 k + 8 / 33 * P 5 k + 1 / 33 * P 6 k) + (1 / 99 * P 1 k + 14 / 99 * P 2 k + 14 / 33 * P 3 k + 35 / 99 * P 4 k + 7 / 99 * P 5 k))) T 2 hT
      (by simp [WpB.at, Fin.sum_univ_succ, raised12, q0, q1, q2, q3, q9, q10, q11, q12, q7z]; field_simp; ring) ?_
    obtain ⟨h1, h2, h3⟩ := hb k
    have a1 := h2 1 (by norm_num)
    have b1 := abs_le.mp (le_refl |56 * (P 3 k - 2 * P 2 k + P 1 k)|)
    have a2 := h2 2 (by norm_num)
    have b2 := abs_le.mp (le_refl |56 * (P 4 k - 2 * P 3 k + P 2 k)|)
    have a3 := h2 3 (by norm_num)
    have b3 := abs_le.mp (le_refl |56 * (P 5 k - 2 * P 4 k + P 3 k)|)
    have a4 := h2 4 (by norm_num)
    have b4 := abs_le.mp (le_refl |56 * (P 6 k - 2 * P 5 k + P 4 k)|)
    have a5 := h2 5 (by norm_num)
    have b5 := abs_le.mp (le_refl |56 * (P 7 k - 2 * P 6 k + P 5 k)|)
    have c := abs_le.mp (le_refl |1 / 55 * P 0 k + 12 / 55 * P 1 k + 28 / 55 * P 2 k + 14 / 55 * P 3 k|)
    have c0 := abs_nonneg (1 / 55 * P 0 k + 12 / 55 * P 1 k + 28 / 55 * P 2 k + 14 / 55 * P 3 k)
    have d := abs_le.mp (le_refl |14 / 55 * P 5 k + 28 / 55 * P 6 k + 12 / 55 * P 7 k + 1 / 55 * P 8 k|)
    have d0 := abs_nonneg (14 / 55 * P 5 k + 28 / 55 * P 6 k + 12 / 55 * P 7 k + 1 / 55 * P 8 k)
    try simp only [Nat.reduceAdd, zero_add] at *
    refine abs_le.mpr ⟨?_, ?_⟩ <;> linarith [a1, b1.1, b1.2, a2, b2.1, b2.2, a3, b3.1, b3.2, a4, b4.1, b4.2, a5, b5.1, b5.2, c.1, c.2, c0, d.1, d.2, d0]
  refine within_of_rows _ _ _ ?_ ?_
  · intro _ k
    refine abs_row _ (132 * ((14 / 99 * P 4 k + 224 / 495 * P 5 k + 56 / 165 * P 6 k + 32 / 495 * P 7 k + 1 / 495 * P 8 k) - 2 * (7 / 99 * P 3 k + 35 / 99 * P 4 k + 14 / 33 * P 5 k + 14 / 99 * P 6 k + 1 / 99 * P 7 k) + (1 / 33 * P 2 k + 8 / 33 * P 3 k + 5 / 11 * P 4 k + 8 / 33 * P 5 k + 1 / 33 * P 6 k))) T 2 hT
      (by simp [WpB.at, Fin.sum_univ_succ, raised12, q0, q1, q2, q3, q9, q10, q11, q12, q7z]; field_simp; ring) ?_
    obtain ⟨h1, h2, h3⟩ := hb k
    have a2 := h2 2 (by norm_num)
    have b2 := abs_le.mp (le_refl |56 * (P 4 k - 2 * P 3 k + P 2 k)|)
    have a3 := h2 3 (by norm_num)
    have b3 := abs_le.mp (le_refl |56 * (P 5 k - 2 * P 4 k + P 3 k)|)
    have a4 := h2 4 (by norm_num)
    have b4 := abs_le.mp (le_refl |56 * (P 6 k - 2 * P 5 k + P 4 k)|)
    have a5 := h2 5 (by norm_num)
    have b5 := abs_le.mp (le_refl |56 * (P 7 k - 2 * P 6 k + P 5 k)|)
    have a6 := h2 6 (by norm_num)
    have b6 := abs_le.mp (le_refl |56 * (P 8 k - 2 * P 7 k + P 6 k)|)
    have c := abs_le.mp (le_refl |1 / 55 * P 0 k + 12 / 55 * P 1 k + 28 / 55 * P 2 k + 14 / 55 * P 3 k|)
    have c0 := abs_nonneg (1 / 55 * P 0 k + 12 / 55 * P 1 k + 28 / 55 * P 2 k + 14 / 55 * P 3 k)
    have d := abs_le.mp (le_refl |14 / 55 * P 5 k + 28 / 55 * P 6 k + 12 / 55 * P 7 k + 1 / 55 * P 8 k|)
    have d0 := abs_nonneg (14 / 55 * P 5 k + 28 / 55 * P 6 k + 12 / 55 * P 7 k + 1 / 55 * P 8 k)
    try simp only [Nat.reduceAdd, zero_add] at *
    refine abs_le.mpr ⟨?_, ?_⟩ <;> linarith [a2, b2.1, b2.2, a3, b3.1, b3.2, a4, b4.1, b4.2, a5, b5.1, b5.2, a6, b6.1, b6.2, c.1, c.2, c0, d.1, d.2, d0]
  refine within_of_rows _ _ _ ?_ ?_
  · intro _ k
    refine abs_row _ (132 * ((14 / 55 * P 5 k + 28 / 55 * P 6 k + 12 / 55 * P 7 k + 1 / 55 * P 8 k) - 2 * (14 / 99 * P 4 k + 224 / 495 * P 5 k + 56 / 165 * P 6 k + 32 / 495 * P 7 k + 1 / 495 * P 8 k) + (7 / 99 * P 3 k + 35 / 99 * P 4 k + 14 / 33 * P 5 k + 14 / 99 * P 6 k + 1 / 99 * P 7 k)) - 132 * (14 / 55 * P 5 k + 28 / 55 * P 6 k + 12 / 55 * P 7 k + 1 / 55 * P 8 k)) T 2 hT
      (by simp [WpB.at, Fin.sum_univ_succ, raised12, q0, q1, q2, q3, q9, q10, q11, q12, q7z]; field_simp; ring) ?_
    obtain ⟨h1, h2, h3⟩ := hb k
    have a3 := h2 3 (by norm_num)
    have b3 := abs_le.mp (le_refl |56 * (P 5 k - 2 * P 4 k + P 3 k)|)
    have a4 := h2 4 (by norm_num)
    have b4 := abs_le.mp (le_refl |56 * (P 6 k - 2 * P 5 k + P 4 k)|)
    have a5 := h2 5 (by norm_num)
    have b5 := abs_le.mp (le_refl |56 * (P 7 k - 2 * P 6 k + P 5 k)|)
    have a6 := h2 6 (by norm_num)
    have b6 := abs_le.mp (le_refl |56 * (P 8 k - 2 * P 7 k + P 6 k)|)
    have c := abs_le.mp (le_refl |1 / 55 * P 0 k + 12 / 55 * P 1 k + 28 / 55 * P 2 k + 14 / 55 * P 3 k|)
    have c0 := abs_nonneg (1 / 55 * P 0 k + 12 / 55 * P 1 k + 28 / 55 * P 2 k + 14 / 55 * P 3 k)
    have d := abs_le.mp (le_refl |14 / 55 * P 5 k + 28 / 55 * P 6 k + 12 / 55 * P 7 k + 1 / 55 * P 8 k|)
    have d0 := abs_nonneg (14 / 55 * P 5 k + 28 / 55 * P 6 k + 12 / 55 * P 7 k + 1 / 55 * P 8 k)
    try simp only [Nat.reduceAdd, zero_add] at *
    refine abs_le.mpr ⟨?_, ?_⟩ <;> linarith [a3, b3.1, b3.2, a4, b4.1, b4.2, a5, b5.1, b5.2, a6, b6.1, b6.2, c.1, c.2, c0, d.1, d.2, d0]
  refine within_of_rows _ _ _ ?_ ?_
  · intro _ k
    refine abs_row _ (132 * ((14 / 33 * P 6 k + 16 / 33 * P 7 k + 1 / 11 * P 8 k) - 2 * (14 / 55 * P 5 k + 28 / 55 * P 6 k + 12 / 55 * P 7 k + 1 / 55 * P 8 k) + (14 / 99 * P 4 k + 224 / 495 * P 5 k + 56 / 165 * P 6 k + 32 / 495 * P 7 k + 1 / 495 * P 8 k))) T 2 hT
      (by simp [WpB.at, Fin.sum_univ_succ, raised12, q0, q1, q2, q3, q9, q10, q11, q12, q7z]; field_simp; ring) ?_
    obtain ⟨h1, h2, h3⟩ := hb k
    have a4 := h2 4 (by norm_num)
    have b4 := abs_le.mp (le_refl |56 * (P 6 k - 2 * P 5 k + P 4 k)|)
    have a5 := h2 5 (by norm_num)
    have b5 := abs_le.mp (le_refl |56 * (P 7 k - 2 * P 6 k + P 5 k)|)
    have a6 := h2 6 (by norm_num)
    have b6 := abs_le.mp (le_refl |56 * (P 8 k - 2 * P 7 k + P 6 k)|)
    have c := abs_le.mp (le_refl |1 / 55 * P 0 k + 12 / 55 * P 1 k + 28 / 55 * P 2 k + 14 / 55 * P 3 k|)
    have c0 := abs_nonneg (1 / 55 * P 0 k + 12 / 55 * P 1 k + 28 / 55 * P 2 k + 14 / 55 * P 3 k)
    have d := abs_le.mp (le_refl |14 / 55 * P 5 k + 28 / 55 * P 6 k + 12 / 55 * P 7 k + 1 / 55 * P 8 k|)
    have d0 := abs_nonneg (14 / 55 * P 5 k + 28 / 55 * P 6 k + 12 / 55 * P 7 k + 1 / 55 * P 8 k)
    try simp only [Nat.reduceAdd, zero_add] at *
    refine abs_le.mpr ⟨?_, ?_⟩ <;> linarith [a4, b4.1, b4.2, a5, b5.1, b5.2, a6, b6.1, b6.2, c.1, c.2, c0, d.1, d.2, d0]
  refine within_of_rows _ _ _ ?_ ?_
  · exact fun h => absurd h (not_depends5 _)
  refine within_of_rows _ _ _ ?_ ?_
  · exact fun h => absurd h (not_depends5 _)
  refine within_of_rows _ _ _ ?_ ?_
  · exact fun h => absurd h (not_depends5 _)
  simp [Within]

theorem raised12_jerk (P : ℕ → V3) (T : ℝ) (hT : 0 < T) (pi : List V3) (hb : PolyBounded P T fun k => 132 * (|1 / 55 * P 0 k + 12 / 55 * P 1 k + 28 / 55 * P 2 k + 14 / 55 * P 3 k| + |14 / 55 * P 5 k + 28 / 55 * P 6 k + 12 / 55 * P 7 k + 1 / 55 * P 8 k|))
    (q0 : ∀ k, nth pi 0 k = 1 * P 0 k)
    (q1 : ∀ k, nth pi 1 k = 1 / 3 * P 0 k + 2 / 3 * P 1 k)
    (q2 : ∀ k, nth pi 2 k = 1 / 11 * P 0 k + 16 / 33 * P 1 k + 14 / 33 * P 2 k)
    (q3 : ∀ k, nth pi 3 k = 1 / 55 * P 0 k + 12 / 55 * P 1 k + 28 / 55 * P 2 k + 14 / 55 * P 3 k)
    (q9 : ∀ k, nth pi 9 k = 14 / 55 * P 5 k + 28 / 55 * P 6 k + 12 / 55 * P 7 k + 1 / 55 * P 8 k)
    (q10 : ∀ k, nth pi 10 k = 14 / 33 * P 6 k + 16 / 33 * P 7 k + 1 / 11 * P 8 k)
    (q11 : ∀ k, nth pi 11 k = 2 / 3 * P 7 k + 1 / 3 * P 8 k)
    (q12 : ∀ k, nth pi 12 k = 1 * P 8 k) :
    Within (c0_dc0_ddc0_j0_x5_j1_ddc1_dc1_c1.computeJerkWaypoints (nth pi) T) (fun _ => 10000) (fun _ => 10000) (raised12 P) := by
  have hT' := hT.ne'
  unfold c0_dc0_ddc0_j0_x5_j1_ddc1_dc1_c1.computeJerkWaypoints
  refine within_of_rows _ _ _ ?_ ?_
  · exact fun h => absurd h (not_depends5 _)
  refine within_of_rows _ _ _ ?_ ?_
  · intro _ k
    refine abs_row _ (1320 * ((1 / 495 * P 0 k + 32 / 495 * P 1 k + 56 / 165 * P 2 k + 224 / 495 * P 3 k + 14 / 99 * P 4 k) - 3 * (1 / 55 * P 0 k + 12 / 55 * P 1 k + 28 / 55 * P 2 k + 14 / 55 * P 3 k) + 3 * (1 / 11 * P 0 k + 16 / 33 * P 1 k + 14 / 33 * P 2 k) - (1 / 3 * P 0 k + 2 / 3 * P 1 k))) T 3 hT
      (by simp [WpB.at, Fin.sum_univ_succ, raised12, q0, q1, q2, q3, q9, q10, q11, q12]; field_simp; ring) ?_
    obtain ⟨h1, h2, h3⟩ := hb k
    have a0 := abs_le.mp (h3 0 (by norm_num))
    have a1 := abs_le.mp (h3 1 (by norm_num))
    try simp only [Nat.reduceAdd, zero_add] at *
    refine abs_le.mpr ⟨?_, ?_⟩ <;> linarith [a0.1, a0.2, a1.1, a1.2]
  refine within_of_rows _ _ _ ?_ ?_
  · intro _ k
    refine abs_row _ (1320 * ((1 / 99 * P 1 k + 14 / 99 * P 2 k + 14 / 33 * P 3 k + 35 / 99 * P 4 k + 7 / 99 * P 5 k) - 3 * (1 / 495 * P 0 k + 32 / 495 * P 1 k + 56 / 165 * P 2 k + 224 / 495 * P 3 k + 14 / 99 * P 4 k) + 3 * (1 / 55 * P 0 k + 12 / 55 * P 1 k + 28 / 55 * P 2 k + 14 / 55 * P 3 k) - (1 / 11 * P 0 k + 16 / 33 * P 1 k + 14 / 33 * P 2 k))) T 3 hT
      (by simp [WpB.at, Fin.sum_univ_succ, raised12, q0, q1, q2, q3, q9, q10, q11, q12]; field_simp; ring) ?_
    obtain ⟨h1, h2, h3⟩ := hb k
    have a0 := abs_le.mp (h3 0 (by norm_num))
    have a1 := abs_le.mp (h3 1 (by norm_num))
    have a2 := abs_le.mp (h3 2 (by norm_num))
    try simp only [Nat.reduceAdd, zero_add] at *
    refine abs_le.mpr ⟨?_, ?_⟩ <;> linarith [a0.1, a0.2, a1.1, a1.2, a2.1, a2.2]
  refine within_of_rows _ _ _ ?_ ?_
  · intro _ k
    refine abs_row _ (1320 * ((1 / 33 * P 2 k + 8 / 33 * P 3 k + 5 / 11 * P 4 k + 8 / 33 * P 5 k + 1 / 33 * P 6 k) - 3 * (1 / 99 * P 1 k + 14 / 99 * P 2 k + 14 / 33 * P 3 k + 35 / 99 * P 4 k + 7 / 99 * P 5 k) + 3 * (1 / 495 * P 0 k + 32 / 495 * P 1 k + 56 / 165 * P 2 k + 224 / 495 * P 3 k + 14 / 99 * P 4 k) - (1 / 55 * P 0 k + 12 / 55 * P 1 k + 28 / 55 * P 2 k + 14 / 55 * P 3 k))) T 3 hT
      (by simp [WpB.at, Fin.sum_univ_succ, raised12, q0, q1, q2, q3, q9, q10, q11, q12]; field_simp; ring) ?_
    obtain ⟨h1, h2, h3⟩ := hb k
    have a0 := abs_le.mp (h3 0 (by norm_num))
    have a1 := abs_le.mp (h3 1 (by norm_num))
    have a2 := abs_le.mp (h3 2 (by norm_num))
    have a3 := abs_le.mp (h3 3 (by norm_num))
    try simp only [Nat.reduceAdd, zero_add] at *
    refine abs_le.mpr ⟨?_, ?_⟩ <;> linarith [a0.1, a0.2, a1.1, a1.2, a2.1, a2.2, a3.1, a3.2]
  refine within_of_rows _ _ _ ?_ ?_
  · intro _ k
    refine abs_row _ (1320 * ((7 / 99 * P 3 k + 35 / 99 * P 4 k + 14 / 33 * P 5 k + 14 / 99 * P 6 k + 1 / 99 * P 7 k) - 3 * (1 / 33 * P 2 k + 8 / 33 * P 3 k + 5 / 11 * P 4 k + 8 / 33 * P 5 k + 1 / 33 * P 6 k) + 3 * (1 / 99 * P 1 k + 14 / 99 * P 2 k + 14 / 33 * P 3 k + 35 / 99 * P 4 k + 7 / 99 * P 5 k) - (1 / 495 * P 0 k + 32 / 495 * P 1 k + 56 / 165 * P 2 k + 224 / 495 * P 3 k + 14 / 99 * P 4 k))) T 3 hT
      (by simp [WpB.at, Fin.sum_univ_succ, raised12, q0, q1, q2, q3, q9, q10, q11, q12]; field_simp; ring) ?_
    obtain ⟨h1, h2, h3⟩ := hb k
    have a0 := abs_le.mp (h3 0 (by norm_num))
    have a1 := abs_le.mp (h3 1 (by norm_num))
    have a2 := abs_le.mp (h3 2 (by norm_num))
    have a3 := abs_le.mp (h3 3 (by norm_num))
    have a4 := abs_le.mp (h3 4 (by norm_num))
    try simp only [Nat.reduceAdd, zero_add] at *
    refine abs_le.mpr ⟨?_, ?_⟩ <;> linarith [a0.1, a0.2, a1.1, a1.2, a2.1, a2.2, a3.1, a3.2, a4.1, a4.2]
  refine within_of_rows _ _ _ ?_ ?_
  · intro _ k
    refine abs_row _ (1320 * ((14 / 99 * P 4 k + 224 / 495 * P 5 k + 56 / 165 * P 6 k + 32 / 495 * P 7 k + 1 / 495 * P 8 k) - 3 * (7 / 99 * P 3 k + 35 / 99 * P 4 k + 14 / 33 * P 5 k + 14 / 99 * P 6 k + 1 / 99 * P 7 k) + 3 * (1 / 33 * P 2 k + 8 / 33 * P 3 k + 5 / 11 * P 4 k + 8 / 33 * P 5 k + 1 / 33 * P 6 k) - (1 / 99 * P 1 k + 14 / 99 * P 2 k + 14 / 33 * P 3 k + 35 / 99 * P 4 k + 7 / 99 * P 5 k))) T 3 hT
      (by simp [WpB.at, Fin.sum_univ_succ, raised12, q0, q1, q2, q3, q9, q10, q11, q12]; field_simp; ring) ?_
    obtain ⟨h1, h2, h3⟩ := hb k
    have a1 := abs_le.mp (h3 1 (by norm_num))
    have a2 := abs_le.mp (h3 2 (by norm_num))
    have a3 := abs_le.mp (h3 3 (by norm_num))
    have a4 := abs_le.mp (h3 4 (by norm_num))
    have a5 := abs_le.mp (h3 5 (by norm_num))
    try simp only [Nat.reduceAdd, zero_add] at *
    refine abs_le.mpr ⟨?_, ?_⟩ <;> linarith [a1.1, a1.2, a2.1, a2.2, a3.1, a3.2, a4.1, a4.2, a5.1, a5.2]
  refine within_of_rows _ _ _ ?_ ?_
  · intro _ k
    refine abs_row _ (1320 * ((14 / 55 * P 5 k + 28 / 55 * P 6 k + 12 / 55 * P 7 k + 1 / 55 * P 8 k) - 3 * (14 / 99 * P 4 k + 224 / 495 * P 5 k + 56 / 165 * P 6 k + 32 / 495 * P 7 k + 1 / 495 * P 8 k) + 3 * (7 / 99 * P 3 k + 35 / 99 * P 4 k + 14 / 33 * P 5 k + 14 / 99 * P 6 k + 1 / 99 * P 7 k) - (1 / 33 * P 2 k + 8 / 33 * P 3 k + 5 / 11 * P 4 k + 8 / 33 * P 5 k + 1 / 33 * P 6 k))) T 3 hT
      (by simp [WpB.at, Fin.sum_univ_succ, raised12, q0, q1, q2, q3, q9, q10, q11, q12]; field_simp; ring) ?_
    obtain ⟨h1, h2, h3⟩ := hb k
    have a2 := abs_le.mp (h3 2 (by norm_num))
    have a3 := abs_le.mp (h3 3 (by norm_num))
    have a4 := abs_le.mp (h3 4 (by norm_num))
    have a5 := abs_le.mp (h3 5 (by norm_num))
    try simp only [Nat.reduceAdd, zero_add] at *
    refine abs_le.mpr ⟨?_, ?_⟩ <;> linarith [a2.1, a2.2, a3.1, a3.2, a4.1, a4.2, a5.1, a5.2]
  refine within_of_rows _ _ _ ?_ ?_
  · intro _ k
    refine abs_row _ (1320 * ((14 / 33 * P 6 k + 16 / 33 * P 7 k + 1 / 11 * P 8 k) - 3 * (14 / 55 * P 5 k + 28 / 55 * P 6 k + 12 / 55 * P 7 k + 1 / 55 * P 8 k) + 3 * (14 / 99 * P 4 k + 224 / 495 * P 5 k + 56 / 165 * P 6 k + 32 / 495 * P 7 k + 1 / 495 * P 8 k) - (7 / 99 * P 3 k + 35 / 99 * P 4 k + 14 / 33 * P 5 k + 14 / 99 * P 6 k + 1 / 99 * P 7 k))) T 3 hT
      (by simp [WpB.at, Fin.sum_univ_succ, raised12, q0, q1, q2, q3, q9, q10, q11, q12]; field_simp; ring) ?_
    obtain ⟨h1, h2, h3⟩ := hb k
    have a3 := abs_le.mp (h3 3 (by norm_num))
    have a4 := abs_le.mp (h3 4 (by norm_num))
    have a5 := abs_le.mp (h3 5 (by norm_num))
    try simp only [Nat.reduceAdd, zero_add] at *
    refine abs_le.mpr ⟨?_, ?_⟩ <;> linarith [a3.1, a3.2, a4.1, a4.2, a5.1, a5.2]
  refine within_of_rows _ _ _ ?_ ?_
  · intro _ k
    refine abs_row _ (1320 * ((2 / 3 * P 7 k + 1 / 3 * P 8 k) - 3 * (14 / 33 * P 6 k + 16 / 33 * P 7 k + 1 / 11 * P 8 k) + 3 * (14 / 55 * P 5 k + 28 / 55 * P 6 k + 12 / 55 * P 7 k + 1 / 55 * P 8 k) - (14 / 99 * P 4 k + 224 / 495 * P 5 k + 56 / 165 * P 6 k + 32 / 495 * P 7 k + 1 / 495 * P 8 k))) T 3 hT
      (by simp [WpB.at, Fin.sum_univ_succ, raised12, q0, q1, q2, q3, q9, q10, q11, q12]; field_simp; ring) ?_
    obtain ⟨h1, h2, h3⟩ := hb k
    have a4 := abs_le.mp (h3 4 (by norm_num))
    have a5 := abs_le.mp (h3 5 (by norm_num))
    try simp only [Nat.reduceAdd, zero_add] at *
    refine abs_le.mpr ⟨?_, ?_⟩ <;> linarith [a4.1, a4.2, a5.1, a5.2]
  refine within_of_rows _ _ _ ?_ ?_
  · exact fun h => absurd h (not_depends5 _)
  simp [Within]

/-- C128, three free points. A motion of degree 8 whose velocity, acceleration and jerk have their control points within the bounds, and whose
middle control points are not lower than its lower end, is not refused, if it leaves the acceleration a margin that depends on how far from
the origin it starts. -/
theorem C128_three_partial (P : ℕ → V3) (T : ℝ) (hT : 0 < T) (hb : PolyBounded P T fun k => 90 * |1 / 15 * P 1 k + 7 / 15 * P 2 k + 7 / 15 * P 3 k|)
    (hz : ∀ i, 2 ≤ i → i ≤ 6 → min (P 0 2) (P 8 2) ≤ P i 2) : ∃ M, ∀ lib, LibOk lib → lib.eps = 0 → M ≤ lib.maxIter →
    ∀ path w init, 0 ≤ w → w ≤ 1 → ∃ r N, (∀ fuel ≥ N, solveEndEffector lib fuel 767#32 (polyEnds P T) path T w init = .ok r) ∧
      r.success = true := by
  obtain ⟨pi, hpi, hl, q0, q1, q2, q3, q7, q8, q9, q10⟩ := poly_pts10 P T hT
  obtain ⟨M, h⟩ := end_verdict 767#32 (by decide) (polyEnds P T) T hT pi hpi
  refine ⟨M, fun lib hL he hm path w init a b => ?_⟩
  obtain ⟨r, N, hr, hv⟩ := h lib hL he hm path w init a b
  refine ⟨r, N, hr, hv.mpr ⟨raised10 P, _, _, _, by simp [computeVelocityWaypoints, hl]; rfl, by simp [computeAccelerationWaypoints, hl]; rfl,
    by simp [computeJerkWaypoints, hl]; rfl, raised10_vel P T hT pi hb q0 q1 q2 q3 q7 q8 q9 q10, raised10_acc P T hT pi hb q0 q1 q2 q3 q7 q8 q9 q10,
    raised10_jerk P T hT pi hb q0 q1 q2 q3 q7 q8 q9 q10, fun j hj => ?_⟩⟩
  have e2 := hz 2 (by norm_num) (by norm_num)
  have e3 := hz 3 (by norm_num) (by norm_num)
  have e4 := hz 4 (by norm_num) (by norm_num)
  have e5 := hz 5 (by norm_num) (by norm_num)
  have e6 := hz 6 (by norm_num) (by norm_num)
  have hd : dimVarPts 767#32 = 3 := by decide
  rw [hd] at hj
  show min (P 0 2) (P 8 2) ≤ _
  interval_cases j <;> simp only [raised10] <;> linarith

/-- C128, five free points: the same, with a margin that depends on how far from the origin the motion starts and ends. -/
theorem C128_five_partial (P : ℕ → V3) (T : ℝ) (hT : 0 < T) (hb : PolyBounded P T fun k => 132 * (|1 / 55 * P 0 k + 12 / 55 * P 1 k + 28 / 55 * P 2 k + 14 / 55 * P 3 k| + |14 / 55 * P 5 k + 28 / 55 * P 6 k + 12 / 55 * P 7 k + 1 / 55 * P 8 k|))
    (hz : ∀ i, 1 ≤ i → i ≤ 7 → min (P 0 2) (P 8 2) ≤ P i 2) : ∃ M, ∀ lib, LibOk lib → lib.eps = 0 → M ≤ lib.maxIter →
    ∀ path w init, 0 ≤ w → w ≤ 1 → ∃ r N, (∀ fuel ≥ N, solveEndEffector lib fuel 2303#32 (polyEnds P T) path T w init = .ok r) ∧
      r.success = true := by
  obtain ⟨pi, hpi, hl, q0, q1, q2, q3, q9, q10, q11, q12⟩ := poly_pts12 P T hT
  have z : nth pi 7 = 0 := by
    have : computeConstantWaypoints 2303#32 (polyEnds P T) T = .ok (c0_dc0_ddc0_j0_x5_j1_ddc1_dc1_c1.computeConstantWaypoints (polyEnds P T) T) := by
      simp [computeConstantWaypoints]
    rw [this] at hpi
    obtain rfl := Out.ok.inj hpi
    rfl
  obtain ⟨M, h⟩ := end_verdict 2303#32 (by decide) (polyEnds P T) T hT pi hpi
  refine ⟨M, fun lib hL he hm path w init a b => ?_⟩
  obtain ⟨r, N, hr, hv⟩ := h lib hL he hm path w init a b
  refine ⟨r, N, hr, hv.mpr ⟨raised12 P, _, _, _, by simp [computeVelocityWaypoints, hl]; rfl, by simp [computeAccelerationWaypoints, hl]; rfl,
    by simp [computeJerkWaypoints, hl]; rfl, raised12_vel P T hT pi hb q0 q1 q2 q3 q9 q10 q11 q12, raised12_acc P T hT pi hb z q0 q1 q2 q3 q9 q10 q11 q12,
    raised12_jerk P T hT pi hb q0 q1 q2 q3 q9 q10 q11 q12, fun j hj => ?_⟩⟩
  have e1 := hz 1 (by norm_num) (by norm_num)
  have e2 := hz 2 (by norm_num) (by norm_num)
  have e3 := hz 3 (by norm_num) (by norm_num)
  have e4 := hz 4 (by norm_num) (by norm_num)
  have e5 := hz 5 (by norm_num) (by norm_num)
  have e6 := hz 6 (by norm_num) (by norm_num)
  have e7 := hz 7 (by norm_num) (by norm_num)
  have e0 := min_le_left (P 0 2) (P 8 2)
  have e8 := min_le_right (P 0 2) (P 8 2)
  have hd : dimVarPts 2303#32 = 5 := by decide
  rw [hd] at hj
  show min (P 0 2) (P 8 2) ≤ _
  interval_cases j <;> simp only [raised12] <;> linarith

/-- C128, one free point: only the control points of the derivatives that depend on the free one need be within the bounds, with the end of
the motion in the place of its sixth control point in one of the accelerations. -/
theorem C128_one_partial (P : ℕ → V3) (T : ℝ) (hT : 0 < T) (hb : ∀ k,
      |8 * (P 4 k - P 3 k)| ≤ 10000 * T ^ 1 ∧
      |8 * (P 5 k - P 4 k)| ≤ 10000 * T ^ 1 ∧
      |56 * (P 4 k - 2 * P 3 k + P 2 k)| ≤ 10000 * T ^ 2 ∧
      |56 * (P 8 k - 2 * P 4 k + P 3 k)| ≤ 10000 * T ^ 2 ∧
      |56 * (P 6 k - 2 * P 5 k + P 4 k)| ≤ 10000 * T ^ 2 ∧
      |336 * (P 4 k - 3 * P 3 k + 3 * P 2 k - P 1 k)| ≤ 10000 * T ^ 3 ∧
      |336 * (P 5 k - 3 * P 4 k + 3 * P 3 k - P 2 k)| ≤ 10000 * T ^ 3 ∧
      |336 * (P 6 k - 3 * P 5 k + 3 * P 4 k - P 3 k)| ≤ 10000 * T ^ 3 ∧
      |336 * (P 7 k - 3 * P 6 k + 3 * P 5 k - P 4 k)| ≤ 10000 * T ^ 3)
    (hz : min (P 0 2) (P 8 2) ≤ P 4 2) : ∃ M, ∀ lib, LibOk lib → lib.eps = 0 → M ≤ lib.maxIter →
    ∀ path w init, 0 ≤ w → w ≤ 1 → ∃ r N, (∀ fuel ≥ N, solveEndEffector lib fuel 255#32 (polyEnds P T) path T w init = .ok r) ∧
      r.success = true := by
  have hT' := hT.ne'
  obtain ⟨pi, hpi, hl, q0, q1, q2, q3, q5, q6, q7, q8⟩ := poly_pts8 P T hT
  obtain ⟨M, h⟩ := end_verdict 255#32 (by decide) (polyEnds P T) T hT pi hpi
  refine ⟨M, fun lib hL he hm path w init a b => ?_⟩
  obtain ⟨r, N, hr, hv⟩ := h lib hL he hm path w init a b
  refine ⟨r, N, hr, hv.mpr ⟨fun _ => P 4, ?_⟩⟩
  rw [endOk255 hl]
  refine ⟨?_, ?_, ?_, fun j _ => hz⟩
  · unfold c0_dc0_ddc0_j0_j1_ddc1_dc1_c1.computeVelocityWaypoints
    refine within_of_rows _ _ _ ?_ ?_
    · exact fun h => absurd h (not_depends1 _)
    refine within_of_rows _ _ _ ?_ ?_
    · exact fun h => absurd h (not_depends1 _)
    refine within_of_rows _ _ _ ?_ ?_
    · exact fun h => absurd h (not_depends1 _)
    refine within_of_rows _ _ _ ?_ ?_
    · intro _ k
      obtain ⟨h, _, _, _, _, _, _, _, _⟩ := hb k
      exact abs_row _ (8 * (P 4 k - P 3 k)) T 1 hT (by simp [WpB.at, q1, q2, q3, q5, q6, q7, q8]; field_simp; ring) h
    refine within_of_rows _ _ _ ?_ ?_
    · intro _ k
      obtain ⟨_, h, _, _, _, _, _, _, _⟩ := hb k
      exact abs_row _ (8 * (P 5 k - P 4 k)) T 1 hT (by simp [WpB.at, q1, q2, q3, q5, q6, q7, q8]; field_simp; ring) h
    refine within_of_rows _ _ _ ?_ ?_
    · exact fun h => absurd h (not_depends1 _)
    refine within_of_rows _ _ _ ?_ ?_
    · exact fun h => absurd h (not_depends1 _)
    refine within_of_rows _ _ _ ?_ ?_
    · exact fun h => absurd h (not_depends1 _)
    simp [Within]
  · unfold c0_dc0_ddc0_j0_j1_ddc1_dc1_c1.computeAccelerationWaypoints
    refine within_of_rows _ _ _ ?_ ?_
    · exact fun h => absurd h (not_depends1 _)
    refine within_of_rows _ _ _ ?_ ?_
    · exact fun h => absurd h (not_depends1 _)
    refine within_of_rows _ _ _ ?_ ?_
    · intro _ k
      obtain ⟨_, _, h, _, _, _, _, _, _⟩ := hb k
      exact abs_row _ (56 * (P 4 k - 2 * P 3 k + P 2 k)) T 2 hT (by simp [WpB.at, q1, q2, q3, q5, q6, q7, q8]; field_simp; ring) h
    refine within_of_rows _ _ _ ?_ ?_
    · intro _ k
      obtain ⟨_, _, _, h, _, _, _, _, _⟩ := hb k
      exact abs_row _ (56 * (P 8 k - 2 * P 4 k + P 3 k)) T 2 hT (by simp [WpB.at, q1, q2, q3, q5, q6, q7, q8]; field_simp; ring) h
    refine within_of_rows _ _ _ ?_ ?_
    · intro _ k
      obtain ⟨_, _, _, _, h, _, _, _, _⟩ := hb k
      exact abs_row _ (56 * (P 6 k - 2 * P 5 k + P 4 k)) T 2 hT (by simp [WpB.at, q1, q2, q3, q5, q6, q7, q8]; field_simp; ring) h
    refine within_of_rows _ _ _ ?_ ?_
    · exact fun h => absurd h (not_depends1 _)
    refine within_of_rows _ _ _ ?_ ?_
    · exact fun h => absurd h (not_depends1 _)
    simp [Within]
  · unfold c0_dc0_ddc0_j0_j1_ddc1_dc1_c1.computeJerkWaypoints
    refine within_of_rows _ _ _ ?_ ?_
    · exact fun h => absurd h (not_depends1 _)
    refine within_of_rows _ _ _ ?_ ?_
    · intro _ k
      obtain ⟨_, _, _, _, _, h, _, _, _⟩ := hb k
      exact abs_row _ (336 * (P 4 k - 3 * P 3 k + 3 * P 2 k - P 1 k)) T 3 hT (by simp [WpB.at, q1, q2, q3, q5, q6, q7, q8]; field_simp; ring) h
    refine within_of_rows _ _ _ ?_ ?_
    · intro _ k
      obtain ⟨_, _, _, _, _, _, h, _, _⟩ := hb k
      exact abs_row _ (336 * (P 5 k - 3 * P 4 k + 3 * P 3 k - P 2 k)) T 3 hT (by simp [WpB.at, q1, q2, q3, q5, q6, q7, q8]; field_simp; ring) h
    refine within_of_rows _ _ _ ?_ ?_
    · intro _ k
      obtain ⟨_, _, _, _, _, _, _, h, _⟩ := hb k
      exact abs_row _ (336 * (P 6 k - 3 * P 5 k + 3 * P 4 k - P 3 k)) T 3 hT (by simp [WpB.at, q1, q2, q3, q5, q6, q7, q8]; field_simp; ring) h
    refine within_of_rows _ _ _ ?_ ?_
    · intro _ k
      obtain ⟨_, _, _, _, _, _, _, _, h⟩ := hb k
      exact abs_row _ (336 * (P 7 k - 3 * P 6 k + 3 * P 5 k - P 4 k)) T 3 hT (by simp [WpB.at, q1, q2, q3, q5, q6, q7, q8]; field_simp; ring) h
    refine within_of_rows _ _ _ ?_ ?_
    · exact fun h => absurd h (not_depends1 _)
    simp [Within]

/-- Uniform motion from the origin to (1,0,0). -/
noncomputable def glide : ℕ → V3 := fun i => ![(i : ℝ) / 8, 0, 0]

/-- A non-trivial case: the three sets plan the uniform motion over one metre in one second. -/
theorem glide_planned (flag : Flag) (hf : flag ∈ effFlags) : ∃ M, ∀ lib, LibOk lib → lib.eps = 0 → M ≤ lib.maxIter →
    ∀ path w init, 0 ≤ w → w ≤ 1 → ∃ r N, (∀ fuel ≥ N, solveEndEffector lib fuel flag (polyEnds glide 1) path 1 w init = .ok r) ∧
      r.success = true := by
  simp only [effFlags, List.mem_cons, List.not_mem_nil, or_false] at hf
  rcases hf with rfl | rfl | rfl
  · refine C128_one_partial glide 1 one_pos (fun k => ?_) (by simp [glide])
    fin_cases k <;> norm_num [glide, abs_le]
  · refine C128_three_partial glide 1 one_pos (fun k => ⟨fun i _ => ?_, fun i _ => ?_, fun i _ => ?_⟩) fun i _ _ => by simp [glide]
    all_goals fin_cases k <;> simp [glide] <;> ring_nf <;> norm_num [abs_le]
  · refine C128_five_partial glide 1 one_pos (fun k => ⟨fun i _ => ?_, fun i _ => ?_, fun i _ => ?_⟩) fun i _ _ => by simp [glide]
    all_goals fin_cases k <;> simp [glide] <;> ring_nf <;> norm_num [abs_le]

/-- A motion that leaves (-1000000,0,0) at 8000000 metres per second and is slowed at once. -/
def dash : ℕ → V3
  | 0 => ![-1000000, 0, 0]
  | _ => 0

theorem within_row {K : ℕ} {ws : List (WpB K)} {X : ℕ → V3} (h : Within ws (fun _ => 10000) (fun _ => 10000) X) (w : WpB K) (hw : w ∈ ws)
    (j : Fin K) (hj : 1 ≤ |w.first j|) (k : Fin 3) : -10000 ≤ w.at X k ∧ w.at X k ≤ 10000 :=
  h w hw ⟨j, lt_of_lt_of_le (by norm_num) hj⟩ k

theorem dash_refused10 (pi : List V3) (hpi : computeConstantWaypoints 767#32 (polyEnds dash 1) 1 = .ok pi) (X : ℕ → V3) :
    ¬ EndOk 767#32 (polyEnds dash 1) 1 pi X := by
  rintro ⟨_, _, jerk, -, -, e, -, -, h, -⟩
  obtain ⟨pi', e', hl, q0, q1, q2, q3, q7, q8, q9, q10⟩ := poly_pts10 dash 1 one_pos
  rw [hpi] at e'
  obtain rfl := Out.ok.inj e'
  have e2 : computeJerkWaypoints 767#32 (polyEnds dash 1) 1 pi = .ok ⟨3, c0_dc0_ddc0_j0_x3_j1_ddc1_dc1_c1.computeJerkWaypoints (nth pi) 1⟩ := by
    simp [computeJerkWaypoints, hl]
  rw [e2] at e
  obtain rfl := Out.ok.inj e
  have p0 := q0 0
  have p1 := q1 0
  have p2 := q2 0
  have p3 := q3 0
  have p7 := q7 0
  have p8 := q8 0
  have p9 := q9 0
  have p10 := q10 0
  simp only [dash, Matrix.cons_val_zero, Pi.zero_apply, mul_zero, add_zero, zero_add] at p0 p1 p2 p3 p7 p8 p9 p10
  clear q0 q1 q2 q3 q7 q8 q9 q10
  simp only [c0_dc0_ddc0_j0_x3_j1_ddc1_dc1_c1.computeJerkWaypoints, div_one, mul_one, one_mul] at h
  have r1 := within_row h _ (List.mem_cons_of_mem _ (List.mem_cons_self)) 0 (show (1 : ℝ) ≤ |(720 : ℝ)| by norm_num [abs_of_nonneg]) 0
  have r2 := within_row h _ (List.mem_cons_of_mem _ (List.mem_cons_of_mem _ (List.mem_cons_self))) 0 (show (1 : ℝ) ≤ |(720 * -3 : ℝ)| by norm_num [abs_of_nonneg]) 0
  have r3 := within_row h _ (List.mem_cons_of_mem _ (List.mem_cons_of_mem _ (List.mem_cons_of_mem _ (List.mem_cons_self)))) 0 (show (1 : ℝ) ≤ |(720 * 3 : ℝ)| by norm_num [abs_of_nonneg]) 0
  have r4 := within_row h _ (List.mem_cons_of_mem _ (List.mem_cons_of_mem _ (List.mem_cons_of_mem _ (List.mem_cons_of_mem _ (List.mem_cons_self))))) 0 (show (1 : ℝ) ≤ |(-720 : ℝ)| by norm_num [abs_of_nonneg]) 0
  have r5 := within_row h _ (List.mem_cons_of_mem _ (List.mem_cons_of_mem _ (List.mem_cons_of_mem _ (List.mem_cons_of_mem _ (List.mem_cons_of_mem _ (List.mem_cons_self)))))) 1 (show (1 : ℝ) ≤ |(-720 : ℝ)| by norm_num [abs_of_nonneg]) 0
  have r6 := within_row h _ (List.mem_cons_of_mem _ (List.mem_cons_of_mem _ (List.mem_cons_of_mem _ (List.mem_cons_of_mem _ (List.mem_cons_of_mem _ (List.mem_cons_of_mem _ (List.mem_cons_self))))))) 2 (show (1 : ℝ) ≤ |(-720 : ℝ)| by norm_num [abs_of_nonneg]) 0
  simp [WpB.at, Fin.sum_univ_succ, p0, p1, p2, p3, p7, p8, p9, p10] at r1 r2 r3 r4 r5 r6
  linarith [r1.1, r1.2, r2.1, r2.2, r3.1, r3.2, r4.1, r4.2, r5.1, r5.2, r6.1, r6.2]

theorem dash_refused12 (pi : List V3) (hpi : computeConstantWaypoints 2303#32 (polyEnds dash 1) 1 = .ok pi) (X : ℕ → V3) :
    ¬ EndOk 2303#32 (polyEnds dash 1) 1 pi X := by
  rintro ⟨_, _, jerk, -, -, e, -, -, h, -⟩
  obtain ⟨pi', e', hl, q0, q1, q2, q3, q9, q10, q11, q12⟩ := poly_pts12 dash 1 one_pos
  rw [hpi] at e'
  obtain rfl := Out.ok.inj e'
  have e2 : computeJerkWaypoints 2303#32 (polyEnds dash 1) 1 pi = .ok ⟨5, c0_dc0_ddc0_j0_x5_j1_ddc1_dc1_c1.computeJerkWaypoints (nth pi) 1⟩ := by
    simp [computeJerkWaypoints, hl]
  rw [e2] at e
  obtain rfl := Out.ok.inj e
  have p0 := q0 0
  have p1 := q1 0
  have p2 := q2 0
  have p3 := q3 0
  have p9 := q9 0
  have p10 := q10 0
  have p11 := q11 0
  have p12 := q12 0
  simp only [dash, Matrix.cons_val_zero, Pi.zero_apply, mul_zero, add_zero, zero_add] at p0 p1 p2 p3 p9 p10 p11 p12
  clear q0 q1 q2 q3 q9 q10 q11 q12
  simp only [c0_dc0_ddc0_j0_x5_j1_ddc1_dc1_c1.computeJerkWaypoints, div_one, mul_one, one_mul] at h
  have r1 := within_row h _ (List.mem_cons_of_mem _ (List.mem_cons_self)) 0 (show (1 : ℝ) ≤ |(1320 : ℝ)| by norm_num [abs_of_nonneg]) 0
  have r2 := within_row h _ (List.mem_cons_of_mem _ (List.mem_cons_of_mem _ (List.mem_cons_self))) 0 (show (1 : ℝ) ≤ |(1320 * -3 : ℝ)| by norm_num [abs_of_nonneg]) 0
  have r3 := within_row h _ (List.mem_cons_of_mem _ (List.mem_cons_of_mem _ (List.mem_cons_of_mem _ (List.mem_cons_self)))) 0 (show (1 : ℝ) ≤ |(1320 * 3 : ℝ)| by norm_num [abs_of_nonneg]) 0
  have r4 := within_row h _ (List.mem_cons_of_mem _ (List.mem_cons_of_mem _ (List.mem_cons_of_mem _ (List.mem_cons_of_mem _ (List.mem_cons_self))))) 0 (show (1 : ℝ) ≤ |(-1320 : ℝ)| by norm_num [abs_of_nonneg]) 0
  have r5 := within_row h _ (List.mem_cons_of_mem _ (List.mem_cons_of_mem _ (List.mem_cons_of_mem _ (List.mem_cons_of_mem _ (List.mem_cons_of_mem _ (List.mem_cons_self)))))) 1 (show (1 : ℝ) ≤ |(-1320 : ℝ)| by norm_num [abs_of_nonneg]) 0
  have r6 := within_row h _ (List.mem_cons_of_mem _ (List.mem_cons_of_mem _ (List.mem_cons_of_mem _ (List.mem_cons_of_mem _ (List.mem_cons_of_mem _ (List.mem_cons_of_mem _ (List.mem_cons_self))))))) 2 (show (1 : ℝ) ≤ |(-1320 : ℝ)| by norm_num [abs_of_nonneg]) 0
  have r7 := within_row h _ (List.mem_cons_of_mem _ (List.mem_cons_of_mem _ (List.mem_cons_of_mem _ (List.mem_cons_of_mem _ (List.mem_cons_of_mem _ (List.mem_cons_of_mem _ (List.mem_cons_of_mem _ (List.mem_cons_self)))))))) 3 (show (1 : ℝ) ≤ |(-1320 : ℝ)| by norm_num [abs_of_nonneg]) 0
  have r8 := within_row h _ (List.mem_cons_of_mem _ (List.mem_cons_of_mem _ (List.mem_cons_of_mem _ (List.mem_cons_of_mem _ (List.mem_cons_of_mem _ (List.mem_cons_of_mem _ (List.mem_cons_of_mem _ (List.mem_cons_of_mem _ (List.mem_cons_self))))))))) 4 (show (1 : ℝ) ≤ |(-1320 : ℝ)| by norm_num [abs_of_nonneg]) 0
  simp [WpB.at, Fin.sum_univ_succ, p0, p1, p2, p3, p9, p10, p11, p12] at r1 r2 r3 r4 r5 r6 r7 r8
  linarith [r1.1, r1.2, r2.1, r2.2, r3.1, r3.2, r4.1, r4.2, r5.1, r5.2, r6.1, r6.2, r7.1, r7.2, r8.1, r8.2]

/-- C128 does not extend to every motion planned with one free point: more free points may lose it, because with one free point the
derivatives near the ends of the motion are not bounded. -/
theorem C128_more_points_refuted (flag : Flag) (hf : flag ∈ [767#32, 2303#32]) : ∃ M, ∀ lib, LibOk lib → lib.eps = 0 → M ≤ lib.maxIter →
    ∀ path w init init', 0 ≤ w → w ≤ 1 → ∃ r r' N, (∀ fuel ≥ N, solveEndEffector lib fuel 255#32 (polyEnds dash 1) path 1 w init = .ok r ∧
      solveEndEffector lib fuel flag (polyEnds dash 1) path 1 w init' = .ok r') ∧ r.success = true ∧ r'.success = false := by
  have hf' : flag ∈ effFlags := by
    simp only [List.mem_cons, List.not_mem_nil, or_false] at hf
    rcases hf with rfl | rfl <;> decide
  have no : ∀ pi, computeConstantWaypoints flag (polyEnds dash 1) 1 = .ok pi → ∀ X, ¬ EndOk flag (polyEnds dash 1) 1 pi X := by
    simp only [List.mem_cons, List.not_mem_nil, or_false] at hf
    rcases hf with rfl | rfl
    · exact dash_refused10
    · exact dash_refused12
  obtain ⟨M, h⟩ := C128_one_partial dash 1 one_pos (fun k => by norm_num [dash]) (by norm_num [dash])
  obtain ⟨pi, hpi, -⟩ := effPts flag hf' (polyEnds dash 1) 1
  obtain ⟨M', h'⟩ := end_verdict flag hf' (polyEnds dash 1) 1 one_pos pi hpi
  refine ⟨M + M', fun lib hL he hm path w init init' a b => ?_⟩
  obtain ⟨r, N, hr, hs⟩ := h lib hL he (by omega) path w init a b
  obtain ⟨r', N', hr', hv⟩ := h' lib hL he (by omega) path w init' a b
  refine ⟨r, r', N + N', fun fuel hfu => ⟨hr fuel (by omega), hr' fuel (by omega)⟩, hs, ?_⟩
  rw [← Bool.not_eq_true, hv]
  rintro ⟨X, hX⟩
  exact no pi hpi X hX

/-- Rest is a motion of degree 8, so the margin of `C128_three_partial` and `C128_five_partial` cannot be dropped (`C85_far`). -/
theorem restAt_poly (p : V3) (T : ℝ) : polyEnds (fun _ => p) T = restAt p := by
  simp only [polyEnds, restAt, BC.mk.injEq]
  (repeat' apply And.intro) <;> first | trivial | rfl | (funext k; simp; try ring_nf; try simp)

/-- Uniform motion over 1000 metres. -/
noncomputable def rush : ℕ → V3 := fun i => ![125 * (i : ℝ), 0, 0]

theorem rush_bounded : PolyBounded rush 1 0 := by
  refine fun k => ⟨fun i _ => ?_, fun i _ => ?_, fun i _ => ?_⟩
  all_goals fin_cases k <;> simp [rush] <;> ring_nf <;> norm_num [abs_le]

/-- With one free point the claim fails too: uniform motion over 1000 metres in one second, a tenth of the speed allowed, is refused. -/
theorem C128_one_refuted : PolyBounded rush 1 0 ∧ ∃ M, ∀ lib, LibOk lib → lib.eps = 0 → M ≤ lib.maxIter →
    ∀ path w init, 0 ≤ w → w ≤ 1 → ∃ r N, (∀ fuel ≥ N, solveEndEffector lib fuel 255#32 (polyEnds rush 1) path 1 w init = .ok r) ∧
      r.success = false := by
  refine ⟨rush_bounded, ?_⟩
  obtain ⟨pi, hpi, hl, q0, q1, q2, q3, q5, q6, q7, q8⟩ := poly_pts8 rush 1 one_pos
  obtain ⟨M, h⟩ := end_verdict 255#32 (by decide) (polyEnds rush 1) 1 one_pos pi hpi
  refine ⟨M, fun lib hL he hm path w init a b => ?_⟩
  obtain ⟨r, N, hr, hv⟩ := h lib hL he hm path w init a b
  refine ⟨r, N, hr, ?_⟩
  rw [← Bool.not_eq_true, hv]
  rintro ⟨X, hX⟩
  rw [endOk255 hl] at hX
  obtain ⟨-, h2, h3, -⟩ := hX
  have p1 := q1 0
  have p2 := q2 0
  have p3 := q3 0
  have p8 := q8 0
  simp only [rush, Matrix.cons_val_zero] at p1 p2 p3 p8
  clear q0 q1 q2 q3 q5 q6 q7 q8
  simp only [c0_dc0_ddc0_j0_j1_ddc1_dc1_c1.computeAccelerationWaypoints, div_one, mul_one] at h2
  simp only [c0_dc0_ddc0_j0_j1_ddc1_dc1_c1.computeJerkWaypoints, div_one, mul_one] at h3
  have r1 := within_row h2 _ (List.mem_cons_of_mem _ (List.mem_cons_of_mem _ (List.mem_cons_of_mem _ List.mem_cons_self))) 0
    (show (1 : ℝ) ≤ |(-112 : ℝ)| by norm_num [abs_of_nonneg]) 0
  have r2 := within_row h3 _ (List.mem_cons_of_mem _ List.mem_cons_self) 0 (show (1 : ℝ) ≤ |(336 : ℝ)| by norm_num [abs_of_nonneg]) 0
  simp [WpB.at, p1, p2, p3, p8] at r1 r2
  linarith [r1.1, r1.2, r2.1, r2.2]

end Verif
