import Verif.WDiff5
import Verif.WDiff6

/-!
# C04 — the wrench waypoints describe the centroidal wrench of the curve

Five of the seven sets are exact. The two sets of degree 5 and 6 are written in the headers with
decimals truncated to about 15 digits; for these the statement with equality is refuted
(`C04_not_exact`) and the waypoint curve is shown to stay within an explicit distance
(`C04_wrench_waypoints_rounded_partial`).
-/

namespace Verif
open Matrix

/-- C04, the sets whose coefficients are exact: c0_dc0_c1, c0_dc0_dc1, c0_dc0_dc1_c1, c0_dc0_ddc0,
c0_dc0_ddc0_c1. Missing for the full statement: equality for the two remaining sets, which is
false. At every time `s` the Bezier curve on the waypoints evaluated at the free point `x` is
`(a(s), c(s) x a(s) + g x c(s))` where `a` is the second time derivative of the CoM curve `c`. -/
theorem C04_wrench_waypoints_partial (flag : Flag)
    (hf : flag ∈ [11#32, 19#32, 27#32, 7#32, 15#32]) (ct : ContactData) (rest : List ContactData)
    (e : Equilibrium) (he : ct.contactPhase = some e) (d : BC) (T : ℝ) (hT : T ≠ 0)
    (pts : List V3) (h : computeConstantWaypoints flag d T = .ok pts) :
    ∃ ws, computeWwaypoints flag (ct :: rest) d T = .ok ws ∧ ∀ x : V3,
      let c := curve (degreeOf flag) (fill flag (nth pts) x) T
      ∃ v a, IsDeriv c v ∧ IsDeriv v a ∧ ∀ s,
        headCurve ws x (s / T) = a s ∧
        tailCurve ws x (s / T) = wrenchTail e.gravity (c s) (a s) := by
  simp only [List.mem_cons, List.not_mem_nil, or_false] at hf
  rcases hf with rfl | rfl | rfl | rfl | rfl
  · refine ⟨_, by simp [computeWwaypoints, frontGravity, he, h]; rfl, fun x =>
      ⟨_, _, curve_isDeriv 2 _ T, curve_isDeriv 1 _ T, fun s => ⟨?_, ?_⟩⟩⟩
    · exact c0_dc0_c1.head_eq _ _ _ _ _ hT
    · exact c0_dc0_c1.tail_eq _ _ _ _ _ hT
  · refine ⟨_, by simp [computeWwaypoints, frontGravity, he, h]; rfl, fun x =>
      ⟨_, _, curve_isDeriv 2 _ T, curve_isDeriv 1 _ T, fun s => ⟨?_, ?_⟩⟩⟩
    · exact c0_dc0_dc1.head_eq _ _ _ _ _ hT
    · exact c0_dc0_dc1.tail_eq _ _ _ _ _ hT
  · refine ⟨_, by simp [computeWwaypoints, frontGravity, he, h]; rfl, fun x =>
      ⟨_, _, curve_isDeriv 3 _ T, curve_isDeriv 2 _ T, fun s => ⟨?_, ?_⟩⟩⟩
    · exact c0_dc0_dc1_c1.head_eq _ _ _ _ _ hT
    · exact c0_dc0_dc1_c1.tail_eq _ _ _ _ _ hT
  · refine ⟨_, by simp [computeWwaypoints, frontGravity, he, h]; rfl, fun x =>
      ⟨_, _, curve_isDeriv 2 _ T, curve_isDeriv 1 _ T, fun s => ⟨?_, ?_⟩⟩⟩
    · exact c0_dc0_ddc0.head_eq _ _ _ _ _ hT
    · exact c0_dc0_ddc0.tail_eq _ _ _ _ _ hT
  · refine ⟨_, by simp [computeWwaypoints, frontGravity, he, h]; rfl, fun x =>
      ⟨_, _, curve_isDeriv 3 _ T, curve_isDeriv 2 _ T, fun s => ⟨?_, ?_⟩⟩⟩
    · exact c0_dc0_ddc0_c1.head_eq _ _ _ _ _ hT
    · exact c0_dc0_ddc0_c1.tail_eq _ _ _ _ _ hT

/-- C04, the two sets whose coefficients are truncated decimals (c0_dc0_ddc0_dc1_c1 and
c0_dc0_ddc0_ddc1_dc1_c1). Missing: equality. During the motion the waypoint curve is within
`1e-12 (1 or M) M / T^2 + ...` of the wrench, where `M` bounds the coordinates of the control
points and `G` those of gravity. -/
theorem C04_wrench_waypoints_rounded_partial (flag : Flag) (hf : flag ∈ [31#32, 63#32])
    (ct : ContactData) (rest : List ContactData)
    (e : Equilibrium) (he : ct.contactPhase = some e) (d : BC) (T : ℝ) (hT : 0 < T)
    (pts : List V3) (h : computeConstantWaypoints flag d T = .ok pts) :
    ∃ ws, computeWwaypoints flag (ct :: rest) d T = .ok ws ∧
      ∀ (x : V3) (M G : ℝ), (∀ p ∈ pts, ∀ k, |p k| ≤ M) → (∀ k, |x k| ≤ M) →
        (∀ k, |e.gravity k| ≤ G) →
      let c := curve (degreeOf flag) (fill flag (nth pts) x) T
      ∃ v a, IsDeriv c v ∧ IsDeriv v a ∧ ∀ s, 0 ≤ s → s ≤ T → ∀ k,
        |headCurve ws x (s / T) k - a s k| ≤ 1e-12 * M / T ^ 2 ∧
        |tailCurve ws x (s / T) k - wrenchTail e.gravity (c s) (a s) k|
          ≤ 1e-12 * (M * M + T ^ 2 * (G * M)) / T ^ 2 := by
  have hT' : T ≠ 0 := hT.ne'
  have hT2 : 0 < T ^ 2 := by positivity
  simp only [List.mem_cons, List.not_mem_nil, or_false] at hf
  rcases hf with rfl | rfl
  · refine ⟨_, by simp [computeWwaypoints, frontGravity, he, h]; rfl, fun x M G hp hx hg =>
      ⟨_, _, curve_isDeriv 4 _ T, curve_isDeriv 3 _ T, fun s h0 h1 k => ⟨?_, ?_⟩⟩⟩
    all_goals
      have hM : 0 ≤ M := le_trans (abs_nonneg _) (hx 0)
      have hG : 0 ≤ G := le_trans (abs_nonneg _) (hg 0)
      have hp' := nth_bound hM hp
      have t0 : 0 ≤ s / T := by positivity
      have t1 : s / T ≤ 1 := (div_le_one hT).mpr h1
    · have hl := c0_dc0_ddc0_dc1_c1.exact_head_eq (nth pts) e.gravity x T (s / T) hT'
      have hk := congrFun hl k
      change |_ - bez 3 (accPt 5 (fill 31#32 (nth pts) x) T) (s / T) k| ≤ _
      rw [← hk, headCurve, headCurve, bez_apply, bez_apply]
      refine bez_close (n := 7) t0 t1 hT2 ?_
      intro i hi
      interval_cases i
      · exact c0_dc0_ddc0_dc1_c1.headAt_bound_0 _ _ _ _ _ G hT' _ hp' hx hg hT2.le hM
      · exact c0_dc0_ddc0_dc1_c1.headAt_bound_1 _ _ _ _ _ G hT' _ hp' hx hg hT2.le hM
      · exact c0_dc0_ddc0_dc1_c1.headAt_bound_2 _ _ _ _ _ G hT' _ hp' hx hg hT2.le hM
      · exact c0_dc0_ddc0_dc1_c1.headAt_bound_3 _ _ _ _ _ G hT' _ hp' hx hg hT2.le hM
      · exact c0_dc0_ddc0_dc1_c1.headAt_bound_4 _ _ _ _ _ G hT' _ hp' hx hg hT2.le hM
      · exact c0_dc0_ddc0_dc1_c1.headAt_bound_5 _ _ _ _ _ G hT' _ hp' hx hg hT2.le hM
      · exact c0_dc0_ddc0_dc1_c1.headAt_bound_6 _ _ _ _ _ G hT' _ hp' hx hg hT2.le hM
      · exact c0_dc0_ddc0_dc1_c1.headAt_bound_7 _ _ _ _ _ G hT' _ hp' hx hg hT2.le hM
    · have hl := c0_dc0_ddc0_dc1_c1.exact_tail_eq (nth pts) e.gravity x T (s / T) hT'
      have hk := congrFun hl k
      change |_ - wrenchTail e.gravity (bez 5 (fill 31#32 (nth pts) x) (s / T))
        (bez 3 (accPt 5 (fill 31#32 (nth pts) x) T) (s / T)) k| ≤ _
      rw [← hk, tailCurve, tailCurve, bez_apply, bez_apply]
      refine bez_close (n := 7) t0 t1 hT2 ?_
      intro i hi
      interval_cases i
      · exact c0_dc0_ddc0_dc1_c1.tailAt_bound_0 _ _ _ _ _ G hT' _ hp' hx hg hT2.le hM hG
      · exact c0_dc0_ddc0_dc1_c1.tailAt_bound_1 _ _ _ _ _ G hT' _ hp' hx hg hT2.le hM hG
      · exact c0_dc0_ddc0_dc1_c1.tailAt_bound_2 _ _ _ _ _ G hT' _ hp' hx hg hT2.le hM hG
      · exact c0_dc0_ddc0_dc1_c1.tailAt_bound_3 _ _ _ _ _ G hT' _ hp' hx hg hT2.le hM hG
      · exact c0_dc0_ddc0_dc1_c1.tailAt_bound_4 _ _ _ _ _ G hT' _ hp' hx hg hT2.le hM hG
      · exact c0_dc0_ddc0_dc1_c1.tailAt_bound_5 _ _ _ _ _ G hT' _ hp' hx hg hT2.le hM hG
      · exact c0_dc0_ddc0_dc1_c1.tailAt_bound_6 _ _ _ _ _ G hT' _ hp' hx hg hT2.le hM hG
      · exact c0_dc0_ddc0_dc1_c1.tailAt_bound_7 _ _ _ _ _ G hT' _ hp' hx hg hT2.le hM hG
  · refine ⟨_, by simp [computeWwaypoints, frontGravity, he, h]; rfl, fun x M G hp hx hg =>
      ⟨_, _, curve_isDeriv 5 _ T, curve_isDeriv 4 _ T, fun s h0 h1 k => ⟨?_, ?_⟩⟩⟩
    all_goals
      have hM : 0 ≤ M := le_trans (abs_nonneg _) (hx 0)
      have hG : 0 ≤ G := le_trans (abs_nonneg _) (hg 0)
      have hp' := nth_bound hM hp
      have t0 : 0 ≤ s / T := by positivity
      have t1 : s / T ≤ 1 := (div_le_one hT).mpr h1
    · have hl := c0_dc0_ddc0_ddc1_dc1_c1.exact_head_eq (nth pts) e.gravity x T (s / T) hT'
      have hk := congrFun hl k
      change |_ - bez 4 (accPt 6 (fill 63#32 (nth pts) x) T) (s / T) k| ≤ _
      rw [← hk, headCurve, headCurve, bez_apply, bez_apply]
      refine bez_close (n := 9) t0 t1 hT2 ?_
      intro i hi
      interval_cases i
      · exact c0_dc0_ddc0_ddc1_dc1_c1.headAt_bound_0 _ _ _ _ _ G hT' _ hp' hx hg hT2.le hM
      · exact c0_dc0_ddc0_ddc1_dc1_c1.headAt_bound_1 _ _ _ _ _ G hT' _ hp' hx hg hT2.le hM
      · exact c0_dc0_ddc0_ddc1_dc1_c1.headAt_bound_2 _ _ _ _ _ G hT' _ hp' hx hg hT2.le hM
      · exact c0_dc0_ddc0_ddc1_dc1_c1.headAt_bound_3 _ _ _ _ _ G hT' _ hp' hx hg hT2.le hM
      · exact c0_dc0_ddc0_ddc1_dc1_c1.headAt_bound_4 _ _ _ _ _ G hT' _ hp' hx hg hT2.le hM
      · exact c0_dc0_ddc0_ddc1_dc1_c1.headAt_bound_5 _ _ _ _ _ G hT' _ hp' hx hg hT2.le hM
      · exact c0_dc0_ddc0_ddc1_dc1_c1.headAt_bound_6 _ _ _ _ _ G hT' _ hp' hx hg hT2.le hM
      · exact c0_dc0_ddc0_ddc1_dc1_c1.headAt_bound_7 _ _ _ _ _ G hT' _ hp' hx hg hT2.le hM
      · exact c0_dc0_ddc0_ddc1_dc1_c1.headAt_bound_8 _ _ _ _ _ G hT' _ hp' hx hg hT2.le hM
      · exact c0_dc0_ddc0_ddc1_dc1_c1.headAt_bound_9 _ _ _ _ _ G hT' _ hp' hx hg hT2.le hM
    · have hl := c0_dc0_ddc0_ddc1_dc1_c1.exact_tail_eq (nth pts) e.gravity x T (s / T) hT'
      have hk := congrFun hl k
      change |_ - wrenchTail e.gravity (bez 6 (fill 63#32 (nth pts) x) (s / T))
        (bez 4 (accPt 6 (fill 63#32 (nth pts) x) T) (s / T)) k| ≤ _
      rw [← hk, tailCurve, tailCurve, bez_apply, bez_apply]
      refine bez_close (n := 9) t0 t1 hT2 ?_
      intro i hi
      interval_cases i
      · exact c0_dc0_ddc0_ddc1_dc1_c1.tailAt_bound_0 _ _ _ _ _ G hT' _ hp' hx hg hT2.le hM hG
      · exact c0_dc0_ddc0_ddc1_dc1_c1.tailAt_bound_1 _ _ _ _ _ G hT' _ hp' hx hg hT2.le hM hG
      · exact c0_dc0_ddc0_ddc1_dc1_c1.tailAt_bound_2 _ _ _ _ _ G hT' _ hp' hx hg hT2.le hM hG
      · exact c0_dc0_ddc0_ddc1_dc1_c1.tailAt_bound_3 _ _ _ _ _ G hT' _ hp' hx hg hT2.le hM hG
      · exact c0_dc0_ddc0_ddc1_dc1_c1.tailAt_bound_4 _ _ _ _ _ G hT' _ hp' hx hg hT2.le hM hG
      · exact c0_dc0_ddc0_ddc1_dc1_c1.tailAt_bound_5 _ _ _ _ _ G hT' _ hp' hx hg hT2.le hM hG
      · exact c0_dc0_ddc0_ddc1_dc1_c1.tailAt_bound_6 _ _ _ _ _ G hT' _ hp' hx hg hT2.le hM hG
      · exact c0_dc0_ddc0_ddc1_dc1_c1.tailAt_bound_7 _ _ _ _ _ G hT' _ hp' hx hg hT2.le hM hG
      · exact c0_dc0_ddc0_ddc1_dc1_c1.tailAt_bound_8 _ _ _ _ _ G hT' _ hp' hx hg hT2.le hM hG
      · exact c0_dc0_ddc0_ddc1_dc1_c1.tailAt_bound_9 _ _ _ _ _ G hT' _ hp' hx hg hT2.le hM hG

/-- A standing robot: contact phase with gravity, used by the witnesses. -/
def earth : ContactData :=
  { contactPhase := some { mass := 50, gravity := ![0, 0, -9.81], poly := [], polyOk := true, isPP := true, gens := [] }
    Kin := [], kin := [], Ang := [], ang := [] }

/-- Non-vacuity of the two theorems: contacts and data meeting their hypotheses. -/
example : ∃ ws, computeWwaypoints 63#32 [earth]
    { c0 := ![1, 2, 3], dc0 := ![1, 0, 0], ddc0 := ![0, 1, 0], j0 := 0,
      c1 := ![2, 2, 4], dc1 := ![0, 1, 1], ddc1 := ![1, 1, 0], j1 := 0 } 2 = .ok ws := by
  obtain ⟨ws, h, -⟩ := C04_wrench_waypoints_rounded_partial 63#32 (by decide) earth [] _ rfl
    { c0 := ![1, 2, 3], dc0 := ![1, 0, 0], ddc0 := ![0, 1, 0], j0 := 0,
      c1 := ![2, 2, 4], dc1 := ![0, 1, 1], ddc1 := ![1, 1, 0], j1 := 0 } 2 (by norm_num) _
    (by simp [computeConstantWaypoints]; rfl)
  exact ⟨ws, h⟩

/-- Equality is false for the degree 5 set: with all boundary data zero, free point `(1,0,0)` and
`T = 1`, the waypoint curve at `1/2` is not the acceleration of the curve. -/
theorem C04_not_exact :
    ∃ (d : BC) (x : V3) (pts : List V3) (ws : List Wp6) (v a : ℝ → V3),
      computeConstantWaypoints 31#32 d 1 = .ok pts ∧ computeWwaypoints 31#32 [earth] d 1 = .ok ws ∧
      IsDeriv (curve 5 (fill 31#32 (nth pts) x) 1) v ∧ IsDeriv v a ∧
      headCurve ws x (1 / 2) ≠ a (1 / 2) := by
  refine ⟨⟨0, 0, 0, 0, 0, 0, 0, 0⟩, ![1, 0, 0], _, _, _, _, by simp [computeConstantWaypoints]; rfl,
    by simp [computeWwaypoints, computeConstantWaypoints, frontGravity, earth]; rfl,
    curve_isDeriv 4 _ _, curve_isDeriv 3 _ _, ?_⟩
  intro h
  have hl := c0_dc0_ddc0_dc1_c1.exact_head_eq
    (nth (c0_dc0_ddc0_dc1_c1.computeConstantWaypoints ⟨0, 0, 0, 0, 0, 0, 0, 0⟩ 1)) ![0, 0, -9.81]
    ![1, 0, 0] 1 (1 / 2) one_ne_zero
  have h2 := congrFun h 0
  have h3 := congrFun hl 0
  have e : bez 3 (accPt 5 (fill 31#32 (nth (c0_dc0_ddc0_dc1_c1.computeConstantWaypoints
      ⟨0, 0, 0, 0, 0, 0, 0, 0⟩ 1)) ![1, 0, 0]) 1) (1 / 2) =
      curve 3 (hodo 4 (hodo 5 (fill 31#32 (nth (c0_dc0_ddc0_dc1_c1.computeConstantWaypoints
      ⟨0, 0, 0, 0, 0, 0, 0, 0⟩ 1)) ![1, 0, 0]) 1) 1) 1 (1 / 2) := by
    simp [curve, accPt]
  have hA : (c0_dc0_ddc0_dc1_c1.computeWwaypoints (nth (c0_dc0_ddc0_dc1_c1.computeConstantWaypoints
      ⟨0, 0, 0, 0, 0, 0, 0, 0⟩ 1)) ![0, 0, -9.81] 1).length - 1 = 7 := rfl
  have hB : (c0_dc0_ddc0_dc1_c1.exactW (nth (c0_dc0_ddc0_dc1_c1.computeConstantWaypoints
      ⟨0, 0, 0, 0, 0, 0, 0, 0⟩ 1)) ![0, 0, -9.81] 1).length - 1 = 7 := rfl
  rw [e] at h3
  have h4 := h2.trans h3.symm
  rw [headCurve, headCurve, hA, hB, bez_apply, bez_apply, bezS7, bezS7] at h4
  simp [c0_dc0_ddc0_dc1_c1.computeWwaypoints, c0_dc0_ddc0_dc1_c1.exactW, Wp6.headAt, mulVec,
    dotProduct, Fin.sum_univ_three, nth, c0_dc0_ddc0_dc1_c1.computeConstantWaypoints] at h4
  norm_num at h4

end Verif
