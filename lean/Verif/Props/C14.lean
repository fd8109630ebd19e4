import Verif.Props.C09
import Mathlib.Tactic.IntervalCases

/-!
# C14 — control points of the derivative curves of the end-effector sets
-/

set_option linter.unusedSimpArgs false

namespace Verif

/-- C14 for `computeVelocityWaypoints`: for the three sets, the list returned has as many points as the
derivative curve has control points and defines the velocity at every time, for all free points.
Together with `C14_velocity`/`C14_jerk` the full statement would need `computeAccelerationWaypoints`,
which is refuted below. -/
theorem C14_velocity_partial (flag : Flag) (hf : flag ∈ effFlags) (d : BC) (T : ℝ) (hT : T ≠ 0)
    (pi : List V3) (hl : pi.length = degreeOf flag + 1) :
    ∃ ws, computeVelocityWaypoints flag d T pi = .ok ws ∧ ws.2.length = degreeOf flag + 1 - 1 ∧ ∀ X : ℕ → V3,
      let c := curve (degreeOf flag) (fillMany flag (nth pi) X) T
      ∃ v : ℝ → V3, IsDeriv c v ∧ ∀ s, wpCurve ws.2 X (s / T) = v s := by
  simp only [effFlags, List.mem_cons, List.not_mem_nil, or_false] at hf
  rcases hf with rfl | rfl | rfl <;> simp [degreeOf] at hl
  · refine ⟨_, by simp [computeVelocityWaypoints, hl]; rfl, rfl, fun X =>
      ⟨_, curve_isDeriv 7 _ T, fun s => ?_⟩⟩
    refine bez_congr (n := 7) fun i hi => ?_
    interval_cases i <;> funext k <;>
      simp [WpB.at, Fin.sum_univ_one, c0_dc0_ddc0_j0_j1_ddc1_dc1_c1.computeVelocityWaypoints, hodo, fillMany, freeSlots, Fin.val] <;>
      field_simp <;> first | ring1 | (left; ring1) | (left; trivial) | skip
  · refine ⟨_, by simp [computeVelocityWaypoints, hl]; rfl, rfl, fun X =>
      ⟨_, curve_isDeriv 9 _ T, fun s => ?_⟩⟩
    refine bez_congr (n := 9) fun i hi => ?_
    interval_cases i <;> funext k <;>
      simp [WpB.at, Fin.sum_univ_three, c0_dc0_ddc0_j0_x3_j1_ddc1_dc1_c1.computeVelocityWaypoints, hodo, fillMany, freeSlots, Fin.val] <;>
      field_simp <;> first | ring1 | (left; ring1) | (left; trivial) | skip
  · refine ⟨_, by simp [computeVelocityWaypoints, hl]; rfl, rfl, fun X =>
      ⟨_, curve_isDeriv 11 _ T, fun s => ?_⟩⟩
    refine bez_congr (n := 11) fun i hi => ?_
    interval_cases i <;> funext k <;>
      simp [WpB.at, Fin.sum_univ_five, c0_dc0_ddc0_j0_x5_j1_ddc1_dc1_c1.computeVelocityWaypoints, hodo, fillMany, freeSlots, Fin.val] <;>
      field_simp <;> first | ring1 | (left; ring1) | (left; trivial) | skip

/-- C14 for `computeJerkWaypoints`: for the three sets, the list returned has as many points as the
derivative curve has control points and defines the jerk at every time, for all free points.
Together with `C14_velocity`/`C14_jerk` the full statement would need `computeAccelerationWaypoints`,
which is refuted below. -/
theorem C14_jerk_partial (flag : Flag) (hf : flag ∈ effFlags) (d : BC) (T : ℝ) (hT : T ≠ 0)
    (pi : List V3) (hl : pi.length = degreeOf flag + 1) :
    ∃ ws, computeJerkWaypoints flag d T pi = .ok ws ∧ ws.2.length = degreeOf flag + 1 - 3 ∧ ∀ X : ℕ → V3,
      let c := curve (degreeOf flag) (fillMany flag (nth pi) X) T
      ∃ v a j : ℝ → V3, IsDeriv c v ∧ IsDeriv v a ∧ IsDeriv a j ∧ ∀ s, wpCurve ws.2 X (s / T) = j s := by
  simp only [effFlags, List.mem_cons, List.not_mem_nil, or_false] at hf
  rcases hf with rfl | rfl | rfl <;> simp [degreeOf] at hl
  · refine ⟨_, by simp [computeJerkWaypoints, hl]; rfl, rfl, fun X =>
      ⟨_, _, _, curve_isDeriv 7 _ T, curve_isDeriv 6 _ T, curve_isDeriv 5 _ T, fun s => ?_⟩⟩
    refine bez_congr (n := 5) fun i hi => ?_
    interval_cases i <;> funext k <;>
      simp [WpB.at, Fin.sum_univ_one, c0_dc0_ddc0_j0_j1_ddc1_dc1_c1.computeJerkWaypoints, hodo, fillMany, freeSlots, Fin.val] <;>
      field_simp <;> first | ring1 | (left; ring1) | (left; trivial) | skip
  · refine ⟨_, by simp [computeJerkWaypoints, hl]; rfl, rfl, fun X =>
      ⟨_, _, _, curve_isDeriv 9 _ T, curve_isDeriv 8 _ T, curve_isDeriv 7 _ T, fun s => ?_⟩⟩
    refine bez_congr (n := 7) fun i hi => ?_
    interval_cases i <;> funext k <;>
      simp [WpB.at, Fin.sum_univ_three, c0_dc0_ddc0_j0_x3_j1_ddc1_dc1_c1.computeJerkWaypoints, hodo, fillMany, freeSlots, Fin.val] <;>
      field_simp <;> first | ring1 | (left; ring1) | (left; trivial) | skip
  · refine ⟨_, by simp [computeJerkWaypoints, hl]; rfl, rfl, fun X =>
      ⟨_, _, _, curve_isDeriv 11 _ T, curve_isDeriv 10 _ T, curve_isDeriv 9 _ T, fun s => ?_⟩⟩
    refine bez_congr (n := 9) fun i hi => ?_
    interval_cases i <;> funext k <;>
      simp [WpB.at, Fin.sum_univ_five, c0_dc0_ddc0_j0_x5_j1_ddc1_dc1_c1.computeJerkWaypoints, hodo, fillMany, freeSlots, Fin.val] <;>
      field_simp <;> first | ring1 | (left; ring1) | (left; trivial) | skip

/-- C14 without a `pi` argument: the three queries then use the constant waypoints. -/
theorem C14_default_pi (flag : Flag) (hf : flag ∈ effFlags) (d : BC) (T : ℝ) (pts : List V3)
    (h : computeConstantWaypoints flag d T = .ok pts) :
    computeVelocityWaypoints flag d T [] = computeVelocityWaypoints flag d T pts ∧
    computeAccelerationWaypoints flag d T [] = computeAccelerationWaypoints flag d T pts ∧
    computeJerkWaypoints flag d T [] = computeJerkWaypoints flag d T pts := by
  simp only [effFlags, List.mem_cons, List.not_mem_nil, or_false] at hf
  rcases hf with rfl | rfl | rfl <;> simp [computeConstantWaypoints] at h <;> subst h <;>
    refine ⟨?_, ?_, ?_⟩ <;>
    simp [computeVelocityWaypoints, computeAccelerationWaypoints, computeJerkWaypoints,
      c0_dc0_ddc0_j0_j1_ddc1_dc1_c1.computeConstantWaypoints, c0_dc0_ddc0_j0_x3_j1_ddc1_dc1_c1.computeConstantWaypoints, c0_dc0_ddc0_j0_x5_j1_ddc1_dc1_c1.computeConstantWaypoints]

/-- Non-vacuity: a polygon of 9 points. -/
example : ∃ ws, computeVelocityWaypoints 255#32 ⟨0, 0, 0, 0, 0, 0, 0, 0⟩ 2
    [0, ![1, 0, 0], 0, 0, 0, 0, ![0, 1, 0], 0, 1] = .ok ws := by
  obtain ⟨ws, h, -⟩ := C14_velocity_partial 255#32 (by decide) ⟨0, 0, 0, 0, 0, 0, 0, 0⟩ 2 (by norm_num)
    [0, ![1, 0, 0], 0, 0, 0, 0, ![0, 1, 0], 0, 1] rfl
  exact ⟨ws, h⟩

/-- C14 fails for `computeAccelerationWaypoints` in each of the three sets: either there are too many
points, or the curve they define is not the acceleration. -/
theorem C14_acceleration_refuted (flag : Flag) (hf : flag ∈ effFlags) :
    ∃ (pi : List V3) (X : ℕ → V3) (s : ℝ) (ws : Σ K : ℕ, List (WpB K)),
      pi.length = degreeOf flag + 1 ∧
      computeAccelerationWaypoints flag ⟨0, 0, 0, 0, 0, 0, 0, 0⟩ 1 pi = .ok ws ∧
      let c := curve (degreeOf flag) (fillMany flag (nth pi) X) 1
      ∃ v a : ℝ → V3, IsDeriv c v ∧ IsDeriv v a ∧ wpCurve ws.2 X s ≠ a s := by
  simp only [effFlags, List.mem_cons, List.not_mem_nil, or_false] at hf
  rcases hf with rfl | rfl | rfl
  · refine ⟨[0, 0, 0, 0, 0, 0, 0, 0, ![1, 0, 0]], 0, 1 / 2, _, rfl,
      by simp [computeAccelerationWaypoints]; rfl, _, _, curve_isDeriv 7 _ 1,
      curve_isDeriv 6 _ 1, ?_⟩
    intro h
    have h0 := congrFun h 0
    have hl : (c0_dc0_ddc0_j0_j1_ddc1_dc1_c1.computeAccelerationWaypoints (nth [0, 0, 0, 0, 0, 0, 0, 0, ![1, 0, 0]]) 1).length - 1 = 6 := rfl
    rw [wpCurve, hl, bez_apply, bezS6] at h0
    simp [WpB.at, Fin.sum_univ_one, curve, bez_apply, bezS6, hodo, nth,
      c0_dc0_ddc0_j0_j1_ddc1_dc1_c1.computeAccelerationWaypoints, fillMany, freeSlots, Fin.val] at h0
    try norm_num at h0
  · refine ⟨[0, 0, 0, ![1, 0, 0], 0, 0, 0, 0, 0, 0, 0], 0, 1 / 2, _, rfl,
      by simp [computeAccelerationWaypoints]; rfl, _, _, curve_isDeriv 9 _ 1,
      curve_isDeriv 8 _ 1, ?_⟩
    intro h
    have h0 := congrFun h 0
    have hl : (c0_dc0_ddc0_j0_x3_j1_ddc1_dc1_c1.computeAccelerationWaypoints (nth [0, 0, 0, ![1, 0, 0], 0, 0, 0, 0, 0, 0, 0]) 1).length - 1 = 9 := rfl
    rw [wpCurve, hl, bez_apply, bezS9] at h0
    simp [WpB.at, Fin.sum_univ_three, curve, bez_apply, bezS8, hodo, nth,
      c0_dc0_ddc0_j0_x3_j1_ddc1_dc1_c1.computeAccelerationWaypoints, fillMany, freeSlots, Fin.val] at h0
    try norm_num at h0
  · refine ⟨[0, 0, 0, ![1, 0, 0], 0, 0, 0, 0, 0, 0, 0, 0, 0], 0, 1 / 2, _, rfl,
      by simp [computeAccelerationWaypoints]; rfl, _, _, curve_isDeriv 11 _ 1,
      curve_isDeriv 10 _ 1, ?_⟩
    intro h
    have h0 := congrFun h 0
    have hl : (c0_dc0_ddc0_j0_x5_j1_ddc1_dc1_c1.computeAccelerationWaypoints (nth [0, 0, 0, ![1, 0, 0], 0, 0, 0, 0, 0, 0, 0, 0, 0]) 1).length - 1 = 11 := rfl
    rw [wpCurve, hl, bez_apply, bezS11] at h0
    simp [WpB.at, Fin.sum_univ_five, curve, bez_apply, bezS10, hodo, nth,
      c0_dc0_ddc0_j0_x5_j1_ddc1_dc1_c1.computeAccelerationWaypoints, fillMany, freeSlots, Fin.val] at h0
    try norm_num at h0

/-- What remains true of `computeAccelerationWaypoints` for the set with one free point: all control
points except number 3 are those of the second derivative. -/
theorem C14_acceleration_j0_j1_partial (d : BC) (T : ℝ) (hT : T ≠ 0) (pi : List V3) (hl : pi.length = 9) :
    ∃ ws, computeAccelerationWaypoints 255#32 d T pi = .ok ws ∧ ws.2.length = 7 ∧
      ∀ (X : ℕ → V3) (i : ℕ), i < 7 → i ≠ 3 →
        (ws.2[i]!).at X = (7 * 8 / T ^ 2) • (fillMany 255#32 (nth pi) X (i + 2)
          - (2 : ℝ) • fillMany 255#32 (nth pi) X (i + 1) + fillMany 255#32 (nth pi) X i) := by
  refine ⟨_, by simp [computeAccelerationWaypoints, hl]; rfl, rfl, fun X i hi h3 => ?_⟩
  interval_cases i <;> first | exact absurd rfl h3 | skip
  all_goals
    funext k
    simp [WpB.at, c0_dc0_ddc0_j0_j1_ddc1_dc1_c1.computeAccelerationWaypoints, fillMany, freeSlots]
    field_simp
    try ring

end Verif
