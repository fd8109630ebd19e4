import Verif.WpProofs
import Verif.FlagLemmas

/-!
# C02, C03, C05 — position, acceleration and final velocity decompositions
-/

namespace Verif

/-- C02. For each of the seven CoM constraint sets, `evaluateCurveAtTime` answers with a pair
`(a,s)` such that `a x + s` is the point at normalised time `t` of the Bezier curve on the control
polygon `pi` with the free point `x`. Missing: the set with jerks, which the query also answers for and for which
it is false (`C02_jerk_error`, `C02_refuted`). -/
theorem C02_position_coefs_partial (flag : Flag) (hf : flag ∈ comFlags) (pi : List V3)
    (hl : pi.length = degreeOf flag + 1) (t : ℝ) :
    ∃ co, evaluateCurveAtTime flag pi t = .ok co ∧
      ∀ x : V3, co.first • x + co.second = bez (degreeOf flag) (fill flag (nth pi) x) t := by
  simp only [comFlags, List.mem_cons, List.not_mem_nil, or_false] at hf
  rcases hf with rfl | rfl | rfl | rfl | rfl | rfl | rfl <;> simp [degreeOf] at hl
  · refine ⟨_, by simp [evaluateCurveAtTime, withPts, hl]; rfl, fun x => ?_⟩
    funext k
    simp only [degreeOf]
    simp [bez_apply, bezS3, c0_dc0_c1.evaluateCurveAtTime, fill, freeSlots]
    ring
  · refine ⟨_, by simp [evaluateCurveAtTime, withPts, hl]; rfl, fun x => ?_⟩
    funext k
    simp only [degreeOf]
    simp [bez_apply, bezS3, c0_dc0_dc1.evaluateCurveAtTime, fill, freeSlots]
    ring
  · refine ⟨_, by simp [evaluateCurveAtTime, withPts, hl]; rfl, fun x => ?_⟩
    funext k
    simp only [degreeOf]
    simp [bez_apply, bezS4, c0_dc0_dc1_c1.evaluateCurveAtTime, fill, freeSlots]
    ring
  · refine ⟨_, by simp [evaluateCurveAtTime, withPts, hl]; rfl, fun x => ?_⟩
    funext k
    simp only [degreeOf]
    simp [bez_apply, bezS3, c0_dc0_ddc0.evaluateCurveAtTime, fill, freeSlots]
    ring
  · refine ⟨_, by simp [evaluateCurveAtTime, withPts, hl]; rfl, fun x => ?_⟩
    funext k
    simp only [degreeOf]
    simp [bez_apply, bezS4, c0_dc0_ddc0_c1.evaluateCurveAtTime, fill, freeSlots]
    ring
  · refine ⟨_, by simp [evaluateCurveAtTime, withPts, hl]; rfl, fun x => ?_⟩
    funext k
    simp only [degreeOf]
    simp [bez_apply, bezS5, c0_dc0_ddc0_dc1_c1.evaluateCurveAtTime, fill, freeSlots]
    ring
  · refine ⟨_, by simp [evaluateCurveAtTime, withPts, hl]; rfl, fun x => ?_⟩
    funext k
    simp only [degreeOf]
    simp [bez_apply, bezS6, c0_dc0_ddc0_ddc1_dc1_c1.evaluateCurveAtTime, fill, freeSlots]
    ring

/-- Non-vacuity of C02: a control polygon of the right length. -/
example : ∃ co, evaluateCurveAtTime 11#32 [![1, 0, 0], ![1, 2, 0], 0, ![3, 2, 1]] (1 / 2) = .ok co ∧
    ∀ x : V3, co.first • x + co.second =
      bez 3 (fill 11#32 (nth [![1, 0, 0], ![1, 2, 0], 0, ![3, 2, 1]]) x) (1 / 2) :=
  C02_position_coefs_partial _ (by decide) _ (by rfl) _

/-- C03. For each of the seven CoM constraint sets, `evaluateAccelerationCurveAtTime` answers with
a pair `(a,s)` such that `a x + s` is the second derivative with respect to time, at time `t T`,
of the curve traversed in time `T`. Missing: the set with jerks, for which it is false (`C03_jerk_error`,
`C03_refuted`). -/
theorem C03_acceleration_coefs_partial (flag : Flag) (hf : flag ∈ comFlags) (pi : List V3)
    (hl : pi.length = degreeOf flag + 1) (T : ℝ) (hT : T ≠ 0) (x : V3) :
    ∃ v a, IsDeriv (curve (degreeOf flag) (fill flag (nth pi) x) T) v ∧ IsDeriv v a ∧
      ∀ t, ∃ co, evaluateAccelerationCurveAtTime flag pi T t = .ok co ∧
        co.first • x + co.second = a (t * T) := by
  simp only [comFlags, List.mem_cons, List.not_mem_nil, or_false] at hf
  rcases hf with rfl | rfl | rfl | rfl | rfl | rfl | rfl <;> simp [degreeOf] at hl
  · refine ⟨_, _, curve_isDeriv 2 _ T, curve_isDeriv 1 _ T, fun t =>
      ⟨_, by simp [evaluateAccelerationCurveAtTime, withPts, hl]; rfl, ?_⟩⟩
    funext k
    rw [curve, mul_div_cancel_right₀ _ hT]
    simp [bez_apply, bezS1, hodo, c0_dc0_c1.evaluateAccelerationCurveAtTime, fill, freeSlots]
    field_simp
    try ring
  · refine ⟨_, _, curve_isDeriv 2 _ T, curve_isDeriv 1 _ T, fun t =>
      ⟨_, by simp [evaluateAccelerationCurveAtTime, withPts, hl]; rfl, ?_⟩⟩
    funext k
    rw [curve, mul_div_cancel_right₀ _ hT]
    simp [bez_apply, bezS1, hodo, c0_dc0_dc1.evaluateAccelerationCurveAtTime, fill, freeSlots]
    field_simp
    try ring
  · refine ⟨_, _, curve_isDeriv 3 _ T, curve_isDeriv 2 _ T, fun t =>
      ⟨_, by simp [evaluateAccelerationCurveAtTime, withPts, hl]; rfl, ?_⟩⟩
    funext k
    rw [curve, mul_div_cancel_right₀ _ hT]
    simp [bez_apply, bezS2, hodo, c0_dc0_dc1_c1.evaluateAccelerationCurveAtTime, fill, freeSlots]
    field_simp
    try ring
  · refine ⟨_, _, curve_isDeriv 2 _ T, curve_isDeriv 1 _ T, fun t =>
      ⟨_, by simp [evaluateAccelerationCurveAtTime, withPts, hl]; rfl, ?_⟩⟩
    funext k
    rw [curve, mul_div_cancel_right₀ _ hT]
    simp [bez_apply, bezS1, hodo, c0_dc0_ddc0.evaluateAccelerationCurveAtTime, fill, freeSlots]
    field_simp
    try ring
  · refine ⟨_, _, curve_isDeriv 3 _ T, curve_isDeriv 2 _ T, fun t =>
      ⟨_, by simp [evaluateAccelerationCurveAtTime, withPts, hl]; rfl, ?_⟩⟩
    funext k
    rw [curve, mul_div_cancel_right₀ _ hT]
    simp [bez_apply, bezS2, hodo, c0_dc0_ddc0_c1.evaluateAccelerationCurveAtTime, fill, freeSlots]
    field_simp
    try ring
  · refine ⟨_, _, curve_isDeriv 4 _ T, curve_isDeriv 3 _ T, fun t =>
      ⟨_, by simp [evaluateAccelerationCurveAtTime, withPts, hl]; rfl, ?_⟩⟩
    funext k
    rw [curve, mul_div_cancel_right₀ _ hT]
    simp [bez_apply, bezS3, hodo, c0_dc0_ddc0_dc1_c1.evaluateAccelerationCurveAtTime, fill, freeSlots]
    field_simp
    try ring
  · refine ⟨_, _, curve_isDeriv 5 _ T, curve_isDeriv 4 _ T, fun t =>
      ⟨_, by simp [evaluateAccelerationCurveAtTime, withPts, hl]; rfl, ?_⟩⟩
    funext k
    rw [curve, mul_div_cancel_right₀ _ hT]
    simp [bez_apply, bezS4, hodo, c0_dc0_ddc0_ddc1_dc1_c1.evaluateAccelerationCurveAtTime, fill, freeSlots]
    field_simp
    try ring

/-- Non-vacuity of C03. -/
example : (11#32 : Flag) ∈ comFlags ∧
    [![1, 0, 0], ![1, 2, 0], 0, ![3, 2, (1 : ℝ)]].length = degreeOf 11#32 + 1 := by
  constructor <;> simp [comFlags, degreeOf]

/-- C05. `computeFinalVelocityPoint` answers with a pair `(a,s)` such that `a x + s` is the velocity,
at its end time `T`, of the curve built on the constant waypoints and the free point `x`. -/
theorem C05_final_velocity (flag : Flag) (hf : flag ∈ comFlags) (d : BC) (T : ℝ) (hT : T ≠ 0)
    (pts : List V3) (h : computeConstantWaypoints flag d T = .ok pts) :
    ∃ co, computeFinalVelocityPoint flag d T = .ok co ∧ ∀ x : V3,
      ∃ v, IsDeriv (curve (degreeOf flag) (fill flag (nth pts) x) T) v ∧
        co.first • x + co.second = v T := by
  simp only [comFlags, List.mem_cons, List.not_mem_nil, or_false] at hf
  rcases hf with rfl | rfl | rfl | rfl | rfl | rfl | rfl
  · simp [computeConstantWaypoints] at h
    subst h
    refine ⟨_, by simp [computeFinalVelocityPoint, computeConstantWaypoints]; rfl, fun x =>
      ⟨_, curve_isDeriv 2 _ T, ?_⟩⟩
    rw [curve_end _ _ _ hT]
    funext k
    simp [hodo, c0_dc0_c1.computeFinalVelocityPoint, c0_dc0_c1.computeConstantWaypoints, fill, freeSlots, nth]
    try field_simp
    try ring
  · by_cases hd : d.dc1 = 0 <;> simp [computeConstantWaypoints, hd] at h
    subst h
    refine ⟨_, by simp [computeFinalVelocityPoint, computeConstantWaypoints, hd]; rfl, fun x =>
      ⟨_, curve_isDeriv 2 _ T, ?_⟩⟩
    rw [curve_end _ _ _ hT]
    funext k
    simp [hodo, c0_dc0_dc1.computeFinalVelocityPoint, c0_dc0_dc1.computeConstantWaypoints, fill, freeSlots, nth]
    try field_simp
    try ring
  · simp [computeConstantWaypoints] at h
    subst h
    refine ⟨_, by simp [computeFinalVelocityPoint, computeConstantWaypoints]; rfl, fun x =>
      ⟨_, curve_isDeriv 3 _ T, ?_⟩⟩
    rw [curve_end _ _ _ hT]
    funext k
    simp [hodo, c0_dc0_dc1_c1.computeFinalVelocityPoint, c0_dc0_dc1_c1.computeConstantWaypoints, fill, freeSlots, nth]
    try field_simp
    try ring
  · simp [computeConstantWaypoints] at h
    subst h
    refine ⟨_, by simp [computeFinalVelocityPoint, computeConstantWaypoints]; rfl, fun x =>
      ⟨_, curve_isDeriv 2 _ T, ?_⟩⟩
    rw [curve_end _ _ _ hT]
    funext k
    simp [hodo, c0_dc0_ddc0.computeFinalVelocityPoint, c0_dc0_ddc0.computeConstantWaypoints, fill, freeSlots, nth]
    try field_simp
    try ring
  · simp [computeConstantWaypoints] at h
    subst h
    refine ⟨_, by simp [computeFinalVelocityPoint, computeConstantWaypoints]; rfl, fun x =>
      ⟨_, curve_isDeriv 3 _ T, ?_⟩⟩
    rw [curve_end _ _ _ hT]
    funext k
    simp [hodo, c0_dc0_ddc0_c1.computeFinalVelocityPoint, c0_dc0_ddc0_c1.computeConstantWaypoints, fill, freeSlots, nth]
    try field_simp
    try ring
  · simp [computeConstantWaypoints] at h
    subst h
    refine ⟨_, by simp [computeFinalVelocityPoint, computeConstantWaypoints]; rfl, fun x =>
      ⟨_, curve_isDeriv 4 _ T, ?_⟩⟩
    rw [curve_end _ _ _ hT]
    funext k
    simp [hodo, c0_dc0_ddc0_dc1_c1.computeFinalVelocityPoint, c0_dc0_ddc0_dc1_c1.computeConstantWaypoints, fill, freeSlots, nth]
    try field_simp
    try ring
  · simp [computeConstantWaypoints] at h
    subst h
    refine ⟨_, by simp [computeFinalVelocityPoint, computeConstantWaypoints]; rfl, fun x =>
      ⟨_, curve_isDeriv 5 _ T, ?_⟩⟩
    rw [curve_end _ _ _ hT]
    funext k
    simp [hodo, c0_dc0_ddc0_ddc1_dc1_c1.computeFinalVelocityPoint, c0_dc0_ddc0_ddc1_dc1_c1.computeConstantWaypoints, fill, freeSlots, nth]
    try field_simp
    try ring

/-- Non-vacuity of C05 (and the set without any end condition, where the final velocity is free). -/
example : ∃ co, computeFinalVelocityPoint 7#32
    { c0 := ![1, 2, 3], dc0 := ![1, 0, 0], ddc0 := ![0, 1, 0], j0 := 0,
      c1 := 0, dc1 := 0, ddc1 := 0, j1 := 0 } 2 = .ok co := by
  obtain ⟨co, h, -⟩ := C05_final_velocity 7#32 (by decide)
    { c0 := ![1, 2, 3], dc0 := ![1, 0, 0], ddc0 := ![0, 1, 0], j0 := 0,
      c1 := 0, dc1 := 0, ddc1 := 0, j1 := 0 } 2 (by norm_num) _ (by
        simp [computeConstantWaypoints]; rfl)
  exact ⟨co, h⟩

end Verif
