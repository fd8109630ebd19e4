import Verif.WpProofs
import Verif.FlagLemmas

/-!
# C09 - C13 — the three end-effector (jerk) constraint sets
-/

set_option linter.unusedSimpArgs false

namespace Verif

/-- The end-effector sets with one, three and five free points. -/
def effFlags : List Flag := [255#32, 767#32, 2303#32]

/-- C09. For the three end-effector sets and any free points `X`, the curve built on the constant
waypoints meets all eight boundary conditions (position, velocity, acceleration and jerk at both
ends). -/
theorem C09_boundary_conditions (flag : Flag) (hf : flag ∈ effFlags) (d : BC) (T : ℝ) (hT : T ≠ 0)
    (X : ℕ → V3) :
    ∃ pts, computeConstantWaypoints flag d T = .ok pts ∧ pts.length = degreeOf flag + 1 ∧
      MeetsBoundary flag d (curve (degreeOf flag) (fillMany flag (nth pts) X) T) T := by
  simp only [effFlags, List.mem_cons, List.not_mem_nil, or_false] at hf
  rcases hf with rfl | rfl | rfl
  · refine ⟨_, by simp [computeConstantWaypoints]; rfl,
      by simp [degreeOf, c0_dc0_ddc0_j0_j1_ddc1_dc1_c1.computeConstantWaypoints], ?_⟩
    apply meets_of_points 5 _ _ hT <;> intro h <;> clear h <;> ext k <;>
      simp [hodo, fillMany, freeSlots, nth, c0_dc0_ddc0_j0_j1_ddc1_dc1_c1.computeConstantWaypoints]
    all_goals field_simp; try ring
  · refine ⟨_, by simp [computeConstantWaypoints]; rfl,
      by simp [degreeOf, c0_dc0_ddc0_j0_x3_j1_ddc1_dc1_c1.computeConstantWaypoints], ?_⟩
    apply meets_of_points 7 _ _ hT <;> intro h <;> clear h <;> ext k <;>
      simp [hodo, fillMany, freeSlots, nth, c0_dc0_ddc0_j0_x3_j1_ddc1_dc1_c1.computeConstantWaypoints]
    all_goals field_simp; try ring
  · refine ⟨_, by simp [computeConstantWaypoints]; rfl,
      by simp [degreeOf, c0_dc0_ddc0_j0_x5_j1_ddc1_dc1_c1.computeConstantWaypoints], ?_⟩
    apply meets_of_points 9 _ _ hT <;> intro h <;> clear h <;> ext k <;>
      simp [hodo, fillMany, freeSlots, nth, c0_dc0_ddc0_j0_x5_j1_ddc1_dc1_c1.computeConstantWaypoints]
    all_goals field_simp; try ring

/-- All eight bits are set in the three flags, so C09 is about eight conditions. -/
example : ∀ f ∈ effFlags, f &&& 0xff#32 = 0xff#32 := by
  simp [effFlags]

/-- C10, the sets with three and five free points: `evaluateCurveWaypointAtTime` gives the curve
point as an affine function of the free points. Missing for the full statement: the set with one
free point, see `C10_j0_j1_error` and `C10_refuted`. -/
theorem C10_position_partial (flag : Flag) (hf : flag ∈ ([767#32, 2303#32] : List Flag))
    (pi : List V3) (hl : pi.length = degreeOf flag + 1) (t : ℝ) :
    ∃ w, evaluateCurveWaypointAtTime flag pi t = .ok w ∧ ∀ X,
      w.2.at X = bez (degreeOf flag) (fillMany flag (nth pi) X) t := by
  simp only [List.mem_cons, List.not_mem_nil, or_false] at hf
  rcases hf with rfl | rfl <;> simp [degreeOf] at hl
  · refine ⟨_, by simp [evaluateCurveWaypointAtTime, withPts, hl]; rfl, fun X => ?_⟩
    funext k
    simp only [degreeOf]
    simp [WpB.at, Fin.sum_univ_three, bez_apply, bezS10, c0_dc0_ddc0_j0_x3_j1_ddc1_dc1_c1.evaluateCurveWaypointAtTime, fillMany,
      freeSlots, Fin.val]
    ring
  · refine ⟨_, by simp [evaluateCurveWaypointAtTime, withPts, hl]; rfl, fun X => ?_⟩
    funext k
    simp only [degreeOf]
    simp [WpB.at, Fin.sum_univ_five, bez_apply, bezS12, c0_dc0_ddc0_j0_x5_j1_ddc1_dc1_c1.evaluateCurveWaypointAtTime, fillMany,
      freeSlots, Fin.val]
    ring

/-- The exact answer of `evaluateCurveWaypointAtTime` for the set with one free point: the curve point plus
`(1-t)^8 (pi[8] - pi[0])`. -/
theorem C10_j0_j1_error (pi : List V3) (hl : pi.length = 9) (t : ℝ) :
    ∃ w, evaluateCurveWaypointAtTime 255#32 pi t = .ok w ∧ ∀ X,
      w.2.at X = bez 8 (fillMany 255#32 (nth pi) X) t + (1 - t) ^ 8 • (nth pi 8 - nth pi 0) := by
  refine ⟨_, by simp [evaluateCurveWaypointAtTime, withPts, hl]; rfl, fun X => ?_⟩
  funext k
  simp [WpB.at, bez_apply, bezS8, c0_dc0_ddc0_j0_j1_ddc1_dc1_c1.evaluateCurveWaypointAtTime,
    c0_dc0_ddc0_j0_j1_ddc1_dc1_c1.evaluateCurveAtTime, fillMany, freeSlots]
  ring

/-- C10 fails for the set with one free point: the start of a curve from 0 to (1,0,0) is reported at
(1,0,0). -/
theorem C10_refuted : ∃ (pi : List V3) (w : WpS) (X : ℕ → V3), pi.length = 9 ∧
    evaluateCurveWaypointAtTime 255#32 pi 0 = .ok w ∧
    w.2.at X ≠ bez 8 (fillMany 255#32 (nth pi) X) 0 := by
  obtain ⟨w, hw, h⟩ := C10_j0_j1_error [0, 0, 0, 0, 0, 0, 0, 0, ![1, 0, 0]] rfl 0
  refine ⟨_, w, 0, rfl, hw, ?_⟩
  rw [h 0]
  intro h2
  have := congrFun h2 0
  simp [nth] at this

/-- C13, the sets with one and three free points: `evaluateJerkCurveWaypointAtTime` gives the third
time derivative. Missing: the set with five free points, see `C13_refuted`. -/
theorem C13_jerk_partial (flag : Flag) (hf : flag ∈ ([255#32, 767#32] : List Flag))
    (pi : List V3) (hl : pi.length = degreeOf flag + 1) (T : ℝ) (hT : T ≠ 0) (X : ℕ → V3) :
    let c := curve (degreeOf flag) (fillMany flag (nth pi) X) T
    ∃ v a j, IsDeriv c v ∧ IsDeriv v a ∧ IsDeriv a j ∧ ∀ t,
      ∃ w, evaluateJerkCurveWaypointAtTime flag pi T t = .ok w ∧ w.2.at X = j (t * T) := by
  simp only [List.mem_cons, List.not_mem_nil, or_false] at hf
  rcases hf with rfl | rfl <;> simp [degreeOf] at hl
  · refine ⟨_, _, _, curve_isDeriv 7 _ T, curve_isDeriv 6 _ T, curve_isDeriv 5 _ T,
      fun t => ⟨_, by simp [evaluateJerkCurveWaypointAtTime, withPts, hl]; rfl, ?_⟩⟩
    funext k
    rw [curve, mul_div_cancel_right₀ _ hT]
    simp [WpB.at, Fin.sum_univ_one, bez_apply, bezS5, hodo,
      c0_dc0_ddc0_j0_j1_ddc1_dc1_c1.evaluateJerkCurveWaypointAtTime, c0_dc0_ddc0_j0_j1_ddc1_dc1_c1.evaluateJerkCurveAtTime, fillMany, freeSlots, Fin.val]
    field_simp
    try ring
  · refine ⟨_, _, _, curve_isDeriv 9 _ T, curve_isDeriv 8 _ T, curve_isDeriv 7 _ T,
      fun t => ⟨_, by simp [evaluateJerkCurveWaypointAtTime, withPts, hl]; rfl, ?_⟩⟩
    funext k
    rw [curve, mul_div_cancel_right₀ _ hT]
    simp [WpB.at, Fin.sum_univ_three, bez_apply, bezS7, hodo,
      c0_dc0_ddc0_j0_x3_j1_ddc1_dc1_c1.evaluateJerkCurveWaypointAtTime, fillMany, freeSlots, Fin.val]
    field_simp
    try ring

/-- C11, the sets with one and three free points: the way the answer of `evaluateVelocityCurveWaypointAtTime`
depends on the free points is that of the velocity; `C11_refuted` shows that the constant part
is wrong. Missing: the constant part, and the set with five free points. -/
theorem C11_velocity_partial (flag : Flag) (hf : flag ∈ ([255#32, 767#32] : List Flag))
    (pi : List V3) (hl : pi.length = degreeOf flag + 1) (T : ℝ) (hT : T ≠ 0) (t : ℝ) :
    ∃ w, evaluateVelocityCurveWaypointAtTime flag pi T t = .ok w ∧ ∀ X Y : ℕ → V3,
    ∃ v a v' a', IsDeriv (curve (degreeOf flag) (fillMany flag (nth pi) X) T) v ∧ IsDeriv v a ∧
      IsDeriv (curve (degreeOf flag) (fillMany flag (nth pi) Y) T) v' ∧ IsDeriv v' a' ∧
      w.2.at X - w.2.at Y = v (t * T) - v' (t * T) := by
  simp only [List.mem_cons, List.not_mem_nil, or_false] at hf
  rcases hf with rfl | rfl <;> simp [degreeOf] at hl
  · refine ⟨_, by simp [evaluateVelocityCurveWaypointAtTime, withPts, hl]; rfl, fun X Y => ⟨_, _, _, _,
      curve_isDeriv 7 _ T, curve_isDeriv 6 _ T, curve_isDeriv 7 _ T, curve_isDeriv 6 _ T, ?_⟩⟩
    funext k
    rw [curve, curve, mul_div_cancel_right₀ _ hT]
    simp [WpB.at, Fin.sum_univ_one, bez_apply, bezS7, hodo,
      c0_dc0_ddc0_j0_j1_ddc1_dc1_c1.evaluateVelocityCurveWaypointAtTime, c0_dc0_ddc0_j0_j1_ddc1_dc1_c1.evaluateVelocityCurveAtTime, fillMany, freeSlots, Fin.val]
    field_simp
    try ring
  · refine ⟨_, by simp [evaluateVelocityCurveWaypointAtTime, withPts, hl]; rfl, fun X Y => ⟨_, _, _, _,
      curve_isDeriv 9 _ T, curve_isDeriv 8 _ T, curve_isDeriv 9 _ T, curve_isDeriv 8 _ T, ?_⟩⟩
    funext k
    rw [curve, curve, mul_div_cancel_right₀ _ hT]
    simp [WpB.at, Fin.sum_univ_three, bez_apply, bezS9, hodo,
      c0_dc0_ddc0_j0_x3_j1_ddc1_dc1_c1.evaluateVelocityCurveWaypointAtTime, fillMany, freeSlots, Fin.val]
    field_simp
    try ring

/-- The exact answer for the set with one free point: the velocity plus a multiple of
`pi[8] - pi[0]` (so it is right for closed paths only). -/
theorem C11_j0_j1_error (pi : List V3) (hl : pi.length = 9) (T : ℝ) (hT : T ≠ 0) (X : ℕ → V3) :
    let c := curve 8 (fillMany 255#32 (nth pi) X) T
    ∃ v, IsDeriv c v ∧ ∀ t,
      ∃ w, evaluateVelocityCurveWaypointAtTime 255#32 pi T t = .ok w ∧
        w.2.at X = v (t * T) + (-8 / T * (1 - t) ^ 7) • (nth pi 8 - nth pi 0) := by
  refine ⟨_, curve_isDeriv 7 _ T,
    fun t => ⟨_, by simp [evaluateVelocityCurveWaypointAtTime, withPts, hl]; rfl, ?_⟩⟩
  funext k
  rw [curve, mul_div_cancel_right₀ _ hT]
  simp [WpB.at, bez_apply, bezS7, hodo,
    c0_dc0_ddc0_j0_j1_ddc1_dc1_c1.evaluateVelocityCurveWaypointAtTime, c0_dc0_ddc0_j0_j1_ddc1_dc1_c1.evaluateVelocityCurveAtTime, fillMany, freeSlots]
  field_simp
  try ring

/-- C12, the sets with one and three free points: the way the answer of `evaluateAccelerationCurveWaypointAtTime`
depends on the free points is that of the acceleration; `C12_refuted` shows that the constant part
is wrong. Missing: the constant part, and the set with five free points. -/
theorem C12_acceleration_partial (flag : Flag) (hf : flag ∈ ([255#32, 767#32] : List Flag))
    (pi : List V3) (hl : pi.length = degreeOf flag + 1) (T : ℝ) (hT : T ≠ 0) (t : ℝ) :
    ∃ w, evaluateAccelerationCurveWaypointAtTime flag pi T t = .ok w ∧ ∀ X Y : ℕ → V3,
    ∃ v a v' a', IsDeriv (curve (degreeOf flag) (fillMany flag (nth pi) X) T) v ∧ IsDeriv v a ∧
      IsDeriv (curve (degreeOf flag) (fillMany flag (nth pi) Y) T) v' ∧ IsDeriv v' a' ∧
      w.2.at X - w.2.at Y = a (t * T) - a' (t * T) := by
  simp only [List.mem_cons, List.not_mem_nil, or_false] at hf
  rcases hf with rfl | rfl <;> simp [degreeOf] at hl
  · refine ⟨_, by simp [evaluateAccelerationCurveWaypointAtTime, withPts, hl]; rfl, fun X Y => ⟨_, _, _, _,
      curve_isDeriv 7 _ T, curve_isDeriv 6 _ T, curve_isDeriv 7 _ T, curve_isDeriv 6 _ T, ?_⟩⟩
    funext k
    rw [curve, curve, mul_div_cancel_right₀ _ hT]
    simp [WpB.at, Fin.sum_univ_one, bez_apply, bezS6, hodo,
      c0_dc0_ddc0_j0_j1_ddc1_dc1_c1.evaluateAccelerationCurveWaypointAtTime, c0_dc0_ddc0_j0_j1_ddc1_dc1_c1.evaluateAccelerationCurveAtTime, fillMany, freeSlots, Fin.val]
    field_simp
    try ring
  · refine ⟨_, by simp [evaluateAccelerationCurveWaypointAtTime, withPts, hl]; rfl, fun X Y => ⟨_, _, _, _,
      curve_isDeriv 9 _ T, curve_isDeriv 8 _ T, curve_isDeriv 9 _ T, curve_isDeriv 8 _ T, ?_⟩⟩
    funext k
    rw [curve, curve, mul_div_cancel_right₀ _ hT]
    simp [WpB.at, Fin.sum_univ_three, bez_apply, bezS8, hodo,
      c0_dc0_ddc0_j0_x3_j1_ddc1_dc1_c1.evaluateAccelerationCurveWaypointAtTime, fillMany, freeSlots, Fin.val]
    field_simp
    try ring

/-- The exact answer for the set with one free point: the acceleration plus a multiple of
`pi[8] - pi[0]` (so it is right for closed paths only). -/
theorem C12_j0_j1_error (pi : List V3) (hl : pi.length = 9) (T : ℝ) (hT : T ≠ 0) (X : ℕ → V3) :
    let c := curve 8 (fillMany 255#32 (nth pi) X) T
    ∃ v a, IsDeriv c v ∧ IsDeriv v a ∧ ∀ t,
      ∃ w, evaluateAccelerationCurveWaypointAtTime 255#32 pi T t = .ok w ∧
        w.2.at X = a (t * T) + (56 / T ^ 2 * (1 - t) ^ 6) • (nth pi 8 - nth pi 0) := by
  refine ⟨_, _, curve_isDeriv 7 _ T, curve_isDeriv 6 _ T,
    fun t => ⟨_, by simp [evaluateAccelerationCurveWaypointAtTime, withPts, hl]; rfl, ?_⟩⟩
  funext k
  rw [curve, mul_div_cancel_right₀ _ hT]
  simp [WpB.at, bez_apply, bezS6, hodo,
    c0_dc0_ddc0_j0_j1_ddc1_dc1_c1.evaluateAccelerationCurveWaypointAtTime, c0_dc0_ddc0_j0_j1_ddc1_dc1_c1.evaluateAccelerationCurveAtTime, fillMany, freeSlots]
  field_simp
  try ring

/-- C11 fails for each of the three sets: there are control points, free points and an instant where
the answer is not the velocity. -/
theorem C11_refuted (flag : Flag) (hf : flag ∈ effFlags) :
    ∃ (pi : List V3) (X : ℕ → V3) (t : ℝ) (w : WpS), pi.length = degreeOf flag + 1 ∧
      evaluateVelocityCurveWaypointAtTime flag pi 1 t = .ok w ∧
      let c := curve (degreeOf flag) (fillMany flag (nth pi) X) 1
      ∃ v : ℝ → V3, IsDeriv c v ∧ w.2.at X ≠ v t := by
  simp only [effFlags, List.mem_cons, List.not_mem_nil, or_false] at hf
  rcases hf with rfl | rfl | rfl
  · refine ⟨[0, 0, 0, 0, 0, 0, 0, 0, ![1, 0, 0]], 0, 0, _, rfl,
      by simp [evaluateVelocityCurveWaypointAtTime, withPts]; rfl, _, curve_isDeriv 7 _ 1, ?_⟩
    intro h
    have h0 := congrFun h 0
    simp [WpB.at, Fin.sum_univ_one, curve, bez_apply, bezS7, hodo, nth,
      c0_dc0_ddc0_j0_j1_ddc1_dc1_c1.evaluateVelocityCurveWaypointAtTime, c0_dc0_ddc0_j0_j1_ddc1_dc1_c1.evaluateVelocityCurveAtTime, fillMany, freeSlots, Fin.val] at h0
    try norm_num at h0
  · refine ⟨[0, 0, 0, 0, 0, 0, 0, 0, 0, 0, ![1, 0, 0]], 0, 1 / 2, _, rfl,
      by simp [evaluateVelocityCurveWaypointAtTime, withPts]; rfl, _, curve_isDeriv 9 _ 1, ?_⟩
    intro h
    have h0 := congrFun h 0
    simp [WpB.at, Fin.sum_univ_three, curve, bez_apply, bezS9, hodo, nth,
      c0_dc0_ddc0_j0_x3_j1_ddc1_dc1_c1.evaluateVelocityCurveWaypointAtTime, fillMany, freeSlots, Fin.val] at h0
    try norm_num at h0
  · refine ⟨[0, 0, 0, 0, 0, 0, 0, 0, 0, 0, 0, 0, 0], fun _ => ![1, 0, 0], 0, _, rfl,
      by simp [evaluateVelocityCurveWaypointAtTime, withPts]; rfl, _, curve_isDeriv 11 _ 1, ?_⟩
    intro h
    have h0 := congrFun h 0
    simp [WpB.at, Fin.sum_univ_five, curve, bez_apply, bezS11, hodo, nth,
      c0_dc0_ddc0_j0_x5_j1_ddc1_dc1_c1.evaluateVelocityCurveWaypointAtTime, fillMany, freeSlots, Fin.val] at h0
    try norm_num at h0

/-- C12 fails for each of the three sets: there are control points, free points and an instant where
the answer is not the acceleration. -/
theorem C12_refuted (flag : Flag) (hf : flag ∈ effFlags) :
    ∃ (pi : List V3) (X : ℕ → V3) (t : ℝ) (w : WpS), pi.length = degreeOf flag + 1 ∧
      evaluateAccelerationCurveWaypointAtTime flag pi 1 t = .ok w ∧
      let c := curve (degreeOf flag) (fillMany flag (nth pi) X) 1
      ∃ v a : ℝ → V3, IsDeriv c v ∧ IsDeriv v a ∧ w.2.at X ≠ a t := by
  simp only [effFlags, List.mem_cons, List.not_mem_nil, or_false] at hf
  rcases hf with rfl | rfl | rfl
  · refine ⟨[0, 0, 0, 0, 0, 0, 0, 0, ![1, 0, 0]], 0, 0, _, rfl,
      by simp [evaluateAccelerationCurveWaypointAtTime, withPts]; rfl, _, _, curve_isDeriv 7 _ 1, curve_isDeriv 6 _ 1, ?_⟩
    intro h
    have h0 := congrFun h 0
    simp [WpB.at, Fin.sum_univ_one, curve, bez_apply, bezS6, hodo, nth,
      c0_dc0_ddc0_j0_j1_ddc1_dc1_c1.evaluateAccelerationCurveWaypointAtTime, c0_dc0_ddc0_j0_j1_ddc1_dc1_c1.evaluateAccelerationCurveAtTime, fillMany, freeSlots, Fin.val] at h0
    try norm_num at h0
  · refine ⟨[0, 0, 0, 0, 0, 0, 0, 0, 0, 0, ![1, 0, 0]], 0, 1 / 2, _, rfl,
      by simp [evaluateAccelerationCurveWaypointAtTime, withPts]; rfl, _, _, curve_isDeriv 9 _ 1, curve_isDeriv 8 _ 1, ?_⟩
    intro h
    have h0 := congrFun h 0
    simp [WpB.at, Fin.sum_univ_three, curve, bez_apply, bezS8, hodo, nth,
      c0_dc0_ddc0_j0_x3_j1_ddc1_dc1_c1.evaluateAccelerationCurveWaypointAtTime, fillMany, freeSlots, Fin.val] at h0
    try norm_num at h0
  · refine ⟨[![1, 0, 0], 0, 0, 0, 0, 0, 0, 0, 0, 0, 0, 0, 0], 0, 0, _, rfl,
      by simp [evaluateAccelerationCurveWaypointAtTime, withPts]; rfl, _, _, curve_isDeriv 11 _ 1, curve_isDeriv 10 _ 1, ?_⟩
    intro h
    have h0 := congrFun h 0
    simp [WpB.at, Fin.sum_univ_five, curve, bez_apply, bezS10, hodo, nth,
      c0_dc0_ddc0_j0_x5_j1_ddc1_dc1_c1.evaluateAccelerationCurveWaypointAtTime, fillMany, freeSlots, Fin.val] at h0
    try norm_num at h0

/-- C13 fails for the set with five free points: there are control points, free points and an instant where
the answer is not the jerk. -/
theorem C13_refuted (flag : Flag) (hf : flag ∈ ([2303#32] : List Flag)) :
    ∃ (pi : List V3) (X : ℕ → V3) (t : ℝ) (w : WpS), pi.length = degreeOf flag + 1 ∧
      evaluateJerkCurveWaypointAtTime flag pi 1 t = .ok w ∧
      let c := curve (degreeOf flag) (fillMany flag (nth pi) X) 1
      ∃ v a j : ℝ → V3, IsDeriv c v ∧ IsDeriv v a ∧ IsDeriv a j ∧ w.2.at X ≠ j t := by
  simp only [effFlags, List.mem_cons, List.not_mem_nil, or_false] at hf
  subst hf
  refine ⟨[![1, 0, 0], 0, 0, 0, 0, 0, 0, 0, 0, 0, 0, 0, 0], 0, 0, _, rfl,
    by simp [evaluateJerkCurveWaypointAtTime, withPts]; rfl, _, _, _, curve_isDeriv 11 _ 1, curve_isDeriv 10 _ 1, curve_isDeriv 9 _ 1, ?_⟩
  intro h
  have h0 := congrFun h 0
  simp [WpB.at, Fin.sum_univ_five, curve, bez_apply, bezS9, hodo, nth,
    c0_dc0_ddc0_j0_x5_j1_ddc1_dc1_c1.evaluateJerkCurveWaypointAtTime, fillMany, freeSlots, Fin.val] at h0
  try norm_num at h0

end Verif
