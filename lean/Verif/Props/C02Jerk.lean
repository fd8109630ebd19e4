import Verif.Props.C09
import Verif.Props.C04

/-!
# C02, C03, C04 — the set with jerks

The queries of the CoM planner also answer for the flag 255 (`c0_dc0_ddc0_j0_j1_ddc1_dc1_c1`). Position and
acceleration use the last control point in place of the first; the wrench waypoints are those of another set.
-/

namespace Verif

/-- The exact answer of `evaluateCurveAtTime` for the set with jerks: the curve point plus
`(1-t)^8 (pi[8] - pi[0])`. -/
theorem C02_jerk_error (pi : List V3) (hl : pi.length = 9) (t : ℝ) :
    ∃ co, evaluateCurveAtTime 255#32 pi t = .ok co ∧ ∀ x : V3,
      co.first • x + co.second = bez 8 (fill 255#32 (nth pi) x) t + (1 - t) ^ 8 • (nth pi 8 - nth pi 0) := by
  refine ⟨_, by simp [evaluateCurveAtTime, withPts, hl]; rfl, fun x => ?_⟩
  funext k
  simp [bez_apply, bezS8, c0_dc0_ddc0_j0_j1_ddc1_dc1_c1.evaluateCurveAtTime, fill, freeSlots]
  ring

/-- C02 fails for the set with jerks: the start of a curve from 0 to (1,0,0) is reported at (1,0,0). -/
theorem C02_refuted : ∃ (pi : List V3) (co : Coefs) (x : V3), pi.length = 9 ∧
    evaluateCurveAtTime 255#32 pi 0 = .ok co ∧ co.first • x + co.second ≠ bez 8 (fill 255#32 (nth pi) x) 0 := by
  obtain ⟨w, hw, h⟩ := C02_jerk_error [0, 0, 0, 0, 0, 0, 0, 0, ![1, 0, 0]] rfl 0
  refine ⟨_, w, 0, rfl, hw, ?_⟩
  rw [h 0]
  intro h2
  have := congrFun h2 0
  simp [nth] at this

/-- The exact answer of `evaluateAccelerationCurveAtTime` for the set with jerks: the acceleration plus a multiple
of `pi[8] - pi[0]`. -/
theorem C03_jerk_error (pi : List V3) (hl : pi.length = 9) (T : ℝ) (hT : T ≠ 0) (x : V3) :
    ∃ v a, IsDeriv (curve 8 (fill 255#32 (nth pi) x) T) v ∧ IsDeriv v a ∧ ∀ t,
      ∃ co, evaluateAccelerationCurveAtTime 255#32 pi T t = .ok co ∧
        co.first • x + co.second = a (t * T) + (56 / T ^ 2 * (1 - t) ^ 6) • (nth pi 8 - nth pi 0) := by
  refine ⟨_, _, curve_isDeriv 7 _ T, curve_isDeriv 6 _ T,
    fun t => ⟨_, by simp [evaluateAccelerationCurveAtTime, withPts, hl]; rfl, ?_⟩⟩
  funext k
  rw [curve, mul_div_cancel_right₀ _ hT]
  simp [bez_apply, bezS6, hodo, c0_dc0_ddc0_j0_j1_ddc1_dc1_c1.evaluateAccelerationCurveAtTime, fill, freeSlots]
  field_simp
  try ring

/-- C03 fails for the set with jerks: with control points at 0 except the last one, the acceleration at the start is
reported as 56. -/
theorem C03_refuted : ∃ (pi : List V3) (x : V3) (v a : ℝ → V3) (co : Coefs), pi.length = 9 ∧
    IsDeriv (curve 8 (fill 255#32 (nth pi) x) 1) v ∧ IsDeriv v a ∧
    evaluateAccelerationCurveAtTime 255#32 pi 1 0 = .ok co ∧ co.first • x + co.second ≠ a 0 := by
  obtain ⟨v, a, hv, ha, h⟩ := C03_jerk_error [0, 0, 0, 0, 0, 0, 0, 0, ![1, 0, 0]] rfl 1 one_ne_zero 0
  obtain ⟨co, hco, he⟩ := h 0
  refine ⟨_, 0, v, a, co, rfl, hv, ha, hco, ?_⟩
  rw [he]
  intro h2
  have := congrFun h2 0
  simp [nth] at this

/-- C04 fails for the set with jerks, beyond rounding: with all boundary data zero, free point `(1,0,0)` and `T = 1`,
the curve on the wrench waypoints has an acceleration that is more than ten times too large: at time `1/100` it is above
1, where the acceleration of the motion is below 1/10. -/
theorem C04_jerk_refuted :
    ∃ (d : BC) (x : V3) (pts : List V3) (ws : List Wp6) (v a : ℝ → V3),
      computeConstantWaypoints 255#32 d 1 = .ok pts ∧ computeWwaypoints 255#32 [earth] d 1 = .ok ws ∧
      IsDeriv (curve 8 (fill 255#32 (nth pts) x) 1) v ∧ IsDeriv v a ∧
      1 < headCurve ws x (1 / 100) 0 ∧ a (1 / 100) 0 < 1 / 10 := by
  refine ⟨⟨0, 0, 0, 0, 0, 0, 0, 0⟩, ![1, 0, 0], _, _, _, _, by simp [computeConstantWaypoints]; rfl,
    by simp [computeWwaypoints, computeConstantWaypoints, frontGravity, earth]; rfl,
    curve_isDeriv 7 _ _, curve_isDeriv 6 _ _, ?_, ?_⟩
  · rw [headCurve, bez_apply]
    have hl : (c0_dc0_ddc0_j0_j1_ddc1_dc1_c1.computeWwaypoints (nth
      (c0_dc0_ddc0_j0_j1_ddc1_dc1_c1.computeConstantWaypoints ⟨0, 0, 0, 0, 0, 0, 0, 0⟩ 1)) ![0, 0, -9.81] 1).length - 1 = 9 := rfl
    rw [hl, bezS9]
    simp [c0_dc0_ddc0_j0_j1_ddc1_dc1_c1.computeWwaypoints, Wp6.headAt, Matrix.mulVec,
      dotProduct, Fin.sum_univ_three, nth, c0_dc0_ddc0_j0_j1_ddc1_dc1_c1.computeConstantWaypoints]
    norm_num
  · simp [curve, bez_apply, bezS6, hodo, nth, fill, freeSlots,
      c0_dc0_ddc0_j0_j1_ddc1_dc1_c1.computeConstantWaypoints]
    norm_num

end Verif
