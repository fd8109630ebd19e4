import Verif.FlagLemmas
import Verif.SpecTraj

/-!
# C06 — unsupported constraint combinations are rejected

Each query throws exactly on the flag values outside an explicit list. That on the listed values it
uses the formulas of the right set is the content of C01-C05 and C09-C14.
-/

set_option linter.unusedSimpArgs false

namespace Verif

/-- The call raised a C++ exception. -/
def Throws {α : Type} (o : Out α) : Prop := ∃ m, o = .throw m

theorem not_throws_ok {α : Type} (a : α) : ¬ Throws (Out.ok a) := by rintro ⟨m, h⟩; cases h

theorem throws_throw {α : Type} (m : String) : Throws (Out.throw m : Out α) := ⟨m, rfl⟩

theorem not_throws_assert {α : Type} : ¬ Throws (Out.assertFail : Out α) := by rintro ⟨m, h⟩; cases h

theorem not_throws_withPts {α : Type} (n : ℕ) (pi : List V3) (f : (ℕ → V3) → α) :
    ¬ Throws (withPts n pi f) := by
  rintro ⟨m, h⟩
  unfold withPts at h
  split at h <;> cases h

/-- C06 for `evaluateCurveAtTime`. -/
theorem C06_evaluateCurveAtTime (flag : Flag) (pi : List V3) (t : ℝ) :
    Throws (evaluateCurveAtTime flag pi t) ↔ flag ∉ ([11#32, 19#32, 27#32, 7#32, 15#32, 31#32, 63#32, 255#32] : List Flag) := by
  unfold evaluateCurveAtTime
  simp only [flag_c0_dc0_c1, flag_c0_dc0_dc1, flag_c0_dc0_dc1_c1, flag_c0_dc0_ddc0,
    flag_c0_dc0_ddc0_c1, flag_c0_dc0_ddc0_dc1_c1, flag_c0_dc0_ddc0_ddc1_dc1_c1, flag_j, flag_x3,
    flag_x5]
  repeat' split
  all_goals
    simp_all [not_throws_withPts, throws_throw, not_throws_ok, not_throws_assert]

/-- C06 for `evaluateAccelerationCurveAtTime`. -/
theorem C06_evaluateAccelerationCurveAtTime (flag : Flag) (pi : List V3) (T t : ℝ) :
    Throws (evaluateAccelerationCurveAtTime flag pi T t) ↔ flag ∉ ([11#32, 19#32, 27#32, 7#32, 15#32, 31#32, 63#32, 255#32] : List Flag) := by
  unfold evaluateAccelerationCurveAtTime
  simp only [flag_c0_dc0_c1, flag_c0_dc0_dc1, flag_c0_dc0_dc1_c1, flag_c0_dc0_ddc0,
    flag_c0_dc0_ddc0_c1, flag_c0_dc0_ddc0_dc1_c1, flag_c0_dc0_ddc0_ddc1_dc1_c1, flag_j, flag_x3,
    flag_x5]
  repeat' split
  all_goals
    simp_all [not_throws_withPts, throws_throw, not_throws_ok, not_throws_assert]

/-- C06 for `evaluateCurveWaypointAtTime`. -/
theorem C06_evaluateCurveWaypointAtTime (flag : Flag) (pi : List V3) (t : ℝ) :
    Throws (evaluateCurveWaypointAtTime flag pi t) ↔ flag ∉ ([255#32, 767#32, 2303#32] : List Flag) := by
  unfold evaluateCurveWaypointAtTime
  simp only [flag_c0_dc0_c1, flag_c0_dc0_dc1, flag_c0_dc0_dc1_c1, flag_c0_dc0_ddc0,
    flag_c0_dc0_ddc0_c1, flag_c0_dc0_ddc0_dc1_c1, flag_c0_dc0_ddc0_ddc1_dc1_c1, flag_j, flag_x3,
    flag_x5]
  repeat' split
  all_goals
    simp_all [not_throws_withPts, throws_throw, not_throws_ok, not_throws_assert]

/-- C06 for `evaluateVelocityCurveWaypointAtTime`. -/
theorem C06_evaluateVelocityCurveWaypointAtTime (flag : Flag) (pi : List V3) (T t : ℝ) :
    Throws (evaluateVelocityCurveWaypointAtTime flag pi T t) ↔ flag ∉ ([255#32, 767#32, 2303#32] : List Flag) := by
  unfold evaluateVelocityCurveWaypointAtTime
  simp only [flag_c0_dc0_c1, flag_c0_dc0_dc1, flag_c0_dc0_dc1_c1, flag_c0_dc0_ddc0,
    flag_c0_dc0_ddc0_c1, flag_c0_dc0_ddc0_dc1_c1, flag_c0_dc0_ddc0_ddc1_dc1_c1, flag_j, flag_x3,
    flag_x5]
  repeat' split
  all_goals
    simp_all [not_throws_withPts, throws_throw, not_throws_ok, not_throws_assert]

/-- C06 for `evaluateAccelerationCurveWaypointAtTime`. -/
theorem C06_evaluateAccelerationCurveWaypointAtTime (flag : Flag) (pi : List V3) (T t : ℝ) :
    Throws (evaluateAccelerationCurveWaypointAtTime flag pi T t) ↔ flag ∉ ([255#32, 767#32, 2303#32] : List Flag) := by
  unfold evaluateAccelerationCurveWaypointAtTime
  simp only [flag_c0_dc0_c1, flag_c0_dc0_dc1, flag_c0_dc0_dc1_c1, flag_c0_dc0_ddc0,
    flag_c0_dc0_ddc0_c1, flag_c0_dc0_ddc0_dc1_c1, flag_c0_dc0_ddc0_ddc1_dc1_c1, flag_j, flag_x3,
    flag_x5]
  repeat' split
  all_goals
    simp_all [not_throws_withPts, throws_throw, not_throws_ok, not_throws_assert]

/-- C06 for `evaluateJerkCurveWaypointAtTime`. -/
theorem C06_evaluateJerkCurveWaypointAtTime (flag : Flag) (pi : List V3) (T t : ℝ) :
    Throws (evaluateJerkCurveWaypointAtTime flag pi T t) ↔ flag ∉ ([255#32, 767#32, 2303#32] : List Flag) := by
  unfold evaluateJerkCurveWaypointAtTime
  simp only [flag_c0_dc0_c1, flag_c0_dc0_dc1, flag_c0_dc0_dc1_c1, flag_c0_dc0_ddc0,
    flag_c0_dc0_ddc0_c1, flag_c0_dc0_ddc0_dc1_c1, flag_c0_dc0_ddc0_ddc1_dc1_c1, flag_j, flag_x3,
    flag_x5]
  repeat' split
  all_goals
    simp_all [not_throws_withPts, throws_throw, not_throws_ok, not_throws_assert]

/-- C06 for `computeVelocityWaypoints`. -/
theorem C06_computeVelocityWaypoints (flag : Flag) (d : BC) (T : ℝ) (pi : List V3) :
    Throws (computeVelocityWaypoints flag d T pi) ↔ flag ∉ ([255#32, 767#32, 2303#32] : List Flag) := by
  unfold computeVelocityWaypoints
  simp only [flag_c0_dc0_c1, flag_c0_dc0_dc1, flag_c0_dc0_dc1_c1, flag_c0_dc0_ddc0,
    flag_c0_dc0_ddc0_c1, flag_c0_dc0_ddc0_dc1_c1, flag_c0_dc0_ddc0_ddc1_dc1_c1, flag_j, flag_x3,
    flag_x5]
  repeat' split
  all_goals
    simp_all [not_throws_withPts, throws_throw, not_throws_ok, not_throws_assert]

/-- C06 for `computeAccelerationWaypoints`. -/
theorem C06_computeAccelerationWaypoints (flag : Flag) (d : BC) (T : ℝ) (pi : List V3) :
    Throws (computeAccelerationWaypoints flag d T pi) ↔ flag ∉ ([255#32, 767#32, 2303#32] : List Flag) := by
  unfold computeAccelerationWaypoints
  simp only [flag_c0_dc0_c1, flag_c0_dc0_dc1, flag_c0_dc0_dc1_c1, flag_c0_dc0_ddc0,
    flag_c0_dc0_ddc0_c1, flag_c0_dc0_ddc0_dc1_c1, flag_c0_dc0_ddc0_ddc1_dc1_c1, flag_j, flag_x3,
    flag_x5]
  repeat' split
  all_goals
    simp_all [not_throws_withPts, throws_throw, not_throws_ok, not_throws_assert]

/-- C06 for `computeJerkWaypoints`. -/
theorem C06_computeJerkWaypoints (flag : Flag) (d : BC) (T : ℝ) (pi : List V3) :
    Throws (computeJerkWaypoints flag d T pi) ↔ flag ∉ ([255#32, 767#32, 2303#32] : List Flag) := by
  unfold computeJerkWaypoints
  simp only [flag_c0_dc0_c1, flag_c0_dc0_dc1, flag_c0_dc0_dc1_c1, flag_c0_dc0_ddc0,
    flag_c0_dc0_ddc0_c1, flag_c0_dc0_ddc0_dc1_c1, flag_c0_dc0_ddc0_ddc1_dc1_c1, flag_j, flag_x3,
    flag_x5]
  repeat' split
  all_goals
    simp_all [not_throws_withPts, throws_throw, not_throws_ok, not_throws_assert]

/-- C06 for `computeVelocityCost`. -/
theorem C06_computeVelocityCost (flag : Flag) (d : BC) (T : ℝ) (pi : List V3) :
    Throws (computeVelocityCost flag d T pi) ↔ flag ∉ ([255#32, 767#32, 2303#32] : List Flag) := by
  unfold computeVelocityCost
  simp only [flag_c0_dc0_c1, flag_c0_dc0_dc1, flag_c0_dc0_dc1_c1, flag_c0_dc0_ddc0,
    flag_c0_dc0_ddc0_c1, flag_c0_dc0_ddc0_dc1_c1, flag_c0_dc0_ddc0_ddc1_dc1_c1, flag_j, flag_x3,
    flag_x5]
  repeat' split
  all_goals
    simp_all [not_throws_withPts, throws_throw, not_throws_ok, not_throws_assert]

/-- C06 for `computeConstantWaypoints`; the set `c0_dc0_dc1` (19) additionally throws when the requested
final velocity is not zero. -/
theorem C06_computeConstantWaypoints (flag : Flag) (d : BC) (T : ℝ) :
    Throws (computeConstantWaypoints flag d T) ↔
      flag ∉ ([11#32, 19#32, 27#32, 7#32, 15#32, 31#32, 63#32, 255#32, 767#32, 2303#32] : List Flag) ∨ (flag = 19#32 ∧ d.dc1 ≠ 0) := by
  unfold computeConstantWaypoints
  simp only [flag_c0_dc0_c1, flag_c0_dc0_dc1, flag_c0_dc0_dc1_c1, flag_c0_dc0_ddc0,
    flag_c0_dc0_ddc0_c1, flag_c0_dc0_ddc0_dc1_c1, flag_c0_dc0_ddc0_ddc1_dc1_c1, flag_j, flag_x3,
    flag_x5]
  repeat' split
  all_goals
    simp_all [throws_throw, not_throws_ok]

/-- C06 for `computeFinalVelocityPoint`; the set `c0_dc0_dc1` (19) additionally throws when the requested
final velocity is not zero. -/
theorem C06_computeFinalVelocityPoint (flag : Flag) (d : BC) (T : ℝ) :
    Throws (computeFinalVelocityPoint flag d T) ↔
      flag ∉ ([11#32, 19#32, 27#32, 7#32, 15#32, 31#32, 63#32] : List Flag) ∨ (flag = 19#32 ∧ d.dc1 ≠ 0) := by
  by_cases h19 : flag = 19#32
  · subst h19
    by_cases hd : d.dc1 = 0
    · simp [computeFinalVelocityPoint, computeConstantWaypoints, hd, not_throws_ok]
    · simp [computeFinalVelocityPoint, computeConstantWaypoints, hd, throws_throw]
  · simp [computeFinalVelocityPoint, computeConstantWaypoints, h19]
    repeat' split
    all_goals
      simp_all [throws_throw, not_throws_ok]

/-- C06 for `computeConstantWaypointsSymbolic`; the set `c0_dc0_dc1` (19) additionally throws when the requested
final velocity is not zero. -/
theorem C06_computeConstantWaypointsSymbolic (flag : Flag) (d : BC) (T : ℝ) :
    Throws (computeConstantWaypointsSymbolic flag d T) ↔
      flag ∉ ([11#32, 19#32, 27#32, 7#32, 15#32, 31#32, 63#32, 255#32, 767#32, 2303#32] : List Flag) ∨ (flag = 19#32 ∧ d.dc1 ≠ 0) := by
  rw [← C06_computeConstantWaypoints]
  unfold computeConstantWaypointsSymbolic
  cases computeConstantWaypoints flag d T <;> simp [Throws]

/-- C06 for `computeWwaypoints`; the set `c0_dc0_dc1` (19) additionally throws when the requested
final velocity is not zero. -/
theorem C06_computeWwaypoints (flag : Flag) (c : List ContactData) (d : BC) (T : ℝ) :
    Throws (computeWwaypoints flag c d T) ↔
      flag ∉ ([11#32, 19#32, 27#32, 7#32, 15#32, 31#32, 63#32, 255#32] : List Flag) ∨ (flag = 19#32 ∧ d.dc1 ≠ 0) := by
  have hg : ∀ f : V3 → Out (List Wp6), (∀ g, ¬ Throws (f g)) → ¬ Throws (frontGravity c >>= f) := by
    intro f hf
    unfold frontGravity
    rcases c with _ | ⟨⟨_ | e, _, _, _, _⟩, _⟩
    · simp [Throws]
    · simp [Throws]
    · simpa using hf e.gravity
  have ho : ∀ f : V3 → List Wp6, ¬ Throws (frontGravity c >>= fun g => .ok (f g)) := fun f =>
    hg _ fun g => not_throws_ok _
  by_cases h19 : flag = 19#32
  · subst h19
    by_cases hd : d.dc1 = 0
    · simp [computeWwaypoints, computeConstantWaypoints, hd, ho]
    · simp [computeWwaypoints, computeConstantWaypoints, hd, throws_throw]
  · simp [computeWwaypoints, computeConstantWaypoints, h19]
    repeat' split
    all_goals
      simp_all [throws_throw, not_throws_ok]

/-- Non-vacuity: a combination that is rejected (END_ACC without END_VEL) and one that is not. -/
example : Throws (computeConstantWaypoints (INIT_POS ||| INIT_VEL ||| END_ACC)
    ⟨0, 0, 0, 0, 0, 0, 0, 0⟩ 1) ∧
    ¬ Throws (computeConstantWaypoints (INIT_POS ||| INIT_VEL ||| END_POS)
      ⟨0, 0, 0, 0, 0, 0, 0, 0⟩ 1) := by
  rw [C06_computeConstantWaypoints, C06_computeConstantWaypoints]
  decide

end Verif
