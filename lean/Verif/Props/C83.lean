import Verif.Props.C09

/-!
# C83: points read by the queries
-/

namespace Verif

/-! ## Specification -/

/-- The vector holds every control point of the curve that is not free. -/
def HoldsConstants (flag : BitVec 32) (pts : List V3) : Prop :=
  ∀ i ≤ degreeOf flag, i ∉ freeSlots flag → i < pts.length

/-- The call returns when `P` holds and reads out of range otherwise. -/
def DefinedIff {α : Type} (P : Prop) (r : Out α) : Prop := (P → ∃ a, r = .ok a) ∧ (¬ P → r = .ub)

/-! ## Proof -/

theorem holds_iff {flag : Flag} {n : ℕ} (pts : List V3) (h1 : ∀ i ≤ degreeOf flag, i ∉ freeSlots flag → i < n)
    (h2 : n - 1 ≤ degreeOf flag) (h3 : n - 1 ∉ freeSlots flag) (h0 : 0 < n) : HoldsConstants flag pts ↔ n ≤ pts.length := by
  constructor
  · intro h
    have := h _ h2 h3
    omega
  · intro h i hi hf
    exact (h1 i hi hf).trans_le h

theorem definedIff_withPts {α : Type} {P : Prop} {n : ℕ} {pts : List V3} (f : (ℕ → V3) → α) (h : P ↔ n ≤ pts.length) :
    DefinedIff P (withPts n pts f) := by
  unfold DefinedIff withPts
  rw [h]
  refine ⟨fun h => ⟨_, if_neg (not_lt.mpr h)⟩, fun h => if_pos (not_le.mp h)⟩

/-- C83. `evaluateCurveAtTime` and `evaluateAccelerationCurveAtTime` return for every vector that holds the constant control
points of the curve, whatever it holds in the place of the free ones, and read out of range for every other one. -/
theorem C83_com (flag : Flag) (hf : flag ∈ 255#32 :: comFlags) (pts : List V3) (T t : ℝ) :
    DefinedIff (HoldsConstants flag pts) (evaluateCurveAtTime flag pts t) ∧
    DefinedIff (HoldsConstants flag pts) (evaluateAccelerationCurveAtTime flag pts T t) := by
  simp only [comFlags, List.mem_cons, List.not_mem_nil, or_false] at hf
  rcases hf with rfl | rfl | rfl | rfl | rfl | rfl | rfl | rfl
  all_goals
    simp [evaluateCurveAtTime, evaluateAccelerationCurveAtTime]
    exact ⟨definedIff_withPts _ (holds_iff pts (by decide) (by decide) (by decide) (by decide)),
      definedIff_withPts _ (holds_iff pts (by decide) (by decide) (by decide) (by decide))⟩

/-- C83, for the waypoints of the end effector with one and three free points; with five for the position. -/
theorem C83_effector (flag : Flag) (hf : flag ∈ effFlags) (pts : List V3) (T t : ℝ) :
    DefinedIff (HoldsConstants flag pts) (evaluateCurveWaypointAtTime flag pts t) ∧
    (flag ≠ 2303#32 →
      DefinedIff (HoldsConstants flag pts) (evaluateVelocityCurveWaypointAtTime flag pts T t) ∧
      DefinedIff (HoldsConstants flag pts) (evaluateAccelerationCurveWaypointAtTime flag pts T t) ∧
      DefinedIff (HoldsConstants flag pts) (evaluateJerkCurveWaypointAtTime flag pts T t)) := by
  simp only [effFlags, List.mem_cons, List.not_mem_nil, or_false] at hf
  rcases hf with rfl | rfl | rfl
  all_goals
    simp [evaluateCurveWaypointAtTime, evaluateVelocityCurveWaypointAtTime, evaluateAccelerationCurveWaypointAtTime,
      evaluateJerkCurveWaypointAtTime]
  · exact ⟨definedIff_withPts _ (holds_iff pts (by decide) (by decide) (by decide) (by decide)),
      definedIff_withPts _ (holds_iff pts (by decide) (by decide) (by decide) (by decide)),
      definedIff_withPts _ (holds_iff pts (by decide) (by decide) (by decide) (by decide)),
      definedIff_withPts _ (holds_iff pts (by decide) (by decide) (by decide) (by decide))⟩
  · exact ⟨definedIff_withPts _ (holds_iff pts (by decide) (by decide) (by decide) (by decide)),
      definedIff_withPts _ (holds_iff pts (by decide) (by decide) (by decide) (by decide)),
      definedIff_withPts _ (holds_iff pts (by decide) (by decide) (by decide) (by decide)),
      definedIff_withPts _ (holds_iff pts (by decide) (by decide) (by decide) (by decide))⟩
  · exact definedIff_withPts _ (holds_iff pts (by decide) (by decide) (by decide) (by decide))

/-- C83, refuted for the derivatives with five free points: they return although the last two constant points are missing. -/
theorem C83_refuted : ∃ pts : List V3, ¬ HoldsConstants 2303#32 pts ∧ ∀ T t,
    (∃ w, evaluateVelocityCurveWaypointAtTime 2303#32 pts T t = .ok w) ∧
    (∃ w, evaluateAccelerationCurveWaypointAtTime 2303#32 pts T t = .ok w) ∧
    ∃ w, evaluateJerkCurveWaypointAtTime 2303#32 pts T t = .ok w := by
  refine ⟨List.replicate 11 0, fun h => ?_, fun T t => ?_⟩
  · have := h 12 (by decide) (by decide)
    simp at this
  · simp [evaluateVelocityCurveWaypointAtTime, evaluateAccelerationCurveWaypointAtTime, evaluateJerkCurveWaypointAtTime, withPts]

/-- C83. The answers of `evaluateCurveAtTime` and `evaluateAccelerationCurveAtTime` depend on the constant points only. -/
theorem C83_com_independent (flag : Flag) (hf : flag ∈ 255#32 :: comFlags) (p q : List V3) (hl : p.length = q.length)
    (h : ∀ i, i ∉ freeSlots flag → nth p i = nth q i) (T t : ℝ) :
    evaluateCurveAtTime flag p t = evaluateCurveAtTime flag q t ∧
    evaluateAccelerationCurveAtTime flag p T t = evaluateAccelerationCurveAtTime flag q T t := by
  simp only [comFlags, List.mem_cons, List.not_mem_nil, or_false] at hf
  rcases hf with rfl | rfl | rfl | rfl | rfl | rfl | rfl | rfl
  · constructor
    · simp [evaluateCurveAtTime, withPts, hl, c0_dc0_ddc0_j0_j1_ddc1_dc1_c1.evaluateCurveAtTime, h 0 (by decide), h 1 (by decide), h 2 (by decide), h 3 (by decide), h 5 (by decide), h 6 (by decide), h 7 (by decide), h 8 (by decide)]
    · simp [evaluateAccelerationCurveAtTime, withPts, hl, c0_dc0_ddc0_j0_j1_ddc1_dc1_c1.evaluateAccelerationCurveAtTime, h 0 (by decide), h 1 (by decide), h 2 (by decide), h 3 (by decide), h 5 (by decide), h 6 (by decide), h 7 (by decide), h 8 (by decide)]
  · constructor
    · simp [evaluateCurveAtTime, withPts, hl, c0_dc0_c1.evaluateCurveAtTime, h 0 (by decide), h 1 (by decide), h 3 (by decide)]
    · simp [evaluateAccelerationCurveAtTime, withPts, hl, c0_dc0_c1.evaluateAccelerationCurveAtTime, h 0 (by decide), h 1 (by decide), h 3 (by decide)]
  · constructor
    · simp [evaluateCurveAtTime, withPts, hl, c0_dc0_dc1.evaluateCurveAtTime, h 0 (by decide), h 1 (by decide)]
    · simp [evaluateAccelerationCurveAtTime, withPts, hl, c0_dc0_dc1.evaluateAccelerationCurveAtTime, h 0 (by decide), h 1 (by decide)]
  · constructor
    · simp [evaluateCurveAtTime, withPts, hl, c0_dc0_dc1_c1.evaluateCurveAtTime, h 0 (by decide), h 1 (by decide), h 3 (by decide), h 4 (by decide)]
    · simp [evaluateAccelerationCurveAtTime, withPts, hl, c0_dc0_dc1_c1.evaluateAccelerationCurveAtTime, h 0 (by decide), h 1 (by decide), h 3 (by decide), h 4 (by decide)]
  · constructor
    · simp [evaluateCurveAtTime, withPts, hl, c0_dc0_ddc0.evaluateCurveAtTime, h 0 (by decide), h 1 (by decide), h 2 (by decide)]
    · simp [evaluateAccelerationCurveAtTime, withPts, hl, c0_dc0_ddc0.evaluateAccelerationCurveAtTime, h 0 (by decide), h 1 (by decide), h 2 (by decide)]
  · constructor
    · simp [evaluateCurveAtTime, withPts, hl, c0_dc0_ddc0_c1.evaluateCurveAtTime, h 0 (by decide), h 1 (by decide), h 2 (by decide), h 4 (by decide)]
    · simp [evaluateAccelerationCurveAtTime, withPts, hl, c0_dc0_ddc0_c1.evaluateAccelerationCurveAtTime, h 0 (by decide), h 1 (by decide), h 2 (by decide), h 4 (by decide)]
  · constructor
    · simp [evaluateCurveAtTime, withPts, hl, c0_dc0_ddc0_dc1_c1.evaluateCurveAtTime, h 0 (by decide), h 1 (by decide), h 2 (by decide), h 4 (by decide), h 5 (by decide)]
    · simp [evaluateAccelerationCurveAtTime, withPts, hl, c0_dc0_ddc0_dc1_c1.evaluateAccelerationCurveAtTime, h 0 (by decide), h 1 (by decide), h 2 (by decide), h 4 (by decide), h 5 (by decide)]
  · constructor
    · simp [evaluateCurveAtTime, withPts, hl, c0_dc0_ddc0_ddc1_dc1_c1.evaluateCurveAtTime, h 0 (by decide), h 1 (by decide), h 2 (by decide), h 4 (by decide), h 5 (by decide), h 6 (by decide)]
    · simp [evaluateAccelerationCurveAtTime, withPts, hl, c0_dc0_ddc0_ddc1_dc1_c1.evaluateAccelerationCurveAtTime, h 0 (by decide), h 1 (by decide), h 2 (by decide), h 4 (by decide), h 5 (by decide), h 6 (by decide)]

/-- C83. The same for the end effector, but for the derivatives with five free points. -/
theorem C83_effector_independent (flag : Flag) (hf : flag ∈ effFlags) (p q : List V3) (hl : p.length = q.length)
    (h : ∀ i, i ∉ freeSlots flag → nth p i = nth q i) (T t : ℝ) :
    evaluateCurveWaypointAtTime flag p t = evaluateCurveWaypointAtTime flag q t ∧
    (flag ≠ 2303#32 →
      evaluateVelocityCurveWaypointAtTime flag p T t = evaluateVelocityCurveWaypointAtTime flag q T t ∧
      evaluateAccelerationCurveWaypointAtTime flag p T t = evaluateAccelerationCurveWaypointAtTime flag q T t ∧
      evaluateJerkCurveWaypointAtTime flag p T t = evaluateJerkCurveWaypointAtTime flag q T t) := by
  simp only [effFlags, List.mem_cons, List.not_mem_nil, or_false] at hf
  rcases hf with rfl | rfl | rfl
  · refine ⟨by simp [evaluateCurveWaypointAtTime, withPts, hl, c0_dc0_ddc0_j0_j1_ddc1_dc1_c1.evaluateCurveWaypointAtTime, c0_dc0_ddc0_j0_j1_ddc1_dc1_c1.evaluateCurveAtTime, h 0 (by decide), h 1 (by decide), h 2 (by decide), h 3 (by decide), h 5 (by decide), h 6 (by decide), h 7 (by decide), h 8 (by decide)], fun _ => ⟨?_, ?_, ?_⟩⟩
    · simp [evaluateVelocityCurveWaypointAtTime, withPts, hl, c0_dc0_ddc0_j0_j1_ddc1_dc1_c1.evaluateVelocityCurveWaypointAtTime, c0_dc0_ddc0_j0_j1_ddc1_dc1_c1.evaluateVelocityCurveAtTime, h 0 (by decide), h 1 (by decide), h 2 (by decide), h 3 (by decide), h 5 (by decide), h 6 (by decide), h 7 (by decide), h 8 (by decide)]
    · simp [evaluateAccelerationCurveWaypointAtTime, withPts, hl, c0_dc0_ddc0_j0_j1_ddc1_dc1_c1.evaluateAccelerationCurveWaypointAtTime, c0_dc0_ddc0_j0_j1_ddc1_dc1_c1.evaluateAccelerationCurveAtTime, h 0 (by decide), h 1 (by decide), h 2 (by decide), h 3 (by decide), h 5 (by decide), h 6 (by decide), h 7 (by decide), h 8 (by decide)]
    · simp [evaluateJerkCurveWaypointAtTime, withPts, hl, c0_dc0_ddc0_j0_j1_ddc1_dc1_c1.evaluateJerkCurveWaypointAtTime, c0_dc0_ddc0_j0_j1_ddc1_dc1_c1.evaluateJerkCurveAtTime, h 0 (by decide), h 1 (by decide), h 2 (by decide), h 3 (by decide), h 5 (by decide), h 6 (by decide), h 7 (by decide), h 8 (by decide)]
  · refine ⟨by simp [evaluateCurveWaypointAtTime, withPts, hl, c0_dc0_ddc0_j0_x3_j1_ddc1_dc1_c1.evaluateCurveWaypointAtTime, h 0 (by decide), h 1 (by decide), h 2 (by decide), h 3 (by decide), h 7 (by decide), h 8 (by decide), h 9 (by decide), h 10 (by decide)], fun _ => ⟨?_, ?_, ?_⟩⟩
    · simp [evaluateVelocityCurveWaypointAtTime, withPts, hl, c0_dc0_ddc0_j0_x3_j1_ddc1_dc1_c1.evaluateVelocityCurveWaypointAtTime, h 0 (by decide), h 1 (by decide), h 2 (by decide), h 3 (by decide), h 7 (by decide), h 8 (by decide), h 9 (by decide), h 10 (by decide)]
    · simp [evaluateAccelerationCurveWaypointAtTime, withPts, hl, c0_dc0_ddc0_j0_x3_j1_ddc1_dc1_c1.evaluateAccelerationCurveWaypointAtTime, h 0 (by decide), h 1 (by decide), h 2 (by decide), h 3 (by decide), h 7 (by decide), h 8 (by decide), h 9 (by decide), h 10 (by decide)]
    · simp [evaluateJerkCurveWaypointAtTime, withPts, hl, c0_dc0_ddc0_j0_x3_j1_ddc1_dc1_c1.evaluateJerkCurveWaypointAtTime, h 0 (by decide), h 1 (by decide), h 2 (by decide), h 3 (by decide), h 7 (by decide), h 8 (by decide), h 9 (by decide), h 10 (by decide)]
  · refine ⟨by simp [evaluateCurveWaypointAtTime, withPts, hl, c0_dc0_ddc0_j0_x5_j1_ddc1_dc1_c1.evaluateCurveWaypointAtTime, h 0 (by decide), h 1 (by decide), h 2 (by decide), h 3 (by decide), h 9 (by decide), h 10 (by decide), h 11 (by decide), h 12 (by decide)], fun h => absurd rfl h⟩

end Verif
