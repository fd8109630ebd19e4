import Verif.Props.C09

/-!
# C84: final velocity in the headers of the sets with jerks
-/

namespace Verif

/-! ## Specification -/

/-- The pair `(a,s)` gives the final velocity of the curve of the set, built on the constant points `p`: with equal free points
`x` it is `a x + s`. -/
def GivesFinalVelocity (flag : BitVec 32) (p : List V3) (T : ℝ) (co : Coefs) : Prop :=
  ∀ (x : V3) (v : ℝ → V3), IsDeriv (curve (degreeOf flag) (fillMany flag (nth p) fun _ => x) T) v →
    ∀ k, co.first * x k + co.second k = v T k

/-! ## Proof -/

theorem final_velocity_jerk (flag : Flag) (hf : flag ∈ effFlags) (d : BC) (T : ℝ) (hT : T ≠ 0) (p : List V3)
    (hp : computeConstantWaypoints flag d T = .ok p) (X : ℕ → V3) (v : ℝ → V3)
    (hv : IsDeriv (curve (degreeOf flag) (fillMany flag (nth p) X) T) v) : v T = d.dc1 := by
  obtain ⟨pts, hpts, -, v', a, j, h1, -, -, -, -, -, -, -, hv1, -⟩ := C09_boundary_conditions flag hf d T hT X
  rw [hp] at hpts
  cases hpts
  rw [← hv1 (by simp only [effFlags, List.mem_cons, List.not_mem_nil, or_false] at hf; rcases hf with rfl | rfl | rfl <;> rfl)]
  exact (hv T).unique (h1 T)

/-- C84. `computeFinalVelocityPoint` of the set with one free point gives `3/4 dc1 - 3/14 T ddc1 + T^2/56 j1`, whereas the
final velocity is `dc1`; it is right exactly when these agree. -/
theorem C84_one (d : BC) (T : ℝ) (hT : T ≠ 0) (p : List V3) (hp : computeConstantWaypoints 255#32 d T = .ok p) :
    GivesFinalVelocity 255#32 p T (c0_dc0_ddc0_j0_j1_ddc1_dc1_c1.computeFinalVelocityPoint d (nth p) T) ↔
      ∀ k, d.dc1 k = 3 / 4 * d.dc1 k - 3 / 14 * T * d.ddc1 k + T ^ 2 / 56 * d.j1 k := by
  have hq := hp
  simp [computeConstantWaypoints] at hq
  have key : ∀ x k, (c0_dc0_ddc0_j0_j1_ddc1_dc1_c1.computeFinalVelocityPoint d (nth p) T).first * x +
      (c0_dc0_ddc0_j0_j1_ddc1_dc1_c1.computeFinalVelocityPoint d (nth p) T).second k =
        3 / 4 * d.dc1 k - 3 / 14 * T * d.ddc1 k + T ^ 2 / 56 * d.j1 k := by
    intro x k
    rw [← hq]
    simp [c0_dc0_ddc0_j0_j1_ddc1_dc1_c1.computeFinalVelocityPoint, c0_dc0_ddc0_j0_j1_ddc1_dc1_c1.computeConstantWaypoints, nth]
    field_simp
    ring
  constructor
  · intro h k
    have hd := curve_isDeriv 7 (fillMany 255#32 (nth p) fun _ => 0) T
    have := h 0 _ hd k
    rw [key, final_velocity_jerk 255#32 (by simp [effFlags]) d T hT p hp _ _ hd] at this
    exact this.symm
  · intro h x v hv k
    rw [key, final_velocity_jerk 255#32 (by simp [effFlags]) d T hT p hp _ _ hv, ← h k]

/-- C84. With three and five free points it always gives zero, and is right exactly when the motion is to stop. -/
theorem C84_more (d : BC) (T : ℝ) (hT : T ≠ 0) (p q : List V3) (hp : computeConstantWaypoints 767#32 d T = .ok p)
    (hq : computeConstantWaypoints 2303#32 d T = .ok q) :
    (GivesFinalVelocity 767#32 p T (c0_dc0_ddc0_j0_x3_j1_ddc1_dc1_c1.computeFinalVelocityPoint d (nth p) T) ↔ d.dc1 = 0) ∧
    (GivesFinalVelocity 2303#32 q T (c0_dc0_ddc0_j0_x5_j1_ddc1_dc1_c1.computeFinalVelocityPoint d (nth q) T) ↔ d.dc1 = 0) := by
  have hp' := hp
  have hq' := hq
  simp [computeConstantWaypoints] at hp' hq'
  have kp : ∀ x k, (c0_dc0_ddc0_j0_x3_j1_ddc1_dc1_c1.computeFinalVelocityPoint d (nth p) T).first * x +
      (c0_dc0_ddc0_j0_x3_j1_ddc1_dc1_c1.computeFinalVelocityPoint d (nth p) T).second k = 0 := by
    intro x k
    rw [← hp']
    simp [c0_dc0_ddc0_j0_x3_j1_ddc1_dc1_c1.computeFinalVelocityPoint, c0_dc0_ddc0_j0_x3_j1_ddc1_dc1_c1.computeConstantWaypoints, nth]
  have kq : ∀ x k, (c0_dc0_ddc0_j0_x5_j1_ddc1_dc1_c1.computeFinalVelocityPoint d (nth q) T).first * x +
      (c0_dc0_ddc0_j0_x5_j1_ddc1_dc1_c1.computeFinalVelocityPoint d (nth q) T).second k = 0 := by
    intro x k
    rw [← hq']
    simp [c0_dc0_ddc0_j0_x5_j1_ddc1_dc1_c1.computeFinalVelocityPoint, c0_dc0_ddc0_j0_x5_j1_ddc1_dc1_c1.computeConstantWaypoints, nth]
  constructor
  · constructor
    · intro h
      have hd := curve_isDeriv 9 (fillMany 767#32 (nth p) fun _ => 0) T
      funext k
      have := h 0 _ hd k
      rw [kp, final_velocity_jerk 767#32 (by simp [effFlags]) d T hT p hp _ _ hd] at this
      exact this.symm
    · intro h x v hv k
      rw [kp, final_velocity_jerk 767#32 (by simp [effFlags]) d T hT p hp _ _ hv, h]
      rfl
  · constructor
    · intro h
      have hd := curve_isDeriv 11 (fillMany 2303#32 (nth q) fun _ => 0) T
      funext k
      have := h 0 _ hd k
      rw [kq, final_velocity_jerk 2303#32 (by simp [effFlags]) d T hT q hq _ _ hd] at this
      exact this.symm
    · intro h x v hv k
      rw [kq, final_velocity_jerk 2303#32 (by simp [effFlags]) d T hT q hq _ _ hv, h]
      rfl

/-- C84 is false: a motion of one second that ends at one metre per second. -/
theorem C84_refuted : ∃ (d : BC) (p : List V3), computeConstantWaypoints 255#32 d 1 = .ok p ∧
    ¬ GivesFinalVelocity 255#32 p 1 (c0_dc0_ddc0_j0_j1_ddc1_dc1_c1.computeFinalVelocityPoint d (nth p) 1) := by
  refine ⟨⟨0, 0, 0, 0, 0, fun _ => 1, 0, 0⟩, _, by simp [computeConstantWaypoints]; rfl, fun h => ?_⟩
  rw [C84_one _ 1 (by norm_num) _ (by simp [computeConstantWaypoints])] at h
  have := h 0
  norm_num at this

end Verif
