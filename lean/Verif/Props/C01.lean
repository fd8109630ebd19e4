import Verif.WpProofs
import Verif.FlagLemmas

/-!
# C01 — boundary conditions of every CoM constraint set
-/

namespace Verif

/-- C01. For each of the seven CoM constraint sets, whatever the free point `x`, the curve over
`[0,T]` built on the waypoints returned by `computeConstantWaypoints` satisfies all the boundary
conditions selected by the flag. -/
theorem C01_boundary_conditions (flag : Flag) (hf : flag ∈ comFlags) (d : BC) (T : ℝ) (hT : T ≠ 0)
    (pts : List V3) (h : computeConstantWaypoints flag d T = .ok pts) (x : V3) :
    pts.length = degreeOf flag + 1 ∧
      MeetsBoundary flag d (curve (degreeOf flag) (fill flag (nth pts) x) T) T := by
  simp only [comFlags, List.mem_cons, List.not_mem_nil, or_false] at hf
  rcases hf with rfl | rfl | rfl | rfl | rfl | rfl | rfl
  · simp [computeConstantWaypoints] at h
    subst h
    refine ⟨by simp [degreeOf, c0_dc0_c1.computeConstantWaypoints], ?_⟩
    apply meets_of_points 0 _ _ hT <;> intro h <;> first | (exfalso; revert h; decide) | skip
    all_goals
      clear h
      ext k
      simp [hodo, fill, freeSlots, nth, c0_dc0_c1.computeConstantWaypoints]
    all_goals field_simp; try ring
  · by_cases hd : d.dc1 = 0 <;> simp [computeConstantWaypoints, hd] at h
    subst h
    refine ⟨by simp [degreeOf, c0_dc0_dc1.computeConstantWaypoints], ?_⟩
    apply meets_of_points 0 _ _ hT <;> intro h <;> first | (exfalso; revert h; decide) | skip
    all_goals
      clear h
      ext k
      simp [hodo, fill, freeSlots, nth, c0_dc0_dc1.computeConstantWaypoints, hd]
    all_goals field_simp; try ring
  · simp [computeConstantWaypoints] at h
    subst h
    refine ⟨by simp [degreeOf, c0_dc0_dc1_c1.computeConstantWaypoints], ?_⟩
    apply meets_of_points 1 _ _ hT <;> intro h <;> first | (exfalso; revert h; decide) | skip
    all_goals
      clear h
      ext k
      simp [hodo, fill, freeSlots, nth, c0_dc0_dc1_c1.computeConstantWaypoints]
    all_goals field_simp; try ring
  · simp [computeConstantWaypoints] at h
    subst h
    refine ⟨by simp [degreeOf, c0_dc0_ddc0.computeConstantWaypoints], ?_⟩
    apply meets_of_points 0 _ _ hT <;> intro h <;> first | (exfalso; revert h; decide) | skip
    all_goals
      clear h
      ext k
      simp [hodo, fill, freeSlots, nth, c0_dc0_ddc0.computeConstantWaypoints]
    all_goals field_simp; try ring
  · simp [computeConstantWaypoints] at h
    subst h
    refine ⟨by simp [degreeOf, c0_dc0_ddc0_c1.computeConstantWaypoints], ?_⟩
    apply meets_of_points 1 _ _ hT <;> intro h <;> first | (exfalso; revert h; decide) | skip
    all_goals
      clear h
      ext k
      simp [hodo, fill, freeSlots, nth, c0_dc0_ddc0_c1.computeConstantWaypoints]
    all_goals field_simp; try ring
  · simp [computeConstantWaypoints] at h
    subst h
    refine ⟨by simp [degreeOf, c0_dc0_ddc0_dc1_c1.computeConstantWaypoints], ?_⟩
    apply meets_of_points 2 _ _ hT <;> intro h <;> first | (exfalso; revert h; decide) | skip
    all_goals
      clear h
      ext k
      simp [hodo, fill, freeSlots, nth, c0_dc0_ddc0_dc1_c1.computeConstantWaypoints]
    all_goals field_simp; try ring
  · simp [computeConstantWaypoints] at h
    subst h
    refine ⟨by simp [degreeOf, c0_dc0_ddc0_ddc1_dc1_c1.computeConstantWaypoints], ?_⟩
    apply meets_of_points 3 _ _ hT <;> intro h <;> first | (exfalso; revert h; decide) | skip
    all_goals
      clear h
      ext k
      simp [hodo, fill, freeSlots, nth, c0_dc0_ddc0_ddc1_dc1_c1.computeConstantWaypoints]
    all_goals field_simp; try ring

/-- The query answers for every CoM set (for `c0_dc0_dc1`: when the requested final velocity is
zero, the only value that set supports). -/
theorem C01_answers (flag : Flag) (hf : flag ∈ comFlags) (d : BC) (T : ℝ)
    (h0 : flag = 19#32 → d.dc1 = 0) : ∃ pts, computeConstantWaypoints flag d T = .ok pts := by
  simp only [comFlags, List.mem_cons, List.not_mem_nil, or_false] at hf
  rcases hf with rfl | rfl | rfl | rfl | rfl | rfl | rfl <;> simp [computeConstantWaypoints]
  simp [h0 rfl]

/-- Non-vacuity: the full degree 6 set with distinct non-zero data. -/
example : ∃ pts, computeConstantWaypoints 63#32
    { c0 := ![1, 2, 3], dc0 := ![1, 0, 0], ddc0 := ![0, 1, 0], j0 := 0,
      c1 := ![2, 2, 4], dc1 := ![0, 1, 1], ddc1 := ![1, 1, 0], j1 := 0 } 2 = .ok pts :=
  C01_answers _ (by decide) _ _ (by decide)

end Verif
