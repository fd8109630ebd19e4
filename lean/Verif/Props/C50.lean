import Verif.Props.C48
import Verif.Props.C49

/-!
# C50 — result curve of the end effector problem
-/

set_option linter.unusedSimpArgs false

namespace Verif
open Matrix

theorem setPt_ok {x : List ℝ} {i j : ℕ} {wps wps' : List V3} (h : setPt x i j wps = .ok wps') :
    i < wps.length ∧ 3 * j + 3 ≤ x.length ∧ wps' = wps.set i (pointsOf (fun c => x.getD c 0) j) := by
  unfold setPt at h
  split at h
  · rename_i hc
    exact ⟨hc.1, hc.2, (Out.ok.inj h).symm⟩
  · cases h

/-- C50. When `computeC_of_T` returns, there is one unknown per coordinate of a free point, the duration is positive, and
the curve is, over the duration `T`, the one whose control points are the constant waypoints with the free slots replaced
by the solver's points; it satisfies the eight boundary conditions of the set. -/
theorem C50_curve (flag : Flag) (hf : flag ∈ effFlags) (d : BC) (T : ℝ) (x : List ℝ) (c : Bezier)
    (h : endEffectorCurve flag d T x = .ok c) :
    0 < T ∧ 3 * dimVarPts flag ≤ x.length ∧ c.T = T ∧ ∃ pi, computeConstantWaypoints flag d T = .ok pi ∧
      c.eval = curve (degreeOf flag) (fillMany flag (nth pi) (pointsOf fun i => x.getD i 0)) T ∧
      MeetsBoundary flag d c.eval T := by
  unfold endEffectorCurve at h
  obtain ⟨pi, hpi, h⟩ := Out.bind_eq_ok.mp h
  obtain ⟨wps, hw, h⟩ := Out.bind_eq_ok.mp h
  obtain ⟨hT, hc⟩ : 0 < T ∧ c = ⟨wps, T, 1⟩ := by
    unfold mkBezier at h
    split at h
    · cases h
    · rename_i hc
      push Not at hc
      exact ⟨hc.2, (Out.ok.inj h).symm⟩
  subst hc
  have hev : 3 * dimVarPts flag ≤ x.length ∧
      (⟨wps, T, 1⟩ : Bezier).eval = curve (degreeOf flag) (fillMany flag (nth pi) (pointsOf fun i => x.getD i 0)) T := by
    obtain ⟨pi', p1, hl⟩ := effPts flag hf d T
    obtain rfl : pi = pi' := by rw [hpi] at p1; exact Out.ok.inj p1
    simp only [effFlags, List.mem_cons, List.not_mem_nil, or_false] at hf
    rcases hf with rfl | rfl | rfl
    · rw [show dimVarPts 255#32 = 1 from rfl, setFreePts, if_pos rfl] at hw
      have hl : pi.length = 9 := hl
      split at hw
      · rename_i hx
        obtain ⟨-, -, rfl⟩ := setPt_ok hw
        refine ⟨by rw [hx]; rfl, funext fun s => ?_⟩
        simp only [Bezier.eval, one_smul, List.length_set, hl, curve, degreeOf]
        refine bez_congr fun i hi => ?_
        have : i < 9 := by omega
        by_cases h4 : i = 4
        · subst h4; simp [fillMany, freeSlots, hl]
        · simp [fillMany, freeSlots, h4, nth, List.getD_eq_getElem?_getD, List.getElem?_set, Ne.symm h4]
      · cases hw
    · rw [show dimVarPts 767#32 = 3 from rfl, setFreePts, if_neg (by norm_num), if_pos rfl] at hw
      have hl : pi.length = 11 := hl
      obtain ⟨w1, h1, hw⟩ := Out.bind_eq_ok.mp hw
      obtain ⟨w2, h2, hw⟩ := Out.bind_eq_ok.mp hw
      obtain ⟨-, -, rfl⟩ := setPt_ok h1
      obtain ⟨-, -, rfl⟩ := setPt_ok h2
      obtain ⟨-, hx, rfl⟩ := setPt_ok hw
      refine ⟨hx, funext fun s => ?_⟩
      simp only [Bezier.eval, one_smul, List.length_set, hl, curve, degreeOf]
      refine bez_congr fun i hi => ?_
      have : i < 11 := by omega
      interval_cases i <;> simp [fillMany, freeSlots, nth, List.getD_eq_getElem?_getD, List.getElem?_set, hl]
    · rw [show dimVarPts 2303#32 = 5 from rfl, setFreePts, if_neg (by norm_num), if_neg (by norm_num), if_pos rfl] at hw
      have hl : pi.length = 13 := hl
      obtain ⟨w1, h1, hw⟩ := Out.bind_eq_ok.mp hw
      obtain ⟨w2, h2, hw⟩ := Out.bind_eq_ok.mp hw
      obtain ⟨w3, h3, hw⟩ := Out.bind_eq_ok.mp hw
      obtain ⟨w4, h4, hw⟩ := Out.bind_eq_ok.mp hw
      obtain ⟨-, -, rfl⟩ := setPt_ok h1
      obtain ⟨-, -, rfl⟩ := setPt_ok h2
      obtain ⟨-, -, rfl⟩ := setPt_ok h3
      obtain ⟨-, -, rfl⟩ := setPt_ok h4
      obtain ⟨-, hx, rfl⟩ := setPt_ok hw
      refine ⟨hx, funext fun s => ?_⟩
      simp only [Bezier.eval, one_smul, List.length_set, hl, curve, degreeOf]
      refine bez_congr fun i hi => ?_
      have : i < 13 := by omega
      interval_cases i <;> simp [fillMany, freeSlots, nth, List.getD_eq_getElem?_getD, List.getElem?_set, hl]
  refine ⟨hT, hev.1, rfl, pi, hpi, hev.2, ?_⟩
  obtain ⟨pi', p1, -, hm⟩ := C09_boundary_conditions flag hf d T hT.ne' (pointsOf fun i => x.getD i 0)
  obtain rfl : pi = pi' := by rw [hpi] at p1; exact Out.ok.inj p1
  rw [hev.2]
  exact hm

/-- C50 for `solveEndEffector`, whatever the solver, the path, the weight and the contents of `init`: a result with `success_`
carries such a curve, made from its own unknowns `x`; a result without `success_` carries no unknowns and the constant
curve. -/
theorem C50_result (lib : Lib) (fuel : ℕ) (flag : Flag) (hf : flag ∈ effFlags) (d : BC) (path : ℝ → V3) (T w : ℝ) (init : List ℝ)
    (r : ResultDataCOMTraj) (h : solveEndEffector lib fuel flag d path T w init = .ok r) :
    (r.success = true → 0 < T ∧ 3 * dimVarPts flag ≤ r.x.length ∧ r.c_of_t.T = T ∧ ∃ pi, computeConstantWaypoints flag d T = .ok pi ∧
      r.c_of_t.eval = curve (degreeOf flag) (fillMany flag (nth pi) (pointsOf fun i => r.x.getD i 0)) T ∧
      MeetsBoundary flag d r.c_of_t.eval T) ∧
    (r.success = false → r = ResultDataCOMTraj.default) := by
  unfold solveEndEffector at h
  obtain ⟨pi, -, h⟩ := Out.bind_eq_ok.mp h
  obtain ⟨Ab, -, h⟩ := Out.bind_eq_ok.mp h
  obtain ⟨Hg, -, h⟩ := Out.bind_eq_ok.mp h
  obtain ⟨q, -, h⟩ := Out.bind_eq_ok.mp h
  unfold endEffectorResult at h
  split at h
  · obtain ⟨c, hc, h⟩ := Out.bind_eq_ok.mp h
    obtain rfl := Out.ok.inj h
    exact ⟨fun _ => C50_curve flag hf d T q.x c hc, fun h => (by cases h)⟩
  · obtain rfl := Out.ok.inj h
    exact ⟨fun h => (by cases h), fun _ => rfl⟩

theorem setPt_eq {x : List ℝ} {i j : ℕ} {wps : List V3} (h1 : i < wps.length) (h2 : 3 * j + 3 ≤ x.length) :
    setPt x i j wps = .ok (wps.set i (pointsOf (fun c => x.getD c 0) j)) := if_pos ⟨h1, h2⟩

/-- C50: `computeC_of_T` returns for each positive duration and the right number of unknowns. -/
theorem C50_curve_exists (flag : Flag) (hf : flag ∈ effFlags) (d : BC) (T : ℝ) (hT : 0 < T) (x : List ℝ)
    (hx : x.length = 3 * dimVarPts flag) : ∃ c, endEffectorCurve flag d T x = .ok c := by
  obtain ⟨pi, h, hl⟩ := effPts flag hf d T
  unfold endEffectorCurve
  rw [h, Out.ok_bind]
  have hb : ∀ wps : List V3, 0 < wps.length → ∃ c, mkBezier wps T 1 = .ok c := by
    intro wps h0
    refine ⟨_, if_neg ?_⟩
    push Not
    exact ⟨List.length_pos_iff.mp h0, hT⟩
  simp only [effFlags, List.mem_cons, List.not_mem_nil, or_false] at hf
  rcases hf with rfl | rfl | rfl
  · have hl : pi.length = 9 := hl
    have hx : x.length = 3 := hx
    rw [show dimVarPts 255#32 = 1 from rfl, setFreePts, if_pos rfl, if_pos hx, setPt_eq (by omega) (by omega), Out.ok_bind]
    exact hb _ (by rw [List.length_set]; omega)
  · have hl : pi.length = 11 := hl
    have hx : x.length = 9 := hx
    rw [show dimVarPts 767#32 = 3 from rfl, setFreePts, if_neg (by norm_num), if_pos rfl, setPt_eq (by omega) (by omega), Out.ok_bind,
      setPt_eq (by simp only [List.length_set]; omega) (by omega), Out.ok_bind,
      setPt_eq (by simp only [List.length_set]; omega) (by omega), Out.ok_bind]
    exact hb _ (by simp only [List.length_set]; omega)
  · have hl : pi.length = 13 := hl
    have hx : x.length = 15 := hx
    rw [show dimVarPts 2303#32 = 5 from rfl, setFreePts, if_neg (by norm_num), if_neg (by norm_num), if_pos rfl,
      setPt_eq (by omega) (by omega), Out.ok_bind,
      setPt_eq (by simp only [List.length_set]; omega) (by omega), Out.ok_bind,
      setPt_eq (by simp only [List.length_set]; omega) (by omega), Out.ok_bind,
      setPt_eq (by simp only [List.length_set]; omega) (by omega), Out.ok_bind,
      setPt_eq (by simp only [List.length_set]; omega) (by omega), Out.ok_bind]
    exact hb _ (by simp only [List.length_set]; omega)

/-- Non-vacuity: a motion of two seconds through three points. -/
example : ∃ c, endEffectorCurve 767#32 unitMove 2 [1, 2, 3, 4, 5, 6, 7, 8, 9] = .ok c :=
  C50_curve_exists 767#32 (by decide) unitMove 2 (by norm_num) _ rfl

end Verif
