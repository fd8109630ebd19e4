import Verif.Lemmas.EndCost
import Verif.Props.C09
import Mathlib.Tactic.IntervalCases

/-!
# C49 — cost functions of the end effector problem
-/

set_option linter.unusedSimpArgs false

namespace Verif
open Matrix

/-- What `evaluateCurveWaypointAtTime` gives for the three sets: one block per free point, the first of which is not
zero inside the interval. -/
theorem curveWaypoint_blocks (flag : Flag) (hf : flag ∈ effFlags) (pi : List V3) (hl : pi.length = degreeOf flag + 1) :
    ∃ W : ℝ → WpB (dimVarPts flag), (∀ t, evaluateCurveWaypointAtTime flag pi t = .ok ⟨dimVarPts flag, W t⟩) ∧
      ∃ a, ∀ t, 0 < t → t < 1 → (W t).first a ≠ 0 := by
  simp only [effFlags, List.mem_cons, List.not_mem_nil, or_false] at hf
  rcases hf with rfl | rfl | rfl <;> simp [degreeOf] at hl
  · refine ⟨fun t => c0_dc0_ddc0_j0_j1_ddc1_dc1_c1.evaluateCurveWaypointAtTime (nth pi) t, fun t => ?_, (0 : Fin 1), fun t h0 h1 => ?_⟩
    · simp [evaluateCurveWaypointAtTime, withPts, hl]; rfl
    · have e : (c0_dc0_ddc0_j0_j1_ddc1_dc1_c1.evaluateCurveWaypointAtTime (nth pi) t).first (0 : Fin 1) = 70 * (t ^ 4 * (1 - t) ^ 4) := by
        simp [c0_dc0_ddc0_j0_j1_ddc1_dc1_c1.evaluateCurveWaypointAtTime, c0_dc0_ddc0_j0_j1_ddc1_dc1_c1.evaluateCurveAtTime]
        ring
      have : 0 < 1 - t := by linarith
      exact e ▸ (by positivity)
  · refine ⟨fun t => c0_dc0_ddc0_j0_x3_j1_ddc1_dc1_c1.evaluateCurveWaypointAtTime (nth pi) t, fun t => ?_, (0 : Fin 3), fun t h0 h1 => ?_⟩
    · simp [evaluateCurveWaypointAtTime, withPts, hl]; rfl
    · have e : (c0_dc0_ddc0_j0_x3_j1_ddc1_dc1_c1.evaluateCurveWaypointAtTime (nth pi) t).first (0 : Fin 3) = 210 * (t ^ 4 * (1 - t) ^ 6) := by
        simp [c0_dc0_ddc0_j0_x3_j1_ddc1_dc1_c1.evaluateCurveWaypointAtTime]
        ring
      have : 0 < 1 - t := by linarith
      exact e ▸ (by positivity)
  · refine ⟨fun t => c0_dc0_ddc0_j0_x5_j1_ddc1_dc1_c1.evaluateCurveWaypointAtTime (nth pi) t, fun t => ?_, (0 : Fin 5), fun t h0 h1 => ?_⟩
    · simp [evaluateCurveWaypointAtTime, withPts, hl]; rfl
    · have e : (c0_dc0_ddc0_j0_x5_j1_ddc1_dc1_c1.evaluateCurveWaypointAtTime (nth pi) t).first (0 : Fin 5) = 495 * (t ^ 4 * (1 - t) ^ 8) := by
        simp [c0_dc0_ddc0_j0_x5_j1_ddc1_dc1_c1.evaluateCurveWaypointAtTime]
        ring
      have : 0 < 1 - t := by linarith
      exact e ▸ (by positivity)

/-- C49, distance cost, in terms of the reported positions: for the three sets and at least three points, the cost is,
up to a positive factor and a constant, the sum of the squared distances between the points of the path and the points
`evaluateCurveWaypointAtTime` gives at the same fraction of the motion. -/
theorem C49_distance_samples (flag : Flag) (hf : flag ∈ effFlags) (d : BC) (T : ℝ) (pts : List V3) (hn : 3 ≤ pts.length) :
    ∃ (pi : List V3) (c : BlockCost (dimVarPts flag)) (W : ℝ → WpB (dimVarPts flag)), computeConstantWaypoints flag d T = .ok pi ∧
      (∀ t, evaluateCurveWaypointAtTime flag pi t = .ok ⟨dimVarPts flag, W t⟩) ∧
      computeDistanceCostFunction flag d T pts.length pts = .ok c ∧
      ∃ s > 0, ∃ C, ∀ X, blockForm c.1 c.2 X = s * ∑ i ∈ Finset.range pts.length,
        sq3 ((W ((i : ℝ) / ((pts.length : ℝ) - 1))).at X - pts.getD i 0) + C := by
  obtain ⟨pi, hpi, hl⟩ : ∃ pi, computeConstantWaypoints flag d T = .ok pi ∧ pi.length = degreeOf flag + 1 := by
    simp only [effFlags, List.mem_cons, List.not_mem_nil, or_false] at hf
    rcases hf with rfl | rfl | rfl
    · exact ⟨_, by simp [computeConstantWaypoints]; rfl, by simp [degreeOf, c0_dc0_ddc0_j0_j1_ddc1_dc1_c1.computeConstantWaypoints]⟩
    · exact ⟨_, by simp [computeConstantWaypoints]; rfl, by simp [degreeOf, c0_dc0_ddc0_j0_x3_j1_ddc1_dc1_c1.computeConstantWaypoints]⟩
    · exact ⟨_, by simp [computeConstantWaypoints]; rfl, by simp [degreeOf, c0_dc0_ddc0_j0_x5_j1_ddc1_dc1_c1.computeConstantWaypoints]⟩
  obtain ⟨W, hW, a, ha⟩ := curveWaypoint_blocks flag hf pi hl
  obtain ⟨c, C, h1, h2, h3⟩ := distanceLoop_spec flag pi (1 / ((pts.length : ℝ) - 1)) W hW pts 0 (0, 0)
  have hn' : (3 : ℝ) ≤ pts.length := by exact_mod_cast hn
  have hpos : c.1 a a ≠ 0 := by
    rw [h2]
    simp only [Matrix.zero_apply, zero_add]
    refine ne_of_gt (lt_of_lt_of_le ?_ (Finset.single_le_sum (f := fun k : ℕ =>
      (W ((k : ℝ) * (1 / ((pts.length : ℝ) - 1)))).first a * (W ((k : ℝ) * (1 / ((pts.length : ℝ) - 1)))).first a)
      (fun k _ => mul_self_nonneg _) (Finset.mem_range.mpr (show 1 < pts.length by omega))))
    refine mul_self_pos.mpr (ha _ ?_ ?_)
    · have : (0 : ℝ) < (pts.length : ℝ) - 1 := by linarith
      rw [Nat.cast_one]; positivity
    · rw [Nat.cast_one, one_mul, div_lt_one (by linarith)]; linarith
  have hN := blockNorm_pos c.1 a a hpos
  refine ⟨pi, normalizeCost c.1 c.2, W, hpi, hW, ?_, (blockNorm c.1)⁻¹, by positivity, (blockNorm c.1)⁻¹ * C, fun X => ?_⟩
  · unfold computeDistanceCostFunction
    rw [if_pos ⟨rfl, by omega⟩, hpi, Out.ok_bind, h1, Out.ok_bind, divideByNorm, if_neg hN.ne']
  · rw [blockForm_normalize, h3, blockForm_zero]
    simp only [zero_add, mul_one_div]
    ring

/-- C49, distance cost, for the sets with three and five free points: it is the sum of the squared distances between the
points of the path and the curve at the same fraction of the motion, up to a positive factor and a constant. Missing: the
set with one free point, where the claim fails, see `C49_distance_refuted`. -/
theorem C49_distance_partial (flag : Flag) (hf : flag ∈ ([767#32, 2303#32] : List Flag)) (d : BC) (T : ℝ) (hT : T ≠ 0)
    (pts : List V3) (hn : 3 ≤ pts.length) :
    ∃ pi c, computeConstantWaypoints flag d T = .ok pi ∧ computeDistanceCostFunction flag d T pts.length pts = .ok c ∧
      ∃ s > 0, ∃ C, ∀ X, blockForm c.1 c.2 X = s * ∑ i ∈ Finset.range pts.length,
        sq3 (curve (degreeOf flag) (fillMany flag (nth pi) X) T ((i : ℝ) / ((pts.length : ℝ) - 1) * T) - pts.getD i 0) + C := by
  have hf' : flag ∈ effFlags := by
    simp only [List.mem_cons, List.not_mem_nil, or_false] at hf
    rcases hf with rfl | rfl <;> decide
  obtain ⟨pi, c, W, h1, h2, h3, s, hs, C, h4⟩ := C49_distance_samples flag hf' d T pts hn
  refine ⟨pi, c, h1, h3, s, hs, C, fun X => ?_⟩
  obtain ⟨pi', p1, p2, -⟩ := C09_boundary_conditions flag hf' d T hT X
  obtain rfl : pi = pi' := by rw [h1] at p1; exact Out.ok.inj p1
  rw [h4]
  congr 2
  refine Finset.sum_congr rfl fun i _ => ?_
  obtain ⟨w, hw, hX⟩ := C10_position_partial flag hf pi p2 ((i : ℝ) / ((pts.length : ℝ) - 1))
  rw [h2] at hw
  have hw := Out.ok.inj hw
  subst hw
  rw [hX X, curve, mul_div_cancel_right₀ _ hT]

/-- The same for a path given as a function: it is sampled at the same fractions. -/
theorem C49_distance_path_partial (flag : Flag) (hf : flag ∈ ([767#32, 2303#32] : List Flag)) (d : BC) (T : ℝ) (hT : T ≠ 0)
    (path : ℝ → V3) (n : ℕ) (hn : 3 ≤ n) :
    ∃ pi c, computeConstantWaypoints flag d T = .ok pi ∧ computeDistanceCostFunctionPath flag d T n path = .ok c ∧
      ∃ s > 0, ∃ C, ∀ X, blockForm c.1 c.2 X = s * ∑ i ∈ Finset.range n,
        sq3 (curve (degreeOf flag) (fillMany flag (nth pi) X) T ((i : ℝ) / ((n : ℝ) - 1) * T) - path ((i : ℝ) / ((n : ℝ) - 1))) + C := by
  have hlen : (samplePath n path).length = n := by simp [samplePath]
  obtain ⟨pi, c, h1, h2, s, hs, C, h3⟩ := C49_distance_partial flag hf d T hT (samplePath n path) (by rw [hlen]; exact hn)
  rw [hlen] at h2 h3
  refine ⟨pi, c, h1, h2, s, hs, C, fun X => ?_⟩
  rw [h3]
  congr 2
  refine Finset.sum_congr rfl fun i hi => ?_
  have hi := Finset.mem_range.mp hi
  congr 2
  simp [samplePath, List.getD_eq_getElem?_getD, List.getElem?_range hi, div_eq_mul_inv]

theorem reported_jerk (flag : Flag) (hf : flag ∈ effFlags) (pi : List V3) (hl : pi.length = degreeOf flag + 1) (T : ℝ) :
    ∃ W : ℝ → WpB (dimVarPts flag), ∀ t, evaluateJerkCurveWaypointAtTime flag pi T t = .ok ⟨dimVarPts flag, W t⟩ := by
  simp only [effFlags, List.mem_cons, List.not_mem_nil, or_false] at hf
  rcases hf with rfl | rfl | rfl <;> simp [degreeOf] at hl
  · exact ⟨fun t => c0_dc0_ddc0_j0_j1_ddc1_dc1_c1.evaluateJerkCurveWaypointAtTime (nth pi) T t,
      fun t => by simp [evaluateJerkCurveWaypointAtTime, withPts, hl]; rfl⟩
  · exact ⟨fun t => c0_dc0_ddc0_j0_x3_j1_ddc1_dc1_c1.evaluateJerkCurveWaypointAtTime (nth pi) T t,
      fun t => by simp [evaluateJerkCurveWaypointAtTime, withPts, hl]; rfl⟩
  · exact ⟨fun t => c0_dc0_ddc0_j0_x5_j1_ddc1_dc1_c1.evaluateJerkCurveWaypointAtTime (nth pi) T t,
      fun t => by simp [evaluateJerkCurveWaypointAtTime, withPts, hl]; rfl⟩

theorem reported_acceleration (flag : Flag) (hf : flag ∈ effFlags) (pi : List V3) (hl : pi.length = degreeOf flag + 1) (T : ℝ) :
    ∃ W : ℝ → WpB (dimVarPts flag), ∀ t, evaluateAccelerationCurveWaypointAtTime flag pi T t = .ok ⟨dimVarPts flag, W t⟩ := by
  simp only [effFlags, List.mem_cons, List.not_mem_nil, or_false] at hf
  rcases hf with rfl | rfl | rfl <;> simp [degreeOf] at hl
  · exact ⟨fun t => c0_dc0_ddc0_j0_j1_ddc1_dc1_c1.evaluateAccelerationCurveWaypointAtTime (nth pi) T t,
      fun t => by simp [evaluateAccelerationCurveWaypointAtTime, withPts, hl]; rfl⟩
  · exact ⟨fun t => c0_dc0_ddc0_j0_x3_j1_ddc1_dc1_c1.evaluateAccelerationCurveWaypointAtTime (nth pi) T t,
      fun t => by simp [evaluateAccelerationCurveWaypointAtTime, withPts, hl]; rfl⟩
  · exact ⟨fun t => c0_dc0_ddc0_j0_x5_j1_ddc1_dc1_c1.evaluateAccelerationCurveWaypointAtTime (nth pi) T t,
      fun t => by simp [evaluateAccelerationCurveWaypointAtTime, withPts, hl]; rfl⟩

theorem effPts (flag : Flag) (hf : flag ∈ effFlags) (d : BC) (T : ℝ) :
    ∃ pi, computeConstantWaypoints flag d T = .ok pi ∧ pi.length = degreeOf flag + 1 := by
  simp only [effFlags, List.mem_cons, List.not_mem_nil, or_false] at hf
  rcases hf with rfl | rfl | rfl
  · exact ⟨_, by simp [computeConstantWaypoints]; rfl, by simp [degreeOf, c0_dc0_ddc0_j0_j1_ddc1_dc1_c1.computeConstantWaypoints]⟩
  · exact ⟨_, by simp [computeConstantWaypoints]; rfl, by simp [degreeOf, c0_dc0_ddc0_j0_x3_j1_ddc1_dc1_c1.computeConstantWaypoints]⟩
  · exact ⟨_, by simp [computeConstantWaypoints]; rfl, by simp [degreeOf, c0_dc0_ddc0_j0_x5_j1_ddc1_dc1_c1.computeConstantWaypoints]⟩

/-- C49, acceleration cost, in terms of the reported accelerations: for the three sets it is, up to a constant, the sum of
the squares of what `evaluateAccelerationCurveWaypointAtTime` gives at the sampling times. These differ from the
accelerations of the curve (C12), and so does the cost, see `C49_acceleration_refuted`. -/
theorem C49_acceleration_samples_partial (flag : Flag) (hf : flag ∈ effFlags) (d : BC) (T : ℝ) (n : ℕ) (hn : n ≠ 1) :
    ∃ (pi : List V3) (c : BlockCost (dimVarPts flag)) (W : ℝ → WpB (dimVarPts flag)), computeConstantWaypoints flag d T = .ok pi ∧
      (∀ t, evaluateAccelerationCurveWaypointAtTime flag pi T t = .ok ⟨dimVarPts flag, W t⟩) ∧
      computeAccelerationCostFunctionDiscretized n flag d T = .ok c ∧
      ∃ C, ∀ X, blockForm c.1 c.2 X = ∑ i ∈ Finset.range n, sq3 ((W ((i : ℝ) / ((n : ℝ) - 1))).at X) + C := by
  obtain ⟨pi, hpi, hl⟩ := effPts flag hf d T
  obtain ⟨W, hW⟩ := reported_acceleration flag hf pi hl T
  obtain ⟨c, C, h1, h2⟩ := sampleLoop_square flag (evaluateAccelerationCurveWaypointAtTime flag pi T) (1 / ((n : ℝ) - 1)) W hW n 0 (0, 0)
  refine ⟨pi, c, W, hpi, hW, ?_, C, fun X => ?_⟩
  · unfold computeAccelerationCostFunctionDiscretized
    rw [if_neg hn, hpi, Out.ok_bind]
    exact h1
  · rw [h2, blockForm_zero]
    simp only [zero_add, mul_one_div]

/-- C49, jerk cost, in terms of the reported jerks, for the three sets. -/
theorem C49_jerk_samples (flag : Flag) (hf : flag ∈ effFlags) (d : BC) (T : ℝ) (n : ℕ) (hn : n ≠ 1) :
    ∃ (pi : List V3) (c : BlockCost (dimVarPts flag)) (W : ℝ → WpB (dimVarPts flag)), computeConstantWaypoints flag d T = .ok pi ∧
      (∀ t, evaluateJerkCurveWaypointAtTime flag pi T t = .ok ⟨dimVarPts flag, W t⟩) ∧
      computeJerkCostFunctionDiscretized n flag d T = .ok c ∧
      ∃ C, ∀ X, blockForm c.1 c.2 X = ∑ i ∈ Finset.range n, sq3 ((W ((i : ℝ) / ((n : ℝ) - 1))).at X) + C := by
  obtain ⟨pi, hpi, hl⟩ := effPts flag hf d T
  obtain ⟨W, hW⟩ := reported_jerk flag hf pi hl T
  obtain ⟨c, C, h1, h2⟩ := sampleLoop_square flag (evaluateJerkCurveWaypointAtTime flag pi T) (1 / ((n : ℝ) - 1)) W hW n 0 (0, 0)
  refine ⟨pi, c, W, hpi, hW, ?_, C, fun X => ?_⟩
  · unfold computeJerkCostFunctionDiscretized
    rw [if_neg hn, hpi, Out.ok_bind]
    exact h1
  · rw [h2, blockForm_zero]
    simp only [zero_add, mul_one_div]

/-- C49, jerk cost: for the sets with one and three free points it is, up to a constant, the sum of the squares of the
third derivative of the curve at the sampling times. Missing: the set with five free points, whose reported jerk is wrong
(C13). -/
theorem C49_jerk_partial (flag : Flag) (hf : flag ∈ ([255#32, 767#32] : List Flag)) (d : BC) (T : ℝ) (hT : T ≠ 0) (n : ℕ) (hn : n ≠ 1) :
    ∃ pi c, computeConstantWaypoints flag d T = .ok pi ∧ computeJerkCostFunctionDiscretized n flag d T = .ok c ∧
      ∃ C, ∀ X, ∃ v a j, IsDeriv (curve (degreeOf flag) (fillMany flag (nth pi) X) T) v ∧ IsDeriv v a ∧ IsDeriv a j ∧
        blockForm c.1 c.2 X = ∑ i ∈ Finset.range n, sq3 (j ((i : ℝ) / ((n : ℝ) - 1) * T)) + C := by
  have hf' : flag ∈ effFlags := by
    simp only [List.mem_cons, List.not_mem_nil, or_false] at hf
    rcases hf with rfl | rfl <;> decide
  obtain ⟨pi, c, W, h1, h2, h3, C, h4⟩ := C49_jerk_samples flag hf' d T n hn
  obtain ⟨pi', p1, p2⟩ := effPts flag hf' d T
  obtain rfl : pi = pi' := by rw [h1] at p1; exact Out.ok.inj p1
  refine ⟨pi, c, h1, h3, C, fun X => ?_⟩
  obtain ⟨v, a, j, d1, d2, d3, hj⟩ := C13_jerk_partial flag hf pi p2 T hT X
  refine ⟨v, a, j, d1, d2, d3, ?_⟩
  rw [h4]
  congr 1
  refine Finset.sum_congr rfl fun i _ => ?_
  obtain ⟨w, hw, hX⟩ := hj ((i : ℝ) / ((n : ℝ) - 1))
  rw [h2] at hw
  have hw := Out.ok.inj hw
  subst hw
  rw [← hX]

/-- The motion from the origin to (1,0,0), at rest at both ends. -/
def unitMove : BC := ⟨0, 0, 0, 0, ![1, 0, 0], 0, 0, 0⟩

theorem unitMove_pts : ∃ pi, computeConstantWaypoints 255#32 unitMove 1 = .ok pi ∧ pi.length = 9 ∧
    (∀ i < 5, nth pi i = 0) ∧ ∀ i, 5 ≤ i → i < 9 → nth pi i = ![1, 0, 0] := by
  refine ⟨_, by simp [computeConstantWaypoints]; rfl, by simp [c0_dc0_ddc0_j0_j1_ddc1_dc1_c1.computeConstantWaypoints], ?_, ?_⟩
  · intro i hi
    interval_cases i <;> funext k <;> simp [nth, c0_dc0_ddc0_j0_j1_ddc1_dc1_c1.computeConstantWaypoints, unitMove]
  · intro i h1 h2
    interval_cases i <;> funext k <;> simp [nth, c0_dc0_ddc0_j0_j1_ddc1_dc1_c1.computeConstantWaypoints, unitMove] <;> ring

/-- A free point on the x axis. -/
def xPt (x : ℝ) : ℕ → V3 := fun _ => ![x, 0, 0]

/-- C49, distance cost, fails for the set with one free point: for the motion from the origin to (1,0,0) and a path that
stays at the origin, the cost is not the sum of squared distances to the curve, whatever the factor and the constant. -/
theorem C49_distance_refuted : ∃ (d : BC) (pts pi : List V3) (c : BlockCost (dimVarPts 255#32)),
    computeConstantWaypoints 255#32 d 1 = .ok pi ∧ pts.length = 3 ∧ computeDistanceCostFunction 255#32 d 1 3 pts = .ok c ∧
    ¬ ∃ s > 0, ∃ C, ∀ X, blockForm c.1 c.2 X = s * ∑ i ∈ Finset.range 3,
        sq3 (curve 8 (fillMany 255#32 (nth pi) X) 1 ((i : ℝ) / 2) - pts.getD i 0) + C := by
  obtain ⟨pi, c, W, h1, h2, h3, s, hs, C, h4⟩ := C49_distance_samples 255#32 (by decide) unitMove 1 [0, 0, 0] (by simp)
  obtain ⟨pi', p1, p2, p3, p4⟩ := unitMove_pts
  obtain rfl : pi = pi' := by rw [h1] at p1; exact Out.ok.inj p1
  refine ⟨unitMove, [0, 0, 0], pi, c, h1, rfl, h3, ?_⟩
  rintro ⟨s', hs', C', h5⟩
  have hW : ∀ t X, (W t).at X = bez 8 (fillMany 255#32 (nth pi) X) t + (1 - t) ^ 8 • (nth pi 8 - nth pi 0) := by
    intro t X
    obtain ⟨w, hw, hX⟩ := C10_j0_j1_error pi p2 t
    rw [h2] at hw
    have hw := Out.ok.inj hw
    subst hw
    exact hX X
  have hb : ∀ x t, bez 8 (fillMany 255#32 (nth pi) (xPt x)) t = ![70 * t ^ 4 * (1 - t) ^ 4 * x
      + (56 * t ^ 5 * (1 - t) ^ 3 + 28 * t ^ 6 * (1 - t) ^ 2 + 8 * t ^ 7 * (1 - t) + t ^ 8), 0, 0] := by
    intro x t
    funext k
    rw [bez_apply, bezS8]
    have q0 := p3 0 (by norm_num)
    have q1 := p3 1 (by norm_num)
    have q2 := p3 2 (by norm_num)
    have q3 := p3 3 (by norm_num)
    have q5 := p4 5 (by norm_num) (by norm_num)
    have q6 := p4 6 (by norm_num) (by norm_num)
    have q7 := p4 7 (by norm_num) (by norm_num)
    have q8 := p4 8 (by norm_num) (by norm_num)
    fin_cases k <;> simp [fillMany, freeSlots, xPt, q0, q1, q2, q3, q5, q6, q7, q8] <;> ring
  have key : ∀ x, s * ∑ i ∈ Finset.range 3, sq3 ((W ((i : ℝ) / 2)).at (xPt x) - ([0, 0, 0] : List V3).getD i 0) + C
      = s' * ∑ i ∈ Finset.range 3, sq3 (curve 8 (fillMany 255#32 (nth pi) (xPt x)) 1 ((i : ℝ) / 2) - ([0, 0, 0] : List V3).getD i 0) + C' := by
    intro x
    rw [← h5, h4]
    norm_num
  simp only [hW, hb, curve, p3 0 (by norm_num), p4 8 (by norm_num) (by norm_num)] at key
  have k0 := key 0
  have k1 := key 1
  have k2 := key (-1)
  simp [Finset.sum_range_succ, sq3, dot] at k0 k1 k2
  norm_num at k0 k1 k2
  have e1 : s = s' := by linarith
  subst e1
  linarith

/-- The velocity cost for one free point is the sum of the squares of the reported velocities, up to a constant. Missing:
the sets with more free points, where the claim fails (`C49_velocity_refuted`); and the reported velocities are not those
of the curve (C11). -/
theorem C49_velocity_samples_partial (d : BC) (T : ℝ) (n : ℕ) (hn : n ≠ 1) :
    ∃ (pi : List V3) (c : BlockCost (dimVarPts 255#32)) (W : ℝ → WpB (dimVarPts 255#32)),
      computeConstantWaypoints 255#32 d T = .ok pi ∧
      (∀ t, evaluateVelocityCurveWaypointAtTime 255#32 pi T t = .ok ⟨dimVarPts 255#32, W t⟩) ∧
      computeVelCostFunctionDiscretized n 255#32 d T = .ok c ∧
      ∃ C, ∀ X, blockForm c.1 c.2 X = ∑ i ∈ Finset.range n, sq3 ((W ((i : ℝ) / ((n : ℝ) - 1))).at X) + C := by
  obtain ⟨pi, hpi, hl⟩ := effPts 255#32 (by decide) d T
  have hl : pi.length = 9 := by simpa [degreeOf] using hl
  have hW : ∀ t, evaluateVelocityCurveWaypointAtTime 255#32 pi T t
      = .ok ⟨dimVarPts 255#32, c0_dc0_ddc0_j0_j1_ddc1_dc1_c1.evaluateVelocityCurveWaypointAtTime (nth pi) T t⟩ := fun t => by
    simp [evaluateVelocityCurveWaypointAtTime, withPts, hl]; rfl
  obtain ⟨c, C, h1, h2⟩ := sampleLoop_square 255#32 (evaluateVelocityCurveWaypointAtTime 255#32 pi T) (1 / ((n : ℝ) - 1)) _ hW n 0 (0, 0)
  have e : (addDiagonal : BlockCost (dimVarPts 255#32) → _ → _) = fun c w => addSquare c w 0 := by
    funext c w
    have hs : ∀ a b : Fin (dimVarPts 255#32), a = b := fun a b => Subsingleton.elim (α := Fin 1) a b
    simp only [addDiagonal, addSquare, sub_zero]
    congr 1
    funext a b
    rw [if_pos (hs a b), hs a b]
  refine ⟨pi, c, _, hpi, hW, ?_, C, fun X => ?_⟩
  · unfold computeVelCostFunctionDiscretized
    rw [if_neg hn, hpi, Out.ok_bind, e]
    exact h1
  · rw [h2, blockForm_zero]
    simp only [zero_add, mul_one_div]

/-- The velocity cost with three free points is not the sum of the squares of the reported velocities, whatever the factor
and the constant: the terms that couple different free points are left out. -/
theorem C49_velocity_refuted : ∃ (d : BC) (pi : List V3) (c : BlockCost 3) (W : ℝ → WpB 3),
    computeConstantWaypoints 767#32 d 1 = .ok pi ∧
    (∀ t, evaluateVelocityCurveWaypointAtTime 767#32 pi 1 t = .ok ⟨3, W t⟩) ∧
    computeVelCostFunctionDiscretized 3 767#32 d 1 = .ok c ∧
    ¬ ∃ s > 0, ∃ C, ∀ X, blockForm c.1 c.2 X = s * ∑ i ∈ Finset.range 3, sq3 ((W ((i : ℝ) / 2)).at X) + C := by
  obtain ⟨pi, hpi, hl⟩ := effPts 767#32 (by decide) ⟨0, 0, 0, 0, 0, 0, 0, 0⟩ 1
  have hl : pi.length = 11 := by simpa [degreeOf] using hl
  have hW : ∀ t, evaluateVelocityCurveWaypointAtTime 767#32 pi 1 t
      = .ok ⟨3, c0_dc0_ddc0_j0_x3_j1_ddc1_dc1_c1.evaluateVelocityCurveWaypointAtTime (nth pi) 1 t⟩ := fun t => by
    simp [evaluateVelocityCurveWaypointAtTime, withPts, hl]
  have hz : ∀ i < 11, nth pi i = 0 := by
    simp [computeConstantWaypoints] at hpi
    subst hpi
    intro i hi
    interval_cases i <;> funext k <;> simp [nth, c0_dc0_ddc0_j0_x3_j1_ddc1_dc1_c1.computeConstantWaypoints]
  set W := fun t => c0_dc0_ddc0_j0_x3_j1_ddc1_dc1_c1.evaluateVelocityCurveWaypointAtTime (nth pi) 1 t with hWd
  have w0 : W 0 = ⟨![0, 0, 0], 0⟩ := by
    simp [hWd, c0_dc0_ddc0_j0_x3_j1_ddc1_dc1_c1.evaluateVelocityCurveWaypointAtTime, hz]; rfl
  have w1 : W (1 / 2) = ⟨![-105 / 128, 0, 105 / 128], 0⟩ := by
    simp [hWd, c0_dc0_ddc0_j0_x3_j1_ddc1_dc1_c1.evaluateVelocityCurveWaypointAtTime, hz]
    norm_num
    rfl
  have w2 : W 1 = ⟨![0, 0, 0], 0⟩ := by
    simp [hWd, c0_dc0_ddc0_j0_x3_j1_ddc1_dc1_c1.evaluateVelocityCurveWaypointAtTime, hz]
    norm_num
    rfl
  refine ⟨_, pi, addDiagonal (addDiagonal (addDiagonal (0, 0) (W 0)) (W (1 / 2))) (W 1), W, hpi, hW, ?_, ?_⟩
  · unfold computeVelCostFunctionDiscretized
    rw [if_neg (by norm_num), hpi, Out.ok_bind]
    simp only [sampleLoop, hW, Out.ok_bind]
    norm_num
    rfl
  · rintro ⟨s, hs, C, h⟩
    have h0 := h 0
    have h1 := h fun j => if j = 1 then 0 else ![1, 0, 0]
    have w1' : W 2⁻¹ = ⟨![-105 / 128, 0, 105 / 128], 0⟩ := by rw [← w1]; norm_num
    simp [Finset.sum_range_succ, w0, w1, w1', w2, addDiagonal, blockForm, Fin.sum_univ_three, sq3, dot, WpB.at] at h0 h1
    norm_num at h0 h1
    linarith

/-- C49, acceleration cost, fails for the set with one free point: for the motion from the origin to (1,0,0) it is not the sum
of the squares of the accelerations of the curve, whatever the factor and the constant. -/
theorem C49_acceleration_refuted : ∃ (d : BC) (pi : List V3) (c : BlockCost (dimVarPts 255#32)),
    computeConstantWaypoints 255#32 d 1 = .ok pi ∧ computeAccelerationCostFunctionDiscretized 3 255#32 d 1 = .ok c ∧
    ¬ ∃ s > 0, ∃ C, ∀ X, ∃ v a, IsDeriv (curve 8 (fillMany 255#32 (nth pi) X) 1) v ∧ IsDeriv v a ∧
      blockForm c.1 c.2 X = s * ∑ i ∈ Finset.range 3, sq3 (a ((i : ℝ) / 2)) + C := by
  obtain ⟨pi, c, W, h1, h2, h3, C, h4⟩ := C49_acceleration_samples_partial 255#32 (by decide) unitMove 1 3 (by norm_num)
  obtain ⟨pi', p1, p2, p3, p4⟩ := unitMove_pts
  obtain rfl : pi = pi' := by rw [h1] at p1; exact Out.ok.inj p1
  refine ⟨unitMove, pi, c, h1, h3, ?_⟩
  rintro ⟨s, hs, C', h5⟩
  have q0 := p3 0 (by norm_num)
  have q8 := p4 8 (by norm_num) (by norm_num)
  have ha : ∀ X, ∃ a : ℝ → V3, (∀ t, a t = (W t).at X - (56 * (1 - t) ^ 6) • ![1, 0, 0]) ∧
      ∑ i ∈ Finset.range 3, sq3 ((W ((i : ℝ) / 2)).at X) + C = s * ∑ i ∈ Finset.range 3, sq3 (a ((i : ℝ) / 2)) + C' := by
    intro X
    obtain ⟨v, a, d1, d2, h⟩ := h5 X
    obtain ⟨v', a', d1', d2', h'⟩ := C12_j0_j1_error pi p2 1 one_ne_zero X
    obtain rfl : v = v' := funext fun s => (d1 s).unique (d1' s)
    obtain rfl : a = a' := funext fun s => (d2 s).unique (d2' s)
    refine ⟨a, fun t => ?_, ?_⟩
    · obtain ⟨w, hw, hX⟩ := h' t
      rw [h2] at hw
      have hw := Out.ok.inj hw
      subst hw
      rw [hX, q0, q8, mul_one, sub_zero, one_pow, div_one, add_sub_cancel_right]
    · rw [← h, h4]; norm_num
  have hW : ∀ t, W t = c0_dc0_ddc0_j0_j1_ddc1_dc1_c1.evaluateAccelerationCurveWaypointAtTime (nth pi) 1 t := by
    intro t
    have e : evaluateAccelerationCurveWaypointAtTime 255#32 pi 1 t = .ok ⟨dimVarPts 255#32,
        c0_dc0_ddc0_j0_j1_ddc1_dc1_c1.evaluateAccelerationCurveWaypointAtTime (nth pi) 1 t⟩ := by
      simp [evaluateAccelerationCurveWaypointAtTime, withPts, p2]; rfl
    rw [h2] at e
    have e := Out.ok.inj e
    exact eq_of_heq (Sigma.mk.inj e).2
  have key : ∀ x, ∑ i ∈ Finset.range 3, sq3 ((W ((i : ℝ) / 2)).at (xPt x)) + C
      = s * ∑ i ∈ Finset.range 3, sq3 ((W ((i : ℝ) / 2)).at (xPt x) - (56 * (1 - (i : ℝ) / 2) ^ 6) • ![1, 0, 0]) + C' := by
    intro x
    obtain ⟨a, h, h'⟩ := ha (xPt x)
    rw [h']
    simp only [h]
  have hv : ∀ x t, (W t).at (xPt x) = (c0_dc0_ddc0_j0_j1_ddc1_dc1_c1.evaluateAccelerationCurveAtTime (nth pi) 1 t).first • ![x, 0, 0]
      + (c0_dc0_ddc0_j0_j1_ddc1_dc1_c1.evaluateAccelerationCurveAtTime (nth pi) 1 t).second := by
    intro x t
    rw [hW]
    exact congrArg (· + _) (Fin.sum_univ_one (M := V3) _)
  have q1 := p3 1 (by norm_num)
  have q2 := p3 2 (by norm_num)
  have q3 := p3 3 (by norm_num)
  have q5 := p4 5 (by norm_num) (by norm_num)
  have q6 := p4 6 (by norm_num) (by norm_num)
  have q7 := p4 7 (by norm_num) (by norm_num)
  have hv' : ∀ x t, (W t).at (xPt x) = ![(3920 * t ^ 6 - 11760 * t ^ 5 + 12600 * t ^ 4 - 5600 * t ^ 3 + 840 * t ^ 2) * x
      + (56 * (1 - t) ^ 6 - 3136 * t ^ 6 + 7056 * t ^ 5 - 5040 * t ^ 4 + 1120 * t ^ 3 + 1568 * t ^ 6 - 2352 * t ^ 5 + 840 * t ^ 4
        - 448 * t ^ 6 + 336 * t ^ 5 + 56 * t ^ 6), 0, 0] := by
    intro x t
    rw [hv]
    funext k
    rw [Pi.add_apply, Pi.smul_apply]
    simp only [c0_dc0_ddc0_j0_j1_ddc1_dc1_c1.evaluateAccelerationCurveAtTime, q1, q2, q3, q5, q6, q7, q8]
    fin_cases k <;> simp
    ring
  simp only [hv'] at key
  have k0 := key 0
  have k1 := key 1
  have k2 := key (-1)
  simp [Finset.sum_range_succ, sq3, dot] at k0 k1 k2
  norm_num at k0 k1 k2
  have e1 : s = 1 := by linarith
  subst e1
  linarith

end Verif
