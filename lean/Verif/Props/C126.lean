import Verif.Props.C125

/-!
# C126: what the weight of the path trades
-/

namespace Verif
open Finset

/-- Two minimisers of combinations of the same two costs. -/
theorem weight_tradeoff {S S' D D' w w' : ℝ} (h0 : 0 ≤ w) (h : w < w') (h1 : w' ≤ 1)
    (a : (1 - w) * S + w * D ≤ (1 - w) * S' + w * D') (b : (1 - w') * S' + w' * D' ≤ (1 - w') * S + w' * D) : D' ≤ D ∧ S ≤ S' := by
  have p : 0 ≤ 1 - w' := by linarith
  have q : 0 ≤ 1 - w := by linarith
  have r : 0 ≤ w' := by linarith
  have e1 : 0 ≤ (w' - w) * (D - D') := by nlinarith [mul_le_mul_of_nonneg_left a p, mul_le_mul_of_nonneg_left b q]
  have e2 : 0 ≤ (w' - w) * (S' - S) := by nlinarith [mul_le_mul_of_nonneg_left a r, mul_le_mul_of_nonneg_left b h0]
  have hp : 0 < w' - w := by linarith
  exact ⟨by linarith [nonneg_of_mul_nonneg_right e1 hp], by linarith [nonneg_of_mul_nonneg_right e2 hp]⟩

/-- Both calls, in terms of the two costs that are combined. -/
theorem weight_calls (lib lib' : Lib) (hL : LibOk lib) (hL' : LibOk lib') (he : lib.eps = 0) (he' : lib'.eps = 0) (flag : Flag)
    (hf : flag ∈ effFlags) (d : BC) (path : ℝ → V3) (T : ℝ) (hT : 0 < T) (w w' : ℝ) (h0 : 0 ≤ w) (h : w < w') (h1 : w' ≤ 1)
    (init init' : List ℝ) : ∃ pi S R r r' N, computeConstantWaypoints flag d T = .ok pi ∧ pi.length = degreeOf flag + 1 ∧
      computeVelocityCost flag d T pi = .ok ⟨dimVarPts flag, S⟩ ∧ computeDistanceCostFunctionPath flag d T 50 path = .ok R ∧
      (∀ fuel ≥ N, solveEndEffector lib fuel flag d path T w init = .ok r ∧ solveEndEffector lib' fuel flag d path T w' init' = .ok r') ∧
      (r.success = true → r'.success = true → ∃ X X',
        r.c_of_t.eval = curve (degreeOf flag) (fillMany flag (nth pi) X) T ∧
        r'.c_of_t.eval = curve (degreeOf flag) (fillMany flag (nth pi) X') T ∧
        blockForm R.1 R.2 X' ≤ blockForm R.1 R.2 X ∧ blockForm S.1 S.2 X ≤ blockForm S.1 S.2 X') := by
  obtain ⟨pi, _, _, c, r, N, e1, -, e3, hr, hok, -⟩ := C64_solves lib hL he flag hf d path T w hT h0 (by linarith) init
  obtain ⟨_, _, _, c', r', N', e1', -, e3', hr', hok', -⟩ := C64_solves lib' hL' he' flag hf d path T w' hT (by linarith) h1 init'
  rw [e1] at e1'
  obtain rfl := Out.ok.inj e1'
  obtain ⟨pi', hpi, hl⟩ := effPts flag hf d T
  rw [e1] at hpi
  obtain rfl := Out.ok.inj hpi
  obtain ⟨_, k1, -, S, hS, hc0, hc⟩ := endCost_pos flag hf d path T w hT h0 (by linarith) pi hl
  obtain ⟨_, k1', -, S', hS', -, hc'⟩ := endCost_pos flag hf d path T w' hT (by linarith) h1 pi hl
  rw [e3] at k1
  obtain rfl := Out.ok.inj k1
  rw [e3'] at k1'
  obtain rfl := Out.ok.inj k1'
  obtain rfl : S = S' := by
    rw [hS] at hS'
    simpa using hS'
  obtain ⟨R, hR, hB'⟩ := hc' (by linarith)
  have hB : ∀ X, blockForm c.1 c.2 X = (1 - w) * blockForm S.1 S.2 X + w * blockForm R.1 R.2 X := by
    rcases h0.eq_or_lt with rfl | hw
    · intro X
      rw [hc0 rfl]
      ring
    · obtain ⟨R2, hR2, hB⟩ := hc hw
      rw [hR] at hR2
      obtain rfl := Out.ok.inj hR2
      exact hB
  refine ⟨pi, S, R, r, r', max N N', e1, hl, hS, hR,
    fun fuel hfu => ⟨hr fuel (le_trans (le_max_left _ _) hfu), hr' fuel (le_trans (le_max_right _ _) hfu)⟩, fun hs hs' => ?_⟩
  obtain ⟨X, -, hcu, -, hX, bX⟩ := hok hs
  obtain ⟨X', -, hcu', -, hX', bX'⟩ := hok' hs'
  have o := bX _ hX'
  have o' := bX' _ hX
  rw [hB, hB] at o
  rw [hB', hB'] at o'
  exact ⟨X, X', hcu, hcu', weight_tradeoff h0 h h1 o o'⟩

/-- C126, the sets with three and five free points: with a larger weight the motion is not farther from the path, at the 50 instants
where it is compared with it. -/
theorem C126_nearer (lib lib' : Lib) (hL : LibOk lib) (hL' : LibOk lib') (he : lib.eps = 0) (he' : lib'.eps = 0) (flag : Flag)
    (hf : flag ∈ ([767#32, 2303#32] : List Flag)) (d : BC) (path : ℝ → V3) (T : ℝ) (hT : 0 < T) (w w' : ℝ) (h0 : 0 ≤ w) (h : w < w')
    (h1 : w' ≤ 1) (init init' : List ℝ) : ∃ r r' N,
      (∀ fuel ≥ N, solveEndEffector lib fuel flag d path T w init = .ok r ∧ solveEndEffector lib' fuel flag d path T w' init' = .ok r') ∧
      (r.success = true → r'.success = true →
        ∑ i ∈ range 50, sq3 (r'.c_of_t.eval (i / 49 * T) - path (i / 49)) ≤ ∑ i ∈ range 50, sq3 (r.c_of_t.eval (i / 49 * T) - path (i / 49))) := by
  have hf' : flag ∈ effFlags := by
    simp only [effFlags, List.mem_cons, List.not_mem_nil, or_false] at hf ⊢
    tauto
  obtain ⟨pi, S, R, r, r', N, e1, -, -, hR, hrun, hok⟩ := weight_calls lib lib' hL hL' he he' flag hf' d path T hT w w' h0 h h1 init init'
  obtain ⟨pi', R', e1', hR', s, hs, C, hD⟩ := C49_distance_path_partial flag hf d T hT.ne' path 50 (by norm_num)
  rw [e1] at e1'
  obtain rfl := Out.ok.inj e1'
  rw [hR] at hR'
  obtain rfl := Out.ok.inj hR'
  refine ⟨r, r', N, hrun, fun q q' => ?_⟩
  obtain ⟨X, X', hcu, hcu', o, -⟩ := hok q q'
  rw [hD, hD, ← hcu, ← hcu', show (((50 : ℕ) : ℝ) - 1) = 49 by norm_num] at o
  exact le_of_mul_le_mul_left (by linarith) hs

/-- A non-trivial case: a motion at constant acceleration, planned for every path and every weight. -/
theorem fall_weights : ∃ M, ∀ lib, LibOk lib → lib.eps = 0 → M ≤ lib.maxIter → ∀ path w w' init, 0 ≤ w → w < w' → w' ≤ 1 → ∃ r r' N,
    (∀ fuel ≥ N, solveEndEffector lib fuel 767#32 (fallMove (-2700) (9000) 0) path 1 w init = .ok r ∧
      solveEndEffector lib fuel 767#32 (fallMove (-2700) (9000) 0) path 1 w' init = .ok r') ∧ r.success = true ∧ r'.success = true ∧
    ∑ i ∈ range 50, sq3 (r'.c_of_t.eval (i / 49 * 1) - path (i / 49)) ≤ ∑ i ∈ range 50, sq3 (r.c_of_t.eval (i / 49 * 1) - path (i / 49)) := by
  obtain ⟨M, h⟩ := C124_three_refuted
  refine ⟨M, fun lib hL he hm path w w' init h0 hw h1 => ?_⟩
  obtain ⟨r, r', N, hrun, hok⟩ := C126_nearer lib lib hL hL he he 767#32 (by simp) (fallMove (-2700) (9000) 0) path 1 one_pos w w' h0 hw h1 init init
  obtain ⟨r1, _, N1, hr1, hs1, -⟩ := h lib hL he hm path path w init h0 (by linarith)
  obtain ⟨r2, _, N2, hr2, hs2, -⟩ := h lib hL he hm path path w' init (by linarith) h1
  obtain rfl : r = r1 := Out.ok.inj ((hrun _ (le_max_left N N1)).1.symm.trans (hr1 _ (le_max_right N N1)).1)
  obtain rfl : r' = r2 := Out.ok.inj ((hrun _ (le_max_left N N2)).2.symm.trans (hr2 _ (le_max_right N N2)).1)
  exact ⟨r, r', N, hrun, hs1, hs2, hok hs1 hs2⟩

/-- C126, the three sets: with a larger weight the motion is not smoother, to the precision of the decimals in the source. -/
theorem C126_rougher (lib lib' : Lib) (hL : LibOk lib) (hL' : LibOk lib') (he : lib.eps = 0) (he' : lib'.eps = 0) (flag : Flag)
    (hf : flag ∈ effFlags) (d : BC) (path : ℝ → V3) (T : ℝ) (hT : 0 < T) (w w' : ℝ) (h0 : 0 ≤ w) (h : w < w')
    (h1 : w' ≤ 1) (init init' : List ℝ) : ∃ pi r r' N, computeConstantWaypoints flag d T = .ok pi ∧
      (∀ fuel ≥ N, solveEndEffector lib fuel flag d path T w init = .ok r ∧ solveEndEffector lib' fuel flag d path T w' init' = .ok r') ∧
      (r.success = true → r'.success = true → ∃ X X',
        r.c_of_t.eval = curve (degreeOf flag) (fillMany flag (nth pi) X) T ∧
        r'.c_of_t.eval = curve (degreeOf flag) (fillMany flag (nth pi) X') T ∧
        ∀ v v', IsDeriv r.c_of_t.eval v → IsDeriv r'.c_of_t.eval v' →
          ∫ t in (0 : ℝ)..T, sq3 (v t) ≤ (∫ t in (0 : ℝ)..T, sq3 (v' t))
            + velTol flag / T * ((∑ i ∈ range (degreeOf flag + 1), sq3 (fillMany flag (nth pi) X i))
              + ∑ i ∈ range (degreeOf flag + 1), sq3 (fillMany flag (nth pi) X' i))) := by
  obtain ⟨pi, S, R, r, r', N, e1, hl, hS, -, hrun, hok⟩ := weight_calls lib lib' hL hL' he he' flag hf d path T hT w w' h0 h h1 init init'
  obtain ⟨c, hc, -, s, hs, C, hV⟩ := C63_velocity_cost flag hf d T hT pi hl
  rw [hS] at hc
  obtain rfl := Out.ok.inj hc
  refine ⟨pi, r, r', N, e1, hrun, fun q q' => ?_⟩
  obtain ⟨X, X', hcu, hcu', -, o⟩ := hok q q'
  refine ⟨X, X', hcu, hcu', fun v v' hv hv' => ?_⟩
  rw [hcu] at hv
  rw [hcu'] at hv'
  have b1 := (abs_le.mp (hV X v hv)).1
  have b2 := (abs_le.mp (hV X' v' hv')).2
  dsimp only at b1 b2
  refine le_of_mul_le_mul_left ?_ hs
  have e : s * ((∫ t in (0 : ℝ)..T, sq3 (v' t)) + velTol flag / T * ((∑ i ∈ range (degreeOf flag + 1), sq3 (fillMany flag (nth pi) X i))
      + ∑ i ∈ range (degreeOf flag + 1), sq3 (fillMany flag (nth pi) X' i)))
      = s * (∫ t in (0 : ℝ)..T, sq3 (v' t)) + velTol flag * s / T * (∑ i ∈ range (degreeOf flag + 1), sq3 (fillMany flag (nth pi) X i))
        + velTol flag * s / T * ∑ i ∈ range (degreeOf flag + 1), sq3 (fillMany flag (nth pi) X' i) := by ring
  rw [e]
  linarith

/-! ## One free point -/

/-- The distance cost of the set with one free point: the curve is compared with the path after a displacement that is the whole
motion at the beginning. -/
theorem one_distance (d : BC) (T : ℝ) (hT : T ≠ 0) (path : ℝ → V3) : ∃ pi R, computeConstantWaypoints 255#32 d T = .ok pi ∧
    computeDistanceCostFunctionPath 255#32 d T 50 path = .ok R ∧ ∃ s > 0, ∃ C, ∀ X, blockForm R.1 R.2 X = s * ∑ i ∈ range 50,
      sq3 (curve 8 (fillMany 255#32 (nth pi) X) T (i / 49 * T) + (1 - (i / 49 : ℝ)) ^ 8 • (d.c1 - d.c0) - path (i / 49)) + C := by
  have hlen : (samplePath 50 path).length = 50 := by simp [samplePath]
  obtain ⟨pi, R, W, h1, h2, h3, s, hs, C, h4⟩ := C49_distance_samples 255#32 (by decide) d T (samplePath 50 path) (by rw [hlen]; norm_num)
  rw [hlen] at h3 h4
  have hp : pi.length = 9 ∧ nth pi 0 = d.c0 ∧ nth pi 8 = d.c1 := by
    simp only [computeConstantWaypoints] at h1
    obtain rfl := Out.ok.inj h1
    simp [nth, c0_dc0_ddc0_j0_j1_ddc1_dc1_c1.computeConstantWaypoints]
  obtain ⟨hl, p0, p8⟩ := hp
  refine ⟨pi, R, h1, h3, s, hs, C, fun X => ?_⟩
  rw [h4]
  congr 2
  refine Finset.sum_congr rfl fun i hi => ?_
  have hi := Finset.mem_range.mp hi
  rw [show (((50 : ℕ) : ℝ) - 1) = 49 by norm_num]
  obtain ⟨w, hw, hX⟩ := C10_j0_j1_error pi hl ((i : ℝ) / 49)
  rw [h2] at hw
  obtain rfl := Out.ok.inj hw
  have hX := hX X
  dsimp only at hX
  rw [hX, curve, mul_div_cancel_right₀ _ hT, p0, p8]
  congr 2
  have e : (i : ℝ) * (1 / (((50 : ℕ) : ℝ) - 1)) = i / 49 := by norm_num; ring
  simp only [samplePath, List.getD_eq_getElem?_getD, List.getElem?_map, List.getElem?_range hi, Option.map_some, Option.getD_some, e]

/-- C126, the set with one free point: what is not farther from the path, with a larger weight, is the displaced motion. -/
theorem C126_one (lib lib' : Lib) (hL : LibOk lib) (hL' : LibOk lib') (he : lib.eps = 0) (he' : lib'.eps = 0) (d : BC) (path : ℝ → V3)
    (T : ℝ) (hT : 0 < T) (w w' : ℝ) (h0 : 0 ≤ w) (h : w < w') (h1 : w' ≤ 1) (init init' : List ℝ) : ∃ r r' N,
      (∀ fuel ≥ N, solveEndEffector lib fuel 255#32 d path T w init = .ok r ∧
        solveEndEffector lib' fuel 255#32 d path T w' init' = .ok r') ∧
      (r.success = true → r'.success = true →
        ∑ i ∈ range 50, sq3 (r'.c_of_t.eval (i / 49 * T) + (1 - (i / 49 : ℝ)) ^ 8 • (d.c1 - d.c0) - path (i / 49))
          ≤ ∑ i ∈ range 50, sq3 (r.c_of_t.eval (i / 49 * T) + (1 - (i / 49 : ℝ)) ^ 8 • (d.c1 - d.c0) - path (i / 49))) := by
  obtain ⟨pi, S, R, r, r', N, e1, -, -, hR, hrun, hok⟩ := weight_calls lib lib' hL hL' he he' 255#32 (by decide) d path T hT w w' h0 h h1 init init'
  obtain ⟨pi', R', e1', hR', s, hs, C, hD⟩ := one_distance d T hT.ne' path
  rw [e1] at e1'
  obtain rfl := Out.ok.inj e1'
  rw [hR] at hR'
  obtain rfl := Out.ok.inj hR'
  refine ⟨r, r', N, hrun, fun q q' => ?_⟩
  obtain ⟨X, X', hcu, hcu', o, -⟩ := hok q q'
  rw [show degreeOf 255#32 = 8 by decide] at hcu hcu'
  rw [hD, hD, ← hcu, ← hcu'] at o
  exact le_of_mul_le_mul_left (by linarith) hs

/-- The curve of the move of one metre. -/
theorem jerky_curve (v : V3) {pi : List V3} (h : computeConstantWaypoints 255#32 (jerkyMove 0 v) 1 = .ok pi) (X : ℕ → V3) (t : ℝ) :
    curve 8 (fillMany 255#32 (nth pi) X) 1 t = (70 * t ^ 4 * (1 - t) ^ 4) • X 0
      + (56 * t ^ 5 * (1 - t) ^ 3 + 28 * t ^ 6 * (1 - t) ^ 2 + 8 * t ^ 7 * (1 - t) + t ^ 8) • v := by
  obtain ⟨pi', e, hl, q0, q1, q2, q3, q5, q6, q7, q8⟩ := jerkyMove_pts 0 v
  rw [h] at e
  obtain rfl := Out.ok.inj e
  have hslot : freeSlots 255#32 = [4] := by decide
  unfold curve
  funext k
  rw [bez_apply, bezS8]
  simp [fillMany, hslot, q0, q1, q2, q3, q5, q6, q7, q8]
  ring

/-- C126 is false for the set with one free point: asked to follow the motion that it plans without a path, the planner leaves it. -/
theorem C126_one_refuted : ∃ M, ∀ lib, LibOk lib → lib.eps = 0 → M ≤ lib.maxIter → ∀ init, ∃ path r r' N,
    (∀ fuel ≥ N, solveEndEffector lib fuel 255#32 (jerkyMove 0 ![1, 0, 0]) path 1 0 init = .ok r ∧
      solveEndEffector lib fuel 255#32 (jerkyMove 0 ![1, 0, 0]) path 1 1 init = .ok r') ∧ r.success = true ∧ r'.success = true ∧
    (∀ t, r.c_of_t.eval t = path t) ∧
    ∑ i ∈ range 50, sq3 (r.c_of_t.eval (i / 49 * 1) - path (i / 49)) < ∑ i ∈ range 50, sq3 (r'.c_of_t.eval (i / 49 * 1) - path (i / 49)) := by
  have hf : (255#32 : Flag) ∈ effFlags := by decide
  obtain ⟨pi, hpi, hl, q0, q1, q2, q3, q5, q6, q7, q8⟩ := jerkyMove_pts 0 ![1, 0, 0]
  have ok : ∀ x : V3, (∀ k, |x k| ≤ 1) → 0 ≤ x 2 → EndOk 255#32 (jerkyMove 0 ![1, 0, 0]) 1 pi fun _ => x := by
    intro x hx h2
    rw [jerkyMove_ok _ _ hpi]
    refine ⟨fun k => ?_, by simpa using h2⟩
    have hv : |(![1, 0, 0] : V3) k| ≤ 1 := by fin_cases k <;> simp
    have a := abs_le.mp (hx k)
    have b := abs_le.mp hv
    simp only [Pi.zero_apply, abs_le]
    (repeat' apply And.intro) <;> linarith [a.1, a.2, b.1, b.2]
  obtain ⟨M, hM⟩ := end_verdict 255#32 hf (jerkyMove 0 ![1, 0, 0]) 1 one_pos pi hpi
  refine ⟨M, fun lib hL he hm init => ?_⟩
  have good : ∀ path w, 0 ≤ w → w ≤ 1 → ∃ c r N X, computeEndEffectorCost 255#32 (jerkyMove 0 ![1, 0, 0]) path 1 w pi = .ok c ∧
      (∀ fuel ≥ N, solveEndEffector lib fuel 255#32 (jerkyMove 0 ![1, 0, 0]) path 1 w init = .ok r) ∧ r.success = true ∧
      r.c_of_t.eval = curve 8 (fillMany 255#32 (nth pi) X) 1 ∧ EndOk 255#32 (jerkyMove 0 ![1, 0, 0]) 1 pi X ∧
      ∀ x : V3, (∀ k, |x k| ≤ 1) → 0 ≤ x 2 → blockForm c.1 c.2 X ≤ blockForm c.1 c.2 fun _ => x := by
    intro path w h0 h1
    obtain ⟨r0, N0, hr0, hv⟩ := hM lib hL he hm path w init h0 h1
    obtain ⟨_, _, _, c, r, N, e1, -, e3, hr, hok, -⟩ := C64_solves lib hL he 255#32 hf (jerkyMove 0 ![1, 0, 0]) path 1 w one_pos h0 h1 init
    rw [hpi] at e1
    obtain rfl := Out.ok.inj e1
    obtain rfl : r = r0 := Out.ok.inj ((hr _ (le_max_left N N0)).symm.trans (hr0 _ (le_max_right N N0)))
    have hs := hv.mpr ⟨_, ok 0 (by simp) (by simp)⟩
    obtain ⟨X, -, hcu, -, hX, bX⟩ := hok hs
    exact ⟨c, r, N, X, e3, hr, hs, hcu, hX, fun x hx h2 => bX _ (ok x hx h2)⟩
  obtain ⟨c, r, N, X, hc, hr, hs, hcu, hX, bX⟩ := good (fun _ => 0) 0 le_rfl zero_le_one
  have hc2 : computeEndEffectorCost 255#32 (jerkyMove 0 ![1, 0, 0]) r.c_of_t.eval 1 0 pi = .ok c := by
    rw [endCost_path 255#32 _ 1 0 pi _ (fun _ => 0) (Or.inl rfl)]
    exact hc
  -- the motion planned without a path
  obtain ⟨m, hm0, hcost⟩ := one_smooth (jerkyMove 0 ![1, 0, 0]) one_pos hl hc
  have hx : |X 0 0| ≤ 3 / 4 ∧ 1 / 4 ≤ X 0 0 ∧ |X 0 1| ≤ 1 ∧ 0 ≤ X 0 2 ∧ X 0 2 ≤ 1 := by
    have o := bX ![1 / 2, 0, 0] (by intro k; fin_cases k <;> norm_num [abs_le]) (by simp)
    rw [hcost, hcost, q0, q1, q3, q5, q7, q8] at o
    have o := le_of_mul_le_mul_left o hm0
    simp [sq3, dot] at o
    have h2 : 0 ≤ X 0 2 := by simpa using ((jerkyMove_ok _ _ hpi X).mp hX).2
    have k : (X 0 0 - 1 / 2) ^ 2 + X 0 1 ^ 2 + X 0 2 ^ 2 ≤ 1 / 100 + 1 / 100 * (X 0 0 - 1 / 2) ^ 2 := by nlinarith [sq_nonneg (X 0 0 - 1 / 2 - 1), sq_nonneg (X 0 0 - 1 / 2 + 1)]
    have k0 : (X 0 0 - 1 / 2) ^ 2 ≤ (1 / 4) ^ 2 := by nlinarith [sq_nonneg (X 0 1), sq_nonneg (X 0 2)]
    have k1 := abs_le.mp (abs_le_of_sq_le_sq k0 (by norm_num))
    have k2 : |X 0 1| ≤ 1 := abs_le_of_sq_le_sq (by nlinarith [sq_nonneg (X 0 2), sq_nonneg (X 0 0 - 1 / 2)]) (by norm_num)
    have k3 : |X 0 2| ≤ 1 := abs_le_of_sq_le_sq (by nlinarith [sq_nonneg (X 0 1), sq_nonneg (X 0 0 - 1 / 2)]) (by norm_num)
    refine ⟨abs_le.mpr ⟨?_, ?_⟩, ?_, k2, h2, (abs_le.mp k3).2⟩ <;> linarith [k1.1, k1.2]
  obtain ⟨r1, r2, N1, hr1, h12⟩ := C125_motion 255#32 hf (jerkyMove 0 ![1, 0, 0]) 1 one_pos lib lib hL hL he he (fun _ => 0) r.c_of_t.eval 0
    le_rfl zero_le_one (Or.inl rfl) init init
  obtain rfl : r = r1 := Out.ok.inj ((hr _ (le_max_left N N1)).symm.trans (hr1 _ (le_max_right N N1)).1)
  obtain ⟨-, r3, N3, -, -, hr3, hs3, -⟩ := good r.c_of_t.eval 0 le_rfl zero_le_one
  obtain rfl : r2 = r3 := Out.ok.inj ((hr1 _ (le_max_left N1 N3)).2.symm.trans (hr3 _ (le_max_right N1 N3)))
  have h12 := h12 hs hs3
  obtain ⟨c', r', N', X', hc', hr', hs', hcu', hX', bX'⟩ := good r.c_of_t.eval 1 zero_le_one le_rfl
  refine ⟨r.c_of_t.eval, r2, r', max N1 N', fun fuel hfu => ⟨(hr1 fuel (le_trans (le_max_left _ _) hfu)).2,
    hr' fuel (le_trans (le_max_right _ _) hfu)⟩, hs3, hs', fun t => by rw [h12], ?_⟩
  -- the cost with weight 1
  obtain ⟨pi', R, e1', hR, s, hspos, C, hD⟩ := one_distance (jerkyMove 0 ![1, 0, 0]) 1 one_ne_zero r.c_of_t.eval
  rw [hpi] at e1'
  obtain rfl := Out.ok.inj e1'
  obtain ⟨c2, hc2', -, S, -, -, hc1⟩ := endCost_pos 255#32 hf (jerkyMove 0 ![1, 0, 0]) r.c_of_t.eval 1 1 one_pos zero_le_one le_rfl pi hl
  rw [hc'] at hc2'
  obtain rfl := Out.ok.inj hc2'
  obtain ⟨R', hR', hB⟩ := hc1 one_pos
  rw [hR] at hR'
  obtain rfl := Out.ok.inj hR'
  have hB' : ∀ Z, blockForm c'.1 c'.2 Z = s * ∑ i ∈ range 50, sq3 ((70 * (i / 49 : ℝ) ^ 4 * (1 - (i / 49 : ℝ)) ^ 4) • (Z 0 - X 0)
      + (1 - (i / 49 : ℝ)) ^ 8 • ![1, 0, 0]) + C := by
    intro Z
    rw [hB, hD, sub_self, zero_mul, zero_add, one_mul]
    congr 2
    refine Finset.sum_congr rfl fun i _ => ?_
    rw [mul_one, hcu, jerky_curve _ hpi, jerky_curve _ hpi]
    congr 1
    simp only [jerkyMove, sub_zero, smul_sub]
    abel
  have hdist : ∀ i : ℕ, r'.c_of_t.eval (i / 49 * 1) - r.c_of_t.eval (i / 49) = (70 * (i / 49 : ℝ) ^ 4 * (1 - (i / 49 : ℝ)) ^ 4) • (X' 0 - X 0) := by
    intro i
    rw [mul_one, hcu, hcu', jerky_curve _ hpi, jerky_curve _ hpi, smul_sub]
    abel
  have hz : ∑ i ∈ range 50, sq3 (r2.c_of_t.eval (i / 49 * 1) - r.c_of_t.eval (i / 49)) = 0 := by
    refine Finset.sum_eq_zero fun i _ => ?_
    rw [h12, mul_one, sub_self]
    simp [sq3, dot]
  rw [hz]
  simp only [hdist]
  have hne : X' 0 - X 0 ≠ 0 := by
    intro h0
    have o := bX' (X 0 + ![-1 / 10, 0, 0]) (by
      intro k
      obtain ⟨a1, a2, a3, a4, a5⟩ := hx
      have b1 := abs_le.mp a1
      fin_cases k
      · show |X 0 0 + -1 / 10| ≤ 1
        rw [abs_le]; constructor <;> linarith
      · show |X 0 1 + 0| ≤ 1
        rwa [add_zero]
      · show |X 0 2 + 0| ≤ 1
        rw [add_zero, abs_le]; constructor <;> linarith) (by
      show 0 ≤ X 0 2 + 0
      rw [add_zero]; exact hx.2.2.2.1)
    rw [hB', hB', h0, add_sub_cancel_left] at o
    have o := le_of_mul_le_mul_left (le_of_add_le_add_right o) hspos
    have e : ∀ a q u : ℝ, sq3 (a • (![u, 0, 0] : V3) + q • ![1, 0, 0]) = (a * u + q) ^ 2 := by
      intro a q u
      simp [sq3, dot]
      ring
    have e0 : ∀ a q : ℝ, sq3 (a • (0 : V3) + q • ![1, 0, 0]) = q ^ 2 := by
      intro a q
      simp [sq3, dot]
      ring
    simp only [e, e0] at o
    norm_num [Finset.sum_range_succ] at o
  have hd : 0 < sq3 (X' 0 - X 0) := lt_of_le_of_ne (dot_self_nonneg' _) fun h => hne (dot_self_zero' _ h.symm)
  have e : ∀ (a : ℝ) (v : V3), sq3 (a • v) = a ^ 2 * sq3 v := by
    intro a v
    simp only [sq3, dot, Fin.sum_univ_three, Pi.smul_apply, smul_eq_mul]
    ring
  simp only [e]
  refine Finset.sum_pos' (fun i _ => by positivity) ⟨1, by simp, ?_⟩
  have : (0 : ℝ) < (70 * (((1 : ℕ) : ℝ) / 49) ^ 4 * (1 - ((1 : ℕ) : ℝ) / 49) ^ 4) ^ 2 := by norm_num
  exact mul_pos this hd

end Verif
