import Verif.Props.C56

/-!
# C07: the constraint set with jerks
-/

namespace Verif
open Matrix

/-- Whenever the planner succeeds with the constraint set `c0_dc0_ddc0_j0_j1_ddc1_dc1_c1`, the returned curve ends at
`c1 - T/4 dc1 + T²/56 ddc1`: the control points after the free one are shifted by two. -/
theorem C07_jerk_end (pData : ProblemData) (Ts : List ℝ) (q : ResultData) (res : ResultDataCOMTraj)
    (h : Planned pData Ts q res) (hs : res.success = true) (hf : pData.flag = 255#32) :
    res.c_of_t.eval Ts.sum = pData.bc.c1 - (Ts.sum / 4) • pData.bc.dc1 + (Ts.sum ^ 2 / 56) • pData.bc.ddc1 := by
  have hq := (C29_success_iff pData Ts q res h).mp hs
  have := h.genTraj
  unfold Verif.genTraj at this
  rw [hq, hf] at this
  simp only [if_true, Out.bind_eq_ok] at this
  obtain ⟨x, -, pts, e2, c, e3, e4⟩ := this
  cases e4
  have hT : 0 < Ts.sum := by
    unfold computeBezierCurve mkBezier at e3
    simp only [Out.bind_eq_ok] at e3
    obtain ⟨w0, -, w1, -, e⟩ := e3
    split_ifs at e with h0
    push_neg at h0
    exact h0.2
  have hT' : ¬ Ts.sum ≤ 0 := not_le.mpr hT
  simp [computeConstantWaypoints] at e2
  subst e2
  simp [computeBezierCurve, bezierInit, bezierEnd, mkBezier, rd, hT', Flag.has, INIT_POS, INIT_VEL, INIT_ACC,
    END_POS, END_VEL, END_ACC, c0_dc0_ddc0_j0_j1_ddc1_dc1_c1.computeConstantWaypoints] at e3
  rw [← e3]
  simp only [Bezier.eval]
  rw [div_self hT.ne', bez_at_one]
  funext k
  simp
  ring

/-- A problem with the set `c0_dc0_ddc0_j0_j1_ddc1_dc1_c1`, without any other constraint. -/
def jerkProblem (d : BC) : ProblemData :=
  { contacts := [freeContact], bc := d, l0 := 0, useAngularMomentum := false, flag := 255#32,
    constraintAcceleration := false, maxAcceleration := 0, reduce_h := 0, costFunction := 2, representation := 1 }

theorem jerk_system (d : BC) (T : ℝ) :
    ∃ A b, computeConstraintsOneStep (jerkProblem d) 1 T [(0, 0), (T, 0)] = .ok (A, b) ∧ A.rows = 0 ∧ A.cols = 3 ∧
      b.rows = 0 ∧ b.cols = 1 := by
  obtain ⟨ws, hws, hne, hl⟩ : ∃ ws, computeWwaypoints 255#32 [freeContact] d T = .ok ws ∧ ws ≠ [] ∧ ws.length ≤ 12 :=
    ⟨_, by simp [computeWwaypoints, frontGravity, freeContact, computeConstantWaypoints]; rfl,
      by simp [c0_dc0_ddc0_j0_j1_ddc1_dc1_c1.computeWwaypoints], by simp [c0_dc0_ddc0_j0_j1_ddc1_dc1_c1.computeWwaypoints]⟩
  obtain ⟨bs, hbs, F, hF⟩ := wSample ws hne hl
  have hW : computeDiscretizedWwaypoints (jerkProblem d) T [(0, 0), (T, 0)]
      = .ok ([(0, 0), (T, 0)].map fun q : ℝ × ℤ => F (min (q.1 / T) 1)) := by
    rw [computeDiscretizedWwaypoints]
    simp only [jerkProblem]
    rw [hws, Out.ok_bind, hbs, Out.ok_bind]
    exact mapList_ok _ _ _ fun q hq => (hF _).1
  obtain ⟨c0, c1, hK⟩ : ∃ c0 c1 : Coefs, computeDiscretizedWaypoints (jerkProblem d) T [(0, 0), (T, 0)]
      = .ok [c0, c1] := by
    have hev : ∀ t, ∃ c, evaluateCurveAtTime 255#32 (c0_dc0_ddc0_j0_j1_ddc1_dc1_c1.computeConstantWaypoints d T) t
        = .ok c := by
      intro t
      simp [evaluateCurveAtTime, withPts, c0_dc0_ddc0_j0_j1_ddc1_dc1_c1.computeConstantWaypoints,
        c0_dc0_ddc0_j0_j1_ddc1_dc1_c1.evaluateCurveAtTime]
    choose f hf using hev
    refine ⟨f (min (0 / T) 1), f (min (T / T) 1), ?_⟩
    have : computeConstantWaypoints 255#32 d T
        = .ok (c0_dc0_ddc0_j0_j1_ddc1_dc1_c1.computeConstantWaypoints d T) := by simp [computeConstantWaypoints]
    simp only [computeDiscretizedWaypoints, jerkProblem, this, Out.ok_bind, Out.mapList, hf, Out.pure_eq]
  have hH : updateH 0 freeContact = .ok [] := by simp [updateH, freeContact]
  have hD : ∀ (g : V3) (w : Wp6), dynamicStabilityConstraints [] g w = [] := by
    intro g w
    exact List.length_eq_zero_iff.mp (by rw [dyn_length]; rfl)
  unfold computeConstraintsOneStep
  simp only [assignStabilityConstraints, assignKinematicConstraints, hW, hK]
  simp [stepIdPerPhase, stepIdGo, computeNumIneq, numIneqLoop, jerkProblem, assignAccelerationConstraints,
    stabLoop, switchLoop, kinLoop, kinSwitchLoop, assignStabilityConstraintsForTimeStep, hH, hD, Asm.put,
    Buf.writeRows, Buf.writeSeg, Buf.write, Buf.zero, Buf.uninit, assignKin, Buf.value]
  simp [freeContact]

/-- It succeeds. -/
theorem jerkProblem_succeeds (lib : Lib) (hL : LibOk lib) (he : lib.eps = 0) (hm : 1 < lib.maxIter) (d : BC) (T : ℝ)
    (hT : 0 < T) : ∃ res N, (∀ fuel ≥ N, computeCOMTrajFixedSize lib fuel (jerkProblem d) [T] 1 = .ok res) ∧
      res.success = true := by
  obtain ⟨A, b, hA, hAr, hAc, hbr, hbc⟩ := jerk_system d T
  have hl : computeDiscretizedTimeFixed [T] 1 = [(0, 0), (T, 0)] := by
    simp [computeDiscretizedTimeFixed, fixedOuter, fixedInner]
  obtain ⟨k, w, hk, hgen⟩ : ∃ k w, 0 < k ∧ genCostFunction (jerkProblem d) [T] ([T] : List ℝ).sum
      [(0, 0), (T, 0)] 3 = .ok (costH 0 k, costG 0 w) := by
    refine ⟨1, -fun k => (d.c0 k + d.c1 k) / 2, one_pos, ?_⟩
    unfold genCostFunction costGenCostFunction computeCostMidPoint
    rw [if_neg (by simp [jerkProblem, ACCELERATION]), if_pos (show (jerkProblem d).costFunction = DISTANCE_TRAVELED from rfl)]
    exact cost_blocks 0 _ _
  have hfits : Fits A b (Mat.noRows A.cols) (Mat.noRows 1) (costH 0 k) (costG 0 w) :=
    ⟨⟨rfl, rfl⟩, ⟨by rw [hbr, hAr], hbc, hAc⟩, ⟨rfl, hAc⟩⟩
  obtain ⟨q, N, hrun, hxl, hsucc, hfail⟩ := solve_exact lib hL he hfits [] (List.replicate 3 0) (Or.inl rfl)
    (costH_posDef 0 k hk) (Nat.zero_le _)
  have hxl' : q.x.length = 3 := hxl
  have hq : q.success = true := by
    by_contra hq
    rcases hfail (by simpa using hq) with h | h | ⟨i, hi, -⟩
    · rw [hAr] at h
      simp at h
      omega
    · exact h (fun _ => 0) ⟨fun r hr => absurd hr (by rw [hAr]; exact Nat.not_lt_zero _),
        fun r hr => absurd hr (Nat.not_lt_zero _), fun c b h => by simp at h⟩
    · exact absurd hi (Nat.not_lt_zero _)
  obtain ⟨x, hx⟩ : ∃ x, head3 q.x = .ok x := by simp [head3, hxl']
  have hT' : ¬ T ≤ 0 := not_le.mpr hT
  have hp : computeConstantWaypoints 255#32 d T
      = .ok (c0_dc0_ddc0_j0_j1_ddc1_dc1_c1.computeConstantWaypoints d T) := by simp [computeConstantWaypoints]
  obtain ⟨c, hc⟩ : ∃ c, computeBezierCurve 255#32 T
      (c0_dc0_ddc0_j0_j1_ddc1_dc1_c1.computeConstantWaypoints d T) x = .ok c := by
    simp [computeBezierCurve, bezierInit, bezierEnd, mkBezier, rd, hT', Flag.has, INIT_POS, INIT_VEL, INIT_ACC,
      END_POS, END_VEL, END_ACC, c0_dc0_ddc0_j0_j1_ddc1_dc1_c1.computeConstantWaypoints]
  refine ⟨{ success := true, cost := q.cost, x := List.ofFn x, c_of_t := c, dL_of_t := Bezier.zero T,
            dc1 := c.derivate c.T 1, ddc1 := c.derivate c.T 2 }, N, fun fuel hfuel => ?_, rfl⟩
  have hs : ([T] : List ℝ).sum = T := by simp
  unfold computeCOMTrajFixedSize
  rw [if_pos (show (jerkProblem d).representation = DOUBLE_DESCRIPTION from rfl), if_neg (by simp [jerkProblem]), hl]
  rw [hs] at hgen ⊢
  dsimp only
  rw [show ([T] : List ℝ).length = 1 from rfl, hA, Out.ok_bind]
  dsimp only
  rw [hgen, Out.ok_bind]
  dsimp only
  rw [hrun fuel hfuel, Out.ok_bind]
  unfold genTraj
  rw [if_pos hq, hx, Out.ok_bind]
  simp only [jerkProblem]
  rw [hp, Out.ok_bind, hc, Out.ok_bind]
  rfl

/-- C07 fails for the constraint set with jerks: a problem on which every call succeeds, with a curve that does not
end at `c1`. -/
theorem C07_refuted : ∃ (pData : ProblemData) (Ts : List ℝ) (n : ℕ), pData.flag = 255#32 ∧
    ∀ maxIter > 1, ∃ res N, (∀ fuel ≥ N, computeCOMTrajFixedSize (exactLib maxIter) fuel pData Ts n = .ok res) ∧
      res.success = true ∧ res.c_of_t.eval Ts.sum ≠ pData.bc.c1 := by
  refine ⟨jerkProblem ⟨0, 0, 0, 0, 0, ![1, 0, 0], 0, 0⟩, [1], 1, rfl, fun maxIter hm => ?_⟩
  obtain ⟨res, N, hrun, hs⟩ := jerkProblem_succeeds (exactLib maxIter) (exactLib_ok maxIter) rfl hm
    ⟨0, 0, 0, 0, 0, ![1, 0, 0], 0, 0⟩ 1 one_pos
  refine ⟨res, N, hrun, hs, fun h => ?_⟩
  obtain ⟨q, hq⟩ := (C29_planned _ _ _).1 _ _ _ (hrun N le_rfl)
  rw [C07_jerk_end _ _ q res hq hs rfl] at h
  have := congrFun h 0
  simp [jerkProblem] at this

end Verif
