import Verif.Props.C56
import Verif.Props.C56Tol
import Verif.Props.C39Ref

/-!
# C71, C72: when the constraints do not matter

If the best point satisfies the constraints, it is returned, whatever the threshold of the solver and the scale of the
data.
-/

namespace Verif
open Matrix

/-- A minimiser of the objective without constraints is the starting point of the solver. -/
theorem minimiser_eq {n : ℕ} {P : QP n} {J0 : ℕ → VecN n} (hF : Factor P.G J0) (w : Work n) {x : VecN n}
    (hx : ∀ y, qpObj P x ≤ qpObj P y) : (qpInit P J0 w).x = x ∧ (qpInit P J0 w).f = qpObj P x := by
  set x0 := (qpInit P J0 w).x with hx0
  have hst : P.G *ᵥ x0 = -P.g := by
    rw [hx0]
    show P.G *ᵥ (-∑ j ∈ Finset.range n, (J0 j ⬝ᵥ P.g) • J0 j) = -P.g
    rw [Matrix.mulVec_neg, hF P.g]
  have hpd := (factor_iff_posDef P.G).mp ⟨J0, hF⟩
  have e := qpObj_add hF x0 (x - x0)
  rw [add_sub_cancel, hst, neg_add_cancel, zero_dotProduct] at e
  have hle := hx x0
  have heq : x0 = x := by
    by_contra hne
    have hv : x - x0 ≠ 0 := sub_ne_zero.mpr fun h => hne h.symm
    have := hpd.dotProduct_mulVec_pos hv
    simp only [star_trivial] at this
    linarith
  refine ⟨heq, ?_⟩
  rw [← heq]
  show 1 / 2 * (P.g ⬝ᵥ x0) = _
  unfold qpObj
  rw [hst, dotProduct_neg, dotProduct_comm]
  ring

/-- C71. Without equalities, when a minimiser of the objective satisfies the inequalities the solver returns it with
the status OPTIMAL and its objective, for every threshold and every limit of at least two iterations. -/
theorem C71_unconstrained_minimiser {n : ℕ} (eps : ℝ) {maxIter : ℕ} (hm : 1 < maxIter) {P : QP n} {J0 : ℕ → VecN n}
    (w : Work n) (hF : Factor P.G J0) (hE : P.CE = []) {x : VecN n} (hx : ∀ y, qpObj P x ≤ qpObj P y)
    (hI : ∀ e ∈ P.CI, 0 ≤ e.1 ⬝ᵥ x + e.2) :
    ∃ s, (∀ fuel ≥ 3, solveQuadprog eps maxIter P J0 w fuel = .ok (.optimal, s)) ∧ s.x = x ∧ s.f = qpObj P x := by
  obtain ⟨e1, e2⟩ := minimiser_eq hF w hx
  have hsl : ∀ i, 0 ≤ P.slack (qpInit P J0 w).x i := by
    intro i
    rw [e1]
    unfold QP.slack QP.row
    by_cases hi : i < P.CI.length
    · rw [List.getD_eq_getElem?_getD, List.getElem?_eq_getElem hi]
      exact hI _ (List.getElem_mem hi)
    · rw [List.getD_eq_getElem?_getD, List.getElem?_eq_none (not_lt.mp hi)]
      simp
  set s0 := qpInit P J0 w with hs0
  have hq0 : qpStep eps maxIter P J0 (.eq 0 s0) = .ok (.l1 { s0 with iai := fun i => (i : ℤ) }) := by
    show stepEq eps P 0 s0 = _
    unfold stepEq
    rw [hE]
    simp
  have hiq : s0.iq = 0 := rfl
  have hit : s0.iter = 0 := rfl
  have hq1 : ∃ t : QState n, t.x = x ∧ t.f = qpObj P x ∧ t.ss = 0 ∧ (∀ i, 0 ≤ t.s i) ∧
      (qpStep eps maxIter P J0 (.l1 { s0 with iai := fun i => (i : ℤ) }) = .ok (.ret .optimal t) ∨
        qpStep eps maxIter P J0 (.l1 { s0 with iai := fun i => (i : ℤ) }) = .ok (.l2 t)) := by
    have hv : activeValid s0.A P.CE.length s0.iq P.CI.length := by
      intro i _ hi
      rw [hiq] at hi
      omega
    show ∃ t : QState n, t.x = x ∧ t.f = qpObj P x ∧ t.ss = 0 ∧ (∀ i, 0 ≤ t.s i) ∧
      (stepL1 eps maxIter P J0 _ = _ ∨ stepL1 eps maxIter P J0 _ = _)
    unfold stepL1
    dsimp only
    rw [if_neg (by rw [hit]; omega), if_pos ⟨by rw [hiq]; omega, hv⟩]
    split_ifs
    · refine ⟨_, ?_, ?_, ?_, ?_, Or.inl rfl⟩
      exacts [e1, e2, rfl, hsl]
    · refine ⟨_, ?_, ?_, ?_, ?_, Or.inr rfl⟩
      exacts [e1, e2, rfl, hsl]
  obtain ⟨t, t1, t2, t3, t4, h | h⟩ := hq1
  · refine ⟨t, fun fuel hfuel => ?_, t1, t2⟩
    obtain ⟨k, rfl⟩ : ∃ k, fuel = k + 3 := ⟨fuel - 3, by omega⟩
    unfold solveQuadprog
    rw [qpRun, hq0, Out.ok_bind, qpRun, h, Out.ok_bind, qpRun] <;> simp
  · have hq2 : stepL2 P t = .ok (.ret .optimal t) := by
      unfold stepL2
      dsimp only
      rw [chooseViolated_none _ _ _ _ _ fun i _ => by rw [t3]; exact t4 i]
      rw [if_pos (by rw [t3])]
    refine ⟨t, fun fuel hfuel => ?_, t1, t2⟩
    obtain ⟨k, rfl⟩ : ∃ k, fuel = k + 3 := ⟨fuel - 3, by omega⟩
    unfold solveQuadprog
    have hq2' : qpStep eps maxIter P J0 (.l2 t) = .ok (.ret .optimal t) := hq2
    rw [qpRun, hq0, Out.ok_bind, qpRun, h, Out.ok_bind, qpRun, hq2', Out.ok_bind, qpRun] <;> simp

/-- `solve` without equations and bounds: the same. -/
theorem solve_unconstrained (lib : Lib) (hL : LibOk lib) (hm : 1 < lib.maxIter) {A b D d Hess g : Mat}
    (h : Fits A b D d Hess g) (hD : D.rows = 0) (init : List ℝ)
    (hpd : Matrix.PosDef (fun i j : Fin g.rows => Hess.e i j : Matrix (Fin g.rows) (Fin g.rows) ℝ)) (z : ℕ → ℝ)
    (hz : ∀ y, quadForm Hess g g.rows z ≤ quadForm Hess g g.rows y) (hsat : Sat A b z) :
    ∃ q, (∀ fuel ≥ 3, solversSolve lib fuel A b D d Hess g init [] [] SOLVER_QUADPROG = .ok q) ∧
      q.success = true ∧ q.x.length = g.rows ∧ (∀ c < g.rows, unk q.x c = z c) ∧
      2 * q.cost = quadForm Hess g g.rows z := by
  obtain ⟨P, hG, hg, hCI, hCE, -, -, hf, -, -, hrun⟩ := C36_problem h [] (Or.inl rfl)
  have hF : Factor P.G (lib.chol g.rows P.G) := by
    apply hL
    have : P.G = (fun i j : Fin g.rows => Hess.e i j) := by ext i j; exact hG i j
    rw [this]; exact hpd
  have hE : P.CE = [] := List.length_eq_zero_iff.mp (by rw [hCE, hD])
  have hfeas := (hf z).mpr ⟨hsat, fun r hr => by omega, fun c b h => by simp at h⟩
  have hmin : ∀ y : VecN g.rows, qpObj P (fun i => z i) ≤ qpObj P y := by
    intro y
    have a := qpObj_quadForm P Hess g hG hg z
    have b := qpObj_quadForm P Hess g hG hg (extN y)
    rw [extN_restrict] at b
    have := hz (extN y)
    linarith
  obtain ⟨s, hs, hx, hfv⟩ := C71_unconstrained_minimiser lib.eps hm (lib.work g.rows) hF hE hmin hfeas.2
  refine ⟨{ success := true, cost := s.f, x := List.ofFn s.x }, fun fuel hfuel => ?_, rfl, by simp, fun c hc => ?_, ?_⟩
  · rw [hrun, hs fuel hfuel]; simp
  · rw [unk_ofFn, hx]
    simp [extN, hc]
  · show 2 * s.f = _
    rw [hfv, ← qpObj_quadForm P Hess g hG hg]

/-! ## The planner -/

theorem planSamples_unconstrained (lib : Lib) (hL : LibOk lib) (hm : 1 < lib.maxIter) (pData : ProblemData)
    (Ts : List ℝ) (g : V3) (h : Accepted pData Ts g) (hf : pData.flag ∈ [11#32, 19#32, 27#32, 7#32, 15#32])
    (l : TTime) (hl : Discretisation Ts l) (hc : GoodCost pData Ts.sum l) {x : V3} {c v a : ℝ → V3}
    (hmot : Motion pData Ts.sum x c v a) (hmeet : MeetsSamples pData l c a)
    (hbest : ∀ x' c' v' a', Motion pData Ts.sum x' c' v' a' → motionCost pData l x a ≤ motionCost pData l x' a') :
    ∃ res, (∀ fuel ≥ 3, planSamples lib fuel pData Ts l = .ok res) ∧ res.success = true ∧ res.point = x ∧
      res.c_of_t.eval = c := by
  obtain ⟨A, b, hA, hcols, hbr, hbc⟩ := C18_in_bounds_and_complete pData Ts g h l hl
  obtain ⟨pts, hpts, hx⟩ := C19_physical pData Ts g h hf l hl A b hA
  obtain ⟨k, w, K, hk, hgen, hcost⟩ := cost_hess pData Ts h.total l (C26_samples Ts h.ne h.pos l hl) h.flag hc pts hpts 0
  rw [Nat.add_zero] at hgen hcost
  have hfits : Fits A b (Mat.noRows A.cols) (Mat.noRows 1) (costH 0 k) (costG 0 w) :=
    ⟨⟨rfl, rfl⟩, ⟨hbr, hbc, hcols⟩, ⟨rfl, hcols⟩⟩
  have hcm := hmot
  obtain ⟨pts', hpts', rfl, hv, ha⟩ := hmot
  rw [hpts] at hpts'
  cases hpts'
  have hsat : Sat A b (ext3 x) := by
    obtain ⟨v', a', hv', ha', hiff⟩ := hx x
    have e1 := deriv_unique hv hv'
    subst e1
    have e2 := deriv_unique ha ha'
    subst e2
    exact hiff.mpr hmeet
  obtain ⟨q, hrun, hqs, hxl, hqx, -⟩ := solve_unconstrained lib hL hm hfits rfl (List.replicate 3 0)
    (costH_posDef 0 k hk) (ext3 x) (fun y => by
      change quadForm (costH 0 k) (costG 0 w) 3 _ ≤ quadForm (costH 0 k) (costG 0 w) 3 _
      obtain ⟨v', a', hm'⟩ := motion_exists pData Ts.sum pts hpts h.flag h.total.ne' (first3 y)
      rw [hcost (ext3 x) _ v a (by rw [first3_ext3]; exact hcm), hcost y _ _ _ hm', first3_ext3]
      simp only [Finset.range_zero, Finset.sum_empty, mul_zero, add_zero]
      linarith [hbest _ _ _ _ hm']) hsat
  have hxl' : q.x.length = 3 := hxl
  obtain ⟨res, hres, hss, hgood⟩ := genTraj_total q pData Ts.sum h.total pts hpts h.flag (by omega)
  obtain ⟨hp, -, hcurve⟩ := hgood hqs
  have hpx : res.point = x := by
    rw [hp]
    funext i
    show unk q.x i = x i
    rw [hqx i i.2]
    simp [ext3]
  refine ⟨res, fun fuel hfuel => ?_, hss.trans hqs, hpx, by rw [hcurve, hpx]⟩
  unfold planSamples
  rw [hA, Out.ok_bind, hgen, Out.ok_bind]
  dsimp only
  rw [hrun fuel hfuel, Out.ok_bind, hres]

/-- C72, `computeCOMTrajFixedSize`: if the motion of least cost meets the requirements at all samples, the call
succeeds and returns this motion, for every threshold of the solver. -/
theorem C72_fixedSize (lib : Lib) (hL : LibOk lib) (hm : 1 < lib.maxIter) (pData : ProblemData) (Ts : List ℝ)
    (g : V3) (h : Accepted pData Ts g) (hr : pData.representation = DOUBLE_DESCRIPTION)
    (hf : pData.flag ∈ [11#32, 19#32, 27#32, 7#32, 15#32]) (n : ℕ) (hn : 0 < n)
    (hc : pData.costFunction = DISTANCE_TRAVELED ∨ pData.costFunction = ACCELERATION) {x : V3} {c v a : ℝ → V3}
    (hmot : Motion pData Ts.sum x c v a) (hmeet : MeetsSamples pData (computeDiscretizedTimeFixed Ts n) c a)
    (hbest : ∀ x' c' v' a', Motion pData Ts.sum x' c' v' a' →
      motionCost pData (computeDiscretizedTimeFixed Ts n) x a ≤ motionCost pData (computeDiscretizedTimeFixed Ts n) x' a') :
    ∃ res, (∀ fuel ≥ 3, computeCOMTrajFixedSize lib fuel pData Ts n = .ok res) ∧ res.success = true ∧ res.point = x ∧
      res.c_of_t.eval = c := by
  have hD : Discretisation Ts (computeDiscretizedTimeFixed Ts n) := Or.inl ⟨n, hn, rfl⟩
  obtain ⟨res, hrun, h1, h2, h3⟩ := planSamples_unconstrained lib hL hm pData Ts g h hf _ hD
    (goodCost pData Ts h.total h.ne h.flag h.capt _ hD
      (hc.imp_right fun hc => ⟨hc, fun e => by rw [e] at hf; simp at hf⟩)) hmot hmeet hbest
  refine ⟨res, fun fuel hfuel => ?_, h1, h2, h3⟩
  have := hrun fuel hfuel
  unfold planSamples at this
  unfold computeCOMTrajFixedSize
  rw [if_pos hr, if_neg (not_not.mpr h.size)]
  exact this

/-- C72, `computeCOMTraj` with a time step. -/
theorem C72_timeStep (κ : ℝ) (lib : Lib) (hL : LibOk lib) (hm : 1 < lib.maxIter) (pData : ProblemData)
    (Ts : List ℝ) (g : V3) (h : Accepted pData Ts g) (hr : pData.representation = DOUBLE_DESCRIPTION)
    (hf : pData.flag ∈ [11#32, 19#32, 27#32, 7#32, 15#32]) (step : ℝ) (hstep : 0 < step)
    (hshort : ∀ T ∈ Ts, step * 2 ≤ T)
    (hc : pData.costFunction = DISTANCE_TRAVELED ∨ pData.costFunction = ACCELERATION) {x : V3} {c v a : ℝ → V3}
    (hmot : Motion pData Ts.sum x c v a)
    (hmeet : ∀ fuel l, computeDiscretizedTime Ts step fuel = .ok l → MeetsSamples pData l c a ∧
      ∀ x' c' v' a', Motion pData Ts.sum x' c' v' a' → motionCost pData l x a ≤ motionCost pData l x' a') :
    ∃ res N, (∀ fuel ≥ N, computeCOMTraj κ lib fuel pData Ts step SOLVER_QUADPROG = .ok res) ∧ res.success = true ∧
      res.point = x ∧ res.c_of_t.eval = c := by
  obtain ⟨N0, hN0⟩ := C16_discretized_time Ts step hstep hshort
  obtain ⟨l, hl, -⟩ := hN0 N0 le_rfl
  have hdet : ∀ fuel ≥ N0, computeDiscretizedTime Ts step fuel = .ok l := by
    intro fuel hfuel
    obtain ⟨l', hl', -⟩ := hN0 fuel hfuel
    rw [hl', (disc_eq Ts step hstep _ _ hl').2, (disc_eq Ts step hstep _ _ hl).2]
  have hD : Discretisation Ts l := Or.inr ⟨step, hstep, N0, hl⟩
  obtain ⟨res, hrun, h1, h2, h3⟩ := planSamples_unconstrained lib hL hm pData Ts g h hf l hD
    (goodCost pData Ts h.total h.ne h.flag h.capt l hD
      (hc.imp_right fun hc => ⟨hc, fun e => by rw [e] at hf; simp at hf⟩)) hmot (hmeet _ _ hl).1 (hmeet _ _ hl).2
  refine ⟨res, max 3 N0, fun fuel hfuel => ?_, h1, h2, h3⟩
  have := hrun fuel (le_trans (le_max_left _ _) hfuel)
  unfold planSamples at this
  obtain ⟨A, b, hA, hcols, -⟩ := C18_in_bounds_and_complete pData Ts g h l hD
  rw [hA, Out.ok_bind] at this
  unfold computeCOMTraj comSystem
  rw [if_neg (not_not.mpr h.size), if_pos hstep, if_pos hr, hdet fuel (le_trans (le_max_right _ _) hfuel), Out.ok_bind,
    hA, Out.ok_bind]
  simp only [Out.pure_eq, Out.ok_bind, hcols] at this ⊢
  exact this

end Verif
