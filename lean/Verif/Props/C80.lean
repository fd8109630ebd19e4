import Verif.Lemmas.SolveMarginGen
import Verif.Props.C56ContTol

/-!
# C80: the planners on problems with a margin

The threshold of the solver is as in the code. If some motion meets the requirements with a margin, the planner succeeds
unless the solver uses up its iterations, and the cost of its answer is close to the least one.
-/

namespace Verif
open Matrix

theorem meetsTol_zero (pData : ProblemData) (l : TTime) (c a : ℝ → V3) :
    MeetsSamplesTol pData l 0 0 c a ↔ MeetsSamples pData l c a := by
  simp [MeetsSamplesTol, MeetsSamples, PhaseOkTol, PhaseOk, WrenchOkTol, WrenchOk, WrenchRowOkTol, WrenchRowOk, KinOkTol,
    KinOk]

theorem motionCost_nonneg (pData : ProblemData) (l : TTime) (x : V3) (a : ℝ → V3) : 0 ≤ motionCost pData l x a := by
  have key : ∀ u : V3, 0 ≤ dot u u := fun u => by
    simp only [dot]; nlinarith [mul_self_nonneg (u 0), mul_self_nonneg (u 1), mul_self_nonneg (u 2)]
  unfold motionCost
  split_ifs
  · refine List.sum_nonneg fun z hz => ?_
    obtain ⟨q, -, rfl⟩ := List.mem_map.mp hz
    exact key _
  · exact key _

/-- The outcome of a planner that was given rows `A y ≤ b` and a quadratic cost `H`, `gr`: it succeeds, or the QP solver
used up its iterations on them; a returned motion meets the requirements up to the tolerance, and no admissible motion is
better by more than `gap`. -/
structure MarginVerdict (lib : Lib) (pData : ProblemData) (T : ℝ) (l : TTime) (R k gap : ℝ) (N : ℕ) (A b H gr : Mat)
    (res : ResultDataCOMTraj) : Prop where
  found : res.success = true ∨
    ∃ o, ∀ fuel ≥ N, callQuadprog lib fuel H gr (Mat.noRows A.cols) (Mat.noRows 1).neg A.neg b = .ok (.maxIterReached, o)
  good : res.success = true → ∃ v a, Motion pData T res.point res.c_of_t.eval v a ∧
    MeetsSamplesTol pData l (R * solverTol lib.eps k A.rows) (solverTol lib.eps k A.rows) res.c_of_t.eval a ∧
    ∀ x' c' v' a', Motion pData T x' c' v' a' → MeetsSamples pData l c' a' →
      motionCost pData l res.point a ≤ motionCost pData l x' a' + gap

theorem planSamples_margin (lib : Lib) (hL : LibOk lib) (he : 0 ≤ lib.eps) (pData : ProblemData) (Ts : List ℝ) (g : V3)
    (h : Accepted pData Ts g) (hf : pData.flag ∈ [11#32, 19#32, 27#32, 7#32, 15#32])
    (l : TTime) (hl : Discretisation Ts l) (hc : GoodCost pData Ts.sum l) {k R : ℝ}
    (hs : DataScale pData Ts.sum l g k R) (h1 : lib.eps ≤ k) (h2 : lib.eps * R ^ 2 ≤ k ^ 2) {m : ℝ} (hm : 0 < m)
    {x : V3} {c v a : ℝ → V3} (hx : Motion pData Ts.sum x c v a) (hmeet : MeetsSamplesTol pData l (-(R * m)) (-m) c a)
    (hi : 1 ≤ lib.maxIter) (hmar : 32 * lib.maxIter ^ 2 * k * lib.eps * motionCost pData l x a ≤ m ^ 2) :
    ∃ A b H gr res N, computeConstraintsOneStep pData Ts.length Ts.sum l = .ok (A, b) ∧
      genCostFunction pData Ts Ts.sum l 3 = .ok (H, gr) ∧
      (∀ fuel ≥ N, planSamples lib fuel pData Ts l = .ok res) ∧
      MarginVerdict lib pData Ts.sum l R k
        (4 * lib.maxIter ^ 2 * k * lib.eps * motionCost pData l x a ^ 2 / m ^ 2) N A b H gr res := by
  obtain ⟨A, b, w, K, pts, hpts, hA, hk, hgen, hcost, hcols, hfits, hRow, hrows⟩ :=
    planSamples_rows pData Ts g h hf l hl hc hs
  have hq : ∀ y : ℕ → ℝ, quadForm (costH 0 k) (costG 0 w) 3 y = k * dot (first3 y) (first3 y) + 2 * dot w (first3 y) := by
    intro y
    have := quadForm_head 0 k w y
    simpa using this
  have hex : ∀ x, ∃ c v a, Motion pData Ts.sum x c v a := fun x => by
    obtain ⟨v, a, h⟩ := motion_exists pData Ts.sum pts hpts h.flag h.total.ne' x
    exact ⟨_, v, a, h⟩
  obtain ⟨q, N, hrun, hxl, hfound, hgood⟩ := solve_margin lib hL he hk w hfits rfl (List.replicate 3 0) hRow h1 h2 hm
    (ext3 x) ((hrows _ _ _ _ hx).2 m hm.le hmeet) (F := motionCost pData l x a) (fun y => by
      obtain ⟨c', v', a', hm'⟩ := hex (first3 y)
      rw [hq, hq, first3_ext3, hcost _ _ _ _ hx, hcost _ _ _ _ hm']
      linarith [motionCost_nonneg pData l (first3 y) a']) hi hmar
  obtain ⟨res, hres, hss, hgen'⟩ := genTraj_total q pData Ts.sum h.total pts hpts h.flag (by omega)
  refine ⟨A, b, costH 0 k, costG 0 w, res, N, hA, hgen, fun fuel hfuel => ?_, ⟨?_, fun hrs => ?_⟩⟩
  · unfold planSamples
    rw [hA, Out.ok_bind, hgen, Out.ok_bind]
    dsimp only
    rw [hrun fuel hfuel, Out.ok_bind, hres]
  · rw [hss]; exact hfound
  · rw [hss] at hrs
    obtain ⟨hp, -, hcurve⟩ := hgen' hrs
    obtain ⟨hsat, hopt⟩ := hgood hrs
    have hδ0 : 0 ≤ solverTol lib.eps k A.rows := by unfold solverTol; positivity
    obtain ⟨v', a', hm'⟩ := motion_exists pData Ts.sum pts hpts h.flag h.total.ne' res.point
    rw [← hcurve] at hm'
    refine ⟨v', a', hm', (hrows _ _ _ _ hm').1 _ hδ0 (by rw [hp, satTol_first3 hcols]; exact hsat), ?_⟩
    intro x2 c2 v2 a2 hm2 hmeet2
    have hsat2 := (hrows _ _ _ _ hm2).2 0 le_rfl (by
      rw [mul_zero, neg_zero, meetsTol_zero]; exact hmeet2)
    rw [neg_zero, satTol_zero] at hsat2
    have o := hopt (ext3 x2) hsat2
    rw [hq, hq, first3_ext3, hcost _ _ _ _ hm2] at o
    have e := hcost _ _ _ _ hm'
    rw [hp] at e ⊢
    change k * dot (first3 (unk q.x)) (first3 (unk q.x)) + 2 * dot w (first3 (unk q.x)) = _ at e
    rw [e] at o
    linarith

/-- C80, `computeCOMTrajFixedSize` with the threshold of the solver: if some motion meets the requirements at the samples
with the margins `R m` for the wrench and `m` for position and acceleration, and the margin is large compared to the threshold
and the cost of that motion, the call returns with `success_`, or the QP solver answered MAX_ITER_REACHED on the assembled
problem; the cost of a returned motion exceeds that of every admissible motion by at most the given amount. -/
theorem C80_fixedSize (lib : Lib) (hL : LibOk lib) (he : 0 ≤ lib.eps) (pData : ProblemData)
    (Ts : List ℝ) (g : V3) (h : Accepted pData Ts g) (hr : pData.representation = DOUBLE_DESCRIPTION)
    (hf : pData.flag ∈ [11#32, 19#32, 27#32, 7#32, 15#32]) (n : ℕ) (hn : 0 < n)
    (hc : pData.costFunction = DISTANCE_TRAVELED ∨ pData.costFunction = ACCELERATION) {k R : ℝ}
    (hs : DataScale pData Ts.sum (computeDiscretizedTimeFixed Ts n) g k R) (h1 : lib.eps ≤ k)
    (h2 : lib.eps * R ^ 2 ≤ k ^ 2) {m : ℝ} (hm : 0 < m) {x : V3} {c v a : ℝ → V3} (hx : Motion pData Ts.sum x c v a)
    (hmeet : MeetsSamplesTol pData (computeDiscretizedTimeFixed Ts n) (-(R * m)) (-m) c a) (hi : 1 ≤ lib.maxIter)
    (hmar : 32 * lib.maxIter ^ 2 * k * lib.eps * motionCost pData (computeDiscretizedTimeFixed Ts n) x a ≤ m ^ 2) :
    ∃ A b H gr res N,
      computeConstraintsOneStep pData Ts.length Ts.sum (computeDiscretizedTimeFixed Ts n) = .ok (A, b) ∧
      genCostFunction pData Ts Ts.sum (computeDiscretizedTimeFixed Ts n) 3 = .ok (H, gr) ∧
      (∀ fuel ≥ N, computeCOMTrajFixedSize lib fuel pData Ts n = .ok res) ∧
      MarginVerdict lib pData Ts.sum (computeDiscretizedTimeFixed Ts n) R k
        (4 * lib.maxIter ^ 2 * k * lib.eps * motionCost pData (computeDiscretizedTimeFixed Ts n) x a ^ 2 / m ^ 2)
        N A b H gr res := by
  have hD : Discretisation Ts (computeDiscretizedTimeFixed Ts n) := Or.inl ⟨n, hn, rfl⟩
  obtain ⟨A, b, H, gr, res, N, hA, hgen, hrun, hv⟩ := planSamples_margin lib hL he pData Ts g h hf _ hD
    (goodCost pData Ts h.total h.ne h.flag h.capt _ hD
      (hc.imp_right fun hc => ⟨hc, fun e => by rw [e] at hf; simp at hf⟩)) hs h1 h2 hm hx hmeet hi hmar
  refine ⟨A, b, H, gr, res, N, hA, hgen, fun fuel hfuel => ?_, hv⟩
  have := hrun fuel hfuel
  unfold planSamples at this
  unfold computeCOMTrajFixedSize
  rw [if_pos hr, if_neg (not_not.mpr h.size)]
  exact this

/-- C80, `computeCOMTraj` with a time step. -/
theorem C80_timeStep (κ : ℝ) (lib : Lib) (hL : LibOk lib) (he : 0 ≤ lib.eps) (pData : ProblemData)
    (Ts : List ℝ) (g : V3) (h : Accepted pData Ts g) (hr : pData.representation = DOUBLE_DESCRIPTION)
    (hf : pData.flag ∈ [11#32, 19#32, 27#32, 7#32, 15#32]) (step : ℝ) (hstep : 0 < step) {fuel₀ : ℕ} {l : TTime}
    (hl : computeDiscretizedTime Ts step fuel₀ = .ok l)
    (hc : pData.costFunction = DISTANCE_TRAVELED ∨ pData.costFunction = ACCELERATION) {k R : ℝ}
    (hs : DataScale pData Ts.sum l g k R) (h1 : lib.eps ≤ k)
    (h2 : lib.eps * R ^ 2 ≤ k ^ 2) {m : ℝ} (hm : 0 < m) {x : V3} {c v a : ℝ → V3} (hx : Motion pData Ts.sum x c v a)
    (hmeet : MeetsSamplesTol pData l (-(R * m)) (-m) c a) (hi : 1 ≤ lib.maxIter)
    (hmar : 32 * lib.maxIter ^ 2 * k * lib.eps * motionCost pData l x a ≤ m ^ 2) :
    ∃ A b H gr res N, computeConstraintsOneStep pData Ts.length Ts.sum l = .ok (A, b) ∧
      genCostFunction pData Ts Ts.sum l 3 = .ok (H, gr) ∧
      (∀ fuel ≥ N, computeCOMTraj κ lib fuel pData Ts step SOLVER_QUADPROG = .ok res) ∧
      MarginVerdict lib pData Ts.sum l R k (4 * lib.maxIter ^ 2 * k * lib.eps * motionCost pData l x a ^ 2 / m ^ 2)
        N A b H gr res := by
  have hD : Discretisation Ts l := Or.inr ⟨step, hstep, fuel₀, hl⟩
  obtain ⟨A, b, H, gr, res, N, hA, hgen, hrun, hv⟩ := planSamples_margin lib hL he pData Ts g h hf l hD
    (goodCost pData Ts h.total h.ne h.flag h.capt l hD
      (hc.imp_right fun hc => ⟨hc, fun e => by rw [e] at hf; simp at hf⟩)) hs h1 h2 hm hx hmeet hi hmar
  obtain ⟨A', b', hA', hcols, -⟩ := C18_in_bounds_and_complete pData Ts g h l hD
  rw [hA] at hA'
  cases hA'
  refine ⟨A, b, H, gr, res, max N fuel₀, hA, hgen, fun fuel hfuel => ?_, ⟨?_, hv.good⟩⟩
  · have := hrun fuel (le_trans (le_max_left _ _) hfuel)
    unfold planSamples at this
    rw [hA, Out.ok_bind] at this
    have hdet : computeDiscretizedTime Ts step fuel = .ok l := by
      exact (discFor_mono step Ts fuel₀ 0 0 [] l hl).2 fuel (le_trans (le_max_right _ _) hfuel)
    unfold computeCOMTraj comSystem
    rw [if_neg (not_not.mpr h.size), if_pos hstep, if_pos hr, hdet, Out.ok_bind, hA, Out.ok_bind]
    simp only [Out.pure_eq, Out.ok_bind, hcols] at this ⊢
    exact this
  · exact hv.found.imp_right fun ⟨o, ho⟩ => ⟨o, fun fuel hfuel => ho fuel (le_trans (le_max_left _ _) hfuel)⟩

/-- C80, continuous formulation in double description: the margin is that of the rows, which are conditions on the control
points of every phase; rows that do not depend on the unknown point need no margin. -/
theorem C80_continuous (κ : ℝ) (lib : Lib) (hL : LibOk lib) (he : 0 ≤ lib.eps) (pData : ProblemData)
    (Ts : List ℝ) (g : V3) (h : AcceptedC pData Ts g) (hr : pData.representation = DOUBLE_DESCRIPTION)
    (step : ℝ) (hstep : step ≤ 0)
    (hc : pData.costFunction = DISTANCE_TRAVELED ∨ pData.costFunction = ACCELERATION ∧ pData.flag ≠ 63#32) {k R : ℝ}
    (hs : ContScale κ pData Ts.sum (computeDiscretizedTimeFixed Ts 7) k R) (h1 : lib.eps ≤ k)
    (h2 : lib.eps * R ^ 2 ≤ k ^ 2) {S : ContSystem} (hS : computeConstraintsContinuous κ pData Ts = .ok S)
    {m : ℝ} (hm : 0 < m) {x : V3} {c v a : ℝ → V3} (hx : Motion pData Ts.sum x c v a)
    (hmeet : SatMargin S.A S.b m (ext3 x)) (hi : 1 ≤ lib.maxIter)
    (hmar : 32 * lib.maxIter ^ 2 * k * lib.eps * motionCost pData (computeDiscretizedTimeFixed Ts 7) x a ≤ m ^ 2) :
    ∃ H gr res N, genCostFunction pData Ts Ts.sum (computeDiscretizedTimeFixed Ts 7) 3 = .ok (H, gr) ∧
      (∀ fuel ≥ N, computeCOMTraj κ lib fuel pData Ts step SOLVER_QUADPROG = .ok res) ∧
      (res.success = true ∨
        ∃ o, ∀ fuel ≥ N, callQuadprog lib fuel H gr S.D S.d.neg S.A.neg S.b = .ok (.maxIterReached, o)) ∧
      (res.success = true → ∃ v' a', Motion pData Ts.sum res.point res.c_of_t.eval v' a' ∧
        SatTol S.A S.b (solverTol lib.eps k S.A.rows) (ext3 res.point) ∧
        ∀ x' c' v'' a'', Motion pData Ts.sum x' c' v'' a'' → Sat S.A S.b (ext3 x') →
          motionCost pData (computeDiscretizedTimeFixed Ts 7) res.point a' ≤
            motionCost pData (computeDiscretizedTimeFixed Ts 7) x' a'' +
              4 * lib.maxIter ^ 2 * k * lib.eps * motionCost pData (computeDiscretizedTimeFixed Ts 7) x a ^ 2 / m ^ 2) := by
  obtain ⟨ct, e, pts, ws, S', w, K, Raw, -, hk, hgen, hcost, hmin, hcols, hDr, hfits, hRow⟩ :=
    cont_system κ pData Ts g h hr hc hs
  have hS' := Raw.hS
  rw [hS] at hS'
  cases hS'
  have hpts := Raw.hpts
  have hq : ∀ y : ℕ → ℝ, quadForm (costH 0 k) (costG 0 w) 3 y = k * dot (first3 y) (first3 y) + 2 * dot w (first3 y) := by
    intro y
    have := quadForm_head 0 k w y
    simpa using this
  have hex : ∀ x, ∃ c v a, Motion pData Ts.sum x c v a := fun x => by
    obtain ⟨v, a, h⟩ := motion_exists pData Ts.sum pts hpts h.flag h.total.ne' x
    exact ⟨_, v, a, h⟩
  obtain ⟨q, N, hrun, hxl, hfound, hgood⟩ := solve_margin_zero lib hL he hk w hfits hDr (List.replicate 3 0) hRow h1 h2 hm
    (ext3 x) hmeet (F := motionCost pData (computeDiscretizedTimeFixed Ts 7) x a) (fun y => by
      obtain ⟨c', v', a', hm'⟩ := hex (first3 y)
      rw [hq, hq, first3_ext3, hcost _ _ _ _ hx, hcost _ _ _ _ hm']
      linarith [motionCost_nonneg pData (computeDiscretizedTimeFixed Ts 7) (first3 y) a']) hi hmar
  obtain ⟨res, hres, hss, hgen'⟩ := genTraj_total q pData Ts.sum h.total pts hpts h.flag (by omega)
  refine ⟨costH 0 k, costG 0 w, res, N, hgen, fun fuel hfuel => ?_, by rw [hss]; exact hfound, fun hrs => ?_⟩
  · unfold computeCOMTraj comSystem
    rw [if_neg (not_not.mpr h.size), if_neg (not_lt.mpr hstep), Raw.hS, Out.ok_bind, Out.pure_eq, Out.ok_bind]
    dsimp only
    rw [hcols, hgen, Out.ok_bind]
    dsimp only
    rw [hmin, hrun fuel hfuel, Out.ok_bind, hres]
  · rw [hss] at hrs
    obtain ⟨hp, -, hcurve⟩ := hgen' hrs
    obtain ⟨hsat, hopt⟩ := hgood hrs
    obtain ⟨v', a', hm'⟩ := motion_exists pData Ts.sum pts hpts h.flag h.total.ne' res.point
    rw [← hcurve] at hm'
    refine ⟨v', a', hm', by rw [hp, satTol_first3 hcols]; exact hsat, ?_⟩
    intro x2 c2 v2 a2 hm2 hsat2
    have o := hopt (ext3 x2) hsat2
    rw [hq, hq, first3_ext3, hcost _ _ _ _ hm2] at o
    have e := hcost _ _ _ _ hm'
    rw [hp] at e ⊢
    change k * dot (first3 (unk q.x)) (first3 (unk q.x)) + 2 * dot w (first3 (unk q.x)) = _ at e
    rw [e] at o
    linarith

end Verif
