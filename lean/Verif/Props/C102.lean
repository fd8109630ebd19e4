import Verif.Lemmas.SolveMarginEq
import Verif.Props.C56ForceTol
import Verif.Props.C80

/-!
# C102: the planner with force variables on problems with a margin

The threshold of the solver is as in the code. If some motion and some forces satisfy the equations of motion, and the other rows and
the signs of the forces with a margin, the planner succeeds unless the solver uses up its iterations.
-/

namespace Verif
open Matrix

/-- The cost given to the solver: that of the motion, and a small one on the forces. -/
noncomputable def forceCost (pData : ProblemData) (l : TTime) (n : ℕ) (y : ℕ → ℝ) (a : ℝ → V3) : ℝ :=
  motionCost pData l (first3 y) a + 1e-6 * ∑ c ∈ Finset.range (n - 3), y (3 + c) ^ 2

/-- C102. `computeCOMTraj` with force variables and the threshold of the solver, all seven sets. Some motion with some forces `y` satisfies the
equations, the rows with the margin `m` (those that do not depend on the motion need no margin), and exceeds the bounds by `m`; the margin is large compared to the threshold and the cost
of that motion. The call returns with `success_`, or the QP solver answered MAX_ITER_REACHED on the assembled problem; it is neither
UNBOUNDED nor REDUNDANT_EQUALITIES. The answer of the solver satisfies the
equations exactly, the rows and the bounds up to the tolerance, and its cost exceeds that of every other solution by at most the
given amount. -/
theorem C102_forces (κ : ℝ) (lib : Lib) (hL : LibOk lib) (he : 0 ≤ lib.eps) (pData : ProblemData)
    (Ts : List ℝ) (g : V3) (h : AcceptedC pData Ts g) (hr : pData.representation ≠ DOUBLE_DESCRIPTION)
    (step : ℝ) (hstep : step ≤ 0)
    (hc : pData.costFunction = DISTANCE_TRAVELED ∨ pData.costFunction = ACCELERATION ∧ pData.flag ≠ 63#32)
    {S : ContSystem} (hS : computeConstraintsContinuous κ pData Ts = .ok S) {k R : ℝ}
    (hs : ForceScale pData Ts.sum (computeDiscretizedTimeFixed Ts 7) S lib.eps k R)
    {m : ℝ} (hm : 0 < m) {y : ℕ → ℝ} {c v a : ℝ → V3} (hx : Motion pData Ts.sum (first3 y) c v a)
    (heq : EqSat S.D S.d y) (hmeet : SatMargin S.A S.b m y) (hpos : AboveBoundsTol S.minBounds (-m) y) (hi : 1 ≤ lib.maxIter)
    (hmar : 32 * lib.maxIter ^ 2 * max k 1e-6 ^ 2 * lib.eps * forceCost pData (computeDiscretizedTimeFixed Ts 7) S.A.cols y a
      ≤ min k 1e-6 * m ^ 2) :
    ∃ A b H gr res N, addConstraintMinBoundQuadProg S.minBounds S.A S.b = .ok (A, b) ∧
      genCostFunction pData Ts Ts.sum (computeDiscretizedTimeFixed Ts 7) S.A.cols = .ok (H, gr) ∧
      (∀ fuel ≥ N, computeCOMTraj κ lib fuel pData Ts step SOLVER_QUADPROG = .ok res) ∧
      (res.success = true ∨
        ∃ o, ∀ fuel ≥ N, callQuadprog lib fuel H gr S.D S.d.neg A.neg b = .ok (.maxIterReached, o)) ∧
      (res.success = true → ∃ y' v' a', first3 y' = res.point ∧ Motion pData Ts.sum res.point res.c_of_t.eval v' a' ∧
        SatTol S.A S.b (forceTol S lib.eps k) y' ∧ AboveBoundsTol S.minBounds (forceTol S lib.eps k) y' ∧ EqSat S.D S.d y' ∧
        ∀ z c'' v'' a'', Motion pData Ts.sum (first3 z) c'' v'' a'' → AllSat S.A S.b S.D S.d S.minBounds z →
          forceCost pData (computeDiscretizedTimeFixed Ts 7) S.A.cols y' a' ≤
            forceCost pData (computeDiscretizedTimeFixed Ts 7) S.A.cols z a'' +
              4 * lib.maxIter ^ 2 * max k 1e-6 ^ 2 * lib.eps * forceCost pData (computeDiscretizedTimeFixed Ts 7) S.A.cols y a ^ 2
                / (min k 1e-6 * m ^ 2)) := by
  obtain ⟨pts, hpts⟩ := C01_answers pData.flag h.flag pData.bc Ts.sum h.capt
  obtain ⟨S', hS', h1, h2, h3, h4, h5, h6, h7, h8⟩ := C21_in_bounds_and_complete κ pData Ts g h
  rw [hS] at hS'
  cases hS'
  have hl : Discretisation Ts (computeDiscretizedTimeFixed Ts 7) := Or.inl ⟨7, by norm_num, rfl⟩
  have hgc := goodCost pData Ts h.total h.ne h.flag h.capt _ hl hc
  have hle := C26_samples Ts h.ne h.pos _ hl
  obtain ⟨hk, w', hgen'⟩ := curv_hess_n hs.curv h.total hle h.flag hgc pts hpts (S.A.cols - 3)
  obtain ⟨k', w, K, hk', hgen, hcost⟩ := cost_hess pData Ts h.total _ hle h.flag hgc pts hpts (S.A.cols - 3)
  have hkk : k' = k ∧ w' = w := by
    rw [hgen] at hgen'
    have e := Out.ok.inj hgen'
    have e1 := congrArg (fun q : Mat × Mat => q.1.e 0 0) e
    refine ⟨by simpa [costH] using e1, ?_⟩
    funext j
    have e2 := congrArg (fun q : Mat × Mat => q.2.e j.val 0) e
    simpa [costG, V3.get] using e2.symm
  obtain ⟨rfl, rfl⟩ := hkk
  have hdim : 3 + (S.A.cols - 3) = S.A.cols := by omega
  have hfits : Fits S.A S.b S.D S.d (costH (S.A.cols - 3) k') (costG (S.A.cols - 3) w') :=
    ⟨⟨rfl, rfl⟩, ⟨h1, h2, hdim.symm⟩, ⟨h3, by rw [h5]; exact hdim.symm⟩⟩
  have hrows : (costG (S.A.cols - 3) w').rows = 3 + (S.A.cols - 3) := rfl
  have hmin : 0 < min k' 1e-6 := lt_min hk (by norm_num)
  have hex : ∀ x, ∃ c v a, Motion pData Ts.sum x c v a := fun x => by
    obtain ⟨v, a, h⟩ := motion_exists pData Ts.sum pts hpts h.flag h.total.ne' x
    exact ⟨_, v, a, h⟩
  have hq : ∀ z c v a, Motion pData Ts.sum (first3 z) c v a → quadForm (costH (S.A.cols - 3) k') (costG (S.A.cols - 3) w')
      (costG (S.A.cols - 3) w').rows z = forceCost pData (computeDiscretizedTimeFixed Ts 7) S.A.cols z a - K := hcost
  obtain ⟨A, b, q, N, hA, hrun, hxl, hfound, hgood⟩ := solve_margin_full lib hL he hmin hfits S.minBounds
    (by rw [h8 hr]; exact hdim.symm) (List.replicate S.A.cols 0)
    (costH_posDef _ k' hk) (costH_lower _ k') (sq_nonneg _) (costH_upper _ k' hk) (by rw [hrows, hdim]; exact hs.size)
    hs.one (by rw [hrows, hdim]; exact hs.ineq) (by rw [hrows, hdim]; exact hs.eqs) hs.sep hs.small hs.small2 hm y heq hmeet hpos
    (F := forceCost pData (computeDiscretizedTimeFixed Ts 7) S.A.cols y a) (fun z _ => by
      obtain ⟨c', v', a', hm'⟩ := hex (first3 z)
      rw [hq _ _ _ _ hx, hq _ _ _ _ hm']
      have : 0 ≤ forceCost pData (computeDiscretizedTimeFixed Ts 7) S.A.cols z a' := by
        unfold forceCost
        have := motionCost_nonneg pData (computeDiscretizedTimeFixed Ts 7) (first3 z) a'
        positivity
      linarith) hi hmar
  have htr : solverTolGen lib.eps (min k' 1e-6) (∑ i ∈ Finset.range (costG (S.A.cols - 3) w').rows, (costH (S.A.cols - 3) k').e i i)
      (costG (S.A.cols - 3) w').rows (S.A.rows + S.minBounds.length) = forceTol S lib.eps k' := by
    rw [hrows, costH_trace, hdim]; rfl
  rw [htr] at hgood
  rw [hrows, hdim] at hxl
  obtain ⟨res, hres, hss, hgen''⟩ := genTraj_total q pData Ts.sum h.total pts hpts h.flag (by omega)
  rw [hdim] at hgen
  refine ⟨A, b, _, _, res, N, hA, hgen, fun fuel hfuel => ?_, by rw [hss]; exact hfound, fun hrs => ?_⟩
  · unfold computeCOMTraj comSystem
    rw [if_neg (not_not.mpr h.size), if_neg (not_lt.mpr hstep), hS, Out.ok_bind, Out.pure_eq, Out.ok_bind]
    dsimp only
    rw [hgen, Out.ok_bind]
    dsimp only
    rw [hrun fuel hfuel, Out.ok_bind, hres]
  · rw [hss] at hrs
    obtain ⟨hp, -, hcurve⟩ := hgen'' hrs
    obtain ⟨q1, q2, q3, q4⟩ := hgood hrs
    obtain ⟨v', a', hm'⟩ := motion_exists pData Ts.sum pts hpts h.flag h.total.ne' res.point
    rw [← hcurve] at hm'
    refine ⟨unk q.x, v', a', hp.symm, hm', q1, q2, q3, fun z c2 v2 a2 hm2 hz => ?_⟩
    have e := q4 z hz
    rw [hq _ _ _ _ hm2, hq (unk q.x) _ _ _ (by rw [hp] at hm'; exact hm')] at e
    linarith

/-- C102, the five sets whose coefficients are exact, positive masses and nested phases: what `success_` means for the motion is that of C56. -/
theorem C102_forces_motion (κ : ℝ) (lib : Lib) (hL : LibOk lib) (he : 0 ≤ lib.eps) (pData : ProblemData)
    (Ts : List ℝ) (g : V3) (h : AcceptedC pData Ts g) (hr : pData.representation ≠ DOUBLE_DESCRIPTION)
    (hf : pData.flag ∈ [11#32, 19#32, 27#32, 7#32, 15#32]) (step : ℝ) (hstep : step ≤ 0)
    (hc : pData.costFunction = DISTANCE_TRAVELED ∨ pData.costFunction = ACCELERATION)
    (hmass : ∀ ct ∈ pData.contacts, ∀ e, ct.contactPhase = some e → 0 < e.mass)
    (hn : NestedPhases pData.contacts) {Γ : ℝ} (hΓ : GenBound pData Γ)
    {S : ContSystem} (hS : computeConstraintsContinuous κ pData Ts = .ok S)
    (pts : List V3) (hpts : computeConstantWaypoints pData.flag pData.bc Ts.sum = .ok pts)
    (hz : ∀ i < pts.length, i ∉ freeSlots pData.flag → ∃ k, 1e-12 < |nth pts i k|) {k R : ℝ}
    (hs : ForceScale pData Ts.sum (computeDiscretizedTimeFixed Ts 7) S lib.eps k R)
    {m : ℝ} (hm : 0 < m) {y : ℕ → ℝ} {c v a : ℝ → V3} (hx : Motion pData Ts.sum (first3 y) c v a)
    (heq : EqSat S.D S.d y) (hmeet : SatMargin S.A S.b m y) (hpos : AboveBoundsTol S.minBounds (-m) y) (hi : 1 ≤ lib.maxIter)
    (hmar : 32 * lib.maxIter ^ 2 * max k 1e-6 ^ 2 * lib.eps * forceCost pData (computeDiscretizedTimeFixed Ts 7) S.A.cols y a
      ≤ min k 1e-6 * m ^ 2) :
    ∃ A b H gr res N, addConstraintMinBoundQuadProg S.minBounds S.A S.b = .ok (A, b) ∧
      genCostFunction pData Ts Ts.sum (computeDiscretizedTimeFixed Ts 7) S.A.cols = .ok (H, gr) ∧
      (∀ fuel ≥ N, computeCOMTraj κ lib fuel pData Ts step SOLVER_QUADPROG = .ok res) ∧
      (res.success = true ∨
        ∃ o, ∀ fuel ≥ N, callQuadprog lib fuel H gr S.D S.d.neg A.neg b = .ok (.maxIterReached, o)) ∧
      (res.success = true → MeetsBoundary pData.flag pData.bc res.c_of_t.eval Ts.sum ∧
        ∃ v' a', IsDeriv res.c_of_t.eval v' ∧ IsDeriv v' a' ∧
          (∀ p t, InPhase Ts p t → AtPhase pData.contacts p fun ct e =>
            NearCone e (e.mass * (Γ * forceTol S lib.eps k)) (e.mass * (Γ * forceTol S lib.eps k))
              (e.mass • (g - a' t)) (e.mass • cr (res.c_of_t.eval t) (g - a' t)) ∧
            KinOkTol ct (forceTol S lib.eps k) (res.c_of_t.eval t)) ∧
          (∀ p t, InPhase Ts p t → ∀ j, |κ * Ts.sum ^ 2 * a' t j| ≤ pData.maxAcceleration + forceTol S lib.eps k) ∧
          ∀ z c'' v'' a'', Motion pData Ts.sum (first3 z) c'' v'' a'' → AllSat S.A S.b S.D S.d S.minBounds z →
            motionCost pData (computeDiscretizedTimeFixed Ts 7) res.point a' ≤
              forceCost pData (computeDiscretizedTimeFixed Ts 7) S.A.cols z a'' +
                4 * lib.maxIter ^ 2 * max k 1e-6 ^ 2 * lib.eps * forceCost pData (computeDiscretizedTimeFixed Ts 7) S.A.cols y a ^ 2
                  / (min k 1e-6 * m ^ 2)) := by
  obtain ⟨A, b, H, gr, res, N, hA, hgen, hrun, hfound, hgood⟩ := C102_forces κ lib hL he pData Ts g h hr step hstep
    (hc.imp_right fun hc => ⟨hc, fun e => by rw [e] at hf; simp at hf⟩) hS hs hm hx heq hmeet hpos hi hmar
  obtain ⟨res', N', hrun', hgood'⟩ := C56_force_tolerance_partial κ lib hL he pData Ts g h hr hf step hstep hc hmass hn hΓ S hS pts hpts hz hs
  have hrr := hrun (max N N') (le_max_left _ _)
  rw [hrun' (max N N') (le_max_right _ _)] at hrr
  obtain rfl := Out.ok.inj hrr
  refine ⟨A, b, H, gr, res', N, hA, hgen, hrun, hfound, fun hsc => ?_⟩
  obtain ⟨hb, v1, a1, d1, d2, d3, d4⟩ := hgood' hsc
  obtain ⟨y', v2, a2, hy', hmot, -, -, -, hopt⟩ := hgood hsc
  refine ⟨hb, v1, a1, d1, d2, d3, d4, fun z c3 v3 a3 hm3 hz3 => ?_⟩
  have e := hopt z c3 v3 a3 hm3 hz3
  obtain ⟨pts', -, -, i1, i2⟩ := hmot
  have e1 := deriv_unique d1 i1
  subst e1
  have e2 := deriv_unique d2 i2
  subst e2
  refine le_trans ?_ e
  unfold forceCost
  rw [hy']
  have : (0 : ℝ) ≤ 1e-6 * ∑ c ∈ Finset.range (S.A.cols - 3), y' (3 + c) ^ 2 := by positivity
  linarith

/-- `C102_forces_motion` for the two sets whose wrench waypoints have rounded coefficients: the errors of the coefficients add to the tolerance of the wrench. -/
theorem C102_forces_motion_rounded (κ : ℝ) (lib : Lib) (hL : LibOk lib) (he : 0 ≤ lib.eps) (pData : ProblemData)
    (Ts : List ℝ) (g : V3) (h : AcceptedC pData Ts g) (hr : pData.representation ≠ DOUBLE_DESCRIPTION)
    (hf : pData.flag ∈ [31#32, 63#32]) (step : ℝ) (hstep : step ≤ 0)
    (hc : pData.costFunction = DISTANCE_TRAVELED ∨ pData.costFunction = ACCELERATION ∧ pData.flag ≠ 63#32)
    (hmass : ∀ ct ∈ pData.contacts, ∀ e, ct.contactPhase = some e → 0 < e.mass)
    (hn : NestedPhases pData.contacts) {Γ : ℝ} (hΓ : GenBound pData Γ)
    {S : ContSystem} (hS : computeConstraintsContinuous κ pData Ts = .ok S)
    (pts : List V3) (hpts : computeConstantWaypoints pData.flag pData.bc Ts.sum = .ok pts)
    (hz : ∀ i < pts.length, i ∉ freeSlots pData.flag → ∃ k, 1e-12 < |nth pts i k|) {k R : ℝ}
    (hs : ForceScale pData Ts.sum (computeDiscretizedTimeFixed Ts 7) S lib.eps k R)
    {m : ℝ} (hm : 0 < m) {y : ℕ → ℝ} {c v a : ℝ → V3} (hx : Motion pData Ts.sum (first3 y) c v a)
    (heq : EqSat S.D S.d y) (hmeet : SatMargin S.A S.b m y) (hpos : AboveBoundsTol S.minBounds (-m) y) (hi : 1 ≤ lib.maxIter)
    (hmar : 32 * lib.maxIter ^ 2 * max k 1e-6 ^ 2 * lib.eps * forceCost pData (computeDiscretizedTimeFixed Ts 7) S.A.cols y a
      ≤ min k 1e-6 * m ^ 2) :
    ∃ A b H gr res N, addConstraintMinBoundQuadProg S.minBounds S.A S.b = .ok (A, b) ∧
      genCostFunction pData Ts Ts.sum (computeDiscretizedTimeFixed Ts 7) S.A.cols = .ok (H, gr) ∧
      (∀ fuel ≥ N, computeCOMTraj κ lib fuel pData Ts step SOLVER_QUADPROG = .ok res) ∧
      (res.success = true ∨
        ∃ o, ∀ fuel ≥ N, callQuadprog lib fuel H gr S.D S.d.neg A.neg b = .ok (.maxIterReached, o)) ∧
      (res.success = true → MeetsBoundary pData.flag pData.bc res.c_of_t.eval Ts.sum ∧
        ∃ v' a', IsDeriv res.c_of_t.eval v' ∧ IsDeriv v' a' ∧
          (∀ M G, Sizes pData Ts.sum g res.point M G → ∀ p t, InPhase Ts p t → AtPhase pData.contacts p fun ct e =>
            NearCone e (e.mass * (Γ * forceTol S lib.eps k + 1e-12 * M / Ts.sum ^ 2))
              (e.mass * (Γ * forceTol S lib.eps k + 1e-12 * (M * M + Ts.sum ^ 2 * (G * M)) / Ts.sum ^ 2))
              (e.mass • (g - a' t)) (e.mass • cr (res.c_of_t.eval t) (g - a' t)) ∧
            KinOkTol ct (forceTol S lib.eps k) (res.c_of_t.eval t)) ∧
          (∀ p t, InPhase Ts p t → ∀ j, |κ * Ts.sum ^ 2 * a' t j| ≤ pData.maxAcceleration + forceTol S lib.eps k) ∧
          ∀ z c'' v'' a'', Motion pData Ts.sum (first3 z) c'' v'' a'' → AllSat S.A S.b S.D S.d S.minBounds z →
            motionCost pData (computeDiscretizedTimeFixed Ts 7) res.point a' ≤
              forceCost pData (computeDiscretizedTimeFixed Ts 7) S.A.cols z a'' +
                4 * lib.maxIter ^ 2 * max k 1e-6 ^ 2 * lib.eps * forceCost pData (computeDiscretizedTimeFixed Ts 7) S.A.cols y a ^ 2
                  / (min k 1e-6 * m ^ 2)) := by
  obtain ⟨A, b, H, gr, res, N, hA, hgen, hrun, hfound, hgood⟩ := C102_forces κ lib hL he pData Ts g h hr step hstep
    hc hS hs hm hx heq hmeet hpos hi hmar
  obtain ⟨res', N', hrun', hgood'⟩ := C56_force_rounded_tolerance_partial κ lib hL he pData Ts g h hr hf step hstep hc hmass hn hΓ S hS pts hpts hz hs
  have hrr := hrun (max N N') (le_max_left _ _)
  rw [hrun' (max N N') (le_max_right _ _)] at hrr
  obtain rfl := Out.ok.inj hrr
  refine ⟨A, b, H, gr, res', N, hA, hgen, hrun, hfound, fun hsc => ?_⟩
  obtain ⟨hb, v1, a1, d1, d2, d3, d4⟩ := hgood' hsc
  obtain ⟨y', v2, a2, hy', hmot, -, -, -, hopt⟩ := hgood hsc
  refine ⟨hb, v1, a1, d1, d2, d3, d4, fun z c3 v3 a3 hm3 hz3 => ?_⟩
  have e := hopt z c3 v3 a3 hm3 hz3
  obtain ⟨pts', -, -, i1, i2⟩ := hmot
  have e1 := deriv_unique d1 i1
  subst e1
  have e2 := deriv_unique d2 i2
  subst e2
  refine le_trans ?_ e
  unfold forceCost
  rw [hy']
  have : (0 : ℝ) ≤ 1e-6 * ∑ c ∈ Finset.range (S.A.cols - 3), y' (3 + c) ^ 2 := by positivity
  linarith

/-- C102, the hypotheses are met: when the generators of every phase span the space of wrenches and some motion with some forces satisfies the equations, and
the rows and bounds with some margin, every threshold that is small enough for the iteration limit is covered by `C102_forces`. -/
theorem C102_threshold_exists (κ : ℝ) (pData : ProblemData) (Ts : List ℝ) (g : V3) (h : AcceptedC pData Ts g)
    (hr : pData.representation ≠ DOUBLE_DESCRIPTION)
    (hsp : ∀ ct ∈ pData.contacts, ∀ e, ct.contactPhase = some e → Spans e)
    (hmass : ∀ ct ∈ pData.contacts, ∀ e, ct.contactPhase = some e → 0 < e.mass) (step : ℝ) (hstep : step ≤ 0)
    (hc : pData.costFunction = DISTANCE_TRAVELED ∨ pData.costFunction = ACCELERATION ∧ pData.flag ≠ 63#32)
    {S : ContSystem} (hS : computeConstraintsContinuous κ pData Ts = .ok S)
    {m : ℝ} (hm : 0 < m) {y : ℕ → ℝ} (heq : EqSat S.D S.d y) (hmeet : SatMargin S.A S.b m y)
    (hpos : AboveBoundsTol S.minBounds (-m) y) (maxIter : ℕ) (hi : 1 ≤ maxIter) :
    ∃ ε > (0 : ℝ), ∀ lib : Lib, LibOk lib → 0 ≤ lib.eps → lib.eps ≤ ε → lib.maxIter = maxIter →
      ∃ A b H gr res N, addConstraintMinBoundQuadProg S.minBounds S.A S.b = .ok (A, b) ∧
        genCostFunction pData Ts Ts.sum (computeDiscretizedTimeFixed Ts 7) S.A.cols = .ok (H, gr) ∧
        (∀ fuel ≥ N, computeCOMTraj κ lib fuel pData Ts step SOLVER_QUADPROG = .ok res) ∧
        (res.success = true ∨
          ∃ o, ∀ fuel ≥ N, callQuadprog lib fuel H gr S.D S.d.neg A.neg b = .ok (.maxIterReached, o)) := by
  obtain ⟨k, R, Γ, ε1, hk, h0, -, hsc⟩ := C56_force_scale_exists κ pData Ts g h hr hsp hmass hc S hS
  obtain ⟨pts, hpts⟩ := C01_answers pData.flag h.flag pData.bc Ts.sum h.capt
  obtain ⟨v, a, hx⟩ := motion_exists pData Ts.sum pts hpts h.flag h.total.ne' (first3 y)
  have hmin : 0 < min k 1e-6 := lt_min hk (by norm_num)
  have hmax : 0 < max k 1e-6 := lt_max_of_lt_left hk
  set F := forceCost pData (computeDiscretizedTimeFixed Ts 7) S.A.cols y a with hF
  have hF0 : 0 ≤ F := by
    rw [hF]
    unfold forceCost
    have := motionCost_nonneg pData (computeDiscretizedTimeFixed Ts 7) (first3 y) a
    positivity
  have hi' : (1 : ℝ) ≤ maxIter := by exact_mod_cast hi
  have hden : 0 < 32 * (maxIter : ℝ) ^ 2 * max k 1e-6 ^ 2 * (F + 1) := by positivity
  refine ⟨min ε1 (min k 1e-6 * m ^ 2 / (32 * maxIter ^ 2 * max k 1e-6 ^ 2 * (F + 1))), by positivity, fun lib hL he hle hmi => ?_⟩
  have hle2 := hle.trans (min_le_right _ _)
  rw [le_div_iff₀ hden] at hle2
  obtain ⟨A, b, H, gr, res, N, h1, h2, h3, h4, -⟩ := C102_forces κ lib hL he pData Ts g h hr step hstep hc hS
    (hsc _ (hle.trans (min_le_left _ _))) hm hx heq hmeet hpos (by omega) (by
      rw [hmi]
      refine le_trans ?_ hle2
      have : 32 * (maxIter : ℝ) ^ 2 * max k 1e-6 ^ 2 * lib.eps * F ≤ 32 * (maxIter : ℝ) ^ 2 * max k 1e-6 ^ 2 * lib.eps * (F + 1) :=
        mul_le_mul_of_nonneg_left (by linarith) (by positivity)
      refine this.trans (le_of_eq ?_)
      ring)
  exact ⟨A, b, H, gr, res, N, h1, h2, h3, h4⟩

/-- The gripping robot: the solution of `C56Ex.lean` has a margin. -/
theorem gripProblem_margin (κ : ℝ) (S : ContSystem) (hS : computeConstraintsContinuous κ gripProblem [3] = .ok S) :
    EqSat S.D S.d standSolution ∧ SatMargin S.A S.b 1 standSolution ∧ AboveBoundsTol S.minBounds (-1) standSolution := by
  have hall := gripProblem_sat κ S hS
  obtain ⟨ct, e, pts, ws, S', R⟩ := cont_raw κ _ [3] _ gripProblem_accepted
  have hSS := R.hS
  rw [hS] at hSS
  cases hSS
  have hrep : gripProblem.representation ≠ DOUBLE_DESCRIPTION := by
    simp [gripProblem, standProblem, DOUBLE_DESCRIPTION]
  have hp := standProblem_pts 2 _ pts R.hpts
  have hz1 : (symbolicOf 1 ![1, 0, 1]).toCoefs.at ![1, 0, 1] = ![1, 0, 1] := symbolic_at_const _ _ ⟨0, by norm_num⟩
  have hpt : ∀ co ∈ symCoefs pts, co.at ![1, 0, 1] = ![1, 0, 1] := by
    refine (forall_map _ (fun w : Coefs => w.at ![1, 0, 1]) (fun v => v = ![1, 0, 1])).mpr ?_
    rw [symCoefs_at, hp]
    simp only [List.map_cons, List.map_nil, hz1, symbolic_at_free]
    simp
  have hacc : ∀ co ∈ secondDeriv κ (symCoefs pts), co.at ![1, 0, 1] = 0 := by
    refine (forall_map _ (fun w : Coefs => w.at ![1, 0, 1]) (fun v => v = 0)).mpr ?_
    rw [secondDeriv_at, symCoefs_at, hp]
    simp only [List.map_cons, List.map_nil, hz1, symbolic_at_free]
    simp [derivCtrl]
  have hct : ct 0 = standContact (genDown 1 :: axes6) := by
    have := R.hct 0 (by simp); simp [gripProblem] at this; exact this.symm
  obtain ⟨L, hAr, hrow, hzero, hLall⟩ := R.frows hrep
  refine ⟨hall.2.1, SatMargin.of_satTol fun r hr => ?_, fun c b hb => ?_⟩
  · have key : ∀ q ∈ L, q.1 ⬝ᵥ ![1, 0, 1] ≤ q.2 + -1 := by
      rw [hLall]
      intro p hp2
      have hp0 : p = 0 := by simpa using hp2
      subst hp0
      refine ⟨fun co hco => kin_rows_tol_of co (-1) _ ?_, fun co hco => acc_rows_tol_of _ co (-1) _ fun j => ?_⟩
      · have := subCoefs_const _ _ _ hpt _ _ _ co hco
        unfold Coefs.at at this
        rw [this, hct]
        intro q hq
        simp [standContact] at hq
        subst hq
        simp [dot]
        norm_num
      · have := subCoefs_const _ _ _ hacc _ _ _ co hco
        unfold Coefs.at at this
        rw [this]
        simp [gripProblem, standProblem]
    obtain ⟨q, hq⟩ : ∃ q, L[r]? = some q := ⟨_, List.getElem?_eq_getElem (by omega)⟩
    obtain ⟨q1, q2⟩ := hrow r q hq
    have e := key q (List.mem_of_getElem? hq)
    have hc3 := (R.eqn hrep).1
    obtain ⟨n, hn⟩ : ∃ n, S.A.cols = 3 + n := ⟨S.A.cols - 3, by omega⟩
    rw [q2, hn, Finset.sum_range_add, Finset.sum_eq_zero (s := Finset.range n) (fun c _ => by
      rw [hzero r _ (by omega), zero_mul]), add_zero]
    refine le_trans (le_of_eq ?_) e
    rw [Finset.sum_congr rfl fun c hc => by rw [q1 c (Finset.mem_range.mp hc)]]
    simp [Finset.sum_range_succ, V3.get, dotProduct, Fin.sum_univ_three, standSolution]
  · rw [R.min, if_neg hrep] at hb
    by_cases hc : c < 3
    · rw [List.getElem?_append_left (by simpa using hc), List.getElem?_replicate, if_pos hc] at hb
      cases hb
      have : c = 0 ∨ c = 1 ∨ c = 2 := by omega
      rcases this with rfl | rfl | rfl <;> simp [standSolution] <;> norm_num
    · rw [List.getElem?_append_right (by simpa using hc), List.getElem?_replicate] at hb
      split_ifs at hb with h
      cases hb
      simp [standSolution, hc]

/-- The gripping robot with every threshold that is small enough. -/
theorem gripProblem_plans (κ : ℝ) (maxIter : ℕ) (hi : 1 ≤ maxIter) :
    ∃ S, computeConstraintsContinuous κ gripProblem [3] = .ok S ∧ 0 < S.D.rows ∧
    ∃ ε > (0 : ℝ), ∀ lib : Lib, LibOk lib → 0 ≤ lib.eps → lib.eps ≤ ε → lib.maxIter = maxIter →
      ∃ A b H gr res N, addConstraintMinBoundQuadProg S.minBounds S.A S.b = .ok (A, b) ∧
        genCostFunction gripProblem [3] ([3] : List ℝ).sum (computeDiscretizedTimeFixed [3] 7) S.A.cols = .ok (H, gr) ∧
        (∀ fuel ≥ N, computeCOMTraj κ lib fuel gripProblem [3] (-1) SOLVER_QUADPROG = .ok res) ∧
        (res.success = true ∨
          ∃ o, ∀ fuel ≥ N, callQuadprog lib fuel H gr S.D S.d.neg A.neg b = .ok (.maxIterReached, o)) := by
  obtain ⟨S, hS, hrest⟩ := C21_in_bounds_and_complete κ _ _ _ gripProblem_accepted
  obtain ⟨m1, m2, m3⟩ := gripProblem_margin κ S hS
  refine ⟨S, hS, ?_, C102_threshold_exists κ gripProblem [3] _ gripProblem_accepted
    (by simp [gripProblem, standProblem, DOUBLE_DESCRIPTION]) gripProblem_spans (by
      intro ct hct e he
      simp only [gripProblem, List.mem_singleton] at hct
      subst hct
      simp only [standContact, Option.some.injEq] at he
      subst he
      norm_num) (-1) (by norm_num) (Or.inr ⟨rfl, by simp [gripProblem, standProblem]⟩) hS one_pos m1 m2 m3 maxIter hi⟩
  obtain ⟨ct, e, pts, ws, S', R⟩ := cont_raw κ _ [3] _ gripProblem_accepted
  have hSS := R.hS
  rw [hS] at hSS
  cases hSS
  rw [(R.deqn (by simp [gripProblem, standProblem, DOUBLE_DESCRIPTION])).1]
  have := R.hw2
  simp [contBlocks, forceRange, nextGens]
  omega

end Verif
