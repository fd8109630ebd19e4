import Verif.Props.C117
import Verif.Props.C118
import Verif.Props.C124

/-!
# C125: what the answers of the planners depend on
-/

namespace Verif
open Finset

/-- The cost reads the path only at 50 instants, and not at all when its weight is zero. -/
theorem endCost_path (flag : Flag) (d : BC) (T w : ℝ) (pi : List V3) (path path' : ℝ → V3)
    (h : w = 0 ∨ ∀ i : ℕ, i < 50 → path (i / 49) = path' (i / 49)) :
    computeEndEffectorCost flag d path T w pi = computeEndEffectorCost flag d path' T w pi := by
  have : endEffectorDistanceCost flag d path T w = endEffectorDistanceCost flag d path' T w := by
    unfold endEffectorDistanceCost
    rcases h with rfl | h
    · simp
    · have hs : samplePath 50 path = samplePath 50 path' := by
        unfold samplePath
        refine List.map_congr_left fun i hi => ?_
        have e : (i : ℝ) * (1 / (((50 : ℕ) : ℝ) - 1)) = i / 49 := by norm_num; ring
        rw [e]
        exact h i (List.mem_range.mp hi)
      unfold computeDistanceCostFunctionPath
      rw [hs]
  unfold computeEndEffectorCost
  rw [this]

/-- C125, verdict: it does not depend on the path, on the weight, on the uninitialised initial guess, or on the solver. -/
theorem C125_verdict (flag : Flag) (hf : flag ∈ effFlags) (d : BC) (T : ℝ) (hT : 0 < T) : ∃ M, ∀ lib lib', LibOk lib → LibOk lib' →
    lib.eps = 0 → lib'.eps = 0 → M ≤ lib.maxIter → M ≤ lib'.maxIter →
    ∀ path path' w w' init init', 0 ≤ w → w ≤ 1 → 0 ≤ w' → w' ≤ 1 → ∃ r r' N,
      (∀ fuel ≥ N, solveEndEffector lib fuel flag d path T w init = .ok r ∧ solveEndEffector lib' fuel flag d path' T w' init' = .ok r') ∧
      r'.success = r.success := by
  obtain ⟨pi, hpi, -⟩ := effPts flag hf d T
  obtain ⟨M, h⟩ := end_verdict flag hf d T hT pi hpi
  refine ⟨M, fun lib lib' hL hL' he he' hm hm' path path' w w' init init' h0 h1 h0' h1' => ?_⟩
  obtain ⟨r, N, hr, hv⟩ := h lib hL he hm path w init h0 h1
  obtain ⟨r', N', hr', hv'⟩ := h lib' hL' he' hm' path' w' init' h0' h1'
  refine ⟨r, r', max N N', fun fuel hfu => ⟨hr fuel (le_trans (le_max_left _ _) hfu), hr' fuel (le_trans (le_max_right _ _) hfu)⟩, ?_⟩
  rw [Bool.eq_iff_iff, hv, hv']

/-- C125, motion: with the same weight, and paths equal at the 50 instants `i / 49` (or the weight zero), it is the same for all solvers
and initial guesses. -/
theorem C125_motion (flag : Flag) (hf : flag ∈ effFlags) (d : BC) (T : ℝ) (hT : 0 < T) (lib lib' : Lib) (hL : LibOk lib) (hL' : LibOk lib')
    (he : lib.eps = 0) (he' : lib'.eps = 0) (path path' : ℝ → V3) (w : ℝ) (h0 : 0 ≤ w) (h1 : w ≤ 1)
    (hp : w = 0 ∨ ∀ i : ℕ, i < 50 → path (i / 49) = path' (i / 49)) (init init' : List ℝ) : ∃ r r' N,
      (∀ fuel ≥ N, solveEndEffector lib fuel flag d path T w init = .ok r ∧ solveEndEffector lib' fuel flag d path' T w init' = .ok r') ∧
      (r.success = true → r'.success = true → r'.c_of_t.eval = r.c_of_t.eval) := by
  obtain ⟨pi, _, _, c, r, N, e1, -, e3, hr, hok, -⟩ := C64_solves lib hL he flag hf d path T w hT h0 h1 init
  obtain ⟨_, _, _, c', r', N', e1', -, e3', hr', hok', -⟩ := C64_solves lib' hL' he' flag hf d path' T w hT h0 h1 init'
  rw [e1] at e1'
  obtain rfl := Out.ok.inj e1'
  rw [← endCost_path flag d T w pi path path' hp, e3] at e3'
  obtain rfl := Out.ok.inj e3'
  obtain ⟨pi', hpi, hl⟩ := effPts flag hf d T
  rw [e1] at hpi
  obtain rfl := Out.ok.inj hpi
  obtain ⟨c2, hc2, hcp, -⟩ := endCost_pos flag hf d path T w hT h0 h1 pi hl
  rw [e3] at hc2
  obtain rfl := Out.ok.inj hc2
  refine ⟨r, r', max N N', fun fuel hfu => ⟨hr fuel (le_trans (le_max_left _ _) hfu), hr' fuel (le_trans (le_max_right _ _) hfu)⟩,
    fun hs hs' => ?_⟩
  obtain ⟨X, -, hcu, -, hX, bX⟩ := hok hs
  obtain ⟨X', -, hcu', -, hX', bX'⟩ := hok' hs'
  have hu := block_unique hcp hX hX' (endOk_mid flag d T pi _ _ hX hX') bX bX'
  rw [hcu, hcu']
  funext t
  have := motion_turn flag hf (LinearEquiv.refl ℝ V3) pi (X := X) (Y := X') (fun j hj => by simp [hu j hj]) T t
  rw [show List.map (⇑(LinearEquiv.refl ℝ V3)) pi = pi from List.map_id' pi] at this
  exact this

/-- A non-trivial case: the move of one metre is planned for every path and weight. -/
theorem unitMove_paths : ∃ M, ∀ maxIter ≥ M, ∀ path w init, 0 ≤ w → w ≤ 1 → ∃ r N,
    (∀ fuel ≥ N, solveEndEffector (exactLib maxIter) fuel 255#32 unitMove path 1 w init = .ok r) ∧ r.success = true := by
  obtain ⟨M, h⟩ := C125_verdict 255#32 (by decide) unitMove 1 one_pos
  obtain ⟨M', h'⟩ := C64_unitMove
  refine ⟨max M M', fun maxIter hm path w init h0 h1 => ?_⟩
  have hM := le_trans (le_max_left _ _) hm
  obtain ⟨r, r', N, hr, hs⟩ := h (exactLib maxIter) (exactLib maxIter) (exactLib_ok _) (exactLib_ok _) rfl rfl hM hM (fun _ => 0) path 0 w
    init init le_rfl zero_le_one h0 h1
  obtain ⟨r1, N1, hr1, hs1⟩ := h' maxIter (le_trans (le_max_right _ _) hm) init
  obtain rfl : r = r1 := Out.ok.inj ((hr (max N N1) (le_max_left _ _)).1.symm.trans (hr1 (max N N1) (le_max_right _ _)))
  exact ⟨r', N, fun fuel hfu => (hr fuel hfu).2, hs.trans hs1⟩

/-! ## The planner of the centre of mass -/

/-- Two results that satisfy the same description are the same. -/
theorem SysVerdict.same {d : ProblemData} {Ts : List ℝ} {g : V3} (h : Accepted d Ts g) {l : TTime} (hl : Discretisation Ts l)
    (hc : d.costFunction = DISTANCE_TRAVELED ∨ d.costFunction = ACCELERATION ∧ d.flag ≠ 63#32) {A b : Mat} {lim lim' : Prop}
    (h1 : ¬ lim) (h2 : ¬ lim') {res res' : ResultDataCOMTraj} (hv : SysVerdict d Ts.sum l A b lim res)
    (hv' : SysVerdict d Ts.sum l A b lim' res') :
    res'.success = res.success ∧ (res.success = true → res'.point = res.point ∧ res'.c_of_t.eval = res.c_of_t.eval) := by
  have hsucc : res'.success = res.success := by
    cases hr : res.success with
    | true =>
      by_contra hn
      rw [Bool.not_eq_true] at hn
      exact ((hv'.none hn).resolve_left h2) _ (hv.found hr).1
    | false =>
      by_contra hn
      rw [Bool.not_eq_false] at hn
      exact ((hv.none hr).resolve_left h1) _ (hv'.found hn).1
  refine ⟨hsucc, fun hr => ?_⟩
  obtain ⟨q2, v, a, q1, q3⟩ := hv.found hr
  obtain ⟨r2, v', a', r1, r3⟩ := hv'.found (hsucc.trans hr)
  have hx : res'.point = res.point := sys_unique d Ts g h l hl hc A b _ _ _ _ _ _ _ _ q1 r1 q2 r2 q3 r3
  rw [hx] at r1
  exact ⟨hx, (motion_unique q1 r1).1⟩

/-- C125, `computeCOMTraj` with a fixed number of samples per phase: verdict and motion are the same for all solvers. -/
theorem C125_fixed (lib lib' : Lib) (hL : LibOk lib) (hL' : LibOk lib') (he : lib.eps = 0) (he' : lib'.eps = 0) (d : ProblemData)
    (Ts : List ℝ) (g : V3) (h : Accepted d Ts g) (hr : d.representation = DOUBLE_DESCRIPTION) (n : ℕ) (hn : 0 < n)
    (hc : d.costFunction = DISTANCE_TRAVELED ∨ d.costFunction = ACCELERATION ∧ d.flag ≠ 63#32)
    (hlim : ∀ A b, computeConstraintsOneStep d Ts.length Ts.sum (computeDiscretizedTimeFixed Ts n) = .ok (A, b) →
      2 ^ A.rows < lib.maxIter ∧ 2 ^ A.rows < lib'.maxIter) :
    ∃ res res' N, (∀ fuel ≥ N, computeCOMTrajFixedSize lib fuel d Ts n = .ok res ∧ computeCOMTrajFixedSize lib' fuel d Ts n = .ok res') ∧
      res'.success = res.success ∧ (res.success = true → res'.point = res.point ∧ res'.c_of_t.eval = res.c_of_t.eval) := by
  obtain ⟨A, b, res, N, hA, hrun, hv⟩ := fixed_sys lib hL he d Ts g h hr n hn hc
  obtain ⟨A', b', res', N', hA', hrun', hv'⟩ := fixed_sys lib' hL' he' d Ts g h hr n hn hc
  rw [hA] at hA'
  obtain ⟨rfl, rfl⟩ := Prod.mk.inj (Out.ok.inj hA')
  obtain ⟨m, m'⟩ := hlim A b hA
  exact ⟨res, res', max N N', fun fuel hfu => ⟨hrun fuel (le_trans (le_max_left _ _) hfu), hrun' fuel (le_trans (le_max_right _ _) hfu)⟩,
    hv.same h (Or.inl ⟨n, hn, rfl⟩) hc (not_le.mpr m) (not_le.mpr m') hv'⟩

/-- C125, `computeCOMTraj` with a time step: the same. -/
theorem C125_step (κ : ℝ) (lib lib' : Lib) (hL : LibOk lib) (hL' : LibOk lib') (he : lib.eps = 0) (he' : lib'.eps = 0) (d : ProblemData)
    (Ts : List ℝ) (g : V3) (h : Accepted d Ts g) (hr : d.representation = DOUBLE_DESCRIPTION) (step : ℝ) (hstep : 0 < step)
    (hshort : ∀ T ∈ Ts, step * 2 ≤ T)
    (hc : d.costFunction = DISTANCE_TRAVELED ∨ d.costFunction = ACCELERATION ∧ d.flag ≠ 63#32)
    (hlim : ∀ A b, computeConstraintsOneStep d Ts.length Ts.sum (allSamples step Ts 0 0) = .ok (A, b) →
      2 ^ A.rows < lib.maxIter ∧ 2 ^ A.rows < lib'.maxIter) :
    ∃ res res' N, (∀ fuel ≥ N, computeCOMTraj κ lib fuel d Ts step SOLVER_QUADPROG = .ok res ∧
        computeCOMTraj κ lib' fuel d Ts step SOLVER_QUADPROG = .ok res') ∧
      res'.success = res.success ∧ (res.success = true → res'.point = res.point ∧ res'.c_of_t.eval = res.c_of_t.eval) := by
  obtain ⟨A, b, res, N, hl, hA, hrun, hv⟩ := step_sys κ lib hL he d Ts g h hr step hstep hshort hc
  obtain ⟨A', b', res', N', -, hA', hrun', hv'⟩ := step_sys κ lib' hL' he' d Ts g h hr step hstep hshort hc
  rw [hA] at hA'
  obtain ⟨rfl, rfl⟩ := Prod.mk.inj (Out.ok.inj hA')
  obtain ⟨m, m'⟩ := hlim A b hA
  exact ⟨res, res', max N N', fun fuel hfu => ⟨hrun fuel (le_trans (le_max_left _ _) hfu), hrun' fuel (le_trans (le_max_right _ _) hfu)⟩,
    hv.same h hl hc (not_le.mpr m) (not_le.mpr m') hv'⟩

/-- C125, continuous formulation: the same. -/
theorem C125_continuous (κ : ℝ) (lib lib' : Lib) (hL : LibOk lib) (hL' : LibOk lib') (he : lib.eps = 0) (he' : lib'.eps = 0)
    (d : ProblemData) (Ts : List ℝ) (g : V3) (h : AcceptedC d Ts g) (hr : d.representation = DOUBLE_DESCRIPTION) (step : ℝ) (hstep : step ≤ 0)
    (hc : d.costFunction = DISTANCE_TRAVELED ∨ d.costFunction = ACCELERATION ∧ d.flag ≠ 63#32)
    (hlim : ∀ S, computeConstraintsContinuous κ d Ts = .ok S → 2 ^ S.A.rows < lib.maxIter ∧ 2 ^ S.A.rows < lib'.maxIter) :
    ∃ res res' N, (∀ fuel ≥ N, computeCOMTraj κ lib fuel d Ts step SOLVER_QUADPROG = .ok res ∧
        computeCOMTraj κ lib' fuel d Ts step SOLVER_QUADPROG = .ok res') ∧
      res'.success = res.success ∧ (res.success = true → res'.point = res.point ∧ res'.c_of_t.eval = res.c_of_t.eval) := by
  obtain ⟨S, res, N, hS, hrun, hv⟩ := cont_verdict κ lib hL he d Ts g h hr step hstep hc
  obtain ⟨S', res', N', hS', hrun', hv'⟩ := cont_verdict κ lib' hL' he' d Ts g h hr step hstep hc
  rw [hS] at hS'
  obtain rfl := Out.ok.inj hS'
  obtain ⟨m, m'⟩ := hlim S hS
  exact ⟨res, res', max N N', fun fuel hfu => ⟨hrun fuel (le_trans (le_max_left _ _) hfu), hrun' fuel (le_trans (le_max_right _ _) hfu)⟩,
    hv.same (h.accepted hr) (Or.inl ⟨7, by norm_num, rfl⟩) hc (not_le.mpr m) (not_le.mpr m') hv'⟩

/-- A non-trivial case: the standing robot, continuous formulation, two solvers that differ in their iteration limit. Both find the motion. -/
theorem calm_two_solvers (κ : ℝ) : ∃ M, ∀ m > M, ∀ m' > M, ∃ res res' N,
    (∀ fuel ≥ N, computeCOMTraj κ (exactLib m) fuel calmProblem [1, 2] (-1) SOLVER_QUADPROG = .ok res ∧
      computeCOMTraj κ (exactLib m') fuel calmProblem [1, 2] (-1) SOLVER_QUADPROG = .ok res') ∧
    res.success = true ∧ res'.success = true ∧ res'.point = res.point := by
  have h := calm_accepted
  obtain ⟨S, hS, -⟩ := C21_in_bounds_and_complete κ _ _ _ h
  refine ⟨2 ^ S.A.rows, fun m hm m' hm' => ?_⟩
  have hflag : calmProblem.flag ≠ 63#32 := by simp [calmProblem, standProblem]
  obtain ⟨res, res', N, h1, h2, h3⟩ := C125_continuous κ (exactLib m) (exactLib m') (exactLib_ok _) (exactLib_ok _) rfl rfl
    calmProblem [1, 2] _ h rfl (-1) (by norm_num) (Or.inr ⟨rfl, hflag⟩) (by
      intro S1 hS1
      rw [hS] at hS1
      cases hS1
      exact ⟨hm, hm'⟩)
  obtain ⟨S1, r, N0, hS1, hr0, hv⟩ := cont_verdict κ (exactLib m) (exactLib_ok _) rfl _ _ _ h rfl (-1) (by norm_num)
    (Or.inr ⟨rfl, hflag⟩)
  rw [hS] at hS1
  cases hS1
  have e := (h1 (max N N0) (le_max_left _ _)).1
  rw [hr0 (max N N0) (le_max_right _ _)] at e
  cases e
  have hss : res.success = true := by
    by_contra hn
    rw [Bool.not_eq_true] at hn
    exact ((hv.none hn).resolve_left (not_le.mpr hm)) _ (calm_sat κ S hS)
  exact ⟨res, res', N, h1, hss, h2.trans hss, (h3 hss).1⟩

/-! ## The stopping planner -/

/-- C125, `solve0step`, with or without angular momentum, with or without a time step: verdict, motion, angular momentum and `cost_` are the
same for all solvers. -/
theorem C125_stop (lib lib' : Lib) (hL : LibOk lib) (hL' : LibOk lib') (he : lib.eps = 0) (he' : lib'.eps = 0) (d : ProblemData)
    (ct : ContactData) (e : Equilibrium) (hz : ZeroContact ct e) (hct : d.contacts = [ct])
    (hrep : d.representation = DOUBLE_DESCRIPTION) (hkin : d.useAngularMomentum = true → ct.kin = []) (T timeStep : ℝ)
    (hs : GoodStep T timeStep) (hi : EnoughIterations lib d ct T timeStep) (hi' : EnoughIterations lib' d ct T timeStep) :
    ∃ r r' N, (∀ fuel ≥ N, solve0step lib fuel d [T] timeStep = .ok r ∧ solve0step lib' fuel d [T] timeStep = .ok r') ∧
      r'.success = r.success ∧ (r.success = true → r'.c_of_t.eval = r.c_of_t.eval ∧ r'.dL_of_t.eval = r.dL_of_t.eval ∧
        r'.cost = r.cost) := by
  obtain ⟨r, N, hrun, hv⟩ := stop_verdict lib hL he d ct e hz hct hrep hkin T timeStep hs hi
  obtain ⟨r', N', hrun', hv'⟩ := stop_verdict lib' hL' he' d ct e hz hct hrep hkin T timeStep hs hi'
  have hsucc : r'.success = r.success := by
    cases h1 : r.success with
    | true =>
      by_contra h2
      obtain ⟨-, xL, hx, -⟩ := hv.found h1
      exact (hv'.none (by simpa using h2)).2 _ _ _ hx
    | false =>
      by_contra h2
      obtain ⟨-, xL, hx, -⟩ := hv'.found (by simpa using h2)
      exact (hv.none h1).2 _ _ _ hx
  refine ⟨r, r', max N N', fun fuel hf => ⟨hrun fuel (le_trans (le_max_left _ _) hf), hrun' fuel (le_trans (le_max_right _ _) hf)⟩,
    hsucc, fun hsu => ?_⟩
  obtain ⟨hc, xL, hx, hmin⟩ := hv.found hsu
  obtain ⟨hc', xL', hx', hmin'⟩ := hv'.found (hsucc.trans hsu)
  obtain ⟨hxx, hdL⟩ := stop_unique d ct e hz hkin hs hx hx' hmin (hmin' _ _ _ hx)
  have hmot : r'.c_of_t.eval = r.c_of_t.eval := by rw [hc', hxx, ← hc]
  refine ⟨hmot, hdL, ?_⟩
  have hr := hrun N le_rfl
  have hr' := hrun' N' le_rfl
  cases hang : d.useAngularMomentum with
  | true =>
    obtain ⟨T1, hT1, hcost⟩ := C33_angular hr hsu hang
    obtain ⟨T2, hT2, hcost'⟩ := C33_angular hr' (hsucc.trans hsu) hang
    obtain rfl : T = T1 := by simpa using hT1
    obtain rfl : T = T2 := by simpa using hT2
    rw [hcost, hcost', hdL]
  | false =>
    obtain ⟨x1, hx1, hcost⟩ := C33_distance hr hsu hang
    obtain ⟨x2, hx2, hcost'⟩ := C33_distance hr' (hsucc.trans hsu) hang
    obtain ⟨T1, y1, -, hT1, -, hy1, -, -, -, -, -, z1, -⟩ := C30_stops hr hsu
    obtain ⟨T2, y2, -, hT2, -, hy2, -, -, -, -, -, z2, -⟩ := C30_stops hr' (hsucc.trans hsu)
    obtain rfl : T = T1 := by simpa using hT1
    obtain rfl : T = T2 := by simpa using hT2
    obtain rfl : x1 = y1 := Out.ok.inj (hx1.symm.trans hy1)
    obtain rfl : x2 = y2 := Out.ok.inj (hx2.symm.trans hy2)
    rw [hcost, hcost', ← z1, ← z2, hmot]

/-- A non-trivial case: the robot of `spinProblem`, that needs angular momentum to stop, with two solvers. -/
theorem spin_two_solvers : ∃ M, ∀ m > M, ∀ m' > M, ∃ r r' N,
    (∀ fuel ≥ N, solve0step (exactLib m) fuel spinProblem [1] (-1) = .ok r ∧ solve0step (exactLib m') fuel spinProblem [1] (-1) = .ok r') ∧
    r.success = true ∧ r'.success = true ∧ r'.c_of_t.eval = r.c_of_t.eval := by
  have hz : ZeroContact spinContact spinPhase := ⟨rfl, rfl, rfl, by simp [spinPhase], by simp [spinContact]⟩
  have hs : GoodStep 1 (-1) := Or.inl ⟨one_pos, Or.inl (by norm_num)⟩
  have hk : spinProblem.useAngularMomentum = true → spinContact.kin = [] := fun _ => rfl
  obtain ⟨A, b, hA, -⟩ := C103_exact spinProblem spinContact spinPhase hz hs hk
  have hi : ∀ m > 2 ^ A.rows, EnoughIterations (exactLib m) spinProblem spinContact 1 (-1) := by
    intro m hm B c hB
    have : A = B := congrArg Prod.fst (Out.ok.inj (hA.symm.trans hB))
    rw [← this]
    exact hm
  refine ⟨2 ^ A.rows, fun m hm m' hm' => ?_⟩
  obtain ⟨r, r', N, hrun, h1, h2⟩ := C125_stop (exactLib m) (exactLib m') (exactLib_ok m) (exactLib_ok m') rfl rfl spinProblem spinContact
    spinPhase hz rfl rfl hk 1 (-1) hs (hi m hm) (hi m' hm')
  have hsu : r.success = true := by
    obtain ⟨r0, N0, hrun0, hv⟩ := stop_verdict (exactLib m) (exactLib_ok m) rfl spinProblem spinContact spinPhase hz rfl rfl
      hk 1 (-1) hs (hi m hm)
    obtain rfl : r = r0 := Out.ok.inj ((hrun _ (le_max_left N N0)).1.symm.trans (hrun0 _ (le_max_right N N0)))
    by_contra h0
    exact (hv.none (by simpa using h0)).2 _ _ _ (spin_stop.mono (by norm_num))
  exact ⟨r, r', N, hrun, hsu, h1.trans hsu, (h2 hsu).1⟩

/-! ## The continuous formulation with forces -/

theorem allSat_mid {A b D d : Mat} {m : List ℝ} {y z : ℕ → ℝ} (hy : AllSat A b D d m y) (hz : AllSat A b D d m z) :
    AllSat A b D d m fun c => (y c + z c) / 2 := by
  refine ⟨sat_mid hy.1 hz.1, fun r hr => ?_, fun c b hb => ?_⟩
  · have e : ∑ c ∈ Finset.range D.cols, D.e r c * ((y c + z c) / 2)
        = (∑ c ∈ Finset.range D.cols, D.e r c * y c + ∑ c ∈ Finset.range D.cols, D.e r c * z c) / 2 := by
      rw [← Finset.sum_add_distrib, Finset.sum_div]
      exact Finset.sum_congr rfl fun c _ => by ring
    rw [e, hy.2.1 r hr, hz.2.1 r hr]
    ring
  · have h1 := hy.2.2 c b hb
    have h2 := hz.2.2 c b hb
    change b ≤ (y c + z c) / 2
    linarith

/-- The cost of the motion is a quadratic function of the free point, with a positive coefficient. -/
theorem motionCost_quad (d : ProblemData) (Ts : List ℝ) (g : V3) (h : AcceptedC d Ts g) (l : TTime) (hl : Discretisation Ts l)
    (hc : d.costFunction = DISTANCE_TRAVELED ∨ d.costFunction = ACCELERATION ∧ d.flag ≠ 63#32) : ∃ k w K, 0 < k ∧
    ∀ x c v a, Motion d Ts.sum x c v a → motionCost d l x a = k * dot x x + 2 * dot w x + K := by
  obtain ⟨pts, hpts⟩ := C01_answers d.flag h.flag d.bc Ts.sum h.capt
  obtain ⟨k, w, K, hk, -, hcost⟩ := cost_hess d Ts h.total l (C26_samples Ts h.ne h.pos _ hl) h.flag
    (goodCost d Ts h.total h.ne h.flag h.capt l hl hc) pts hpts 0
  refine ⟨k, w, K, hk, fun x c v a hm => ?_⟩
  have := hcost (ext3 x) c v a (by rw [first3_ext3]; exact hm)
  rw [quadForm_head 0, first3_ext3] at this
  simp only [Finset.range_zero, Finset.sum_empty, mul_zero, add_zero] at this
  linarith

/-- C125, continuous formulation with forces, generators that span the space of wrenches: verdict and motion are the same for all solvers. -/
theorem C125_forces (κ : ℝ) (lib lib' : Lib) (hL : LibOk lib) (hL' : LibOk lib') (he : lib.eps = 0) (he' : lib'.eps = 0)
    (d : ProblemData) (Ts : List ℝ) (g : V3) (h : AcceptedC d Ts g) (hr : d.representation ≠ DOUBLE_DESCRIPTION) (step : ℝ) (hstep : step ≤ 0)
    (hc : d.costFunction = DISTANCE_TRAVELED ∨ d.costFunction = ACCELERATION ∧ d.flag ≠ 63#32)
    (hs : ∀ ct ∈ d.contacts, ∀ e, ct.contactPhase = some e → Spans e)
    (hlim : ∀ S, computeConstraintsContinuous κ d Ts = .ok S → 2 ^ (S.A.rows + S.minBounds.length) < lib.maxIter ∧
      2 ^ (S.A.rows + S.minBounds.length) < lib'.maxIter) :
    ∃ res res' N, (∀ fuel ≥ N, computeCOMTraj κ lib fuel d Ts step SOLVER_QUADPROG = .ok res ∧
        computeCOMTraj κ lib' fuel d Ts step SOLVER_QUADPROG = .ok res') ∧
      res'.success = res.success ∧ (res.success = true → res'.point = res.point ∧ res'.c_of_t.eval = res.c_of_t.eval) := by
  obtain ⟨S, hS, -⟩ := C21_in_bounds_and_complete κ d Ts g h
  obtain ⟨m, m'⟩ := hlim S hS
  obtain ⟨hE, hind⟩ := force_independent κ d Ts g h hr hs S hS
  obtain ⟨res, N, hrun, hsucc, hfail⟩ := continuous_exact κ lib hL he d Ts g h step hstep hc S hS hE
  obtain ⟨res', N', hrun', hsucc', hfail'⟩ := continuous_exact κ lib' hL' he' d Ts g h step hstep hc S hS hE
  have hsu : res'.success = res.success := by
    cases hq : res.success with
    | true =>
      by_contra hn
      obtain ⟨y, -, hsat, -⟩ := hsucc hq
      rcases hfail' (by simpa using hn) with q | q | ⟨i, hi, c, hc⟩
      · exact absurd q (not_le.mpr m')
      · exact q _ hsat
      · exact hind i hi c hc
    | false =>
      by_contra hn
      obtain ⟨y, -, hsat, -⟩ := hsucc' (by simpa using hn)
      rcases hfail hq with q | q | ⟨i, hi, c, hc⟩
      · exact absurd q (not_le.mpr m)
      · exact q _ hsat
      · exact hind i hi c hc
  refine ⟨res, res', max N N', fun fuel hfu => ⟨hrun fuel (le_trans (le_max_left _ _) hfu), hrun' fuel (le_trans (le_max_right _ _) hfu)⟩,
    hsu, fun hq => ?_⟩
  obtain ⟨y, hy, hsat, v, a, hmo, hmin⟩ := hsucc hq
  obtain ⟨y', hy', hsat', v', a', hmo', hmin'⟩ := hsucc' (hsu.trans hq)
  obtain ⟨k, w, K, hk, hquad⟩ := motionCost_quad d Ts g h _ (Or.inl ⟨7, by norm_num, rfl⟩) hc
  obtain ⟨pts, hpts⟩ := C01_answers d.flag h.flag d.bc Ts.sum h.capt
  obtain ⟨v'', a'', hmo''⟩ := motion_exists d Ts.sum pts hpts h.flag h.total.ne' (first3 fun c => (y c + y' c) / 2)
  have o := hmin _ _ _ _ hmo'' (allSat_mid hsat hsat')
  have o' := hmin' _ _ _ _ hmo'' (allSat_mid hsat hsat')
  rw [hquad _ _ _ _ hmo, hquad _ _ _ _ hmo''] at o
  rw [hquad _ _ _ _ hmo', hquad _ _ _ _ hmo''] at o'
  have hcv : ∑ c ∈ Finset.range (S.A.cols - 3), ((y (3 + c) + y' (3 + c)) / 2) ^ 2
      ≤ (∑ c ∈ Finset.range (S.A.cols - 3), y (3 + c) ^ 2 + ∑ c ∈ Finset.range (S.A.cols - 3), y' (3 + c) ^ 2) / 2 := by
    rw [← Finset.sum_add_distrib, Finset.sum_div]
    exact Finset.sum_le_sum fun c _ => by nlinarith [sq_nonneg (y (3 + c) - y' (3 + c))]
  have hmid : (first3 fun c => (y c + y' c) / 2) = (1 / 2 : ℝ) • (res.point + res'.point) := by
    rw [← hy, ← hy']
    ext j
    fin_cases j <;> simp [first3] <;> ring
  rw [hmid] at o o'
  have hpar : 4 * (k * dot ((1 / 2 : ℝ) • (res.point + res'.point)) ((1 / 2 : ℝ) • (res.point + res'.point))
      + 2 * dot w ((1 / 2 : ℝ) • (res.point + res'.point)))
      = 2 * (k * dot res.point res.point + 2 * dot w res.point) + 2 * (k * dot res'.point res'.point + 2 * dot w res'.point)
        - k * dot (res.point - res'.point) (res.point - res'.point) := by
    simp only [dot, Fin.sum_univ_three, Pi.smul_apply, Pi.add_apply, Pi.sub_apply, smul_eq_mul]
    ring
  have hz : k * dot (res.point - res'.point) (res.point - res'.point) ≤ 0 := by linarith
  have hz' : dot (res.point - res'.point) (res.point - res'.point) ≤ 0 := by
    by_contra hn
    push Not at hn
    exact absurd hz (not_le.mpr (mul_pos hk hn))
  have hx : res'.point = res.point := (sub_eq_zero.mp (dot_self_zero' _ (le_antisymm hz' (dot_self_nonneg' _)))).symm
  rw [hx] at hmo'
  exact ⟨hx, (motion_unique hmo hmo').1⟩

/-- A non-trivial case: the robot of `claspProblem`, with two solvers. -/
theorem clasp_two_solvers (κ : ℝ) : ∃ M, ∀ m > M, ∀ m' > M, ∃ res res' N,
    (∀ fuel ≥ N, computeCOMTraj κ (exactLib m) fuel (claspProblem 1) [1] (-1) SOLVER_QUADPROG = .ok res ∧
      computeCOMTraj κ (exactLib m') fuel (claspProblem 1) [1] (-1) SOLVER_QUADPROG = .ok res') ∧
    res.success = true ∧ res'.success = true ∧ res'.c_of_t.eval = res.c_of_t.eval := by
  obtain ⟨M, hM⟩ := clasp_calls κ 1 (by norm_num)
  obtain ⟨hacc, -⟩ := claspProblem_accepted 1
  obtain ⟨f1, f2, f3, -⟩ := claspProblem_facts 1
  obtain ⟨S, hS, -⟩ := C21_in_bounds_and_complete κ _ _ _ hacc
  refine ⟨max M (2 ^ (S.A.rows + S.minBounds.length)), fun m hm m' hm' => ?_⟩
  obtain ⟨res0, -, N0, hrun0, -, -, hs0, -⟩ := hM m (lt_of_le_of_lt (le_max_left _ _) hm)
  obtain ⟨res, res', N, hrun, h1, h2⟩ := C125_forces κ (exactLib m) (exactLib m') (exactLib_ok _) (exactLib_ok _) rfl rfl _ [1] 0 hacc f1 (-1)
    (by norm_num) (Or.inr ⟨rfl, by simp [claspProblem]⟩) f3 (by
      intro S2 h2
      rw [hS] at h2
      cases h2
      exact ⟨lt_of_le_of_lt (le_max_right _ _) hm, lt_of_le_of_lt (le_max_right _ _) hm'⟩)
  obtain rfl : res = res0 := Out.ok.inj ((hrun _ (le_max_left N N0)).1.symm.trans (hrun0 _ (le_max_right N N0)))
  have hsu := hs0 (by norm_num)
  exact ⟨res, res', N, hrun, hsu, h1.trans hsu, (h2 hsu).2⟩

end Verif
