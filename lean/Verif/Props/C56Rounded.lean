import Verif.Props.C56

/-!
# C56 for the two sets with rounded coefficients

The wrench coefficients of the sets `c0_dc0_ddc0_dc1_c1` and `c0_dc0_ddc0_ddc1_dc1_c1` are decimals in the source. The
verdict of the planner is then right up to the resulting error, which is explicit.
-/

namespace Verif
open Matrix

/-! ## Specification -/

/-- The requirements at all samples, each wrench inequality being relaxed by `E`. -/
def MeetsSamplesUpTo (pData : ProblemData) (l : TTime) (E : Equilibrium → (V3 × V3) × ℝ → ℝ) (c a : ℝ → V3) : Prop :=
  (∀ t p, Constrained l t p → AtPhase pData.contacts p fun ct e => KinOk ct (c t) ∧ ∀ r ∈ e.poly,
    dot r.1.1 (e.mass • (e.gravity - a t)) + dot r.1.2 (e.mass • cr (c t) (e.gravity - a t))
      ≤ (r.2 - max pData.reduce_h 0) * (|e.mass| * Real.sqrt (dot r.1.1 r.1.1 + dot r.1.2 r.1.2)) + E e r) ∧
  (pData.constraintAcceleration = true → ∀ q ∈ l, ∀ k, |a q.1 k| ≤ pData.maxAcceleration)

/-- The effect of the rounded coefficients on a wrench inequality, when the coordinates of the control points are at
most `M` and those of the gravity at most `G`. -/
noncomputable def roundErr (M G T : ℝ) (e : Equilibrium) (r : (V3 × V3) × ℝ) : ℝ :=
  |e.mass| * ((|r.1.1 0| + |r.1.1 1| + |r.1.1 2|) * (1e-12 * M / T ^ 2)
    + (|r.1.2 0| + |r.1.2 1| + |r.1.2 2|) * (1e-12 * (M * M + T ^ 2 * (G * M)) / T ^ 2))

/-- `M` bounds the coordinates of the control points for the free point `x`, `G` those of the gravity. -/
def Sizes (pData : ProblemData) (T : ℝ) (g x : V3) (M G : ℝ) : Prop :=
  (∀ pts, computeConstantWaypoints pData.flag pData.bc T = .ok pts → ∀ p ∈ pts, ∀ k, |p k| ≤ M) ∧
  (∀ k, |x k| ≤ M) ∧ ∀ k, |g k| ≤ G

/-! ## The system -/

/-- The difference between a coded wrench row and the row of the specification. -/
theorem round_key (pData : ProblemData) (T : ℝ) (hT : 0 < T) (g : V3) (hf : pData.flag ∈ [31#32, 63#32])
    {ct0 : ContactData} {e0 : Equilibrium} (hc0 : pData.contacts[0]? = some ct0) (he0 : ct0.contactPhase = some e0)
    (hgr : e0.gravity = g) {ws : List Wp6}
    (hw : computeWwaypoints pData.flag pData.contacts pData.bc T = .ok ws) {x : V3} {c v a : ℝ → V3} {M G : ℝ}
    (hm : Motion pData T x c v a) (hs : Sizes pData T g x M G) (t : ℝ) (t0 : 0 ≤ t) (t1 : t ≤ T) (e : Equilibrium)
    (r : (V3 × V3) × ℝ) :
    |(dot r.1.1 (e.mass • (g - a t)) + dot r.1.2 (e.mass • cr (c t) (g - a t)))
      - (dot r.1.1 (e.mass • (g - headCurve ws x (t / T)))
        + dot r.1.2 (e.mass • (-tailCurve ws x (t / T))))| ≤ roundErr M G T e r := by
  obtain ⟨hM, hxM, hG⟩ := hs
  obtain ⟨pts, hpts, rfl, hv, ha⟩ := hm
  have hM := hM pts hpts
  obtain ⟨rest, hrest⟩ : ∃ rest, pData.contacts = ct0 :: rest := by
    cases hcs : pData.contacts with
    | nil => rw [hcs] at hc0; simp at hc0
    | cons a r => rw [hcs] at hc0; simp at hc0; exact ⟨r, by rw [hc0]⟩
  obtain ⟨ws', hw', hx'⟩ := C04_wrench_waypoints_rounded_partial pData.flag hf ct0 rest e0 he0
    pData.bc T hT pts hpts
  rw [← hrest, hw] at hw'
  cases hw'
  rw [← hgr] at hG
  obtain ⟨v', a', hv', ha', hs⟩ := hx' x M G hM hxM hG
  have e1 := deriv_unique hv hv'
  subst e1
  have e2 := deriv_unique ha ha'
  subst e2
  have d1 := dot_close r.1.1 (headCurve ws x (t / T)) (a t) _ fun k => (hs t t0 t1 k).1
  have d2 := dot_close r.1.2 (tailCurve ws x (t / T)) _ _ fun k => (hs t t0 t1 k).2
  rw [hgr] at d2
  rw [← neg_wrenchTail]
  set W := wrenchTail g (curve (degreeOf pData.flag) (fill pData.flag (nth pts) x) T t) (a t)
  have f1 : dot r.1.1 (e.mass • (g - a t)) + dot r.1.2 (e.mass • -W)
      - (dot r.1.1 (e.mass • (g - headCurve ws x (t / T)))
          + dot r.1.2 (e.mass • (-tailCurve ws x (t / T))))
      = e.mass * ((dot r.1.1 (headCurve ws x (t / T)) - dot r.1.1 (a t))
          + (dot r.1.2 (tailCurve ws x (t / T)) - dot r.1.2 W)) := by
    simp only [dot, Pi.smul_apply, Pi.sub_apply, Pi.neg_apply, smul_eq_mul]; ring
  rw [f1, abs_mul]
  exact mul_le_mul_of_nonneg_left (le_trans (abs_add_le _ _) (add_le_add d1 d2)) (abs_nonneg _)

theorem sat_rounded (pData : ProblemData) (Ts : List ℝ) (g : V3) (h : Accepted pData Ts g)
    (hf : pData.flag ∈ [31#32, 63#32]) (l : TTime) (hl : Discretisation Ts l) (A b : Mat)
    (hA : computeConstraintsOneStep pData Ts.length Ts.sum l = .ok (A, b)) {x : V3} {c v a : ℝ → V3} {M G : ℝ}
    (hm : Motion pData Ts.sum x c v a) (hs : Sizes pData Ts.sum g x M G) :
    (Sat A b (ext3 x) → MeetsSamplesUpTo pData l (roundErr M G Ts.sum) c a) ∧
    (MeetsSamplesUpTo pData l (fun e r => -roundErr M G Ts.sum e r) c a → Sat A b (ext3 x)) := by
  obtain ⟨pts, ws, hpts, hw, hx⟩ := C19_meaning pData Ts g h l hl A b hA
  obtain ⟨ct0, e0, hc0, hg0, hgr⟩ := h.phase 0 (List.length_pos_iff.mpr h.ne)
  obtain ⟨htags, hb⟩ := hl.tags h.ne h.pos
  have key : ∀ t p, Constrained l t p → ∀ (e : Equilibrium) (r : (V3 × V3) × ℝ),
      |(dot r.1.1 (e.mass • (g - a t)) + dot r.1.2 (e.mass • cr (c t) (g - a t)))
        - (dot r.1.1 (e.mass • (g - headCurve ws x (t / Ts.sum)))
          + dot r.1.2 (e.mass • (-tailCurve ws x (t / Ts.sum))))| ≤ roundErr M G Ts.sum e r := by
    intro t p hc e r
    obtain ⟨_, i, hi⟩ := hc.lt htags
    obtain ⟨t0, t1⟩ := hb _ hi
    exact round_key pData Ts.sum h.total g hf hc0 hg0.1 hgr hw hm hs t t0 t1 e r
  obtain ⟨pts', hpts', rfl, hv, ha⟩ := hm
  rw [hpts] at hpts'
  cases hpts'
  obtain ⟨v', a', hv', ha', hiff⟩ := hx x
  have e1 := deriv_unique hv hv'
  subst e1
  have e2 := deriv_unique ha ha'
  subst e2
  have hphase : ∀ t p, Constrained l t p → ∃ ct e, pData.contacts[p]? = some ct ∧ GoodContact ct e ∧ e.gravity = g :=
    fun t p hc => h.phase p (hc.lt htags).1
  constructor
  · intro hsat
    obtain ⟨s1, s2⟩ := hiff.mp hsat
    refine ⟨fun t p hc => ?_, s2⟩
    obtain ⟨ct, e, p1, p2, p3⟩ := hphase t p hc
    obtain ⟨ct', e', q1, q2, q3, q4⟩ := s1 t p hc
    rw [p1] at q1
    cases q1
    rw [p2.1] at q2
    cases q2
    refine ⟨ct, e, p1, p2.1, q4, fun r hr => ?_⟩
    have hrow := q3 r hr
    unfold WrenchRowOk at hrow
    have := (abs_le.mp (key t p hc e r)).2
    rw [p3]
    linarith
  · rintro ⟨s1, s2⟩
    refine hiff.mpr ⟨fun t p hc => ?_, s2⟩
    obtain ⟨ct, e, p1, p2, p3⟩ := hphase t p hc
    obtain ⟨ct', e', q1, q2, q3, q4⟩ := s1 t p hc
    rw [p1] at q1
    cases q1
    rw [p2.1] at q2
    cases q2
    refine ⟨ct, e, p1, p2.1, fun r hr => ?_, q3⟩
    have hrow := q4 r hr
    unfold WrenchRowOk
    have := (abs_le.mp (key t p hc e r)).1
    rw [p3] at hrow
    linarith

/-! ## The planners -/

/-- The verdict up to the error of the coefficients: a returned motion meets the requirements up to the error, no
motion that meets them with the error as margin has a lower cost, and without success no motion meets them with the
error as margin, or `limit`. -/
structure VerdictUpTo (pData : ProblemData) (T : ℝ) (g : V3) (l : TTime) (limit : Prop) (res : ResultDataCOMTraj) :
    Prop where
  found : res.success = true → ∃ v a, Motion pData T res.point res.c_of_t.eval v a ∧
    (∀ M G, Sizes pData T g res.point M G → MeetsSamplesUpTo pData l (roundErr M G T) res.c_of_t.eval a) ∧
    ∀ x' c' v' a' M G, Motion pData T x' c' v' a' → Sizes pData T g x' M G →
      MeetsSamplesUpTo pData l (fun e r => -roundErr M G T e r) c' a' →
      motionCost pData l res.point a ≤ motionCost pData l x' a'
  none : res.success = false → limit ∨ ∀ x' c' v' a' M G, Motion pData T x' c' v' a' → Sizes pData T g x' M G →
    ¬ MeetsSamplesUpTo pData l (fun e r => -roundErr M G T e r) c' a'

theorem planSamples_verdictUpTo (lib : Lib) (hL : LibOk lib) (he : lib.eps = 0) (pData : ProblemData) (Ts : List ℝ)
    (g : V3) (h : Accepted pData Ts g) (hf : pData.flag ∈ [31#32, 63#32])
    (l : TTime) (hl : Discretisation Ts l) (hc : GoodCost pData Ts.sum l) :
    ∃ res N, (∀ fuel ≥ N, planSamples lib fuel pData Ts l = .ok res) ∧
      VerdictUpTo pData Ts.sum g l (∀ A b, computeConstraintsOneStep pData Ts.length Ts.sum l = .ok (A, b) →
        lib.maxIter ≤ 2 ^ A.rows) res := by
  obtain ⟨A, b, res, N, hA, hrun, hsucc, hfail⟩ := planSamples_exact lib hL he pData Ts g h l hl hc
  refine ⟨res, N, hrun, ⟨fun hs => ?_, fun hs => ?_⟩⟩
  · obtain ⟨s1, v, a, hm, s2⟩ := hsucc hs
    exact ⟨v, a, hm, fun M G hsz => (sat_rounded pData Ts g h hf l hl A b hA hm hsz).1 s1,
      fun x' c' v' a' M G hm' hsz hs' => s2 x' c' v' a' hm' ((sat_rounded pData Ts g h hf l hl A b hA hm' hsz).2 hs')⟩
  · rcases hfail hs with h1 | h1
    · left
      intro A' b' hA'
      rw [hA] at hA'
      cases hA'
      exact h1
    · right
      intro x' c' v' a' M G hm' hsz hs'
      exact h1 x' ((sat_rounded pData Ts g h hf l hl A b hA hm' hsz).2 hs')

/-- C56, `computeCOMTrajFixedSize`, the two sets with rounded coefficients. -/
theorem C56_fixedSize_rounded_partial (lib : Lib) (hL : LibOk lib) (he : lib.eps = 0) (pData : ProblemData)
    (Ts : List ℝ) (g : V3) (h : Accepted pData Ts g) (hr : pData.representation = DOUBLE_DESCRIPTION)
    (hf : pData.flag ∈ [31#32, 63#32]) (n : ℕ) (hn : 0 < n)
    (hc : pData.costFunction = DISTANCE_TRAVELED ∨ pData.costFunction = ACCELERATION ∧ pData.flag ≠ 63#32) :
    ∃ res N, (∀ fuel ≥ N, computeCOMTrajFixedSize lib fuel pData Ts n = .ok res) ∧
      (res.success = true → MeetsBoundary pData.flag pData.bc res.c_of_t.eval Ts.sum) ∧
      VerdictUpTo pData Ts.sum g (computeDiscretizedTimeFixed Ts n) (∀ A b, computeConstraintsOneStep pData Ts.length
        Ts.sum (computeDiscretizedTimeFixed Ts n) = .ok (A, b) → lib.maxIter ≤ 2 ^ A.rows) res := by
  obtain ⟨res, N, hrun, hv⟩ := planSamples_verdictUpTo lib hL he pData Ts g h hf _ (Or.inl ⟨n, hn, rfl⟩)
    (goodCost pData Ts h.total h.ne h.flag h.capt _ (Or.inl ⟨n, hn, rfl⟩) hc)
  have hrun' : ∀ fuel ≥ N, computeCOMTrajFixedSize lib fuel pData Ts n = .ok res := by
    intro fuel hfuel
    have := hrun fuel hfuel
    unfold planSamples at this
    unfold computeCOMTrajFixedSize
    rw [if_pos hr, if_neg (not_not.mpr h.size)]
    exact this
  refine ⟨res, N, hrun', fun hs => ?_, hv⟩
  obtain ⟨q, hq⟩ := (C29_planned pData Ts res).1 _ _ _ (hrun' N le_rfl)
  exact (C07_boundary_partial pData Ts q res hq hs h.flag).2.2

/-- C56, `computeCOMTraj` with a time step, the two sets with rounded coefficients. -/
theorem C56_timeStep_rounded_partial (κ : ℝ) (lib : Lib) (hL : LibOk lib) (he : lib.eps = 0) (pData : ProblemData)
    (Ts : List ℝ) (g : V3) (h : Accepted pData Ts g) (hr : pData.representation = DOUBLE_DESCRIPTION)
    (hf : pData.flag ∈ [31#32, 63#32]) (step : ℝ) (hstep : 0 < step) (hshort : ∀ T ∈ Ts, step * 2 ≤ T)
    (hc : pData.costFunction = DISTANCE_TRAVELED ∨ pData.costFunction = ACCELERATION ∧ pData.flag ≠ 63#32) :
    ∃ l res N, Discretisation Ts l ∧
      (∀ fuel ≥ N, computeDiscretizedTime Ts step fuel = .ok l) ∧
      (∀ fuel ≥ N, computeCOMTraj κ lib fuel pData Ts step SOLVER_QUADPROG = .ok res) ∧
      (res.success = true → MeetsBoundary pData.flag pData.bc res.c_of_t.eval Ts.sum) ∧
      VerdictUpTo pData Ts.sum g l (∀ A b, computeConstraintsOneStep pData Ts.length Ts.sum l = .ok (A, b) →
        lib.maxIter ≤ 2 ^ A.rows) res := by
  obtain ⟨N0, hN0⟩ := C16_discretized_time Ts step hstep hshort
  obtain ⟨l, hl, -⟩ := hN0 N0 le_rfl
  have hdet : ∀ fuel ≥ N0, computeDiscretizedTime Ts step fuel = .ok l := by
    intro fuel hfuel
    obtain ⟨l', hl', -⟩ := hN0 fuel hfuel
    rw [hl', (disc_eq Ts step hstep _ _ hl').2, (disc_eq Ts step hstep _ _ hl).2]
  have hD : Discretisation Ts l := Or.inr ⟨step, hstep, N0, hl⟩
  obtain ⟨res, N, hrun, hv⟩ := planSamples_verdictUpTo lib hL he pData Ts g h hf l hD
    (goodCost pData Ts h.total h.ne h.flag h.capt l hD hc)
  have hrun' : ∀ fuel ≥ max N0 N, computeCOMTraj κ lib fuel pData Ts step SOLVER_QUADPROG = .ok res := by
    intro fuel hfuel
    have := hrun fuel (le_trans (le_max_right _ _) hfuel)
    unfold planSamples at this
    obtain ⟨A, b, hA, hcols, -⟩ := C18_in_bounds_and_complete pData Ts g h l hD
    rw [hA, Out.ok_bind] at this
    unfold computeCOMTraj comSystem
    rw [if_neg (not_not.mpr h.size), if_pos hstep, if_pos hr, hdet fuel (le_trans (le_max_left _ _) hfuel), Out.ok_bind,
      hA, Out.ok_bind]
    simp only [Out.pure_eq, Out.ok_bind, hcols] at this ⊢
    exact this
  refine ⟨l, res, max N0 N, hD, fun fuel hfuel => hdet fuel (le_trans (le_max_left _ _) hfuel), hrun', fun hs => ?_, hv⟩
  obtain ⟨q, hq⟩ := (C29_planned pData Ts res).2 _ _ _ _ _ (hrun' _ le_rfl)
  exact (C07_boundary_partial pData Ts q res hq hs h.flag).2.2

/-! ## Non-vacuity -/

/-- `twoPhases` with conditions on position, velocity and acceleration at both ends. -/
def sixPhases : ProblemData := { twoPhases with flag := 63#32, costFunction := DISTANCE_TRAVELED }

theorem sixPhases_accepted : Accepted sixPhases [1, 2] ![0, 0, -9.81] := by
  obtain ⟨h1, h2, h3, h4, h5, h6⟩ := twoPhases_accepted
  exact ⟨h1, h2, h3, h4, by simp [sixPhases, comFlags], by simp [sixPhases]⟩

theorem sixPhases_points (T : ℝ) (pts : List V3)
    (h : computeConstantWaypoints sixPhases.flag sixPhases.bc T = .ok pts) :
    pts = [0, 0, 0, 0, 0, 0, 0] := by
  simp [computeConstantWaypoints, sixPhases, twoPhases] at h
  rw [← h]
  simp [c0_dc0_ddc0_ddc1_dc1_c1.computeConstantWaypoints]
  rfl

/-- The motion that does not move meets the requirements with the margin of the coefficients. -/
theorem sixPhases_rest (l : TTime) (hl : Discretisation [1, 2] l) :
    Motion sixPhases 3 0 (fun _ => 0) (fun _ => 0) (fun _ => 0) ∧
    Sizes sixPhases 3 ![0, 0, -9.81] 0 0 9.81 ∧
    MeetsSamplesUpTo sixPhases l (fun e r => -roundErr 0 9.81 3 e r) (fun _ => 0) (fun _ => 0) := by
  obtain ⟨pts, hpts⟩ := C01_answers sixPhases.flag sixPhases_accepted.flag sixPhases.bc 3 sixPhases_accepted.capt
  have hp := sixPhases_points _ _ hpts
  refine ⟨⟨pts, hpts, ?_, fun s => hasDerivAt_const s 0, fun s => hasDerivAt_const s 0⟩, ⟨?_, ?_, ?_⟩, ?_, ?_⟩
  · funext s
    have : fill sixPhases.flag (nth pts) 0 = fun _ => 0 := by
      funext i
      unfold fill
      split_ifs
      · rfl
      · rw [hp]
        rcases i with _ | _ | _ | _ | _ | _ | _ | i <;> simp [nth] <;> rfl
    rw [this, curve, bez]
    simp
  · intro pts' h' p hmem k
    rw [sixPhases_points _ _ h'] at hmem
    simp at hmem
    subst hmem
    simp
  · simp
  · intro k
    fin_cases k <;> simp <;> norm_num [abs_of_neg]
  · intro t p hc
    have hp : p < 2 := (hc.lt (hl.tags (by simp) (by simp)).1).1
    refine ⟨pushContact, _, ?_, pushContact_good.1, ?_, ?_⟩
    · interval_cases p <;> rfl
    · intro q hq
      simp [pushContact] at hq
      subst hq
      simp [dot]
    · intro r hr
      simp only [List.mem_singleton] at hr
      subst hr
      have h1 : Real.sqrt (dot ![0, 0, 1] ![0, 0, 1] + dot (0 : V3) 0) = 1 := by
        rw [show dot ![0, 0, 1] ![0, 0, 1] + dot (0 : V3) 0 = 1 by simp [dot]]
        exact Real.sqrt_one
      simp only [h1, roundErr]
      simp [dot, sixPhases, twoPhases]
      norm_num
  · intro _ q _ k
    simp [sixPhases, twoPhases]

/-- The planner succeeds on it, by `C56_fixedSize_rounded_partial`, when the iteration limit is large enough. -/
theorem sixPhases_succeeds (n : ℕ) (hn : 0 < n) : ∃ M, ∀ maxIter > M, ∃ res N,
    (∀ fuel ≥ N, computeCOMTrajFixedSize (exactLib maxIter) fuel sixPhases [1, 2] n = .ok res) ∧
      res.success = true := by
  have hl : Discretisation [1, 2] (computeDiscretizedTimeFixed [1, 2] n) := Or.inl ⟨n, hn, rfl⟩
  obtain ⟨A, b, hA, -⟩ := C18_in_bounds_and_complete sixPhases [1, 2] _ sixPhases_accepted _ hl
  refine ⟨2 ^ A.rows, fun maxIter hM => ?_⟩
  obtain ⟨res, N, hrun, -, hv⟩ := C56_fixedSize_rounded_partial (exactLib maxIter) (exactLib_ok maxIter) rfl sixPhases
    [1, 2] _ sixPhases_accepted rfl (by simp [sixPhases]) n hn (Or.inl rfl)
  refine ⟨res, N, hrun, ?_⟩
  by_contra hs
  obtain ⟨m1, m2, m3⟩ := sixPhases_rest _ hl
  have h3 : ([1, 2] : List ℝ).sum = 3 := by norm_num
  rcases hv.none (by simpa using hs) with h1 | h1
  · have : maxIter ≤ _ := h1 A b hA
    omega
  · rw [h3] at h1
    exact h1 0 _ _ _ 0 9.81 m1 m2 m3

end Verif
