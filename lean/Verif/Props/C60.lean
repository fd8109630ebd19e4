import Verif.Props.C35
import Verif.Lemmas.SolveExact

/-!
# C60: the zero step planner end to end, in exact arithmetic
-/

namespace Verif
open Matrix

/-! ## Specification -/

/-- Duration and time step that the planner accepts. -/
def GoodStep (T timeStep : ℝ) : Prop :=
  0 < T ∧ (timeStep ≤ 0 ∨ T < timeStep) ∨ ∃ N, 1 ≤ N ∧ StepCount T timeStep N

/-- What the zero step problem minimises: the squared distance to `c0`; with angular momentum, the integral of the
squared momentum derivative, plus that distance with a small weight. -/
noncomputable def zeroObjective (useAng : Bool) (c0 l0 : V3) (y : ℕ → ℝ) : ℝ :=
  if useAng then angularCost l0 (last3 y) + 0.0001 * dot (first3 y - c0) (first3 y - c0)
  else dot (first3 y - c0) (first3 y - c0)

theorem GoodStep.pos {T timeStep : ℝ} (h : GoodStep T timeStep) : 0 < T := by
  rcases h with ⟨hT, -⟩ | ⟨N, hN, hs⟩
  · exact hT
  · exact lt_of_lt_of_le (mul_pos (by exact_mod_cast hN) hs.pos) hs.lo

theorem goodStep_waypoints (c0 dc0 l0 g : V3) {T timeStep : ℝ} (h : GoodStep T timeStep) :
    ∃ ws us, ComputeAllWaypoints c0 dc0 g T timeStep = .ok ws ∧
      ComputeAllWaypointsAngularMomentum l0 T timeStep = .ok us ∧ ws.length = us.length := by
  rcases h with ⟨hT, hs⟩ | ⟨N, hN, hs⟩
  · obtain ⟨ws, hw, h1, -⟩ := C31_continuous c0 dc0 g T timeStep hT hs
    obtain ⟨us, hu, h2, -⟩ := C32_waypoints_continuous l0 T timeStep hT hs
    exact ⟨ws, us, hw, hu, by omega⟩
  · obtain ⟨ws, hw, h1, -⟩ := C31_discretised c0 dc0 g T timeStep N hN hs
    obtain ⟨us, hu, h2, -⟩ := C32_waypoints_discretised l0 T timeStep N hN hs
    exact ⟨ws, us, hw, hu, by omega⟩

theorem zeroStep_sizes (ct : ContactData) (e : Equilibrium) (h : ZeroContact ct e) (c0 dc0 l0 : V3) (useAng : Bool)
    {T timeStep : ℝ} (hs : GoodStep T timeStep) :
    ∃ A b, zeroStepInequalities ct c0 dc0 l0 useAng T timeStep = .ok (A, b) ∧ A.cols = (if useAng then 6 else 3) ∧
      b.rows = A.rows ∧ b.cols = 1 := by
  obtain ⟨ws, us, hw, hu, hl⟩ := goodStep_waypoints c0 dc0 l0 e.gravity hs
  unfold zeroStepInequalities angularWaypoints
  rw [h.1]
  dsimp only
  rw [hw, Out.ok_bind]
  cases useAng with
  | false =>
    simp only [Bool.false_eq_true, if_false, Out.ok_bind]
    obtain ⟨A, b, hA, h1, h2, h3, -, -⟩ := ineq_plain ct e h ws []
    exact ⟨A, b, hA, h1, h2, h3⟩
  | true =>
    simp only [if_true]
    rw [hu, Out.ok_bind]
    obtain ⟨A, b, hA, h1, h2, h3, -⟩ := ineq_ang ct e h ws us hl
    exact ⟨A, b, hA, h1, h2, h3⟩

theorem zeroCost_posDef (c0 l0 : V3) (useAng : Bool) (n : ℕ) :
    Matrix.PosDef (fun i j : Fin n => (zeroStepCost c0 l0 useAng).1.e i j : Matrix (Fin n) (Fin n) ℝ) := by
  have hw : (0 : ℝ) < (if useAng then 0.0001 else 1) := by split_ifs <;> norm_num
  have : (fun i j : Fin n => (zeroStepCost c0 l0 useAng).1.e i j : Matrix (Fin n) (Fin n) ℝ)
      = Matrix.diagonal fun i : Fin n => if i.val < 3 then (if useAng then (0.0001 : ℝ) else 1) else 6 / 5 := by
    ext i j
    simp only [zeroStepCost, Matrix.diagonal_apply]
    by_cases hij : i = j
    · subst hij
      by_cases h3 : i.val < 3
      · simp [h3]
      · have : 3 ≤ i.val := by omega
        simp [h3, this]
    · have hne : i.val ≠ j.val := fun h => hij (Fin.ext h)
      simp [hij, hne]
  rw [this]
  refine Matrix.PosDef.diagonal fun i => ?_
  split_ifs
  all_goals norm_num

theorem allSat_iff {A b D d : Mat} (hD : D.rows = 0) (y : ℕ → ℝ) : AllSat A b D d [] y ↔ Sat A b y := by
  unfold AllSat EqSat AboveBounds
  simp [hD]

/-! ## C60 -/

/-- C60. On a problem with one usable contact phase, `solve0step` returns. When it succeeds, the unknowns it returns
satisfy the inequalities of the problem and minimise the objective among all that do; when it fails, the result is the
default one and no unknowns satisfy them (or the iteration limit is at most `2 ^ (number of inequalities)`). -/
theorem C60_solves (lib : Lib) (hL : LibOk lib) (he : lib.eps = 0) (pData : ProblemData) (ct : ContactData)
    (e : Equilibrium) (h : ZeroContact ct e) (hct : pData.contacts = [ct])
    (hrep : pData.representation = DOUBLE_DESCRIPTION) (T timeStep : ℝ) (hs : GoodStep T timeStep) :
    ∃ A b r N, zeroStepInequalities ct pData.bc.c0 pData.bc.dc0 pData.l0 pData.useAngularMomentum T timeStep
        = .ok (A, b) ∧
      (∀ fuel ≥ N, solve0step lib fuel pData [T] timeStep = .ok r) ∧
      (r.success = true → Sat A b (unk r.x) ∧ r.x.length = (if pData.useAngularMomentum then 6 else 3) ∧
        ∀ z, Sat A b z → zeroObjective pData.useAngularMomentum pData.bc.c0 pData.l0 (unk r.x)
          ≤ zeroObjective pData.useAngularMomentum pData.bc.c0 pData.l0 z) ∧
      (r.success = false → r = ResultDataCOMTraj.default ∧ (lib.maxIter ≤ 2 ^ A.rows ∨ ∀ z, ¬ Sat A b z)) := by
  obtain ⟨A, b, hA, hc, hb, hb1⟩ := zeroStep_sizes ct e h pData.bc.c0 pData.bc.dc0 pData.l0 pData.useAngularMomentum hs
  have hT := hs.pos
  set Hg := zeroStepCost pData.bc.c0 pData.l0 pData.useAngularMomentum with hHg
  have hrows : Hg.2.rows = if pData.useAngularMomentum then 6 else 3 := rfl
  have hfit : Fits A b (Mat.noRows A.cols) (Mat.noRows 1) Hg.1 Hg.2 :=
    ⟨⟨rfl, rfl⟩, ⟨hb, hb1, by rw [hc, hrows]⟩, ⟨rfl, by rw [hrows, ← hc]; rfl⟩⟩
  obtain ⟨q, N, hrun, hlen, hok, hfail⟩ := solve_exact lib hL he hfit [] (zeroStepInit pData) (Or.inl rfl)
    (zeroCost_posDef _ _ _ _) (Nat.zero_le _)
  simp only [allSat_iff (show (Mat.noRows A.cols).rows = 0 from rfl)] at hok hfail
  have hlen' : q.x.length = if pData.useAngularMomentum then 6 else 3 := by rw [hlen, hrows]
  have h3 : 3 ≤ q.x.length := by rw [hlen']; split_ifs <;> norm_num
  have hsolve : ∀ fuel ≥ N, solve0step lib fuel pData [T] timeStep = zeroStepResult pData T q := by
    intro fuel hf
    unfold solve0step
    rw [if_pos hrep, hct]
    dsimp only
    rw [hA, Out.ok_bind]
    dsimp only
    rw [hrun fuel hf, Out.ok_bind]
  by_cases hq : q.success = true
  · obtain ⟨r, hr, hrs, hrx⟩ : ∃ r, zeroStepResult pData T q = .ok r ∧ r.success = true ∧ r.x = q.x := by
      unfold zeroStepResult
      rw [if_pos hq]
      have hmk : ∀ p ps mult, mkBezier (p :: ps) T mult = .ok ⟨p :: ps, T, mult⟩ := by
        intro p ps mult
        unfold mkBezier
        rw [if_neg]
        rintro (h | h)
        · simp at h
        · linarith
      unfold computeRealCost zeroStepCurve computedL_of_T head3 tail3
      by_cases ha : pData.useAngularMomentum = true
      · simp only [if_pos ha, if_pos h3, Out.pure_eq, Out.ok_bind, hmk]
        exact ⟨_, rfl, rfl, rfl⟩
      · have h33 : q.x.length = 3 := by rw [hlen', if_neg ha]
        simp only [if_neg ha, if_pos h33, if_pos h3, Out.pure_eq, Out.ok_bind, hmk]
        exact ⟨_, rfl, rfl, rfl⟩
    refine ⟨A, b, r, N, hA, fun fuel hf => by rw [hsolve fuel hf, hr], fun _ => ?_, fun h0 => by simp [hrs] at h0⟩
    obtain ⟨s1, -, s3⟩ := hok hq
    rw [hrx]
    refine ⟨s1, hlen', fun z hz => ?_⟩
    have := s3 z hz
    rw [hrows] at this
    unfold zeroObjective
    cases ha : pData.useAngularMomentum with
    | true =>
      rw [ha] at this hHg
      obtain ⟨K, hK⟩ := C33_qp_angular pData.bc.c0 pData.l0
      simp only [if_true] at this ⊢
      rw [hHg, hK, hK] at this
      linarith
    | false =>
      rw [ha] at this hHg
      obtain ⟨K, hK⟩ := C33_qp_distance pData.bc.c0 pData.l0
      simp only [Bool.false_eq_true, if_false] at this ⊢
      rw [hHg, hK, hK] at this
      linarith
  · refine ⟨A, b, .default, N, hA, fun fuel hf => ?_, fun h0 => by simp [ResultDataCOMTraj.default] at h0, fun _ => ⟨rfl, ?_⟩⟩
    · rw [hsolve fuel hf, zeroStepResult, if_neg hq]
    · rcases hfail (by simpa using hq) with h1 | h1 | ⟨i, hi, -⟩
      · left; simpa using h1
      · exact Or.inr h1
      · exact absurd hi (Nat.not_lt_zero i)

/-- C60. Without discretisation, a successful `solve0step` returns a motion that starts as required, stops, and whose
wrench, with the returned momentum derivative, is in the cone at every instant; without angular momentum the point
where it stops satisfies the kinematic constraints. -/
theorem C60_equilibrium (lib : Lib) (hL : LibOk lib) (he : lib.eps = 0) (pData : ProblemData) (ct : ContactData)
    (e : Equilibrium) (h : ZeroContact ct e) (hct : pData.contacts = [ct])
    (hrep : pData.representation = DOUBLE_DESCRIPTION) (T timeStep : ℝ) (hT : 0 < T)
    (hs : timeStep ≤ 0 ∨ T < timeStep) :
    ∃ r N, (∀ fuel ≥ N, solve0step lib fuel pData [T] timeStep = .ok r) ∧
      (r.success = true → ∃ v a, IsDeriv r.c_of_t.eval v ∧ IsDeriv v a ∧
        r.c_of_t.eval 0 = pData.bc.c0 ∧ v 0 = pData.bc.dc0 ∧ v T = 0 ∧
        (pData.useAngularMomentum = true → ∃ L, IsDeriv L r.dL_of_t.eval ∧ L 0 = pData.l0 ∧ L T = 0) ∧
        (pData.useAngularMomentum = false → (∀ t, r.dL_of_t.eval t = 0) ∧ KinOk ct (r.c_of_t.eval T)) ∧
        ∀ t, 0 ≤ t → t ≤ T → ConeOk e (e.mass • (e.gravity - a t))
          (e.mass • cr (r.c_of_t.eval t) (e.gravity - a t) - r.dL_of_t.eval t)) := by
  obtain ⟨A, b, r, N, hA, hrun, hok, -⟩ := C60_solves lib hL he pData ct e h hct hrep T timeStep (Or.inl ⟨hT, hs⟩)
  refine ⟨r, N, hrun, fun hsucc => ?_⟩
  obtain ⟨hsat, hlen, -⟩ := hok hsucc
  have hr := hrun N le_rfl
  obtain ⟨T', x, v', hT', -, hx, -, hev, hv', c1, c2, c3, c4⟩ := C30_stops hr hsucc
  obtain rfl : T = T' := by simpa using hT'
  have hx1 : x = first3 (unk r.x) := by
    unfold head3 at hx
    split at hx
    · simp at hx; rw [← hx]; rfl
    · simp at hx
  obtain ⟨A', b', hA', -, hC⟩ := C34_every_instant ct e h pData.bc.c0 pData.bc.dc0 pData.l0 pData.useAngularMomentum T
    timeStep hT hs
  rw [hA] at hA'
  cases hA'
  obtain ⟨v, a, dL, hv, ha, hm, hcone⟩ := hC _ hsat
  rw [← hx1, ← hev] at hv hcone
  obtain rfl := deriv_unique hv hv'
  have hdL : dL = r.dL_of_t.eval := by
    unfold MomentumRate at hm
    cases hang : pData.useAngularMomentum with
    | true =>
      rw [if_pos hang] at hm
      obtain ⟨T', xL, hT2, -, hxL, -, hd, -⟩ := C32_returned hr hsucc hang
      obtain rfl : T = T' := by simpa using hT2
      have : xL = last3 (unk r.x) := by
        unfold tail3 at hxL
        rw [hlen, if_pos hang] at hxL
        simp at hxL
        rw [← hxL]
        rfl
      rw [this] at hd
      exact deriv_unique hm hd
    | false =>
      rw [if_neg (by simp [hang])] at hm
      rw [hm]
      funext t
      exact (C32_none hr hsucc hang t).symm
  rw [hdL] at hcone
  refine ⟨v, a, hv, ha, c1, c2, c4, fun hang => ?_, fun hang => ⟨C32_none hr hsucc hang, ?_⟩, hcone⟩
  · obtain ⟨T', xL, hT2, -, hxL, -, hd, l1, l2⟩ := C32_returned hr hsucc hang
    obtain rfl : T = T' := by simpa using hT2
    exact ⟨_, hd, l1, l2⟩
  · rw [c3, hx1]
    rw [hang] at hA
    exact C34_kinematics ct e h _ _ _ _ _ A b hA _ hsat

/-- C60. With a time step that fits `N ≥ 1` times in the duration and no angular momentum: if `solve0step` succeeds,
the point where it stops is the closest to `c0` among those that satisfy the kinematic constraints and whose motion has
its wrench in the cone at the instants `0, T/N, …, T`; if it fails there is none (or the iteration limit is too low). -/
theorem C60_closest (lib : Lib) (hL : LibOk lib) (he : lib.eps = 0) (pData : ProblemData) (ct : ContactData)
    (e : Equilibrium) (h : ZeroContact ct e) (hct : pData.contacts = [ct])
    (hrep : pData.representation = DOUBLE_DESCRIPTION) (hang : pData.useAngularMomentum = false)
    (T timeStep : ℝ) (N : ℕ) (hN : 1 ≤ N) (hs : StepCount T timeStep N) :
    let ok : V3 → Prop := fun x => KinOk ct x ∧
      ∀ v a, IsDeriv (stopCurve pData.bc.c0 pData.bc.dc0 x T) v → IsDeriv v a → ∀ i : ℕ, i ≤ N →
        ConeOk e (e.mass • (e.gravity - a (i * (T / N))))
          (e.mass • cr (stopCurve pData.bc.c0 pData.bc.dc0 x T (i * (T / N))) (e.gravity - a (i * (T / N))))
    ∃ r F, (∀ fuel ≥ F, solve0step lib fuel pData [T] timeStep = .ok r) ∧
      (r.success = true → ok (r.c_of_t.eval T) ∧
        ∀ x, ok x → r.cost ≤ Real.sqrt (dot (pData.bc.c0 - x) (pData.bc.c0 - x))) ∧
      (r.success = false → lib.maxIter ≤ 2 ^ (e.poly.length * (N + 1) + ct.kin.length) ∨ ∀ x, ¬ ok x) := by
  intro ok
  obtain ⟨A, b, r, F, hA, hrun, hok, hfail⟩ := C60_solves lib hL he pData ct e h hct hrep T timeStep (Or.inr ⟨N, hN, hs⟩)
  have hT : 0 < T := (show GoodStep T timeStep from Or.inr ⟨N, hN, hs⟩).pos
  obtain ⟨A', b', hA', hrw, hC⟩ := C34_exact ct e h pData.bc.c0 pData.bc.dc0 pData.l0 T timeStep N hN hs
  rw [hang, hA'] at hA
  cases hA
  have hiff : ∀ y, Sat A b y ↔ ok (first3 y) := by
    intro y
    obtain ⟨v, a, hv, ha⟩ : ∃ v a, IsDeriv (stopCurve pData.bc.c0 pData.bc.dc0 (first3 y) T) v ∧ IsDeriv v a :=
      ⟨_, _, curve_isDeriv 2 _ T, curve_isDeriv 1 _ T⟩
    rw [hC y v a hv ha]
    constructor
    · rintro ⟨h1, h2⟩
      refine ⟨h2, fun v' a' hv' ha' => ?_⟩
      obtain rfl := deriv_unique hv hv'
      obtain rfl := deriv_unique ha ha'
      exact h1
    · rintro ⟨h1, h2⟩
      exact ⟨h2 v a hv ha, h1⟩
  have hext : ∀ x : V3, first3 (ext3 x) = x := by
    intro x; funext k; simp [first3, ext3]
  refine ⟨r, F, hrun, fun hsucc => ?_, fun hf => ?_⟩
  · obtain ⟨hsat, hlen, hmin⟩ := hok hsucc
    have hr := hrun F le_rfl
    obtain ⟨T', x, v', hT', -, hx, -, hev, hv', c1, c2, c3, c4⟩ := C30_stops hr hsucc
    obtain rfl : T = T' := by simpa using hT'
    have hx1 : x = first3 (unk r.x) := by
      unfold head3 at hx
      split at hx
      · simp at hx; rw [← hx]; rfl
      · simp at hx
    obtain ⟨x', hx', hcost⟩ := C33_distance hr hsucc hang
    rw [hx] at hx'
    cases hx'
    rw [c3]
    refine ⟨by rw [hx1]; exact (hiff _).mp hsat, fun z hz => ?_⟩
    have := hmin (ext3 z) ((hiff _).mpr (by rw [hext]; exact hz))
    unfold zeroObjective at this
    rw [hang] at this
    simp only [Bool.false_eq_true, if_false] at this
    rw [hext, ← hx1] at this
    rw [hcost]
    apply Real.sqrt_le_sqrt
    have e1 : ∀ u w : V3, dot (u - w) (u - w) = dot (w - u) (w - u) := by intro u w; simp [dot]; ring
    rw [e1, e1 _ z]
    exact this
  · rcases (hfail hf).2 with h1 | h1
    · exact Or.inl (by rw [← hrw]; exact h1)
    · right
      intro x hx
      exact h1 (ext3 x) ((hiff _).mpr (by rw [hext]; exact hx))

/-! ## An instance -/

/-- A body at rest above a contact that can only push. -/
noncomputable def restProblem : ProblemData :=
  { twoPhases with
    bc := ⟨0, 0, 0, 0, 0, 0, 0, 0⟩
    contacts := [onePush []]
    representation := DOUBLE_DESCRIPTION
    useAngularMomentum := false
    l0 := 0 }

theorem restProblem_succeeds : ∃ M, ∀ maxIter > M, ∃ r N,
    (∀ fuel ≥ N, solve0step (exactLib maxIter) fuel restProblem [1] 0.3 = .ok r) ∧ r.success = true := by
  obtain ⟨A, b, hA, -, hC⟩ := C34_exact (onePush []) onePushPhase (onePush_ok []) 0 0 0 1 0.3 3 (by norm_num)
    stepCount_example
  refine ⟨2 ^ A.rows, fun maxIter hM => ?_⟩
  obtain ⟨A', b', r, N, hA', hrun, -, hfail⟩ := C60_solves (exactLib maxIter) (exactLib_ok maxIter) rfl restProblem
    (onePush []) onePushPhase (onePush_ok []) rfl rfl 1 0.3 (Or.inr ⟨3, by norm_num, stepCount_example⟩)
  have e : zeroStepInequalities (onePush []) restProblem.bc.c0 restProblem.bc.dc0 restProblem.l0
    restProblem.useAngularMomentum 1 0.3 = .ok (A, b) := hA
  rw [e] at hA'
  cases hA'
  refine ⟨r, N, hrun, ?_⟩
  by_contra hs
  rcases (hfail (by simpa using hs)).2 with h1 | h1
  · change maxIter ≤ _ at h1
    omega
  · apply h1 0
    have hz : stopCurve 0 0 (first3 0) 1 = fun _ => 0 := by
      funext s k
      rw [stopCurve, curve, bez_apply, bezS3]
      simp [first3]
    have h0 : IsDeriv (fun _ : ℝ => (0 : V3)) fun _ => 0 := fun t => hasDerivAt_const t _
    rw [hC 0 (fun _ => 0) (fun _ => 0) (by rw [hz]; exact h0) h0]
    constructor
    · intro i _ r hr
      rw [hz]
      simp [onePushPhase] at hr
      subst hr
      simp [dot, onePushPhase, cr]
    · intro q hq
      simp [onePush] at hq
      subst hq
      simp [dot, first3]

end Verif
