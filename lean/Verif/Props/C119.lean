import Verif.Props.C118
import Verif.Props.C110

/-!
# C119: the zero step planner asked for less

Fewer or looser inequalities, fewer instants.
-/

namespace Verif
open Matrix

/-- The second problem asks for less: same start and same mass; each row of its cone is one of the first, up to a factor; each of its
kinematic constraints is one of the first with a bound that is not smaller. -/
structure LooserStop (d d' : ProblemData) (ct ct' : ContactData) (e e' : Equilibrium) : Prop where
  c0 : d'.bc.c0 = d.bc.c0
  dc0 : d'.bc.dc0 = d.bc.dc0
  l0 : d'.l0 = d.l0
  ang : d'.useAngularMomentum = d.useAngularMomentum
  mass : e'.mass = e.mass
  gravity : e'.gravity = e.gravity
  poly : ∀ r' ∈ e'.poly, ∃ r ∈ e.poly, ∃ μ : ℝ, 0 ≤ μ ∧ r'.1 = (μ • r.1.1, μ • r.1.2)
  kin : LooserRows (List.zip ct.Kin ct.kin) (List.zip ct'.Kin ct'.kin)

/-- The instants of the second time step are among those of the first: the first has no time step, or it divides each step of the second. -/
def CoarserStep (T timeStep timeStep' : ℝ) : Prop :=
  (timeStep ≤ 0 ∨ T < timeStep) ∨ ∃ N N' m, 1 ≤ N ∧ StepCount T timeStep N ∧ StepCount T timeStep' N' ∧ N = m * N'

theorem StepCount.unique {T timeStep : ℝ} {N N' : ℕ} (h : StepCount T timeStep N) (h' : StepCount T timeStep N') : N = N' := by
  have := Out.ok.inj ((numSteps_eq h).symm.trans (numSteps_eq h'))
  omega

theorem StepCount.not_continuous {T timeStep : ℝ} {N : ℕ} (h : StepCount T timeStep N) (hN : 1 ≤ N) :
    ¬ (timeStep ≤ 0 ∨ T < timeStep) := by
  rintro (h0 | h0)
  · linarith [h.pos]
  · have := h.lo
    have h1 : (1 : ℝ) ≤ N := by exact_mod_cast hN
    nlinarith [h.pos]

theorem LooserStop.cone {d d' : ProblemData} {ct ct' : ContactData} {e e' : Equilibrium} (h : LooserStop d d' ct ct' e e') {f τ : V3}
    (hc : ConeTol e 0 f τ) : ConeTol e' 0 f τ := by
  intro r' hr'
  obtain ⟨r, hr, μ, hμ, he⟩ := h.poly r' hr'
  have := hc r hr
  rw [zero_mul] at this ⊢
  rw [he]
  have e1 : dot (μ • r.1.1) f + dot (μ • r.1.2) τ = μ * (dot r.1.1 f + dot r.1.2 τ) := by simp [dot]; ring
  rw [e1]
  nlinarith

/-- C119. A motion that is admissible for a problem is admissible for one that asks for less. -/
theorem C119_admissible {d d' : ProblemData} {ct ct' : ContactData} {e e' : Equilibrium} (h : LooserStop d d' ct ct' e e')
    {T timeStep timeStep' : ℝ} (hs : GoodStep T timeStep) (hc : CoarserStep T timeStep timeStep') {x xL : V3} {dL : ℝ → V3}
    (hx : StopTol d ct e T timeStep 0 x xL dL) : StopTol d' ct' e' T timeStep' 0 x xL dL := by
  have hT := hs.pos
  obtain ⟨⟨f, τ, ⟨v, a, hv, ha, hm, hf, hτ⟩, hcont, hdisc⟩, hk⟩ := hx
  refine ⟨⟨f, τ, ⟨v, a, ?_, ha, ?_, ?_, ?_⟩, fun hst' => ?_, fun N' hN' hst' i hi => ?_⟩, fun hang q' hq' => ?_⟩
  · rw [h.c0, h.dc0]; exact hv
  · rw [h.ang, h.l0]; exact hm
  · rw [h.mass, h.gravity]; exact hf
  · rw [h.mass, h.gravity, h.c0, h.dc0]; exact hτ
  · rcases hc with hst | ⟨N, N', m, hN, -, hst, hNm⟩
    · obtain ⟨P, Q, hP, hQ, hcone⟩ := hcont hst
      exact ⟨P, Q, hP, hQ, fun i hi => h.cone (hcone i hi)⟩
    · refine absurd hst' (hst.not_continuous ?_)
      by_contra h0
      obtain rfl : N' = 0 := by omega
      omega
  · apply h.cone
    have hN0 : (0 : ℝ) < N' := by exact_mod_cast hN'
    have hi' : (i : ℝ) ≤ N' := by exact_mod_cast hi
    rcases hc with hst | ⟨N, N2, m, hN, hst, hst2, hNm⟩
    · obtain ⟨P, Q, hP, hQ, hcone⟩ := hcont hst
      rw [hP, hQ]
      have e0 : (i : ℝ) * (T / N') / T = i / N' := by field_simp
      rw [e0]
      exact coneTol_bez e 0 4 P Q _ (by positivity) ((div_le_one hN0).mpr hi') hcone
    · obtain rfl := hst2.unique hst'
      have := hdisc N hN hst (m * i) (by rw [hNm]; exact Nat.mul_le_mul_left m hi)
      have e0 : ((m * i : ℕ) : ℝ) * (T / N) = i * (T / N2) := by
        have hm0 : (m : ℝ) ≠ 0 := by
          rintro h0
          have : m = 0 := by exact_mod_cast h0
          subst this
          omega
        rw [hNm]
        push_cast
        field_simp
      rwa [e0] at this
  · obtain ⟨q, hq, h1, h2⟩ := h.kin q' hq'
    have := hk (h.ang ▸ hang) q hq
    rw [← h1]
    linarith

/-- C119. `solve0step`, with or without angular momentum, with or without a time step, in exact arithmetic: when it succeeds, it also
succeeds on a problem that asks for less, and what it minimises is not larger there. -/
theorem C119_looser (lib : Lib) (hL : LibOk lib) (he : lib.eps = 0) {d d' : ProblemData} {ct ct' : ContactData} {e e' : Equilibrium}
    (h : LooserStop d d' ct ct' e e') (hz : ZeroContact ct e) (hz' : ZeroContact ct' e') (hct : d.contacts = [ct])
    (hct' : d'.contacts = [ct']) (hrep : d.representation = DOUBLE_DESCRIPTION) (hrep' : d'.representation = DOUBLE_DESCRIPTION)
    (hkin : d.useAngularMomentum = true → ct.kin = []) (hkin' : d.useAngularMomentum = true → ct'.kin = []) (T timeStep timeStep' : ℝ)
    (hs : GoodStep T timeStep) (hs' : GoodStep T timeStep') (hc : CoarserStep T timeStep timeStep')
    (hi : EnoughIterations lib d ct T timeStep) (hi' : EnoughIterations lib d' ct' T timeStep') :
    ∃ r r' N, (∀ fuel ≥ N, solve0step lib fuel d [T] timeStep = .ok r ∧ solve0step lib fuel d' [T] timeStep' = .ok r') ∧
      (r.success = true → r'.success = true ∧
        stopEffort d T (r'.c_of_t.eval T) r'.dL_of_t.eval ≤ stopEffort d T (r.c_of_t.eval T) r.dL_of_t.eval ∧
        (d.useAngularMomentum = false → r'.cost ≤ r.cost)) := by
  obtain ⟨r, N, hrun, hv⟩ := stop_verdict lib hL he d ct e hz hct hrep hkin T timeStep hs hi
  obtain ⟨r', N', hrun', hv'⟩ := stop_verdict lib hL he d' ct' e' hz' hct' hrep' (fun ha => hkin' (h.ang ▸ ha)) T timeStep' hs' hi'
  refine ⟨r, r', max N N', fun fuel hf => ⟨hrun fuel (le_trans (le_max_left _ _) hf), hrun' fuel (le_trans (le_max_right _ _) hf)⟩,
    fun hsu => ?_⟩
  obtain ⟨-, xL, hx, -⟩ := hv.found hsu
  have hx' := C119_admissible h hs hc hx
  have hsu' : r'.success = true := by
    by_contra h0
    exact (hv'.none (by simpa using h0)).2 _ _ _ hx'
  obtain ⟨-, xL', -, hmin⟩ := hv'.found hsu'
  have hle := hmin _ _ _ hx'
  have heq : ∀ x dL, stopEffort d' T x dL = stopEffort d T x dL := by
    intro x dL
    unfold stopEffort
    rw [h.ang, h.c0]
  rw [heq, heq] at hle
  refine ⟨hsu', hle, fun hang => ?_⟩
  have hr := hrun N le_rfl
  have hr' := hrun' N' le_rfl
  obtain ⟨x1, hx1, hcost⟩ := C33_distance hr hsu hang
  obtain ⟨x2, hx2, hcost'⟩ := C33_distance hr' hsu' (h.ang.trans hang)
  obtain ⟨T1, y1, -, hT1, -, hy1, -, -, -, -, -, z1, -⟩ := C30_stops hr hsu
  obtain ⟨T2, y2, -, hT2, -, hy2, -, -, -, -, -, z2, -⟩ := C30_stops hr' hsu'
  obtain rfl : T = T1 := by simpa using hT1
  obtain rfl : T = T2 := by simpa using hT2
  obtain rfl : x1 = y1 := Out.ok.inj (hx1.symm.trans hy1)
  obtain rfl : x2 = y2 := Out.ok.inj (hx2.symm.trans hy2)
  rw [hcost, hcost', h.c0, ← z1, ← z2]
  unfold stopEffort at hle
  rw [hang] at hle
  simp only [Bool.false_eq_true, if_false] at hle
  have e1 : ∀ u w : V3, dot (u - w) (u - w) = dot (w - u) (w - u) := by intro u w; simp [dot]; ring
  rw [e1, e1 d.bc.c0]
  exact Real.sqrt_le_sqrt hle

/-! ## A smaller time step that is not a divisor -/

/-- The torque about the second axis must not be positive: the body, at height zero, must not be beyond the origin. -/
noncomputable def edgePhase : Equilibrium :=
  { mass := 1, gravity := ![0, 0, -10], poly := [((0, ![0, 1, 0]), 0)], polyOk := true, isPP := true, gens := [] }

/-- It must stop at height zero and not before -5. -/
noncomputable def edgeContact : ContactData :=
  { contactPhase := some edgePhase, Kin := [![-1, 0, 0], ![0, 0, 1], ![0, 0, -1]], kin := [5, 0, 0], Ang := [], ang := [] }

/-- A body that comes fast from -32. -/
noncomputable def edgeProblem : ProblemData :=
  { restProblem with contacts := [edgeContact], bc := ⟨![-32, 0, 0], ![162, 0, 0], 0, 0, 0, 0, 0, 0⟩ }

theorem edge_zero : ZeroContact edgeContact edgePhase :=
  ⟨rfl, rfl, rfl, (by simp [edgePhase]), (by simp [edgeContact])⟩

theorem edge_curve (x : V3) (t : ℝ) (k : Fin 3) : stopCurve ![-32, 0, 0] ![162, 0, 0] x 1 t k
    = (1 - t) ^ 3 * (![-32, 0, 0] : V3) k + 3 * t * (1 - t) ^ 2 * (![22, 0, 0] : V3) k + (3 * t ^ 2 * (1 - t) + t ^ 3) * x k := by
  rw [stopCurve, curve, bez_apply, bezS3]
  fin_cases k <;> simp <;> ring

theorem edge_level (x : V3) (hx : x 2 = 0) {v a : ℝ → V3} (hv : IsDeriv (stopCurve ![-32, 0, 0] ![162, 0, 0] x 1) v) (ha : IsDeriv v a)
    (t : ℝ) : a t 2 = 0 := by
  have hc : ∀ t, stopCurve ![-32, 0, 0] ![162, 0, 0] x 1 t 2 = 0 := by intro t; rw [edge_curve, hx]; simp
  have hv2 : ∀ t, v t 2 = 0 := by
    intro t
    have h1 := (hasDerivAt_pi.mp (hv t)) 2
    simp only [hc] at h1
    exact h1.unique (hasDerivAt_const t _)
  have h1 := (hasDerivAt_pi.mp (ha t)) 2
  simp only [hv2] at h1
  exact h1.unique (hasDerivAt_const t _)

theorem edge_cone (x : V3) (hx : x 2 = 0) {v a : ℝ → V3} (hv : IsDeriv (stopCurve ![-32, 0, 0] ![162, 0, 0] x 1) v) (ha : IsDeriv v a)
    (t : ℝ) : ConeOk edgePhase (edgePhase.mass • (edgePhase.gravity - a t))
      (edgePhase.mass • cr (stopCurve ![-32, 0, 0] ![162, 0, 0] x 1 t) (edgePhase.gravity - a t)) ↔
      stopCurve ![-32, 0, 0] ![162, 0, 0] x 1 t 0 ≤ 0 := by
  have h1 := edge_level x hx hv ha t
  have h2 : stopCurve ![-32, 0, 0] ![162, 0, 0] x 1 t 2 = 0 := by rw [edge_curve, hx]; simp
  generalize stopCurve ![-32, 0, 0] ![162, 0, 0] x 1 t = c at h2 ⊢
  unfold ConeOk
  simp [edgePhase, dot, cr, cross_apply, vecHead, vecTail, h1, h2]
  constructor <;> intro h <;> linarith

theorem edge_kin (x : V3) : KinOk edgeContact x ↔ -5 ≤ x 0 ∧ x 2 = 0 := by
  unfold KinOk
  simp [edgeContact, dot]
  constructor
  · rintro ⟨h1, h2, h3⟩
    exact ⟨by linarith, le_antisymm h2 h3⟩
  · rintro ⟨h1, h2⟩
    exact ⟨by linarith, h2.le, h2.ge⟩

/-- C119. The larger time step must be a multiple: with the step 0.3, three steps fit and a plan is found; with the larger step 0.5, two
steps fit and none is found. -/
theorem C119_multiple_refuted : ∃ M, ∀ maxIter > M, ∃ r r' N, (∀ fuel ≥ N,
      solve0step (exactLib maxIter) fuel edgeProblem [1] 0.3 = .ok r ∧ solve0step (exactLib maxIter) fuel edgeProblem [1] 0.5 = .ok r') ∧
    r.success = true ∧ r'.success = false := by
  have hs : StepCount 1 0.5 2 := ⟨by norm_num, by norm_num, by norm_num, by norm_num⟩
  refine ⟨2 ^ 100, fun maxIter hM => ?_⟩
  obtain ⟨r, N, hrun, -, hfail⟩ := C60_closest (exactLib maxIter) (exactLib_ok maxIter) rfl edgeProblem edgeContact edgePhase edge_zero rfl
    rfl rfl 1 0.3 3 (by norm_num) stepCount_example
  obtain ⟨r', N', hrun', hok, -⟩ := C60_closest (exactLib maxIter) (exactLib_ok maxIter) rfl edgeProblem edgeContact edgePhase edge_zero rfl
    rfl rfl 1 0.5 2 (by norm_num) hs
  refine ⟨r, r', max N N', fun fuel hf => ⟨hrun fuel (le_trans (le_max_left _ _) hf), hrun' fuel (le_trans (le_max_right _ _) hf)⟩, ?_, ?_⟩
  · by_contra h0
    rcases hfail (by simpa using h0) with h1 | h1
    · have e1 : edgePhase.poly.length * (3 + 1) + edgeContact.kin.length = 7 := rfl
      rw [e1] at h1
      change maxIter ≤ 2 ^ 7 at h1
      omega
    · refine h1 ![-5, 0, 0] ⟨(edge_kin _).mpr (by simp), fun v a hv ha i hi => ?_⟩
      refine (edge_cone ![-5, 0, 0] rfl hv ha _).mpr ?_
      rw [edge_curve]
      interval_cases i <;> norm_num
  · by_contra h0
    obtain ⟨⟨hk, hcone⟩, -⟩ := hok (by simpa using h0)
    obtain ⟨k1, k2⟩ := (edge_kin _).mp hk
    generalize r'.c_of_t.eval 1 = x at hk hcone k1 k2
    have := hcone _ _ (curve_isDeriv 2 _ 1) (curve_isDeriv 1 _ 1) 1 (by norm_num)
    have := (edge_cone x k2 (curve_isDeriv 2 _ 1) (curve_isDeriv 1 _ 1) _).mp this
    rw [edge_curve] at this
    norm_num at this
    linarith

/-! ## An instance -/

/-- The body of `edgeProblem` with a time step 0.3, then without kinematic constraints and with a single step: both find a plan. -/
example : ∃ M, ∀ maxIter > M, ∃ r r' N, (∀ fuel ≥ N, solve0step (exactLib maxIter) fuel edgeProblem [1] 0.3 = .ok r ∧
      solve0step (exactLib maxIter) fuel { edgeProblem with contacts := [{ edgeContact with Kin := [], kin := [] }] } [1] 1 = .ok r') ∧
    r.success = true ∧ r'.success = true ∧ r'.cost ≤ r.cost := by
  set ct' : ContactData := { edgeContact with Kin := [], kin := [] } with hct'
  set d' : ProblemData := { edgeProblem with contacts := [ct'] } with hd'
  obtain ⟨M, hM⟩ := C119_multiple_refuted
  have hz' : ZeroContact ct' edgePhase := ⟨rfl, rfl, rfl, by simp [edgePhase], by simp [hct']⟩
  have hs : GoodStep 1 0.3 := Or.inr ⟨3, by norm_num, stepCount_example⟩
  have hs1 : StepCount 1 1 1 := ⟨by norm_num, by norm_num, by norm_num, by norm_num⟩
  have hs' : GoodStep 1 1 := Or.inr ⟨1, by norm_num, hs1⟩
  obtain ⟨A, b, hA, -⟩ := C103_exact edgeProblem edgeContact edgePhase edge_zero hs (by simp [edgeProblem, restProblem])
  obtain ⟨A', b', hA', -⟩ := C103_exact d' ct' edgePhase hz' hs' (by simp [hct'])
  refine ⟨max M (max (2 ^ A.rows) (2 ^ A'.rows)), fun maxIter hm => ?_⟩
  have hi : EnoughIterations (exactLib maxIter) edgeProblem edgeContact 1 0.3 := by
    intro B c hB
    have : A = B := congrArg Prod.fst (Out.ok.inj (hA.symm.trans hB))
    rw [← this]
    exact lt_of_le_of_lt ((le_max_left _ _).trans (le_max_right _ _)) hm
  have hi' : EnoughIterations (exactLib maxIter) d' ct' 1 1 := by
    intro B c hB
    have : A' = B := congrArg Prod.fst (Out.ok.inj (hA'.symm.trans hB))
    rw [← this]
    exact lt_of_le_of_lt ((le_max_right _ _).trans (le_max_right _ _)) hm
  have hl : LooserStop edgeProblem d' edgeContact ct' edgePhase edgePhase :=
    ⟨rfl, rfl, rfl, rfl, rfl, rfl, fun r hr => ⟨r, hr, 1, zero_le_one, by simp⟩, fun q hq => by simp [hct'] at hq⟩
  obtain ⟨r, r', N, hrun, h⟩ := C119_looser (exactLib maxIter) (exactLib_ok maxIter) rfl hl edge_zero hz' rfl rfl rfl rfl
    (by simp [edgeProblem, restProblem]) (by simp [hct']) 1 0.3 1 hs hs' (Or.inr ⟨3, 1, 3, by norm_num, stepCount_example, hs1, rfl⟩) hi hi'
  obtain ⟨r0, _, N0, hrun0, h0, -⟩ := hM maxIter (lt_of_le_of_lt (le_max_left _ _) hm)
  obtain rfl : r = r0 := Out.ok.inj ((hrun _ (le_max_left N N0)).1.symm.trans (hrun0 _ (le_max_right N N0)).1)
  obtain ⟨h1, -, h2⟩ := h h0
  exact ⟨r, r', N, hrun, h0, h1, h2 rfl⟩

end Verif
