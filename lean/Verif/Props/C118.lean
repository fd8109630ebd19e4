import Verif.Props.C103
import Verif.Props.C109

/-!
# C118: the zero step planner and the frame

The same robot described in another frame: other origin, other axes.
-/

namespace Verif
open Matrix

/-! ## What the planner answers, in terms of motions -/

/-- The answer of `solve0step` in exact arithmetic: the motion that is returned is admissible and has the least effort; without an
answer no motion is admissible. -/
structure StopVerdict (d : ProblemData) (ct : ContactData) (e : Equilibrium) (T timeStep : ℝ) (r : ResultDataCOMTraj) : Prop where
  found : r.success = true → r.c_of_t.eval = stopCurve d.bc.c0 d.bc.dc0 (r.c_of_t.eval T) T ∧
    ∃ xL, StopTol d ct e T timeStep 0 (r.c_of_t.eval T) xL r.dL_of_t.eval ∧
      ∀ x' xL' dL', StopTol d ct e T timeStep 0 x' xL' dL' →
        stopEffort d T (r.c_of_t.eval T) r.dL_of_t.eval ≤ stopEffort d T x' dL'
  none : r.success = false → r = ResultDataCOMTraj.default ∧ ∀ x xL dL, ¬ StopTol d ct e T timeStep 0 x xL dL

/-- The iteration limit is large for the inequalities of the problem. -/
def EnoughIterations (lib : Lib) (d : ProblemData) (ct : ContactData) (T timeStep : ℝ) : Prop :=
  ∀ A b, zeroStepInequalities ct d.bc.c0 d.bc.dc0 d.l0 d.useAngularMomentum T timeStep = .ok (A, b) → 2 ^ A.rows < lib.maxIter

theorem StopTol.rate {d : ProblemData} {ct : ContactData} {e : Equilibrium} {T timeStep δ : ℝ} {x xL : V3} {dL : ℝ → V3}
    (h : StopTol d ct e T timeStep δ x xL dL) : MomentumRate d.useAngularMomentum d.l0 xL T dL := by
  obtain ⟨⟨f, τ, ⟨v, a, -, -, hmr, -⟩, -⟩, -⟩ := h
  exact hmr

theorem ConeTol.mono {e : Equilibrium} {δ δ' : ℝ} {f τ : V3} (h : ConeTol e δ f τ) (hd : δ ≤ δ') : ConeTol e δ' f τ :=
  fun r hr => (h r hr).trans (mul_le_mul_of_nonneg_right hd (Real.sqrt_nonneg _))

theorem StopTol.mono {d : ProblemData} {ct : ContactData} {e : Equilibrium} {T timeStep δ δ' : ℝ} {x xL : V3} {dL : ℝ → V3}
    (h : StopTol d ct e T timeStep δ x xL dL) (hd : δ ≤ δ') : StopTol d ct e T timeStep δ' x xL dL := by
  obtain ⟨⟨f, τ, hw, h1, h2⟩, h3⟩ := h
  refine ⟨⟨f, τ, hw, fun hs => ?_, fun N hN hs i hi => (h2 N hN hs i hi).mono hd⟩, fun ha q hq => (h3 ha q hq).trans (by linarith)⟩
  obtain ⟨p, q, hp, hq, hc⟩ := h1 hs
  exact ⟨p, q, hp, hq, fun i hi => (hc i hi).mono hd⟩

theorem effort_objective (d : ProblemData) {T : ℝ} (hT : 0 < T) (y : ℕ → ℝ) {dL : ℝ → V3}
    (h : MomentumRate d.useAngularMomentum d.l0 (last3 y) T dL) :
    stopEffort d T (first3 y) dL = zeroObjective d.useAngularMomentum d.bc.c0 d.l0 y := by
  unfold stopEffort zeroObjective
  unfold MomentumRate at h
  cases hang : d.useAngularMomentum with
  | true =>
    rw [hang, if_pos rfl] at h
    simp only [if_true]
    rw [angularCost_integral hT h]
  | false => simp

theorem stop_verdict (lib : Lib) (hL : LibOk lib) (he : lib.eps = 0) (d : ProblemData) (ct : ContactData)
    (e : Equilibrium) (h : ZeroContact ct e) (hct : d.contacts = [ct])
    (hrep : d.representation = DOUBLE_DESCRIPTION) (hkin : d.useAngularMomentum = true → ct.kin = []) (T timeStep : ℝ)
    (hs : GoodStep T timeStep) (hi : EnoughIterations lib d ct T timeStep) :
    ∃ r N, (∀ fuel ≥ N, solve0step lib fuel d [T] timeStep = .ok r) ∧ StopVerdict d ct e T timeStep r := by
  have hT := hs.pos
  obtain ⟨A, b, r, N, hA, hrun, hok, hfail⟩ := C60_solves lib hL he d ct e h hct hrep T timeStep hs
  obtain ⟨A', b', hA', hex⟩ := C103_exact d ct e h hs hkin
  obtain ⟨rfl, rfl⟩ : A = A' ∧ b = b' := by
    have := Out.ok.inj (hA.symm.trans hA')
    exact ⟨congrArg Prod.fst this, congrArg Prod.snd this⟩
  have hsat : ∀ x' xL' dL', StopTol d ct e T timeStep 0 x' xL' dL' → Sat A b (stopVar x' xL') := by
    intro x' xL' dL' hx
    refine (hex (stopVar x' xL') dL' ?_).mpr ?_
    · rw [last3_stopVar]; exact hx.rate
    · rw [first3_stopVar, last3_stopVar]; exact hx
  refine ⟨r, N, hrun, ⟨fun hsu => ?_, fun hf => ?_⟩⟩
  · obtain ⟨hy, hlen, hmin⟩ := hok hsu
    have hr := hrun N le_rfl
    obtain ⟨T', x, v', hT', -, hx, -, hev, hv', c1, c2, c3, c4⟩ := C30_stops hr hsu
    obtain rfl : T = T' := by simpa using hT'
    have hx1 : x = first3 (unk r.x) := by
      unfold head3 at hx
      split at hx
      · simp at hx; rw [← hx]; rfl
      · simp at hx
    have hrate : MomentumRate d.useAngularMomentum d.l0 (last3 (unk r.x)) T r.dL_of_t.eval := by
      unfold MomentumRate
      cases hang : d.useAngularMomentum with
      | true =>
        rw [if_pos rfl]
        obtain ⟨T', zL, hT2, -, hzL, -, hd, -⟩ := C32_returned hr hsu hang
        obtain rfl : T = T' := by simpa using hT2
        have : zL = last3 (unk r.x) := by
          unfold tail3 at hzL
          rw [hlen, if_pos hang] at hzL
          simp at hzL
          rw [← hzL]
          rfl
        rw [this] at hd
        exact hd
      | false =>
        rw [if_neg (by simp)]
        funext t
        exact C32_none hr hsu hang t
    rw [c3]
    refine ⟨hev, last3 (unk r.x), by rw [hx1]; exact (hex _ _ hrate).mp hy, fun x' xL' dL' hx' => ?_⟩
    have := hmin _ (hsat x' xL' dL' hx')
    rw [hx1, effort_objective d hT _ hrate]
    rw [← effort_objective d hT (stopVar x' xL') (dL := dL') (by rw [last3_stopVar]; exact hx'.rate), first3_stopVar] at this
    exact this
  · obtain ⟨h1, h2⟩ := hfail hf
    refine ⟨h1, fun x xL dL hx => ?_⟩
    rcases h2 with h2 | h2
    · exact absurd (hi A b hA) (by omega)
    · exact h2 _ (hsat x xL dL hx)

/-! ## The best motion is unique -/

theorem sat_mid {A b : Mat} {y z : ℕ → ℝ} (hy : Sat A b y) (hz : Sat A b z) : Sat A b fun c => (y c + z c) / 2 := by
  intro r hr
  have h1 := hy r hr
  have h2 := hz r hr
  have : ∑ c ∈ Finset.range A.cols, A.e r c * ((y c + z c) / 2)
      = (∑ c ∈ Finset.range A.cols, A.e r c * y c + ∑ c ∈ Finset.range A.cols, A.e r c * z c) / 2 := by
    rw [← Finset.sum_add_distrib, Finset.sum_div]
    exact Finset.sum_congr rfl fun c _ => by ring
  refine (le_of_eq this).trans ?_
  linarith

theorem stop_unique (d : ProblemData) (ct : ContactData) (e : Equilibrium) (h : ZeroContact ct e)
    (hkin : d.useAngularMomentum = true → ct.kin = []) {T timeStep : ℝ} (hs : GoodStep T timeStep) {x x' xL xL' : V3}
    {dL dL' : ℝ → V3} (h1 : StopTol d ct e T timeStep 0 x xL dL) (h2 : StopTol d ct e T timeStep 0 x' xL' dL')
    (hm : ∀ y yL f, StopTol d ct e T timeStep 0 y yL f → stopEffort d T x dL ≤ stopEffort d T y f)
    (hm' : stopEffort d T x' dL' ≤ stopEffort d T x dL) : x' = x ∧ dL' = dL := by
  have hT := hs.pos
  obtain ⟨A, b, hA, hex⟩ := C103_exact d ct e h hs hkin
  have s1 : Sat A b (stopVar x xL) := (hex _ dL (by rw [last3_stopVar]; exact h1.rate)).mpr
    (by rw [first3_stopVar, last3_stopVar]; exact h1)
  have s2 : Sat A b (stopVar x' xL') := (hex _ dL' (by rw [last3_stopVar]; exact h2.rate)).mpr
    (by rw [first3_stopVar, last3_stopVar]; exact h2)
  have e1 : stopEffort d T x dL = zeroObjective d.useAngularMomentum d.bc.c0 d.l0 (stopVar x xL) := by
    rw [← effort_objective d hT (stopVar x xL) (dL := dL) (by rw [last3_stopVar]; exact h1.rate), first3_stopVar]
  have e2 : stopEffort d T x' dL' = zeroObjective d.useAngularMomentum d.bc.c0 d.l0 (stopVar x' xL') := by
    rw [← effort_objective d hT (stopVar x' xL') (dL := dL') (by rw [last3_stopVar]; exact h2.rate), first3_stopVar]
  set y : ℕ → ℝ := fun c => (stopVar x xL c + stopVar x' xL' c) / 2 with hy
  have f3 : first3 y = (1 / 2 : ℝ) • (x + x') := by
    funext k; fin_cases k <;> simp [hy, first3, stopVar, V3.get] <;> ring
  have l3 : last3 y = (1 / 2 : ℝ) • (xL + xL') := by
    funext k; fin_cases k <;> simp [hy, last3, stopVar, V3.get] <;> ring
  obtain ⟨f, hf⟩ : ∃ f, MomentumRate d.useAngularMomentum d.l0 (last3 y) T f := by
    unfold MomentumRate
    cases d.useAngularMomentum with
    | true => exact ⟨_, curve_isDeriv 2 _ T⟩
    | false => exact ⟨_, rfl⟩
  have hmid := hm _ _ f ((hex y f hf).mp (sat_mid s1 s2))
  rw [effort_objective d hT y hf] at hmid
  rw [e1] at hmid hm'
  rw [e2] at hm'
  unfold zeroObjective at hmid hm'
  rw [first3_stopVar, last3_stopVar] at hmid hm'
  rw [first3_stopVar, last3_stopVar, ] at hm'
  rw [f3, l3] at hmid
  have hd1 := h1.rate
  have hd2 := h2.rate
  unfold MomentumRate at hd1 hd2
  cases hang : d.useAngularMomentum with
  | true =>
    rw [hang] at hmid hm' hd1 hd2
    simp only [if_true] at hmid hm' hd1 hd2
    have id : angularCost d.l0 ((1 / 2 : ℝ) • (xL + xL')) = (angularCost d.l0 xL + angularCost d.l0 xL') / 2
        - 3 / 10 * dot (xL' - xL) (xL' - xL) := by
      simp [angularCost, dot]; ring
    have ix : dot ((1 / 2 : ℝ) • (x + x') - d.bc.c0) ((1 / 2 : ℝ) • (x + x') - d.bc.c0)
        = (dot (x - d.bc.c0) (x - d.bc.c0) + dot (x' - d.bc.c0) (x' - d.bc.c0)) / 2 - 1 / 4 * dot (x' - x) (x' - x) := by
      simp [dot]; ring
    rw [id, ix] at hmid
    have p1 : 0 ≤ dot (x' - x) (x' - x) := by simp [dot]; nlinarith [mul_self_nonneg (x' 0 - x 0), mul_self_nonneg (x' 1 - x 1), mul_self_nonneg (x' 2 - x 2)]
    have p2 : 0 ≤ dot (xL' - xL) (xL' - xL) := by simp [dot]; nlinarith [mul_self_nonneg (xL' 0 - xL 0), mul_self_nonneg (xL' 1 - xL 1), mul_self_nonneg (xL' 2 - xL 2)]
    have q1 : dot (x' - x) (x' - x) = 0 := by norm_num at hmid hm'; linarith
    have q2 : dot (xL' - xL) (xL' - xL) = 0 := by norm_num at hmid hm'; linarith
    have z : ∀ u : V3, dot u u = 0 → u = 0 := fun u hu => by
      simp only [dot] at hu
      funext k
      have := mul_self_nonneg (u 0)
      have := mul_self_nonneg (u 1)
      have := mul_self_nonneg (u 2)
      fin_cases k <;> exact mul_self_eq_zero.mp (by dsimp; linarith)
    refine ⟨sub_eq_zero.mp (z _ q1), ?_⟩
    have hxL := sub_eq_zero.mp (z _ q2)
    rw [hxL] at hd2
    exact deriv_unique hd2 hd1
  | false =>
    rw [hang] at hmid hm' hd1 hd2
    simp only [Bool.false_eq_true, if_false] at hmid hm' hd1 hd2
    have ix : dot ((1 / 2 : ℝ) • (x + x') - d.bc.c0) ((1 / 2 : ℝ) • (x + x') - d.bc.c0)
        = (dot (x - d.bc.c0) (x - d.bc.c0) + dot (x' - d.bc.c0) (x' - d.bc.c0)) / 2 - 1 / 4 * dot (x' - x) (x' - x) := by
      simp [dot]; ring
    rw [ix] at hmid
    have q1 : dot (x' - x) (x' - x) ≤ 0 := by linarith
    refine ⟨?_, hd2.trans hd1.symm⟩
    simp [dot] at q1
    funext k
    have := mul_self_nonneg (x' 0 - x 0)
    have := mul_self_nonneg (x' 1 - x 1)
    have := mul_self_nonneg (x' 2 - x 2)
    fin_cases k <;> exact sub_eq_zero.mp (mul_self_eq_zero.mp (by dsimp; linarith))

/-! ## The same problem in another frame -/

/-- The cone of wrenches in the frame where the point `c` is `R c + p`. The rows may have any positive scale. -/
structure FrameEquilibrium (R : V3 ≃ₗ[ℝ] V3) (p : V3) (e e' : Equilibrium) : Prop where
  mass : e'.mass = e.mass
  gravity : e'.gravity = R e.gravity
  poly : List.Forall₂ (fun r r' => ∃ μ : ℝ, 0 < μ ∧ r'.1 = (μ • (R r.1.1 + cr p (R r.1.2)), μ • R r.1.2)) e.poly e'.poly

/-- The same zero step problem in that frame; the angular momentum is about the centre of mass. -/
structure FrameProblem (R : V3 ≃ₗ[ℝ] V3) (p : V3) (d d' : ProblemData) (ct ct' : ContactData) : Prop where
  Kin : ct'.Kin = ct.Kin.map R
  kin : ct'.kin = List.zipWith (fun K k => k + dot (R K) p) ct.Kin ct.kin
  c0 : d'.bc.c0 = R d.bc.c0 + p
  dc0 : d'.bc.dc0 = R d.bc.dc0
  l0 : d'.l0 = R d.l0
  ang : d'.useAngularMomentum = d.useAngularMomentum

theorem bez_frame (R : V3 ≃ₗ[ℝ] V3) (n : ℕ) (P : ℕ → V3) (t : ℝ) : bez n (fun i => R (P i)) t = R (bez n P t) := by
  unfold bez
  rw [map_sum]
  exact Finset.sum_congr rfl fun i _ => (map_smul R _ _).symm

theorem stopCurve_frame (R : V3 ≃ₗ[ℝ] V3) (p c0 dc0 x : V3) (T t : ℝ) :
    stopCurve (R c0 + p) (R dc0) (R x + p) T t = R (stopCurve c0 dc0 x T t) + p := by
  unfold stopCurve curve
  rw [← bez_frame]
  apply bez_translate
  intro i hi
  interval_cases i <;> simp
  abel

theorem momentumCurve_frame (R : V3 ≃ₗ[ℝ] V3) (l0 xL : V3) (T t : ℝ) :
    momentumCurve (R l0) (R xL) T t = R (momentumCurve l0 xL T t) := by
  unfold momentumCurve curve
  rw [← bez_frame]
  apply bez_congr
  intro i hi
  interval_cases i <;> simp

theorem frame_row {R : V3 ≃ₗ[ℝ] V3} (hR : Rotation R) (p u v f τ : V3) (μ : ℝ) :
    dot (μ • (R u + cr p (R v))) (R f) + dot (μ • R v) (R τ + cr p (R f)) = μ * (dot u f + dot v τ) := by
  have h1 := hR.dot u f
  have h2 := hR.dot v τ
  have e : dot (μ • (R u + cr p (R v))) (R f) + dot (μ • R v) (R τ + cr p (R f)) = μ * (dot (R u) (R f) + dot (R v) (R τ)) := by
    simp [dot, cr, cross_apply, vecHead, vecTail]
    ring
  rw [e, h1, h2]

theorem FrameEquilibrium.cone {R : V3 ≃ₗ[ℝ] V3} (hR : Rotation R) {p : V3} {e e' : Equilibrium} (h : FrameEquilibrium R p e e')
    (f τ : V3) : ConeTol e' 0 (R f) (R τ + cr p (R f)) ↔ ConeTol e 0 f τ := by
  unfold ConeTol
  have hp := h.poly
  generalize e.poly = L at hp
  generalize e'.poly = L' at hp
  induction hp with
  | nil => simp
  | @cons r r' l l' hr _ ih =>
    obtain ⟨μ, hμ, he⟩ := hr
    rw [List.forall_mem_cons, List.forall_mem_cons]
    refine and_congr ?_ ih
    rw [he]
    dsimp only
    rw [frame_row hR, zero_mul, zero_mul]
    constructor
    · intro h; by_contra h'; push Not at h'; nlinarith [mul_pos hμ h']
    · intro h; nlinarith

theorem FrameProblem.kinTol {R : V3 ≃ₗ[ℝ] V3} (hR : Rotation R) {p : V3} {d d' : ProblemData} {ct ct' : ContactData}
    (h : FrameProblem R p d d' ct ct') (x : V3) : KinTol ct' 0 (R x + p) ↔ KinTol ct 0 x := by
  unfold KinTol
  rw [h.Kin, h.kin]
  generalize ct.Kin = K
  generalize ct.kin = k
  induction K generalizing k with
  | nil => simp
  | cons a K ih =>
    cases k with
    | nil => simp
    | cons b k =>
      simp only [List.map_cons, List.zipWith_cons_cons, List.zip_cons_cons, List.forall_mem_cons, ih]
      refine and_congr_left fun _ => ?_
      have : dot (R a) (R x + p) = dot a x + dot (R a) p := by rw [← hR.dot a x]; simp [dot]; ring
      rw [this]
      constructor <;> intro h <;> linarith

theorem frame_wrench {R : V3 ≃ₗ[ℝ] V3} (hR : Rotation R) {p : V3} {d d' : ProblemData} {ct ct' : ContactData} {e e' : Equilibrium}
    (h : FrameProblem R p d d' ct ct') (hE : FrameEquilibrium R p e e') {T : ℝ} {x xL : V3} {dL f τ : ℝ → V3}
    (hw : StopWrench d e T x xL dL f τ) :
    StopWrench d' e' T (R x + p) (R xL) (fun t => R (dL t)) (fun t => R (f t)) fun t => R (τ t) + cr p (R (f t)) := by
  obtain ⟨v, a, hv, ha, hm, hf, hτ⟩ := hw
  refine ⟨fun t => R (v t), fun t => R (a t), ?_, ha.rotate R, ?_, fun t => ?_, fun t => ?_⟩
  · rw [h.c0, h.dc0]
    have e0 : stopCurve (R d.bc.c0 + p) (R d.bc.dc0) (R x + p) T = fun t => R (stopCurve d.bc.c0 d.bc.dc0 x T t) + p :=
      funext fun t => stopCurve_frame R p _ _ _ _ _
    rw [e0]
    exact fun t => ((hv.rotate R) t).add_const p
  · unfold MomentumRate at hm ⊢
    rw [h.ang, h.l0]
    cases hang : d.useAngularMomentum with
    | true =>
      rw [hang, if_pos rfl] at hm
      rw [if_pos rfl]
      have e0 : momentumCurve (R d.l0) (R xL) T = fun t => R (momentumCurve d.l0 xL T t) :=
        funext fun t => momentumCurve_frame R _ _ _ _
      rw [e0]
      exact hm.rotate R
    | false =>
      rw [hang, if_neg (by simp)] at hm
      rw [if_neg (by simp), hm]
      simp
  · dsimp only
    rw [hf, hE.mass, hE.gravity, map_smul, map_sub]
  · dsimp only
    rw [hτ, hf, h.c0, h.dc0, stopCurve_frame, hE.mass, hE.gravity, map_sub, map_smul, map_smul, map_sub, ← hR.cr, map_sub]
    generalize R (stopCurve d.bc.c0 d.bc.dc0 x T t) = c
    generalize R e.gravity - R (a t) = g
    generalize R (dL t) = l
    funext k
    fin_cases k <;> simp [cr, cross_apply, vecHead, vecTail] <;> ring

theorem cr_bez (p : V3) (n : ℕ) (P : ℕ → V3) (t : ℝ) : bez n (fun i => cr p (P i)) t = cr p (bez n P t) := by
  unfold bez cr
  rw [map_sum]
  exact Finset.sum_congr rfl fun i _ => (map_smul (crossProduct p) _ _).symm

/-- C118. A motion that stops is admissible for `solve0step` in one frame exactly when it is in the other. -/
theorem C118_admissible {R : V3 ≃ₗ[ℝ] V3} (hR : Rotation R) {p : V3} {d d' : ProblemData} {ct ct' : ContactData} {e e' : Equilibrium}
    (h : FrameProblem R p d d' ct ct') (hE : FrameEquilibrium R p e e') {T timeStep : ℝ} {x xL : V3} {dL : ℝ → V3}
    (hx : StopTol d ct e T timeStep 0 x xL dL) : StopTol d' ct' e' T timeStep 0 (R x + p) (R xL) fun t => R (dL t) := by
  obtain ⟨⟨f, τ, hw, hc, hd⟩, hk⟩ := hx
  refine ⟨⟨_, _, frame_wrench hR h hE hw, fun hst => ?_, fun N hN hst i hi => ?_⟩, fun hang => ?_⟩
  · obtain ⟨P, Q, hP, hQ, hcone⟩ := hc hst
    refine ⟨fun i => R (P i), fun i => R (Q i) + cr p (R (P i)), fun t => ?_, fun t => ?_, fun i hi => ?_⟩
    · beta_reduce
      rw [hP, bez_frame]
    · beta_reduce
      rw [hP, hQ, bez_add 4 (fun i => R (Q i)), bez_frame, cr_bez p 4 (fun i => R (P i)), bez_frame]
    · exact (hE.cone hR _ _).mpr (hcone i hi)
  · exact (hE.cone hR _ _).mpr (hd N hN hst i hi)
  · exact (h.kinTol hR x).mpr (hk (h.ang ▸ hang))

theorem FrameEquilibrium.inv {R : V3 ≃ₗ[ℝ] V3} (hR : Rotation R) {p : V3} {e e' : Equilibrium} (h : FrameEquilibrium R p e e') :
    FrameEquilibrium R.symm (-R.symm p) e' e := by
  refine ⟨h.mass.symm, by rw [h.gravity]; simp, ?_⟩
  refine h.poly.flip.imp ?_
  rintro r' r ⟨μ, hμ, h2⟩
  refine ⟨μ⁻¹, inv_pos.mpr hμ, ?_⟩
  rw [h2]
  dsimp only
  have e1 : μ⁻¹ • μ • r.1.2 = r.1.2 := by rw [smul_smul, inv_mul_cancel₀ hμ.ne', one_smul]
  refine Prod.ext ?_ ?_
  · dsimp only
    have e2 : R.symm (cr p (R r.1.2)) = cr (R.symm p) r.1.2 := by rw [← hR.inv.cr]; simp
    rw [map_smul, map_smul, map_add, e2]
    simp only [LinearEquiv.symm_apply_apply]
    generalize R.symm p = q
    funext k
    fin_cases k <;> simp [cr, cross_apply, vecHead, vecTail] <;> field_simp <;> ring
  · dsimp only
    rw [map_smul]
    simp [e1]

theorem FrameProblem.inv {R : V3 ≃ₗ[ℝ] V3} (hR : Rotation R) {p : V3} {d d' : ProblemData} {ct ct' : ContactData}
    (h : FrameProblem R p d d' ct ct') (hlen : ct.kin ≠ [] → ct.Kin.length = ct.kin.length) :
    FrameProblem R.symm (-R.symm p) d' d ct' ct := by
  refine ⟨?_, ?_, ?_, ?_, ?_, h.ang.symm⟩
  · rw [h.Kin, List.map_map]
    exact (List.map_id'' (fun a => R.symm_apply_apply a) _).symm
  · rw [h.kin, h.Kin]
    by_cases hk : ct.kin = []
    · rw [hk]; simp
    · have := hlen hk
      generalize ct.Kin = K at this
      generalize ct.kin = k at this
      clear hk hlen
      induction K generalizing k with
      | nil => cases k with
        | nil => rfl
        | cons => simp at this
      | cons a K ih => cases k with
        | nil => simp at this
        | cons b k =>
          simp only [List.map_cons, List.zipWith_cons_cons]
          refine congrArg₂ _ ?_ (ih k (by simpa using this))
          simp only [LinearEquiv.symm_apply_apply]
          have : dot (R a) p = dot a (R.symm p) := by rw [← hR.dot a (R.symm p)]; simp
          rw [this]
          simp [dot]
          ring
  · rw [h.c0]; simp
  · rw [h.dc0]; simp
  · rw [h.l0]; simp

theorem effort_frame {R : V3 ≃ₗ[ℝ] V3} (hR : Rotation R) {p : V3} {d d' : ProblemData} {ct ct' : ContactData}
    (h : FrameProblem R p d d' ct ct') (T : ℝ) (x : V3) (dL : ℝ → V3) :
    stopEffort d' T (R x + p) (fun t => R (dL t)) = stopEffort d T x dL := by
  unfold stopEffort
  rw [h.ang, h.c0, show R x + p - (R d.bc.c0 + p) = R (x - d.bc.c0) by rw [map_sub]; abel, hR.dot]
  simp only [hR.dot]

/-- C118. `solve0step`, with or without angular momentum, with or without a time step, in exact arithmetic, gives the same answer in
both frames: it succeeds in both or in none, and the motion of the second one is that of the first one seen in the other frame. -/
theorem C118_frame (lib : Lib) (hL : LibOk lib) (he : lib.eps = 0) {R : V3 ≃ₗ[ℝ] V3} (hR : Rotation R) {p : V3} {d d' : ProblemData}
    {ct ct' : ContactData} {e e' : Equilibrium} (h : FrameProblem R p d d' ct ct') (hE : FrameEquilibrium R p e e')
    (hz : ZeroContact ct e) (hz' : ZeroContact ct' e') (hct : d.contacts = [ct]) (hct' : d'.contacts = [ct'])
    (hrep : d.representation = DOUBLE_DESCRIPTION) (hrep' : d'.representation = DOUBLE_DESCRIPTION)
    (hkin : d.useAngularMomentum = true → ct.kin = []) (T timeStep : ℝ) (hs : GoodStep T timeStep)
    (hi : EnoughIterations lib d ct T timeStep) (hi' : EnoughIterations lib d' ct' T timeStep) :
    ∃ r r' N, (∀ fuel ≥ N, solve0step lib fuel d [T] timeStep = .ok r ∧ solve0step lib fuel d' [T] timeStep = .ok r') ∧
      r'.success = r.success ∧ (r.success = true → (∀ t, r'.c_of_t.eval t = R (r.c_of_t.eval t) + p) ∧
        (∀ t, r'.dL_of_t.eval t = R (r.dL_of_t.eval t)) ∧ r'.cost = r.cost) := by
  have hT := hs.pos
  have hkin' : d'.useAngularMomentum = true → ct'.kin = [] := by
    intro ha
    rw [h.kin, hkin (h.ang ▸ ha)]
    simp
  have hlen : ct.kin ≠ [] → ct.Kin.length = ct.kin.length := hz.2.2.2.2
  obtain ⟨r, N, hrun, hv⟩ := stop_verdict lib hL he d ct e hz hct hrep hkin T timeStep hs hi
  obtain ⟨r', N', hrun', hv'⟩ := stop_verdict lib hL he d' ct' e' hz' hct' hrep' hkin' T timeStep hs hi'
  have hback := fun x xL dL hx => C118_admissible (x := x) (xL := xL) (dL := dL) (timeStep := timeStep) (T := T) hR.inv (h.inv hR hlen) (hE.inv hR) hx
  have hsucc : r'.success = r.success := by
    cases h1 : r.success with
    | true =>
      by_contra h2
      obtain ⟨-, xL, hx, -⟩ := hv.found h1
      exact (hv'.none (by simpa using h2)).2 _ _ _ (C118_admissible hR h hE hx)
    | false =>
      by_contra h2
      obtain ⟨-, xL, hx, -⟩ := hv'.found (by simpa using h2)
      exact (hv.none h1).2 _ _ _ (hback _ _ _ hx)
  refine ⟨r, r', max N N', fun fuel hf => ⟨hrun fuel (le_trans (le_max_left _ _) hf), hrun' fuel (le_trans (le_max_right _ _) hf)⟩,
    hsucc, fun hsu => ?_⟩
  obtain ⟨hc, xL, hx, hmin⟩ := hv.found hsu
  obtain ⟨hc', xL', hx', hmin'⟩ := hv'.found (hsucc.trans hsu)
  have hle : stopEffort d' T (R (r.c_of_t.eval T) + p) (fun t => R (r.dL_of_t.eval t))
      ≤ stopEffort d' T (r'.c_of_t.eval T) r'.dL_of_t.eval := by
    rw [effort_frame hR h]
    refine (hmin _ _ _ (hback _ _ _ hx')).trans (le_of_eq ?_)
    exact effort_frame hR.inv (h.inv hR hlen) T _ _
  obtain ⟨hxx, hdd⟩ := stop_unique d' ct' e' hz' hkin' hs hx' (C118_admissible hR h hE hx) hmin' hle
  have hmot : ∀ t, r'.c_of_t.eval t = R (r.c_of_t.eval t) + p := by
    intro t
    rw [hc', ← hxx, h.c0, h.dc0, stopCurve_frame, ← hc]
  have hdL : ∀ t, r'.dL_of_t.eval t = R (r.dL_of_t.eval t) := fun t => (congrFun hdd t).symm
  refine ⟨hmot, hdL, ?_⟩
  have hr := hrun N le_rfl
  have hr' := hrun' N' le_rfl
  cases hang : d.useAngularMomentum with
  | true =>
    obtain ⟨T1, hT1, hcost⟩ := C33_angular hr hsu hang
    obtain ⟨T2, hT2, hcost'⟩ := C33_angular hr' (hsucc.trans hsu) (h.ang.trans hang)
    obtain rfl : T = T1 := by simpa using hT1
    obtain rfl : T = T2 := by simpa using hT2
    rw [hcost, hcost']
    congr 1
    refine intervalIntegral.integral_congr fun t _ => ?_
    rw [hdL, hR.dot]
  | false =>
    obtain ⟨x1, hx1, hcost⟩ := C33_distance hr hsu hang
    obtain ⟨x2, hx2, hcost'⟩ := C33_distance hr' (hsucc.trans hsu) (h.ang.trans hang)
    obtain ⟨T1, y1, -, hT1, -, hy1, -, -, -, -, -, z1, -⟩ := C30_stops hr hsu
    obtain ⟨T2, y2, -, hT2, -, hy2, -, -, -, -, -, z2, -⟩ := C30_stops hr' (hsucc.trans hsu)
    obtain rfl : T = T1 := by simpa using hT1
    obtain rfl : T = T2 := by simpa using hT2
    obtain rfl : x1 = y1 := Out.ok.inj (hx1.symm.trans hy1)
    obtain rfl : x2 = y2 := Out.ok.inj (hx2.symm.trans hy2)
    rw [hcost, hcost', ← z1, ← z2, hmot, h.c0,
      show R d.bc.c0 + p - (R (r.c_of_t.eval T) + p) = R (d.bc.c0 - r.c_of_t.eval T) by rw [map_sub]; abel, hR.dot]

/-! ## An instance -/

/-- The phase of `spinProblem` in another frame. -/
noncomputable def spinPhaseIn (R : V3 ≃ₗ[ℝ] V3) (p : V3) : Equilibrium :=
  { spinPhase with
    gravity := R ![0, 0, -10]
    poly := [((R ![0, 0, 1] + cr p (R ![1, 0, 0]), R ![1, 0, 0]), 0)] }

noncomputable def spinContactIn (R : V3 ≃ₗ[ℝ] V3) (p : V3) : ContactData := { spinContact with contactPhase := some (spinPhaseIn R p) }

/-- The robot of `spinProblem` in another frame. -/
noncomputable def spinProblemIn (R : V3 ≃ₗ[ℝ] V3) (p : V3) : ProblemData :=
  { spinProblem with bc := ⟨p, 0, 0, 0, 0, 0, 0, 0⟩, contacts := [spinContactIn R p], l0 := R ![13, 0, 0] }

/-- In every frame the robot of `spinProblem` finds its plan. -/
theorem spin_frames (R : V3 ≃ₗ[ℝ] V3) (hR : Rotation R) (p : V3) : ∃ M, ∀ maxIter > M, ∃ r r' N,
    (∀ fuel ≥ N, solve0step (exactLib maxIter) fuel spinProblem [1] (-1) = .ok r ∧
      solve0step (exactLib maxIter) fuel (spinProblemIn R p) [1] (-1) = .ok r') ∧
    r.success = true ∧ r'.success = true ∧ ∀ t, r'.c_of_t.eval t = R (r.c_of_t.eval t) + p := by
  have hP : FrameProblem R p spinProblem (spinProblemIn R p) spinContact (spinContactIn R p) :=
    ⟨rfl, rfl, (by simp [spinProblemIn, spinProblem, restProblem]), (by simp [spinProblemIn, spinProblem, restProblem]), rfl, rfl⟩
  have hE : FrameEquilibrium R p spinPhase (spinPhaseIn R p) :=
    ⟨rfl, rfl, List.Forall₂.cons ⟨1, one_pos, by simp⟩ List.Forall₂.nil⟩
  have hz : ZeroContact spinContact spinPhase := ⟨rfl, rfl, rfl, by simp [spinPhase], by simp [spinContact]⟩
  have hz' : ZeroContact (spinContactIn R p) (spinPhaseIn R p) := by
    refine ⟨rfl, rfl, rfl, ?_, by simp [spinContactIn, spinContact]⟩
    intro r hr h0
    simp only [spinPhaseIn, List.mem_singleton] at hr
    subst hr
    have := congrArg Prod.snd h0
    simp at this
  have hs : GoodStep 1 (-1) := Or.inl ⟨one_pos, Or.inl (by norm_num)⟩
  have hk : spinProblem.useAngularMomentum = true → spinContact.kin = [] := fun _ => rfl
  obtain ⟨A, b, hA, -⟩ := C103_exact spinProblem spinContact spinPhase hz hs hk
  obtain ⟨A', b', hA', -⟩ := C103_exact (spinProblemIn R p) (spinContactIn R p) (spinPhaseIn R p) hz' hs fun _ => rfl
  refine ⟨max (2 ^ A.rows) (2 ^ A'.rows), fun maxIter hM => ?_⟩
  have hi : EnoughIterations (exactLib maxIter) spinProblem spinContact 1 (-1) := by
    intro B c hB
    have : A = B := congrArg Prod.fst (Out.ok.inj (hA.symm.trans hB))
    rw [← this]
    exact lt_of_le_of_lt (le_max_left _ _) hM
  have hi' : EnoughIterations (exactLib maxIter) (spinProblemIn R p) (spinContactIn R p) 1 (-1) := by
    intro B c hB
    have : A' = B := congrArg Prod.fst (Out.ok.inj (hA'.symm.trans hB))
    rw [← this]
    exact lt_of_le_of_lt (le_max_right _ _) hM
  obtain ⟨r, r', N, hrun, h1, h2⟩ := C118_frame (exactLib maxIter) (exactLib_ok maxIter) rfl hR hP hE hz hz' rfl rfl rfl rfl hk 1 (-1) hs hi hi'
  have hsu : r.success = true := by
    obtain ⟨r0, N0, hrun0, hv⟩ := stop_verdict (exactLib maxIter) (exactLib_ok maxIter) rfl spinProblem spinContact spinPhase hz rfl rfl
      hk 1 (-1) hs hi
    obtain rfl : r = r0 := Out.ok.inj ((hrun _ (le_max_left N N0)).1.symm.trans (hrun0 _ (le_max_right N N0)))
    by_contra h0
    exact (hv.none (by simpa using h0)).2 _ _ _ (spin_stop.mono (by norm_num))
  exact ⟨r, r', N, hrun, hsu, h1.trans hsu, (h2 hsu).1⟩

end Verif
