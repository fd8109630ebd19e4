import Mathlib.Analysis.Calculus.Deriv.Prod
import Verif.Props.C108

/-!
# C109: the samples planner, the axes of the frame, the mass and the scale of the rows
-/

namespace Verif
open Matrix

/-! ## The same problem seen with other axes -/

/-- A rotation of space. -/
structure Rotation (R : V3 ≃ₗ[ℝ] V3) : Prop where
  dot : ∀ u v, dot (R u) (R v) = dot u v
  cr : ∀ u v, cr (R u) (R v) = R (cr u v)

theorem Rotation.inv {R : V3 ≃ₗ[ℝ] V3} (h : Rotation R) : Rotation R.symm where
  dot u v := by rw [← h.dot]; simp
  cr u v := by
    apply R.injective
    rw [← h.cr]
    simp

/-- The boundary conditions in the other axes. -/
def BC.rotate (d : BC) (R : V3 ≃ₗ[ℝ] V3) : BC :=
  ⟨R d.c0, R d.dc0, R d.ddc0, R d.j0, R d.c1, R d.dc1, R d.ddc1, R d.j1⟩

/-- The polytope of wrenches of a phase in the other axes. The mass may be another one of the same sign, and the rows may
have another positive scale, the right-hand sides being those of the rows of norm 1 of the code. -/
structure RotatedEquilibrium (R : V3 ≃ₗ[ℝ] V3) (e e' : Equilibrium) : Prop where
  mass : ∃ s : ℝ, 0 < s ∧ e'.mass = s * e.mass
  gravity : e'.gravity = R e.gravity
  polyOk : e'.polyOk = e.polyOk
  poly : List.Forall₂ (fun r r' => r'.2 = r.2 ∧ ∃ μ : ℝ, 0 < μ ∧ r'.1 = (μ • R r.1.1, μ • R r.1.2)) e.poly e'.poly

structure RotatedContact (R : V3 ≃ₗ[ℝ] V3) (ct ct' : ContactData) : Prop where
  phase : ∃ e e', ct.contactPhase = some e ∧ ct'.contactPhase = some e' ∧ RotatedEquilibrium R e e'
  Kin : ct'.Kin = ct.Kin.map R
  kin : ct'.kin = ct.kin

/-- The same problem in other axes. -/
structure RotatedProblem (R : V3 ≃ₗ[ℝ] V3) (d d' : ProblemData) : Prop where
  contacts : List.Forall₂ (RotatedContact R) d.contacts d'.contacts
  bc : d'.bc = d.bc.rotate R
  flag : d'.flag = d.flag
  acc : d'.constraintAcceleration = d.constraintAcceleration
  maxAcc : d'.maxAcceleration = d.maxAcceleration
  margin : d'.reduce_h = d.reduce_h
  cost : d'.costFunction = d.costFunction
  repr : d'.representation = d.representation

theorem RotatedEquilibrium.inv {R : V3 ≃ₗ[ℝ] V3} {e e' : Equilibrium} (h : RotatedEquilibrium R e e') :
    RotatedEquilibrium R.symm e' e := by
  obtain ⟨s, hs, hm⟩ := h.mass
  refine ⟨⟨s⁻¹, inv_pos.mpr hs, ?_⟩, by rw [h.gravity]; simp, h.polyOk.symm, ?_⟩
  · rw [hm]
    field_simp
  · refine h.poly.flip.imp ?_
    rintro r' r ⟨h1, μ, hμ, h2⟩
    refine ⟨h1.symm, μ⁻¹, inv_pos.mpr hμ, ?_⟩
    rw [h2]
    ext k <;> simp [hμ.ne']

theorem RotatedContact.inv {R : V3 ≃ₗ[ℝ] V3} {ct ct' : ContactData} (h : RotatedContact R ct ct') :
    RotatedContact R.symm ct' ct := by
  obtain ⟨e, e', h1, h2, h3⟩ := h.phase
  refine ⟨⟨e', e, h2, h1, h3.inv⟩, ?_, h.kin.symm⟩
  rw [h.Kin, List.map_map]
  simp [Function.comp_def]

theorem BC.rotate_inv (d : BC) (R : V3 ≃ₗ[ℝ] V3) : (d.rotate R).rotate R.symm = d := by
  simp [BC.rotate]

theorem RotatedProblem.inv {R : V3 ≃ₗ[ℝ] V3} {d d' : ProblemData} (h : RotatedProblem R d d') :
    RotatedProblem R.symm d' d :=
  ⟨h.contacts.flip.imp fun _ _ q => q.inv, by rw [h.bc, BC.rotate_inv], h.flag.symm, h.acc.symm, h.maxAcc.symm, h.margin.symm,
    h.cost.symm, h.repr.symm⟩

/-- Every problem with contact phases can be written in other axes. -/
noncomputable def ProblemData.rotate (d : ProblemData) (R : V3 ≃ₗ[ℝ] V3) : ProblemData :=
  { d with
    contacts := d.contacts.map fun ct => { ct with
      contactPhase := ct.contactPhase.map fun e => { e with
        gravity := R e.gravity
        poly := e.poly.map fun r => ((R r.1.1, R r.1.2), r.2) }
      Kin := ct.Kin.map R }
    bc := d.bc.rotate R }

theorem ProblemData.rotated (d : ProblemData) (R : V3 ≃ₗ[ℝ] V3) (h : ∀ ct ∈ d.contacts, ct.contactPhase ≠ none) :
    RotatedProblem R d (d.rotate R) := by
  refine ⟨?_, rfl, rfl, rfl, rfl, rfl, rfl, rfl⟩
  unfold ProblemData.rotate
  dsimp only
  rw [List.forall₂_map_right_iff, List.forall₂_same]
  intro ct hct
  cases he : ct.contactPhase with
  | none => exact absurd he (h ct hct)
  | some e =>
    refine ⟨⟨e, { e with gravity := R e.gravity, poly := e.poly.map fun r => ((R r.1.1, R r.1.2), r.2) }, he, by simp,
      ⟨1, one_pos, by simp⟩, rfl, rfl, ?_⟩, rfl, rfl⟩
    dsimp only
    rw [List.forall₂_map_right_iff, List.forall₂_same]
    exact fun r _ => ⟨rfl, 1, one_pos, by simp⟩

/-! ## The motion -/

theorem linear_entries (R : V3 ≃ₗ[ℝ] V3) (v : V3) (k : Fin 3) :
    R v k = v 0 * R ![1, 0, 0] k + v 1 * R ![0, 1, 0] k + v 2 * R ![0, 0, 1] k := by
  have e : v = v 0 • ![1, 0, 0] + v 1 • ![0, 1, 0] + v 2 • ![0, 0, 1] := by
    ext i
    fin_cases i <;> simp
  conv_lhs => rw [e]
  simp only [map_add, map_smul, Pi.add_apply, Pi.smul_apply, smul_eq_mul]

theorem fill_rotate (flag : Flag) (hf : flag ∈ comFlags) (d : BC) (T : ℝ) (R : V3 ≃ₗ[ℝ] V3) (x : V3) (pts pts' : List V3)
    (h : computeConstantWaypoints flag d T = .ok pts) (h' : computeConstantWaypoints flag (d.rotate R) T = .ok pts')
    (i : ℕ) (hi : i ≤ degreeOf flag) :
    fill flag (nth pts') (R x) i = R (fill flag (nth pts) x i) := by
  obtain ⟨M, hM⟩ : ∃ M : Fin 3 → Fin 3 → ℝ, ∀ v k, R v k = v 0 * M 0 k + v 1 * M 1 k + v 2 * M 2 k :=
    ⟨![R ![1, 0, 0], R ![0, 1, 0], R ![0, 0, 1]], linear_entries R⟩
  simp only [comFlags, List.mem_cons, List.not_mem_nil, or_false] at hf
  rcases hf with rfl | rfl | rfl | rfl | rfl | rfl | rfl
  · simp [computeConstantWaypoints] at h h'
    subst h h'
    replace hi : i ≤ 3 := hi
    interval_cases i <;> ext k <;>
      simp [fill, freeSlots, nth, c0_dc0_c1.computeConstantWaypoints, BC.rotate, hM] <;> ring
  · by_cases hd : d.dc1 = 0 <;> simp [computeConstantWaypoints, hd, BC.rotate] at h h'
    subst h h'
    replace hi : i ≤ 3 := hi
    interval_cases i <;> ext k <;>
      simp [fill, freeSlots, nth, c0_dc0_dc1.computeConstantWaypoints, BC.rotate, hM] <;> ring
  · simp [computeConstantWaypoints] at h h'
    subst h h'
    replace hi : i ≤ 4 := hi
    interval_cases i <;> ext k <;>
      simp [fill, freeSlots, nth, c0_dc0_dc1_c1.computeConstantWaypoints, BC.rotate, hM] <;> ring
  · simp [computeConstantWaypoints] at h h'
    subst h h'
    replace hi : i ≤ 3 := hi
    interval_cases i <;> ext k <;>
      simp [fill, freeSlots, nth, c0_dc0_ddc0.computeConstantWaypoints, BC.rotate, hM] <;> ring
  · simp [computeConstantWaypoints] at h h'
    subst h h'
    replace hi : i ≤ 4 := hi
    interval_cases i <;> ext k <;>
      simp [fill, freeSlots, nth, c0_dc0_ddc0_c1.computeConstantWaypoints, BC.rotate, hM] <;> ring
  · simp [computeConstantWaypoints] at h h'
    subst h h'
    replace hi : i ≤ 5 := hi
    interval_cases i <;> ext k <;>
      simp [fill, freeSlots, nth, c0_dc0_ddc0_dc1_c1.computeConstantWaypoints, BC.rotate, hM] <;> ring
  · simp [computeConstantWaypoints] at h h'
    subst h h'
    replace hi : i ≤ 6 := hi
    interval_cases i <;> ext k <;>
      simp [fill, freeSlots, nth, c0_dc0_ddc0_ddc1_dc1_c1.computeConstantWaypoints, BC.rotate, hM] <;> ring

theorem curve_rotate (flag : Flag) (hf : flag ∈ comFlags) (d : BC) (T : ℝ) (R : V3 ≃ₗ[ℝ] V3) (x : V3) (pts pts' : List V3)
    (h : computeConstantWaypoints flag d T = .ok pts) (h' : computeConstantWaypoints flag (d.rotate R) T = .ok pts') (t : ℝ) :
    curve (degreeOf flag) (fill flag (nth pts') (R x)) T t = R (curve (degreeOf flag) (fill flag (nth pts) x) T t) := by
  unfold curve
  rw [bez_congr (fill_rotate flag hf d T R x pts pts' h h')]
  unfold bez
  rw [map_sum]
  exact Finset.sum_congr rfl fun i _ => (map_smul R _ _).symm

theorem IsDeriv.rotate {c v : ℝ → V3} (h : IsDeriv c v) (R : V3 ≃ₗ[ℝ] V3) : IsDeriv (fun t => R (c t)) fun t => R (v t) := by
  intro s
  exact (R.toLinearMap.toContinuousLinearMap.hasFDerivAt (x := c s)).comp_hasDerivAt s (h s)

theorem RotatedProblem.motion {R : V3 ≃ₗ[ℝ] V3} {d d' : ProblemData} (h : RotatedProblem R d d') (hf : d.flag ∈ comFlags)
    (h0 : d.flag = 19#32 → d.bc.dc1 = 0) {T : ℝ} {x : V3} {c v a : ℝ → V3} (hm : Motion d T x c v a) :
    Motion d' T (R x) (fun t => R (c t)) (fun t => R (v t)) fun t => R (a t) := by
  obtain ⟨pts, hpts, h1, hv, ha⟩ := hm
  obtain ⟨pts', hpts'⟩ := C01_answers d.flag hf (d.bc.rotate R) T fun q => by simp [BC.rotate, h0 q]
  refine ⟨pts', by rw [h.flag, h.bc]; exact hpts', ?_, hv.rotate R, ha.rotate R⟩
  rw [h.flag, h1]
  funext t
  exact (curve_rotate d.flag hf d.bc T R x pts pts' hpts hpts' t).symm

/-! ## The constraints -/

theorem dot_smul_smul (a b : ℝ) (u v : V3) : dot (a • u) (b • v) = a * b * dot u v := by
  simp [dot]
  ring

theorem rotated_row {R : V3 ≃ₗ[ℝ] V3} (hR : Rotation R) (m s μ ρ k : ℝ) (hs : 0 < s) (hμ : 0 < μ) (u v g c a : V3)
    (h : WrenchRowOk m ρ ((u, v), k) (m • (g - a)) (m • cr c (g - a))) :
    WrenchRowOk (s * m) ρ ((μ • R u, μ • R v), k) ((s * m) • (R g - R a)) ((s * m) • cr (R c) (R g - R a)) := by
  unfold WrenchRowOk at h ⊢
  dsimp only at h ⊢
  rw [← map_sub, hR.cr]
  simp only [dot_smul_smul, hR.dot]
  have e1 : dot u (m • (g - a)) = m * dot u (g - a) := by simpa using dot_smul_smul 1 m u (g - a)
  have e2 : dot v (m • cr c (g - a)) = m * dot v (cr c (g - a)) := by simpa using dot_smul_smul 1 m v (cr c (g - a))
  rw [e1, e2] at h
  have e3 : Real.sqrt (μ * μ * dot u u + μ * μ * dot v v) = μ * Real.sqrt (dot u u + dot v v) := by
    rw [← mul_add, Real.sqrt_mul (mul_self_nonneg μ), Real.sqrt_mul_self hμ.le]
  rw [e3, abs_mul, abs_of_pos hs]
  have := mul_le_mul_of_nonneg_left h (mul_pos hμ hs).le
  linarith [this]

theorem RotatedEquilibrium.wrench {R : V3 ≃ₗ[ℝ] V3} (hR : Rotation R) {e e' : Equilibrium} (h : RotatedEquilibrium R e e')
    {ρ : ℝ} {c a : V3} (hw : WrenchOk e ρ (e.mass • (e.gravity - a)) (e.mass • cr c (e.gravity - a))) :
    WrenchOk e' ρ (e'.mass • (e'.gravity - R a)) (e'.mass • cr (R c) (e'.gravity - R a)) := by
  obtain ⟨s, hs, hm⟩ := h.mass
  intro r' hr'
  obtain ⟨i, hi⟩ := List.mem_iff_getElem?.mp hr'
  obtain ⟨hl, H⟩ := List.forall₂_iff_get.mp h.poly
  obtain ⟨hi', hri⟩ := List.getElem?_eq_some_iff.mp hi
  obtain ⟨h1, μ, hμ, h2⟩ := H i (by omega) hi'
  simp only [List.get_eq_getElem, hri] at h1 h2
  have := rotated_row hR e.mass s μ ρ _ hs hμ _ _ _ _ _ (hw _ (List.getElem_mem (by omega : i < e.poly.length)))
  rw [hm, h.gravity]
  obtain ⟨⟨u', v'⟩, k'⟩ := r'
  simp only at h1 h2
  rw [h1, h2]
  exact this

theorem RotatedContact.kinOk {R : V3 ≃ₗ[ℝ] V3} (hR : Rotation R) {ct ct' : ContactData} (h : RotatedContact R ct ct') {c : V3}
    (hk : KinOk ct c) : KinOk ct' (R c) := by
  unfold KinOk at hk ⊢
  rw [h.Kin, h.kin, List.zip_map_left]
  intro q hq
  obtain ⟨q0, hq0, rfl⟩ := List.mem_map.mp hq
  simpa [hR.dot] using hk q0 hq0

theorem RotatedProblem.meets {R : V3 ≃ₗ[ℝ] V3} (hR : Rotation R) {d d' : ProblemData} (h : RotatedProblem R d d')
    (hA : d.constraintAcceleration = false) {l : TTime} {c a : ℝ → V3} (hs : MeetsSamples d l c a) : MeetsSamples d' l (fun t => R (c t)) fun t => R (a t) := by
  refine ⟨fun t i hti => ?_, fun q => absurd q (by rw [h.acc, hA]; simp)⟩
  obtain ⟨ct, e, h1, h2, h3, h4⟩ := hs.1 t i hti
  obtain ⟨hl, H⟩ := List.forall₂_iff_get.mp h.contacts
  obtain ⟨hi, rfl⟩ := List.getElem?_eq_some_iff.mp h1
  have hm := H i hi (by omega)
  obtain ⟨e1, e', he, he', hme⟩ := hm.phase
  simp only [List.get_eq_getElem] at he hm
  rw [h2] at he
  cases he
  refine ⟨_, e', List.getElem?_eq_getElem (by omega), he', ?_, hm.kinOk hR h4⟩
  rw [h.margin]
  exact hme.wrench hR h3

theorem RotatedProblem.motionCost {R : V3 ≃ₗ[ℝ] V3} (hR : Rotation R) {d d' : ProblemData} (h : RotatedProblem R d d') (l : TTime)
    (x : V3) (a : ℝ → V3) : motionCost d' l (R x) (fun t => R (a t)) = motionCost d l x a := by
  unfold Verif.motionCost
  rw [h.cost, h.bc]
  have e : R x - (1 / 2 : ℝ) • ((d.bc.rotate R).c0 + (d.bc.rotate R).c1) = R (x - (1 / 2 : ℝ) • (d.bc.c0 + d.bc.c1)) := by
    simp [BC.rotate]
  simp only [e, hR.dot]

theorem RotatedProblem.accepted {R : V3 ≃ₗ[ℝ] V3} {d d' : ProblemData} (h : RotatedProblem R d d') {Ts : List ℝ} {g : V3}
    (ha : Accepted d Ts g) : Accepted d' Ts (R g) := by
  refine ⟨ha.size.trans h.contacts.length_eq, ha.ne, ha.pos, ?_, h.flag ▸ ha.flag, fun hf => ?_⟩
  · intro ct' hct'
    obtain ⟨i, hi⟩ := List.mem_iff_getElem?.mp hct'
    obtain ⟨hl, H⟩ := List.forall₂_iff_get.mp h.contacts
    obtain ⟨hi', rfl⟩ := List.getElem?_eq_some_iff.mp hi
    have hm := H i (by omega) hi'
    simp only [List.get_eq_getElem] at hm
    obtain ⟨e0, hg, hgr⟩ := ha.good _ (List.getElem_mem (by omega : i < d.contacts.length))
    obtain ⟨e, e', he, he', hme⟩ := hm.phase
    rw [hg.1] at he
    cases he
    obtain ⟨s, hs, hms⟩ := hme.mass
    refine ⟨e', ⟨he', by rw [hme.polyOk]; exact hg.2.1, by rw [hms]; exact mul_ne_zero hs.ne' hg.2.2.1, ?_, ?_⟩,
      by rw [hme.gravity, hgr]⟩
    · intro r' hr'
      obtain ⟨j, hj⟩ := List.mem_iff_getElem?.mp hr'
      obtain ⟨hl2, H2⟩ := List.forall₂_iff_get.mp hme.poly
      obtain ⟨hj', hrj⟩ := List.getElem?_eq_some_iff.mp hj
      obtain ⟨-, μ, hμ, h2⟩ := H2 j (by omega) hj'
      simp only [List.get_eq_getElem, hrj] at h2
      intro h0
      rw [h2] at h0
      have q2 := congrArg Prod.snd h0
      have q1 := congrArg Prod.fst h0
      simp only [Prod.snd_zero, Prod.fst_zero, smul_eq_zero, hμ.ne', false_or, EmbeddingLike.map_eq_zero_iff] at q1 q2
      exact hg.2.2.2.1 _ (List.getElem_mem (by omega : j < _)) (Prod.ext q1 q2)
    · rw [hm.kin, hm.Kin, List.length_map]
      exact hg.2.2.2.2
  · rw [h.bc]
    simp [BC.rotate, ha.capt (h.flag ▸ hf)]

/-! ## The planners -/

/-- The results of two calls, the second one for the problem in the other axes. -/
structure RotatedResult (R : V3 ≃ₗ[ℝ] V3) (res res' : ResultDataCOMTraj) : Prop where
  success : res'.success = res.success
  point : res.success = true → res'.point = R res.point
  curve : res.success = true → ∀ t, res'.c_of_t.eval t = R (res.c_of_t.eval t)

theorem RotatedProblem.verdict {R : V3 ≃ₗ[ℝ] V3} (hR : Rotation R) {d d' : ProblemData} (hm : RotatedProblem R d d') {Ts : List ℝ}
    {g : V3} (h : Accepted d Ts g) (hf : d.flag ∈ [11#32, 19#32, 27#32, 7#32, 15#32]) (hA : d.constraintAcceleration = false) {l : TTime} (hl : Discretisation Ts l)
    (hc : d.costFunction = DISTANCE_TRAVELED ∨ d.costFunction = ACCELERATION)
    {lim lim' : Prop} (h1 : ¬ lim) (h2 : ¬ lim') {res res' : ResultDataCOMTraj} (hv : Verdict d Ts.sum l lim res)
    (hv' : Verdict d' Ts.sum l lim' res') : RotatedResult R res res' := by
  have ha' := hm.accepted h
  have hsucc : res'.success = res.success := by
    cases hr : res.success with
    | true =>
      by_contra hn
      rw [Bool.not_eq_true] at hn
      obtain ⟨v, a, q1, q2, -⟩ := hv.found hr
      exact ((hv'.none hn).resolve_left h2) _ _ _ _ (hm.motion h.flag h.capt q1) (hm.meets hR hA q2)
    | false =>
      by_contra hn
      rw [Bool.not_eq_false] at hn
      obtain ⟨v, a, q1, q2, -⟩ := hv'.found hn
      exact ((hv.none hr).resolve_left h1) _ _ _ _ (hm.inv.motion ha'.flag ha'.capt q1) (hm.inv.meets hR.inv (hm.acc.trans hA) q2)
  have main : res.success = true → res'.point = R res.point ∧ ∀ t, res'.c_of_t.eval t = R (res.c_of_t.eval t) := by
    intro hr
    obtain ⟨v, a, q1, q2, q3⟩ := hv.found hr
    obtain ⟨v', a', r1, r2, r3⟩ := hv'.found (hsucc.trans hr)
    have b1 := hm.inv.motion ha'.flag ha'.capt r1
    have b2 := hm.inv.meets hR.inv (hm.acc.trans hA) r2
    have hx : R.symm res'.point = res.point := by
      refine C108_unique d Ts g h hf l hl hc _ _ _ _ _ _ _ _ q1 b1 q2 b2 q3 fun y cy vy ay y1 y2 => ?_
      have := r3 _ _ _ _ (hm.motion h.flag h.capt y1) (hm.meets hR hA y2)
      rw [hm.motionCost hR] at this
      rw [hm.inv.motionCost hR.inv]
      exact this
    refine ⟨by rw [← hx]; simp, fun t => ?_⟩
    rw [hx] at b1
    have := congrFun (motion_unique q1 b1).1 t
    rw [← this]
    simp
  exact ⟨hsucc, fun hr => (main hr).1, fun hr => (main hr).2⟩

/-- C109, `computeCOMTrajFixedSize`. In exact arithmetic and without a bound on the acceleration the plan does not depend on
the axes of the frame, on the mass, or on the scale of the rows, whatever the margin. -/
theorem C109_fixedSize (lib : Lib) (hL : LibOk lib) (he : lib.eps = 0) (R : V3 ≃ₗ[ℝ] V3) (hR : Rotation R) (d d' : ProblemData)
    (hm : RotatedProblem R d d') (Ts : List ℝ) (g : V3) (h : Accepted d Ts g) (hr : d.representation = DOUBLE_DESCRIPTION)
    (hf : d.flag ∈ [11#32, 19#32, 27#32, 7#32, 15#32]) (hAcc : d.constraintAcceleration = false) (n : ℕ) (hn : 0 < n)
    (hc : d.costFunction = DISTANCE_TRAVELED ∨ d.costFunction = ACCELERATION)
    (hlim : ∀ q ∈ [d, d'], ∀ A b, computeConstraintsOneStep q Ts.length Ts.sum (computeDiscretizedTimeFixed Ts n) = .ok (A, b) →
      2 ^ A.rows < lib.maxIter) :
    ∃ res res' N, (∀ fuel ≥ N, computeCOMTrajFixedSize lib fuel d Ts n = .ok res) ∧
      (∀ fuel ≥ N, computeCOMTrajFixedSize lib fuel d' Ts n = .ok res') ∧ RotatedResult R res res' := by
  have h' := hm.accepted h
  have hl : Discretisation Ts (computeDiscretizedTimeFixed Ts n) := Or.inl ⟨n, hn, rfl⟩
  obtain ⟨res, N, hrun, -, hv⟩ := C56_fixedSize_partial lib hL he d Ts g h hr hf n hn hc
  obtain ⟨res', N', hrun', -, hv'⟩ := C56_fixedSize_partial lib hL he d' Ts _ h' (hm.repr.trans hr) (hm.flag ▸ hf) n hn
    (by rw [hm.cost]; exact hc)
  obtain ⟨A, b, hA, -⟩ := C18_in_bounds_and_complete d Ts g h _ hl
  obtain ⟨A', b', hA', -⟩ := C18_in_bounds_and_complete d' Ts _ h' _ hl
  refine ⟨res, res', max N N', fun fuel hfuel => hrun fuel (le_trans (le_max_left _ _) hfuel),
    fun fuel hfuel => hrun' fuel (le_trans (le_max_right _ _) hfuel), hm.verdict hR h hf hAcc hl hc ?_ ?_ hv hv'⟩
  · intro q
    exact absurd (q A b hA) (not_le.mpr (hlim d (by simp) A b hA))
  · intro q
    exact absurd (q A' b' hA') (not_le.mpr (hlim d' (by simp) A' b' hA'))

/-- C109, `computeCOMTraj` with a time step at most half of every phase. -/
theorem C109_timeStep (κ : ℝ) (lib : Lib) (hL : LibOk lib) (he : lib.eps = 0) (R : V3 ≃ₗ[ℝ] V3) (hR : Rotation R)
    (d d' : ProblemData) (hm : RotatedProblem R d d') (Ts : List ℝ) (g : V3) (h : Accepted d Ts g)
    (hr : d.representation = DOUBLE_DESCRIPTION) (hf : d.flag ∈ [11#32, 19#32, 27#32, 7#32, 15#32])
    (hAcc : d.constraintAcceleration = false) (step : ℝ) (hstep : 0 < step) (hshort : ∀ T ∈ Ts, step * 2 ≤ T)
    (hc : d.costFunction = DISTANCE_TRAVELED ∨ d.costFunction = ACCELERATION)
    (hlim : ∀ q ∈ [d, d'], ∀ l A b, Discretisation Ts l → computeConstraintsOneStep q Ts.length Ts.sum l = .ok (A, b) →
      (∃ fuel, computeDiscretizedTime Ts step fuel = .ok l) → 2 ^ A.rows < lib.maxIter) :
    ∃ res res' N, (∀ fuel ≥ N, computeCOMTraj κ lib fuel d Ts step SOLVER_QUADPROG = .ok res) ∧
      (∀ fuel ≥ N, computeCOMTraj κ lib fuel d' Ts step SOLVER_QUADPROG = .ok res') ∧ RotatedResult R res res' := by
  have h' := hm.accepted h
  obtain ⟨l, res, N, hl, hdisc, hrun, -, hv⟩ := C56_timeStep_partial κ lib hL he d Ts g h hr hf step hstep hshort hc
  obtain ⟨l', res', N', hl', hdisc', hrun', -, hv'⟩ := C56_timeStep_partial κ lib hL he d' Ts _ h' (hm.repr.trans hr)
    (hm.flag ▸ hf) step hstep hshort (by rw [hm.cost]; exact hc)
  have hll : l' = l := by
    have a1 := hdisc (max N N') (le_max_left _ _)
    have a2 := hdisc' (max N N') (le_max_right _ _)
    rw [a1] at a2
    cases a2
    rfl
  subst hll
  obtain ⟨A, b, hA, -⟩ := C18_in_bounds_and_complete d Ts g h _ hl
  obtain ⟨A', b', hA', -⟩ := C18_in_bounds_and_complete d' Ts _ h' _ hl
  refine ⟨res, res', max N N', fun fuel hfuel => hrun fuel (le_trans (le_max_left _ _) hfuel),
    fun fuel hfuel => hrun' fuel (le_trans (le_max_right _ _) hfuel), hm.verdict hR h hf hAcc hl hc ?_ ?_ hv hv'⟩
  · intro q
    exact absurd (q A b hA) (not_le.mpr (hlim d (by simp) _ A b hl hA ⟨N, hdisc N le_rfl⟩))
  · intro q
    exact absurd (q A' b' hA') (not_le.mpr (hlim d' (by simp) _ A' b' hl hA' ⟨N, hdisc N le_rfl⟩))

/-! ## A bound on the acceleration is a bound on its coordinates -/

/-- The rotation about the vertical that takes the first axis to `(c, s)`. -/
noncomputable def rotZ (c s : ℝ) (h : c * c + s * s = 1) : V3 ≃ₗ[ℝ] V3 where
  toFun v := ![c * v 0 - s * v 1, s * v 0 + c * v 1, v 2]
  invFun v := ![c * v 0 + s * v 1, - s * v 0 + c * v 1, v 2]
  map_add' u v := by ext k; fin_cases k <;> simp <;> ring
  map_smul' a v := by ext k; fin_cases k <;> simp <;> ring
  left_inv v := by
    ext k
    fin_cases k <;> simp
    · linear_combination v 0 * h
    · linear_combination v 1 * h
  right_inv v := by
    ext k
    fin_cases k <;> simp
    · linear_combination v 0 * h
    · linear_combination v 1 * h

theorem rotZ_apply (c s : ℝ) (h : c * c + s * s = 1) (v : V3) : rotZ c s h v = ![c * v 0 - s * v 1, s * v 0 + c * v 1, v 2] := rfl

theorem rotZ_rotation (c s : ℝ) (h : c * c + s * s = 1) : Rotation (rotZ c s h) where
  dot u v := by
    simp only [rotZ_apply, Verif.dot]
    simp
    linear_combination (u 0 * v 0 + u 1 * v 1) * h
  cr u v := by
    ext k
    fin_cases k <;> simp [rotZ_apply, Verif.cr, cross_apply]
    · ring
    · ring
    · linear_combination (u 0 * v 1 - u 1 * v 0) * h

/-- A phase without constraints. -/
noncomputable def bareContact : ContactData :=
  { contactPhase := some
      { mass := 1, gravity := ![0, 0, -9.81], poly := [], polyOk := true, isPP := true, gens := [] },
    Kin := [], kin := [], Ang := [], ang := [] }

/-- To start at the origin with a given acceleration. -/
noncomputable def startProblem (a0 : V3) (A : ℝ) : ProblemData :=
  { contacts := [bareContact], bc := ⟨0, 0, a0, 0, 0, 0, 0, 0⟩, l0 := 0,
    useAngularMomentum := false, flag := 7#32, constraintAcceleration := true,
    maxAcceleration := A, reduce_h := 0, costFunction := 1, representation := 1 }

theorem start_rotated (c s : ℝ) (h : c * c + s * s = 1) (a0 : V3) (A : ℝ) :
    RotatedProblem (rotZ c s h) (startProblem a0 A) (startProblem (rotZ c s h a0) A) := by
  refine ⟨List.Forall₂.cons ⟨⟨_, _, rfl, rfl, ⟨1, one_pos, ?_⟩, ?_, rfl, .nil⟩, rfl, rfl⟩ .nil, ?_, rfl, rfl, rfl, rfl, rfl, rfl⟩
  · simp
  · ext k
    fin_cases k <;> simp [rotZ_apply]
  · simp [startProblem, BC.rotate]

theorem start_accepted (a0 : V3) (A : ℝ) : Accepted (startProblem a0 A) [1] ![0, 0, -9.81] := by
  refine ⟨rfl, by simp, by simp, ?_, by simp [startProblem, comFlags], by simp [startProblem]⟩
  intro ct hct
  simp only [startProblem, List.mem_singleton] at hct
  subst hct
  exact ⟨_, ⟨rfl, rfl, one_ne_zero, by simp, by simp [bareContact]⟩, rfl⟩

/-- There is an admissible motion exactly when the coordinates of the given acceleration obey the bound. -/
theorem start_meets (a0 : V3) (A : ℝ) :
    (∃ x c v a, Motion (startProblem a0 A) 1 x c v a ∧ MeetsSamples (startProblem a0 A) (computeDiscretizedTimeFixed [1] 2) c a)
      ↔ ∀ k, |a0 k| ≤ A := by
  have hacc := start_accepted a0 A
  obtain ⟨pts, hpts⟩ := C01_answers (startProblem a0 A).flag hacc.flag (startProblem a0 A).bc 1 (by simp [startProblem])
  have hp : pts = c0_dc0_ddc0.computeConstantWaypoints ⟨0, 0, a0, 0, 0, 0, 0, 0⟩ 1 := by
    simp [computeConstantWaypoints, startProblem] at hpts
    exact hpts.symm
  have hval : ∀ x t, curve (degreeOf (startProblem a0 A).flag) (fill (startProblem a0 A).flag (nth pts) x) 1 t
      = fun k => a0 k / 2 * t ^ 2 * (1 - t) + x k * t ^ 3 := by
    intro x t
    change curve 3 (fill 7#32 (nth pts) x) 1 t = _
    subst hp
    unfold curve bez
    ext k
    simp [Finset.sum_range_succ, fill, freeSlots, nth, c0_dc0_ddc0.computeConstantWaypoints, Nat.choose]
    ring
  have hder : ∀ x v a, Motion (startProblem a0 A) 1 x (curve (degreeOf (startProblem a0 A).flag)
      (fill (startProblem a0 A).flag (nth pts) x) 1) v a → ∀ t, a t = fun k => a0 k * (1 - 3 * t) + x k * (6 * t) := by
    rintro x v a ⟨-, -, -, hv, ha⟩
    rw [funext (hval x)] at hv
    have e1 : v = fun t k => a0 k / 2 * (2 * t - 3 * t ^ 2) + x k * (3 * t ^ 2) := by
      refine deriv_unique hv fun t => ?_
      rw [hasDerivAt_pi]
      intro k
      have d2 := hasDerivAt_pow 2 t
      have d3 := hasDerivAt_pow 3 t
      have := (((d2.sub d3).const_mul (a0 k / 2)).add (d3.const_mul (x k)))
      convert this using 1
      · funext s
        simp
        ring
      · simp
    subst e1
    have e2 : a = fun t k => a0 k * (1 - 3 * t) + x k * (6 * t) := by
      refine deriv_unique ha fun t => ?_
      rw [hasDerivAt_pi]
      intro k
      have d1 := hasDerivAt_id t
      have d2 := hasDerivAt_pow 2 t
      have := ((((d1.const_mul 2).sub (d2.const_mul 3)).const_mul (a0 k / 2)).add ((d2.const_mul 3).const_mul (x k)))
      convert this using 1
      · funext s
        simp
      · simp
        ring
    subst e2
    exact fun _ => rfl
  constructor
  · rintro ⟨x, c, v, a, hm, -, hs⟩ k
    have hm0 := hm
    obtain ⟨pts', hpts', rfl, -, -⟩ := hm
    rw [hpts] at hpts'
    cases hpts'
    have h0 := hs rfl (0, 0) (by simp [computeDiscretizedTimeFixed, fixedOuter, fixedInner]) k
    rw [hder x v a hm0] at h0
    replace h0 : _ ≤ A := h0
    simpa using h0
  · intro h
    obtain ⟨v, a, hm⟩ := motion_exists _ 1 pts hpts hacc.flag one_ne_zero ((1 / 2 : ℝ) • a0)
    refine ⟨_, _, v, a, hm, ?_, ?_⟩
    · intro t q hq
      have hl : Discretisation [1] (computeDiscretizedTimeFixed [1] 2) := Or.inl ⟨2, two_pos, rfl⟩
      have hq' : q < 1 := (hq.lt (hl.tags hacc.ne hacc.pos).1).1
      obtain rfl : q = 0 := by omega
      refine ⟨bareContact, _, rfl, rfl, ?_, ?_⟩
      · intro r hr
        simp at hr
      · simp [KinOk, bareContact]
    · intro _ q _ k
      rw [hder _ v a hm]
      have e : a0 k * (1 - 3 * q.1) + ((1 / 2 : ℝ) • a0) k * (6 * q.1) = a0 k := by
        simp
        ring
      simp only [e]
      exact h k

/-- C109, the limit of the claim. A bound on the acceleration is a bound on each coordinate: there is a problem that
`computeCOMTrajFixedSize` refuses, and solves when the axes are turned about the vertical. -/
theorem C109_acceleration_refuted :
    ∃ R d d', Rotation R ∧ RotatedProblem R d d' ∧ Accepted d [1] ![0, 0, -9.81] ∧
      ∀ lib, LibOk lib → lib.eps = 0 →
        (∀ q ∈ [d, d'], ∀ A b, computeConstraintsOneStep q 1 1 (computeDiscretizedTimeFixed [1] 2) = .ok (A, b) →
          2 ^ A.rows < lib.maxIter) →
        ∃ res res' N, (∀ fuel ≥ N, computeCOMTrajFixedSize lib fuel d [1] 2 = .ok res) ∧
          (∀ fuel ≥ N, computeCOMTrajFixedSize lib fuel d' [1] 2 = .ok res') ∧ res.success = false ∧ res'.success = true := by
  refine ⟨rotZ (3 / 5) (4 / 5) (by norm_num), startProblem ![1, 0, 0] (9 / 10), startProblem _ (9 / 10), rotZ_rotation _ _ _,
    start_rotated _ _ _ _ _, start_accepted _ _, ?_⟩
  intro lib hL he hlim
  have hl : Discretisation [1] (computeDiscretizedTimeFixed [1] 2) := Or.inl ⟨2, two_pos, rfl⟩
  have run : ∀ a0, startProblem a0 (9 / 10) ∈ [startProblem ![1, 0, 0] (9 / 10),
        startProblem (rotZ (3 / 5) (4 / 5) (by norm_num) ![1, 0, 0]) (9 / 10)] →
      ∃ res N, (∀ fuel ≥ N, computeCOMTrajFixedSize lib fuel (startProblem a0 (9 / 10)) [1] 2 = .ok res) ∧
        (res.success = true ↔ ∀ k, |a0 k| ≤ 9 / 10) := by
    intro a0 hP
    obtain ⟨res, N, hrun, -, hv⟩ := C56_fixedSize_partial lib hL he (startProblem a0 (9 / 10)) [1] _ (start_accepted a0 _) rfl
      (by simp [startProblem]) 2 two_pos (Or.inr rfl)
    obtain ⟨A, b, hA, -⟩ := C18_in_bounds_and_complete _ [1] _ (start_accepted a0 (9 / 10)) _ hl
    refine ⟨res, N, hrun, ?_⟩
    rw [← start_meets a0 (9 / 10)]
    have hs : ([1] : List ℝ).sum = 1 := by simp
    rw [hs] at hv hA
    constructor
    · intro hr
      obtain ⟨v, a, q1, q2, -⟩ := hv.found hr
      exact ⟨_, _, v, a, q1, q2⟩
    · rintro ⟨x, c, v, a, q1, q2⟩
      by_contra hn
      rw [Bool.not_eq_true] at hn
      rcases hv.none hn with h | h
      · exact absurd (h A b hA) (not_le.mpr (hlim _ hP A b hA))
      · exact h _ _ _ _ q1 q2
  obtain ⟨res, N, q1, q2⟩ := run _ List.mem_cons_self
  obtain ⟨res', N', r1, r2⟩ := run _ (List.mem_cons_of_mem _ List.mem_cons_self)
  refine ⟨res, res', max N N', fun fuel hf => q1 fuel (le_trans (le_max_left _ _) hf),
    fun fuel hf => r1 fuel (le_trans (le_max_right _ _) hf), ?_, r2.mpr ?_⟩
  · rw [← Bool.not_eq_true, q2]
    intro h
    have := h 0
    norm_num at this
  · intro k
    fin_cases k <;> simp [rotZ_apply] <;> norm_num [abs_le]

/-- The hypotheses of `C109_fixedSize` are met by a problem with a row, kinematic constraints and the default margin. -/
example : Rotation (rotZ (3 / 5) (4 / 5) (by norm_num)) ∧
    RotatedProblem (rotZ (3 / 5) (4 / 5) (by norm_num)) (pinnedProblem 1 (1 / 1000))
      ((pinnedProblem 1 (1 / 1000)).rotate (rotZ (3 / 5) (4 / 5) (by norm_num))) ∧
    Accepted (pinnedProblem 1 (1 / 1000)) [1] ![0, 0, -9.81] ∧ (pinnedProblem 1 (1 / 1000)).constraintAcceleration = false := by
  refine ⟨rotZ_rotation _ _ _, ProblemData.rotated _ _ ?_, pinned_accepted _ _, rfl⟩
  intro ct hct
  simp only [pinnedProblem, stillProblem, List.mem_singleton] at hct
  subst hct
  simp [pinned]

/-- Another mass, other scales of the rows: the same problem. -/
example (e : Equilibrium) (s μ : ℝ) (hs : 0 < s) (hμ : 0 < μ) : RotatedEquilibrium (LinearEquiv.refl ℝ V3) e
    { e with mass := s * e.mass, poly := e.poly.map fun r => ((μ • r.1.1, μ • r.1.2), r.2) } := by
  refine ⟨⟨s, hs, rfl⟩, rfl, rfl, ?_⟩
  dsimp only
  rw [List.forall₂_map_right_iff, List.forall₂_same]
  exact fun r _ => ⟨rfl, μ, hμ, rfl⟩

end Verif
