import Verif.Props.C24
import Verif.Props.C56Tol

/-!
# C108: the samples planner and translations of the frame

The constraints are homogeneous, so nothing should depend on where the origin of the frame is.
-/

namespace Verif
open Matrix

/-! ## The same problem seen from another origin -/

/-- The boundary conditions with the positions moved by `p`. -/
def BC.translate (d : BC) (p : V3) : BC := { d with c0 := d.c0 + p, c1 := d.c1 + p }

/-- The cone of wrenches of a phase for another origin: `(f, τ)` is in the cone of `e` exactly when `(f, τ + p × f)` is
in the cone of `e'`. The rows may have any positive scale. -/
structure MovedEquilibrium (p : V3) (e e' : Equilibrium) : Prop where
  mass : e'.mass = e.mass
  gravity : e'.gravity = e.gravity
  polyOk : e'.polyOk = e.polyOk
  poly : List.Forall₂ (fun r r' => r.2 = 0 ∧ r'.2 = 0 ∧ ∃ μ : ℝ, 0 < μ ∧ r'.1 = (μ • (r.1.1 + cr p r.1.2), μ • r.1.2))
    e.poly e'.poly

/-- A contact phase for another origin: the cone and the reachable polytope are moved. -/
structure MovedContact (p : V3) (ct ct' : ContactData) : Prop where
  phase : ∃ e e', ct.contactPhase = some e ∧ ct'.contactPhase = some e' ∧ MovedEquilibrium p e e'
  Kin : ct'.Kin = ct.Kin
  kin : ct'.kin = List.zipWith (fun K k => k + dot K p) ct.Kin ct.kin
  len : ct.kin ≠ [] → ct.Kin.length = ct.kin.length

/-- The same problem with the origin moved. -/
structure MovedProblem (p : V3) (d d' : ProblemData) : Prop where
  contacts : List.Forall₂ (MovedContact p) d.contacts d'.contacts
  bc : d'.bc = d.bc.translate p
  flag : d'.flag = d.flag
  acc : d'.constraintAcceleration = d.constraintAcceleration
  maxAcc : d'.maxAcceleration = d.maxAcceleration
  margin : d'.reduce_h = d.reduce_h
  cost : d'.costFunction = d.costFunction
  repr : d'.representation = d.representation

/-! ## The motion -/

theorem fill_translate (flag : Flag) (hf : flag ∈ comFlags) (d : BC) (T : ℝ) (p x : V3) (pts pts' : List V3)
    (h : computeConstantWaypoints flag d T = .ok pts) (h' : computeConstantWaypoints flag (d.translate p) T = .ok pts')
    (i : ℕ) (hi : i ≤ degreeOf flag) :
    fill flag (nth pts') (x + p) i = fill flag (nth pts) x i + p := by
  simp only [comFlags, List.mem_cons, List.not_mem_nil, or_false] at hf
  rcases hf with rfl | rfl | rfl | rfl | rfl | rfl | rfl
  · simp [computeConstantWaypoints] at h h'
    subst h h'
    replace hi : i ≤ 3 := hi
    interval_cases i <;> ext k <;>
      simp [fill, freeSlots, nth, c0_dc0_c1.computeConstantWaypoints, BC.translate] <;> ring
  · by_cases hd : d.dc1 = 0 <;> simp [computeConstantWaypoints, hd, BC.translate] at h h'
    subst h h'
    replace hi : i ≤ 3 := hi
    interval_cases i <;> ext k <;>
      simp [fill, freeSlots, nth, c0_dc0_dc1.computeConstantWaypoints, BC.translate] <;> ring
  · simp [computeConstantWaypoints] at h h'
    subst h h'
    replace hi : i ≤ 4 := hi
    interval_cases i <;> ext k <;>
      simp [fill, freeSlots, nth, c0_dc0_dc1_c1.computeConstantWaypoints, BC.translate] <;> ring
  · simp [computeConstantWaypoints] at h h'
    subst h h'
    replace hi : i ≤ 3 := hi
    interval_cases i <;> ext k <;>
      simp [fill, freeSlots, nth, c0_dc0_ddc0.computeConstantWaypoints, BC.translate] <;> ring
  · simp [computeConstantWaypoints] at h h'
    subst h h'
    replace hi : i ≤ 4 := hi
    interval_cases i <;> ext k <;>
      simp [fill, freeSlots, nth, c0_dc0_ddc0_c1.computeConstantWaypoints, BC.translate] <;> ring
  · simp [computeConstantWaypoints] at h h'
    subst h h'
    replace hi : i ≤ 5 := hi
    interval_cases i <;> ext k <;>
      simp [fill, freeSlots, nth, c0_dc0_ddc0_dc1_c1.computeConstantWaypoints, BC.translate] <;> ring
  · simp [computeConstantWaypoints] at h h'
    subst h h'
    replace hi : i ≤ 6 := hi
    interval_cases i <;> ext k <;>
      simp [fill, freeSlots, nth, c0_dc0_ddc0_ddc1_dc1_c1.computeConstantWaypoints, BC.translate] <;> ring

theorem bez_translate (n : ℕ) (P P' : ℕ → V3) (p : V3) (h : ∀ i ≤ n, P' i = P i + p) (t : ℝ) :
    bez n P' t = bez n P t + p := by
  rw [bez_congr h, bez_add n P (fun _ => p), bez_const]

/-- The motion of the moved problem at the moved point is the moved motion. -/
theorem curve_translate (flag : Flag) (hf : flag ∈ comFlags) (d : BC) (T : ℝ) (p x : V3) (pts pts' : List V3)
    (h : computeConstantWaypoints flag d T = .ok pts) (h' : computeConstantWaypoints flag (d.translate p) T = .ok pts')
    (t : ℝ) :
    curve (degreeOf flag) (fill flag (nth pts') (x + p)) T t = curve (degreeOf flag) (fill flag (nth pts) x) T t + p :=
  bez_translate _ _ _ p (fill_translate flag hf d T p x pts pts' h h') _

/-! ## The constraints -/

theorem MovedEquilibrium.good {p : V3} {e e' : Equilibrium} (h : MovedEquilibrium p e e') (hr : ∀ r ∈ e.poly, r.1 ≠ 0) :
    ∀ r ∈ e'.poly, r.1 ≠ 0 := by
  intro r' hr'
  obtain ⟨i, hi⟩ := List.mem_iff_getElem?.mp hr'
  obtain ⟨hl, H⟩ := List.forall₂_iff_get.mp h.poly
  obtain ⟨hi', hri⟩ := List.getElem?_eq_some_iff.mp hi
  obtain ⟨-, -, μ, hμ, he⟩ := H i (by omega) hi'
  simp only [List.get_eq_getElem, hri] at he
  intro h0
  rw [he] at h0
  have h2 := congrArg Prod.snd h0
  have h1 := congrArg Prod.fst h0
  simp only [Prod.snd_zero, Prod.fst_zero, smul_eq_zero, hμ.ne', false_or] at h1 h2
  have e2 : (e.poly[i]'(by omega)).1.2 = 0 := h2
  rw [h2] at h1
  simp only [cr, map_zero, add_zero] at h1
  exact hr _ (List.getElem_mem (by omega)) (Prod.ext h1 h2)

theorem moved_row (p c a g : V3) (m μ : ℝ) (u v : V3) :
    dot (μ • (u + cr p v)) (m • (g - a)) + dot (μ • v) (m • cr (c + p) (g - a))
      = μ * (dot u (m • (g - a)) + dot v (m • cr c (g - a))) := by
  simp [dot, cr, cross_apply, vecHead, vecTail]
  ring

theorem MovedEquilibrium.cone {p : V3} {e e' : Equilibrium} (h : MovedEquilibrium p e e') (g c a : V3) :
    (∀ r ∈ e'.poly, dot r.1.1 (e'.mass • (g - a)) + dot r.1.2 (e'.mass • cr (c + p) (g - a)) ≤ 0) ↔
      ∀ r ∈ e.poly, dot r.1.1 (e.mass • (g - a)) + dot r.1.2 (e.mass • cr c (g - a)) ≤ 0 := by
  rw [h.mass]
  have hp := h.poly
  generalize e.poly = L at hp
  generalize e'.poly = L' at hp
  induction hp with
  | nil => simp
  | @cons r r' l l' hr _ ih =>
    obtain ⟨-, -, μ, hμ, he⟩ := hr
    rw [List.forall_mem_cons, List.forall_mem_cons, he]
    refine and_congr ?_ ih
    dsimp only
    rw [moved_row]
    constructor
    · intro h; by_contra h'; push Not at h'; nlinarith [mul_pos hμ h']
    · intro h; nlinarith

theorem MovedContact.kinOk {p : V3} {ct ct' : ContactData} (h : MovedContact p ct ct') (c : V3) :
    KinOk ct' (c + p) ↔ KinOk ct c := by
  unfold KinOk
  rw [h.Kin, h.kin]
  generalize ct.Kin = K
  generalize ct.kin = k
  induction K generalizing k with
  | nil => simp
  | cons a K ih =>
    cases k with
    | nil => simp
    | cons b k =>
      simp only [List.zipWith_cons_cons, List.zip_cons_cons, List.forall_mem_cons, ih]
      refine and_congr_left fun _ => ?_
      have : dot a (c + p) = dot a c + dot a p := by simp [dot]; ring
      rw [this]
      exact add_le_add_iff_right _

theorem MovedProblem.at {p : V3} {d d' : ProblemData} (h : MovedProblem p d d') (i : ℕ) (ct : ContactData)
    (hc : d.contacts[i]? = some ct) : ∃ ct', d'.contacts[i]? = some ct' ∧ MovedContact p ct ct' := by
  obtain ⟨hl, H⟩ := List.forall₂_iff_get.mp h.contacts
  obtain ⟨hi, rfl⟩ := List.getElem?_eq_some_iff.mp hc
  exact ⟨_, List.getElem?_eq_getElem (by omega), H i hi (by omega)⟩

theorem MovedProblem.back {p : V3} {d d' : ProblemData} (h : MovedProblem p d d') (i : ℕ) (ct' : ContactData)
    (hc : d'.contacts[i]? = some ct') : ∃ ct, d.contacts[i]? = some ct ∧ MovedContact p ct ct' := by
  obtain ⟨hl, H⟩ := List.forall₂_iff_get.mp h.contacts
  obtain ⟨hi, rfl⟩ := List.getElem?_eq_some_iff.mp hc
  exact ⟨_, List.getElem?_eq_getElem (by omega), H i (by omega) hi⟩

/-- The moved problem is accepted when the problem is. -/
theorem MovedProblem.accepted {p : V3} {d d' : ProblemData} (h : MovedProblem p d d') {Ts : List ℝ} {g : V3}
    (ha : Accepted d Ts g) : Accepted d' Ts g := by
  refine ⟨ha.size.trans h.contacts.length_eq, ha.ne, ha.pos, ?_, h.flag ▸ ha.flag, fun hf => ?_⟩
  · intro ct' hct'
    obtain ⟨i, hi⟩ := List.mem_iff_getElem?.mp hct'
    obtain ⟨ct, hct, hm⟩ := h.back i ct' hi
    obtain ⟨e0, hg, hgr⟩ := ha.good ct (List.mem_of_getElem? hct)
    obtain ⟨e, e', he, he', hme⟩ := hm.phase
    rw [hg.1] at he
    cases he
    refine ⟨e', ⟨he', by rw [hme.polyOk]; exact hg.2.1, by rw [hme.mass]; exact hg.2.2.1, hme.good hg.2.2.2.1, ?_⟩,
      by rw [hme.gravity, hgr]⟩
    intro hk
    rw [hm.kin] at hk ⊢
    rw [hm.Kin, List.length_zipWith]
    have : ct.kin ≠ [] := by rintro h0; rw [h0] at hk; simp at hk
    rw [hm.len this]
    simp
  · rw [h.bc]
    exact ha.capt (h.flag ▸ hf)

theorem MovedProblem.atPhase {p : V3} {d d' : ProblemData} (h : MovedProblem p d d') (i : ℕ) (g c a : V3) :
    (AtPhase d'.contacts i fun ct e =>
      (∀ r ∈ e.poly, dot r.1.1 (e.mass • (g - a)) + dot r.1.2 (e.mass • cr (c + p) (g - a)) ≤ 0) ∧ KinOk ct (c + p)) ↔
    AtPhase d.contacts i fun ct e =>
      (∀ r ∈ e.poly, dot r.1.1 (e.mass • (g - a)) + dot r.1.2 (e.mass • cr c (g - a)) ≤ 0) ∧ KinOk ct c := by
  constructor
  · rintro ⟨ct', e', h1, h2, h3, h4⟩
    obtain ⟨ct, hct, hm⟩ := h.back i ct' h1
    obtain ⟨e, e1, he, he', hme⟩ := hm.phase
    rw [h2] at he'
    cases he'
    exact ⟨ct, e, hct, he, (hme.cone g c a).mp h3, (hm.kinOk c).mp h4⟩
  · rintro ⟨ct, e, h1, h2, h3, h4⟩
    obtain ⟨ct', hct, hm⟩ := h.at i ct h1
    obtain ⟨e1, e', he, he', hme⟩ := hm.phase
    rw [h2] at he
    cases he
    exact ⟨ct', e', hct, he', (hme.cone g c a).mpr h3, (hm.kinOk c).mpr h4⟩

theorem MovedProblem.homogeneous {p : V3} {d d' : ProblemData} (h : MovedProblem p d d') :
    (∀ ct ∈ d.contacts, ∀ e, ct.contactPhase = some e → ∀ r ∈ e.poly, r.2 = 0) ∧
      ∀ ct ∈ d'.contacts, ∀ e, ct.contactPhase = some e → ∀ r ∈ e.poly, r.2 = 0 := by
  have key : ∀ {e e' : Equilibrium}, MovedEquilibrium p e e' → (∀ r ∈ e.poly, r.2 = 0) ∧ ∀ r ∈ e'.poly, r.2 = 0 := by
    intro e e' hm
    have hp := hm.poly
    generalize e.poly = L at hp
    generalize e'.poly = L' at hp
    induction hp with
    | nil => simp
    | cons hr _ ih =>
      rw [List.forall_mem_cons, List.forall_mem_cons]
      exact ⟨⟨hr.1, ih.1⟩, hr.2.1, ih.2⟩
  constructor
  · intro ct hct e he
    obtain ⟨i, hi⟩ := List.mem_iff_getElem?.mp hct
    obtain ⟨ct', -, hm⟩ := h.at i ct hi
    obtain ⟨e1, e', he1, -, hme⟩ := hm.phase
    rw [he] at he1
    cases he1
    exact (key hme).1
  · intro ct' hct e' he'
    obtain ⟨i, hi⟩ := List.mem_iff_getElem?.mp hct
    obtain ⟨ct, -, hm⟩ := h.back i ct' hi
    obtain ⟨e, e1, -, he1, hme⟩ := hm.phase
    rw [he'] at he1
    cases he1
    exact (key hme).2

/-- C108. Without a margin the constraints do not depend on the origin of the frame: a point is feasible for the problem
exactly when the moved point is feasible for the moved problem, and its motion is the moved motion (five exact sets). -/
theorem C108_feasible (p : V3) (d d' : ProblemData) (hm : MovedProblem p d d') (Ts : List ℝ) (g : V3) (h : Accepted d Ts g)
    (hf : d.flag ∈ [11#32, 19#32, 27#32, 7#32, 15#32]) (hρ : d.reduce_h ≤ 0) (l : TTime) (hl : Discretisation Ts l)
    (x : V3) :
    (Feasible d' Ts l (x + p) ↔ Feasible d Ts l x) ∧
      ∃ pts pts', computeConstantWaypoints d.flag d.bc Ts.sum = .ok pts ∧
        computeConstantWaypoints d'.flag d'.bc Ts.sum = .ok pts' ∧
        ∀ t, curve (degreeOf d'.flag) (fill d'.flag (nth pts') (x + p)) Ts.sum t
          = curve (degreeOf d.flag) (fill d.flag (nth pts) x) Ts.sum t + p := by
  have h' := hm.accepted h
  obtain ⟨z1, z2⟩ := hm.homogeneous
  obtain ⟨A, b, hA, -⟩ := C18_in_bounds_and_complete d Ts g h l hl
  obtain ⟨A', b', hA', -⟩ := C18_in_bounds_and_complete d' Ts g h' l hl
  obtain ⟨pts, hpts, H⟩ := C24_cone d Ts g h hf hρ z1 l hl A b hA
  obtain ⟨pts', hpts', H'⟩ := C24_cone d' Ts g h' (hm.flag ▸ hf) (hm.margin ▸ hρ) z2 l hl A' b' hA'
  have hc : ∀ t, curve (degreeOf d'.flag) (fill d'.flag (nth pts') (x + p)) Ts.sum t
      = curve (degreeOf d.flag) (fill d.flag (nth pts) x) Ts.sum t + p := by
    rw [hm.flag, hm.bc] at hpts'
    rw [hm.flag]
    exact curve_translate d.flag h.flag d.bc Ts.sum p x pts pts' hpts hpts'
  refine ⟨?_, pts, pts', hpts, hpts', hc⟩
  obtain ⟨v, a, hv, ha, hiff⟩ := H x
  obtain ⟨v', a', hv', ha', hiff'⟩ := H' (x + p)
  have hv2 : IsDeriv (curve (degreeOf d'.flag) (fill d'.flag (nth pts') (x + p)) Ts.sum) v := by
    rw [funext hc]
    exact fun s => (hv s).add_const p
  have e1 := deriv_unique hv' hv2
  subst e1
  have e2 := deriv_unique ha' ha
  subst e2
  have f1 : Feasible d Ts l x ↔ Sat A b (ext3 x) := by
    unfold Feasible
    rw [hA]
    exact ⟨fun ⟨_, _, q, r⟩ => by cases q; exact r, fun q => ⟨_, _, rfl, q⟩⟩
  have f2 : Feasible d' Ts l (x + p) ↔ Sat A' b' (ext3 (x + p)) := by
    unfold Feasible
    rw [hA']
    exact ⟨fun ⟨_, _, q, r⟩ => by cases q; exact r, fun q => ⟨_, _, rfl, q⟩⟩
  rw [f1, f2, hiff, hiff', hm.acc, hm.maxAcc]
  refine and_congr_left fun _ => forall₂_congr fun t i => imp_congr_right fun _ => ?_
  rw [hc]
  exact hm.atPhase i g _ _

/-! ## The planners -/

theorem MovedProblem.meets {p : V3} {d d' : ProblemData} (h : MovedProblem p d d') (hρ : d.reduce_h ≤ 0) (l : TTime)
    (c a : ℝ → V3) : MeetsSamples d' l (fun t => c t + p) a ↔ MeetsSamples d l c a := by
  obtain ⟨z1, z2⟩ := h.homogeneous
  unfold MeetsSamples
  rw [h.acc, h.maxAcc, h.margin]
  refine and_congr_left fun _ => forall₂_congr fun t i => imp_congr_right fun _ => ?_
  constructor
  · rintro ⟨ct', e', h1, h2, h3, h4⟩
    obtain ⟨ct, hct, hm⟩ := h.back i ct' h1
    obtain ⟨e, e1, he, he', hme⟩ := hm.phase
    rw [h2] at he'
    cases he'
    refine ⟨ct, e, hct, he, ?_, (hm.kinOk (c t)).mp h4⟩
    rw [wrenchOk_cone e' _ hρ (z2 ct' (List.mem_of_getElem? h1) e' h2), hme.gravity] at h3
    rw [wrenchOk_cone e _ hρ (z1 ct (List.mem_of_getElem? hct) e he)]
    exact (hme.cone _ _ _).mp h3
  · rintro ⟨ct, e, h1, h2, h3, h4⟩
    obtain ⟨ct', hct, hm⟩ := h.at i ct h1
    obtain ⟨e1, e', he, he', hme⟩ := hm.phase
    rw [h2] at he
    cases he
    refine ⟨ct', e', hct, he', ?_, (hm.kinOk (c t)).mpr h4⟩
    rw [wrenchOk_cone e _ hρ (z1 ct (List.mem_of_getElem? h1) e h2)] at h3
    rw [wrenchOk_cone e' _ hρ (z2 ct' (List.mem_of_getElem? hct) e' he'), hme.gravity]
    exact (hme.cone _ _ _).mpr h3

theorem MovedProblem.motion {p : V3} {d d' : ProblemData} (h : MovedProblem p d d') (hf : d.flag ∈ comFlags)
    (h0 : d.flag = 19#32 → d.bc.dc1 = 0) (T : ℝ) (x : V3) (c v a : ℝ → V3) :
    Motion d T x c v a ↔ Motion d' T (x + p) (fun t => c t + p) v a := by
  obtain ⟨pts, hpts⟩ := C01_answers d.flag hf d.bc T h0
  obtain ⟨pts', hpts'⟩ := C01_answers d.flag hf (d.bc.translate p) T h0
  have hc : curve (degreeOf d.flag) (fill d.flag (nth pts') (x + p)) T
      = fun t => curve (degreeOf d.flag) (fill d.flag (nth pts) x) T t + p :=
    funext (curve_translate d.flag hf d.bc T p x pts pts' hpts hpts')
  unfold Motion
  rw [h.flag, h.bc, hpts, hpts']
  constructor
  · rintro ⟨q, hq, h1, hv, ha⟩
    cases hq
    subst h1
    exact ⟨_, rfl, hc.symm, fun s => (hv s).add_const p, ha⟩
  · rintro ⟨q, hq, h1, hv, ha⟩
    cases hq
    have h2 : c = curve (degreeOf d.flag) (fill d.flag (nth pts) x) T := by
      rw [hc] at h1
      funext t
      exact add_right_cancel (congrFun h1 t)
    refine ⟨_, rfl, h2, fun s => ?_, ha⟩
    have := (hv s).add_const (-p)
    simpa using this

theorem MovedProblem.motionCost {p : V3} {d d' : ProblemData} (h : MovedProblem p d d') (l : TTime) (x : V3) (a : ℝ → V3) :
    motionCost d' l (x + p) a = motionCost d l x a := by
  unfold Verif.motionCost
  rw [h.cost, h.bc]
  split_ifs
  · rfl
  · have : x + p - (1 / 2 : ℝ) • ((d.bc.translate p).c0 + (d.bc.translate p).c1)
        = x - (1 / 2 : ℝ) • (d.bc.c0 + d.bc.c1) := by
      ext k
      simp [BC.translate]
      ring
    rw [this]

/-- The motion that a planner on samples looks for is unique. -/
theorem C108_unique (d : ProblemData) (Ts : List ℝ) (g : V3) (h : Accepted d Ts g)
    (hf : d.flag ∈ [11#32, 19#32, 27#32, 7#32, 15#32]) (l : TTime) (hl : Discretisation Ts l)
    (hc : d.costFunction = DISTANCE_TRAVELED ∨ d.costFunction = ACCELERATION)
    (x c v a x' c' v' a') (hm : Motion d Ts.sum x c v a) (hm' : Motion d Ts.sum x' c' v' a')
    (hs : MeetsSamples d l c a) (hs' : MeetsSamples d l c' a')
    (hmin : ∀ y cy vy ay, Motion d Ts.sum y cy vy ay → MeetsSamples d l cy ay → motionCost d l x a ≤ motionCost d l y ay)
    (hmin' : ∀ y cy vy ay, Motion d Ts.sum y cy vy ay → MeetsSamples d l cy ay → motionCost d l x' a' ≤ motionCost d l y ay) :
    x' = x := by
  obtain ⟨k, R, hk, hsc⟩ := C56_scale_exists d Ts g h hf l hl hc
  obtain ⟨A, b, hA, hcols, -⟩ := C18_in_bounds_and_complete d Ts g h l hl
  obtain ⟨pts, hpts, H⟩ := C19_physical d Ts g h hf l hl A b hA
  have key : ∀ x c v a, Motion d Ts.sum x c v a → (Sat A b (ext3 x) ↔ MeetsSamples d l c a) := by
    rintro x c v a ⟨pts', hpts', rfl, hv, ha⟩
    rw [hpts] at hpts'
    cases hpts'
    obtain ⟨v', a', hv', ha', hiff⟩ := H x
    have e1 := deriv_unique hv hv'
    subst e1
    have e2 := deriv_unique ha ha'
    subst e2
    exact hiff
  obtain ⟨v'', a'', hm''⟩ := motion_exists d Ts.sum pts hpts h.flag h.total.ne' ((1 / 2 : ℝ) • (x + x'))
  have hmid : Sat A b (ext3 ((1 / 2 : ℝ) • (x + x'))) := by
    have s1 := (key _ _ _ _ hm).mpr hs
    have s2 := (key _ _ _ _ hm').mpr hs'
    intro r hr
    have e : ∑ q ∈ Finset.range A.cols, A.e r q * ext3 ((1 / 2 : ℝ) • (x + x')) q
        = 1 / 2 * ∑ q ∈ Finset.range A.cols, A.e r q * ext3 x q + 1 / 2 * ∑ q ∈ Finset.range A.cols, A.e r q * ext3 x' q := by
      rw [Finset.mul_sum, Finset.mul_sum, ← Finset.sum_add_distrib]
      refine Finset.sum_congr rfl fun q _ => ?_
      unfold ext3
      split_ifs
      · simp only [Pi.smul_apply, Pi.add_apply, smul_eq_mul]; ring
      · ring
    rw [e]
    have := s1 r hr
    have := s2 r hr
    linarith
  have hms := (key _ _ _ _ hm'').mp hmid
  have c1 := hmin _ _ _ _ hm'' hms
  have c2 := hmin' _ _ _ _ hm'' hms
  have c3 := hsc.curv _ _ _ _ _ _ _ _ _ _ _ hm hm' hm''
  have c4 : dot (x - x') (x - x') ≤ 0 := by
    by_contra hn
    push Not at hn
    nlinarith [mul_pos hk hn]
  have e : ∀ i, x i = x' i := by
    intro i
    have q0 := mul_self_nonneg ((x - x') 0)
    have q1 := mul_self_nonneg ((x - x') 1)
    have q2 := mul_self_nonneg ((x - x') 2)
    unfold dot at c4
    have : (x - x') i * (x - x') i ≤ 0 := by fin_cases i <;> simp only [Fin.reduceFinMk, Fin.zero_eta, Fin.isValue] <;> linarith
    have := mul_self_eq_zero.mp (le_antisymm this (mul_self_nonneg _))
    simpa [sub_eq_zero] using this
  exact (funext e).symm

/-- The results of two calls, the second one for the moved problem. -/
structure MovedResult (p : V3) (res res' : ResultDataCOMTraj) : Prop where
  success : res'.success = res.success
  point : res.success = true → res'.point = res.point + p
  curve : res.success = true → ∀ t, res'.c_of_t.eval t = res.c_of_t.eval t + p

theorem MovedProblem.verdict {p : V3} {d d' : ProblemData} (hm : MovedProblem p d d') {Ts : List ℝ} {g : V3} (h : Accepted d Ts g)
    (hf : d.flag ∈ [11#32, 19#32, 27#32, 7#32, 15#32]) (hρ : d.reduce_h ≤ 0) {l : TTime} (hl : Discretisation Ts l)
    (hc : d.costFunction = DISTANCE_TRAVELED ∨ d.costFunction = ACCELERATION)
    {lim lim' : Prop} (h1 : ¬ lim) (h2 : ¬ lim') {res res' : ResultDataCOMTraj} (hv : Verdict d Ts.sum l lim res)
    (hv' : Verdict d' Ts.sum l lim' res') : MovedResult p res res' := by
  have back : ∀ y cy vy ay, Motion d' Ts.sum y cy vy ay → MeetsSamples d' l cy ay →
      Motion d Ts.sum (y - p) (fun t => cy t - p) vy ay ∧ MeetsSamples d l (fun t => cy t - p) ay := by
    intro y cy vy ay q1 q2
    constructor
    · rw [hm.motion h.flag h.capt]
      simpa using q1
    · rw [← hm.meets hρ]
      simpa using q2
  have hsucc : res'.success = res.success := by
    cases hr : res.success with
    | true =>
      by_contra hn
      rw [Bool.not_eq_true] at hn
      obtain ⟨v, a, q1, q2, -⟩ := hv.found hr
      exact ((hv'.none hn).resolve_left h2) _ _ _ _ ((hm.motion h.flag h.capt _ _ _ _ _).mp q1) ((hm.meets hρ l _ _).mpr q2)
    | false =>
      by_contra hn
      rw [Bool.not_eq_false] at hn
      obtain ⟨v, a, q1, q2, -⟩ := hv'.found hn
      obtain ⟨b1, b2⟩ := back _ _ _ _ q1 q2
      exact ((hv.none hr).resolve_left h1) _ _ _ _ b1 b2
  have main : res.success = true → res'.point = res.point + p ∧ ∀ t, res'.c_of_t.eval t = res.c_of_t.eval t + p := by
    intro hr
    obtain ⟨v, a, q1, q2, q3⟩ := hv.found hr
    obtain ⟨v', a', r1, r2, r3⟩ := hv'.found (hsucc.trans hr)
    obtain ⟨b1, b2⟩ := back _ _ _ _ r1 r2
    have hx : res'.point - p = res.point := by
      refine C108_unique d Ts g h hf l hl hc _ _ _ _ _ _ _ _ q1 b1 q2 b2 q3 fun y cy vy ay y1 y2 => ?_
      have := r3 _ _ _ _ ((hm.motion h.flag h.capt _ _ _ _ _).mp y1) ((hm.meets hρ l _ _).mpr y2)
      rw [hm.motionCost] at this
      have e := hm.motionCost l (res'.point - p) a'
      rw [sub_add_cancel] at e
      rw [← e]
      exact this
    refine ⟨by rw [← hx, sub_add_cancel], fun t => ?_⟩
    rw [hx] at b1
    have := congrFun (motion_unique q1 b1).1 t
    rw [← this, sub_add_cancel]
  exact ⟨hsucc, fun hr => (main hr).1, fun hr => (main hr).2⟩

/-- C108, `computeCOMTrajFixedSize`. In exact arithmetic and without a margin the plan does not depend on the origin of
the frame: for the moved problem the planner gives the same verdict, and the moved motion. -/
theorem C108_fixedSize (lib : Lib) (hL : LibOk lib) (he : lib.eps = 0) (p : V3) (d d' : ProblemData) (hm : MovedProblem p d d')
    (Ts : List ℝ) (g : V3) (h : Accepted d Ts g) (hr : d.representation = DOUBLE_DESCRIPTION)
    (hf : d.flag ∈ [11#32, 19#32, 27#32, 7#32, 15#32]) (hρ : d.reduce_h ≤ 0) (n : ℕ) (hn : 0 < n)
    (hc : d.costFunction = DISTANCE_TRAVELED ∨ d.costFunction = ACCELERATION)
    (hlim : ∀ q ∈ [d, d'], ∀ A b, computeConstraintsOneStep q Ts.length Ts.sum (computeDiscretizedTimeFixed Ts n) = .ok (A, b) →
      2 ^ A.rows < lib.maxIter) :
    ∃ res res' N, (∀ fuel ≥ N, computeCOMTrajFixedSize lib fuel d Ts n = .ok res) ∧
      (∀ fuel ≥ N, computeCOMTrajFixedSize lib fuel d' Ts n = .ok res') ∧ MovedResult p res res' := by
  have h' := hm.accepted h
  have hl : Discretisation Ts (computeDiscretizedTimeFixed Ts n) := Or.inl ⟨n, hn, rfl⟩
  obtain ⟨res, N, hrun, -, hv⟩ := C56_fixedSize_partial lib hL he d Ts g h hr hf n hn hc
  obtain ⟨res', N', hrun', -, hv'⟩ := C56_fixedSize_partial lib hL he d' Ts g h' (hm.repr.trans hr) (hm.flag ▸ hf) n hn
    (by rw [hm.cost]; exact hc)
  obtain ⟨A, b, hA, -⟩ := C18_in_bounds_and_complete d Ts g h _ hl
  obtain ⟨A', b', hA', -⟩ := C18_in_bounds_and_complete d' Ts g h' _ hl
  refine ⟨res, res', max N N', fun fuel hfuel => hrun fuel (le_trans (le_max_left _ _) hfuel),
    fun fuel hfuel => hrun' fuel (le_trans (le_max_right _ _) hfuel), hm.verdict h hf hρ hl hc ?_ ?_ hv hv'⟩
  · intro q
    exact absurd (q A b hA) (not_le.mpr (hlim d (by simp) A b hA))
  · intro q
    exact absurd (q A' b' hA') (not_le.mpr (hlim d' (by simp) A' b' hA'))

/-- C108, `computeCOMTraj` with a time step at most half of every phase. -/
theorem C108_timeStep (κ : ℝ) (lib : Lib) (hL : LibOk lib) (he : lib.eps = 0) (p : V3) (d d' : ProblemData)
    (hm : MovedProblem p d d') (Ts : List ℝ) (g : V3) (h : Accepted d Ts g) (hr : d.representation = DOUBLE_DESCRIPTION)
    (hf : d.flag ∈ [11#32, 19#32, 27#32, 7#32, 15#32]) (hρ : d.reduce_h ≤ 0) (step : ℝ) (hstep : 0 < step)
    (hshort : ∀ T ∈ Ts, step * 2 ≤ T)
    (hc : d.costFunction = DISTANCE_TRAVELED ∨ d.costFunction = ACCELERATION)
    (hlim : ∀ q ∈ [d, d'], ∀ l A b, Discretisation Ts l → computeConstraintsOneStep q Ts.length Ts.sum l = .ok (A, b) →
      (∃ fuel, computeDiscretizedTime Ts step fuel = .ok l) → 2 ^ A.rows < lib.maxIter) :
    ∃ res res' N, (∀ fuel ≥ N, computeCOMTraj κ lib fuel d Ts step SOLVER_QUADPROG = .ok res) ∧
      (∀ fuel ≥ N, computeCOMTraj κ lib fuel d' Ts step SOLVER_QUADPROG = .ok res') ∧ MovedResult p res res' := by
  have h' := hm.accepted h
  obtain ⟨l, res, N, hl, hdisc, hrun, -, hv⟩ := C56_timeStep_partial κ lib hL he d Ts g h hr hf step hstep hshort hc
  obtain ⟨l', res', N', hl', hdisc', hrun', -, hv'⟩ := C56_timeStep_partial κ lib hL he d' Ts g h' (hm.repr.trans hr)
    (hm.flag ▸ hf) step hstep hshort (by rw [hm.cost]; exact hc)
  have hll : l' = l := by
    have a1 := hdisc (max N N') (le_max_left _ _)
    have a2 := hdisc' (max N N') (le_max_right _ _)
    rw [a1] at a2
    cases a2
    rfl
  subst hll
  obtain ⟨A, b, hA, -⟩ := C18_in_bounds_and_complete d Ts g h _ hl
  obtain ⟨A', b', hA', -⟩ := C18_in_bounds_and_complete d' Ts g h' _ hl
  refine ⟨res, res', max N N', fun fuel hfuel => hrun fuel (le_trans (le_max_left _ _) hfuel),
    fun fuel hfuel => hrun' fuel (le_trans (le_max_right _ _) hfuel), hm.verdict h hf hρ hl hc ?_ ?_ hv hv'⟩
  · intro q
    exact absurd (q A b hA) (not_le.mpr (hlim d (by simp) _ A b hl hA ⟨N, hdisc N le_rfl⟩))
  · intro q
    exact absurd (q A' b' hA') (not_le.mpr (hlim d' (by simp) _ A' b' hl hA' ⟨N, hdisc N le_rfl⟩))

/-! ## With a margin the origin of the frame matters -/

/-- One phase of a robot of mass 1 that has to stay at the point `P` of the x axis; the cone of wrenches has one row. -/
noncomputable def pinned (P : ℝ) : ContactData :=
  { contactPhase := some
      { mass := 1, gravity := ![0, 0, -9.81], poly := [((![0, 0, 1 + P], ![0, 1, 0]), 0)],
        polyOk := true, isPP := true, gens := [] },
    Kin := [![1, 0, 0], ![-1, 0, 0], ![0, 1, 0], ![0, -1, 0], ![0, 0, 1], ![0, 0, -1]],
    kin := [P, -P, 0, 0, 0, 0], Ang := [], ang := [] }

/-- To stay at the point `P` of the x axis, with the margin `ρ`. -/
noncomputable def pinnedProblem (P ρ : ℝ) : ProblemData :=
  { stillProblem [pinned P] ρ with bc := BC.translate ⟨0, 0, 0, 0, 0, 0, 0, 0⟩ ![P, 0, 0] }

theorem pinned_moved (P ρ : ℝ) : MovedProblem ![P, 0, 0] (pinnedProblem 0 ρ) (pinnedProblem P ρ) := by
  refine ⟨List.Forall₂.cons ⟨⟨_, _, rfl, rfl, rfl, rfl, rfl, List.Forall₂.cons ⟨rfl, rfl, 1, one_pos, ?_⟩ .nil⟩, rfl, ?_, ?_⟩ .nil,
    ?_, rfl, rfl, rfl, rfl, rfl, rfl⟩
  · ext k
    · fin_cases k <;> simp [cr, cross_apply]
    · fin_cases k <;> simp
  · simp [pinned, dot]
  · simp [pinned]
  · simp [pinnedProblem, BC.translate]

theorem pinned_accepted (P ρ : ℝ) : Accepted (pinnedProblem P ρ) [1] ![0, 0, -9.81] := by
  refine ⟨rfl, by simp, by simp, ?_, by simp [pinnedProblem, stillProblem, comFlags], by simp [pinnedProblem, stillProblem]⟩
  intro ct hct
  simp only [pinnedProblem, stillProblem, List.mem_singleton] at hct
  subst hct
  refine ⟨_, ⟨rfl, rfl, one_ne_zero, ?_, by simp [pinned]⟩, rfl⟩
  intro r hr
  simp only [List.mem_singleton] at hr
  subst hr
  intro h
  have := congrFun (congrArg Prod.snd h) 1
  simp at this

/-- The positions that the kinematic rows of `pinned` leave: one point. -/
theorem pinned_kin (P : ℝ) (c : V3) : KinOk (pinned P) c ↔ c = ![P, 0, 0] := by
  simp only [KinOk, pinned, List.zip_cons_cons, List.zip_nil_right, List.mem_cons, List.not_mem_nil, or_false, forall_eq_or_imp,
    forall_eq, dot]
  simp
  constructor
  · rintro ⟨h1, h2, h3, h4, h5, h6⟩
    ext k
    fin_cases k <;> simp <;> linarith
  · rintro rfl
    simp

theorem pinned_wrench (P ρ : ℝ) (hρ : 0 ≤ ρ) (e : Equilibrium) (he : (pinned P).contactPhase = some e) :
    WrenchOk e ρ (e.mass • (e.gravity - 0)) (e.mass • cr ![P, 0, 0] (e.gravity - 0))
      ↔ ρ * Real.sqrt ((1 + P) ^ 2 + 1) ≤ 9.81 := by
  simp only [pinned, Option.some.injEq] at he
  subst he
  simp only [WrenchOk, WrenchRowOk, List.mem_singleton, forall_eq, max_eq_left hρ]
  have h1 : dot ![0, 0, 1 + P] ![0, 0, 1 + P] + dot ![0, 1, 0] ![0, 1, 0] = (1 + P) ^ 2 + 1 := by
    simp [dot]
    ring
  have h2 : dot ![0, 0, 1 + P] ((1 : ℝ) • (![0, 0, -9.81] - 0)) + dot ![0, 1, 0] ((1 : ℝ) • cr ![P, 0, 0] (![0, 0, -9.81] - 0))
      = -9.81 := by
    simp [dot, cr, cross_apply]
    ring
  rw [h1, h2]
  simp only [abs_one, one_mul]
  constructor <;> intro h <;> linarith

/-- The motions of `pinnedProblem` that are at the point in the middle of the time are at rest there. -/
theorem pinned_motion (P ρ : ℝ) (x : V3) (c v a : ℝ → V3) (h : Motion (pinnedProblem P ρ) 1 x c v a) :
    (x = ![P, 0, 0] → (∀ t, c t = ![P, 0, 0]) ∧ ∀ t, a t = 0) ∧ (c (1 / 2) = ![P, 0, 0] → x = ![P, 0, 0]) := by
  obtain ⟨pts, hpts, rfl, hv, ha⟩ := h
  have hp : pts = c0_dc0_c1.computeConstantWaypoints (BC.translate ⟨0, 0, 0, 0, 0, 0, 0, 0⟩ ![P, 0, 0]) 1 := by
    simp [computeConstantWaypoints, pinnedProblem, stillProblem] at hpts
    exact hpts.symm
  subst hp
  have hval : ∀ t : ℝ, curve (degreeOf (pinnedProblem P ρ).flag) (fill (pinnedProblem P ρ).flag
      (nth (c0_dc0_c1.computeConstantWaypoints (BC.translate ⟨0, 0, 0, 0, 0, 0, 0, 0⟩ ![P, 0, 0]) 1)) x) 1 t
      = ![P, 0, 0] + (3 * t ^ 2 * (1 - t)) • (x - ![P, 0, 0]) := by
    intro t
    change curve 3 (fill 11#32 _ x) 1 t = _
    generalize ![P, 0, 0] = p
    unfold curve bez
    ext k
    simp [Finset.sum_range_succ, fill, freeSlots, nth, c0_dc0_c1.computeConstantWaypoints, BC.translate, Nat.choose]
    ring
  constructor
  · rintro rfl
    have hc : ∀ t : ℝ, curve (degreeOf (pinnedProblem P ρ).flag) (fill (pinnedProblem P ρ).flag
        (nth (c0_dc0_c1.computeConstantWaypoints (BC.translate ⟨0, 0, 0, 0, 0, 0, 0, 0⟩ ![P, 0, 0]) 1)) ![P, 0, 0]) 1 t
        = ![P, 0, 0] := fun t => by rw [hval]; simp
    refine ⟨hc, ?_⟩
    rw [funext hc] at hv
    have e1 : v = fun _ => 0 := deriv_unique hv fun s => hasDerivAt_const s _
    subst e1
    have e2 : a = fun _ => 0 := deriv_unique ha fun s => hasDerivAt_const s _
    subst e2
    exact fun _ => rfl
  · intro h
    rw [hval] at h
    ext k
    have := congrFun h k
    simp only [Pi.add_apply, Pi.smul_apply, Pi.sub_apply, smul_eq_mul] at this
    linarith

theorem pinned_sample : ((1 / 2 : ℝ), (0 : ℤ)) ∈ computeDiscretizedTimeFixed [1] 2 := by
  norm_num [computeDiscretizedTimeFixed, fixedOuter, fixedInner]

/-- There is an admissible motion exactly when the margin times the length of the row is at most the weight. -/
theorem pinned_meets (P ρ : ℝ) (hρ : 0 ≤ ρ) :
    (∃ x c v a, Motion (pinnedProblem P ρ) 1 x c v a ∧ MeetsSamples (pinnedProblem P ρ) (computeDiscretizedTimeFixed [1] 2) c a)
      ↔ ρ * Real.sqrt ((1 + P) ^ 2 + 1) ≤ 9.81 := by
  constructor
  · rintro ⟨x, c, v, a, hm, hs, -⟩
    obtain ⟨ct, e, h1, h2, h3, h4⟩ := hs (1 / 2) 0 (Or.inl (by simpa using pinned_sample))
    simp only [pinnedProblem, stillProblem, List.getElem?_cons_zero, Option.some.injEq] at h1
    subst h1
    rw [pinned_kin] at h4
    obtain ⟨q1, q2⟩ := pinned_motion P ρ x c v a hm
    obtain ⟨r1, r2⟩ := q1 (q2 h4)
    rw [r1, r2] at h3
    exact (pinned_wrench P ρ hρ e h2).mp h3
  · intro h
    have hacc := pinned_accepted P ρ
    obtain ⟨pts, hpts⟩ := C01_answers (pinnedProblem P ρ).flag hacc.flag (pinnedProblem P ρ).bc 1 (by simp [pinnedProblem, stillProblem])
    obtain ⟨v, a, hm⟩ := motion_exists _ 1 pts hpts hacc.flag one_ne_zero ![P, 0, 0]
    obtain ⟨r1, r2⟩ := (pinned_motion P ρ _ _ v a hm).1 rfl
    refine ⟨_, _, v, a, hm, ?_, by simp [pinnedProblem, stillProblem]⟩
    intro t q hq
    have hl : Discretisation [1] (computeDiscretizedTimeFixed [1] 2) := Or.inl ⟨2, two_pos, rfl⟩
    have hq' : q < 1 := (hq.lt (hl.tags hacc.ne hacc.pos).1).1
    obtain rfl : q = 0 := by omega
    refine ⟨pinned P, _, rfl, rfl, ?_, ?_⟩
    · rw [r1, r2]
      exact (pinned_wrench P ρ hρ _ rfl).mpr h
    · rw [pinned_kin, r1]

/-- C108, the limit of the claim. With any margin `0 < ρ ≤ 1` (the default of `ContactData` is 10⁻³) there is a problem which
`computeCOMTrajFixedSize` solves, and which it refuses when the origin of the frame is elsewhere. -/
theorem C108_margin_refuted (ρ : ℝ) (hρ : 0 < ρ) (h1 : ρ ≤ 1) :
    ∃ p d d', MovedProblem p d d' ∧ d.reduce_h = ρ ∧ Accepted d [1] ![0, 0, -9.81] ∧
      ∀ lib, LibOk lib → lib.eps = 0 →
        (∀ q ∈ [d, d'], ∀ A b, computeConstraintsOneStep q 1 1 (computeDiscretizedTimeFixed [1] 2) = .ok (A, b) →
          2 ^ A.rows < lib.maxIter) →
        ∃ res res' N, (∀ fuel ≥ N, computeCOMTrajFixedSize lib fuel d [1] 2 = .ok res) ∧
          (∀ fuel ≥ N, computeCOMTrajFixedSize lib fuel d' [1] 2 = .ok res') ∧ res.success = true ∧ res'.success = false := by
  refine ⟨![10 / ρ, 0, 0], pinnedProblem 0 ρ, pinnedProblem (10 / ρ) ρ, pinned_moved _ ρ, rfl, pinned_accepted 0 ρ, ?_⟩
  intro lib hL he hlim
  have hl : Discretisation [1] (computeDiscretizedTimeFixed [1] 2) := Or.inl ⟨2, two_pos, rfl⟩
  have run : ∀ P, pinnedProblem P ρ ∈ [pinnedProblem 0 ρ, pinnedProblem (10 / ρ) ρ] →
      ∃ res N, (∀ fuel ≥ N, computeCOMTrajFixedSize lib fuel (pinnedProblem P ρ) [1] 2 = .ok res) ∧
        (res.success = true ↔ ρ * Real.sqrt ((1 + P) ^ 2 + 1) ≤ 9.81) := by
    intro P hP
    obtain ⟨res, N, hrun, -, hv⟩ := C56_fixedSize_partial lib hL he (pinnedProblem P ρ) [1] _ (pinned_accepted P ρ) rfl
      (by simp [pinnedProblem, stillProblem]) 2 two_pos (Or.inr rfl)
    obtain ⟨A, b, hA, -⟩ := C18_in_bounds_and_complete _ [1] _ (pinned_accepted P ρ) _ hl
    refine ⟨res, N, hrun, ?_⟩
    rw [← pinned_meets P ρ hρ.le]
    have hs : ([1] : List ℝ).sum = 1 := by simp
    rw [hs] at hv hA
    constructor
    · intro hr
      obtain ⟨v, a, q1, q2, -⟩ := hv.found hr
      exact ⟨_, _, v, a, q1, q2⟩
    · rintro ⟨x, c, v, a, q1, q2⟩
      by_contra hn
      rw [Bool.not_eq_true] at hn
      rcases hv.none hn with h | h
      · exact absurd (h A b hA) (not_le.mpr (hlim _ hP A b hA))
      · exact h _ _ _ _ q1 q2
  obtain ⟨res, N, q1, q2⟩ := run 0 (by simp)
  obtain ⟨res', N', r1, r2⟩ := run (10 / ρ) (by simp)
  refine ⟨res, res', max N N', fun fuel hf => q1 fuel (le_trans (le_max_left _ _) hf),
    fun fuel hf => r1 fuel (le_trans (le_max_right _ _) hf), q2.mpr ?_, ?_⟩
  · have : Real.sqrt ((1 + 0) ^ 2 + 1) ≤ 2 := by
      rw [Real.sqrt_le_left (by norm_num)]
      norm_num
    have h2 := mul_le_mul h1 this (Real.sqrt_nonneg _) zero_le_one
    exact h2.trans (by norm_num)
  · rw [← Bool.not_eq_true, r2, not_le]
    have h2 : 1 + 10 / ρ ≤ Real.sqrt ((1 + 10 / ρ) ^ 2 + 1) := Real.le_sqrt_of_sq_le (by linarith)
    have h3 : ρ * (1 + 10 / ρ) = ρ + 10 := by field_simp
    have h4 := mul_le_mul_of_nonneg_left h2 hρ.le
    norm_num
    linarith

/-- The hypotheses of `C108_fixedSize` are met by `pinnedProblem` without a margin, which is solved in every frame. -/
theorem pinned_frames (P : ℝ) : ∃ maxIter res res' N,
    (∀ fuel ≥ N, computeCOMTrajFixedSize (exactLib maxIter) fuel (pinnedProblem 0 0) [1] 2 = .ok res) ∧
    (∀ fuel ≥ N, computeCOMTrajFixedSize (exactLib maxIter) fuel (pinnedProblem P 0) [1] 2 = .ok res') ∧
    res.success = true ∧ MovedResult ![P, 0, 0] res res' := by
  have hl : Discretisation [1] (computeDiscretizedTimeFixed [1] 2) := Or.inl ⟨2, two_pos, rfl⟩
  have ha := pinned_accepted 0 0
  obtain ⟨A, b, hA, -⟩ := C18_in_bounds_and_complete _ [1] _ ha _ hl
  obtain ⟨A', b', hA', -⟩ := C18_in_bounds_and_complete _ [1] _ (pinned_accepted P 0) _ hl
  have hf : (pinnedProblem 0 0).flag ∈ [11#32, 19#32, 27#32, 7#32, 15#32] := by simp [pinnedProblem, stillProblem]
  have hlim : ∀ q ∈ [pinnedProblem 0 0, pinnedProblem P 0], ∀ B c,
      computeConstraintsOneStep q ([1] : List ℝ).length ([1] : List ℝ).sum (computeDiscretizedTimeFixed [1] 2) = .ok (B, c) →
      2 ^ B.rows < (exactLib (2 ^ A.rows + 2 ^ A'.rows + 1)).maxIter := by
    intro q hq B c hB
    simp only [List.mem_cons, List.not_mem_nil, or_false] at hq
    have h1 : (exactLib (2 ^ A.rows + 2 ^ A'.rows + 1)).maxIter = 2 ^ A.rows + 2 ^ A'.rows + 1 := rfl
    rw [h1]
    have z1 : 0 < 2 ^ A.rows := Nat.two_pow_pos _
    have z2 : 0 < 2 ^ A'.rows := Nat.two_pow_pos _
    rcases hq with rfl | rfl
    · rw [hA] at hB
      cases hB
      omega
    · rw [hA'] at hB
      cases hB
      omega
  obtain ⟨res, res', N, r1, r2, r3⟩ := C108_fixedSize (exactLib (2 ^ A.rows + 2 ^ A'.rows + 1)) (exactLib_ok _) rfl _ _ _
    (pinned_moved P 0) [1] _ ha rfl hf le_rfl 2 two_pos (Or.inr rfl) hlim
  obtain ⟨res2, N2, q1, -, hv⟩ := C56_fixedSize_partial (exactLib (2 ^ A.rows + 2 ^ A'.rows + 1)) (exactLib_ok _) rfl _ [1] _ ha rfl
    hf 2 two_pos (Or.inr rfl)
  have e : res2 = res := by
    have a1 := r1 (max N N2) (le_max_left _ _)
    have a2 := q1 (max N N2) (le_max_right _ _)
    rw [a1] at a2
    cases a2
    rfl
  subst e
  refine ⟨_, res2, res', N, r1, r2, ?_, r3⟩
  by_contra hn
  rw [Bool.not_eq_true] at hn
  obtain ⟨x, c, v, a, m1, m2⟩ := (pinned_meets 0 0 le_rfl).mpr (by norm_num)
  rcases hv.none hn with h | h
  · have := h A b hA
    have h2 := hlim _ List.mem_cons_self A b hA
    omega
  · exact h x c v a (by simpa using m1) m2

end Verif
