import Verif.Lemmas.SamplePhase
import Verif.Props.C109

/-!
# C112: the samples planner and the units of length and time
-/

namespace Verif
open Matrix

/-! ## The same problem in other units

A length `x` of the first problem is `s * x` in the second one, a duration `t` is `k * t`. -/

/-- The boundary conditions in the other units. -/
noncomputable def BC.units (d : BC) (s k : ℝ) : BC :=
  ⟨s • d.c0, (s / k) • d.dc0, (s / k ^ 2) • d.ddc0, (s / k ^ 3) • d.j0, s • d.c1, (s / k) • d.dc1, (s / k ^ 2) • d.ddc1,
    (s / k ^ 3) • d.j1⟩

/-- The norm of a row. -/
noncomputable def rowNorm (r : V3 × V3) : ℝ := Real.sqrt (dot r.1 r.1 + dot r.2 r.2)

/-- The polytope of wrenches in the other units. Forces are multiplied by `s / k²` and torques by `s² / k²`, the unit of mass
is the same. A row may have any positive scale; its right-hand side, less the margin, is the one of the row of norm 1. -/
structure UnitsEquilibrium (s k ρ ρ' : ℝ) (e e' : Equilibrium) : Prop where
  mass : e'.mass = e.mass
  gravity : e'.gravity = (s / k ^ 2) • e.gravity
  polyOk : e'.polyOk = e.polyOk
  poly : List.Forall₂ (fun r r' => ∃ μ : ℝ, 0 < μ ∧ r'.1 = (μ • s • r.1.1, μ • r.1.2) ∧
    (r'.2 - max ρ' 0) * rowNorm r'.1 = μ * (s ^ 2 / k ^ 2) * ((r.2 - max ρ 0) * rowNorm r.1)) e.poly e'.poly

structure UnitsContact (s k ρ ρ' : ℝ) (ct ct' : ContactData) : Prop where
  phase : ∃ e e', ct.contactPhase = some e ∧ ct'.contactPhase = some e' ∧ UnitsEquilibrium s k ρ ρ' e e'
  Kin : ct'.Kin = ct.Kin
  kin : ct'.kin = ct.kin.map (s * ·)

/-- The same problem in other units. -/
structure UnitsProblem (s k : ℝ) (d d' : ProblemData) : Prop where
  contacts : List.Forall₂ (UnitsContact s k d.reduce_h d'.reduce_h) d.contacts d'.contacts
  bc : d'.bc = d.bc.units s k
  flag : d'.flag = d.flag
  acc : d'.constraintAcceleration = d.constraintAcceleration
  maxAcc : d'.maxAcceleration = s / k ^ 2 * d.maxAcceleration
  cost : d'.costFunction = d.costFunction
  repr : d'.representation = d.representation

theorem UnitsEquilibrium.inv {s k ρ ρ' : ℝ} (hs : 0 < s) (hk : 0 < k) {e e' : Equilibrium} (h : UnitsEquilibrium s k ρ ρ' e e') :
    UnitsEquilibrium s⁻¹ k⁻¹ ρ' ρ e' e := by
  refine ⟨h.mass.symm, ?_, h.polyOk.symm, ?_⟩
  · rw [h.gravity, smul_smul]
    have : s⁻¹ / k⁻¹ ^ 2 * (s / k ^ 2) = 1 := by field_simp
    rw [this, one_smul]
  · refine h.poly.flip.imp ?_
    rintro r' r ⟨μ, hμ, h1, h2⟩
    refine ⟨μ⁻¹, inv_pos.mpr hμ, ?_, ?_⟩
    · rw [h1]
      ext j <;> simp <;> field_simp
    · rw [h2]
      field_simp

theorem UnitsContact.inv {s k ρ ρ' : ℝ} (hs : 0 < s) (hk : 0 < k) {ct ct' : ContactData} (h : UnitsContact s k ρ ρ' ct ct') :
    UnitsContact s⁻¹ k⁻¹ ρ' ρ ct' ct := by
  obtain ⟨e, e', h1, h2, h3⟩ := h.phase
  refine ⟨⟨e', e, h2, h1, h3.inv hs hk⟩, h.Kin.symm, ?_⟩
  rw [h.kin, List.map_map]
  have : (fun x : ℝ => s⁻¹ * x) ∘ (fun x => s * x) = id := by
    funext x
    simp [hs.ne']
  rw [this, List.map_id]

theorem BC.units_inv (d : BC) {s k : ℝ} (hs : 0 < s) (hk : 0 < k) : (d.units s k).units s⁻¹ k⁻¹ = d := by
  have e1 : s⁻¹ / k⁻¹ * (s / k) = 1 := by field_simp
  have e2 : s⁻¹ / k⁻¹ ^ 2 * (s / k ^ 2) = 1 := by field_simp
  have e3 : s⁻¹ / k⁻¹ ^ 3 * (s / k ^ 3) = 1 := by field_simp
  have e0 : s⁻¹ * s = 1 := inv_mul_cancel₀ hs.ne'
  simp only [BC.units, smul_smul, e0, e1, e2, e3, one_smul]

theorem UnitsProblem.inv {s k : ℝ} (hs : 0 < s) (hk : 0 < k) {d d' : ProblemData} (h : UnitsProblem s k d d') :
    UnitsProblem s⁻¹ k⁻¹ d' d := by
  refine ⟨h.contacts.flip.imp fun _ _ q => q.inv hs hk, by rw [h.bc, BC.units_inv _ hs hk], h.flag.symm, h.acc.symm, ?_,
    h.cost.symm, h.repr.symm⟩
  rw [h.maxAcc]
  field_simp

/-! ## The motion -/

theorem fill_units (flag : Flag) (hf : flag ∈ comFlags) (d : BC) (T : ℝ) {s k : ℝ} (hk : k ≠ 0) (x : V3)
    (pts pts' : List V3) (h : computeConstantWaypoints flag d T = .ok pts)
    (h' : computeConstantWaypoints flag (d.units s k) (k * T) = .ok pts') (i : ℕ) (hi : i ≤ degreeOf flag) :
    fill flag (nth pts') (s • x) i = s • fill flag (nth pts) x i := by
  simp only [comFlags, List.mem_cons, List.not_mem_nil, or_false] at hf
  rcases hf with rfl | rfl | rfl | rfl | rfl | rfl | rfl
  · simp [computeConstantWaypoints] at h h'
    subst h h'
    replace hi : i ≤ 3 := hi
    interval_cases i <;> ext j <;>
      simp [fill, freeSlots, nth, c0_dc0_c1.computeConstantWaypoints, BC.units] <;> field_simp
  · by_cases hd : d.dc1 = 0
    · have hd' : (d.units s k).dc1 = 0 := by simp [BC.units, hd]
      simp [computeConstantWaypoints, hd] at h
      simp [computeConstantWaypoints, hd'] at h'
      subst h h'
      replace hi : i ≤ 3 := hi
      interval_cases i <;> ext j <;>
        simp [fill, freeSlots, nth, c0_dc0_dc1.computeConstantWaypoints, BC.units] <;> field_simp
    · simp [computeConstantWaypoints, hd] at h
  · simp [computeConstantWaypoints] at h h'
    subst h h'
    replace hi : i ≤ 4 := hi
    interval_cases i <;> ext j <;>
      simp [fill, freeSlots, nth, c0_dc0_dc1_c1.computeConstantWaypoints, BC.units] <;> field_simp
  · simp [computeConstantWaypoints] at h h'
    subst h h'
    replace hi : i ≤ 3 := hi
    interval_cases i <;> ext j <;>
      simp [fill, freeSlots, nth, c0_dc0_ddc0.computeConstantWaypoints, BC.units] <;> field_simp
  · simp [computeConstantWaypoints] at h h'
    subst h h'
    replace hi : i ≤ 4 := hi
    interval_cases i <;> ext j <;>
      simp [fill, freeSlots, nth, c0_dc0_ddc0_c1.computeConstantWaypoints, BC.units] <;> field_simp
  · simp [computeConstantWaypoints] at h h'
    subst h h'
    replace hi : i ≤ 5 := hi
    interval_cases i <;> ext j <;>
      simp [fill, freeSlots, nth, c0_dc0_ddc0_dc1_c1.computeConstantWaypoints, BC.units] <;> field_simp
  · simp [computeConstantWaypoints] at h h'
    subst h h'
    replace hi : i ≤ 6 := hi
    interval_cases i <;> ext j <;>
      simp [fill, freeSlots, nth, c0_dc0_ddc0_ddc1_dc1_c1.computeConstantWaypoints, BC.units] <;> field_simp

theorem IsDeriv.units {c v : ℝ → V3} (h : IsDeriv c v) (b k : ℝ) :
    IsDeriv (fun t => b • c (t / k)) fun t => (b / k) • v (t / k) := by
  intro t
  have h1 : HasDerivAt (fun t : ℝ => t / k) (1 / k) t := (hasDerivAt_id t).div_const k
  have h2 := ((h (t / k)).scomp t h1).const_smul b
  have e : b • (1 / k) • v (t / k) = (b / k) • v (t / k) := by
    rw [smul_smul]
    congr 1
    ring
  rw [e] at h2
  exact h2

theorem UnitsProblem.motion {s k : ℝ} (hk : 0 < k) {d d' : ProblemData} (h : UnitsProblem s k d d') (hf : d.flag ∈ comFlags)
    (h0 : d.flag = 19#32 → d.bc.dc1 = 0) {T : ℝ} {x : V3} {c v a : ℝ → V3} (hm : Motion d T x c v a) :
    Motion d' (k * T) (s • x) (fun t => s • c (t / k)) (fun t => (s / k) • v (t / k)) fun t => (s / k ^ 2) • a (t / k) := by
  obtain ⟨pts, hpts, h1, hv, ha⟩ := hm
  obtain ⟨pts', hpts'⟩ := C01_answers d.flag hf (d.bc.units s k) (k * T) fun q => by simp [BC.units, h0 q]
  refine ⟨pts', by rw [h.flag, h.bc]; exact hpts', ?_, hv.units s k, ?_⟩
  · rw [h.flag, h1]
    funext t
    unfold curve
    have e : t / k / T = t / (k * T) := by rw [div_div]
    rw [bez_congr (fill_units d.flag hf d.bc T hk.ne' x pts pts' hpts hpts'), e]
    unfold bez
    rw [Finset.smul_sum]
    exact Finset.sum_congr rfl fun i _ => smul_comm _ _ _
  · have := ha.units (s / k) k
    have e : s / k / k = s / k ^ 2 := by rw [div_div, sq]
    rw [e] at this
    exact this

/-! ## The samples -/

/-- The samples in the other unit of time. -/
noncomputable def TTime.units (k : ℝ) (l : TTime) : TTime := l.map fun q => (k * q.1, q.2)

theorem constrained_units {k : ℝ} (hk : 0 < k) (l : TTime) (t : ℝ) (p : ℕ) :
    Constrained (TTime.units k l) t p ↔ Constrained l (t / k) p := by
  unfold Constrained TTime.units
  constructor
  · rintro (h | ⟨l₁, i, t', l₂, hl, hne⟩)
    · obtain ⟨q, hq, e⟩ := List.mem_map.mp h
      simp only [Prod.mk.injEq] at e
      left
      rw [← e.1, ← e.2, mul_div_cancel_left₀ _ hk.ne']
      exact hq
    · right
      obtain ⟨m₁, m₂, rfl, rfl, h2⟩ := List.map_eq_append_iff.mp hl
      obtain ⟨q1, m₃, rfl, e1, h3⟩ := List.map_eq_cons_iff.mp h2
      obtain ⟨q2, m₄, rfl, e2, h4⟩ := List.map_eq_cons_iff.mp h3
      simp only [Prod.mk.injEq] at e1 e2
      refine ⟨m₁, i, q2.1, m₄, ?_, hne⟩
      rw [← e1.1, ← e1.2, ← e2.2, mul_div_cancel_left₀ _ hk.ne']
  · have e : k * (t / k) = t := by field_simp
    rintro (h | ⟨l₁, i, t', l₂, rfl, hne⟩)
    · left
      exact List.mem_map.mpr ⟨_, h, by simp [e]⟩
    · right
      refine ⟨l₁.map fun q => (k * q.1, q.2), i, k * t', l₂.map fun q => (k * q.1, q.2), by simp [e], hne⟩

theorem units_sum (k : ℝ) (Ts : List ℝ) : (Ts.map (k * ·)).sum = k * Ts.sum := by
  rw [List.sum_map_mul_left]
  simp

theorem fixedInner_units (k step : ℝ) (i : ℤ) (n : ℕ) : ∀ t : ℝ,
    fixedInner (k * step) i n (k * t) = (k * (fixedInner step i n t).1, TTime.units k (fixedInner step i n t).2) := by
  induction n with
  | zero => intro t; simp [fixedInner, TTime.units]
  | succ n ih =>
    intro t
    simp only [fixedInner]
    rw [← mul_add, ih]
    simp [TTime.units]

theorem fixedOuter_units (k : ℝ) (n : ℕ) (Ts : List ℝ) : ∀ (i : ℤ) (t : ℝ),
    fixedOuter n (Ts.map (k * ·)) i (k * t) = TTime.units k (fixedOuter n Ts i t) := by
  induction Ts with
  | nil => intro i t; simp [fixedOuter, TTime.units]
  | cons T Ts ih =>
    intro i t
    simp only [fixedOuter, List.map_cons]
    rw [mul_div_assoc, fixedInner_units]
    simp only
    rw [ih]
    simp [TTime.units]

theorem fixed_units (k : ℝ) (n : ℕ) (Ts : List ℝ) :
    computeDiscretizedTimeFixed (Ts.map (k * ·)) n = TTime.units k (computeDiscretizedTimeFixed Ts n) := by
  have := fixedOuter_units k n Ts 0 0
  rw [mul_zero] at this
  simp only [computeDiscretizedTimeFixed, this, units_sum]
  have e : ((0 : ℝ), (0 : ℤ)) :: TTime.units k (fixedOuter n Ts 0 0) = TTime.units k ((0, 0) :: fixedOuter n Ts 0 0) := by
    simp [TTime.units]
  rw [e]
  simp [TTime.units, List.map_dropLast]

theorem allSamples_units {k : ℝ} (hk : 0 < k) (step : ℝ) (Ts : List ℝ) : ∀ (i : ℤ) (t : ℝ),
    allSamples (k * step) (Ts.map (k * ·)) i (k * t) = TTime.units k (allSamples step Ts i t) := by
  induction Ts with
  | nil => intro i t; simp [allSamples, TTime.units]
  | cons T Ts ih =>
    intro i t
    simp only [allSamples, List.map_cons]
    rw [← mul_add, ih]
    have e : phaseSamples (k * step) (k * t) (k * T) i = TTime.units k (phaseSamples step t T i) := by
      unfold phaseSamples TTime.units
      rw [mul_div_mul_left _ _ hk.ne']
      simp only [List.map_append, List.map_map, List.map_cons, List.map_nil]
      congr 1
      · refine List.map_congr_left fun j _ => ?_
        simp only [Function.comp_apply, Prod.mk.injEq, and_true]
        ring
      · simp [mul_add]
    rw [e]
    simp [TTime.units]

/-! ## The constraints -/

theorem units_row {s k ρ ρ' m μ : ℝ} {u v g c a : V3} {b b' : ℝ} (hs : 0 < s) (hk : 0 < k) (hμ : 0 < μ)
    (he : (b' - max ρ' 0) * rowNorm (μ • s • u, μ • v) = μ * (s ^ 2 / k ^ 2) * ((b - max ρ 0) * rowNorm (u, v)))
    (h : WrenchRowOk m ρ ((u, v), b) (m • (g - a)) (m • cr c (g - a))) :
    WrenchRowOk m ρ' ((μ • s • u, μ • v), b') (m • ((s / k ^ 2) • g - (s / k ^ 2) • a))
      (m • cr (s • c) ((s / k ^ 2) • g - (s / k ^ 2) • a)) := by
  unfold WrenchRowOk at h ⊢
  unfold rowNorm at he
  dsimp only at h he ⊢
  have e1 : dot (μ • s • u) (m • ((s / k ^ 2) • g - (s / k ^ 2) • a)) = μ * (s ^ 2 / k ^ 2) * dot u (m • (g - a)) := by
    simp [dot]
    ring
  have e2 : dot (μ • v) (m • cr (s • c) ((s / k ^ 2) • g - (s / k ^ 2) • a)) = μ * (s ^ 2 / k ^ 2) * dot v (m • cr c (g - a)) := by
    simp [dot, cr, cross_apply]
    ring
  rw [e1, e2]
  have h3 := mul_le_mul_of_nonneg_left h (by positivity : 0 ≤ μ * (s ^ 2 / k ^ 2))
  have h4 : (b' - max ρ' 0) * (|m| * Real.sqrt (dot (μ • s • u) (μ • s • u) + dot (μ • v) (μ • v)))
      = μ * (s ^ 2 / k ^ 2) * ((b - max ρ 0) * (|m| * Real.sqrt (dot u u + dot v v))) := by
    linear_combination |m| * he
  rw [h4]
  linarith

theorem UnitsEquilibrium.wrench {s k ρ ρ' : ℝ} (hs : 0 < s) (hk : 0 < k) {e e' : Equilibrium} (h : UnitsEquilibrium s k ρ ρ' e e')
    {c a : V3} (hw : WrenchOk e ρ (e.mass • (e.gravity - a)) (e.mass • cr c (e.gravity - a))) :
    WrenchOk e' ρ' (e'.mass • (e'.gravity - (s / k ^ 2) • a)) (e'.mass • cr (s • c) (e'.gravity - (s / k ^ 2) • a)) := by
  intro r' hr'
  obtain ⟨i, hi⟩ := List.mem_iff_getElem?.mp hr'
  obtain ⟨hl, H⟩ := List.forall₂_iff_get.mp h.poly
  obtain ⟨hi', hri⟩ := List.getElem?_eq_some_iff.mp hi
  obtain ⟨μ, hμ, h1, h2⟩ := H i (by omega) hi'
  simp only [List.get_eq_getElem, hri] at h1 h2
  rw [h.mass, h.gravity]
  obtain ⟨⟨u', v'⟩, b'⟩ := r'
  simp only at h1 h2
  rw [h1] at h2 ⊢
  exact units_row hs hk hμ h2 (hw _ (List.getElem_mem (by omega : i < e.poly.length)))

theorem UnitsContact.kinOk {s k ρ ρ' : ℝ} (hs : 0 < s) {ct ct' : ContactData} (h : UnitsContact s k ρ ρ' ct ct') {c : V3}
    (hk : KinOk ct c) : KinOk ct' (s • c) := by
  unfold KinOk at hk ⊢
  rw [h.Kin, h.kin, List.zip_map_right]
  intro q hq
  obtain ⟨q0, hq0, rfl⟩ := List.mem_map.mp hq
  have := mul_le_mul_of_nonneg_left (hk q0 hq0) hs.le
  simp only [Prod.map_fst, Prod.map_snd, id_eq]
  refine le_trans (le_of_eq ?_) this
  simp [dot]
  ring

theorem UnitsProblem.meets {s k : ℝ} (hs : 0 < s) (hk : 0 < k) {d d' : ProblemData} (h : UnitsProblem s k d d') {l : TTime}
    {c a : ℝ → V3} (hm : MeetsSamples d l c a) :
    MeetsSamples d' (TTime.units k l) (fun t => s • c (t / k)) fun t => (s / k ^ 2) • a (t / k) := by
  refine ⟨fun t i hti => ?_, fun hA q' hq' j => ?_⟩
  · obtain ⟨ct, e, h1, h2, h3, h4⟩ := hm.1 (t / k) i ((constrained_units hk l t i).mp hti)
    obtain ⟨hl, H⟩ := List.forall₂_iff_get.mp h.contacts
    obtain ⟨hi, rfl⟩ := List.getElem?_eq_some_iff.mp h1
    have hc := H i hi (by omega)
    obtain ⟨e1, e', he, he', hme⟩ := hc.phase
    simp only [List.get_eq_getElem] at he hc
    rw [h2] at he
    cases he
    exact ⟨_, e', List.getElem?_eq_getElem (by omega), he', hme.wrench hs hk h3, hc.kinOk hs h4⟩
  · obtain ⟨q, hq, rfl⟩ := List.mem_map.mp hq'
    have := hm.2 (h.acc ▸ hA) q hq j
    have hp : 0 < s / k ^ 2 := by positivity
    simp only [Pi.smul_apply, smul_eq_mul, mul_div_cancel_left₀ _ hk.ne']
    rw [abs_mul, abs_of_pos hp, h.maxAcc]
    exact mul_le_mul_of_nonneg_left this hp.le

/-- The cost in the other units. -/
theorem UnitsProblem.motionCost {s k : ℝ} (hs : 0 < s) (hk : 0 < k) {d d' : ProblemData} (h : UnitsProblem s k d d') :
    ∃ w : ℝ, 0 < w ∧ ∀ (l : TTime) (x : V3) (a : ℝ → V3),
      motionCost d' (TTime.units k l) (s • x) (fun t => (s / k ^ 2) • a (t / k)) = w * motionCost d l x a := by
  unfold Verif.motionCost
  rw [h.cost, h.bc]
  by_cases hc : d.costFunction = ACCELERATION
  · refine ⟨(s / k ^ 2) ^ 2, by positivity, fun l x a => ?_⟩
    rw [if_pos hc, if_pos hc, TTime.units, List.map_map, ← List.sum_map_mul_left]
    congr 1
    refine List.map_congr_left fun q _ => ?_
    simp only [Function.comp_apply, mul_div_cancel_left₀ _ hk.ne', dot_smul_smul]
    ring
  · refine ⟨s ^ 2, by positivity, fun l x a => ?_⟩
    rw [if_neg hc, if_neg hc]
    have e : s • x - (1 / 2 : ℝ) • ((d.bc.units s k).c0 + (d.bc.units s k).c1) = s • (x - (1 / 2 : ℝ) • (d.bc.c0 + d.bc.c1)) := by
      ext j
      simp [BC.units]
      ring
    rw [e, dot_smul_smul]
    ring

theorem UnitsProblem.accepted {s k : ℝ} (hs : 0 < s) (hk : 0 < k) {d d' : ProblemData} (h : UnitsProblem s k d d') {Ts : List ℝ}
    {g : V3} (ha : Accepted d Ts g) : Accepted d' (Ts.map (k * ·)) ((s / k ^ 2) • g) := by
  refine ⟨by rw [List.length_map]; exact ha.size.trans h.contacts.length_eq, by simpa using ha.ne, ?_, ?_, h.flag ▸ ha.flag,
    fun hf => ?_⟩
  · intro T' hT'
    obtain ⟨T, hT, rfl⟩ := List.mem_map.mp hT'
    exact mul_pos hk (ha.pos T hT)
  · intro ct' hct'
    obtain ⟨i, hi⟩ := List.mem_iff_getElem?.mp hct'
    obtain ⟨hl, H⟩ := List.forall₂_iff_get.mp h.contacts
    obtain ⟨hi', rfl⟩ := List.getElem?_eq_some_iff.mp hi
    have hm := H i (by omega) hi'
    simp only [List.get_eq_getElem] at hm
    obtain ⟨e0, hg, hgr⟩ := ha.good _ (List.getElem_mem (by omega : i < d.contacts.length))
    obtain ⟨e, e', he, he', hme⟩ := hm.phase
    rw [hg.1] at he
    cases he
    refine ⟨e', ⟨he', by rw [hme.polyOk]; exact hg.2.1, by rw [hme.mass]; exact hg.2.2.1, ?_, ?_⟩, by rw [hme.gravity, hgr]⟩
    · intro r' hr'
      obtain ⟨j, hj⟩ := List.mem_iff_getElem?.mp hr'
      obtain ⟨hl2, H2⟩ := List.forall₂_iff_get.mp hme.poly
      obtain ⟨hj', hrj⟩ := List.getElem?_eq_some_iff.mp hj
      obtain ⟨μ, hμ, h2, -⟩ := H2 j (by omega) hj'
      simp only [List.get_eq_getElem, hrj] at h2
      intro h0
      rw [h2] at h0
      have q2 := congrArg Prod.snd h0
      have q1 := congrArg Prod.fst h0
      simp only [Prod.snd_zero, Prod.fst_zero, smul_eq_zero, hμ.ne', hs.ne', false_or] at q1 q2
      exact hg.2.2.2.1 _ (List.getElem_mem (by omega : j < _)) (Prod.ext q1 q2)
    · rw [hm.kin, hm.Kin, List.length_map]
      intro hne
      exact hg.2.2.2.2 (by simpa using hne)
  · rw [h.bc]
    simp [BC.units, ha.capt (h.flag ▸ hf)]

/-! ## The planners -/

/-- The results of two calls, the second one for the problem in the other units. -/
structure UnitsResult (s k : ℝ) (res res' : ResultDataCOMTraj) : Prop where
  success : res'.success = res.success
  point : res.success = true → res'.point = s • res.point
  curve : res.success = true → ∀ t, res'.c_of_t.eval (k * t) = s • res.c_of_t.eval t

theorem units_units {k : ℝ} (hk : 0 < k) (l : TTime) : TTime.units k⁻¹ (TTime.units k l) = l := by
  unfold TTime.units
  rw [List.map_map]
  conv_rhs => rw [← List.map_id l]
  refine List.map_congr_left fun q _ => ?_
  ext <;> simp [hk.ne']

theorem UnitsProblem.verdict {s k : ℝ} (hs : 0 < s) (hk : 0 < k) {d d' : ProblemData} (hm : UnitsProblem s k d d') {Ts : List ℝ}
    {g : V3} (h : Accepted d Ts g) (hf : d.flag ∈ [11#32, 19#32, 27#32, 7#32, 15#32]) {l : TTime} (hl : Discretisation Ts l)
    (hc : d.costFunction = DISTANCE_TRAVELED ∨ d.costFunction = ACCELERATION)
    {lim lim' : Prop} (h1 : ¬ lim) (h2 : ¬ lim') {res res' : ResultDataCOMTraj} (hv : Verdict d Ts.sum l lim res)
    (hv' : Verdict d' (Ts.map (k * ·)).sum (TTime.units k l) lim' res') : UnitsResult s k res res' := by
  have ha' := hm.accepted hs hk h
  have hsi := inv_pos.mpr hs
  have hki := inv_pos.mpr hk
  rw [units_sum] at hv'
  have forth : ∀ y cy vy ay, Motion d Ts.sum y cy vy ay → MeetsSamples d l cy ay → _ := fun y cy vy ay y1 y2 =>
    And.intro (hm.motion hk h.flag h.capt y1) (hm.meets hs hk y2)
  have back : ∀ y cy vy ay, Motion d' (k * Ts.sum) y cy vy ay → MeetsSamples d' (TTime.units k l) cy ay →
      Motion d Ts.sum (s⁻¹ • y) (fun t => s⁻¹ • cy (t / k⁻¹)) (fun t => (s⁻¹ / k⁻¹) • vy (t / k⁻¹)) (fun t => (s⁻¹ / k⁻¹ ^ 2) • ay (t / k⁻¹)) ∧
      MeetsSamples d l (fun t => s⁻¹ • cy (t / k⁻¹)) (fun t => (s⁻¹ / k⁻¹ ^ 2) • ay (t / k⁻¹)) := by
    intro y cy vy ay y1 y2
    have q1 := (hm.inv hs hk).motion hki ha'.flag ha'.capt y1
    have q2 := (hm.inv hs hk).meets hsi hki y2
    rw [inv_mul_cancel_left₀ hk.ne'] at q1
    rw [units_units hk] at q2
    exact ⟨q1, q2⟩
  have hsucc : res'.success = res.success := by
    cases hr : res.success with
    | true =>
      by_contra hn
      rw [Bool.not_eq_true] at hn
      obtain ⟨v, a, q1, q2, -⟩ := hv.found hr
      obtain ⟨b1, b2⟩ := forth _ _ _ _ q1 q2
      exact ((hv'.none hn).resolve_left h2) _ _ _ _ b1 b2
    | false =>
      by_contra hn
      rw [Bool.not_eq_false] at hn
      obtain ⟨v, a, q1, q2, -⟩ := hv'.found hn
      obtain ⟨b1, b2⟩ := back _ _ _ _ q1 q2
      exact ((hv.none hr).resolve_left h1) _ _ _ _ b1 b2
  have main : res.success = true → res'.point = s • res.point ∧ ∀ t, res'.c_of_t.eval (k * t) = s • res.c_of_t.eval t := by
    intro hr
    obtain ⟨v, a, q1, q2, q3⟩ := hv.found hr
    obtain ⟨v', a', r1, r2, r3⟩ := hv'.found (hsucc.trans hr)
    obtain ⟨b1, b2⟩ := back _ _ _ _ r1 r2
    obtain ⟨w, hw, hcost⟩ := hm.motionCost hs hk
    obtain ⟨w', hw', hcost'⟩ := (hm.inv hs hk).motionCost hsi hki
    have hx : s⁻¹ • res'.point = res.point := by
      refine C108_unique d Ts g h hf l hl hc _ _ _ _ _ _ _ _ q1 b1 q2 b2 q3 fun y cy vy ay y1 y2 => ?_
      obtain ⟨f1, f2⟩ := forth _ _ _ _ y1 y2
      have m1 := r3 _ _ _ _ f1 f2
      have m2 := hcost' (TTime.units k l) res'.point a'
      have m3 := hcost' (TTime.units k l) (s • y) (fun t => (s / k ^ 2) • ay (t / k))
      rw [units_units hk] at m2 m3
      rw [m2]
      have e : (fun t => (s⁻¹ / k⁻¹ ^ 2) • (s / k ^ 2) • ay (t / k⁻¹ / k)) = ay := by
        funext t
        have e1 : s⁻¹ / k⁻¹ ^ 2 * (s / k ^ 2) = 1 := by field_simp
        have e2 : t / k⁻¹ / k = t := by field_simp
        rw [smul_smul, e1, e2, one_smul]
      have e' : s⁻¹ • s • y = y := by rw [smul_smul, inv_mul_cancel₀ hs.ne', one_smul]
      rw [e, e'] at m3
      rw [m3]
      exact mul_le_mul_of_nonneg_left m1 hw'.le
    refine ⟨by rw [← hx, smul_smul, mul_inv_cancel₀ hs.ne', one_smul], fun t => ?_⟩
    rw [hx] at b1
    have := congrFun (motion_unique q1 b1).1 t
    rw [← this, smul_smul, mul_inv_cancel₀ hs.ne', one_smul]
    congr 1
    field_simp
  exact ⟨hsucc, fun hr => (main hr).1, fun hr => (main hr).2⟩

/-- C112, `computeCOMTrajFixedSize`. The plan does not depend on the units of length and time. -/
theorem C112_fixedSize (lib : Lib) (hL : LibOk lib) (he : lib.eps = 0) (s k : ℝ) (hs : 0 < s) (hk : 0 < k) (d d' : ProblemData)
    (hm : UnitsProblem s k d d') (Ts : List ℝ) (g : V3) (h : Accepted d Ts g) (hr : d.representation = DOUBLE_DESCRIPTION)
    (hf : d.flag ∈ [11#32, 19#32, 27#32, 7#32, 15#32]) (n : ℕ) (hn : 0 < n)
    (hc : d.costFunction = DISTANCE_TRAVELED ∨ d.costFunction = ACCELERATION)
    (hlim : ∀ q ∈ [(d, Ts), (d', Ts.map (k * ·))], ∀ A b,
      computeConstraintsOneStep q.1 q.2.length q.2.sum (computeDiscretizedTimeFixed q.2 n) = .ok (A, b) → 2 ^ A.rows < lib.maxIter) :
    ∃ res res' N, (∀ fuel ≥ N, computeCOMTrajFixedSize lib fuel d Ts n = .ok res) ∧
      (∀ fuel ≥ N, computeCOMTrajFixedSize lib fuel d' (Ts.map (k * ·)) n = .ok res') ∧ UnitsResult s k res res' := by
  have h' := hm.accepted hs hk h
  have hl : Discretisation Ts (computeDiscretizedTimeFixed Ts n) := Or.inl ⟨n, hn, rfl⟩
  obtain ⟨res, N, hrun, -, hv⟩ := C56_fixedSize_partial lib hL he d Ts g h hr hf n hn hc
  obtain ⟨res', N', hrun', -, hv'⟩ := C56_fixedSize_partial lib hL he d' _ _ h' (hm.repr.trans hr) (hm.flag ▸ hf) n hn
    (by rw [hm.cost]; exact hc)
  obtain ⟨A, b, hA, -⟩ := C18_in_bounds_and_complete d Ts g h _ hl
  obtain ⟨A', b', hA', -⟩ := C18_in_bounds_and_complete d' _ _ h' _ (Or.inl ⟨n, hn, rfl⟩)
  have n1 := hlim (d, Ts) (by simp) A b hA
  have n2 := hlim (d', Ts.map (k * ·)) (by simp) A' b' hA'
  rw [fixed_units] at hv' hA'
  exact ⟨res, res', max N N', fun fuel hfuel => hrun fuel (le_trans (le_max_left _ _) hfuel),
    fun fuel hfuel => hrun' fuel (le_trans (le_max_right _ _) hfuel),
    hm.verdict hs hk h hf hl hc (fun q => absurd (q A b hA) (not_le.mpr n1))
      (fun q => absurd (q A' b' hA') (not_le.mpr n2)) hv hv'⟩

/-- C112, `computeCOMTraj` with a time step at most half of every phase. -/
theorem C112_timeStep (κ κ' : ℝ) (lib : Lib) (hL : LibOk lib) (he : lib.eps = 0) (s k : ℝ) (hs : 0 < s) (hk : 0 < k)
    (d d' : ProblemData) (hm : UnitsProblem s k d d') (Ts : List ℝ) (g : V3) (h : Accepted d Ts g)
    (hr : d.representation = DOUBLE_DESCRIPTION) (hf : d.flag ∈ [11#32, 19#32, 27#32, 7#32, 15#32])
    (step : ℝ) (hstep : 0 < step) (hshort : ∀ T ∈ Ts, step * 2 ≤ T)
    (hc : d.costFunction = DISTANCE_TRAVELED ∨ d.costFunction = ACCELERATION)
    (hlim : ∀ q ∈ [(d, Ts, step), (d', Ts.map (k * ·), k * step)], ∀ A b,
      computeConstraintsOneStep q.1 q.2.1.length q.2.1.sum (allSamples q.2.2 q.2.1 0 0) = .ok (A, b) → 2 ^ A.rows < lib.maxIter) :
    ∃ res res' N, (∀ fuel ≥ N, computeCOMTraj κ lib fuel d Ts step SOLVER_QUADPROG = .ok res) ∧
      (∀ fuel ≥ N, computeCOMTraj κ' lib fuel d' (Ts.map (k * ·)) (k * step) SOLVER_QUADPROG = .ok res') ∧
      UnitsResult s k res res' := by
  have h' := hm.accepted hs hk h
  have hks : 0 < k * step := mul_pos hk hstep
  obtain ⟨l, res, N, hl, hdisc, hrun, -, hv⟩ := C56_timeStep_partial κ lib hL he d Ts g h hr hf step hstep hshort hc
  obtain ⟨l', res', N', hl', hdisc', hrun', -, hv'⟩ := C56_timeStep_partial κ' lib hL he d' _ _ h' (hm.repr.trans hr)
    (hm.flag ▸ hf) (k * step) hks (by
      intro T' hT'
      obtain ⟨T, hT, rfl⟩ := List.mem_map.mp hT'
      have := mul_le_mul_of_nonneg_left (hshort T hT) hk.le
      linarith) (by rw [hm.cost]; exact hc)
  obtain rfl := (disc_eq Ts step hstep N l (hdisc N le_rfl)).2
  obtain rfl := (disc_eq _ (k * step) hks N' l' (hdisc' N' le_rfl)).2
  obtain ⟨A, b, hA, -⟩ := C18_in_bounds_and_complete d Ts g h _ hl
  obtain ⟨A', b', hA', -⟩ := C18_in_bounds_and_complete d' _ _ h' _ hl'
  have n1 := hlim (d, Ts, step) (by simp) A b hA
  have n2 := hlim (d', Ts.map (k * ·), k * step) (by simp) A' b' hA'
  have e := allSamples_units hk step Ts 0 0
  rw [mul_zero] at e
  rw [e] at hv' hA'
  exact ⟨res, res', max N N', fun fuel hfuel => hrun fuel (le_trans (le_max_left _ _) hfuel),
    fun fuel hfuel => hrun' fuel (le_trans (le_max_right _ _) hfuel),
    hm.verdict hs hk h hf hl hc (fun q => absurd (q A b hA) (not_le.mpr n1)) (fun q => absurd (q A' b' hA') (not_le.mpr n2)) hv hv'⟩

/-! ## Every problem in other units -/

/-- A problem in other units, with any margin `ρ'`: the right-hand sides of the rows are chosen for it. -/
noncomputable def ProblemData.units (d : ProblemData) (s k ρ' : ℝ) : ProblemData :=
  { d with
    contacts := d.contacts.map fun ct => { ct with
      contactPhase := ct.contactPhase.map fun e => { e with
        gravity := (s / k ^ 2) • e.gravity
        poly := e.poly.map fun r => ((s • r.1.1, r.1.2),
          max ρ' 0 + s ^ 2 / k ^ 2 * ((r.2 - max d.reduce_h 0) * rowNorm r.1) / rowNorm (s • r.1.1, r.1.2)) }
      kin := ct.kin.map (s * ·) }
    bc := d.bc.units s k
    maxAcceleration := s / k ^ 2 * d.maxAcceleration
    reduce_h := ρ' }

theorem dot_self_nonneg' (u : V3) : 0 ≤ dot u u := by
  simp only [dot]
  nlinarith [mul_self_nonneg (u 0), mul_self_nonneg (u 1), mul_self_nonneg (u 2)]

theorem dot_self_zero' (u : V3) (h : dot u u = 0) : u = 0 := by
  simp only [dot] at h
  ext k
  fin_cases k <;> simp <;> nlinarith [mul_self_nonneg (u 0), mul_self_nonneg (u 1), mul_self_nonneg (u 2)]

theorem rowNorm_ne (r : V3 × V3) (h : r ≠ 0) : rowNorm r ≠ 0 := by
  intro h0
  have h1 := (Real.sqrt_eq_zero (add_nonneg (dot_self_nonneg' _) (dot_self_nonneg' _))).mp h0
  have a1 := dot_self_nonneg' r.1
  have a2 := dot_self_nonneg' r.2
  exact h (Prod.ext (dot_self_zero' _ (by linarith)) (dot_self_zero' _ (by linarith)))

theorem ProblemData.inUnits (d : ProblemData) (s k ρ' : ℝ) (hs : 0 < s) (Ts : List ℝ) (g : V3) (h : Accepted d Ts g) :
    UnitsProblem s k d (d.units s k ρ') := by
  refine ⟨?_, rfl, rfl, rfl, rfl, rfl, rfl⟩
  unfold ProblemData.units
  dsimp only
  rw [List.forall₂_map_right_iff, List.forall₂_same]
  intro ct hct
  obtain ⟨e, ⟨he, -, -, hrows, -⟩, -⟩ := h.good ct hct
  refine ⟨⟨e, { e with gravity := (s / k ^ 2) • e.gravity
                       poly := e.poly.map fun r => ((s • r.1.1, r.1.2),
                         max ρ' 0 + s ^ 2 / k ^ 2 * ((r.2 - max d.reduce_h 0) * rowNorm r.1) / rowNorm (s • r.1.1, r.1.2)) },
    he, by simp [he], rfl, rfl, rfl, ?_⟩, rfl, rfl⟩
  dsimp only
  rw [List.forall₂_map_right_iff, List.forall₂_same]
  intro r hr
  refine ⟨1, one_pos, by simp, ?_⟩
  have hn : rowNorm (s • r.1.1, r.1.2) ≠ 0 := by
    refine rowNorm_ne _ fun h0 => hrows r hr ?_
    have a1 := congrArg Prod.fst h0
    have a2 := congrArg Prod.snd h0
    exact Prod.ext (by simpa [hs.ne'] using a1) a2
  simp only [one_mul]
  field_simp
  ring

/-- With another unit of time only, the margin and the right-hand sides are accelerations. -/
theorem UnitsEquilibrium.time (k ρ : ℝ) (hk : 0 < k) (e : Equilibrium) :
    UnitsEquilibrium 1 k ρ (ρ / k ^ 2) e { e with gravity := (1 / k ^ 2) • e.gravity, poly := e.poly.map fun r => (r.1, r.2 / k ^ 2) } := by
  refine ⟨rfl, rfl, rfl, ?_⟩
  dsimp only
  rw [List.forall₂_map_right_iff, List.forall₂_same]
  intro r _
  refine ⟨1, one_pos, by simp, ?_⟩
  have hk2 : 0 < k ^ 2 := by positivity
  have e1 : max (ρ / k ^ 2) 0 = max ρ 0 / k ^ 2 := by
    rw [← max_div_div_right hk2.le, zero_div]
  rw [e1]
  dsimp only
  ring

/-! ## The margin has no unit of length -/

/-- One phase of a robot of mass 1 that has to stay at the origin; the cone of wrenches has one row. -/
noncomputable def unitContact (α β γ : ℝ) : ContactData :=
  { pinned 0 with
    contactPhase := some
      { mass := 1, gravity := ![0, 0, -γ], poly := [((![0, 0, α], ![0, β, 0]), 0)], polyOk := true, isPP := true, gens := [] } }

noncomputable def unitProblem (α β γ ρ : ℝ) : ProblemData :=
  { pinnedProblem 0 ρ with contacts := [unitContact α β γ], maxAcceleration := 0 }

theorem unit_accepted (α β γ ρ : ℝ) (hα : 0 < α) : Accepted (unitProblem α β γ ρ) [1] ![0, 0, -γ] := by
  refine ⟨rfl, by simp, by simp, ?_, by simp [unitProblem, pinnedProblem, stillProblem, comFlags],
    by simp [unitProblem, pinnedProblem, stillProblem]⟩
  intro ct hct
  simp only [unitProblem, List.mem_singleton] at hct
  subst hct
  refine ⟨_, ⟨rfl, rfl, one_ne_zero, ?_, by simp [unitContact, pinned]⟩, rfl⟩
  intro r hr
  simp only [List.mem_singleton] at hr
  subst hr
  intro h
  have := congrFun (congrArg Prod.fst h) 2
  simp at this
  exact hα.ne' this

theorem unit_wrench (α β γ ρ : ℝ) (e : Equilibrium) (he : (unitContact α β γ).contactPhase = some e) :
    WrenchOk e ρ (e.mass • (e.gravity - 0)) (e.mass • cr ![0, 0, 0] (e.gravity - 0)) ↔ max ρ 0 * Real.sqrt (α ^ 2 + β ^ 2) ≤ α * γ := by
  simp only [unitContact, Option.some.injEq] at he
  subst he
  simp only [WrenchOk, WrenchRowOk, List.mem_singleton, forall_eq]
  have h1 : dot ![0, 0, α] ![0, 0, α] + dot ![0, β, 0] ![0, β, 0] = α ^ 2 + β ^ 2 := by
    simp [dot]
    ring
  have h2 : dot ![0, 0, α] ((1 : ℝ) • (![0, 0, -γ] - 0)) + dot ![0, β, 0] ((1 : ℝ) • cr ![0, 0, 0] (![0, 0, -γ] - 0)) = -(α * γ) := by
    simp [dot, cr, cross_apply]
  rw [h1, h2]
  simp only [abs_one, one_mul]
  constructor <;> intro h <;> linarith

theorem unit_meets (α β γ ρ : ℝ) (hα : 0 < α) :
    (∃ x c v a, Motion (unitProblem α β γ ρ) 1 x c v a ∧ MeetsSamples (unitProblem α β γ ρ) (computeDiscretizedTimeFixed [1] 2) c a)
      ↔ max ρ 0 * Real.sqrt (α ^ 2 + β ^ 2) ≤ α * γ := by
  have hkin : ∀ c, KinOk (unitContact α β γ) c ↔ c = ![0, 0, 0] := pinned_kin 0
  have hmot : ∀ x c v a, Motion (unitProblem α β γ ρ) 1 x c v a → _ := fun x c v a h => pinned_motion 0 ρ x c v a h
  constructor
  · rintro ⟨x, c, v, a, hm, hs, -⟩
    obtain ⟨ct, e, h1, h2, h3, h4⟩ := hs (1 / 2) 0 (Or.inl (by simpa using pinned_sample))
    simp only [unitProblem, List.getElem?_cons_zero, Option.some.injEq] at h1
    subst h1
    rw [hkin] at h4
    obtain ⟨q1, q2⟩ := hmot x c v a hm
    obtain ⟨r1, r2⟩ := q1 (q2 h4)
    rw [r1, r2] at h3
    exact (unit_wrench α β γ ρ e h2).mp h3
  · intro h
    have hacc := unit_accepted α β γ ρ hα
    obtain ⟨pts, hpts⟩ := C01_answers (unitProblem α β γ ρ).flag hacc.flag (unitProblem α β γ ρ).bc 1
      (by simp [unitProblem, pinnedProblem, stillProblem])
    obtain ⟨v, a, hm⟩ := motion_exists _ 1 pts hpts hacc.flag one_ne_zero ![0, 0, 0]
    obtain ⟨r1, r2⟩ := (hmot _ _ v a hm).1 rfl
    refine ⟨_, _, v, a, hm, ?_, by simp [unitProblem, pinnedProblem, stillProblem]⟩
    intro t q hq
    have hl : Discretisation [1] (computeDiscretizedTimeFixed [1] 2) := Or.inl ⟨2, two_pos, rfl⟩
    have hq' : q < 1 := (hq.lt (hl.tags hacc.ne hacc.pos).1).1
    obtain rfl : q = 0 := by omega
    refine ⟨unitContact α β γ, _, rfl, rfl, ?_, ?_⟩
    · rw [r1, r2]
      exact (unit_wrench α β γ ρ _ rfl).mpr h
    · rw [hkin, r1]

theorem unit_run (α β γ ρ : ℝ) (hα : 0 < α) (lib : Lib) (hL : LibOk lib) (he : lib.eps = 0)
    (hlim : ∀ A b, computeConstraintsOneStep (unitProblem α β γ ρ) 1 1 (computeDiscretizedTimeFixed [1] 2) = .ok (A, b) →
      2 ^ A.rows < lib.maxIter) :
    ∃ res N, (∀ fuel ≥ N, computeCOMTrajFixedSize lib fuel (unitProblem α β γ ρ) [1] 2 = .ok res) ∧
      (res.success = true ↔ max ρ 0 * Real.sqrt (α ^ 2 + β ^ 2) ≤ α * γ) := by
  have hacc := unit_accepted α β γ ρ hα
  obtain ⟨res, N, hrun, -, hv⟩ := C56_fixedSize_partial lib hL he _ [1] _ hacc rfl
    (by simp [unitProblem, pinnedProblem, stillProblem]) 2 two_pos (Or.inr rfl)
  obtain ⟨A, b, hA, -⟩ := C18_in_bounds_and_complete _ [1] _ hacc _ (Or.inl ⟨2, two_pos, rfl⟩)
  refine ⟨res, N, hrun, ?_⟩
  rw [← unit_meets α β γ ρ hα]
  have hs : ([1] : List ℝ).sum = 1 := by simp
  rw [hs] at hv hA
  constructor
  · intro hr
    obtain ⟨v, a, q1, q2, -⟩ := hv.found hr
    exact ⟨_, _, v, a, q1, q2⟩
  · rintro ⟨x, c, v, a, q1, q2⟩
    by_contra hn
    rw [Bool.not_eq_true] at hn
    rcases hv.none hn with h | h
    · exact absurd (h A b hA) (not_le.mpr (hlim A b hA))
    · exact h _ _ _ _ q1 q2

/-- Apart from the margin the problems are the same in other units of length. -/
theorem unit_units (α β γ s : ℝ) : UnitsProblem s 1 (unitProblem α β γ 0) (unitProblem (s * α) β (s * γ) 0) := by
  refine ⟨.cons ⟨⟨_, _, rfl, rfl, rfl, ?_, rfl, .cons ⟨1, one_pos, ?_, ?_⟩ .nil⟩, rfl, ?_⟩ .nil, ?_, rfl, rfl, ?_, rfl, rfl⟩
  · ext j
    fin_cases j <;> simp
  · ext j
    · fin_cases j <;> simp
    · fin_cases j <;> simp
  · simp [unitProblem, pinnedProblem, stillProblem]
  · simp [unitContact, pinned]
  · simp [unitProblem, pinnedProblem, BC.translate, BC.units]
  · simp [unitProblem]

theorem unit_differ {A B α β α' : ℝ} {ρ ρ' s : ℝ} (hAB : A ≠ B) (hα : 0 < α) (hα' : α' = s * α) (hs : 0 < s)
    (h1 : ∀ γ, max ρ 0 * Real.sqrt (α ^ 2 + β ^ 2) ≤ α * γ ↔ A ≤ γ)
    (h2 : ∀ γ, max ρ' 0 * Real.sqrt (α' ^ 2 + β ^ 2) ≤ α' * (s * γ) ↔ B ≤ γ) :
    ∃ γ, ∀ lib, LibOk lib → lib.eps = 0 →
      (∀ q ∈ [unitProblem α β γ ρ, unitProblem (s * α) β (s * γ) ρ'], ∀ M b,
        computeConstraintsOneStep q 1 1 (computeDiscretizedTimeFixed [1] 2) = .ok (M, b) → 2 ^ M.rows < lib.maxIter) →
      ∃ res res' N, (∀ fuel ≥ N, computeCOMTrajFixedSize lib fuel (unitProblem α β γ ρ) [1] 2 = .ok res) ∧
        (∀ fuel ≥ N, computeCOMTrajFixedSize lib fuel (unitProblem (s * α) β (s * γ) ρ') [1] 2 = .ok res') ∧
        res'.success ≠ res.success := by
  subst hα'
  refine ⟨(A + B) / 2, fun lib hL he hlim => ?_⟩
  obtain ⟨res, N, q1, q2⟩ := unit_run α β ((A + B) / 2) ρ hα lib hL he (hlim _ (by simp))
  obtain ⟨res', N', r1, r2⟩ := unit_run (s * α) β (s * ((A + B) / 2)) ρ' (mul_pos hs hα) lib hL he (hlim _ (by simp))
  rw [h1] at q2
  rw [h2] at r2
  refine ⟨res, res', max N N', fun fuel hf => q1 fuel (le_trans (le_max_left _ _) hf),
    fun fuel hf => r1 fuel (le_trans (le_max_right _ _) hf), fun e => ?_⟩
  rw [e, q2] at r2
  rcases lt_or_gt_of_ne hAB with h | h
  · have := r2.mp (by linarith)
    linarith
  · have := r2.mpr (by linarith)
    linarith

/-- C112, the limit of the claim. If the unit of length changes, no margin in the new unit is right for all problems whose
polytopes are cones (right-hand sides 0). -/
theorem C112_margin_refuted (ρ : ℝ) (hρ : 0 < ρ) (s : ℝ) (hs : 0 < s) (h1 : s ≠ 1) (ρ' : ℝ) :
    ∃ d d', UnitsProblem s 1 { d with reduce_h := 0 } { d' with reduce_h := 0 } ∧ d.reduce_h = ρ ∧ d'.reduce_h = ρ' ∧
      (∃ g, Accepted d [1] g) ∧ ∀ lib, LibOk lib → lib.eps = 0 →
        (∀ q ∈ [d, d'], ∀ A b, computeConstraintsOneStep q 1 1 (computeDiscretizedTimeFixed [1] 2) = .ok (A, b) →
          2 ^ A.rows < lib.maxIter) →
        ∃ res res' N, (∀ fuel ≥ N, computeCOMTrajFixedSize lib fuel d [1] 2 = .ok res) ∧
          (∀ fuel ≥ N, computeCOMTrajFixedSize lib fuel d' [1] 2 = .ok res') ∧ res'.success ≠ res.success := by
  have hm : max ρ 0 = ρ := max_eq_left hρ.le
  by_cases hc : max ρ' 0 = ρ * s
  · have hne : ρ * Real.sqrt 2 ≠ ρ * Real.sqrt (s ^ 2 + 1) / s := by
      intro e
      have e1 : s * Real.sqrt 2 = Real.sqrt (s ^ 2 + 1) := by
        field_simp at e
        linarith
      have e2 := congrArg (· ^ 2) e1
      simp only [mul_pow] at e2
      rw [Real.sq_sqrt (by norm_num), Real.sq_sqrt (by positivity)] at e2
      have e3 : (s - 1) * (s + 1) = 0 := by linarith
      rcases mul_eq_zero.mp e3 with h | h
      · exact h1 (by linarith)
      · linarith
    obtain ⟨γ, hγ⟩ := unit_differ (α := 1) (β := 1) (α' := s * 1) (ρ := ρ) (ρ' := ρ') hne one_pos rfl hs (by
        intro γ
        rw [hm]
        norm_num) (by
        intro γ
        rw [hc, div_le_iff₀ hs, mul_one, one_pow]
        constructor
        · intro h
          have : s * (ρ * Real.sqrt (s ^ 2 + 1)) ≤ s * (γ * s) := by linarith
          exact le_of_mul_le_mul_left this hs
        · intro h
          have := mul_le_mul_of_nonneg_left h hs.le
          linarith)
    exact ⟨_, _, unit_units 1 1 γ s, rfl, rfl, ⟨_, unit_accepted 1 1 γ ρ one_pos⟩, hγ⟩
  · have hne : ρ ≠ max ρ' 0 / s := by
      intro e
      apply hc
      rw [e]
      field_simp
    obtain ⟨γ, hγ⟩ := unit_differ (α := 1) (β := 0) (α' := s * 1) (ρ := ρ) (ρ' := ρ') hne one_pos rfl hs (by
        intro γ
        rw [hm]
        norm_num) (by
        intro γ
        rw [mul_one, zero_pow two_ne_zero, add_zero, Real.sqrt_sq hs.le, div_le_iff₀ hs]
        constructor
        · intro h
          have : s * max ρ' 0 ≤ s * (γ * s) := by linarith
          exact le_of_mul_le_mul_left this hs
        · intro h
          have := mul_le_mul_of_nonneg_left h hs.le
          linarith)
    exact ⟨_, _, unit_units 1 0 γ s, rfl, rfl, ⟨_, unit_accepted 1 0 γ ρ one_pos⟩, hγ⟩

/-- A non-trivial case of C112: the robot at rest with a margin, in centimetres and milliseconds. Both calls succeed. -/
example : ∃ maxIter res res' N,
    (∀ fuel ≥ N, computeCOMTrajFixedSize (exactLib maxIter) fuel (unitProblem 1 1 9.81 0.1) [1] 2 = .ok res) ∧
    (∀ fuel ≥ N, computeCOMTrajFixedSize (exactLib maxIter) fuel ((unitProblem 1 1 9.81 0.1).units 100 1000 0.001) [1000] 2 = .ok res') ∧
    res.success = true ∧ UnitsResult 100 1000 res res' := by
  have hacc := unit_accepted 1 1 9.81 0.1 one_pos
  have hm := (unitProblem 1 1 9.81 0.1).inUnits 100 1000 0.001 (by norm_num) _ _ hacc
  have hacc' := hm.accepted (by norm_num) (by norm_num) hacc
  have eT : ([1] : List ℝ).map (1000 * ·) = [1000] := by simp
  have e1 : ([1] : List ℝ).sum = 1 := by simp
  obtain ⟨A, b, hA, -⟩ := C18_in_bounds_and_complete _ _ _ hacc _ (Or.inl ⟨2, two_pos, rfl⟩ : Discretisation [1] (computeDiscretizedTimeFixed [1] 2))
  obtain ⟨A', b', hA', -⟩ := C18_in_bounds_and_complete _ _ _ hacc' _ (Or.inl ⟨2, two_pos, rfl⟩)
  have z1 : 0 < 2 ^ A.rows := Nat.two_pow_pos _
  have z2 : 0 < 2 ^ A'.rows := Nat.two_pow_pos _
  have hM : (exactLib (2 ^ A.rows + 2 ^ A'.rows)).maxIter = 2 ^ A.rows + 2 ^ A'.rows := rfl
  obtain ⟨res, res', N, r1, r2, r3⟩ := C112_fixedSize (exactLib (2 ^ A.rows + 2 ^ A'.rows)) (exactLib_ok _) rfl 100 1000 (by norm_num)
    (by norm_num) _ _ hm [1] _ hacc rfl (by simp [unitProblem, pinnedProblem, stillProblem]) 2 two_pos (Or.inr rfl) (by
      intro q hq B c hB
      simp only [List.mem_cons, List.not_mem_nil, or_false] at hq
      rw [hM]
      rcases hq with rfl | rfl
      · dsimp only at hB
        rw [hA] at hB
        cases hB
        omega
      · dsimp only at hB
        rw [hA'] at hB
        cases hB
        omega)
  obtain ⟨res0, N0, q1, q2⟩ := unit_run 1 1 9.81 0.1 one_pos (exactLib (2 ^ A.rows + 2 ^ A'.rows)) (exactLib_ok _) rfl (by
    intro B c hB
    rw [e1] at hA
    replace hA : computeConstraintsOneStep (unitProblem 1 1 9.81 0.1) 1 1 _ = _ := hA
    rw [hA] at hB
    cases hB
    rw [hM]
    omega)
  have e := q1 (max N N0) (le_max_right _ _)
  rw [r1 (max N N0) (le_max_left _ _)] at e
  cases e
  refine ⟨_, _, res', N, r1, by rw [← eT]; exact r2, q2.mpr ?_, r3⟩
  have h2 : Real.sqrt ((1 : ℝ) ^ 2 + 1 ^ 2) ≤ 2 := Real.sqrt_le_iff.mpr ⟨by norm_num, by norm_num⟩
  have h3 : max (0.1 : ℝ) 0 = 0.1 := max_eq_left (by norm_num)
  rw [h3]
  have := mul_le_mul_of_nonneg_left h2 (by norm_num : (0 : ℝ) ≤ 0.1)
  exact this.trans (by norm_num)

end Verif
