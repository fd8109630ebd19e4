import Verif.Lemmas.SamplePhase
import Verif.Props.C108
import Verif.Props.C25
import Verif.Props.C56Ex

/-!
# C110, C111: looser requirements, fewer samples, and the continuous formulation
-/

namespace Verif
open Matrix

/-- Every row of `L'` is a row of `L` with a bound at least as large. -/
def LooserRows {α : Type*} (L L' : List (α × ℝ)) : Prop := ∀ q' ∈ L', ∃ q ∈ L, q.1 = q'.1 ∧ q.2 ≤ q'.2

/-- A contact phase with fewer rows or larger bounds. -/
structure LooserContact (ct ct' : ContactData) : Prop where
  phase : ∃ e e', ct.contactPhase = some e ∧ ct'.contactPhase = some e' ∧ e'.mass = e.mass ∧ e'.gravity = e.gravity ∧
    LooserRows e.poly e'.poly
  kin : LooserRows (List.zip ct.Kin ct.kin) (List.zip ct'.Kin ct'.kin)

/-- A problem with the same boundary conditions and cost that asks for less. -/
structure Looser (d d' : ProblemData) : Prop where
  contacts : List.Forall₂ LooserContact d.contacts d'.contacts
  bc : d'.bc = d.bc
  flag : d'.flag = d.flag
  margin : d'.reduce_h ≤ d.reduce_h
  acc : d'.constraintAcceleration = true → d.constraintAcceleration = true ∧ d.maxAcceleration ≤ d'.maxAcceleration
  cost : d'.costFunction = d.costFunction
  repr : d'.representation = d.representation

theorem Looser.refl (d : ProblemData) (h : ∀ ct ∈ d.contacts, ct.contactPhase ≠ none) : Looser d d := by
  refine ⟨List.forall₂_same.mpr fun ct hct => ?_, rfl, rfl, le_rfl, fun h => ⟨h, le_rfl⟩, rfl, rfl⟩
  cases he : ct.contactPhase with
  | none => exact absurd he (h ct hct)
  | some e => exact ⟨⟨e, e, he, he, rfl, rfl, fun q hq => ⟨q, hq, rfl, le_rfl⟩⟩, fun q hq => ⟨q, hq, rfl, le_rfl⟩⟩

/-- The times of `l'` are times of `l`, for the same phases. -/
structure Coarser (l l' : TTime) : Prop where
  phases : ∀ t p, Constrained l' t p → Constrained l t p
  times : ∀ q' ∈ l', ∃ q ∈ l, q.1 = q'.1

theorem Looser.motion {d d' : ProblemData} (h : Looser d d') {T : ℝ} {x : V3} {c v a : ℝ → V3} :
    Motion d' T x c v a ↔ Motion d T x c v a := by
  unfold Motion
  rw [h.flag, h.bc]

theorem Looser.motionCost {d d' : ProblemData} (h : Looser d d') (l : TTime) (x : V3) (a : ℝ → V3) :
    motionCost d' l x a = motionCost d l x a := by
  unfold Verif.motionCost
  rw [h.cost, h.bc]

theorem LooserRows.wrench {e e' : Equilibrium} {ρ ρ' : ℝ} {f τ : V3} (h : LooserRows e.poly e'.poly) (hm : e'.mass = e.mass)
    (hρ : ρ' ≤ ρ) (hw : WrenchOk e ρ f τ) : WrenchOk e' ρ' f τ := by
  intro r' hr'
  obtain ⟨r, hr, h1, h2⟩ := h r' hr'
  have := hw r hr
  unfold WrenchRowOk at this ⊢
  rw [hm, ← h1]
  refine this.trans (mul_le_mul_of_nonneg_right ?_ (mul_nonneg (abs_nonneg _) (Real.sqrt_nonneg _)))
  have := max_le_max_right 0 hρ
  linarith

theorem Looser.meets {d d' : ProblemData} (h : Looser d d') {l l' : TTime} (hl : Coarser l l') {c a : ℝ → V3}
    (hs : MeetsSamples d l c a) : MeetsSamples d' l' c a := by
  refine ⟨fun t i hti => ?_, fun hA q' hq' k => ?_⟩
  · obtain ⟨ct, e, h1, h2, h3, h4⟩ := hs.1 t i (hl.phases t i hti)
    obtain ⟨hlen, H⟩ := List.forall₂_iff_get.mp h.contacts
    obtain ⟨hi, rfl⟩ := List.getElem?_eq_some_iff.mp h1
    obtain ⟨⟨e1, e', he, he', hm, hg, hp⟩, hk⟩ := H i hi (by omega)
    simp only [List.get_eq_getElem] at he he' hk
    rw [h2] at he
    cases he
    refine ⟨_, e', List.getElem?_eq_getElem (by omega), he', ?_, ?_⟩
    · rw [hg, hm]
      exact hp.wrench hm h.margin h3
    · intro q' hq'
      obtain ⟨q, hq, k1, k2⟩ := hk q' hq'
      rw [← k1]
      exact (h4 q hq).trans k2
  · obtain ⟨hA', hle⟩ := h.acc hA
    obtain ⟨q, hq, e⟩ := hl.times q' hq'
    rw [← e]
    exact (hs.2 hA' q hq k).trans hle

theorem Coarser.refl (l : TTime) : Coarser l l := ⟨fun _ _ h => h, fun q h => ⟨q, h, rfl⟩⟩

/-- With a multiple of the number of points all the samples are kept. -/
theorem fixed_coarser (Ts : List ℝ) (hne : Ts ≠ []) (n m : ℕ) (hn : 0 < n) (hm : 0 < m) :
    Coarser (computeDiscretizedTimeFixed Ts (m * n)) (computeDiscretizedTimeFixed Ts n) := by
  have hmn : 0 < m * n := Nat.mul_pos hm hn
  have key : ∀ t p, Constrained (computeDiscretizedTimeFixed Ts n) t p → Constrained (computeDiscretizedTimeFixed Ts (m * n)) t p := by
    intro t p h
    rw [fixed_constrained Ts hne n hn] at h
    rw [fixed_constrained Ts hne (m * n) hmn]
    obtain ⟨hp, b, hb, rfl⟩ := h
    refine ⟨hp, m * b, Nat.mul_le_mul_left m hb, ?_⟩
    have h1 : (m : ℝ) ≠ 0 := by exact_mod_cast hm.ne'
    have h2 : (n : ℝ) ≠ 0 := by exact_mod_cast hn.ne'
    push_cast
    field_simp
  refine ⟨key, fun q' hq' => ?_⟩
  obtain ⟨k, hk, hlt⟩ := (fixed_tags n hn Ts hne).bound q' hq'
  obtain ⟨t, i⟩ := q'
  simp only [Nat.cast_inj] at hk
  subst hk
  obtain ⟨-, j, hj⟩ := (key t k (Or.inl hq')).lt (fixed_tags (m * n) hmn Ts hne)
  exact ⟨_, hj, rfl⟩

/-- With a multiple of the time step samples are removed only. -/
theorem step_coarser (Ts : List ℝ) (hne : Ts ≠ []) (hpos : ∀ T ∈ Ts, 0 < T) (step : ℝ) (hs : 0 < step) (m : ℕ) (hm : 0 < m) :
    Coarser (allSamples step Ts 0 0) (allSamples (m * step) Ts 0 0) := by
  have hms : 0 < (m : ℝ) * step := mul_pos (by exact_mod_cast hm) hs
  have key : ∀ t p, Constrained (allSamples (m * step) Ts 0 0) t p → Constrained (allSamples step Ts 0 0) t p := by
    intro t p h
    rw [step_constrained Ts hpos _ hms] at h
    rw [step_constrained Ts hpos _ hs]
    obtain ⟨hp, ⟨k, hk, rfl⟩ | h⟩ := h
    · refine ⟨hp, Or.inl ⟨k * m, ?_, ?_⟩⟩ <;> push_cast
      · rwa [mul_assoc]
      · rw [mul_assoc]
    · exact ⟨hp, Or.inr h⟩
  have hnn : ∀ T ∈ Ts, 0 ≤ T := fun T hT => (hpos T hT).le
  have t1 : TagsFrom Ts.length 0 (allSamples (m * step) Ts 0 0) := by simpa using allSamples_tags _ hms Ts hne hnn 0 0
  have t2 : TagsFrom Ts.length 0 (allSamples step Ts 0 0) := by simpa using allSamples_tags _ hs Ts hne hnn 0 0
  refine ⟨key, fun q' hq' => ?_⟩
  obtain ⟨k, hk, hlt⟩ := t1.bound q' hq'
  obtain ⟨t, i⟩ := q'
  simp only [Nat.cast_inj] at hk
  subst hk
  obtain ⟨-, j, hj⟩ := (key t k (Or.inl hq')).lt t2
  exact ⟨_, hj, rfl⟩

/-- The result of a call with looser requirements, compared to the result of a call: no success is lost, and the motion has
no larger cost. -/
def NotWorse (d : ProblemData) (T : ℝ) (l : TTime) (res res' : ResultDataCOMTraj) : Prop :=
  res.success = true → res'.success = true ∧ ∃ v a v' a', Motion d T res.point res.c_of_t.eval v a ∧
    Motion d T res'.point res'.c_of_t.eval v' a' ∧ motionCost d l res'.point a' ≤ motionCost d l res.point a

theorem Looser.verdict {d d' : ProblemData} (h : Looser d d') {T : ℝ} {l l' : TTime} (hl : Coarser l l') {lim lim' : Prop}
    (h2 : ¬ lim') {res res' : ResultDataCOMTraj} (hv : Verdict d T l lim res) (hv' : Verdict d' T l' lim' res') :
    NotWorse d T l' res res' := by
  intro hr
  obtain ⟨v, a, q1, q2, -⟩ := hv.found hr
  have m1 := h.motion.mpr q1
  have m2 := h.meets hl q2
  have hs : res'.success = true := by
    by_contra hn
    rw [Bool.not_eq_true] at hn
    exact ((hv'.none hn).resolve_left h2) _ _ _ _ m1 m2
  obtain ⟨v', a', r1, -, r3⟩ := hv'.found hs
  refine ⟨hs, v, a, v', a', q1, h.motion.mp r1, ?_⟩
  have := r3 _ _ _ _ m1 m2
  rwa [h.motionCost, h.motionCost] at this

/-- C110, `computeCOMTrajFixedSize`. A problem that asks for less, with a number of points that divides the one of the first
call, is solved whenever the first one is, at no larger cost. -/
theorem C110_fixedSize (lib : Lib) (hL : LibOk lib) (he : lib.eps = 0) (d d' : ProblemData) (hd : Looser d d') (Ts : List ℝ)
    (g g' : V3) (h : Accepted d Ts g) (h' : Accepted d' Ts g') (hr : d.representation = DOUBLE_DESCRIPTION)
    (hf : d.flag ∈ [11#32, 19#32, 27#32, 7#32, 15#32]) (n m : ℕ) (hn : 0 < n) (hm : 0 < m)
    (hc : d.costFunction = DISTANCE_TRAVELED ∨ d.costFunction = ACCELERATION)
    (hlim : ∀ A b, computeConstraintsOneStep d' Ts.length Ts.sum (computeDiscretizedTimeFixed Ts n) = .ok (A, b) →
      2 ^ A.rows < lib.maxIter) :
    ∃ res res' N, (∀ fuel ≥ N, computeCOMTrajFixedSize lib fuel d Ts (m * n) = .ok res) ∧
      (∀ fuel ≥ N, computeCOMTrajFixedSize lib fuel d' Ts n = .ok res') ∧
      NotWorse d Ts.sum (computeDiscretizedTimeFixed Ts n) res res' := by
  obtain ⟨res, N, hrun, -, hv⟩ := C56_fixedSize_partial lib hL he d Ts g h hr hf (m * n) (Nat.mul_pos hm hn) hc
  obtain ⟨res', N', hrun', -, hv'⟩ := C56_fixedSize_partial lib hL he d' Ts g' h' (hd.repr.trans hr) (hd.flag ▸ hf) n hn
    (by rw [hd.cost]; exact hc)
  obtain ⟨A', b', hA', -⟩ := C18_in_bounds_and_complete d' Ts g' h' _ (Or.inl ⟨n, hn, rfl⟩)
  refine ⟨res, res', max N N', fun fuel hfuel => hrun fuel (le_trans (le_max_left _ _) hfuel),
    fun fuel hfuel => hrun' fuel (le_trans (le_max_right _ _) hfuel), hd.verdict (fixed_coarser Ts h.ne n m hn hm) ?_ hv hv'⟩
  intro q
  exact absurd (q A' b' hA') (not_le.mpr (hlim A' b' hA'))

/-- C110, `computeCOMTraj` with a time step at most half of every phase, and with a divisor of this step. -/
theorem C110_timeStep (κ : ℝ) (lib : Lib) (hL : LibOk lib) (he : lib.eps = 0) (d d' : ProblemData) (hd : Looser d d')
    (Ts : List ℝ) (g g' : V3) (h : Accepted d Ts g) (h' : Accepted d' Ts g') (hr : d.representation = DOUBLE_DESCRIPTION)
    (hf : d.flag ∈ [11#32, 19#32, 27#32, 7#32, 15#32]) (step : ℝ) (hstep : 0 < step) (m : ℕ) (hm : 0 < m)
    (hshort : ∀ T ∈ Ts, (m * step) * 2 ≤ T) (hc : d.costFunction = DISTANCE_TRAVELED ∨ d.costFunction = ACCELERATION)
    (hlim : ∀ A b, computeConstraintsOneStep d' Ts.length Ts.sum (allSamples (m * step) Ts 0 0) = .ok (A, b) →
      2 ^ A.rows < lib.maxIter) :
    ∃ res res' N, (∀ fuel ≥ N, computeCOMTraj κ lib fuel d Ts step SOLVER_QUADPROG = .ok res) ∧
      (∀ fuel ≥ N, computeCOMTraj κ lib fuel d' Ts (m * step) SOLVER_QUADPROG = .ok res') ∧
      NotWorse d Ts.sum (allSamples (m * step) Ts 0 0) res res' := by
  have h1 : (1 : ℝ) ≤ m := by exact_mod_cast hm
  have hms : 0 < (m : ℝ) * step := mul_pos (by linarith) hstep
  obtain ⟨l, res, N, hl, hdisc, hrun, -, hv⟩ := C56_timeStep_partial κ lib hL he d Ts g h hr hf step hstep
    (fun T hT => by have := hshort T hT; nlinarith) hc
  obtain ⟨l', res', N', hl', hdisc', hrun', -, hv'⟩ := C56_timeStep_partial κ lib hL he d' Ts g' h' (hd.repr.trans hr)
    (hd.flag ▸ hf) (m * step) hms hshort (by rw [hd.cost]; exact hc)
  obtain rfl := (disc_eq Ts step hstep N l (hdisc N le_rfl)).2
  obtain rfl := (disc_eq Ts (m * step) hms N' l' (hdisc' N' le_rfl)).2
  obtain ⟨A', b', hA', -⟩ := C18_in_bounds_and_complete d' Ts g' h' _ hl'
  refine ⟨res, res', max N N', fun fuel hfuel => hrun fuel (le_trans (le_max_left _ _) hfuel),
    fun fuel hfuel => hrun' fuel (le_trans (le_max_right _ _) hfuel),
    hd.verdict (step_coarser Ts h.ne h.pos step hstep m hm) ?_ hv hv'⟩
  intro q
  exact absurd (q A' b' hA') (not_le.mpr (hlim A' b' hA'))

/-! ## The continuous formulation -/

theorem AcceptedC.accepted {d : ProblemData} {Ts : List ℝ} {g : V3} (h : AcceptedC d Ts g)
    (hr : d.representation = DOUBLE_DESCRIPTION) : Accepted d Ts g := by
  refine ⟨h.size, h.ne, h.pos, fun ct hct => ?_, h.flag, h.capt⟩
  obtain ⟨e, -, h2, -, h4⟩ := h.phases ct hct
  exact ⟨e, h4 hr, h2⟩

/-- What a success of the continuous formulation says about any samples. -/
theorem continuous_verdict {κ : ℝ} {d : ProblemData} {Ts : List ℝ} {l : TTime} (hl : ∀ t p, Constrained l t p → InPhase Ts p t)
    (hl2 : ∀ q ∈ l, 0 ≤ q.1 ∧ q.1 ≤ Ts.sum) (hne : Ts ≠ [])
    (hk : d.constraintAcceleration = true → 1 ≤ |κ| * Ts.sum ^ 2) {c a : ℝ → V3}
    (h1 : ∀ p t, InPhase Ts p t → AtPhase d.contacts p fun ct e => PhaseOk ct e d.reduce_h (c t) (a t))
    (h2 : ∀ p t, InPhase Ts p t → ∀ k, |κ * Ts.sum ^ 2 * a t k| ≤ d.maxAcceleration) : MeetsSamples d l c a := by
  refine ⟨fun t p ht => h1 p t (hl t p ht), fun hA q hq k => ?_⟩
  obtain ⟨p, hp⟩ := inPhase_exists Ts hne q.1 (hl2 q hq).1 (hl2 q hq).2
  have := h2 p q.1 hp k
  rw [abs_mul, abs_mul, abs_of_nonneg (sq_nonneg Ts.sum)] at this
  have h3 := hk hA
  nlinarith [abs_nonneg (a q.1 k)]

/-- A success of the continuous formulation, as a motion which meets the requirements at all samples. -/
theorem continuous_meets (κ : ℝ) (lib : Lib) (hL : LibOk lib) (he : lib.eps = 0) (d : ProblemData) (Ts : List ℝ) (g : V3)
    (h : AcceptedC d Ts g) (hr : d.representation = DOUBLE_DESCRIPTION) (hf : d.flag ∈ [11#32, 19#32, 27#32, 7#32, 15#32])
    (step : ℝ) (hstep : step ≤ 0) (hc : d.costFunction = DISTANCE_TRAVELED ∨ d.costFunction = ACCELERATION)
    (hk : d.constraintAcceleration = true → 1 ≤ |κ| * Ts.sum ^ 2)
    (pts : List V3) (hpts : computeConstantWaypoints d.flag d.bc Ts.sum = .ok pts)
    (hz : ∀ i < pts.length, i ∉ freeSlots d.flag → ∃ k, 1e-12 < |nth pts i k|) :
    ∃ res N, (∀ fuel ≥ N, computeCOMTraj κ lib fuel d Ts step SOLVER_QUADPROG = .ok res) ∧
      (res.success = true → ∃ v a, Motion d Ts.sum res.point res.c_of_t.eval v a ∧
        ∀ l, (∀ t p, Constrained l t p → InPhase Ts p t) → (∀ q ∈ l, 0 ≤ q.1 ∧ q.1 ≤ Ts.sum) →
          MeetsSamples d l res.c_of_t.eval a) := by
  obtain ⟨S, res, N, hS, hrun, hsucc, -⟩ := C56_continuous_partial κ lib hL he d Ts g h hr hf step hstep hc pts hpts hz
  obtain ⟨S', hS', -, -, -, -, -, -, h7, -⟩ := C21_in_bounds_and_complete κ d Ts g h
  rw [hS] at hS'
  cases hS'
  obtain ⟨q1, q2, q3⟩ := h7 hr
  obtain ⟨res', N', hrun', hsucc', -⟩ := continuous_exact κ lib hL he d Ts g h step hstep
    (hc.imp_right fun hc => ⟨hc, fun e => by rw [e] at hf; simp at hf⟩) S hS (by omega)
  have e := hrun (max N N') (le_max_left _ _)
  rw [hrun' (max N N') (le_max_right _ _)] at e
  cases e
  refine ⟨res, N, hrun, fun hs => ?_⟩
  obtain ⟨-, v, a, hv, ha, m1, m2⟩ := hsucc hs
  obtain ⟨y, -, -, v', a', hm, -⟩ := hsucc' hs
  have hm' := hm
  obtain ⟨_, -, -, hv', ha'⟩ := hm'
  have e1 := deriv_unique hv hv'
  subst e1
  have e2 := deriv_unique ha ha'
  subst e2
  exact ⟨_, _, hm, fun l hl hl2 => continuous_verdict hl hl2 h.ne hk m1 m2⟩

theorem continuous_not_worse {d : ProblemData} {T : ℝ} {l : TTime} {lim : Prop} (h2 : ¬ lim) {res res' : ResultDataCOMTraj}
    (hres : res.success = true → ∃ v a, Motion d T res.point res.c_of_t.eval v a ∧ MeetsSamples d l res.c_of_t.eval a)
    (hv' : Verdict d T l lim res') : NotWorse d T l res res' := by
  intro hr
  obtain ⟨v, a, q1, q2⟩ := hres hr
  have hs : res'.success = true := by
    by_contra hn
    rw [Bool.not_eq_true] at hn
    exact ((hv'.none hn).resolve_left h2) _ _ _ _ q1 q2
  obtain ⟨v', a', r1, -, r3⟩ := hv'.found hs
  exact ⟨hs, v, a, v', a', q1, r1, r3 _ _ _ _ q1 q2⟩

/-- C111, `computeCOMTrajFixedSize`. What the continuous formulation solves is solved with any number of points per phase, at
no larger cost at the samples. -/
theorem C111_fixedSize (κ : ℝ) (lib : Lib) (hL : LibOk lib) (he : lib.eps = 0) (d : ProblemData) (Ts : List ℝ) (g : V3)
    (h : AcceptedC d Ts g) (hr : d.representation = DOUBLE_DESCRIPTION) (hf : d.flag ∈ [11#32, 19#32, 27#32, 7#32, 15#32])
    (step : ℝ) (hstep : step ≤ 0) (hc : d.costFunction = DISTANCE_TRAVELED ∨ d.costFunction = ACCELERATION)
    (hk : d.constraintAcceleration = true → 1 ≤ |κ| * Ts.sum ^ 2)
    (pts : List V3) (hpts : computeConstantWaypoints d.flag d.bc Ts.sum = .ok pts)
    (hz : ∀ i < pts.length, i ∉ freeSlots d.flag → ∃ k, 1e-12 < |nth pts i k|) (n : ℕ) (hn : 0 < n)
    (hlim : ∀ A b, computeConstraintsOneStep d Ts.length Ts.sum (computeDiscretizedTimeFixed Ts n) = .ok (A, b) →
      2 ^ A.rows < lib.maxIter) :
    ∃ res res' N, (∀ fuel ≥ N, computeCOMTraj κ lib fuel d Ts step SOLVER_QUADPROG = .ok res) ∧
      (∀ fuel ≥ N, computeCOMTrajFixedSize lib fuel d Ts n = .ok res') ∧
      NotWorse d Ts.sum (computeDiscretizedTimeFixed Ts n) res res' := by
  have h' := h.accepted hr
  obtain ⟨res, N, hrun, hm⟩ := continuous_meets κ lib hL he d Ts g h hr hf step hstep hc hk pts hpts hz
  obtain ⟨res', N', hrun', -, hv'⟩ := C56_fixedSize_partial lib hL he d Ts g h' hr hf n hn hc
  have hl : Discretisation Ts (computeDiscretizedTimeFixed Ts n) := Or.inl ⟨n, hn, rfl⟩
  obtain ⟨A', b', hA', -⟩ := C18_in_bounds_and_complete d Ts g h' _ hl
  refine ⟨res, res', max N N', fun fuel hfuel => hrun fuel (le_trans (le_max_left _ _) hfuel),
    fun fuel hfuel => hrun' fuel (le_trans (le_max_right _ _) hfuel),
    continuous_not_worse (fun q => absurd (q A' b' hA') (not_le.mpr (hlim A' b' hA'))) (fun hs => ?_) hv'⟩
  obtain ⟨v, a, q1, q2⟩ := hm hs
  exact ⟨v, a, q1, q2 _ (fixed_inPhase Ts h.ne h.pos n hn) (hl.tags h.ne h.pos).2⟩

/-- C111, `computeCOMTraj` with a time step at most half of every phase. -/
theorem C111_timeStep (κ : ℝ) (lib : Lib) (hL : LibOk lib) (he : lib.eps = 0) (d : ProblemData) (Ts : List ℝ) (g : V3)
    (h : AcceptedC d Ts g) (hr : d.representation = DOUBLE_DESCRIPTION) (hf : d.flag ∈ [11#32, 19#32, 27#32, 7#32, 15#32])
    (step : ℝ) (hstep : step ≤ 0) (hc : d.costFunction = DISTANCE_TRAVELED ∨ d.costFunction = ACCELERATION)
    (hk : d.constraintAcceleration = true → 1 ≤ |κ| * Ts.sum ^ 2)
    (pts : List V3) (hpts : computeConstantWaypoints d.flag d.bc Ts.sum = .ok pts)
    (hz : ∀ i < pts.length, i ∉ freeSlots d.flag → ∃ k, 1e-12 < |nth pts i k|) (dt : ℝ) (hdt : 0 < dt)
    (hshort : ∀ T ∈ Ts, dt * 2 ≤ T)
    (hlim : ∀ A b, computeConstraintsOneStep d Ts.length Ts.sum (allSamples dt Ts 0 0) = .ok (A, b) →
      2 ^ A.rows < lib.maxIter) :
    ∃ res res' N, (∀ fuel ≥ N, computeCOMTraj κ lib fuel d Ts step SOLVER_QUADPROG = .ok res) ∧
      (∀ fuel ≥ N, computeCOMTraj κ lib fuel d Ts dt SOLVER_QUADPROG = .ok res') ∧
      NotWorse d Ts.sum (allSamples dt Ts 0 0) res res' := by
  have h' := h.accepted hr
  obtain ⟨res, N, hrun, hm⟩ := continuous_meets κ lib hL he d Ts g h hr hf step hstep hc hk pts hpts hz
  obtain ⟨l, res', N', hl, hdisc, hrun', -, hv'⟩ := C56_timeStep_partial κ lib hL he d Ts g h' hr hf dt hdt hshort hc
  obtain rfl := (disc_eq Ts dt hdt N' l (hdisc N' le_rfl)).2
  obtain ⟨A', b', hA', -⟩ := C18_in_bounds_and_complete d Ts g h' _ hl
  refine ⟨res, res', max N N', fun fuel hfuel => hrun fuel (le_trans (le_max_left _ _) hfuel),
    fun fuel hfuel => hrun' fuel (le_trans (le_max_right _ _) hfuel),
    continuous_not_worse (fun q => absurd (q A' b' hA') (not_le.mpr (hlim A' b' hA'))) (fun hs => ?_) hv'⟩
  obtain ⟨v, a, q1, q2⟩ := hm hs
  exact ⟨v, a, q1, q2 _ (step_inPhase Ts h.pos dt hdt) (hl.tags h.ne h.pos).2⟩

/-! ## Examples -/

theorem pinned_looser (P ρ ρ' : ℝ) (h : ρ' ≤ ρ) : Looser (pinnedProblem P ρ) (pinnedProblem P ρ') := by
  refine ⟨.cons ⟨⟨_, _, rfl, rfl, rfl, rfl, fun q hq => ⟨q, hq, rfl, le_rfl⟩⟩, fun q hq => ⟨q, hq, rfl, le_rfl⟩⟩ .nil, rfl, rfl, h,
    fun q => ⟨q, le_rfl⟩, rfl, rfl⟩

/-- A non-trivial case of C110: the point at the origin with margin 1 and two points per phase; then without a margin and with
one point. Both calls succeed. -/
example : ∃ maxIter res res' N,
    (∀ fuel ≥ N, computeCOMTrajFixedSize (exactLib maxIter) fuel (pinnedProblem 0 1) [1] (2 * 1) = .ok res) ∧
    (∀ fuel ≥ N, computeCOMTrajFixedSize (exactLib maxIter) fuel (pinnedProblem 0 0) [1] 1 = .ok res') ∧
    res.success = true ∧ res'.success = true := by
  have hl : Discretisation [1] (computeDiscretizedTimeFixed [1] 2) := Or.inl ⟨2, two_pos, rfl⟩
  have hl' : Discretisation [1] (computeDiscretizedTimeFixed [1] 1) := Or.inl ⟨1, one_pos, rfl⟩
  obtain ⟨A, b, hA, -⟩ := C18_in_bounds_and_complete _ _ _ (pinned_accepted 0 1) _ hl
  obtain ⟨A', b', hA', -⟩ := C18_in_bounds_and_complete _ _ _ (pinned_accepted 0 0) _ hl'
  have hp : 0 < 2 ^ A.rows := by positivity
  have hp' : 0 < 2 ^ A'.rows := by positivity
  obtain ⟨res, res', N, r1, r2, r3⟩ := C110_fixedSize (exactLib (2 ^ A.rows + 2 ^ A'.rows)) (exactLib_ok _) rfl _ _
    (pinned_looser 0 1 0 zero_le_one) [1] _ _ (pinned_accepted 0 1) (pinned_accepted 0 0) rfl
    (by simp [pinnedProblem, stillProblem]) 1 2 one_pos two_pos (Or.inr rfl) (by
      intro A1 b1 h1
      replace h1 : computeConstraintsOneStep (pinnedProblem 0 0) 1 ([1] : List ℝ).sum (computeDiscretizedTimeFixed [1] 1) = _ := h1
      replace hA' : computeConstraintsOneStep (pinnedProblem 0 0) 1 ([1] : List ℝ).sum (computeDiscretizedTimeFixed [1] 1) = _ := hA'
      rw [hA'] at h1
      cases h1
      change _ < 2 ^ A.rows + 2 ^ A'.rows
      omega)
  obtain ⟨res0, N0, hrun0, -, hv0⟩ := C56_fixedSize_partial (exactLib (2 ^ A.rows + 2 ^ A'.rows)) (exactLib_ok _) rfl _ _ _
    (pinned_accepted 0 1) rfl (by simp [pinnedProblem, stillProblem]) 2 two_pos (Or.inr rfl)
  have e := hrun0 (max N N0) (le_max_right _ _)
  have r1' := r1 (max N N0) (le_max_left _ _)
  rw [show 2 * 1 = 2 from rfl, e] at r1'
  cases r1'
  have hs : res.success = true := by
    by_contra hn
    rw [Bool.not_eq_true] at hn
    obtain ⟨x, c, v, a, hm, hq⟩ := (pinned_meets 0 1 zero_le_one).mpr (by
      have : Real.sqrt ((1 + 0) ^ 2 + 1) ≤ 2 := Real.sqrt_le_iff.mpr ⟨by norm_num, by norm_num⟩
      rw [one_mul]
      refine this.trans ?_
      norm_num)
    rcases hv0.none hn with q | q
    · have := q A b hA
      change 2 ^ A.rows + 2 ^ A'.rows ≤ _ at this
      omega
    · exact q x c v a (by simpa using hm) hq
  exact ⟨_, res, res', N, r1, r2, hs, (r3 hs).1⟩

/-- A non-trivial case of C111: the standing robot with two phases and a bound on the acceleration, with the true factor of the
second derivative. Both calls succeed. -/
example : ∃ maxIter res res' N,
    (∀ fuel ≥ N, computeCOMTraj (1 / 9) (exactLib maxIter) fuel (standProblem 1) [1, 2] (-1) SOLVER_QUADPROG = .ok res) ∧
    (∀ fuel ≥ N, computeCOMTrajFixedSize (exactLib maxIter) fuel (standProblem 1) [1, 2] 5 = .ok res') ∧
    res.success = true ∧ res'.success = true := by
  have hacc := standProblem_accepted 1
  obtain ⟨M, hM⟩ := standProblem_succeeds (1 / 9)
  obtain ⟨A, b, hA, -⟩ := C18_in_bounds_and_complete _ _ _ (hacc.accepted rfl) _
    (Or.inl ⟨5, by norm_num, rfl⟩ : Discretisation [1, 2] (computeDiscretizedTimeFixed [1, 2] 5))
  obtain ⟨pts, hpts⟩ := C01_answers (standProblem 1).flag hacc.flag (standProblem 1).bc ([1, 2] : List ℝ).sum hacc.capt
  have hp : 0 < 2 ^ A.rows := by positivity
  obtain ⟨res0, N0, hrun0, hs0⟩ := hM (M + 1 + 2 ^ A.rows) (by omega)
  obtain ⟨res, res', N, r1, r2, r3⟩ := C111_fixedSize (1 / 9) (exactLib (M + 1 + 2 ^ A.rows)) (exactLib_ok _) rfl _ _ _ hacc rfl
    (by simp [standProblem]) (-1) (by norm_num) (Or.inr rfl) (fun _ => by norm_num) pts hpts (standProblem_hz 1 _ pts hpts) 5
    (by norm_num) (by
      intro A1 b1 h1
      rw [hA] at h1
      cases h1
      change _ < M + 1 + 2 ^ A.rows
      omega)
  have e := hrun0 (max N N0) (le_max_right _ _)
  rw [r1 (max N N0) (le_max_left _ _)] at e
  cases e
  exact ⟨_, _, res', N, r1, r2, hs0, (r3 hs0).1⟩

/-! ## The factor of the second derivative -/

/-- The acceleration of the motions of `shortProblem`, at both ends. -/
theorem short_motion (x : V3) (c v a : ℝ → V3) (h : Motion shortProblem (1 / 2) x c v a) :
    a 0 0 = 24 * (x 0 - 1) ∧ a (1 / 2) 0 = 24 * (4 - 2 * x 0) := by
  obtain ⟨pts, hpts, rfl, hv, ha⟩ := h
  have hp : pts = [![1, 0, 0], ![1, 0, 0], fun _ => 0, ![3, 0, 0]] := by
    simp [computeConstantWaypoints, shortProblem] at hpts
    rw [← hpts]
    simp only [c0_dc0_c1.computeConstantWaypoints]
    refine list4_eq ?_ ?_ ?_ ?_ <;> funext k <;> fin_cases k <;> norm_num
  have hfill : fill shortProblem.flag (nth pts) x = fun i => ([![1, 0, 0], ![1, 0, 0], x, ![3, 0, 0]] : List V3).getD i 0 := by
    rw [hp]
    funext i
    have : freeSlots shortProblem.flag = [2] := rfl
    match i with
    | 0 => simp [fill, this, nth]
    | 1 => simp [fill, this, nth]
    | 2 => simp [fill, this]
    | 3 => simp [fill, this, nth]
    | n + 4 => simp [fill, this, nth]
  obtain ⟨v', hv', ha'⟩ := curve_second [![1, 0, 0], ![1, 0, 0], x, ![3, 0, 0]] 1 rfl (1 / 2)
  rw [hfill] at hv
  have e1 := deriv_unique hv hv'
  subst e1
  have e2 := deriv_unique ha ha'
  subst e2
  constructor
  · simp only [zero_div]
    rw [bez_at_zero]
    simp [derivCtrl]
    change _ = 24 * (vecHead x - 1)
    ring
  · simp only [div_self (by norm_num : (1 / 2 : ℝ) ≠ 0)]
    rw [bez_at_one]
    simp [derivCtrl]
    change _ = 24 * (4 - 2 * vecHead x)
    ring

/-- C111, the limit of the claim. If the second derivative carries no factor `1 / T ^ 2`, there is a problem of half a second
which the continuous formulation solves and which is refused with every number of points. -/
theorem C111_factor_refuted (lib : Lib) (hL : LibOk lib) (he : lib.eps = 0)
    (hlim : ∀ S, computeConstraintsContinuous 1 shortProblem [1 / 2] = .ok S → 2 ^ S.A.rows < lib.maxIter) (n : ℕ) (hn : 0 < n) :
    ∃ res res' N, (∀ fuel ≥ N, computeCOMTraj 1 lib fuel shortProblem [1 / 2] (-1) SOLVER_QUADPROG = .ok res) ∧
      (∀ fuel ≥ N, computeCOMTrajFixedSize lib fuel shortProblem [1 / 2] n = .ok res') ∧
      res.success = true ∧ res'.success = false := by
  obtain ⟨S, y, pts, -, -, hS, hy, hpts, hz, -⟩ := C25_refuted_short
  have hacc := shortProblem_accepted
  obtain ⟨S', res, N, hS', hrun, -, hfail⟩ := C56_continuous_partial 1 lib hL he _ _ _ hacc rfl (by simp [shortProblem]) (-1)
    (by norm_num) (Or.inr rfl) pts hpts hz
  rw [hS] at hS'
  cases hS'
  obtain ⟨res', N', hrun', -, hv'⟩ := C56_fixedSize_partial lib hL he _ _ _ (hacc.accepted rfl) rfl (by simp [shortProblem]) n hn
    (Or.inr rfl)
  refine ⟨res, res', max N N', fun fuel hfuel => hrun fuel (le_trans (le_max_left _ _) hfuel),
    fun fuel hfuel => hrun' fuel (le_trans (le_max_right _ _) hfuel), ?_, ?_⟩
  · by_contra hs
    rcases hfail (by simpa using hs) with h1 | h1
    · exact absurd h1 (not_le.mpr (hlim S hS))
    · exact h1 y hy
  · by_contra hs
    obtain ⟨v, a, hm, hmeet, -⟩ := hv'.found (by simpa using hs)
    have e1 : ([1 / 2] : List ℝ).sum = 1 / 2 := by simp
    rw [e1] at hm
    obtain ⟨a0, a1⟩ := short_motion _ _ _ _ hm
    have hn' : (n : ℝ) ≠ 0 := by exact_mod_cast hn.ne'
    have bound : ∀ t, Constrained (computeDiscretizedTimeFixed [1 / 2] n) t 0 → |a t 0| ≤ 6 := by
      intro t ht
      obtain ⟨-, j, hj⟩ := ht.lt (fixed_tags n hn [1 / 2] (by simp))
      exact hmeet.2 rfl _ hj 0
    have b0 := bound 0 ((fixed_constrained _ (by simp) n hn 0 0).mpr ⟨by simp, 0, by omega, by simp⟩)
    have b1 := bound (1 / 2) ((fixed_constrained _ (by simp) n hn _ 0).mpr ⟨by simp, n, le_rfl, by simp; field_simp⟩)
    rw [a0] at b0
    rw [a1] at b1
    have c0 := (abs_le.mp b0).2
    have c1 := (abs_le.mp b1).2
    linarith

/-! ## Numbers of points that do not divide -/

/-- From the origin, at speed 1 along the first axis, back to the origin in a second, in a slab. -/
noncomputable def waveProblem : ProblemData :=
  { contacts := [{ freeContact with Kin := [![1, 0, 0], ![-1, 0, 0]], kin := [93 / 1000, 93 / 1000] }],
    bc := ⟨0, ![1, 0, 0], 0, 0, 0, 0, 0, 0⟩, l0 := 0, useAngularMomentum := false, flag := 11#32, constraintAcceleration := false,
    maxAcceleration := 0, reduce_h := 0, costFunction := 1, representation := 1 }

theorem wave_accepted : Accepted waveProblem [1] 0 := by
  refine ⟨rfl, by simp, by simp, ?_, by simp [waveProblem, comFlags], by simp [waveProblem]⟩
  intro ct hct
  simp only [waveProblem, List.mem_singleton] at hct
  subst hct
  exact ⟨_, ⟨rfl, rfl, one_ne_zero, by simp, by simp [freeContact]⟩, rfl⟩

theorem wave_motion (x : V3) (c v a : ℝ → V3) (h : Motion waveProblem 1 x c v a) (t : ℝ) :
    c t 0 = t * (1 - t) * ((1 - t) + 3 * t * x 0) := by
  obtain ⟨pts, hpts, rfl, -, -⟩ := h
  have hp : pts = c0_dc0_c1.computeConstantWaypoints ⟨0, ![1, 0, 0], 0, 0, 0, 0, 0, 0⟩ 1 := by
    simp [computeConstantWaypoints, waveProblem] at hpts
    exact hpts.symm
  subst hp
  change curve 3 (fill 11#32 _ x) 1 t 0 = _
  unfold curve bez
  simp [Finset.sum_range_succ, fill, freeSlots, nth, c0_dc0_c1.computeConstantWaypoints, Nat.choose]
  ring

theorem wave_phase (ρ : ℝ) (c a : V3) : (AtPhase waveProblem.contacts 0 fun ct e => PhaseOk ct e ρ c a) ↔ |c 0| ≤ 93 / 1000 := by
  constructor
  · rintro ⟨ct, e, h1, h2, -, h4⟩
    simp only [waveProblem, List.getElem?_cons_zero, Option.some.injEq] at h1
    subst h1
    have k1 := h4 (![1, 0, 0], 93 / 1000) (by simp)
    have k2 := h4 (![-1, 0, 0], 93 / 1000) (by simp)
    simp [dot] at k1 k2
    exact abs_le.mpr ⟨by linarith, k1⟩
  · intro h
    obtain ⟨h1, h2⟩ := abs_le.mp h
    refine ⟨_, _, rfl, rfl, fun r hr => by simp at hr, fun q hq => ?_⟩
    simp only [freeContact, List.zip_cons_cons, List.zip_nil_right, List.mem_cons, List.not_mem_nil, or_false] at hq
    rcases hq with rfl | rfl <;> simp [dot] <;> linarith

/-- The points at sixths can all be in the slab. -/
theorem wave_sixths (l : TTime) (hl : ∀ t p, Constrained l t p → p = 0 ∧ ∃ b : ℕ, b ≤ 6 ∧ t = b / 6) :
    ∃ x c v a, Motion waveProblem ([1] : List ℝ).sum x c v a ∧ MeetsSamples waveProblem l c a := by
  obtain ⟨pts, hpts⟩ := C01_answers waveProblem.flag wave_accepted.flag waveProblem.bc 1 (by simp [waveProblem])
  obtain ⟨v, a, hm⟩ := motion_exists _ 1 pts hpts wave_accepted.flag one_ne_zero ![-1 / 3, 0, 0]
  refine ⟨_, _, v, a, by simpa using hm, fun t p ht => ?_, by simp [waveProblem]⟩
  obtain ⟨rfl, b, hb, rfl⟩ := hl t p ht
  rw [wave_phase, wave_motion _ _ v a hm]
  interval_cases b <;> norm_num [abs_le]

/-- The points at a quarter and at three quarters cannot both be in the slab. -/
theorem wave_quarters (l : TTime) (h1 : Constrained l (1 / 4) 0) (h2 : Constrained l (3 / 4) 0) (x : V3) (c v a : ℝ → V3)
    (hm : Motion waveProblem ([1] : List ℝ).sum x c v a) (hs : MeetsSamples waveProblem l c a) : False := by
  have hm' : Motion waveProblem 1 x c v a := by simpa using hm
  have k1 := (wave_phase _ _ _).mp (hs.1 _ _ h1)
  have k2 := (wave_phase _ _ _).mp (hs.1 _ _ h2)
  rw [wave_motion _ _ _ _ hm'] at k1 k2
  have := (abs_le.mp k1).2
  have := (abs_le.mp k2).1
  linarith

/-- C110, the limit of the claim for `computeCOMTrajFixedSize`: there is a problem which is solved with six points per phase and
refused with four. -/
theorem C110_divisor_refuted (lib : Lib) (hL : LibOk lib) (he : lib.eps = 0)
    (hlim : ∀ A b, computeConstraintsOneStep waveProblem 1 ([1] : List ℝ).sum (computeDiscretizedTimeFixed [1] 6) = .ok (A, b) →
      2 ^ A.rows < lib.maxIter) :
    ∃ res res' N, (∀ fuel ≥ N, computeCOMTrajFixedSize lib fuel waveProblem [1] 6 = .ok res) ∧
      (∀ fuel ≥ N, computeCOMTrajFixedSize lib fuel waveProblem [1] 4 = .ok res') ∧ res.success = true ∧ res'.success = false := by
  have hf : waveProblem.flag ∈ [11#32, 19#32, 27#32, 7#32, 15#32] := by simp [waveProblem]
  obtain ⟨res, N, hrun, -, hv⟩ := C56_fixedSize_partial lib hL he _ _ _ wave_accepted rfl hf 6 (by norm_num) (Or.inr rfl)
  obtain ⟨res', N', hrun', -, hv'⟩ := C56_fixedSize_partial lib hL he _ _ _ wave_accepted rfl hf 4 (by norm_num) (Or.inr rfl)
  obtain ⟨A, b, hA, -⟩ := C18_in_bounds_and_complete _ _ _ wave_accepted _
    (Or.inl ⟨6, by norm_num, rfl⟩ : Discretisation [1] (computeDiscretizedTimeFixed [1] 6))
  refine ⟨res, res', max N N', fun fuel hfuel => hrun fuel (le_trans (le_max_left _ _) hfuel),
    fun fuel hfuel => hrun' fuel (le_trans (le_max_right _ _) hfuel), ?_, ?_⟩
  · by_contra hs
    obtain ⟨x, c, v, a, hm, hq⟩ := wave_sixths (computeDiscretizedTimeFixed [1] 6) (by
      intro t p ht
      obtain ⟨hp, b, hb, rfl⟩ := (fixed_constrained _ (by simp) 6 (by norm_num) t p).mp ht
      obtain rfl : p = 0 := by simpa using hp
      exact ⟨rfl, b, hb, by simp; ring⟩)
    rcases hv.none (by simpa using hs) with q | q
    · exact absurd (q A b hA) (not_le.mpr (hlim A b hA))
    · exact q x c v a hm hq
  · by_contra hs
    obtain ⟨v, a, hm, hmeet, -⟩ := hv'.found (by simpa using hs)
    refine wave_quarters _ ?_ ?_ _ _ _ _ hm hmeet
    · exact (fixed_constrained _ (by simp) 4 (by norm_num) _ 0).mpr ⟨by simp, 1, by norm_num, by norm_num⟩
    · exact (fixed_constrained _ (by simp) 4 (by norm_num) _ 0).mpr ⟨by simp, 3, by norm_num, by norm_num⟩

/-- C110, the limit of the claim for `computeCOMTraj`: the same problem is solved with a time step of a sixth of a second and
refused with a quarter. -/
theorem C110_multiple_refuted (κ : ℝ) (lib : Lib) (hL : LibOk lib) (he : lib.eps = 0)
    (hlim : ∀ A b, computeConstraintsOneStep waveProblem 1 ([1] : List ℝ).sum (allSamples (1 / 6) [1] 0 0) = .ok (A, b) →
      2 ^ A.rows < lib.maxIter) :
    ∃ res res' N, (∀ fuel ≥ N, computeCOMTraj κ lib fuel waveProblem [1] (1 / 6) SOLVER_QUADPROG = .ok res) ∧
      (∀ fuel ≥ N, computeCOMTraj κ lib fuel waveProblem [1] (1 / 4) SOLVER_QUADPROG = .ok res') ∧
      res.success = true ∧ res'.success = false := by
  have hf : waveProblem.flag ∈ [11#32, 19#32, 27#32, 7#32, 15#32] := by simp [waveProblem]
  obtain ⟨l, res, N, hl, hdisc, hrun, -, hv⟩ := C56_timeStep_partial κ lib hL he _ _ _ wave_accepted rfl hf (1 / 6) (by norm_num)
    (by norm_num) (Or.inr rfl)
  obtain ⟨l', res', N', hl', hdisc', hrun', -, hv'⟩ := C56_timeStep_partial κ lib hL he _ _ _ wave_accepted rfl hf (1 / 4)
    (by norm_num) (by norm_num) (Or.inr rfl)
  obtain rfl := (disc_eq [1] (1 / 6) (by norm_num) N l (hdisc N le_rfl)).2
  obtain rfl := (disc_eq [1] (1 / 4) (by norm_num) N' l' (hdisc' N' le_rfl)).2
  obtain ⟨A, b, hA, -⟩ := C18_in_bounds_and_complete _ _ _ wave_accepted _ hl
  have hpos : ∀ T ∈ ([1] : List ℝ), 0 < T := by simp
  refine ⟨res, res', max N N', fun fuel hfuel => hrun fuel (le_trans (le_max_left _ _) hfuel),
    fun fuel hfuel => hrun' fuel (le_trans (le_max_right _ _) hfuel), ?_, ?_⟩
  · by_contra hs
    obtain ⟨x, c, v, a, hm, hq⟩ := wave_sixths (allSamples (1 / 6) [1] 0 0) (by
      intro t p ht
      obtain ⟨hp, ht⟩ := (step_constrained _ hpos (1 / 6) (by norm_num) t p).mp ht
      obtain rfl : p = 0 := by simpa using hp
      refine ⟨rfl, ?_⟩
      rcases ht with ⟨k, hk, rfl⟩ | rfl
      · refine ⟨k, ?_, by simp; ring⟩
        have h6 : (k : ℝ) * (1 / 6) < 1 := by simpa using hk
        have : (k : ℝ) < 6 := by linarith
        exact_mod_cast this.le
      · exact ⟨6, le_rfl, by simp⟩)
    rcases hv.none (by simpa using hs) with q | q
    · exact absurd (q A b hA) (not_le.mpr (hlim A b hA))
    · exact q x c v a hm hq
  · by_contra hs
    obtain ⟨v, a, hm, hmeet, -⟩ := hv'.found (by simpa using hs)
    refine wave_quarters _ ?_ ?_ _ _ _ _ hm hmeet
    · exact (step_constrained _ hpos (1 / 4) (by norm_num) _ 0).mpr ⟨by simp, Or.inl ⟨1, by norm_num, by norm_num⟩⟩
    · exact (step_constrained _ hpos (1 / 4) (by norm_num) _ 0).mpr ⟨by simp, Or.inl ⟨3, by norm_num, by norm_num⟩⟩

end Verif
