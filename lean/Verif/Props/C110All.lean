import Verif.Props.C110
import Verif.Props.C115
import Verif.Props.C116
import Verif.Props.C56Rounded

/-!
# C110, C111, C113: all seven constraint sets

The calls are compared through the systems they assemble, so that the decimals in the wrench coefficients of the two longest
sets do not matter.
-/

namespace Verif
open Matrix

/-! ## The calls, in terms of the assembled systems -/

/-- The result of a call on a time array, in terms of its system. -/
structure SysVerdict (d : ProblemData) (T : ℝ) (l : TTime) (A b : Mat) (lim : Prop) (res : ResultDataCOMTraj) : Prop where
  found : res.success = true → Sat A b (ext3 res.point) ∧ ∃ v a, Motion d T res.point res.c_of_t.eval v a ∧
    ∀ x' c' v' a', Motion d T x' c' v' a' → Sat A b (ext3 x') → motionCost d l res.point a ≤ motionCost d l x' a'
  none : res.success = false → lim ∨ ∀ x', ¬ Sat A b (ext3 x')

theorem fixed_sys (lib : Lib) (hL : LibOk lib) (he : lib.eps = 0) (d : ProblemData) (Ts : List ℝ) (g : V3) (h : Accepted d Ts g)
    (hr : d.representation = DOUBLE_DESCRIPTION) (n : ℕ) (hn : 0 < n)
    (hc : d.costFunction = DISTANCE_TRAVELED ∨ d.costFunction = ACCELERATION ∧ d.flag ≠ 63#32) :
    ∃ A b res N, computeConstraintsOneStep d Ts.length Ts.sum (computeDiscretizedTimeFixed Ts n) = .ok (A, b) ∧
      (∀ fuel ≥ N, computeCOMTrajFixedSize lib fuel d Ts n = .ok res) ∧
      SysVerdict d Ts.sum (computeDiscretizedTimeFixed Ts n) A b (lib.maxIter ≤ 2 ^ A.rows) res := by
  have hl : Discretisation Ts (computeDiscretizedTimeFixed Ts n) := Or.inl ⟨n, hn, rfl⟩
  obtain ⟨A, b, res, N, hA, hrun, h1, h2⟩ := planSamples_exact lib hL he d Ts g h _ hl
    (goodCost d Ts h.total h.ne h.flag h.capt _ hl hc)
  refine ⟨A, b, res, N, hA, fun fuel hfuel => ?_, h1, h2⟩
  have := hrun fuel hfuel
  unfold planSamples at this
  unfold computeCOMTrajFixedSize
  rw [if_pos hr, if_neg (not_not.mpr h.size)]
  exact this

theorem step_sys (κ : ℝ) (lib : Lib) (hL : LibOk lib) (he : lib.eps = 0) (d : ProblemData) (Ts : List ℝ) (g : V3)
    (h : Accepted d Ts g) (hr : d.representation = DOUBLE_DESCRIPTION) (step : ℝ) (hstep : 0 < step)
    (hshort : ∀ T ∈ Ts, step * 2 ≤ T)
    (hc : d.costFunction = DISTANCE_TRAVELED ∨ d.costFunction = ACCELERATION ∧ d.flag ≠ 63#32) :
    ∃ A b res N, Discretisation Ts (allSamples step Ts 0 0) ∧
      computeConstraintsOneStep d Ts.length Ts.sum (allSamples step Ts 0 0) = .ok (A, b) ∧
      (∀ fuel ≥ N, computeCOMTraj κ lib fuel d Ts step SOLVER_QUADPROG = .ok res) ∧
      SysVerdict d Ts.sum (allSamples step Ts 0 0) A b (lib.maxIter ≤ 2 ^ A.rows) res := by
  obtain ⟨N0, hN0⟩ := C16_discretized_time Ts step hstep hshort
  have hdet : ∀ fuel ≥ N0, computeDiscretizedTime Ts step fuel = .ok (allSamples step Ts 0 0) := by
    intro fuel hfuel
    obtain ⟨l', hl', -⟩ := hN0 fuel hfuel
    rw [hl', (disc_eq Ts step hstep _ _ hl').2]
  have hD : Discretisation Ts (allSamples step Ts 0 0) := Or.inr ⟨step, hstep, N0, hdet N0 le_rfl⟩
  obtain ⟨A, b, res, N, hA, hrun, h1, h2⟩ := planSamples_exact lib hL he d Ts g h _ hD
    (goodCost d Ts h.total h.ne h.flag h.capt _ hD hc)
  refine ⟨A, b, res, max N0 N, hD, hA, fun fuel hfuel => ?_, h1, h2⟩
  have := hrun fuel (le_trans (le_max_right _ _) hfuel)
  unfold planSamples at this
  obtain ⟨A', b', hA', hcols, -⟩ := C18_in_bounds_and_complete d Ts g h _ hD
  rw [hA] at hA'
  cases hA'
  rw [hA, Out.ok_bind] at this
  unfold computeCOMTraj comSystem
  rw [if_neg (not_not.mpr h.size), if_pos hstep, if_pos hr, hdet fuel (le_trans (le_max_left _ _) hfuel), Out.ok_bind,
    hA, Out.ok_bind]
  simp only [Out.pure_eq, Out.ok_bind, hcols] at this ⊢
  exact this

/-- A motion that solves the system of a call is found, or a better one. -/
theorem SysVerdict.notWorse {d : ProblemData} {T : ℝ} {l : TTime} {A b : Mat} {lim : Prop} {res res' : ResultDataCOMTraj}
    (hv : SysVerdict d T l A b lim res') (h2 : ¬ lim)
    (hres : res.success = true → Sat A b (ext3 res.point) ∧ ∃ v a, Motion d T res.point res.c_of_t.eval v a) :
    NotWorse d T l res res' := by
  intro hr
  obtain ⟨q2, v, a, q1⟩ := hres hr
  have hs : res'.success = true := by
    by_contra hn
    rw [Bool.not_eq_true] at hn
    exact ((hv.none hn).resolve_left h2) _ q2
  obtain ⟨-, v', a', r1, r3⟩ := hv.found hs
  exact ⟨hs, v, a, v', a', q1, r1, r3 _ _ _ _ q1 q2⟩

/-! ## Looser requirements -/

theorem Accepted.front {d : ProblemData} {Ts : List ℝ} {g : V3} (h : Accepted d Ts g) : frontGravity d.contacts = .ok g := by
  have h0 : 0 < d.contacts.length := by rw [← h.size]; exact List.length_pos_iff.mpr h.ne
  cases hcs : d.contacts with
  | nil => rw [hcs] at h0; simp at h0
  | cons ct r =>
    obtain ⟨e, he, hg⟩ := h.good ct (by rw [hcs]; simp)
    simp [frontGravity, he.1, hg]

theorem Looser.gravity {d d' : ProblemData} (hd : Looser d d') {Ts : List ℝ} {g g' : V3} (h : Accepted d Ts g)
    (h' : Accepted d' Ts g') : g' = g := by
  have h0 : 0 < d.contacts.length := by rw [← h.size]; exact List.length_pos_iff.mpr h.ne
  have H := hd.contacts
  revert H
  cases hcs : d.contacts with
  | nil => rw [hcs] at h0; simp at h0
  | cons ct r =>
    cases hcs' : d'.contacts with
    | nil => intro H; cases H
    | cons ct' r' =>
      intro H
      obtain ⟨⟨e, e', he, he', -, hg, -⟩, -⟩ := (List.forall₂_cons.mp H).1
      obtain ⟨f, hf, hfg⟩ := h.good ct (by rw [hcs]; simp)
      obtain ⟨f', hf', hfg'⟩ := h'.good ct' (by rw [hcs']; simp)
      have e1 := hf.1
      have e2 := hf'.1
      rw [he] at e1
      rw [he'] at e2
      cases e1
      cases e2
      rw [← hfg', hg, hfg]

/-- The system of a looser problem with fewer samples has all the solutions of the system of the first problem. -/
theorem Looser.sat {d d' : ProblemData} (hd : Looser d d') {Ts : List ℝ} {g g' : V3} (h : Accepted d Ts g)
    (h' : Accepted d' Ts g') {l l' : TTime} (hl : Discretisation Ts l) (hl' : Discretisation Ts l') (hc : Coarser l l')
    {A b A' b' : Mat} (hA : computeConstraintsOneStep d Ts.length Ts.sum l = .ok (A, b))
    (hA' : computeConstraintsOneStep d' Ts.length Ts.sum l' = .ok (A', b')) (x : V3) (hx : Sat A b (ext3 x)) :
    Sat A' b' (ext3 x) := by
  have hgg := hd.gravity h h'
  subst hgg
  obtain ⟨pts, ws, hpts, hws, H⟩ := C19_meaning d Ts _ h l hl A b hA
  obtain ⟨pts', ws', hpts', hws', H'⟩ := C19_meaning d' Ts _ h' l' hl' A' b' hA'
  rw [hd.flag, hd.bc, hpts] at hpts'
  cases hpts'
  rw [hd.flag, hd.bc, wps_gravity _ d.contacts _ _ _ (by rw [h'.front, h.front]), hws] at hws'
  cases hws'
  obtain ⟨v, a, hv, ha, hi⟩ := H x
  obtain ⟨v', a', hv', ha', hi'⟩ := H' x
  rw [hd.flag] at hv' hi'
  have e1 := deriv_unique hv hv'
  subst e1
  have e2 := deriv_unique ha ha'
  subst e2
  obtain ⟨m1, m2⟩ := hi.mp hx
  refine hi'.mpr ⟨fun t i hti => ?_, fun hAc q' hq' k => ?_⟩
  · obtain ⟨ct, e, h1, h2, h3, h4⟩ := m1 t i (hc.phases t i hti)
    obtain ⟨hlen, HH⟩ := List.forall₂_iff_get.mp hd.contacts
    obtain ⟨hi, rfl⟩ := List.getElem?_eq_some_iff.mp h1
    obtain ⟨⟨e1, e', he, he', hm, hg, hp⟩, hk⟩ := HH i hi (by omega)
    simp only [List.get_eq_getElem] at he he' hk
    rw [h2] at he
    cases he
    refine ⟨_, e', List.getElem?_eq_getElem (by omega), he', ?_, ?_⟩
    · rw [hm]
      exact hp.wrench hm hd.margin h3
    · intro q' hq'
      obtain ⟨q, hq, k1, k2⟩ := hk q' hq'
      rw [← k1]
      exact (h4 q hq).trans k2
  · obtain ⟨hA', hle⟩ := hd.acc hAc
    obtain ⟨q, hq, e⟩ := hc.times q' hq'
    rw [← e]
    exact (m2 hA' q hq k).trans hle

theorem NotWorse.looser {d d' : ProblemData} (hd : Looser d d') {T : ℝ} {l : TTime} {res res' : ResultDataCOMTraj}
    (h : NotWorse d' T l res res') : NotWorse d T l res res' := by
  intro hr
  obtain ⟨hs, v, a, v', a', q1, q2, q3⟩ := h hr
  rw [hd.motionCost, hd.motionCost] at q3
  exact ⟨hs, v, a, v', a', hd.motion.mp q1, hd.motion.mp q2, q3⟩

/-- C110, `computeCOMTrajFixedSize`, all seven constraint sets. A problem that asks for less, with a number of points that divides
the one of the first call, is solved whenever the first one is, at no larger cost. -/
theorem C110_all_fixedSize (lib : Lib) (hL : LibOk lib) (he : lib.eps = 0) (d d' : ProblemData) (hd : Looser d d') (Ts : List ℝ)
    (g g' : V3) (h : Accepted d Ts g) (h' : Accepted d' Ts g') (hr : d.representation = DOUBLE_DESCRIPTION)
    (n m : ℕ) (hn : 0 < n) (hm : 0 < m)
    (hc : d.costFunction = DISTANCE_TRAVELED ∨ d.costFunction = ACCELERATION ∧ d.flag ≠ 63#32)
    (hlim : ∀ A b, computeConstraintsOneStep d' Ts.length Ts.sum (computeDiscretizedTimeFixed Ts n) = .ok (A, b) →
      2 ^ A.rows < lib.maxIter) :
    ∃ res res' N, (∀ fuel ≥ N, computeCOMTrajFixedSize lib fuel d Ts (m * n) = .ok res) ∧
      (∀ fuel ≥ N, computeCOMTrajFixedSize lib fuel d' Ts n = .ok res') ∧
      NotWorse d Ts.sum (computeDiscretizedTimeFixed Ts n) res res' := by
  obtain ⟨A, b, res, N, hA, hrun, hv⟩ := fixed_sys lib hL he d Ts g h hr (m * n) (Nat.mul_pos hm hn) hc
  obtain ⟨A', b', res', N', hA', hrun', hv'⟩ := fixed_sys lib hL he d' Ts g' h' (hd.repr.trans hr) n hn
    (by rw [hd.cost, hd.flag]; exact hc)
  refine ⟨res, res', max N N', fun fuel hfuel => hrun fuel (le_trans (le_max_left _ _) hfuel),
    fun fuel hfuel => hrun' fuel (le_trans (le_max_right _ _) hfuel),
    (hv'.notWorse (not_le.mpr (hlim A' b' hA')) fun hs => ?_).looser hd⟩
  obtain ⟨q1, v, a, q2, -⟩ := hv.found hs
  exact ⟨hd.sat h h' (Or.inl ⟨_, Nat.mul_pos hm hn, rfl⟩) (Or.inl ⟨n, hn, rfl⟩) (fixed_coarser Ts h.ne n m hn hm) hA hA' _ q1,
    v, a, hd.motion.mpr q2⟩

/-- C110, `computeCOMTraj` with a time step at most half of every phase, and with a divisor of this step, all seven constraint
sets. -/
theorem C110_all_timeStep (κ : ℝ) (lib : Lib) (hL : LibOk lib) (he : lib.eps = 0) (d d' : ProblemData) (hd : Looser d d')
    (Ts : List ℝ) (g g' : V3) (h : Accepted d Ts g) (h' : Accepted d' Ts g') (hr : d.representation = DOUBLE_DESCRIPTION)
    (step : ℝ) (hstep : 0 < step) (m : ℕ) (hm : 0 < m) (hshort : ∀ T ∈ Ts, (m * step) * 2 ≤ T)
    (hc : d.costFunction = DISTANCE_TRAVELED ∨ d.costFunction = ACCELERATION ∧ d.flag ≠ 63#32)
    (hlim : ∀ A b, computeConstraintsOneStep d' Ts.length Ts.sum (allSamples (m * step) Ts 0 0) = .ok (A, b) →
      2 ^ A.rows < lib.maxIter) :
    ∃ res res' N, (∀ fuel ≥ N, computeCOMTraj κ lib fuel d Ts step SOLVER_QUADPROG = .ok res) ∧
      (∀ fuel ≥ N, computeCOMTraj κ lib fuel d' Ts (m * step) SOLVER_QUADPROG = .ok res') ∧
      NotWorse d Ts.sum (allSamples (m * step) Ts 0 0) res res' := by
  have h1 : (1 : ℝ) ≤ m := by exact_mod_cast hm
  have hms : 0 < (m : ℝ) * step := mul_pos (by linarith) hstep
  obtain ⟨A, b, res, N, hl, hA, hrun, hv⟩ := step_sys κ lib hL he d Ts g h hr step hstep
    (fun T hT => by have := hshort T hT; nlinarith) hc
  obtain ⟨A', b', res', N', hl', hA', hrun', hv'⟩ := step_sys κ lib hL he d' Ts g' h' (hd.repr.trans hr) (m * step) hms hshort
    (by rw [hd.cost, hd.flag]; exact hc)
  refine ⟨res, res', max N N', fun fuel hfuel => hrun fuel (le_trans (le_max_left _ _) hfuel),
    fun fuel hfuel => hrun' fuel (le_trans (le_max_right _ _) hfuel),
    (hv'.notWorse (not_le.mpr (hlim A' b' hA')) fun hs => ?_).looser hd⟩
  obtain ⟨q1, v, a, q2, -⟩ := hv.found hs
  exact ⟨hd.sat h h' hl hl' (step_coarser Ts h.ne h.pos step hstep m hm) hA hA' _ q1, v, a, hd.motion.mpr q2⟩

/-! ## The continuous formulation -/

/-- A solution of the continuous system with polytopes solves the system of every sampling. -/
theorem continuous_sat (κ : ℝ) (d : ProblemData) (Ts : List ℝ) (g : V3) (h : AcceptedC d Ts g)
    (hr : d.representation = DOUBLE_DESCRIPTION) (hk : d.constraintAcceleration = true → 1 ≤ |κ| * Ts.sum ^ 2)
    (pts : List V3) (hpts : computeConstantWaypoints d.flag d.bc Ts.sum = .ok pts)
    (hz : ∀ i < pts.length, i ∉ freeSlots d.flag → ∃ k, 1e-12 < |nth pts i k|)
    (S : ContSystem) (hS : computeConstraintsContinuous κ d Ts = .ok S) (y : ℕ → ℝ) (hy : Sat S.A S.b y)
    (l : TTime) (hl : Discretisation Ts l) (hl1 : ∀ t p, Constrained l t p → InPhase Ts p t)
    (A b : Mat) (hA : computeConstraintsOneStep d Ts.length Ts.sum l = .ok (A, b)) : Sat A b (ext3 (first3 y)) := by
  obtain ⟨pts', ws, hpts', hws, H⟩ := C19_meaning d Ts g (h.accepted hr) l hl A b hA
  rw [hpts] at hpts'
  cases hpts'
  obtain ⟨v, a, hv, ha, hi⟩ := H (first3 y)
  obtain ⟨ws', hws', hW⟩ := C22_wrench_every_instant κ d Ts g h hr S hS y hy
  rw [hws] at hws'
  cases hws'
  obtain ⟨v', a', hv', ha', hB⟩ := C25_every_instant κ d Ts g h S hS y hy pts hpts hz
  have e1 := deriv_unique hv hv'
  subst e1
  have e2 := deriv_unique ha ha'
  subst e2
  refine hi.mpr ⟨fun t p ht => ?_, fun hAc q hq k => ?_⟩
  · obtain ⟨ct, e, q1, q2, q3⟩ := hW p t (hl1 t p ht)
    obtain ⟨ct', e', r1, r2, r3⟩ := C22_kinematics_every_instant κ d Ts g h S hS y hy pts hpts hz p t (hl1 t p ht)
    rw [q1] at r1
    cases r1
    exact ⟨ct, e, q1, q2, q3, r3⟩
  · have hb := (hl.tags h.ne h.pos).2 q hq
    obtain ⟨p, hp⟩ := inPhase_exists Ts h.ne q.1 hb.1 hb.2
    have := hB p q.1 hp k
    rw [abs_mul, abs_mul, abs_of_nonneg (sq_nonneg Ts.sum)] at this
    have h3 := hk hAc
    nlinarith [abs_nonneg (a q.1 k)]

/-- A success of the continuous formulation, as a motion which solves the system of every sampling. -/
theorem continuous_sys (κ : ℝ) (lib : Lib) (hL : LibOk lib) (he : lib.eps = 0) (d : ProblemData) (Ts : List ℝ) (g : V3)
    (h : AcceptedC d Ts g) (hr : d.representation = DOUBLE_DESCRIPTION) (step : ℝ) (hstep : step ≤ 0)
    (hc : d.costFunction = DISTANCE_TRAVELED ∨ d.costFunction = ACCELERATION ∧ d.flag ≠ 63#32)
    (hk : d.constraintAcceleration = true → 1 ≤ |κ| * Ts.sum ^ 2)
    (pts : List V3) (hpts : computeConstantWaypoints d.flag d.bc Ts.sum = .ok pts)
    (hz : ∀ i < pts.length, i ∉ freeSlots d.flag → ∃ k, 1e-12 < |nth pts i k|) :
    ∃ res N, (∀ fuel ≥ N, computeCOMTraj κ lib fuel d Ts step SOLVER_QUADPROG = .ok res) ∧
      ∀ l A b, Discretisation Ts l → (∀ t p, Constrained l t p → InPhase Ts p t) →
        computeConstraintsOneStep d Ts.length Ts.sum l = .ok (A, b) →
        res.success = true → Sat A b (ext3 res.point) ∧ ∃ v a, Motion d Ts.sum res.point res.c_of_t.eval v a := by
  obtain ⟨S, hS, -, -, -, -, -, -, h7, -⟩ := C21_in_bounds_and_complete κ d Ts g h
  obtain ⟨q1, q2, q3⟩ := h7 hr
  obtain ⟨res, N, hrun, hsucc, -⟩ := continuous_exact κ lib hL he d Ts g h step hstep hc S hS (by omega)
  refine ⟨res, N, hrun, fun l A b hl hl1 hA hs => ?_⟩
  obtain ⟨y, hy, hsat, v, a, hm, -⟩ := hsucc hs
  refine ⟨?_, v, a, hm⟩
  rw [← hy]
  exact continuous_sat κ d Ts g h hr hk pts hpts hz S hS y hsat.1 l hl hl1 A b hA

/-- C111, `computeCOMTrajFixedSize`, all seven constraint sets. What the continuous formulation solves is solved with any number
of points per phase, at no larger cost at the samples. -/
theorem C111_all_fixedSize (κ : ℝ) (lib : Lib) (hL : LibOk lib) (he : lib.eps = 0) (d : ProblemData) (Ts : List ℝ) (g : V3)
    (h : AcceptedC d Ts g) (hr : d.representation = DOUBLE_DESCRIPTION) (step : ℝ) (hstep : step ≤ 0)
    (hc : d.costFunction = DISTANCE_TRAVELED ∨ d.costFunction = ACCELERATION ∧ d.flag ≠ 63#32)
    (hk : d.constraintAcceleration = true → 1 ≤ |κ| * Ts.sum ^ 2)
    (pts : List V3) (hpts : computeConstantWaypoints d.flag d.bc Ts.sum = .ok pts)
    (hz : ∀ i < pts.length, i ∉ freeSlots d.flag → ∃ k, 1e-12 < |nth pts i k|) (n : ℕ) (hn : 0 < n)
    (hlim : ∀ A b, computeConstraintsOneStep d Ts.length Ts.sum (computeDiscretizedTimeFixed Ts n) = .ok (A, b) →
      2 ^ A.rows < lib.maxIter) :
    ∃ res res' N, (∀ fuel ≥ N, computeCOMTraj κ lib fuel d Ts step SOLVER_QUADPROG = .ok res) ∧
      (∀ fuel ≥ N, computeCOMTrajFixedSize lib fuel d Ts n = .ok res') ∧
      NotWorse d Ts.sum (computeDiscretizedTimeFixed Ts n) res res' := by
  obtain ⟨res, N, hrun, hm⟩ := continuous_sys κ lib hL he d Ts g h hr step hstep hc hk pts hpts hz
  obtain ⟨A, b, res', N', hA, hrun', hv'⟩ := fixed_sys lib hL he d Ts g (h.accepted hr) hr n hn hc
  exact ⟨res, res', max N N', fun fuel hfuel => hrun fuel (le_trans (le_max_left _ _) hfuel),
    fun fuel hfuel => hrun' fuel (le_trans (le_max_right _ _) hfuel),
    hv'.notWorse (not_le.mpr (hlim A b hA)) (hm _ A b (Or.inl ⟨n, hn, rfl⟩) (fixed_inPhase Ts h.ne h.pos n hn) hA)⟩

/-- C111, `computeCOMTraj` with a time step at most half of every phase, all seven constraint sets. -/
theorem C111_all_timeStep (κ : ℝ) (lib : Lib) (hL : LibOk lib) (he : lib.eps = 0) (d : ProblemData) (Ts : List ℝ) (g : V3)
    (h : AcceptedC d Ts g) (hr : d.representation = DOUBLE_DESCRIPTION) (step : ℝ) (hstep : step ≤ 0)
    (hc : d.costFunction = DISTANCE_TRAVELED ∨ d.costFunction = ACCELERATION ∧ d.flag ≠ 63#32)
    (hk : d.constraintAcceleration = true → 1 ≤ |κ| * Ts.sum ^ 2)
    (pts : List V3) (hpts : computeConstantWaypoints d.flag d.bc Ts.sum = .ok pts)
    (hz : ∀ i < pts.length, i ∉ freeSlots d.flag → ∃ k, 1e-12 < |nth pts i k|) (dt : ℝ) (hdt : 0 < dt)
    (hshort : ∀ T ∈ Ts, dt * 2 ≤ T)
    (hlim : ∀ A b, computeConstraintsOneStep d Ts.length Ts.sum (allSamples dt Ts 0 0) = .ok (A, b) →
      2 ^ A.rows < lib.maxIter) :
    ∃ res res' N, (∀ fuel ≥ N, computeCOMTraj κ lib fuel d Ts step SOLVER_QUADPROG = .ok res) ∧
      (∀ fuel ≥ N, computeCOMTraj κ lib fuel d Ts dt SOLVER_QUADPROG = .ok res') ∧
      NotWorse d Ts.sum (allSamples dt Ts 0 0) res res' := by
  obtain ⟨res, N, hrun, hm⟩ := continuous_sys κ lib hL he d Ts g h hr step hstep hc hk pts hpts hz
  obtain ⟨A, b, res', N', hl, hA, hrun', hv'⟩ := step_sys κ lib hL he d Ts g (h.accepted hr) hr dt hdt hshort hc
  exact ⟨res, res', max N N', fun fuel hfuel => hrun fuel (le_trans (le_max_left _ _) hfuel),
    fun fuel hfuel => hrun' fuel (le_trans (le_max_right _ _) hfuel),
    hv'.notWorse (not_le.mpr (hlim A b hA)) (hm _ A b hl (step_inPhase Ts h.pos dt hdt) hA)⟩

/-! ## Forces -/

theorem AcceptedC.polytopes {d : ProblemData} {Ts : List ℝ} {g : V3} (h : AcceptedC d Ts g) (h' : Accepted d.polytopes Ts g) :
    AcceptedC d.polytopes Ts g := by
  refine ⟨h'.size, h'.ne, h'.pos, h'.flag, h'.capt, fun ct hct => ?_⟩
  obtain ⟨e, h1, h2⟩ := h'.good ct hct
  obtain ⟨-, -, -, h3, -⟩ := h.phases ct hct
  exact ⟨e, h1.1, h2, h3, fun _ => h1⟩

/-- A success of the formulation with forces, as a motion which solves the system of every sampling with the polytopes. -/
theorem force_sys (κ : ℝ) (lib : Lib) (hL : LibOk lib) (he : lib.eps = 0) (d : ProblemData) (Ts : List ℝ) (g : V3)
    (h : AcceptedC d Ts g) (h' : Accepted d.polytopes Ts g) (hr : d.representation ≠ DOUBLE_DESCRIPTION)
    (step : ℝ) (hstep : step ≤ 0)
    (hc : d.costFunction = DISTANCE_TRAVELED ∨ d.costFunction = ACCELERATION ∧ d.flag ≠ 63#32)
    (hm : ∀ ct ∈ d.contacts, ∀ e, ct.contactPhase = some e → 0 < e.mass)
    (hs : ∀ ct ∈ d.contacts, ∀ e, ct.contactPhase = some e → Spans e)
    (hn : NestedPhases d.contacts)
    (hd : ∀ ct ∈ d.contacts, ∀ e, ct.contactPhase = some e → Encloses e d.reduce_h)
    (hk : d.constraintAcceleration = true → 1 ≤ |κ| * Ts.sum ^ 2)
    (pts : List V3) (hpts : computeConstantWaypoints d.flag d.bc Ts.sum = .ok pts)
    (hz : ∀ i < pts.length, i ∉ freeSlots d.flag → ∃ k, 1e-12 < |nth pts i k|) :
    ∃ res N, (∀ fuel ≥ N, computeCOMTraj κ lib fuel d Ts step SOLVER_QUADPROG = .ok res) ∧
      ∀ l A b, Discretisation Ts l → (∀ t p, Constrained l t p → InPhase Ts p t) →
        computeConstraintsOneStep d.polytopes Ts.length Ts.sum l = .ok (A, b) →
        res.success = true → Sat A b (ext3 res.point) ∧ ∃ v a, Motion d.polytopes Ts.sum res.point res.c_of_t.eval v a := by
  obtain ⟨S, hS, -⟩ := C21_in_bounds_and_complete κ d Ts g h
  obtain ⟨S', hS', -⟩ := C21_in_bounds_and_complete κ d.polytopes Ts g (h.polytopes h')
  obtain ⟨hE, -⟩ := force_independent κ d Ts g h hr hs S hS
  obtain ⟨res, N, hrun, hsucc, -⟩ := continuous_exact κ lib hL he d Ts g h step hstep hc S hS hE
  refine ⟨res, N, hrun, fun l A b hl hl1 hA hq => ?_⟩
  obtain ⟨y, hy, hsat, v, a, hmo, -⟩ := hsucc hq
  refine ⟨?_, v, a, hmo⟩
  have := C116_feasible κ d Ts g h (h.polytopes h') hr hm hn hd S S' hS hS' y hsat
  have := continuous_sat κ d.polytopes Ts g (h.polytopes h') rfl hk pts hpts hz S' hS' _ this l hl hl1 A b hA
  rwa [first3_ext3, hy] at this

/-- C113, `computeCOMTrajFixedSize`, all seven constraint sets. What the formulation with forces solves is solved with polytopes
which enclose the generators and any number of points per phase, at no larger cost at the samples. -/
theorem C113_all_fixedSize (κ : ℝ) (lib : Lib) (hL : LibOk lib) (he : lib.eps = 0) (d : ProblemData) (Ts : List ℝ) (g : V3)
    (h : AcceptedC d Ts g) (h' : Accepted d.polytopes Ts g) (hr : d.representation ≠ DOUBLE_DESCRIPTION)
    (step : ℝ) (hstep : step ≤ 0)
    (hc : d.costFunction = DISTANCE_TRAVELED ∨ d.costFunction = ACCELERATION ∧ d.flag ≠ 63#32)
    (hm : ∀ ct ∈ d.contacts, ∀ e, ct.contactPhase = some e → 0 < e.mass)
    (hs : ∀ ct ∈ d.contacts, ∀ e, ct.contactPhase = some e → Spans e)
    (hn : NestedPhases d.contacts)
    (hd : ∀ ct ∈ d.contacts, ∀ e, ct.contactPhase = some e → Encloses e d.reduce_h)
    (hk : d.constraintAcceleration = true → 1 ≤ |κ| * Ts.sum ^ 2)
    (pts : List V3) (hpts : computeConstantWaypoints d.flag d.bc Ts.sum = .ok pts)
    (hz : ∀ i < pts.length, i ∉ freeSlots d.flag → ∃ k, 1e-12 < |nth pts i k|) (n : ℕ) (hn' : 0 < n)
    (hlim : ∀ A b, computeConstraintsOneStep d.polytopes Ts.length Ts.sum (computeDiscretizedTimeFixed Ts n) = .ok (A, b) →
      2 ^ A.rows < lib.maxIter) :
    ∃ res res' N, (∀ fuel ≥ N, computeCOMTraj κ lib fuel d Ts step SOLVER_QUADPROG = .ok res) ∧
      (∀ fuel ≥ N, computeCOMTrajFixedSize lib fuel d.polytopes Ts n = .ok res') ∧
      NotWorse d.polytopes Ts.sum (computeDiscretizedTimeFixed Ts n) res res' := by
  obtain ⟨res, N, hrun, hmt⟩ := force_sys κ lib hL he d Ts g h h' hr step hstep hc hm hs hn hd hk pts hpts hz
  obtain ⟨A, b, res', N', hA, hrun', hv'⟩ := fixed_sys lib hL he d.polytopes Ts g h' rfl n hn' hc
  exact ⟨res, res', max N N', fun fuel hfuel => hrun fuel (le_trans (le_max_left _ _) hfuel),
    fun fuel hfuel => hrun' fuel (le_trans (le_max_right _ _) hfuel),
    hv'.notWorse (not_le.mpr (hlim A b hA)) (hmt _ A b (Or.inl ⟨n, hn', rfl⟩) (fixed_inPhase Ts h.ne h.pos n hn') hA)⟩

/-- C113, `computeCOMTraj` with a time step at most half of every phase, all seven constraint sets. -/
theorem C113_all_timeStep (κ : ℝ) (lib : Lib) (hL : LibOk lib) (he : lib.eps = 0) (d : ProblemData) (Ts : List ℝ) (g : V3)
    (h : AcceptedC d Ts g) (h' : Accepted d.polytopes Ts g) (hr : d.representation ≠ DOUBLE_DESCRIPTION)
    (step : ℝ) (hstep : step ≤ 0)
    (hc : d.costFunction = DISTANCE_TRAVELED ∨ d.costFunction = ACCELERATION ∧ d.flag ≠ 63#32)
    (hm : ∀ ct ∈ d.contacts, ∀ e, ct.contactPhase = some e → 0 < e.mass)
    (hs : ∀ ct ∈ d.contacts, ∀ e, ct.contactPhase = some e → Spans e)
    (hn : NestedPhases d.contacts)
    (hd : ∀ ct ∈ d.contacts, ∀ e, ct.contactPhase = some e → Encloses e d.reduce_h)
    (hk : d.constraintAcceleration = true → 1 ≤ |κ| * Ts.sum ^ 2)
    (pts : List V3) (hpts : computeConstantWaypoints d.flag d.bc Ts.sum = .ok pts)
    (hz : ∀ i < pts.length, i ∉ freeSlots d.flag → ∃ k, 1e-12 < |nth pts i k|) (dt : ℝ) (hdt : 0 < dt)
    (hshort : ∀ T ∈ Ts, dt * 2 ≤ T)
    (hlim : ∀ A b, computeConstraintsOneStep d.polytopes Ts.length Ts.sum (allSamples dt Ts 0 0) = .ok (A, b) →
      2 ^ A.rows < lib.maxIter) :
    ∃ res res' N, (∀ fuel ≥ N, computeCOMTraj κ lib fuel d Ts step SOLVER_QUADPROG = .ok res) ∧
      (∀ fuel ≥ N, computeCOMTraj κ lib fuel d.polytopes Ts dt SOLVER_QUADPROG = .ok res') ∧
      NotWorse d.polytopes Ts.sum (allSamples dt Ts 0 0) res res' := by
  obtain ⟨res, N, hrun, hmt⟩ := force_sys κ lib hL he d Ts g h h' hr step hstep hc hm hs hn hd hk pts hpts hz
  obtain ⟨A, b, res', N', hl, hA, hrun', hv'⟩ := step_sys κ lib hL he d.polytopes Ts g h' rfl dt hdt hshort hc
  exact ⟨res, res', max N N', fun fuel hfuel => hrun fuel (le_trans (le_max_left _ _) hfuel),
    fun fuel hfuel => hrun' fuel (le_trans (le_max_right _ _) hfuel),
    hv'.notWorse (not_le.mpr (hlim A b hA)) (hmt _ A b hl (step_inPhase Ts h.pos dt hdt) hA)⟩

/-! ## An example with six conditions -/

theorem sixPhases_looser : Looser sixPhases { sixPhases with reduce_h := 0, constraintAcceleration := false } := by
  obtain ⟨h1, h2, h3, h4, h5, h6, h7⟩ := Looser.refl sixPhases fun ct hct he => by
    obtain ⟨e, hg, -⟩ := sixPhases_accepted.good ct hct
    rw [hg.1] at he
    cases he
  exact ⟨h1, rfl, rfl, by norm_num [sixPhases, twoPhases], fun h => by simp at h, rfl, rfl⟩

/-- A non-trivial case of C110 with the set `c0_dc0_ddc0_ddc1_dc1_c1`: both calls succeed. -/
theorem sixPhases_still (n m : ℕ) (hn : 0 < n) (hm : 0 < m) : ∃ M, ∀ maxIter > M, ∃ res res' N,
    (∀ fuel ≥ N, computeCOMTrajFixedSize (exactLib maxIter) fuel sixPhases [1, 2] (m * n) = .ok res) ∧
    (∀ fuel ≥ N, computeCOMTrajFixedSize (exactLib maxIter) fuel
      { sixPhases with reduce_h := 0, constraintAcceleration := false } [1, 2] n = .ok res') ∧
    res.success = true ∧ res'.success = true := by
  obtain ⟨M, hM⟩ := sixPhases_succeeds (m * n) (Nat.mul_pos hm hn)
  have h' : Accepted { sixPhases with reduce_h := 0, constraintAcceleration := false } [1, 2] ![0, 0, -9.81] := by
    obtain ⟨h1, h2, h3, h4, h5, h6⟩ := sixPhases_accepted
    exact ⟨h1, h2, h3, h4, h5, h6⟩
  obtain ⟨A, b, hA, -⟩ := C18_in_bounds_and_complete _ _ _ h' _ (Or.inl ⟨n, hn, rfl⟩)
  refine ⟨max M (2 ^ A.rows), fun maxIter hmax => ?_⟩
  obtain ⟨r, N0, hr0, hs⟩ := hM maxIter (lt_of_le_of_lt (le_max_left _ _) hmax)
  obtain ⟨res, res', N, h1, h2, h3⟩ := C110_all_fixedSize (exactLib maxIter) (exactLib_ok _) rfl _ _ sixPhases_looser [1, 2]
    ![0, 0, -9.81] ![0, 0, -9.81] sixPhases_accepted h' rfl n m hn hm (Or.inl rfl)
    (fun A' b' hA' => by
      rw [hA] at hA'
      cases hA'
      exact lt_of_le_of_lt (le_max_right _ _) hmax)
  have e := h1 (max N N0) (le_max_left _ _)
  rw [hr0 (max N N0) (le_max_right _ _)] at e
  cases e
  exact ⟨r, res', N, h1, h2, hs, (h3 hs).1⟩

end Verif
