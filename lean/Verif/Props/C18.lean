import Verif.Lemmas.Tags
import Verif.Props.C04

/-!
# C18, C19, C20, C25 (samples), C58 — the discretised formulation
-/

namespace Verif
open Matrix

/-- `l` is the time array the planner uses: the result of one of the two discretisation functions,
called with at least one point per phase or a positive step. -/
def Discretisation (Ts : List ℝ) (l : TTime) : Prop :=
  (∃ n : ℕ, 0 < n ∧ l = computeDiscretizedTimeFixed Ts n) ∨
  ∃ step : ℝ, 0 < step ∧ ∃ fuel, computeDiscretizedTime Ts step fuel = .ok l

/-- A problem the CoM planner accepts: one contact phase per duration, durations positive, all the
contact phases usable and under the same gravity, one of the seven constraint sets (with zero final
velocity for the capturability set, otherwise `computeConstantWaypoints` throws). -/
structure Accepted (pData : ProblemData) (Ts : List ℝ) (g : V3) : Prop where
  size : Ts.length = pData.contacts.length
  ne : Ts ≠ []
  pos : ∀ T ∈ Ts, 0 < T
  good : GoodContacts pData.contacts g
  flag : pData.flag ∈ comFlags
  capt : pData.flag = 19#32 → pData.bc.dc1 = 0

theorem Accepted.total {pData : ProblemData} {Ts : List ℝ} {g : V3} (h : Accepted pData Ts g) :
    0 < Ts.sum := by
  have hne := h.ne
  have hpos := h.pos
  cases Ts with
  | nil => exact absurd rfl hne
  | cons T Ts =>
    have := List.sum_nonneg fun T hT => (hpos T (List.mem_cons_of_mem _ hT)).le
    have := hpos T List.mem_cons_self
    rw [List.sum_cons]; linarith

theorem Accepted.phase {pData : ProblemData} {Ts : List ℝ} {g : V3} (h : Accepted pData Ts g) :
    ∀ i < Ts.length, ∃ ct e, pData.contacts[i]? = some ct ∧ GoodContact ct e ∧ e.gravity = g := by
  intro i hi
  rw [h.size] at hi
  obtain ⟨e, he, hg⟩ := h.good pData.contacts[i] (List.getElem_mem hi)
  exact ⟨_, e, List.getElem?_eq_getElem hi, he, hg⟩

theorem Discretisation.tags {Ts : List ℝ} {l : TTime} (h : Discretisation Ts l) (hne : Ts ≠ [])
    (hpos : ∀ T ∈ Ts, 0 < T) :
    TagsFrom Ts.length 0 l ∧ ∀ q ∈ l, 0 ≤ q.1 ∧ q.1 ≤ Ts.sum := by
  have hnn : ∀ T ∈ Ts, 0 ≤ T := fun T hT => (hpos T hT).le
  rcases h with ⟨n, hn, rfl⟩ | ⟨step, hs, fuel, h⟩
  · exact ⟨fixed_tags n hn Ts hne, fixed_le n Ts hnn⟩
  · obtain ⟨h1, rfl⟩ := disc_eq Ts step hs fuel l h
    constructor
    · simpa using allSamples_tags step hs Ts hne hnn 0 0
    · intro q hq
      have := allSamples_bounds step hs Ts hnn 0 0 q hq
      exact ⟨this.1, by simpa using this.2.1⟩

/-- C18. For every accepted problem and every discretisation, `computeConstraintsOneStep` runs to
completion (no assertion fails, no write is out of range, no index is out of range, no coefficient
of the result is left unassigned): every outcome other than `ok` is excluded, and the two results
have matching sizes. -/
theorem C18_in_bounds_and_complete (pData : ProblemData) (Ts : List ℝ) (g : V3)
    (h : Accepted pData Ts g) (l : TTime) (hl : Discretisation Ts l) :
    ∃ A b, computeConstraintsOneStep pData Ts.length Ts.sum l = .ok (A, b) ∧ A.cols = 3 ∧
      b.rows = A.rows ∧ b.cols = 1 := by
  obtain ⟨pts, hpts⟩ := C01_answers pData.flag h.flag pData.bc Ts.sum h.capt
  obtain ⟨ht, hb⟩ := hl.tags h.ne h.pos
  obtain ⟨ws, A, b, -, h1, h2, h3, h4, -⟩ := oneStep_sem pData Ts.length Ts.sum h.total l ht
    (fun q hq => (hb q hq).2) g h.phase h.flag pts hpts
    (C01_boundary_conditions pData.flag h.flag pData.bc Ts.sum h.total.ne' pts hpts 0).1
  exact ⟨A, b, h1, h2, h3, h4⟩

/-- C18, why at least one point per phase is needed: with none and two or more phases the code reads
past the end of the vector of phase switches. -/
theorem C18_zero_points (pData : ProblemData) (T₁ T₂ : ℝ) (Ts : List ℝ) (g : V3)
    (h : Accepted pData (T₁ :: T₂ :: Ts) g) :
    computeConstraintsOneStep pData (T₁ :: T₂ :: Ts).length (T₁ :: T₂ :: Ts).sum
      (computeDiscretizedTimeFixed (T₁ :: T₂ :: Ts) 0) = .ub := by
  have h0 : ∀ (Ts : List ℝ) i t, fixedOuter 0 Ts i t = [] := by
    intro Ts
    induction Ts with
    | nil => intro i t; rfl
    | cons T Ts ih => intro i t; rw [fixedOuter, fixedInner]; exact ih _ _
  obtain ⟨ct, e, hc, hg, -⟩ := h.phase 0 (by simp)
  obtain ⟨ct1, e1, hc1, hg1, -⟩ := h.phase 1 (by simp)
  simp only [computeConstraintsOneStep, computeDiscretizedTimeFixed, h0, List.dropLast_singleton,
    List.nil_append, stepIdPerPhase, List.map_cons, List.map_nil, stepIdGo]
  simp only [List.cons_ne_nil, if_false, Out.ok_bind, computeNumIneq, List.getLast?_singleton,
    List.length_cons, numIneqLoop, hc, hg.1, List.getElem?_cons_zero, hc1]
  rfl

/-- C18, an empty problem is not handled: with no phase the planner reads the first element of an
empty vector. -/
theorem C18_no_phase (pData : ProblemData) (hc : pData.contacts = []) (hf : pData.flag ∈ comFlags)
    (h0 : pData.flag = 19#32 → pData.bc.dc1 = 0) (n : ℕ) :
    computeConstraintsOneStep pData 0 0 (computeDiscretizedTimeFixed [] n) = .ub := by
  obtain ⟨pts, hpts⟩ := C01_answers pData.flag hf pData.bc 0 h0
  have hw : computeWwaypoints pData.flag [] pData.bc 0 = .ub := by
    simp only [comFlags, List.mem_cons, List.not_mem_nil, or_false] at hf
    rcases hf with e | e | e | e | e | e | e <;> rw [e] at hpts ⊢ <;>
      simp [computeWwaypoints, frontGravity, hpts]
  simp only [computeConstraintsOneStep, computeDiscretizedTimeFixed, fixedOuter,
    List.dropLast_singleton, List.nil_append, stepIdPerPhase, List.map_cons, List.map_nil, stepIdGo]
  simp [computeNumIneq, numIneqLoop, assignStabilityConstraints, computeDiscretizedWwaypoints, hc, hw]

/-- C19. `x` solves the assembled system iff at every constrained time the centre of mass is in the
kinematic polytope and the wrench carried by the wrench waypoints (`C04`) is admissible, with margin,
for the phase(s) of that time, and, if requested, the acceleration is bounded at every sample.
All seven constraint sets. -/
theorem C19_meaning (pData : ProblemData) (Ts : List ℝ) (g : V3)
    (h : Accepted pData Ts g) (l : TTime) (hl : Discretisation Ts l)
    (A b : Mat) (hA : computeConstraintsOneStep pData Ts.length Ts.sum l = .ok (A, b)) :
    ∃ pts ws, computeConstantWaypoints pData.flag pData.bc Ts.sum = .ok pts ∧
      computeWwaypoints pData.flag pData.contacts pData.bc Ts.sum = .ok ws ∧ ∀ x : V3,
      let c := curve (degreeOf pData.flag) (fill pData.flag (nth pts) x) Ts.sum
      ∃ v a, IsDeriv c v ∧ IsDeriv v a ∧
        (Sat A b (ext3 x) ↔
          (∀ t p, Constrained l t p → AtPhase pData.contacts p fun ct e =>
            WrenchOk e pData.reduce_h (e.mass • (g - headCurve ws x (t / Ts.sum)))
              (e.mass • (-tailCurve ws x (t / Ts.sum))) ∧ KinOk ct (c t)) ∧
          (pData.constraintAcceleration = true →
            ∀ q ∈ l, ∀ k, |a q.1 k| ≤ pData.maxAcceleration)) := by
  obtain ⟨pts, hpts⟩ := C01_answers pData.flag h.flag pData.bc Ts.sum h.capt
  obtain ⟨ht, hb⟩ := hl.tags h.ne h.pos
  obtain ⟨ws, A', b', hw, h1, -, -, -, h5⟩ := oneStep_sem pData Ts.length Ts.sum h.total l ht
    (fun q hq => (hb q hq).2) g h.phase h.flag pts hpts
    (C01_boundary_conditions pData.flag h.flag pData.bc Ts.sum h.total.ne' pts hpts 0).1
  rw [hA] at h1
  cases h1
  exact ⟨pts, ws, hpts, hw, h5⟩

theorem deriv_unique {c v v' : ℝ → V3} (h : IsDeriv c v) (h' : IsDeriv c v') : v = v' :=
  funext fun s => (h s).unique (h' s)

theorem neg_wrenchTail (g c a : V3) : -wrenchTail g c a = cr c (g - a) := by
  unfold wrenchTail cr
  rw [← cross_anticomm c g, map_sub]
  abel

/-- C19, in terms of the physical motion, for the five constraint sets whose wrench waypoints are
exact: `x` solves the assembled system iff the motion `c` satisfies the requirements of the phase
(gravito-inertial wrench of `c` and its acceleration, position) at every constrained time, and the
acceleration bound at every sample if requested. -/
theorem C19_physical (pData : ProblemData) (Ts : List ℝ) (g : V3)
    (h : Accepted pData Ts g) (hf : pData.flag ∈ [11#32, 19#32, 27#32, 7#32, 15#32])
    (l : TTime) (hl : Discretisation Ts l)
    (A b : Mat) (hA : computeConstraintsOneStep pData Ts.length Ts.sum l = .ok (A, b)) :
    ∃ pts, computeConstantWaypoints pData.flag pData.bc Ts.sum = .ok pts ∧ ∀ x : V3,
      let c := curve (degreeOf pData.flag) (fill pData.flag (nth pts) x) Ts.sum
      ∃ v a, IsDeriv c v ∧ IsDeriv v a ∧
        (Sat A b (ext3 x) ↔
          (∀ t p, Constrained l t p → AtPhase pData.contacts p fun ct e =>
            PhaseOk ct e pData.reduce_h (c t) (a t)) ∧
          (pData.constraintAcceleration = true →
            ∀ q ∈ l, ∀ k, |a q.1 k| ≤ pData.maxAcceleration)) := by
  obtain ⟨pts, ws, hpts, hw, hx⟩ := C19_meaning pData Ts g h l hl A b hA
  refine ⟨pts, hpts, fun x => ?_⟩
  obtain ⟨v, a, hv, ha, hiff⟩ := hx x
  refine ⟨v, a, hv, ha, ?_⟩
  obtain ⟨ct0, e0, hc0, hg0, hgr⟩ := h.phase 0 (List.length_pos_iff.mpr h.ne)
  obtain ⟨rest, hrest⟩ : ∃ rest, pData.contacts = ct0 :: rest := by
    cases hcs : pData.contacts with
    | nil => rw [hcs] at hc0; simp at hc0
    | cons a r => rw [hcs] at hc0; simp at hc0; exact ⟨r, by rw [hc0]⟩
  obtain ⟨ws', hw', hx'⟩ := C04_wrench_waypoints_partial pData.flag hf ct0 rest e0 hg0.1 pData.bc
    Ts.sum h.total.ne' pts hpts
  rw [← hrest, hw] at hw'
  cases hw'
  obtain ⟨v', a', hv', ha', hs⟩ := hx' x
  have e1 := deriv_unique hv hv'
  subst e1
  have e2 := deriv_unique ha ha'
  subst e2
  rw [hiff]
  refine and_congr_left fun _ => forall₂_congr fun t p => imp_congr_right fun hc => ?_
  have hp : p < Ts.length := (hc.lt (hl.tags h.ne h.pos).1).1
  obtain ⟨ct, e, hct, hg, hge⟩ := h.phase p hp
  have k : ∀ (P : ContactData → Equilibrium → Prop), AtPhase pData.contacts p P ↔ P ct e := by
    intro P
    constructor
    · rintro ⟨ct', e', q1, q2, q3⟩
      rw [hct] at q1
      cases q1
      rw [hg.1] at q2
      cases q2
      exact q3
    · intro q; exact ⟨ct, e, hct, hg.1, q⟩
  rw [k, k]
  unfold PhaseOk
  rw [(hs t).1, (hs t).2, hgr, neg_wrenchTail, hge]

/-- C20. At the instant where phase `j` ends and phase `j+1` begins, a solution of the assembled
system satisfies the requirements of both phases (five exact constraint sets; for the two others
the same holds of the wrench of `C19_meaning`, see `C20_both_phases_constrained`). -/
theorem C20_both_phases_constrained (Ts : List ℝ) (hpos : ∀ T ∈ Ts, 0 < T) (l : TTime)
    (hl : Discretisation Ts l) (j : ℕ) (hj : j + 1 < Ts.length) :
    Constrained l (Ts.take (j + 1)).sum j ∧ Constrained l (Ts.take (j + 1)).sum (j + 1) := by
  have hne : Ts ≠ [] := by rintro rfl; simp at hj
  rcases hl with ⟨n, hn, rfl⟩ | ⟨step, hs, fuel, h⟩
  · obtain ⟨h1, -, -, h4⟩ := C17_fixed_discretization Ts n hn hne
    have a1 := h4 j (n - 1) (by omega) (by omega)
    have a2 := h4 (j + 1) 0 hj hn
    have en : ((n - 1 : ℕ) : ℝ) + 1 = n := by
      rw [Nat.cast_sub hn]; push_cast; ring
    have hn' : (n : ℝ) ≠ 0 := by exact_mod_cast hn.ne'
    have es : (Ts.take j).sum + Ts.getD j 0 = (Ts.take (j + 1)).sum := by
      rw [List.sum_take_succ Ts j (by omega)]
      simp [List.getD, show j < Ts.length by omega]
    rw [en, mul_div_cancel₀ _ hn', es] at a1
    have ei : j * n + (n - 1) + 1 = (j + 1) * n := by
      have : (j + 1) * n = j * n + n := by ring
      omega
    rw [ei] at a1
    rw [add_zero] at a2
    set L := computeDiscretizedTimeFixed Ts n
    obtain ⟨b1, c1⟩ := List.getElem?_eq_some_iff.mp a1
    obtain ⟨b2, c2⟩ := List.getElem?_eq_some_iff.mp a2
    refine ⟨Or.inl (List.mem_of_getElem? a1), Or.inr ⟨L.take ((j + 1) * n), j,
      (Ts.take (j + 1)).sum + (((0 : ℕ) : ℝ) + 1) * (Ts.getD (j + 1) 0 / n),
      L.drop ((j + 1) * n + 1 + 1), ?_, by simp⟩⟩
    · rw [← c2, ← c1, List.getElem_cons_drop, List.getElem_cons_drop, List.take_append_drop]
  · obtain ⟨h1, rfl⟩ := disc_eq Ts step hs fuel l h
    obtain ⟨-, a1, -⟩ := allSamples_phase step hs Ts hpos 0 0 j (by omega)
    obtain ⟨a2, -, -⟩ := allSamples_phase step hs Ts hpos 0 0 (j + 1) hj
    rw [zero_add, zero_add] at a1 a2
    exact ⟨Or.inl a1, Or.inl a2⟩

/-- C20. -/
theorem C20_switch (pData : ProblemData) (Ts : List ℝ) (g : V3)
    (h : Accepted pData Ts g) (hf : pData.flag ∈ [11#32, 19#32, 27#32, 7#32, 15#32])
    (l : TTime) (hl : Discretisation Ts l)
    (A b : Mat) (hA : computeConstraintsOneStep pData Ts.length Ts.sum l = .ok (A, b))
    (x : V3) (hx : Sat A b (ext3 x)) (j : ℕ) (hj : j + 1 < Ts.length) :
    ∃ pts, computeConstantWaypoints pData.flag pData.bc Ts.sum = .ok pts ∧
      let c := curve (degreeOf pData.flag) (fill pData.flag (nth pts) x) Ts.sum
      let s := (Ts.take (j + 1)).sum
      ∃ v a, IsDeriv c v ∧ IsDeriv v a ∧
        (AtPhase pData.contacts j fun ct e => PhaseOk ct e pData.reduce_h (c s) (a s)) ∧
        (AtPhase pData.contacts (j + 1) fun ct e => PhaseOk ct e pData.reduce_h (c s) (a s)) := by
  obtain ⟨pts, hpts, H⟩ := C19_physical pData Ts g h hf l hl A b hA
  obtain ⟨v, a, hv, ha, hiff⟩ := H x
  obtain ⟨h1, h2⟩ := C20_both_phases_constrained Ts h.pos l hl j hj
  exact ⟨pts, hpts, v, a, hv, ha, (hiff.mp hx).1 _ _ h1, (hiff.mp hx).1 _ _ h2⟩

/-- C25, discretised formulation: the acceleration bound is enforced at every sample when the option
is set (all seven sets). -/
theorem C25_samples (pData : ProblemData) (Ts : List ℝ) (g : V3)
    (h : Accepted pData Ts g) (l : TTime) (hl : Discretisation Ts l)
    (A b : Mat) (hA : computeConstraintsOneStep pData Ts.length Ts.sum l = .ok (A, b))
    (hc : pData.constraintAcceleration = true) (x : V3) (hx : Sat A b (ext3 x)) :
    ∃ pts, computeConstantWaypoints pData.flag pData.bc Ts.sum = .ok pts ∧
      ∃ v a, IsDeriv (curve (degreeOf pData.flag) (fill pData.flag (nth pts) x) Ts.sum) v ∧
        IsDeriv v a ∧ ∀ q ∈ l, ∀ k, |a q.1 k| ≤ pData.maxAcceleration := by
  obtain ⟨pts, ws, hpts, -, H⟩ := C19_meaning pData Ts g h l hl A b hA
  obtain ⟨v, a, hv, ha, hiff⟩ := H x
  exact ⟨pts, hpts, v, a, hv, ha, (hiff.mp hx).2 hc⟩

/-- C58. If some `x` gives a motion meeting the requirements at every sample (a switch sample for
both phases), the assembled system has a solution, namely that `x`: nothing else is asked. Five
exact constraint sets. -/
theorem C58_not_cut_off (pData : ProblemData) (Ts : List ℝ) (g : V3)
    (h : Accepted pData Ts g) (hf : pData.flag ∈ [11#32, 19#32, 27#32, 7#32, 15#32])
    (l : TTime) (hl : Discretisation Ts l) (pts : List V3)
    (hpts : computeConstantWaypoints pData.flag pData.bc Ts.sum = .ok pts) (x : V3)
    (v a : ℝ → V3)
    (hv : IsDeriv (curve (degreeOf pData.flag) (fill pData.flag (nth pts) x) Ts.sum) v)
    (ha : IsDeriv v a)
    (hok : ∀ t p, Constrained l t p → AtPhase pData.contacts p fun ct e =>
      PhaseOk ct e pData.reduce_h
        (curve (degreeOf pData.flag) (fill pData.flag (nth pts) x) Ts.sum t) (a t))
    (hacc : pData.constraintAcceleration = true → ∀ q ∈ l, ∀ k, |a q.1 k| ≤ pData.maxAcceleration) :
    ∃ A b, computeConstraintsOneStep pData Ts.length Ts.sum l = .ok (A, b) ∧ Sat A b (ext3 x) := by
  obtain ⟨A, b, hA, -⟩ := C18_in_bounds_and_complete pData Ts g h l hl
  obtain ⟨pts', hpts', H⟩ := C19_physical pData Ts g h hf l hl A b hA
  rw [hpts] at hpts'
  cases hpts'
  obtain ⟨v', a', hv', ha', hiff⟩ := H x
  have e1 := deriv_unique hv hv'
  subst e1
  have e2 := deriv_unique ha ha'
  subst e2
  exact ⟨A, b, hA, hiff.mpr ⟨hok, hacc⟩⟩

/-- C20 for all seven sets, with the wrench of the wrench waypoints. -/
theorem C20_switch_all_sets (pData : ProblemData) (Ts : List ℝ) (g : V3)
    (h : Accepted pData Ts g) (l : TTime) (hl : Discretisation Ts l)
    (A b : Mat) (hA : computeConstraintsOneStep pData Ts.length Ts.sum l = .ok (A, b))
    (x : V3) (hx : Sat A b (ext3 x)) (j : ℕ) (hj : j + 1 < Ts.length) :
    ∃ pts ws, computeConstantWaypoints pData.flag pData.bc Ts.sum = .ok pts ∧
      computeWwaypoints pData.flag pData.contacts pData.bc Ts.sum = .ok ws ∧
      ∀ p ∈ [j, j + 1], AtPhase pData.contacts p fun ct e =>
        WrenchOk e pData.reduce_h
          (e.mass • (g - headCurve ws x ((Ts.take (j + 1)).sum / Ts.sum)))
          (e.mass • (-tailCurve ws x ((Ts.take (j + 1)).sum / Ts.sum))) ∧
        KinOk ct (curve (degreeOf pData.flag) (fill pData.flag (nth pts) x) Ts.sum
          (Ts.take (j + 1)).sum) := by
  obtain ⟨pts, ws, hpts, hws, H⟩ := C19_meaning pData Ts g h l hl A b hA
  obtain ⟨v, a, -, -, hiff⟩ := H x
  obtain ⟨h1, h2⟩ := C20_both_phases_constrained Ts h.pos l hl j hj
  refine ⟨pts, ws, hpts, hws, fun p hp => ?_⟩
  simp only [List.mem_cons, List.not_mem_nil, or_false] at hp
  rcases hp with rfl | rfl
  · exact (hiff.mp hx).1 _ _ h1
  · exact (hiff.mp hx).1 _ _ h2

/-- C58 for all seven sets, with the wrench of the wrench waypoints. -/
theorem C58_all_sets (pData : ProblemData) (Ts : List ℝ) (g : V3)
    (h : Accepted pData Ts g) (l : TTime) (hl : Discretisation Ts l) (pts : List V3)
    (hpts : computeConstantWaypoints pData.flag pData.bc Ts.sum = .ok pts) (ws : List Wp6)
    (hws : computeWwaypoints pData.flag pData.contacts pData.bc Ts.sum = .ok ws) (x : V3)
    (v a : ℝ → V3)
    (hv : IsDeriv (curve (degreeOf pData.flag) (fill pData.flag (nth pts) x) Ts.sum) v)
    (ha : IsDeriv v a)
    (hok : ∀ t p, Constrained l t p → AtPhase pData.contacts p fun ct e =>
      WrenchOk e pData.reduce_h (e.mass • (g - headCurve ws x (t / Ts.sum)))
        (e.mass • (-tailCurve ws x (t / Ts.sum))) ∧
      KinOk ct (curve (degreeOf pData.flag) (fill pData.flag (nth pts) x) Ts.sum t))
    (hacc : pData.constraintAcceleration = true → ∀ q ∈ l, ∀ k, |a q.1 k| ≤ pData.maxAcceleration) :
    ∃ A b, computeConstraintsOneStep pData Ts.length Ts.sum l = .ok (A, b) ∧ Sat A b (ext3 x) := by
  obtain ⟨A, b, hA, -⟩ := C18_in_bounds_and_complete pData Ts g h l hl
  obtain ⟨pts', ws', hpts', hws', H⟩ := C19_meaning pData Ts g h l hl A b hA
  rw [hpts] at hpts'
  cases hpts'
  rw [hws] at hws'
  cases hws'
  obtain ⟨v', a', hv', ha', hiff⟩ := H x
  have e1 := deriv_unique hv hv'
  subst e1
  have e2 := deriv_unique ha ha'
  subst e2
  exact ⟨A, b, hA, hiff.mpr ⟨hok, hacc⟩⟩

theorem dot_close (u p q : V3) (ε : ℝ) (h : ∀ k, |p k - q k| ≤ ε) :
    |dot u p - dot u q| ≤ (|u 0| + |u 1| + |u 2|) * ε := by
  have e : dot u p - dot u q = u 0 * (p 0 - q 0) + u 1 * (p 1 - q 1) + u 2 * (p 2 - q 2) := by
    unfold dot; ring
  rw [e]
  have hk : ∀ k, |u k * (p k - q k)| ≤ |u k| * ε := fun k => by
    rw [abs_mul]; exact mul_le_mul_of_nonneg_left (h k) (abs_nonneg _)
  have t1 := abs_add_le (u 0 * (p 0 - q 0) + u 1 * (p 1 - q 1)) (u 2 * (p 2 - q 2))
  have t2 := abs_add_le (u 0 * (p 0 - q 0)) (u 1 * (p 1 - q 1))
  have := hk 0
  have := hk 1
  have := hk 2
  nlinarith

/-- C19, the two constraint sets whose wrench waypoints are rounded (degrees 5 and 6): a solution of
the assembled system satisfies each stability inequality of the physical wrench up to `1e-12` times
the size of the data, and the kinematic inequalities exactly. Missing for the exact statement: the
equality of the waypoints, which is false (`C04_not_exact`). -/
theorem C19_physical_rounded_partial (pData : ProblemData) (Ts : List ℝ) (g : V3)
    (h : Accepted pData Ts g) (hf : pData.flag ∈ [31#32, 63#32])
    (l : TTime) (hl : Discretisation Ts l)
    (A b : Mat) (hA : computeConstraintsOneStep pData Ts.length Ts.sum l = .ok (A, b)) :
    ∃ pts, computeConstantWaypoints pData.flag pData.bc Ts.sum = .ok pts ∧
      ∀ (x : V3) (M G : ℝ), (∀ p ∈ pts, ∀ k, |p k| ≤ M) → (∀ k, |x k| ≤ M) → (∀ k, |g k| ≤ G) →
      Sat A b (ext3 x) →
      let c := curve (degreeOf pData.flag) (fill pData.flag (nth pts) x) Ts.sum
      ∃ v a, IsDeriv c v ∧ IsDeriv v a ∧
        ∀ t p, Constrained l t p → AtPhase pData.contacts p fun ct e => KinOk ct (c t) ∧
          ∀ r ∈ e.poly, dot r.1.1 (e.mass • (g - a t)) + dot r.1.2 (e.mass • cr (c t) (g - a t))
            ≤ (r.2 - max pData.reduce_h 0)
                * (|e.mass| * Real.sqrt (dot r.1.1 r.1.1 + dot r.1.2 r.1.2))
              + |e.mass| * ((|r.1.1 0| + |r.1.1 1| + |r.1.1 2|) * (1e-12 * M / Ts.sum ^ 2)
                + (|r.1.2 0| + |r.1.2 1| + |r.1.2 2|)
                    * (1e-12 * (M * M + Ts.sum ^ 2 * (G * M)) / Ts.sum ^ 2)) := by
  obtain ⟨pts, ws, hpts, hw, hx⟩ := C19_meaning pData Ts g h l hl A b hA
  refine ⟨pts, hpts, fun x M G hM hxM hG hsat => ?_⟩
  obtain ⟨v, a, hv, ha, hiff⟩ := hx x
  refine ⟨v, a, hv, ha, fun t p hc => ?_⟩
  obtain ⟨ct0, e0, hc0, hg0, hgr⟩ := h.phase 0 (List.length_pos_iff.mpr h.ne)
  obtain ⟨rest, hrest⟩ : ∃ rest, pData.contacts = ct0 :: rest := by
    cases hcs : pData.contacts with
    | nil => rw [hcs] at hc0; simp at hc0
    | cons a r => rw [hcs] at hc0; simp at hc0; exact ⟨r, by rw [hc0]⟩
  obtain ⟨ws', hw', hx'⟩ := C04_wrench_waypoints_rounded_partial pData.flag hf ct0 rest e0 hg0.1
    pData.bc Ts.sum h.total pts hpts
  rw [← hrest, hw] at hw'
  cases hw'
  rw [← hgr] at hG
  obtain ⟨v', a', hv', ha', hs⟩ := hx' x M G hM hxM hG
  have e1 := deriv_unique hv hv'
  subst e1
  have e2 := deriv_unique ha ha'
  subst e2
  obtain ⟨htags, hb⟩ := hl.tags h.ne h.pos
  obtain ⟨_, i, hi⟩ := hc.lt htags
  obtain ⟨t0, t1⟩ := hb _ hi
  obtain ⟨ct, e, q1, q2, q3, q4⟩ := (hiff.mp hsat).1 t p hc
  refine ⟨ct, e, q1, q2, q4, fun r hr => ?_⟩
  have hrow := q3 r hr
  have d1 := dot_close r.1.1 (headCurve ws x (t / Ts.sum)) (a t) _ fun k => (hs t t0 t1 k).1
  have d2 := dot_close r.1.2 (tailCurve ws x (t / Ts.sum)) _ _ fun k => (hs t t0 t1 k).2
  unfold WrenchRowOk at hrow
  rw [hgr] at d2
  rw [← neg_wrenchTail]
  set W := wrenchTail g (curve (degreeOf pData.flag) (fill pData.flag (nth pts) x) Ts.sum t) (a t)
  have f1 : dot r.1.1 (e.mass • (g - a t)) + dot r.1.2 (e.mass • -W)
      = (dot r.1.1 (e.mass • (g - headCurve ws x (t / Ts.sum)))
          + dot r.1.2 (e.mass • (-tailCurve ws x (t / Ts.sum))))
        + e.mass * ((dot r.1.1 (headCurve ws x (t / Ts.sum)) - dot r.1.1 (a t))
          + (dot r.1.2 (tailCurve ws x (t / Ts.sum)) - dot r.1.2 W)) := by
    simp only [dot, Pi.smul_apply, Pi.sub_apply, Pi.neg_apply, smul_eq_mul]; ring
  rw [f1]
  refine add_le_add hrow ?_
  refine le_trans (le_abs_self _) ?_
  rw [abs_mul]
  refine mul_le_mul_of_nonneg_left ?_ (abs_nonneg _)
  exact le_trans (abs_add_le _ _) (add_le_add d1 d2)

/-! ## Non-vacuity -/

/-- A contact phase with one stability row (the contact can only push) and one kinematic row. -/
def pushContact : ContactData :=
  { contactPhase := some
      { mass := 50, gravity := ![0, 0, -9.81], poly := [((![0, 0, 1], 0), 0)],
        polyOk := true, isPP := true, gens := [] },
    Kin := [![1, 0, 0]], kin := [1], Ang := [], ang := [] }

/-- Two phases, from rest at the origin to the origin. -/
def twoPhases : ProblemData :=
  { contacts := [pushContact, pushContact], bc := ⟨0, 0, 0, 0, 0, 0, 0, 0⟩, l0 := 0,
    useAngularMomentum := false, flag := 11#32, constraintAcceleration := true,
    maxAcceleration := 1, reduce_h := 0.1, costFunction := 1, representation := 1 }

theorem pushContact_good : GoodContact pushContact
    { mass := 50, gravity := ![0, 0, -9.81], poly := [((![0, 0, 1], 0), 0)],
      polyOk := true, isPP := true, gens := [] } := by
  refine ⟨rfl, rfl, by norm_num, ?_, fun _ => rfl⟩
  intro r hr
  simp only [List.mem_singleton] at hr
  subst hr
  intro h
  have := congrFun (congrArg Prod.fst h) 2
  simp at this

/-- The hypotheses of all the theorems of this file are met. -/
theorem twoPhases_accepted : Accepted twoPhases [1, 2] ![0, 0, -9.81] := by
  refine ⟨rfl, by simp, by simp, ?_, by simp [twoPhases, comFlags], by simp [twoPhases]⟩
  intro ct hct
  simp only [twoPhases, List.mem_cons, List.not_mem_nil, or_false, or_self] at hct
  subst hct
  exact ⟨_, pushContact_good, rfl⟩

example : Discretisation [1, 2] (computeDiscretizedTimeFixed [1, 2] 3) := Or.inl ⟨3, by norm_num, rfl⟩

/-- There is a solution, obtained from the motion that does not move (`C58`). -/
theorem twoPhases_solution (l : TTime) (hl : Discretisation [1, 2] l) :
    ∃ A b, computeConstraintsOneStep twoPhases 2 ([1, 2] : List ℝ).sum l = .ok (A, b) ∧ Sat A b (ext3 0) := by
  have hpts : computeConstantWaypoints twoPhases.flag twoPhases.bc ([1, 2] : List ℝ).sum = .ok
      (c0_dc0_c1.computeConstantWaypoints twoPhases.bc ([1, 2] : List ℝ).sum) := by
    simp [computeConstantWaypoints, twoPhases]
  have hcurve : curve (degreeOf twoPhases.flag) (fill twoPhases.flag
      (nth (c0_dc0_c1.computeConstantWaypoints twoPhases.bc ([1, 2] : List ℝ).sum)) 0) ([1, 2] : List ℝ).sum
      = fun _ => 0 := by
    funext s
    have : fill twoPhases.flag
      (nth (c0_dc0_c1.computeConstantWaypoints twoPhases.bc ([1, 2] : List ℝ).sum)) 0 = fun _ => 0 := by
      funext i
      unfold fill
      split_ifs
      · rfl
      · simp only [c0_dc0_c1.computeConstantWaypoints, twoPhases, nth]
        rcases i with _ | _ | _ | _ | i <;> simp <;> rfl
    rw [this, curve, bez]
    simp
  refine C58_not_cut_off twoPhases [1, 2] _ twoPhases_accepted (by simp [twoPhases]) l hl _ hpts 0
    (fun _ => 0) (fun _ => 0) ?_ (fun s => hasDerivAt_const s 0) ?_ ?_
  · rw [hcurve]; exact fun s => hasDerivAt_const s 0
  · intro t p hc
    have hp : p < 2 := (hc.lt (hl.tags (by simp) (by simp)).1).1
    refine ⟨pushContact, _, ?_, pushContact_good.1, ?_⟩
    · interval_cases p <;> rfl
    · rw [hcurve]
      constructor
      · intro r hr
        simp only [List.mem_singleton] at hr
        subst hr
        have h1 : Real.sqrt (dot ![0, 0, 1] ![0, 0, 1] + dot (0 : V3) 0) = 1 := by
          rw [show dot ![0, 0, 1] ![0, 0, 1] + dot (0 : V3) 0 = 1 by simp [dot]]
          exact Real.sqrt_one
        simp only [WrenchRowOk, h1]
        simp [dot, twoPhases]
        norm_num
      · intro q hq
        simp [pushContact] at hq
        subst hq
        simp [dot]
  · intro _ q _ k
    simp [twoPhases]

end Verif
