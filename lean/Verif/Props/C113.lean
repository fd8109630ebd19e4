import Verif.Props.C110

/-!
# C113: what the formulation with forces solves, the sampled formulation with polytopes solves
-/

namespace Verif
open Matrix

/-- The problem with the polytopes of the contact phases in place of the forces. -/
def ProblemData.polytopes (d : ProblemData) : ProblemData := { d with representation := DOUBLE_DESCRIPTION }

/-- Every row of the polytope holds of every generator, and its bound is at least the margin. -/
def Encloses (e : Equilibrium) (ρ : ℝ) : Prop :=
  ∀ r ∈ e.poly, max ρ 0 ≤ r.2 ∧ ∀ q ∈ e.gens, dot r.1.1 q.1 + dot r.1.2 q.2 ≤ 0

theorem dot_gens (u : V3) (n : ℕ) (β : ℕ → ℝ) (f : ℕ → V3) :
    dot u (∑ k ∈ Finset.range n, β k • f k) = ∑ k ∈ Finset.range n, β k * dot u (f k) := by
  induction n with
  | zero => simp [dot]
  | succ n ih =>
    rw [Finset.sum_range_succ, Finset.sum_range_succ, ← ih]
    simp [dot]
    ring

/-- A wrench of the cone of the generators is admissible for the polytope. -/
theorem InCone.wrenchOk {e : Equilibrium} {ρ : ℝ} {f τ : V3} (h : InCone e f τ) (hd : Encloses e ρ) : WrenchOk e ρ f τ := by
  obtain ⟨β, h1, rfl, rfl⟩ := h
  intro r hr
  obtain ⟨q1, q2⟩ := hd r hr
  have h0 : 0 ≤ (r.2 - max ρ 0) * (|e.mass| * Real.sqrt (dot r.1.1 r.1.1 + dot r.1.2 r.1.2)) :=
    mul_nonneg (by linarith) (by positivity)
  refine le_trans ?_ h0
  rw [dot_gens, dot_gens, ← Finset.sum_add_distrib]
  refine Finset.sum_nonpos fun k hk => ?_
  have hk' := Finset.mem_range.mp hk
  have hm : e.gens.getD k 0 ∈ e.gens := by
    rw [List.getD_eq_getElem?_getD, List.getElem?_eq_getElem hk', Option.getD_some]
    exact List.getElem_mem hk'
  have := mul_nonpos_of_nonneg_of_nonpos (h1 k hk') (q2 _ hm)
  linarith

/-- A success of the formulation with forces, as a motion which meets the requirements of the polytopes at all samples. -/
theorem force_meets (κ : ℝ) (lib : Lib) (hL : LibOk lib) (he : lib.eps = 0) (d : ProblemData) (Ts : List ℝ) (g : V3)
    (h : AcceptedC d Ts g) (hr : d.representation ≠ DOUBLE_DESCRIPTION)
    (hf : d.flag ∈ [11#32, 19#32, 27#32, 7#32, 15#32])
    (step : ℝ) (hstep : step ≤ 0) (hc : d.costFunction = DISTANCE_TRAVELED ∨ d.costFunction = ACCELERATION)
    (hm : ∀ ct ∈ d.contacts, ∀ e, ct.contactPhase = some e → 0 < e.mass)
    (hs : ∀ ct ∈ d.contacts, ∀ e, ct.contactPhase = some e → Spans e)
    (hn : NestedPhases d.contacts)
    (hd : ∀ ct ∈ d.contacts, ∀ e, ct.contactPhase = some e → Encloses e d.reduce_h)
    (hk : d.constraintAcceleration = true → 1 ≤ |κ| * Ts.sum ^ 2)
    (pts : List V3) (hpts : computeConstantWaypoints d.flag d.bc Ts.sum = .ok pts)
    (hz : ∀ i < pts.length, i ∉ freeSlots d.flag → ∃ k, 1e-12 < |nth pts i k|) :
    ∃ res N, (∀ fuel ≥ N, computeCOMTraj κ lib fuel d Ts step SOLVER_QUADPROG = .ok res) ∧
      (res.success = true → ∃ v a, Motion d.polytopes Ts.sum res.point res.c_of_t.eval v a ∧
        ∀ l, (∀ t p, Constrained l t p → InPhase Ts p t) → (∀ q ∈ l, 0 ≤ q.1 ∧ q.1 ≤ Ts.sum) →
          MeetsSamples d.polytopes l res.c_of_t.eval a) := by
  obtain ⟨S, res, N, hS, hrun, hsucc, -⟩ :=
    C56_force_spans_partial κ lib hL he d Ts g h hr hf step hstep hc hm hs hn pts hpts hz
  obtain ⟨hE, -⟩ := force_independent κ d Ts g h hr hs S hS
  obtain ⟨res', N', hrun', hsucc', -⟩ := continuous_exact κ lib hL he d Ts g h step hstep
    (hc.imp_right fun hc => ⟨hc, fun e => by rw [e] at hf; simp at hf⟩) S hS hE
  have e := hrun (max N N') (le_max_left _ _)
  rw [hrun' (max N N') (le_max_right _ _)] at e
  cases e
  refine ⟨res, N, hrun, fun hq => ?_⟩
  obtain ⟨-, v, a, hv, ha, m1⟩ := hsucc hq
  obtain ⟨y, hy, hsat, v', a', hmo, -⟩ := hsucc' hq
  have hm' := hmo
  obtain ⟨pts', hpts', hcv, hv', ha'⟩ := hm'
  rw [hpts] at hpts'
  cases hpts'
  have e1 := deriv_unique hv hv'
  subst e1
  have e2 := deriv_unique ha ha'
  subst e2
  obtain ⟨v', a', hv2, ha2, hok⟩ := C25_every_instant κ d Ts g h S hS y hsat.1 pts hpts hz
  rw [hy, ← hcv] at hv2
  have e1 := deriv_unique hv hv2
  subst e1
  have e2 := deriv_unique ha ha2
  subst e2
  refine ⟨_, _, hmo, fun l hl hl2 => continuous_verdict (d := d.polytopes) hl hl2 h.ne hk (fun p t hp => ?_) hok⟩
  obtain ⟨ct, e, i1, i2, i3, i4⟩ := m1 p t hp
  have hct := List.mem_of_getElem? i1
  obtain ⟨e', j1, j2, -⟩ := h.phases ct hct
  rw [i2] at j1
  cases j1
  rw [← j2] at i3
  exact ⟨ct, e, i1, i2, i3.wrenchOk (hd ct hct e i2), i4⟩

/-- C113, `computeCOMTrajFixedSize`. What the formulation with forces solves is solved with polytopes which enclose the
generators and any number of points per phase, at no larger cost at the samples. -/
theorem C113_fixedSize (κ : ℝ) (lib : Lib) (hL : LibOk lib) (he : lib.eps = 0) (d : ProblemData) (Ts : List ℝ) (g : V3)
    (h : AcceptedC d Ts g) (h' : Accepted d.polytopes Ts g) (hr : d.representation ≠ DOUBLE_DESCRIPTION)
    (hf : d.flag ∈ [11#32, 19#32, 27#32, 7#32, 15#32])
    (step : ℝ) (hstep : step ≤ 0) (hc : d.costFunction = DISTANCE_TRAVELED ∨ d.costFunction = ACCELERATION)
    (hm : ∀ ct ∈ d.contacts, ∀ e, ct.contactPhase = some e → 0 < e.mass)
    (hs : ∀ ct ∈ d.contacts, ∀ e, ct.contactPhase = some e → Spans e)
    (hn : NestedPhases d.contacts)
    (hd : ∀ ct ∈ d.contacts, ∀ e, ct.contactPhase = some e → Encloses e d.reduce_h)
    (hk : d.constraintAcceleration = true → 1 ≤ |κ| * Ts.sum ^ 2)
    (pts : List V3) (hpts : computeConstantWaypoints d.flag d.bc Ts.sum = .ok pts)
    (hz : ∀ i < pts.length, i ∉ freeSlots d.flag → ∃ k, 1e-12 < |nth pts i k|) (n : ℕ) (hn' : 0 < n)
    (hlim : ∀ A b, computeConstraintsOneStep d.polytopes Ts.length Ts.sum (computeDiscretizedTimeFixed Ts n) = .ok (A, b) →
      2 ^ A.rows < lib.maxIter) :
    ∃ res res' N, (∀ fuel ≥ N, computeCOMTraj κ lib fuel d Ts step SOLVER_QUADPROG = .ok res) ∧
      (∀ fuel ≥ N, computeCOMTrajFixedSize lib fuel d.polytopes Ts n = .ok res') ∧
      NotWorse d.polytopes Ts.sum (computeDiscretizedTimeFixed Ts n) res res' := by
  obtain ⟨res, N, hrun, hmt⟩ := force_meets κ lib hL he d Ts g h hr hf step hstep hc hm hs hn hd hk pts hpts hz
  obtain ⟨res', N', hrun', -, hv'⟩ := C56_fixedSize_partial lib hL he d.polytopes Ts g h' rfl hf n hn' hc
  have hl : Discretisation Ts (computeDiscretizedTimeFixed Ts n) := Or.inl ⟨n, hn', rfl⟩
  obtain ⟨A', b', hA', -⟩ := C18_in_bounds_and_complete d.polytopes Ts g h' _ hl
  refine ⟨res, res', max N N', fun fuel hfuel => hrun fuel (le_trans (le_max_left _ _) hfuel),
    fun fuel hfuel => hrun' fuel (le_trans (le_max_right _ _) hfuel),
    continuous_not_worse (fun q => absurd (q A' b' hA') (not_le.mpr (hlim A' b' hA'))) (fun hs => ?_) hv'⟩
  obtain ⟨v, a, q1, q2⟩ := hmt hs
  exact ⟨v, a, q1, q2 _ (fixed_inPhase Ts h.ne h.pos n hn') (hl.tags h.ne h.pos).2⟩

/-- C113, `computeCOMTraj` with a time step at most half of every phase. -/
theorem C113_timeStep (κ : ℝ) (lib : Lib) (hL : LibOk lib) (he : lib.eps = 0) (d : ProblemData) (Ts : List ℝ) (g : V3)
    (h : AcceptedC d Ts g) (h' : Accepted d.polytopes Ts g) (hr : d.representation ≠ DOUBLE_DESCRIPTION)
    (hf : d.flag ∈ [11#32, 19#32, 27#32, 7#32, 15#32])
    (step : ℝ) (hstep : step ≤ 0) (hc : d.costFunction = DISTANCE_TRAVELED ∨ d.costFunction = ACCELERATION)
    (hm : ∀ ct ∈ d.contacts, ∀ e, ct.contactPhase = some e → 0 < e.mass)
    (hs : ∀ ct ∈ d.contacts, ∀ e, ct.contactPhase = some e → Spans e)
    (hn : NestedPhases d.contacts)
    (hd : ∀ ct ∈ d.contacts, ∀ e, ct.contactPhase = some e → Encloses e d.reduce_h)
    (hk : d.constraintAcceleration = true → 1 ≤ |κ| * Ts.sum ^ 2)
    (pts : List V3) (hpts : computeConstantWaypoints d.flag d.bc Ts.sum = .ok pts)
    (hz : ∀ i < pts.length, i ∉ freeSlots d.flag → ∃ k, 1e-12 < |nth pts i k|) (dt : ℝ) (hdt : 0 < dt)
    (hshort : ∀ T ∈ Ts, dt * 2 ≤ T)
    (hlim : ∀ A b, computeConstraintsOneStep d.polytopes Ts.length Ts.sum (allSamples dt Ts 0 0) = .ok (A, b) →
      2 ^ A.rows < lib.maxIter) :
    ∃ res res' N, (∀ fuel ≥ N, computeCOMTraj κ lib fuel d Ts step SOLVER_QUADPROG = .ok res) ∧
      (∀ fuel ≥ N, computeCOMTraj κ lib fuel d.polytopes Ts dt SOLVER_QUADPROG = .ok res') ∧
      NotWorse d.polytopes Ts.sum (allSamples dt Ts 0 0) res res' := by
  obtain ⟨res, N, hrun, hmt⟩ := force_meets κ lib hL he d Ts g h hr hf step hstep hc hm hs hn hd hk pts hpts hz
  obtain ⟨l, res', N', hl, hdisc, hrun', -, hv'⟩ := C56_timeStep_partial κ lib hL he d.polytopes Ts g h' rfl hf dt hdt hshort hc
  obtain rfl := (disc_eq Ts dt hdt N' l (hdisc N' le_rfl)).2
  obtain ⟨A', b', hA', -⟩ := C18_in_bounds_and_complete d.polytopes Ts g h' _ hl
  refine ⟨res, res', max N N', fun fuel hfuel => hrun fuel (le_trans (le_max_left _ _) hfuel),
    fun fuel hfuel => hrun' fuel (le_trans (le_max_right _ _) hfuel),
    continuous_not_worse (fun q => absurd (q A' b' hA') (not_le.mpr (hlim A' b' hA'))) (fun hs => ?_) hv'⟩
  obtain ⟨v, a, q1, q2⟩ := hmt hs
  exact ⟨v, a, q1, q2 _ (step_inPhase Ts h.pos dt hdt) (hl.tags h.ne h.pos).2⟩

/-! ## A foot on the ground -/

/-- Friction in both directions and all moments, but no pull. -/
def axes5 : List (V3 × V3) :=
  [(![1, 0, 0], 0), (![-1, 0, 0], 0), (![0, 1, 0], 0), (![0, -1, 0], 0),
   (0, ![1, 0, 0]), (0, ![-1, 0, 0]), (0, ![0, 1, 0]), (0, ![0, -1, 0]), (0, ![0, 0, 1]), (0, ![0, 0, -1])]

/-- One phase whose generators span the space of wrenches; the polytope says that the contact does not pull. -/
def footProblem (ρ : ℝ) : ProblemData :=
  { standProblem 2 with contacts := [standContact (genDown 1 :: axes5)], reduce_h := ρ }

theorem footProblem_accepted (ρ : ℝ) : AcceptedC (footProblem ρ) [3] ![0, 0, -10] := by
  refine ⟨rfl, by simp, by simp, by simp [footProblem, standProblem, comFlags], by simp [footProblem, standProblem], ?_⟩
  intro ct hct
  simp only [footProblem, List.mem_singleton] at hct
  subst hct
  exact ⟨_, rfl, rfl, rfl, fun h => by simp [footProblem, standProblem, DOUBLE_DESCRIPTION] at h⟩

theorem footProblem_polytopes (ρ : ℝ) : Accepted (footProblem ρ).polytopes [3] ![0, 0, -10] := by
  have h := footProblem_accepted ρ
  refine ⟨h.size, h.ne, h.pos, fun ct hct => ?_, h.flag, h.capt⟩
  simp only [ProblemData.polytopes, footProblem, List.mem_singleton] at hct
  subst hct
  refine ⟨_, ⟨rfl, rfl, by norm_num, fun r hr => ?_, fun _ => rfl⟩, rfl⟩
  simp only [List.mem_singleton] at hr
  subst hr
  intro h
  have := congrFun (congrArg Prod.fst h) 2
  simp at this

/-- The contact phase of `footProblem`. -/
def footPhase : Equilibrium :=
  { mass := 100, gravity := ![0, 0, -10], poly := [((![0, 0, 1], 0), 0)], polyOk := true, isPP := true, gens := genDown 1 :: axes5 }

theorem footProblem_phase {ρ : ℝ} {ct : ContactData} (hct : ct ∈ (footProblem ρ).contacts) {e : Equilibrium}
    (he : ct.contactPhase = some e) : e = footPhase := by
  simp only [footProblem, List.mem_singleton] at hct
  subst hct
  simp only [standContact, Option.some.injEq] at he
  exact he.symm

theorem footProblem_spans (ρ : ℝ) : ∀ ct ∈ (footProblem ρ).contacts, ∀ e, ct.contactPhase = some e → Spans e := by
  intro ct hct e he u v h
  obtain rfl := footProblem_phase hct he
  have a0 := h (![1, 0, 0], 0) (by simp [footPhase, axes5])
  have a1 := h (![0, 1, 0], 0) (by simp [footPhase, axes5])
  have a2 := h (genDown 1) (by simp [footPhase])
  have b0 := h (0, ![1, 0, 0]) (by simp [footPhase, axes5])
  have b1 := h (0, ![0, 1, 0]) (by simp [footPhase, axes5])
  have b2 := h (0, ![0, 0, 1]) (by simp [footPhase, axes5])
  simp [dot, genDown] at a0 a1 a2 b0 b1 b2
  have a2' : u 2 = 0 := by linarith
  constructor <;> funext k <;> fin_cases k <;> assumption

theorem footProblem_encloses : ∀ ct ∈ (footProblem 0).contacts, ∀ e, ct.contactPhase = some e →
    Encloses e (footProblem 0).reduce_h := by
  intro ct hct e he r hr
  obtain rfl := footProblem_phase hct he
  simp only [footPhase, List.mem_singleton] at hr
  subst hr
  refine ⟨by simp [footProblem], fun q hq => ?_⟩
  simp only [footPhase, axes5, List.mem_cons, List.not_mem_nil, or_false] at hq
  rcases hq with rfl | rfl | rfl | rfl | rfl | rfl | rfl | rfl | rfl | rfl | rfl <;> simp [dot, genDown]

theorem footProblem_sat (κ ρ : ℝ) (S : ContSystem)
    (hS : computeConstraintsContinuous κ (footProblem ρ) [3] = .ok S) :
    AllSat S.A S.b S.D S.d S.minBounds standSolution := by
  obtain ⟨ct, e, pts, ws, S', R⟩ := cont_raw κ _ [3] _ (footProblem_accepted ρ)
  have hSS := R.hS
  rw [hS] at hSS
  cases hSS
  have e1 : ([3] : List ℝ).sum = 3 := by norm_num
  have hp := standProblem_pts 2 _ pts R.hpts
  have hpt : ∀ co ∈ symCoefs pts, co.at ![1, 0, 1] = ![1, 0, 1] := by
    refine (forall_map _ (fun w : Coefs => w.at ![1, 0, 1]) (fun v => v = ![1, 0, 1])).mpr ?_
    rw [symCoefs_at, hp]
    have hz1 : (symbolicOf 1 ![1, 0, 1]).toCoefs.at ![1, 0, 1] = ![1, 0, 1] :=
      symbolic_at_const _ _ ⟨0, by norm_num⟩
    simp only [List.map_cons, List.map_nil, hz1, symbolic_at_free]
    simp
  have hacc : ∀ co ∈ secondDeriv κ (symCoefs pts), co.at ![1, 0, 1] = 0 := by
    refine (forall_map _ (fun w : Coefs => w.at ![1, 0, 1]) (fun v => v = 0)).mpr ?_
    rw [secondDeriv_at, symCoefs_at, hp]
    have hz1 : (symbolicOf 1 ![1, 0, 1]).toCoefs.at ![1, 0, 1] = ![1, 0, 1] :=
      symbolic_at_const _ _ ⟨0, by norm_num⟩
    simp only [List.map_cons, List.map_nil, hz1, symbolic_at_free]
    simp [derivCtrl]
  have hrep : (footProblem ρ).representation ≠ DOUBLE_DESCRIPTION := by
    simp [footProblem, standProblem, DOUBLE_DESCRIPTION]
  have hct : ct 0 = standContact (genDown 1 :: axes5) := by
    have := R.hct 0 (by simp); simp [footProblem] at this; exact this.symm
  have he0 : e 0 = footPhase := by
    have := R.he 0 (by simp); rw [hct] at this; exact (Option.some.inj this).symm
  have hwr : ∀ w ∈ ws, w.headAt ![1, 0, 1] = 0 ∧ w.tailAt ![1, 0, 1] = ![0, -10, 0] := by
    refine standProblem_ws 2 ws ?_
    rw [← e1, ← R.hws]
    rfl
  refine ⟨?_, ?_, ?_⟩
  · rw [R.kin]
    intro p hp2
    have hp0 : p = 0 := by simpa using hp2
    subst hp0
    rw [standSolution_first]
    refine ⟨fun co hco => ?_, fun h => absurd h hrep, fun co hco k => ?_⟩
    · rw [subCoefs_const _ _ _ hpt _ _ _ co hco, hct]
      intro q hq
      simp [standContact] at hq
      subst hq
      simp [dot]
    · rw [subCoefs_const _ _ _ hacc _ _ _ co hco]
      simp [footProblem, standProblem]
  · rw [(R.eqn hrep).2]
    intro j q hq
    have hq' := List.mem_of_getElem? hq
    simp only [contBlocks, List.append_nil, List.mem_map, forceRange, nextGens] at hq'
    simp at hq'
    obtain ⟨v, hv, rfl⟩ := hq'
    rw [standSolution_first]
    have hh : v.headAt ![1, 0, 1] = 0 := subWp6_const (headLin ![1, 0, 1]) (·.headAt ![1, 0, 1])
      (fun _ => rfl) ws 0 (fun w hw => (hwr w hw).1) _ _ _ _ hv
    have ht : v.tailAt ![1, 0, 1] = ![0, -10, 0] := subWp6_const (tailLin ![1, 0, 1]) (·.tailAt ![1, 0, 1])
      (fun _ => rfl) ws _ (fun w hw => (hwr w hw).2) _ _ _ _ hv
    have hy : ∀ a b, standSolution (3 + a + b) = 1000 := by
      intro a b; unfold standSolution; rw [dif_neg (by omega)]
    simp only [hy]
    rw [hh, ht, he0]
    constructor <;> funext k <;> fin_cases k <;>
      simp [footPhase, genDown, axes5, Finset.sum_range_succ] <;> norm_num
  · intro c b hb
    rw [R.min, if_neg hrep] at hb
    by_cases hc : c < 3
    · rw [List.getElem?_append_left (by simpa using hc), List.getElem?_replicate, if_pos hc] at hb
      cases hb
      have : c = 0 ∨ c = 1 ∨ c = 2 := by omega
      rcases this with rfl | rfl | rfl <;> simp [standSolution] <;> norm_num
    · rw [List.getElem?_append_right (by simpa using hc), List.getElem?_replicate] at hb
      split_ifs at hb with h
      cases hb
      simp [standSolution, hc]

theorem footProblem_mass (ρ : ℝ) : ∀ ct ∈ (footProblem ρ).contacts, ∀ e, ct.contactPhase = some e → 0 < e.mass := by
  intro ct hct e he
  obtain rfl := footProblem_phase hct he
  norm_num [footPhase]

theorem footProblem_nested (ρ : ℝ) : NestedPhases (footProblem ρ).contacts := by
  intro p ct ct' e e' h1 h2
  simp [footProblem] at h2

theorem footProblem_succeeds (κ ρ : ℝ) : ∃ M, ∀ maxIter > M, ∃ res N,
    (∀ fuel ≥ N, computeCOMTraj κ (exactLib maxIter) fuel (footProblem ρ) [3] (-1) SOLVER_QUADPROG = .ok res) ∧
      res.success = true := by
  have hacc := footProblem_accepted ρ
  obtain ⟨S, hS, -⟩ := C21_in_bounds_and_complete κ _ _ _ hacc
  obtain ⟨pts, hpts⟩ := C01_answers (footProblem ρ).flag hacc.flag (footProblem ρ).bc ([3] : List ℝ).sum hacc.capt
  refine ⟨2 ^ (S.A.rows + S.minBounds.length), fun maxIter hM => ?_⟩
  obtain ⟨S', res, N, hS', hrun, -, hfail⟩ := C56_force_spans_partial κ (exactLib maxIter) (exactLib_ok maxIter) rfl
    _ _ _ hacc (by simp [footProblem, standProblem, DOUBLE_DESCRIPTION])
    (by simp [footProblem, standProblem]) (-1) (by norm_num) (Or.inr rfl)
    (footProblem_mass ρ) (footProblem_spans ρ) (footProblem_nested ρ) pts hpts (standProblem_hz 2 _ pts hpts)
  rw [hS] at hS'
  cases hS'
  refine ⟨res, N, hrun, ?_⟩
  by_contra hs
  rcases hfail (by simpa using hs) with h1 | h1
  · change maxIter ≤ _ at h1
    omega
  · exact h1 _ (footProblem_sat κ ρ S hS)

/-- A non-trivial case of C113: a foot which can push and not pull. Both calls succeed. -/
example : ∃ maxIter res res' N,
    (∀ fuel ≥ N, computeCOMTraj (1 / 9) (exactLib maxIter) fuel (footProblem 0) [3] (-1) SOLVER_QUADPROG = .ok res) ∧
    (∀ fuel ≥ N, computeCOMTrajFixedSize (exactLib maxIter) fuel (footProblem 0).polytopes [3] 5 = .ok res') ∧
    res.success = true ∧ res'.success = true := by
  have hacc := footProblem_accepted 0
  obtain ⟨M, hM⟩ := footProblem_succeeds (1 / 9) 0
  obtain ⟨A, b, hA, -⟩ := C18_in_bounds_and_complete _ _ _ (footProblem_polytopes 0) _
    (Or.inl ⟨5, by norm_num, rfl⟩ : Discretisation [3] (computeDiscretizedTimeFixed [3] 5))
  obtain ⟨pts, hpts⟩ := C01_answers (footProblem 0).flag hacc.flag (footProblem 0).bc ([3] : List ℝ).sum hacc.capt
  have hp : 0 < 2 ^ A.rows := by positivity
  obtain ⟨res0, N0, hrun0, hs0⟩ := hM (M + 1 + 2 ^ A.rows) (by omega)
  obtain ⟨res, res', N, r1, r2, r3⟩ := C113_fixedSize (1 / 9) (exactLib (M + 1 + 2 ^ A.rows)) (exactLib_ok _) rfl _ _ _ hacc
    (footProblem_polytopes 0) (by simp [footProblem, standProblem, DOUBLE_DESCRIPTION])
    (by simp [footProblem, standProblem]) (-1) (by norm_num) (Or.inr rfl) (footProblem_mass 0) (footProblem_spans 0)
    (footProblem_nested 0) footProblem_encloses (fun _ => by norm_num) pts hpts (standProblem_hz 2 _ pts hpts) 5
    (by norm_num) (by
      intro A1 b1 h1
      rw [hA] at h1
      cases h1
      change _ < M + 1 + 2 ^ A.rows
      omega)
  have e := hrun0 (max N N0) (le_max_right _ _)
  rw [r1 (max N N0) (le_max_left _ _)] at e
  cases e
  exact ⟨_, _, res', N, r1, r2, hs0, (r3 hs0).1⟩

/-- C113, the limit of the claim. The formulation with forces knows no margin: with a margin of 12, a problem which it solves is
refused with polytopes, with every number of points. -/
theorem C113_margin_refuted (κ : ℝ) (lib : Lib) (hL : LibOk lib) (he : lib.eps = 0) (n : ℕ) (hn : 0 < n) :
    (∃ M, ∀ maxIter > M, ∃ res N,
      (∀ fuel ≥ N, computeCOMTraj κ (exactLib maxIter) fuel (footProblem 12) [3] (-1) SOLVER_QUADPROG = .ok res) ∧
        res.success = true) ∧
    ∃ res N, (∀ fuel ≥ N, computeCOMTrajFixedSize lib fuel (footProblem 12).polytopes [3] n = .ok res) ∧
      res.success = false := by
  refine ⟨footProblem_succeeds κ 12, ?_⟩
  obtain ⟨res, N, hrun, -, hv⟩ := C56_fixedSize_partial lib hL he (footProblem 12).polytopes [3] _ (footProblem_polytopes 12) rfl
    (by simp [ProblemData.polytopes, footProblem, standProblem]) n hn (Or.inr rfl)
  refine ⟨res, N, hrun, ?_⟩
  by_contra hs
  obtain ⟨v, a, -, ⟨h1, h2⟩, -⟩ := hv.found (by simpa using hs)
  have hmem : ((3 : ℝ), ((0 : ℕ) : ℤ)) ∈ computeDiscretizedTimeFixed [3] n := by
    refine List.mem_append_right _ ?_
    simp
  obtain ⟨ct, e, i1, i2, i3, -⟩ := h1 3 0 (Or.inl hmem)
  obtain rfl := footProblem_phase (ρ := 12) (List.mem_of_getElem? i1) i2
  have h3 := i3 ((![0, 0, 1], 0), 0) (by simp [footPhase])
  have h4 := h2 rfl _ hmem 2
  change |a 3 2| ≤ 1 at h4
  have h5 := (abs_le.mp h4).2
  have h6 := (abs_le.mp h4).1
  simp [WrenchRowOk, footPhase, dot, ProblemData.polytopes, footProblem] at h3
  change 100 * (-10 - a 3 2) ≤ _ at h3
  linarith

end Verif
