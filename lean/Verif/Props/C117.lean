import Verif.Props.C115
import Verif.Props.C116
import Verif.Props.C23Ref

/-!
# C117: splitting phases and adding contacts in the continuous formulation with forces
-/

namespace Verif
open Matrix

/-- A contact phase that can produce more wrenches, with fewer rows or larger bounds of the reachable region. -/
structure StrongerContact (ct ct' : ContactData) : Prop where
  phase : ∃ e e', ct.contactPhase = some e ∧ ct'.contactPhase = some e' ∧ e'.mass = e.mass ∧ e'.gravity = e.gravity ∧ ConeLe e e'
  kin : LooserRows (List.zip ct.Kin ct.kin) (List.zip ct'.Kin ct'.kin)

/-- A problem with the same boundary conditions whose phases are parts of the phases of the first one, and which allows more
in each of them. -/
structure FinerForces (d d' : ProblemData) (Ts Ts' : List ℝ) : Prop where
  bc : d'.bc = d.bc
  flag : d'.flag = d.flag
  repr : d'.representation = d.representation
  maxAcc : d.maxAcceleration ≤ d'.maxAcceleration
  total : Ts'.sum = Ts.sum
  phases : ∀ j' < Ts'.length, ∃ j < Ts.length, (Ts.take j).sum ≤ (Ts'.take j').sum ∧
    (Ts'.take (j' + 1)).sum ≤ (Ts.take (j + 1)).sum ∧
    ∃ ct ct', d.contacts[j]? = some ct ∧ d'.contacts[j']? = some ct' ∧ StrongerContact ct ct'

theorem inCone_add {e : Equilibrium} {f τ f' τ' : V3} {a b : ℝ} (ha : 0 ≤ a) (hb : 0 ≤ b) (h : InCone e f τ) (h' : InCone e f' τ') :
    InCone e (a • f + b • f') (a • τ + b • τ') := by
  obtain ⟨β, h1, rfl, rfl⟩ := h
  obtain ⟨β', h1', rfl, rfl⟩ := h'
  refine ⟨fun k => a * β k + b * β' k, fun k hk => add_nonneg (mul_nonneg ha (h1 k hk)) (mul_nonneg hb (h1' k hk)), ?_, ?_⟩
  all_goals
    rw [Finset.smul_sum, Finset.smul_sum, ← Finset.sum_add_distrib]
    exact Finset.sum_congr rfl fun k _ => by rw [add_smul, mul_smul, mul_smul]

theorem inCone_convex (e : Equilibrium) (m : ℝ) (g : V3) : Convex ℝ {q : V3 × V3 | InCone e (m • (g - q.1)) (m • (-q.2))} := by
  intro q hq q' hq' a b ha hb hab
  have := inCone_add ha hb hq hq'
  obtain rfl : b = 1 - a := by linarith
  have e1 : a • m • (g - q.1) + (1 - a) • m • (g - q'.1) = m • (g - (a • q + (1 - a) • q').1) := by
    funext k; simp; ring
  have e2 : a • m • (-q.2) + (1 - a) • m • (-q'.2) = m • (-(a • q + (1 - a) • q').2) := by
    funext k; simp; ring
  rw [e1, e2] at this
  exact this

theorem phase_facts (L : List ℝ) (hL : ∀ T ∈ L, 0 < T) (i : ℕ) (hi : i < L.length) : 0 < L.getD i 0 ∧ (L.take i).sum < L.sum ∧
    (L.take (i + 1)).sum = L.getD i 0 + (L.take i).sum := by
  have hp : InPhase L i (L.take i).sum := ⟨hi, le_rfl, List.sum_take_succ L i hi ▸ by
    have := hL _ (List.getElem_mem hi); linarith⟩
  have hg : L.getD i 0 = L[i] := by simp [List.getD, hi]
  refine ⟨hg ▸ hL _ (List.getElem_mem hi), ?_, ?_⟩
  · obtain ⟨u, -, -, -, hu⟩ := inPhase_param hL hp
    exact hu
  · rw [List.sum_take_succ L i hi, hg, add_comm]

/-- C117, the systems: a motion that has forces has forces in the finer problem. -/
theorem C117_feasible (κ : ℝ) (d d' : ProblemData) (Ts Ts' : List ℝ) (g : V3) (hfi : FinerForces d d' Ts Ts')
    (h : AcceptedC d Ts g) (h' : AcceptedC d' Ts' g) (hr : d.representation ≠ DOUBLE_DESCRIPTION)
    (hm : ∀ ct ∈ d.contacts, ∀ e, ct.contactPhase = some e → 0 < e.mass) (hn : NestedPhases d.contacts)
    (S S' : ContSystem) (hS : computeConstraintsContinuous κ d Ts = .ok S) (hS' : computeConstraintsContinuous κ d' Ts' = .ok S')
    (y : ℕ → ℝ) (hy : AllSat S.A S.b S.D S.d S.minBounds y) :
    ∃ y', first3 y' = first3 y ∧ AllSat S'.A S'.b S'.D S'.d S'.minBounds y' := by
  obtain ⟨ct, e, pts, ws, S1, R⟩ := cont_raw κ d Ts g h
  obtain ⟨ct', e', pts', ws', S1', R'⟩ := cont_raw κ d' Ts' g h'
  have q1 := R.hS
  rw [hS] at q1
  cases q1
  have q2 := R'.hS
  rw [hS'] at q2
  cases q2
  have hpts := R'.hpts
  rw [hfi.flag, hfi.bc, hfi.total, R.hpts] at hpts
  cases hpts
  have hws := R'.hws
  rw [hfi.flag, hfi.bc, hfi.total, wps_gravity _ d.contacts _ _ _ ((R'.front h'.ne).trans (R.front h.ne).symm), R.hws] at hws
  cases hws
  have hr' : d'.representation ≠ DOUBLE_DESCRIPTION := by rw [hfi.repr]; exact hr
  have hw := force_controls h R hr hm hn y hy
  have key : ∀ j' < Ts'.length, ∃ j < Ts.length, (Ts.take j).sum < Ts.sum ∧ (Ts'.take j').sum < Ts.sum ∧ 0 < Ts.getD j 0 ∧
      0 < Ts'.getD j' 0 ∧ (Ts.take j).sum ≤ (Ts'.take j').sum ∧
      Ts'.getD j' 0 + (Ts'.take j').sum ≤ Ts.getD j 0 + (Ts.take j).sum ∧ (e' j').mass = (e j).mass ∧ ConeLe (e j) (e' j') ∧
      LooserRows (List.zip (ct j).Kin (ct j).kin) (List.zip (ct' j').Kin (ct' j').kin) := by
    intro j' hj'
    obtain ⟨j, hj, h1, h2, c, c', hc, hc', ⟨a, a', ha, ha', hma, -, hpo⟩, hki⟩ := hfi.phases j' hj'
    rw [R.hct j hj] at hc
    rw [R'.hct j' hj'] at hc'
    cases hc
    cases hc'
    rw [R.he j hj] at ha
    rw [R'.he j' hj'] at ha'
    cases ha
    cases ha'
    obtain ⟨m1, m2, m3⟩ := phase_facts Ts h.pos j hj
    obtain ⟨m1', m2', m3'⟩ := phase_facts Ts' h'.pos j' hj'
    rw [m3, m3'] at h2
    rw [hfi.total] at m2'
    exact ⟨j, hj, m2, m2', m1, m1', h1, h2, hma, hpo, hki⟩
  refine force_solution R' hr' (first3 y) ?_ (fun k => ?_) fun j' hj' v hv => ?_
  · rw [R'.kin, first3_ext3]
    intro j' hj'
    obtain ⟨j, hj, m2, m2', m1, m1', h1, h2, hma, hpo, hki⟩ := key j' hj'
    obtain ⟨k1, -, k3⟩ := (R.kin y).mp hy.1 j hj
    rw [hfi.total]
    refine ⟨fun co hco q' hq' => ?_, fun h => absurd h hr', fun co hco k => ?_⟩
    · have := sub_convex (kinOk_convex (ct j)) ((symCoefs pts).map (·.at (first3 y))) h.total m2 m2' m1 m1' h1 h2 (by
        rw [← subCoefs_map]
        intro q hq
        obtain ⟨co, hco, rfl⟩ := List.mem_map.mp hq
        exact k1 co hco) (co.at (first3 y)) (by
        rw [← subCoefs_map]
        exact List.mem_map_of_mem hco)
      obtain ⟨q, hq, b1, b2⟩ := hki q' hq'
      rw [← b1]
      exact (this q hq).trans b2
    · have := sub_convex (box_convex d.maxAcceleration) ((secondDeriv κ (symCoefs pts)).map (·.at (first3 y))) h.total m2 m2' m1 m1'
        h1 h2 (by
        rw [← subCoefs_map]
        intro q hq
        obtain ⟨co, hco, rfl⟩ := List.mem_map.mp hq
        exact k3 co hco) (co.at (first3 y)) (by
        rw [← subCoefs_map]
        exact List.mem_map_of_mem hco)
      exact (this k).trans hfi.maxAcc
  · refine hy.2.2 k (-100000) ?_
    rw [R.min, if_neg hr]
    fin_cases k <;> simp
  · obtain ⟨j, hj, m2, m2', m1, m1', h1, h2, hma, hpo, hki⟩ := key j' hj'
    rw [hfi.total] at hv
    have := sub_convex (inCone_convex (e j) (e j).mass g) (ws.map fun w => (w.headAt (first3 y), w.tailAt (first3 y)))
      h.total m2 m2' m1 m1' h1 h2 (by
      rw [← subWp6_pair]
      intro q hq
      obtain ⟨w, hw', rfl⟩ := List.mem_map.mp hq
      exact hw j hj w hw') (v.headAt (first3 y), v.tailAt (first3 y)) (by
      rw [← subWp6_pair]
      exact List.mem_map_of_mem hv)
    rw [hma]
    exact hpo _ _ this

/-- A larger cone spans as well. -/
theorem Spans.mono {e e' : Equilibrium} (h : Spans e) (hc : ConeLe e e') : Spans e' := by
  intro u v huv
  refine h u v fun q hq => ?_
  obtain ⟨k, hk, rfl⟩ := List.mem_iff_getElem.mp hq
  have hin : InCone e (e.gens[k]).1 (e.gens[k]).2 := by
    refine ⟨fun i => if i = k then 1 else 0, fun i _ => by beta_reduce; split_ifs <;> norm_num, ?_, ?_⟩
    all_goals
      rw [Finset.sum_eq_single k]
      · simp [List.getD, hk]
      · intro i _ hi; simp [hi]
      · intro hi; exact absurd (Finset.mem_range.mpr hk) hi
  obtain ⟨β, -, b1, b2⟩ := hc _ _ hin
  rw [← b1, ← b2, dot_gens, dot_gens, ← Finset.sum_add_distrib]
  refine Finset.sum_eq_zero fun i hi => ?_
  have hi' := Finset.mem_range.mp hi
  have hm : e'.gens.getD i 0 ∈ e'.gens := by
    rw [List.getD_eq_getElem?_getD, List.getElem?_eq_getElem hi', Option.getD_some]
    exact List.getElem_mem hi'
  rw [← mul_add, huv _ hm, mul_zero]

/-- C117. Splitting phases and allowing more wrenches never loses a plan of the continuous formulation with forces. -/
theorem C117_continuous (κ : ℝ) (lib lib' : Lib) (hL : LibOk lib) (he : lib.eps = 0) (hL' : LibOk lib') (he' : lib'.eps = 0)
    (d d' : ProblemData) (Ts Ts' : List ℝ) (g : V3) (hfi : FinerForces d d' Ts Ts') (h : AcceptedC d Ts g) (h' : AcceptedC d' Ts' g)
    (hr : d.representation ≠ DOUBLE_DESCRIPTION) (step : ℝ) (hstep : step ≤ 0)
    (hc : d.costFunction = DISTANCE_TRAVELED ∨ d.costFunction = ACCELERATION ∧ d.flag ≠ 63#32)
    (hc' : d'.costFunction = DISTANCE_TRAVELED ∨ d'.costFunction = ACCELERATION ∧ d'.flag ≠ 63#32)
    (hm : ∀ ct ∈ d.contacts, ∀ e, ct.contactPhase = some e → 0 < e.mass)
    (hs : ∀ ct ∈ d.contacts, ∀ e, ct.contactPhase = some e → Spans e) (hn : NestedPhases d.contacts)
    (hlim : ∀ S, computeConstraintsContinuous κ d' Ts' = .ok S → 2 ^ (S.A.rows + S.minBounds.length) < lib'.maxIter) :
    ∃ res res' N, (∀ fuel ≥ N, computeCOMTraj κ lib fuel d Ts step SOLVER_QUADPROG = .ok res) ∧
      (∀ fuel ≥ N, computeCOMTraj κ lib' fuel d' Ts' step SOLVER_QUADPROG = .ok res') ∧
      (res.success = true → res'.success = true) := by
  have hr' : d'.representation ≠ DOUBLE_DESCRIPTION := by rw [hfi.repr]; exact hr
  have hs' : ∀ ct ∈ d'.contacts, ∀ e, ct.contactPhase = some e → Spans e := by
    intro ct hct a ha
    obtain ⟨j', hj'⟩ := List.mem_iff_getElem?.mp hct
    obtain ⟨j, hj, -, -, c, c', hc, hc', ⟨b, b', hb, hb', -, -, hpo⟩, -⟩ := hfi.phases j' (by
      rw [h'.size]; exact (List.getElem?_eq_some_iff.mp hj').1)
    rw [hj'] at hc'
    cases hc'
    rw [ha] at hb'
    cases hb'
    exact (hs c (List.mem_of_getElem? hc) b hb).mono hpo
  obtain ⟨S, hS, -⟩ := C21_in_bounds_and_complete κ d Ts g h
  obtain ⟨S', hS', -⟩ := C21_in_bounds_and_complete κ d' Ts' g h'
  obtain ⟨hE, -⟩ := force_independent κ d Ts g h hr hs S hS
  obtain ⟨hE', hind'⟩ := force_independent κ d' Ts' g h' hr' hs' S' hS'
  obtain ⟨res, N, hrun, hsucc, -⟩ := continuous_exact κ lib hL he d Ts g h step hstep hc S hS hE
  obtain ⟨res', N', hrun', -, hfail'⟩ := continuous_exact κ lib' hL' he' d' Ts' g h' step hstep hc' S' hS' hE'
  refine ⟨res, res', max N N', fun fuel hfuel => hrun fuel (le_trans (le_max_left _ _) hfuel),
    fun fuel hfuel => hrun' fuel (le_trans (le_max_right _ _) hfuel), fun hq => ?_⟩
  obtain ⟨y, -, hsat, -⟩ := hsucc hq
  obtain ⟨z, -, hz⟩ := C117_feasible κ d d' Ts Ts' g hfi h h' hr hm hn S S' hS hS' y hsat
  by_contra hn'
  rcases hfail' (by simpa using hn') with q | q | ⟨i, hi, c, hc⟩
  · exact absurd q (not_le.mpr (hlim S' hS'))
  · exact q _ hz
  · exact hind' i hi c hc

/-! ## Example -/

/-- `claspProblem` in two phases. -/
noncomputable def claspTwice (x0 : ℝ) : ProblemData := { claspProblem x0 with contacts := [claspContact x0, claspContact x0] }

theorem claspTwice_accepted (x0 : ℝ) : AcceptedC (claspTwice x0) [1 / 4, 3 / 4] 0 := by
  refine ⟨rfl, by simp, by simp, by simp [claspTwice, claspProblem, comFlags], by simp [claspTwice, claspProblem], ?_⟩
  intro ct hct
  simp only [claspTwice, List.mem_cons, List.not_mem_nil, or_false, or_self] at hct
  subst hct
  exact ⟨_, rfl, rfl, rfl, fun h => absurd h (claspProblem_facts x0).1⟩

theorem clasp_finer (x0 : ℝ) : FinerForces (claspProblem x0) (claspTwice x0) [1] [1 / 4, 3 / 4] := by
  refine ⟨rfl, rfl, rfl, le_rfl, by norm_num, fun j' hj' => ?_⟩
  have hs : StrongerContact (claspContact x0) (claspContact x0) :=
    ⟨⟨_, _, rfl, rfl, rfl, rfl, fun _ _ h => h⟩, fun q hq => ⟨q, hq, rfl, le_rfl⟩⟩
  have hj2 : j' = 0 ∨ j' = 1 := by simp at hj'; omega
  rcases hj2 with rfl | rfl
  · exact ⟨0, by simp, by norm_num, by norm_num, _, _, rfl, rfl, hs⟩
  · exact ⟨0, by simp, by norm_num, by norm_num, _, _, rfl, rfl, hs⟩

/-- A non-trivial case of C117: one phase split into two. -/
example (κ : ℝ) : ∃ maxIter res' N,
    (∀ fuel ≥ N, computeCOMTraj κ (exactLib maxIter) fuel (claspTwice 1) [1 / 4, 3 / 4] (-1) SOLVER_QUADPROG = .ok res') ∧
    res'.success = true := by
  obtain ⟨M, hM⟩ := clasp_calls κ 1 (by norm_num)
  obtain ⟨res, -, N, hrun, -, -, hs, -⟩ := hM (M + 1) (by omega)
  obtain ⟨S', hS', -⟩ := C21_in_bounds_and_complete κ _ _ _ (claspTwice_accepted 1)
  obtain ⟨f1, f2, f3, f4, -, -⟩ := claspProblem_facts 1
  obtain ⟨res1, res', N', hrun1, hrun', hmain⟩ := C117_continuous κ (exactLib (M + 1)) (exactLib (2 ^ (S'.A.rows + S'.minBounds.length) + 1))
    (exactLib_ok _) rfl (exactLib_ok _) rfl _ _ _ _ 0 (clasp_finer 1) (claspProblem_accepted 1).1 (claspTwice_accepted 1) f1 (-1)
    (by norm_num) (Or.inr ⟨rfl, by simp [claspProblem]⟩) (Or.inr ⟨rfl, by simp [claspTwice, claspProblem]⟩) f2 f3 f4 (by
      intro S2 h2
      rw [hS'] at h2
      cases h2
      exact Nat.lt_succ_self _)
  have e := hrun (max N N') (le_max_left _ _)
  rw [hrun1 (max N N') (le_max_right _ _)] at e
  cases e
  exact ⟨_, res', N', hrun', hmain (hs (by norm_num))⟩

/-! ## Phases that are not nested -/

/-- `swapProblem` with the end of the first phase as a phase of its own. -/
noncomputable def swapSplit : ProblemData :=
  { swapProblem with contacts := [pushAlong ![1, 0, 0], pushAlong ![1, 0, 0], pushAlong ![-1, 0, 0]] }

theorem swapSplit_accepted : AcceptedC swapSplit [19 / 20, 1 / 20, 1] 0 := by
  refine ⟨rfl, by simp, by simp, by simp [swapSplit, swapProblem, comFlags], by simp [swapSplit, swapProblem], ?_⟩
  intro ct hct
  simp only [swapSplit, List.mem_cons, List.not_mem_nil, or_false] at hct
  rcases hct with rfl | rfl | rfl
  all_goals exact ⟨_, rfl, rfl, rfl, by simp [swapSplit, swapProblem, DOUBLE_DESCRIPTION]⟩

theorem swap_finer : FinerForces swapProblem swapSplit [1, 1] [19 / 20, 1 / 20, 1] := by
  have hs : ∀ f, StrongerContact (pushAlong f) (pushAlong f) := fun f =>
    ⟨⟨_, _, rfl, rfl, rfl, rfl, fun _ _ h => h⟩, fun q hq => ⟨q, hq, rfl, le_rfl⟩⟩
  refine ⟨rfl, rfl, rfl, le_rfl, by norm_num, fun j' hj' => ?_⟩
  have hj3 : j' = 0 ∨ j' = 1 ∨ j' = 2 := by simp at hj'; omega
  rcases hj3 with rfl | rfl | rfl
  · exact ⟨0, by simp, by norm_num, by norm_num, _, _, rfl, rfl, hs _⟩
  · exact ⟨0, by simp, by norm_num, by norm_num, _, _, rfl, rfl, hs _⟩
  · exact ⟨1, by simp, by norm_num, by norm_num, _, _, rfl, rfl, hs _⟩

/-- C117, nesting is needed. In the problem of C23_refuted (force along `x` only, then along `-x` only) a motion has forces, and
has none when the first phase is split: the wrench at the end of the first phase is not checked with the forces of that phase. -/
theorem C117_nested_refuted : ∃ S S' y, FinerForces swapProblem swapSplit [1, 1] [19 / 20, 1 / 20, 1] ∧
    computeConstraintsContinuous 1 swapProblem [1, 1] = .ok S ∧
    computeConstraintsContinuous 1 swapSplit [19 / 20, 1 / 20, 1] = .ok S' ∧
    AllSat S.A S.b S.D S.d S.minBounds y ∧ ∀ y', first3 y' = first3 y → ¬ AllSat S'.A S'.b S'.D S'.d S'.minBounds y' := by
  obtain ⟨S, y, -, -, -, hS, h1, h2, h3, hy, -⟩ := C23_refuted
  obtain ⟨ct, e, pts, ws, S', R⟩ := cont_raw 1 swapSplit _ _ swapSplit_accepted
  refine ⟨S, S', y, swap_finer, hS, R.hS, ⟨h1, h2, h3⟩, fun y' hy' hsat => ?_⟩
  have hrep : swapSplit.representation ≠ DOUBLE_DESCRIPTION := by simp [swapSplit, swapProblem, DOUBLE_DESCRIPTION]
  have e1 : ([19 / 20, 1 / 20, 1] : List ℝ).sum = 2 := by norm_num
  have hws := R.hws
  rw [e1, wps_gravity _ swapProblem.contacts _ _ _ (by rfl)] at hws
  have hl : ws.length = 4 := by
    have := congrArg List.length (swap_ws ws hws).1; simpa using this
  have he : ∀ p < 2, e p = { mass := 1, gravity := 0, poly := [], polyOk := true, isPP := true, gens := [(![1, 0, 0], 0)] } := by
    intro p hp
    have hp01 : p = 0 ∨ p = 1 := by omega
    rcases hp01 with rfl | rfl
    · have a := R.hct 0 (by simp)
      have b := R.he 0 (by simp)
      simp only [swapSplit, List.getElem?_cons_zero, Option.some.injEq] at a
      rw [← a] at b
      exact (Option.some.inj b).symm
    · have a := R.hct 1 (by simp)
      have b := R.he 1 (by simp)
      simp only [swapSplit, List.getElem?_cons_succ, List.getElem?_cons_zero, Option.some.injEq] at a
      rw [← a] at b
      exact (Option.some.inj b).symm
  have hk : 0 < (subWp6 ws 2 (19 / 20) (1 / 20)).length := by rw [subWp6_length, hl]; norm_num
  have hmem := contBlocks_mem e ([19 / 20, 1 / 20, 1] : List ℝ).sum ws [19 / 20, 1 / 20, 1] 0 0 0 1 (by simp)
    (subWp6 ws 2 (19 / 20) (1 / 20))[0] (by
      have e2 : (0 : ℝ) + (([19 / 20, 1 / 20, 1] : List ℝ).take 1).sum = 19 / 20 := by norm_num
      have e3 : ([19 / 20, 1 / 20, 1] : List ℝ).getD 1 0 = 1 / 20 := rfl
      rw [e1, e2, e3]
      refine forceRange_mem _ _ _ _ 0 hk (fun _ => ?_) (fun h => ?_)
      · simp [he 0 (by norm_num), he 1 (by norm_num)]
      · rw [subWp6_length, hl] at h; norm_num at h)
  have hin := blocks_inCone R hrep y' hsat.2.1 hsat.2.2 _ hmem
  simp only [zero_add] at hin
  rw [he 1 (by norm_num), hy', hy, swap_sub ws hws (19 / 20) (1 / 20) 0 (by omega)] at hin
  obtain ⟨β, b1, b2, -⟩ := hin
  have b0 := b1 0 (by simp)
  have := congrFun b2 0
  simp at this
  norm_num at this
  linarith

end Verif
