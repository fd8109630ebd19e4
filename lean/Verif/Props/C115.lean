import Verif.Props.C114
import Verif.Props.C56ContTol

/-!
# C115: splitting phases and looser requirements in the continuous formulation
-/

namespace Verif
open Matrix

/-! ## Sub-curves of sub-curves -/

/-- The control points of a sub-curve of a sub-curve. -/
theorem extract_nested {F : Type} [NormedAddCommGroup F] [NormedSpace ℝ F] (P : List F) (hP : P ≠ []) (a s a' s' α σ : ℝ)
    (h : ∀ u, a' + u * s' * (1 - a') = a + (α + u * σ * (1 - α)) * s * (1 - a)) :
    extractCtrl P a' s' = extractCtrl (extractCtrl P a s) α σ := by
  have hne : extractCtrl P a s ≠ [] := by
    rw [ne_eq, ← List.length_eq_zero_iff, extractCtrl_length]
    exact fun h => hP (List.length_eq_zero_iff.mp h)
  have hb : ∀ u, bez (P.length - 1) (fun i => (extractCtrl P a' s').getD i 0) u
      = bez (P.length - 1) (fun i => (extractCtrl (extractCtrl P a s) α σ).getD i 0) u := by
    intro u
    have h2 := bez_extract (extractCtrl P a s) hne α σ u
    rw [extractCtrl_length] at h2
    rw [bez_extract P hP, h2, bez_extract P hP, h]
  have hi := bez_inj _ _ _ hb
  refine List.ext_getElem (by simp) fun i h1 h2 => ?_
  have := hi i (by rw [extractCtrl_length] at h1; omega)
  beta_reduce at this
  rw [List.getD_eq_getElem?_getD, List.getD_eq_getElem?_getD, List.getElem?_eq_getElem h1, List.getElem?_eq_getElem h2] at this
  simpa only [Option.getD_some] using this

/-- A convex set that contains the control points over a phase contains those over every part of the phase. -/
theorem sub_convex {F : Type} [NormedAddCommGroup F] [NormedSpace ℝ F] {C : Set F} (hC : Convex ℝ C) (P : List F) {T t D t' D' : ℝ}
    (hT : 0 < T) (htT : t < T) (htT' : t' < T) (hD : 0 < D) (hD' : 0 < D') (h1 : t ≤ t') (h2 : D' + t' ≤ D + t)
    (h : ∀ q ∈ extractCtrl P (t / T) (((D + t) / T - t / T) / (1 - t / T)), q ∈ C) :
    ∀ q ∈ extractCtrl P (t' / T) (((D' + t') / T - t' / T) / (1 - t' / T)), q ∈ C := by
  by_cases hP : P = []
  · subst hP
    simp [extractCtrl]
  have h3 : 0 < D + t - t' := by linarith
  have e1 : 1 - (t' - t) / D = (D + t - t') / D := by field_simp; ring
  rw [extract_nested P hP (t / T) (((D + t) / T - t / T) / (1 - t / T)) _ _ ((t' - t) / D) (D' / (D + t - t')) (fun u => by
    rw [sub_param hT htT', sub_param hT htT, e1]
    field_simp
    ring)]
  refine extractCtrl_convex hC _ _ _ (div_nonneg (by linarith) hD.le) ?_ (div_nonneg hD'.le h3.le) ?_ h
  · rw [div_le_one hD]; linarith
  · rw [div_le_one h3]; linarith

/-! ## Finer problems -/

/-- A problem with the same boundary conditions whose phases are parts of the phases of the first one, and which asks for less
in each of them. -/
structure Finer (d d' : ProblemData) (Ts Ts' : List ℝ) : Prop where
  bc : d'.bc = d.bc
  flag : d'.flag = d.flag
  repr : d'.representation = d.representation
  margin : d'.reduce_h ≤ d.reduce_h
  maxAcc : d.maxAcceleration ≤ d'.maxAcceleration
  total : Ts'.sum = Ts.sum
  phases : ∀ j' < Ts'.length, ∃ j < Ts.length, (Ts.take j).sum ≤ (Ts'.take j').sum ∧
    (Ts'.take (j' + 1)).sum ≤ (Ts.take (j + 1)).sum ∧
    ∃ ct ct', d.contacts[j]? = some ct ∧ d'.contacts[j']? = some ct' ∧ LooserContact ct ct'

theorem kinOk_convex (ct : ContactData) : Convex ℝ {c : V3 | KinOk ct c} := by
  intro c hc c' hc' a b ha hb hab q hq
  have h1 := hc q hq
  have h2 := hc' q hq
  have e : dot q.1 (a • c + b • c') = a * dot q.1 c + b * dot q.1 c' := by simp [dot]; ring
  rw [e]
  calc a * dot q.1 c + b * dot q.1 c' ≤ a * q.2 + b * q.2 :=
        add_le_add (mul_le_mul_of_nonneg_left h1 ha) (mul_le_mul_of_nonneg_left h2 hb)
    _ = q.2 := by rw [← add_mul, hab, one_mul]

theorem box_convex (M : ℝ) : Convex ℝ {c : V3 | ∀ k, |c k| ≤ M} := by
  intro c hc c' hc' a b ha hb hab k
  have h1 := abs_le.mp (hc k)
  have h2 := abs_le.mp (hc' k)
  obtain rfl : b = 1 - a := by linarith
  simp only [Pi.add_apply, Pi.smul_apply, smul_eq_mul]
  rw [abs_le]
  constructor <;> nlinarith

theorem wrenchOk_convex (e : Equilibrium) (ρ m : ℝ) (g : V3) :
    Convex ℝ {q : V3 × V3 | WrenchOk e ρ (m • (g - q.1)) (m • (-q.2))} := by
  intro q hq q' hq' a b ha hb hab r hr
  have h1 := hq r hr
  have h2 := hq' r hr
  unfold WrenchRowOk at h1 h2 ⊢
  obtain rfl : b = 1 - a := by linarith
  have e : dot r.1.1 (m • (g - (a • q + (1 - a) • q').1)) + dot r.1.2 (m • (-(a • q + (1 - a) • q').2))
      = a * (dot r.1.1 (m • (g - q.1)) + dot r.1.2 (m • (-q.2)))
        + (1 - a) * (dot r.1.1 (m • (g - q'.1)) + dot r.1.2 (m • (-q'.2))) := by
    simp [dot]; ring
  rw [e]
  have := add_le_add (mul_le_mul_of_nonneg_left h1 ha) (mul_le_mul_of_nonneg_left h2 hb)
  refine this.trans (le_of_eq ?_)
  ring

theorem subWp6_pair (P : List Wp6) (T t D : ℝ) (x : V3) : (subWp6 P T t D).map (fun w => (w.headAt x, w.tailAt x))
    = extractCtrl (P.map fun w => (w.headAt x, w.tailAt x)) (t / T) (((D + t) / T - t / T) / (1 - t / T)) := by
  rw [subWp6, List.map_map]
  have := extractCtrl_map ((headLin x).prod (tailLin x)) (P.map Wp6.toProd) (t / T) (((D + t) / T - t / T) / (1 - t / T))
  rw [List.map_map] at this
  exact this

theorem wps_gravity (flag : Flag) (cts cts' : List ContactData) (d : BC) (T : ℝ) (h : frontGravity cts' = frontGravity cts) :
    computeWwaypoints flag cts' d T = computeWwaypoints flag cts d T := by
  simp only [computeWwaypoints, h]

theorem ContRaw.front {κ : ℝ} {d : ProblemData} {Ts : List ℝ} {g : V3} {ct : ℕ → ContactData} {e : ℕ → Equilibrium} {pts : List V3}
    {ws : List Wp6} {S : ContSystem} (R : ContRaw κ d Ts g ct e pts ws S) (hne : Ts ≠ []) : frontGravity d.contacts = .ok g := by
  have h0 := List.length_pos_iff.mpr hne
  cases hcs : d.contacts with
  | nil => have := R.hct 0 h0; rw [hcs] at this; simp at this
  | cons a r =>
    have := R.hct 0 h0
    rw [hcs] at this
    simp only [List.getElem?_cons_zero, Option.some.injEq] at this
    simp [frontGravity, this, R.he 0 h0, R.hg 0 h0]

/-- C115, the systems: what satisfies the system of a problem satisfies that of a finer one. -/
theorem C115_feasible (κ : ℝ) (d d' : ProblemData) (Ts Ts' : List ℝ) (g : V3) (hfi : Finer d d' Ts Ts')
    (h : AcceptedC d Ts g) (h' : AcceptedC d' Ts' g) (hr : d.representation = DOUBLE_DESCRIPTION)
    (S S' : ContSystem) (hS : computeConstraintsContinuous κ d Ts = .ok S) (hS' : computeConstraintsContinuous κ d' Ts' = .ok S')
    (y : ℕ → ℝ) (hy : Sat S.A S.b y) : Sat S'.A S'.b y := by
  obtain ⟨ct, e, pts, ws, S1, R⟩ := cont_raw κ d Ts g h
  obtain ⟨ct', e', pts', ws', S1', R'⟩ := cont_raw κ d' Ts' g h'
  have q1 := R.hS
  rw [hS] at q1
  cases q1
  have q2 := R'.hS
  rw [hS'] at q2
  cases q2
  have hpts := R'.hpts
  rw [hfi.flag, hfi.bc, hfi.total, R.hpts] at hpts
  cases hpts
  have hws := R'.hws
  rw [hfi.flag, hfi.bc, hfi.total, wps_gravity _ d.contacts _ _ _ ((R'.front h'.ne).trans (R.front h.ne).symm), R.hws] at hws
  cases hws
  rw [R'.kin]
  intro j' hj'
  obtain ⟨j, hj, h1, h2, c, c', hc, hc', ⟨a, a', ha, ha', hma, -, hpo⟩, hki⟩ := hfi.phases j' hj'
  rw [R.hct j hj] at hc
  rw [R'.hct j' hj'] at hc'
  cases hc
  cases hc'
  rw [R.he j hj] at ha
  rw [R'.he j' hj'] at ha'
  cases ha
  cases ha'
  obtain ⟨k1, k2, k3⟩ := (R.kin y).mp hy j hj
  have hlt : ∀ (L : List ℝ), (∀ T ∈ L, 0 < T) → ∀ i < L.length, 0 < L.getD i 0 ∧ (L.take i).sum < L.sum ∧
      (L.take (i + 1)).sum = L.getD i 0 + (L.take i).sum := by
    intro L hL i hi
    have hp : InPhase L i (L.take i).sum := ⟨hi, le_rfl, List.sum_take_succ L i hi ▸ by
      have := hL _ (List.getElem_mem hi); linarith⟩
    have hg : L.getD i 0 = L[i] := by simp [List.getD, hi]
    refine ⟨hg ▸ hL _ (List.getElem_mem hi), ?_, ?_⟩
    · obtain ⟨u, -, -, -, hu⟩ := inPhase_param hL hp
      exact hu
    · rw [List.sum_take_succ L i hi, hg, add_comm]
  obtain ⟨m1, m2, m3⟩ := hlt Ts h.pos j hj
  obtain ⟨m1', m2', m3'⟩ := hlt Ts' h'.pos j' hj'
  rw [m3, m3'] at h2
  rw [hfi.total] at m2' ⊢
  refine ⟨fun co hco q' hq' => ?_, fun _ v hv => ?_, fun co hco => ?_⟩
  · have := sub_convex (kinOk_convex (ct j)) ((symCoefs pts).map (·.at (first3 y))) h.total m2 m2' m1 m1' h1 h2 (by
      rw [← subCoefs_map]
      intro q hq
      obtain ⟨co, hco, rfl⟩ := List.mem_map.mp hq
      exact k1 co hco) (co.at (first3 y)) (by
      rw [← subCoefs_map]
      exact List.mem_map_of_mem hco)
    obtain ⟨q, hq, b1, b2⟩ := hki q' hq'
    rw [← b1]
    exact (this q hq).trans b2
  · have := sub_convex (wrenchOk_convex (e j) d.reduce_h (e j).mass g) (ws.map fun w => (w.headAt (first3 y), w.tailAt (first3 y)))
      h.total m2 m2' m1 m1' h1 h2 (by
      rw [← subWp6_pair]
      intro q hq
      obtain ⟨w, hw, rfl⟩ := List.mem_map.mp hq
      exact k2 hr w hw) (v.headAt (first3 y), v.tailAt (first3 y)) (by
      rw [← subWp6_pair]
      exact List.mem_map_of_mem hv)
    rw [hma]
    exact hpo.wrench hma hfi.margin this
  · intro k
    have := sub_convex (box_convex d.maxAcceleration) ((secondDeriv κ (symCoefs pts)).map (·.at (first3 y))) h.total m2 m2' m1 m1' h1 h2 (by
      rw [← subCoefs_map]
      intro q hq
      obtain ⟨co, hco, rfl⟩ := List.mem_map.mp hq
      exact k3 co hco) (co.at (first3 y)) (by
      rw [← subCoefs_map]
      exact List.mem_map_of_mem hco)
    exact (this k).trans hfi.maxAcc

/-! ## The planner -/

/-- C115. Splitting phases and asking for less never loses a plan of the continuous formulation; with the same phases and the
same cost the plan is at least as good. -/
theorem C115_continuous (κ : ℝ) (lib lib' : Lib) (hL : LibOk lib) (he : lib.eps = 0) (hL' : LibOk lib') (he' : lib'.eps = 0)
    (d d' : ProblemData) (Ts Ts' : List ℝ) (g : V3) (hfi : Finer d d' Ts Ts') (h : AcceptedC d Ts g) (h' : AcceptedC d' Ts' g)
    (hr : d.representation = DOUBLE_DESCRIPTION) (step : ℝ) (hstep : step ≤ 0)
    (hc : d.costFunction = DISTANCE_TRAVELED ∨ d.costFunction = ACCELERATION ∧ d.flag ≠ 63#32)
    (hc' : d'.costFunction = DISTANCE_TRAVELED ∨ d'.costFunction = ACCELERATION ∧ d'.flag ≠ 63#32)
    (hlim : ∀ S, computeConstraintsContinuous κ d' Ts' = .ok S → 2 ^ S.A.rows < lib'.maxIter) :
    ∃ res res' N, (∀ fuel ≥ N, computeCOMTraj κ lib fuel d Ts step SOLVER_QUADPROG = .ok res) ∧
      (∀ fuel ≥ N, computeCOMTraj κ lib' fuel d' Ts' step SOLVER_QUADPROG = .ok res') ∧
      (res.success = true → res'.success = true ∧
        (Ts' = Ts → d'.costFunction = d.costFunction → ∃ v a v' a', Motion d Ts.sum res.point res.c_of_t.eval v a ∧
          Motion d Ts.sum res'.point res'.c_of_t.eval v' a' ∧
          motionCost d (computeDiscretizedTimeFixed Ts 7) res'.point a'
            ≤ motionCost d (computeDiscretizedTimeFixed Ts 7) res.point a)) := by
  obtain ⟨S, hS, -, -, -, -, -, -, h7, -⟩ := C21_in_bounds_and_complete κ d Ts g h
  obtain ⟨q1, q2, q3⟩ := h7 hr
  obtain ⟨S', hS', -, -, -, -, -, -, h7', -⟩ := C21_in_bounds_and_complete κ d' Ts' g h'
  obtain ⟨q1', q2', q3'⟩ := h7' (hfi.repr.trans hr)
  obtain ⟨res, N, hrun, hsucc, -⟩ := continuous_exact κ lib hL he d Ts g h step hstep hc S hS (by omega)
  obtain ⟨res', N', hrun', hsucc', hfail'⟩ := continuous_exact κ lib' hL' he' d' Ts' g h' step hstep hc' S' hS' (by omega)
  have hall : ∀ z, AllSat S.A S.b S.D S.d S.minBounds z → AllSat S'.A S'.b S'.D S'.d S'.minBounds z := by
    intro z hz
    refine ⟨C115_feasible κ d d' Ts Ts' g hfi h h' hr S S' hS hS' z hz.1, fun r hr => by omega, fun c b hb => ?_⟩
    rw [q3'] at hb
    simp at hb
  refine ⟨res, res', max N N', fun fuel hfuel => hrun fuel (le_trans (le_max_left _ _) hfuel),
    fun fuel hfuel => hrun' fuel (le_trans (le_max_right _ _) hfuel), fun hs => ?_⟩
  obtain ⟨y, hy, hsat, v, a, hmo, -⟩ := hsucc hs
  have hs' : res'.success = true := by
    by_contra hn
    rcases hfail' (by simpa using hn) with q | q | ⟨i, hi, -⟩
    · rw [q3'] at q
      exact absurd q (not_le.mpr (by simpa using hlim S' hS'))
    · exact q _ (hall _ hsat)
    · omega
  refine ⟨hs', fun hT hk => ?_⟩
  subst hT
  obtain ⟨y', -, -, v', a', hmo', hmin⟩ := hsucc' hs'
  have hm : ∀ x c v a, Motion d' Ts'.sum x c v a ↔ Motion d Ts'.sum x c v a := by
    intro x c v a
    simp only [Motion, hfi.flag, hfi.bc]
  have hco : ∀ l x a, motionCost d' l x a = motionCost d l x a := by
    intro l x a
    simp only [motionCost, hk, hfi.bc]
  have := hmin y res.c_of_t.eval v a (by rw [hm, hy]; exact hmo) (hall _ hsat)
  rw [hco, hco, q1', hy] at this
  exact ⟨v, a, v', a', hmo, (hm _ _ _ _).mp hmo', by simpa using this⟩

/-! ## Merging phases loses plans -/

/-- A phase that keeps `x ≤ 5/2`. -/
noncomputable def barrierContact : ContactData := { freeContact with Kin := [![1, 0, 0]], kin := [5 / 2] }

/-- From `(1,0,0)`, with velocity 6 towards the wall, back to `(1,0,0)`, in `n` identical phases. -/
noncomputable def barrierProblem (n : ℕ) : ProblemData :=
  { contacts := List.replicate n barrierContact,
    bc := ⟨![1, 0, 0], ![6, 0, 0], 0, 0, ![1, 0, 0], 0, 0, 0⟩, l0 := 0,
    useAngularMomentum := false, flag := 11#32, constraintAcceleration := true,
    maxAcceleration := 1000, reduce_h := 0, costFunction := 1, representation := 1 }

theorem barrierProblem_accepted (Ts : List ℝ) (hne : Ts ≠ []) (hpos : ∀ T ∈ Ts, 0 < T) : AcceptedC (barrierProblem Ts.length) Ts 0 := by
  refine ⟨by simp [barrierProblem], hne, hpos, by simp [barrierProblem, comFlags], by simp [barrierProblem], ?_⟩
  intro ct hct
  simp only [barrierProblem, List.mem_replicate] at hct
  obtain ⟨-, rfl⟩ := hct
  exact ⟨_, rfl, rfl, rfl, fun _ => ⟨rfl, rfl, by simp, by simp, by simp [barrierContact]⟩⟩

theorem barrier_looser : LooserContact barrierContact barrierContact :=
  ⟨⟨_, _, rfl, rfl, rfl, rfl, fun q hq => ⟨q, hq, rfl, le_rfl⟩⟩, fun q hq => ⟨q, hq, rfl, le_rfl⟩⟩

theorem barrier_pts (n : ℕ) (T : ℝ) (hT : T = 1) (pts : List V3)
    (h : computeConstantWaypoints (barrierProblem n).flag (barrierProblem n).bc T = .ok pts) (x : V3) :
    (symCoefs pts).map (·.at x) = [![1, 0, 0], ![3, 0, 0], x, ![1, 0, 0]] := by
  subst hT
  have e : pts = [![1, 0, 0], ![3, 0, 0], fun _ => 0, ![1, 0, 0]] := by
    simp [computeConstantWaypoints, barrierProblem] at h
    rw [← h]
    simp only [c0_dc0_c1.computeConstantWaypoints]
    refine list4_eq ?_ ?_ ?_ ?_ <;> funext k <;> fin_cases k <;> norm_num
  rw [symCoefs_at, e]
  simp only [List.map_cons, List.map_nil, symbolic_at_free]
  rw [symbolic_at_const ![1, 0, 0] x ⟨0, by norm_num⟩, symbolic_at_const ![3, 0, 0] x ⟨0, by norm_num⟩]

/-- One phase: the second control point is behind the wall. -/
theorem barrier_one (S : ContSystem) (hS : computeConstraintsContinuous 1 (barrierProblem 1) [1] = .ok S) (y : ℕ → ℝ) :
    ¬ Sat S.A S.b y := by
  intro hy
  obtain ⟨ct, e, pts, ws, S1, R⟩ := cont_raw 1 (barrierProblem 1) [1] 0 (barrierProblem_accepted [1] (by simp) (by simp))
  have q := R.hS
  rw [hS] at q
  cases q
  obtain ⟨k1, -, -⟩ := (R.kin y).mp hy 0 (by simp)
  have e1 : ([1] : List ℝ).sum = 1 := by simp
  have e2 : ([1] : List ℝ).getD 0 0 = 1 := rfl
  have e3 : (([1] : List ℝ).take 0).sum = 0 := rfl
  have hct : ct 0 = barrierContact := by
    have := R.hct 0 (by simp); simp [barrierProblem] at this; exact this.symm
  rw [e1, e2, e3, hct, forall_map _ (fun w : Coefs => w.at (first3 y)) (fun v => KinOk barrierContact v),
    subCoefs_full _ _ (by norm_num), barrier_pts 1 _ e1 pts R.hpts] at k1
  have := k1 ![3, 0, 0] (by simp) (![1, 0, 0], 5 / 2) (by simp [barrierContact])
  simp [dot] at this
  norm_num at this

/-- Two phases: the control points of both halves are in front of the wall when the free point is the origin. -/
theorem barrier_two (S : ContSystem) (hS : computeConstraintsContinuous 1 (barrierProblem 2) [1 / 2, 1 / 2] = .ok S) :
    Sat S.A S.b (ext3 0) := by
  obtain ⟨ct, e, pts, ws, S1, R⟩ := cont_raw 1 (barrierProblem 2) [1 / 2, 1 / 2] 0
    (barrierProblem_accepted [1 / 2, 1 / 2] (by simp) (by simp))
  have q := R.hS
  rw [hS] at q
  cases q
  have e1 : ([1 / 2, 1 / 2] : List ℝ).sum = 1 := by norm_num
  rw [R.kin]
  intro p hp
  have hp2 : p < 2 := by simpa using hp
  have hct : ct p = barrierContact := by
    have := R.hct p hp
    rw [barrierProblem, List.getElem?_replicate, if_pos hp2] at this
    exact (Option.some.inj this).symm
  have he : e p = { mass := 1, gravity := 0, poly := [], polyOk := true, isPP := true, gens := [] } := by
    have := R.he p hp; rw [hct] at this; simp [barrierContact, freeContact] at this; exact this.symm
  rw [first3_ext3, hct, e1]
  refine ⟨?_, fun _ w _ r hr => ?_, ?_⟩
  · rw [forall_map _ (fun w : Coefs => w.at 0) (fun v => KinOk barrierContact v), subCoefs_map, barrier_pts 2 _ e1 pts R.hpts]
    intro w hw q hq
    simp only [barrierContact, List.zip_cons_cons, List.zip_nil_right, List.mem_singleton] at hq
    subst hq
    have hp01 : p = 0 ∨ p = 1 := by omega
    rcases hp01 with rfl | rfl
    all_goals
      simp [extractCtrl, List.range_succ, bez, Finset.sum_range_succ, Nat.choose] at hw
      rcases hw with rfl | rfl | rfl | rfl <;> simp [dot] <;> norm_num
  · rw [he] at hr; simp at hr
  · rw [forall_map _ (fun w : Coefs => w.at 0) (fun v => ∀ k, |v k| ≤ (barrierProblem 2).maxAcceleration), subCoefs_map]
    have hp01 : p = 0 ∨ p = 1 := by omega
    refine extractCtrl_convex (box_convex _) _ _ _ ?_ ?_ ?_ ?_ ?_
    · rcases hp01 with rfl | rfl <;> norm_num
    · rcases hp01 with rfl | rfl <;> norm_num
    · rcases hp01 with rfl | rfl <;> norm_num
    · rcases hp01 with rfl | rfl <;> norm_num
    · rw [secondDeriv_at, barrier_pts 2 _ e1 pts R.hpts]
      intro w hw k
      simp [derivCtrl] at hw
      rcases hw with rfl | rfl <;> fin_cases k <;> simp [barrierProblem] <;> norm_num

/-- Two halves of a phase. -/
theorem barrier_finer : Finer (barrierProblem 1) (barrierProblem 2) [1] [1 / 2, 1 / 2] := by
  refine ⟨rfl, rfl, rfl, le_rfl, le_rfl, by norm_num, fun j' hj' => ⟨0, by simp, ?_, ?_, barrierContact, barrierContact, rfl, ?_, barrier_looser⟩⟩
  all_goals
    have hj2 : j' = 0 ∨ j' = 1 := by simp at hj'; omega
    rcases hj2 with rfl | rfl
  all_goals first | rfl | norm_num

/-- A quarter, a quarter and a half of the two halves. -/
theorem barrier_finer' : Finer (barrierProblem 2) (barrierProblem 3) [1 / 2, 1 / 2] [1 / 4, 1 / 4, 1 / 2] := by
  refine ⟨rfl, rfl, rfl, le_rfl, le_rfl, by norm_num, fun j' hj' => ?_⟩
  have hj2 : j' = 0 ∨ j' = 1 ∨ j' = 2 := by simp at hj'; omega
  rcases hj2 with rfl | rfl | rfl
  · exact ⟨0, by simp, by norm_num, by norm_num, _, _, rfl, rfl, barrier_looser⟩
  · exact ⟨0, by simp, by norm_num, by norm_num, _, _, rfl, rfl, barrier_looser⟩
  · exact ⟨1, by simp, by norm_num, by norm_num, _, _, rfl, rfl, barrier_looser⟩

/-- C115, the limit of the claim. Merging two phases with identical requirements loses a plan: the continuous formulation finds
one for the halves and none for the whole. -/
theorem C115_merging_refuted : ∃ M, ∀ maxIter > M, ∃ res res' N, Finer (barrierProblem 1) (barrierProblem 2) [1] [1 / 2, 1 / 2] ∧
    (∀ fuel ≥ N, computeCOMTraj 1 (exactLib maxIter) fuel (barrierProblem 1) [1] (-1) SOLVER_QUADPROG = .ok res) ∧
    (∀ fuel ≥ N, computeCOMTraj 1 (exactLib maxIter) fuel (barrierProblem 2) [1 / 2, 1 / 2] (-1) SOLVER_QUADPROG = .ok res') ∧
    res.success = false ∧ res'.success = true := by
  have hacc := barrierProblem_accepted [1] (by simp) (by simp)
  have hacc' := barrierProblem_accepted [1 / 2, 1 / 2] (by simp) (by simp)
  obtain ⟨S, hS, -⟩ := C21_in_bounds_and_complete 1 _ _ _ hacc
  obtain ⟨S', hS', -⟩ := C21_in_bounds_and_complete 1 _ _ _ hacc'
  refine ⟨2 ^ S.A.rows + 2 ^ S'.A.rows, fun maxIter hM => ?_⟩
  obtain ⟨S1, res, N, hS1, -, hrun, hsucc, -⟩ := continuous_points 1 (exactLib maxIter) (exactLib_ok _) rfl _ [1] 0 hacc
    rfl (by simp [barrierProblem]) (-1) (by norm_num) (Or.inr rfl) (by
      intro S2 h2
      rw [hS] at h2
      cases h2
      exact lt_of_le_of_lt (Nat.le_add_right _ _) hM)
  obtain ⟨S1', res', N', hS1', -, hrun', -, hfail'⟩ := continuous_points 1 (exactLib maxIter) (exactLib_ok _) rfl _ [1 / 2, 1 / 2] 0
    hacc' rfl (by simp [barrierProblem]) (-1) (by norm_num) (Or.inr rfl) (by
      intro S2 h2
      rw [hS'] at h2
      cases h2
      exact lt_of_le_of_lt (Nat.le_add_left _ _) hM)
  refine ⟨res, res', max N N', barrier_finer, fun fuel hfuel => hrun fuel (le_trans (le_max_left _ _) hfuel),
    fun fuel hfuel => hrun' fuel (le_trans (le_max_right _ _) hfuel), ?_, ?_⟩
  · by_contra hn
    obtain ⟨v, a, -, hs, -⟩ := hsucc (by simpa using hn)
    exact barrier_one S1 hS1 _ hs
  · by_contra hn
    exact hfail' (by simpa using hn) 0 (barrier_two S1' hS1')

/-! ## Example -/

/-- A non-trivial case of C115: the two halves are solved, hence also when the first half is split again. -/
example : ∃ maxIter res' N,
    (∀ fuel ≥ N, computeCOMTraj 1 (exactLib maxIter) fuel (barrierProblem 3) [1 / 4, 1 / 4, 1 / 2] (-1) SOLVER_QUADPROG = .ok res') ∧
    res'.success = true := by
  have hacc := barrierProblem_accepted [1 / 2, 1 / 2] (by simp) (by simp)
  have hacc' := barrierProblem_accepted [1 / 4, 1 / 4, 1 / 2] (by simp) (by simp)
  obtain ⟨M, hM⟩ := C115_merging_refuted
  obtain ⟨S', hS', -⟩ := C21_in_bounds_and_complete 1 _ _ _ hacc'
  obtain ⟨-, res, N, -, -, hrun, -, hs⟩ := hM (M + 1) (by omega)
  obtain ⟨res1, res', N', hrun1, hrun', hmain⟩ := C115_continuous 1 (exactLib (M + 1)) (exactLib (2 ^ S'.A.rows + 1)) (exactLib_ok _) rfl
    (exactLib_ok _) rfl _ _ _ _ 0 barrier_finer' hacc hacc' rfl (-1) (by norm_num) (Or.inr ⟨rfl, by simp [barrierProblem]⟩)
    (Or.inr ⟨rfl, by simp [barrierProblem]⟩) (by
      intro S2 h2
      rw [show computeConstraintsContinuous 1 (barrierProblem 3) [1 / 4, 1 / 4, 1 / 2] = .ok S' from hS'] at h2
      cases h2
      exact Nat.lt_succ_self _)
  have e := hrun (max N N') (le_max_left _ _)
  rw [hrun1 (max N N') (le_max_right _ _)] at e
  cases e
  exact ⟨_, res', N', hrun', (hmain hs).1⟩

end Verif
