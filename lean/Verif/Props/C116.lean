import Verif.Props.C113
import Verif.Props.C114

/-!
# C116: the continuous formulation with forces and with polytopes
-/

namespace Verif
open Matrix

/-! ## The solutions of the formulation with forces -/

theorem forceRange_sub (ws : List Wp6) (cSize cols : ℕ) (next : Option ℕ) : ∀ v ∈ forceRange ws cSize cols next, v ∈ ws := by
  intro v hv
  unfold forceRange at hv
  have key : ∀ l : List Wp6, (∀ w ∈ l, w ∈ ws) → v ∈ (if cSize > 0 ∧ cSize < cols then l.drop 1 else l) → v ∈ ws := by
    intro l hl h
    split_ifs at h
    · exact hl _ (List.mem_of_mem_drop h)
    · exact hl _ h
  cases next with
  | none => exact key ws (fun _ h => h) hv
  | some n =>
    by_cases hn : n ≤ cols
    · simp only [if_pos hn] at hv
      exact key _ (fun _ h => List.mem_of_mem_dropLast h) hv
    · simp only [if_neg hn] at hv
      exact key _ (fun _ h => h) hv

/-- Every block is about a control point of its phase. -/
theorem contBlocks_sub (e : ℕ → Equilibrium) (T : ℝ) (w : List Wp6) (Ts : List ℝ) :
    ∀ (i : ℕ) (t : ℝ) (cSize : ℕ), ∀ q ∈ contBlocks e T w Ts i t cSize, ∃ p < Ts.length, q.2 = e (i + p) ∧
      q.1 ∈ subWp6 w T (t + (Ts.take p).sum) (Ts.getD p 0) := by
  induction Ts with
  | nil => intro i t cSize q hq; simp [contBlocks] at hq
  | cons D Ts ih =>
    intro i t cSize q hq
    rw [contBlocks, List.mem_append] at hq
    rcases hq with hq | hq
    · obtain ⟨v, hv, rfl⟩ := List.mem_map.mp hq
      exact ⟨0, by simp, rfl, by simpa using forceRange_sub _ _ _ _ v hv⟩
    · obtain ⟨p, hp, h1, h2⟩ := ih _ _ _ q hq
      refine ⟨p + 1, by simpa using hp, by rw [h1]; congr 1; omega, ?_⟩
      simpa [add_assoc] using h2

/-- Coefficients of all blocks, one after the other. -/
noncomputable def packForces (β : Wp6 × Equilibrium → ℕ → ℝ) : List (Wp6 × Equilibrium) → ℕ → ℝ
  | [], _ => 0
  | q :: B, n => if n < q.2.gens.length then β q n else packForces β B (n - q.2.gens.length)

theorem packForces_at (β : Wp6 × Equilibrium → ℕ → ℝ) (B : List (Wp6 × Equilibrium)) : ∀ j q, B[j]? = some q →
    ∀ k < q.2.gens.length, packForces β B (gcols (B.take j) + k) = β q k := by
  induction B with
  | nil => intro j q h; simp at h
  | cons a B ih =>
    intro j q h k hk
    cases j with
    | zero =>
      simp only [List.getElem?_cons_zero, Option.some.injEq] at h
      subst h
      simp [packForces, gcols, hk]
    | succ j =>
      simp only [List.getElem?_cons_succ] at h
      have := ih j q h k hk
      rw [List.take_succ_cons, packForces]
      have e : gcols (a :: B.take j) = a.2.gens.length + gcols (B.take j) := by simp [gcols]
      rw [e, if_neg (by omega), ← this]
      congr 1
      omega

theorem packForces_nonneg (β : Wp6 × Equilibrium → ℕ → ℝ) (B : List (Wp6 × Equilibrium))
    (h : ∀ q ∈ B, ∀ k < q.2.gens.length, 0 ≤ β q k) : ∀ n, 0 ≤ packForces β B n := by
  induction B with
  | nil => intro n; simp [packForces]
  | cons a B ih =>
    intro n
    rw [packForces]
    split_ifs with hn
    · exact h a (by simp) n hn
    · exact ih (fun q hq => h q (by simp [hq])) _

/-- A point that satisfies the rows, is above the bounds, and whose wrenches are in the cones, has forces. -/
theorem force_solution {κ : ℝ} {d : ProblemData} {Ts : List ℝ} {g : V3} {ct : ℕ → ContactData} {e : ℕ → Equilibrium}
    {pts : List V3} {ws : List Wp6} {S : ContSystem} (R : ContRaw κ d Ts g ct e pts ws S)
    (hr : d.representation ≠ DOUBLE_DESCRIPTION) (x : V3) (hx : Sat S.A S.b (ext3 x)) (hlow : ∀ k, -100000 ≤ x k)
    (hw : ∀ p < Ts.length, ∀ v ∈ subWp6 ws Ts.sum (Ts.take p).sum (Ts.getD p 0),
      InCone (e p) ((e p).mass • (g - v.headAt x)) ((e p).mass • (-v.tailAt x))) :
    ∃ y, first3 y = x ∧ AllSat S.A S.b S.D S.d S.minBounds y := by
  classical
  set B := contBlocks e Ts.sum ws Ts 0 0 0 with hB
  have hin : ∀ q ∈ B, InCone q.2 (q.2.mass • (q.2.gravity - q.1.headAt x)) (q.2.mass • (-q.1.tailAt x)) := by
    intro q hq
    obtain ⟨p, hp, h1, h2⟩ := contBlocks_sub e Ts.sum ws Ts 0 0 0 q hq
    rw [zero_add] at h1 h2
    rw [h1, R.hg p hp]
    exact hw p hp _ h2
  let β : Wp6 × Equilibrium → ℕ → ℝ := fun q => if h : q ∈ B then (hin q h).choose else 0
  have hβ : ∀ q, (h : q ∈ B) → Generated q.2 (q.2.mass • (q.2.gravity - q.1.headAt x)) (q.2.mass • (-q.1.tailAt x)) (β q) := by
    intro q h
    have : β q = (hin q h).choose := dif_pos h
    rw [this]
    exact (hin q h).choose_spec
  let y : ℕ → ℝ := fun n => if n < 3 then ext3 x n else packForces β B (n - 3)
  have hy : first3 y = x := by
    funext k
    have : (k : ℕ) < 3 := k.2
    simp only [first3, y, if_pos this]
    fin_cases k <;> simp [ext3]
  have hy3 : ∀ n, y (3 + n) = packForces β B n := by
    intro n
    simp only [y]
    rw [if_neg (by omega)]
    congr 1
    omega
  refine ⟨y, hy, ?_, ?_, ?_⟩
  · rw [R.kin] at hx ⊢
    rw [hy]
    rwa [first3_ext3] at hx
  · rw [(R.eqn hr).2]
    intro j q hq
    obtain ⟨-, q2, q3⟩ := hβ q (List.mem_of_getElem? hq)
    rw [hy, ← q2, ← q3]
    constructor <;> refine Finset.sum_congr rfl fun k hk => ?_ <;>
      rw [add_assoc, hy3, packForces_at β B j q hq k (Finset.mem_range.mp hk)]
  · intro c b hb
    rw [R.min, if_neg hr] at hb
    by_cases hc : c < 3
    · rw [List.getElem?_append_left (by simpa using hc), List.getElem?_replicate, if_pos hc] at hb
      cases hb
      have : y c = x ⟨c, hc⟩ := by rw [← hy]; rfl
      rw [this]
      exact hlow _
    · rw [List.getElem?_append_right (by simpa using hc), List.getElem?_replicate] at hb
      split_ifs at hb with h
      cases hb
      obtain ⟨n, rfl⟩ : ∃ n, c = 3 + n := ⟨c - 3, by omega⟩
      rw [hy3]
      exact packForces_nonneg β B (fun q hq => (hβ q hq).1) n

/-- The wrenches at all control points of a solution with forces are in the cones. -/
theorem force_controls {κ : ℝ} {d : ProblemData} {Ts : List ℝ} {g : V3} {ct : ℕ → ContactData} {e : ℕ → Equilibrium}
    {pts : List V3} {ws : List Wp6} {S : ContSystem} (h : AcceptedC d Ts g) (R : ContRaw κ d Ts g ct e pts ws S)
    (hr : d.representation ≠ DOUBLE_DESCRIPTION)
    (hm : ∀ ct ∈ d.contacts, ∀ e, ct.contactPhase = some e → 0 < e.mass) (hn : NestedPhases d.contacts) (y : ℕ → ℝ)
    (hy : AllSat S.A S.b S.D S.d S.minBounds y) :
    ∀ p < Ts.length, ∀ v ∈ subWp6 ws Ts.sum (Ts.take p).sum (Ts.getD p 0),
      InCone (e p) ((e p).mass • (g - v.headAt (first3 y))) ((e p).mass • (-v.tailAt (first3 y))) := by
  have hmp : ∀ p < Ts.length, 0 < (e p).mass := fun p hp =>
    hm _ (List.mem_of_getElem? (R.hct p hp)) _ (R.he p hp)
  intro p hp v hv
  have := C23_controls h R (fun e f τ => ∀ m : ℝ, 0 < m → InCone e (m • f) (m • τ)) (first3 y) ?_ ?_ p hp v hv
  · exact this _ (hmp p hp)
  · intro q hq m hm'
    obtain ⟨p, hp, h1, -⟩ := contBlocks_sub e Ts.sum ws Ts 0 0 0 q hq
    rw [zero_add] at h1
    have := blocks_inCone R hr y hy.2.1 hy.2.2 q hq
    exact inCone_scale q.2 (by rw [h1]; exact hmp p hp) hm' this
  · intro p hp
    obtain ⟨n1, n2⟩ := hn p _ _ _ _ (R.hct p (by omega)) (R.hct (p + 1) hp) (R.he p (by omega)) (R.he (p + 1) hp)
    exact ⟨fun hl f τ hf m hm' => n1 hl _ _ (hf m hm'), fun hl f τ hf m hm' => n2 hl _ _ (hf m hm')⟩

/-! ## Forces and polytopes -/

/-- Every wrench that the polytope admits is generated. -/
def Inscribed (e : Equilibrium) (ρ : ℝ) : Prop := ∀ f τ, WrenchOk e ρ f τ → InCone e f τ

theorem polytopes_raw {κ : ℝ} {d : ProblemData} {Ts : List ℝ} {g : V3} {ct ct' : ℕ → ContactData} {e e' : ℕ → Equilibrium}
    {pts pts' : List V3} {ws ws' : List Wp6} {S S' : ContSystem} (R : ContRaw κ d Ts g ct e pts ws S)
    (R' : ContRaw κ d.polytopes Ts g ct' e' pts' ws' S') :
    pts' = pts ∧ ws' = ws ∧ ∀ i < Ts.length, ct' i = ct i ∧ e' i = e i := by
  have h1 := R'.hpts
  have h2 := R'.hws
  rw [show computeConstantWaypoints d.polytopes.flag d.polytopes.bc Ts.sum = .ok pts from R.hpts] at h1
  rw [show computeWwaypoints d.polytopes.flag d.polytopes.contacts d.polytopes.bc Ts.sum = .ok ws from R.hws] at h2
  cases h1
  cases h2
  refine ⟨rfl, rfl, fun i hi => ?_⟩
  have h3 := R'.hct i hi
  rw [show d.polytopes.contacts[i]? = some (ct i) from R.hct i hi] at h3
  have h3 := Option.some.inj h3
  have h4 := R'.he i hi
  rw [← h3, R.he i hi] at h4
  exact ⟨h3.symm, (Option.some.inj h4).symm⟩

/-- C116, the systems: the motion of a solution with forces satisfies the system of the polytopes that enclose the cones. -/
theorem C116_feasible (κ : ℝ) (d : ProblemData) (Ts : List ℝ) (g : V3) (h : AcceptedC d Ts g) (h' : AcceptedC d.polytopes Ts g)
    (hr : d.representation ≠ DOUBLE_DESCRIPTION)
    (hm : ∀ ct ∈ d.contacts, ∀ e, ct.contactPhase = some e → 0 < e.mass) (hn : NestedPhases d.contacts)
    (hd : ∀ ct ∈ d.contacts, ∀ e, ct.contactPhase = some e → Encloses e d.reduce_h)
    (S S' : ContSystem) (hS : computeConstraintsContinuous κ d Ts = .ok S)
    (hS' : computeConstraintsContinuous κ d.polytopes Ts = .ok S')
    (y : ℕ → ℝ) (hy : AllSat S.A S.b S.D S.d S.minBounds y) : Sat S'.A S'.b (ext3 (first3 y)) := by
  obtain ⟨ct, e, pts, ws, S1, R⟩ := cont_raw κ d Ts g h
  obtain ⟨ct', e', pts', ws', S1', R'⟩ := cont_raw κ d.polytopes Ts g h'
  have q1 := R.hS
  rw [hS] at q1
  cases q1
  have q2 := R'.hS
  rw [hS'] at q2
  cases q2
  obtain ⟨rfl, rfl, hi⟩ := polytopes_raw R R'
  have hw := force_controls h R hr hm hn y hy
  rw [R'.kin, first3_ext3]
  intro p hp
  obtain ⟨k1, -, k3⟩ := (R.kin y).mp hy.1 p hp
  obtain ⟨c1, c2⟩ := hi p hp
  rw [c1, c2]
  exact ⟨k1, fun _ v hv => (hw p hp v hv).wrenchOk (hd _ (List.mem_of_getElem? (R.hct p hp)) _ (R.he p hp)), k3⟩

/-- C116, the systems: a point above the bounds that satisfies the system of polytopes contained in the cones has forces. -/
theorem C116_forces_exist (κ : ℝ) (d : ProblemData) (Ts : List ℝ) (g : V3) (h : AcceptedC d Ts g) (h' : AcceptedC d.polytopes Ts g)
    (hr : d.representation ≠ DOUBLE_DESCRIPTION)
    (hd : ∀ ct ∈ d.contacts, ∀ e, ct.contactPhase = some e → Inscribed e d.reduce_h)
    (S S' : ContSystem) (hS : computeConstraintsContinuous κ d Ts = .ok S)
    (hS' : computeConstraintsContinuous κ d.polytopes Ts = .ok S')
    (x : V3) (hx : Sat S'.A S'.b (ext3 x)) (hlow : ∀ k, -100000 ≤ x k) :
    ∃ y, first3 y = x ∧ AllSat S.A S.b S.D S.d S.minBounds y := by
  obtain ⟨ct, e, pts, ws, S1, R⟩ := cont_raw κ d Ts g h
  obtain ⟨ct', e', pts', ws', S1', R'⟩ := cont_raw κ d.polytopes Ts g h'
  have q1 := R.hS
  rw [hS] at q1
  cases q1
  have q2 := R'.hS
  rw [hS'] at q2
  cases q2
  obtain ⟨rfl, rfl, hi⟩ := polytopes_raw R R'
  rw [R'.kin, first3_ext3] at hx
  refine force_solution R hr x ?_ hlow fun p hp v hv => ?_
  · rw [R.kin, first3_ext3]
    intro p hp
    obtain ⟨k1, -, k3⟩ := hx p hp
    obtain ⟨c1, c2⟩ := hi p hp
    rw [c1] at k1
    exact ⟨k1, fun h => absurd h hr, k3⟩
  · obtain ⟨-, k2, -⟩ := hx p hp
    obtain ⟨c1, c2⟩ := hi p hp
    rw [c2] at k2
    exact hd _ (List.mem_of_getElem? (R.hct p hp)) _ (R.he p hp) _ _ (k2 rfl v hv)

/-- C116. With generators that span the space of wrenches: what is solved with forces is solved with polytopes that enclose the
cones, at no larger cost; what is solved with polytopes contained in the cones by a point above the lower bounds of the
unknowns is solved with forces. -/
theorem C116_continuous (κ : ℝ) (lib : Lib) (hL : LibOk lib) (he : lib.eps = 0) (d : ProblemData) (Ts : List ℝ) (g : V3)
    (h : AcceptedC d Ts g) (h' : AcceptedC d.polytopes Ts g) (hr : d.representation ≠ DOUBLE_DESCRIPTION)
    (step : ℝ) (hstep : step ≤ 0) (hc : d.costFunction = DISTANCE_TRAVELED ∨ d.costFunction = ACCELERATION ∧ d.flag ≠ 63#32)
    (hm : ∀ ct ∈ d.contacts, ∀ e, ct.contactPhase = some e → 0 < e.mass)
    (hs : ∀ ct ∈ d.contacts, ∀ e, ct.contactPhase = some e → Spans e) (hn : NestedPhases d.contacts)
    (hlim : ∀ S, computeConstraintsContinuous κ d Ts = .ok S → 2 ^ (S.A.rows + S.minBounds.length) < lib.maxIter)
    (hlim' : ∀ S, computeConstraintsContinuous κ d.polytopes Ts = .ok S → 2 ^ S.A.rows < lib.maxIter) :
    ∃ res res' N, (∀ fuel ≥ N, computeCOMTraj κ lib fuel d Ts step SOLVER_QUADPROG = .ok res) ∧
      (∀ fuel ≥ N, computeCOMTraj κ lib fuel d.polytopes Ts step SOLVER_QUADPROG = .ok res') ∧
      ((∀ ct ∈ d.contacts, ∀ e, ct.contactPhase = some e → Encloses e d.reduce_h) → res.success = true →
        res'.success = true ∧ ∃ v a v' a', Motion d Ts.sum res.point res.c_of_t.eval v a ∧
          Motion d Ts.sum res'.point res'.c_of_t.eval v' a' ∧
          motionCost d (computeDiscretizedTimeFixed Ts 7) res'.point a'
            ≤ motionCost d (computeDiscretizedTimeFixed Ts 7) res.point a) ∧
      ((∀ ct ∈ d.contacts, ∀ e, ct.contactPhase = some e → Inscribed e d.reduce_h) → res'.success = true →
        (∀ k, -100000 ≤ res'.point k) → res.success = true) := by
  obtain ⟨S, hS, -⟩ := C21_in_bounds_and_complete κ d Ts g h
  obtain ⟨S', hS', -, -, -, -, -, -, h7', -⟩ := C21_in_bounds_and_complete κ d.polytopes Ts g h'
  obtain ⟨q1', q2', q3'⟩ := h7' rfl
  obtain ⟨hE, hind⟩ := force_independent κ d Ts g h hr hs S hS
  obtain ⟨res, N, hrun, hsucc, hfail⟩ := continuous_exact κ lib hL he d Ts g h step hstep hc S hS hE
  obtain ⟨res', N', hrun', hsucc', hfail'⟩ := continuous_exact κ lib hL he d.polytopes Ts g h' step hstep hc S' hS' (by omega)
  have hall : ∀ x, Sat S'.A S'.b (ext3 x) → AllSat S'.A S'.b S'.D S'.d S'.minBounds (ext3 x) := by
    intro x hx
    refine ⟨hx, fun r hr => by omega, fun c b hb => ?_⟩
    rw [q3'] at hb
    simp at hb
  refine ⟨res, res', max N N', fun fuel hfuel => hrun fuel (le_trans (le_max_left _ _) hfuel),
    fun fuel hfuel => hrun' fuel (le_trans (le_max_right _ _) hfuel), fun hd hq => ?_, fun hd hq hlow => ?_⟩
  · obtain ⟨y, hy, hsat, v, a, hmo, -⟩ := hsucc hq
    have hx := C116_feasible κ d Ts g h h' hr hm hn hd S S' hS hS' y hsat
    rw [hy] at hx
    have hq' : res'.success = true := by
      by_contra hn'
      rcases hfail' (by simpa using hn') with q | q | ⟨i, hi, -⟩
      · rw [q3'] at q
        exact absurd q (not_le.mpr (by simpa using hlim' S' hS'))
      · exact q _ (hall _ hx)
      · omega
    obtain ⟨y', -, -, v', a', hmo', hmin⟩ := hsucc' hq'
    have := hmin (ext3 res.point) res.c_of_t.eval v a (by rw [first3_ext3]; exact hmo) (hall _ hx)
    rw [q1', first3_ext3] at this
    refine ⟨hq', v, a, v', a', hmo, hmo', ?_⟩
    simp only [Nat.sub_self, Finset.range_zero, Finset.sum_empty, mul_zero, add_zero] at this
    exact this
  · obtain ⟨y, hy, hsat, -⟩ := hsucc' hq
    have hx : Sat S'.A S'.b (ext3 res'.point) := by
      intro r hr
      refine le_trans (le_of_eq ?_) (hsat.1 r hr)
      rw [q1', ← hy]
      simp [Finset.sum_range_succ, ext3, first3]
    obtain ⟨z, -, hz⟩ := C116_forces_exist κ d Ts g h h' hr hd S S' hS hS' _ hx hlow
    by_contra hn'
    rcases hfail (by simpa using hn') with q | q | ⟨i, hi, c, hc⟩
    · exact absurd q (not_le.mpr (hlim S hS))
    · exact q _ hz
    · exact hind i hi c hc

/-! ## Far from the origin -/

/-- Unit forces and torques in all directions. -/
def axes12 : List (V3 × V3) :=
  [(![1, 0, 0], 0), (![-1, 0, 0], 0), (![0, 1, 0], 0), (![0, -1, 0], 0), (![0, 0, 1], 0), (![0, 0, -1], 0),
    (0, ![1, 0, 0]), (0, ![-1, 0, 0]), (0, ![0, 1, 0]), (0, ![0, -1, 0]), (0, ![0, 0, 1]), (0, ![0, 0, -1])]

/-- A phase that can produce every wrench. -/
def claspPhase : Equilibrium := { mass := 1, gravity := 0, poly := [], polyOk := true, isPP := true, gens := axes12 }

theorem claspPhase_all (f τ : V3) : InCone claspPhase f τ := by
  have key : ∀ a : ℝ, max a 0 - max (-a) 0 = a := fun a => max_zero_sub_max_neg_zero_eq_self a
  refine ⟨fun k => ([max (f 0) 0, max (-f 0) 0, max (f 1) 0, max (-f 1) 0, max (f 2) 0, max (-f 2) 0,
    max (τ 0) 0, max (-τ 0) 0, max (τ 1) 0, max (-τ 1) 0, max (τ 2) 0, max (-τ 2) 0] : List ℝ).getD k 0, fun k hk => ?_, ?_, ?_⟩
  · have hk : k < 12 := hk
    interval_cases k <;> simp
  · have h0 := key (f 0)
    have h1 := key (f 1)
    have h2 := key (f 2)
    funext k
    fin_cases k <;> simp [claspPhase, axes12, Finset.sum_range_succ] <;> linarith
  · have h0 := key (τ 0)
    have h1 := key (τ 1)
    have h2 := key (τ 2)
    funext k
    fin_cases k <;> simp [claspPhase, axes12, Finset.sum_range_succ] <;> linarith

theorem claspPhase_spans : Spans claspPhase := by
  intro u v h
  have a0 := h (![1, 0, 0], 0) (by simp [claspPhase, axes12])
  have a1 := h (![0, 1, 0], 0) (by simp [claspPhase, axes12])
  have a2 := h (![0, 0, 1], 0) (by simp [claspPhase, axes12])
  have b0 := h (0, ![1, 0, 0]) (by simp [claspPhase, axes12])
  have b1 := h (0, ![0, 1, 0]) (by simp [claspPhase, axes12])
  have b2 := h (0, ![0, 0, 1]) (by simp [claspPhase, axes12])
  simp [dot] at a0 a1 a2 b0 b1 b2
  constructor <;> funext k <;> fin_cases k <;> simpa

/-- A phase with a region of ten metres around `(x0,0,0)`. -/
noncomputable def claspContact (x0 : ℝ) : ContactData :=
  { contactPhase := some claspPhase, Kin := [![1, 0, 0], ![-1, 0, 0], ![0, -1, 0], ![0, 0, -1]],
    kin := [x0, 10 - x0, 10, 10], Ang := [], ang := [] }

/-- From rest at `(x0,0,0)` to the same point, with forces. -/
noncomputable def claspProblem (x0 : ℝ) : ProblemData :=
  { contacts := [claspContact x0],
    bc := ⟨![x0, 0, 0], 0, 0, 0, ![x0, 0, 0], 0, 0, 0⟩, l0 := 0,
    useAngularMomentum := false, flag := 11#32, constraintAcceleration := true,
    maxAcceleration := 1000, reduce_h := 0, costFunction := 1, representation := 2 }

theorem claspProblem_phase {x0 : ℝ} {ct : ContactData} {e : Equilibrium} (h : ct ∈ (claspProblem x0).contacts)
    (he : ct.contactPhase = some e) : e = claspPhase := by
  simp only [claspProblem, List.mem_singleton] at h
  subst h
  exact (Option.some.inj he).symm

theorem claspProblem_accepted (x0 : ℝ) : AcceptedC (claspProblem x0) [1] 0 ∧ AcceptedC (claspProblem x0).polytopes [1] 0 := by
  constructor
  all_goals
    refine ⟨rfl, by simp, by simp, by simp [claspProblem, ProblemData.polytopes, comFlags], by simp [claspProblem, ProblemData.polytopes], ?_⟩
    intro ct hct
    simp only [claspProblem, ProblemData.polytopes, List.mem_singleton] at hct
    subst hct
    exact ⟨_, rfl, rfl, rfl, fun _ => ⟨rfl, rfl, by simp [claspPhase], by simp [claspPhase], by simp [claspContact]⟩⟩

theorem clasp_pts (x0 : ℝ) (h0 : 1 ≤ |x0|) (T : ℝ) (hT : T = 1) (pts : List V3)
    (h : computeConstantWaypoints (claspProblem x0).flag (claspProblem x0).bc T = .ok pts) (x : V3) :
    (symCoefs pts).map (·.at x) = [![x0, 0, 0], ![x0, 0, 0], x, ![x0, 0, 0]] := by
  subst hT
  have e : pts = [![x0, 0, 0], ![x0, 0, 0], fun _ => 0, ![x0, 0, 0]] := by
    simp [computeConstantWaypoints, claspProblem] at h
    rw [← h]
    simp only [c0_dc0_c1.computeConstantWaypoints]
    refine list4_eq ?_ ?_ ?_ ?_ <;> funext k <;> fin_cases k <;> norm_num
  rw [symCoefs_at, e]
  simp only [List.map_cons, List.map_nil, symbolic_at_free]
  rw [symbolic_at_const ![x0, 0, 0] x ⟨0, lt_of_lt_of_le (by norm_num) h0⟩]

/-- The system of the polytopes, in terms of the free point. -/
theorem clasp_sat (κ x0 : ℝ) (h0 : 1 ≤ |x0|) (S : ContSystem)
    (hS : computeConstraintsContinuous κ (claspProblem x0).polytopes [1] = .ok S) :
    Sat S.A S.b (ext3 ![x0, 0, 0]) ∧ ∀ x, Sat S.A S.b (ext3 x) → x 0 ≤ x0 ∧ x0 - 10 ≤ x 0 ∧ -10 ≤ x 1 ∧ -10 ≤ x 2 := by
  obtain ⟨ct, e, pts, ws, S1, R⟩ := cont_raw κ (claspProblem x0).polytopes [1] 0 (claspProblem_accepted x0).2
  have q := R.hS
  rw [hS] at q
  cases q
  have e1 : ([1] : List ℝ).sum = 1 := by simp
  have e2 : ([1] : List ℝ).getD 0 0 = 1 := rfl
  have e3 : (([1] : List ℝ).take 0).sum = 0 := rfl
  have hct : ct 0 = claspContact x0 := by
    have := R.hct 0 (by simp); simp [claspProblem, ProblemData.polytopes] at this; exact this.symm
  have he : e 0 = claspPhase := by
    have := R.he 0 (by simp); rw [hct] at this; exact (Option.some.inj this).symm
  constructor
  · rw [R.kin, first3_ext3]
    intro p hp
    have hp0 : p = 0 := by simpa using hp
    subst hp0
    rw [e1, e2, e3]
    refine ⟨?_, fun _ w _ r hr => ?_, ?_⟩
    · rw [forall_map _ (fun w : Coefs => w.at ![x0, 0, 0]) (fun v => KinOk (ct 0) v), subCoefs_full _ _ (by norm_num),
        clasp_pts x0 h0 _ e1 pts R.hpts, hct]
      intro w hw q hq
      simp only [List.mem_cons, List.not_mem_nil, or_false, or_self] at hw
      subst hw
      simp only [claspContact, List.zip_cons_cons, List.zip_nil_right, List.mem_cons, List.not_mem_nil, or_false] at hq
      rcases hq with rfl | rfl | rfl | rfl <;> simp [dot]
    · rw [he] at hr; simp [claspPhase] at hr
    · rw [forall_map _ (fun w : Coefs => w.at ![x0, 0, 0]) (fun v => ∀ k, |v k| ≤ (claspProblem x0).polytopes.maxAcceleration),
        subCoefs_full _ _ (by norm_num), secondDeriv_at, clasp_pts x0 h0 _ e1 pts R.hpts]
      intro w hw k
      simp [derivCtrl] at hw
      subst hw
      simp [claspProblem, ProblemData.polytopes]
  · intro x hx
    rw [R.kin, first3_ext3] at hx
    obtain ⟨k1, -, -⟩ := hx 0 (by simp)
    rw [e1, e2, e3, forall_map _ (fun w : Coefs => w.at x) (fun v => KinOk (ct 0) v), subCoefs_full _ _ (by norm_num),
      clasp_pts x0 h0 _ e1 pts R.hpts, hct] at k1
    have := k1 x (by simp)
    have r1 := this (![1, 0, 0], x0) (by simp [claspContact])
    have r2 := this (![-1, 0, 0], 10 - x0) (by simp [claspContact])
    have r3 := this (![0, -1, 0], 10) (by simp [claspContact])
    have r4 := this (![0, 0, -1], 10) (by simp [claspContact])
    simp [dot] at r1 r2 r3 r4
    exact ⟨by linarith, by linarith, by linarith, by linarith⟩

theorem claspProblem_facts (x0 : ℝ) : (claspProblem x0).representation ≠ DOUBLE_DESCRIPTION ∧
    (∀ ct ∈ (claspProblem x0).contacts, ∀ e, ct.contactPhase = some e → 0 < e.mass) ∧
    (∀ ct ∈ (claspProblem x0).contacts, ∀ e, ct.contactPhase = some e → Spans e) ∧ NestedPhases (claspProblem x0).contacts ∧
    (∀ ct ∈ (claspProblem x0).contacts, ∀ e, ct.contactPhase = some e → Encloses e 0) ∧
    (∀ ct ∈ (claspProblem x0).contacts, ∀ e, ct.contactPhase = some e → Inscribed e 0) := by
  refine ⟨by simp [claspProblem, DOUBLE_DESCRIPTION], fun ct h e he => ?_, fun ct h e he => ?_, ?_, fun ct h e he => ?_, fun ct h e he => ?_⟩
  · rw [claspProblem_phase h he]; simp [claspPhase]
  · rw [claspProblem_phase h he]; exact claspPhase_spans
  · intro p ct ct' e e' h1 h2
    simp [claspProblem] at h2
  · rw [claspProblem_phase h he]
    intro r hr
    simp [claspPhase] at hr
  · rw [claspProblem_phase h he]
    exact fun f τ _ => claspPhase_all f τ

/-- Both calls on `claspProblem`. -/
theorem clasp_calls (κ x0 : ℝ) (h0 : 1 ≤ |x0|) : ∃ M, ∀ maxIter > M, ∃ res res' N,
    (∀ fuel ≥ N, computeCOMTraj κ (exactLib maxIter) fuel (claspProblem x0) [1] (-1) SOLVER_QUADPROG = .ok res) ∧
    (∀ fuel ≥ N, computeCOMTraj κ (exactLib maxIter) fuel (claspProblem x0).polytopes [1] (-1) SOLVER_QUADPROG = .ok res') ∧
    res'.success = true ∧ (-1000 ≤ x0 → res.success = true) ∧ (x0 < -100000 → res.success = false) := by
  obtain ⟨hacc, hacc'⟩ := claspProblem_accepted x0
  obtain ⟨f1, f2, f3, f4, f5, f6⟩ := claspProblem_facts x0
  obtain ⟨S, hS, -⟩ := C21_in_bounds_and_complete κ _ _ _ hacc
  obtain ⟨S', hS', -⟩ := C21_in_bounds_and_complete κ _ _ _ hacc'
  refine ⟨2 ^ (S.A.rows + S.minBounds.length) + 2 ^ S'.A.rows, fun maxIter hM => ?_⟩
  obtain ⟨res, res', N, hrun, hrun', c1, c2⟩ := C116_continuous κ (exactLib maxIter) (exactLib_ok _) rfl _ _ _ hacc hacc' f1 (-1)
    (by norm_num) (Or.inr ⟨rfl, by simp [claspProblem]⟩) f2 f3 f4
    (by
      intro S2 h2
      rw [hS] at h2
      cases h2
      exact lt_of_le_of_lt (Nat.le_add_right _ _) hM)
    (by
      intro S2 h2
      rw [hS'] at h2
      cases h2
      exact lt_of_le_of_lt (Nat.le_add_left _ _) hM)
  obtain ⟨g1, g2⟩ := clasp_sat κ x0 h0 S' hS'
  obtain ⟨S1, res1, N1, hS1, hcols, hrun1, hsucc1, hfail1⟩ := continuous_points κ (exactLib maxIter) (exactLib_ok _) rfl _ [1] 0 hacc'
    rfl (by simp [claspProblem, ProblemData.polytopes]) (-1) (by norm_num) (Or.inr rfl) (by
      intro S2 h2
      rw [hS'] at h2
      cases h2
      exact lt_of_le_of_lt (Nat.le_add_left _ _) hM)
  rw [hS'] at hS1
  cases hS1
  have e := hrun' (max N N1) (le_max_left _ _)
  rw [hrun1 (max N N1) (le_max_right _ _)] at e
  cases e
  have hs : res'.success = true := by
    by_contra hn
    exact hfail1 (by simpa using hn) _ g1
  refine ⟨res, res', N, hrun, hrun', hs, fun hx => ?_, fun hx => ?_⟩
  · obtain ⟨v, a, -, hsat, -⟩ := hsucc1 hs
    obtain ⟨b1, b2, b3, b4⟩ := g2 _ hsat
    refine c2 f6 hs fun k => ?_
    fin_cases k
    · change _ ≤ res'.point 0; linarith
    · change _ ≤ res'.point 1; linarith
    · change _ ≤ res'.point 2; linarith
  · by_contra hn
    obtain ⟨hE, -⟩ := force_independent κ _ _ _ hacc f1 f3 S hS
    obtain ⟨res2, N2, hrun2, hsucc2, -⟩ := continuous_exact κ (exactLib maxIter) (exactLib_ok _) rfl _ [1] 0 hacc (-1) (by norm_num)
      (Or.inr ⟨rfl, by simp [claspProblem]⟩) S hS hE
    have e := hrun (max N N2) (le_max_left _ _)
    rw [hrun2 (max N N2) (le_max_right _ _)] at e
    cases e
    obtain ⟨y, hy, hsat, -⟩ := hsucc2 (by simpa using hn)
    have := C116_feasible κ _ _ _ hacc hacc' f1 f2 f4 f5 S S' hS hS' y hsat
    have h1 := (g2 _ this).1
    obtain ⟨ct, e, pts, ws, S2, R⟩ := cont_raw κ _ _ _ hacc
    have q := R.hS
    rw [hS] at q
    cases q
    have h2 := hsat.2.2 0 (-100000) (by rw [R.min, if_neg f1]; simp)
    change y 0 ≤ x0 at h1
    linarith

/-- C116, the limit of the second claim. The lower bounds of the unknowns exclude motions far from the origin: with polytopes the
call succeeds, with forces it fails, although the phase can produce every wrench. -/
theorem C116_far_refuted (κ : ℝ) : ∃ M, ∀ maxIter > M, ∃ res res' N,
    (∀ ct ∈ (claspProblem (-200000)).contacts, ∀ e, ct.contactPhase = some e → ∀ f τ, InCone e f τ) ∧
    (∀ fuel ≥ N, computeCOMTraj κ (exactLib maxIter) fuel (claspProblem (-200000)) [1] (-1) SOLVER_QUADPROG = .ok res) ∧
    (∀ fuel ≥ N, computeCOMTraj κ (exactLib maxIter) fuel (claspProblem (-200000)).polytopes [1] (-1) SOLVER_QUADPROG = .ok res') ∧
    res'.success = true ∧ res.success = false := by
  obtain ⟨M, hM⟩ := clasp_calls κ (-200000) (by norm_num)
  refine ⟨M, fun maxIter h => ?_⟩
  obtain ⟨res, res', N, h1, h2, h3, -, h5⟩ := hM maxIter h
  exact ⟨res, res', N, fun ct hct e he f τ => by rw [claspProblem_phase hct he]; exact claspPhase_all f τ, h1, h2, h3, h5 (by norm_num)⟩

/-- A non-trivial case of C116: near the origin both calls succeed. -/
example (κ : ℝ) : ∃ M, ∀ maxIter > M, ∃ res res' N,
    (∀ fuel ≥ N, computeCOMTraj κ (exactLib maxIter) fuel (claspProblem 1) [1] (-1) SOLVER_QUADPROG = .ok res) ∧
    (∀ fuel ≥ N, computeCOMTraj κ (exactLib maxIter) fuel (claspProblem 1).polytopes [1] (-1) SOLVER_QUADPROG = .ok res') ∧
    res'.success = true ∧ res.success = true := by
  obtain ⟨M, hM⟩ := clasp_calls κ 1 (by norm_num)
  refine ⟨M, fun maxIter h => ?_⟩
  obtain ⟨res, res', N, h1, h2, h3, h4, -⟩ := hM maxIter h
  exact ⟨res, res', N, h1, h2, h3, h4 (by norm_num)⟩

end Verif
