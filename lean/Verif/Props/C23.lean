import Verif.Props.C21

/-!
# C23 — the continuous formulation with force variables
-/

namespace Verif
open Matrix

theorem getD_map_lt {α : Type} (l : List α) (f : α → V3) (i : ℕ) (hi : i < l.length) :
    (l.map f).getD i 0 = f l[i] := by
  simp [List.getD, hi]

theorem forceRange_mem (ws : List Wp6) (cSize cols : ℕ) (next : Option ℕ) (k : ℕ) (hk : k < ws.length)
    (h0 : k = 0 → ¬ (0 < cSize ∧ cSize < cols)) (h1 : k + 1 = ws.length → ∀ n, next = some n → ¬ n ≤ cols) :
    ws[k] ∈ forceRange ws cSize cols next := by
  have key : ∀ l : List Wp6, (l = ws ∨ l = ws.dropLast ∧ k + 1 ≠ ws.length) →
      ws[k] ∈ (if cSize > 0 ∧ cSize < cols then l.drop 1 else l) := by
    intro l hl
    have hkl : ∃ h : k < l.length, l[k] = ws[k] := by
      rcases hl with rfl | ⟨rfl, hne⟩
      · exact ⟨hk, rfl⟩
      · exact ⟨by rw [List.length_dropLast]; omega, by simp⟩
    obtain ⟨hk', e⟩ := hkl
    by_cases hc : cSize > 0 ∧ cSize < cols
    · rw [if_pos hc, List.mem_iff_getElem]
      have hk0 : k ≠ 0 := fun h => h0 h hc
      refine ⟨k - 1, by rw [List.length_drop]; omega, ?_⟩
      rw [← e, List.getElem_drop]
      congr 1
      omega
    · rw [if_neg hc, ← e]
      exact List.getElem_mem hk'
  unfold forceRange
  cases next with
  | none => exact key ws (Or.inl rfl)
  | some n =>
    by_cases hn : n ≤ cols
    · simp only [if_pos hn]
      exact key _ (Or.inr ⟨rfl, fun h => h1 h n rfl hn⟩)
    · simp only [if_neg hn]
      exact key _ (Or.inl rfl)

/-- The blocks of phase `p`. -/
theorem contBlocks_mem (e : ℕ → Equilibrium) (T : ℝ) (w : List Wp6) (Ts : List ℝ) :
    ∀ (i : ℕ) (t : ℝ) (cSize p : ℕ), p < Ts.length →
      ∀ v ∈ forceRange (subWp6 w T (t + (Ts.take p).sum) (Ts.getD p 0))
        (if p = 0 then cSize else (e (i + p - 1)).gens.length) (e (i + p)).gens.length
        (if p + 1 < Ts.length then some (e (i + p + 1)).gens.length else none),
      (v, e (i + p)) ∈ contBlocks e T w Ts i t cSize := by
  induction Ts with
  | nil => intro i t cSize p hp; simp at hp
  | cons D Ts ih =>
    intro i t cSize p hp v hv
    rw [contBlocks]
    cases p with
    | zero =>
      apply List.mem_append_left
      simp only [List.mem_map]
      refine ⟨v, ?_, rfl⟩
      have e1 : nextGens e Ts i = if 0 + 1 < (D :: Ts).length then some (e (i + 0 + 1)).gens.length else none := by
        unfold nextGens; cases Ts <;> simp
      rw [e1]
      simpa using hv
    | succ p =>
      apply List.mem_append_right
      have := ih (i + 1) (t + D) (e i).gens.length p (by simpa using hp) v
      rw [show i + 1 + p = i + (p + 1) by ring] at this
      refine this ?_
      rw [if_neg (by omega)] at hv
      have e2 : (if p = 0 then (e i).gens.length else (e (i + (p + 1) - 1)).gens.length)
          = (e (i + (p + 1) - 1)).gens.length := by
        by_cases h : p = 0
        · subst h; simp
        · rw [if_neg h]
      rw [e2]
      have e3 : (p + 1 + 1 < (D :: Ts).length) = (p + 1 < Ts.length) := by simp
      simp only [e3] at hv
      simpa [List.take_succ_cons, add_assoc, add_comm, add_left_comm] using hv

/-- The cone of a phase is convex. -/
theorem inCone_bez (e : Equilibrium) (n : ℕ) (f τ : ℕ → V3) (u : ℝ) (h0 : 0 ≤ u) (h1 : u ≤ 1)
    (h : ∀ i ≤ n, InCone e (f i) (τ i)) : InCone e (bez n f u) (bez n τ u) := by
  have h' : ∀ i, ∃ β, i ≤ n → Generated e (f i) (τ i) β := by
    intro i
    by_cases hi : i ≤ n
    · obtain ⟨β, hβ⟩ := h i hi; exact ⟨β, fun _ => hβ⟩
    · exact ⟨0, fun h => absurd h hi⟩
  choose β hβ using h'
  refine ⟨fun k => bez n (fun i => β i k) u, fun k hk => le_bez h0 h1 fun i hi => (hβ i hi).1 k hk, ?_, ?_⟩
  · have e1 : bez n f u = bez n (fun i => ∑ k ∈ Finset.range e.gens.length, β i k • (e.gens.getD k 0).1) u :=
      bez_congr fun i hi => (hβ i hi).2.1.symm
    rw [e1]
    simp only [bez, Finset.smul_sum, Finset.sum_smul]
    rw [Finset.sum_comm]
    refine Finset.sum_congr rfl fun i _ => Finset.sum_congr rfl fun k _ => ?_
    rw [smul_eq_mul, smul_smul]
  · have e1 : bez n τ u = bez n (fun i => ∑ k ∈ Finset.range e.gens.length, β i k • (e.gens.getD k 0).2) u :=
      bez_congr fun i hi => (hβ i hi).2.2.symm
    rw [e1]
    simp only [bez, Finset.smul_sum, Finset.sum_smul]
    rw [Finset.sum_comm]
    refine Finset.sum_congr rfl fun i _ => Finset.sum_congr rfl fun k _ => ?_
    rw [smul_eq_mul, smul_smul]

/-- The cone of a phase is a cone. -/
theorem inCone_scale (e : Equilibrium) {f τ : V3} {m m' : ℝ} (hm : 0 < m) (hm' : 0 < m')
    (h : InCone e (m • f) (m • τ)) : InCone e (m' • f) (m' • τ) := by
  obtain ⟨β, h1, h2, h3⟩ := h
  refine ⟨fun k => m' / m * β k, fun k hk => mul_nonneg (by positivity) (h1 k hk), ?_, ?_⟩
  · simp only [mul_smul]
    rw [← Finset.smul_sum, h2, smul_smul, div_mul_cancel₀ _ hm.ne']
  · simp only [mul_smul]
    rw [← Finset.smul_sum, h3, smul_smul, div_mul_cancel₀ _ hm.ne']

/-- Every force of one phase is a force of the other. -/
def ConeLe (e e' : Equilibrium) : Prop := ∀ f τ, InCone e f τ → InCone e' f τ

/-- Of two consecutive phases, the one whose equations are kept at the switch has the smaller cone: the
later one when it has at most as many generators, the earlier one otherwise. This is so for contacts
added or removed one after the other; it is needed, see `C23_refuted`. -/
def NestedPhases (cts : List ContactData) : Prop :=
  ∀ p ct ct' e e', cts[p]? = some ct → cts[p + 1]? = some ct' → ct.contactPhase = some e →
    ct'.contactPhase = some e' →
    (e'.gens.length ≤ e.gens.length → ConeLe e' e) ∧
    (e.gens.length < e'.gens.length → ConeLe e e')

/-- The whole of `contBlocks` is generated with non-negative coefficients. -/
theorem blocks_inCone {κ : ℝ} {pData : ProblemData} {Ts : List ℝ} {g : V3} {ct : ℕ → ContactData}
    {e : ℕ → Equilibrium} {pts : List V3} {ws : List Wp6} {S : ContSystem}
    (R : ContRaw κ pData Ts g ct e pts ws S) (hr : pData.representation ≠ DOUBLE_DESCRIPTION)
    (y : ℕ → ℝ) (hy : EqSat S.D S.d y) (hb : AboveBounds S.minBounds y) :
    ∀ q ∈ contBlocks e Ts.sum ws Ts 0 0 0,
      InCone q.2 (q.2.mass • (q.2.gravity - q.1.headAt (first3 y))) (q.2.mass • (-q.1.tailAt (first3 y))) := by
  intro q hq
  obtain ⟨j, hj⟩ := List.mem_iff_getElem?.mp hq
  obtain ⟨hc, he⟩ := R.eqn hr
  obtain ⟨h1, h2⟩ := (he y).mp hy j q hj
  refine ⟨fun k => y (3 + gcols ((contBlocks e Ts.sum ws Ts 0 0 0).take j) + k), fun k hk => ?_, h1, h2⟩
  apply hb
  rw [R.min, if_neg hr, List.getElem?_append_right (by simp; omega)]
  have hlt : gcols ((contBlocks e Ts.sum ws Ts 0 0 0).take j) + q.2.gens.length
      ≤ gcols (contBlocks e Ts.sum ws Ts 0 0 0) := by
    have hj' : j < (contBlocks e Ts.sum ws Ts 0 0 0).length := by
      rw [List.getElem?_eq_some_iff] at hj; exact hj.1
    conv_rhs => rw [← List.take_append_drop j (contBlocks e Ts.sum ws Ts 0 0 0), gcols_append]
    rw [← List.getElem_cons_drop hj']
    have : (contBlocks e Ts.sum ws Ts 0 0 0)[j] = q := by
      rw [List.getElem?_eq_getElem hj'] at hj; simpa using hj
    rw [this]
    simp [gcols]
  rw [List.length_replicate, List.getElem?_replicate, if_pos (by rw [hc]; omega)]

/-- A property of the wrench of each phase that holds for the wrench waypoints of the blocks holds for all control points of
the phase, if it passes, at a switch, from the phase whose equations are kept to the other one. -/
theorem C23_controls {κ : ℝ} {pData : ProblemData} {Ts : List ℝ} {g : V3} {ct : ℕ → ContactData}
    {e : ℕ → Equilibrium} {pts : List V3} {ws : List Wp6} {S : ContSystem}
    (h : AcceptedC pData Ts g) (R : ContRaw κ pData Ts g ct e pts ws S) (K : Equilibrium → V3 → V3 → Prop) (x : V3)
    (hB : ∀ q ∈ contBlocks e Ts.sum ws Ts 0 0 0, K q.2 (q.2.gravity - q.1.headAt x) (-q.1.tailAt x))
    (hnest : ∀ p, p + 1 < Ts.length →
      ((e (p + 1)).gens.length ≤ (e p).gens.length → ∀ f τ, K (e (p + 1)) f τ → K (e p) f τ) ∧
      ((e p).gens.length < (e (p + 1)).gens.length → ∀ f τ, K (e p) f τ → K (e (p + 1)) f τ)) :
    ∀ p < Ts.length, ∀ v ∈ subWp6 ws Ts.sum (Ts.take p).sum (Ts.getD p 0), K (e p) (g - v.headAt x) (-v.tailAt x) := by
  have hne : ws ≠ [] := by rw [← List.length_pos_iff]; have := R.hw2; omega
  have hw2 := R.hw2
  -- the control points of phase `p`
  set hd : ℕ → ℕ → V3 := fun p i => ((subWp6 ws Ts.sum (Ts.take p).sum (Ts.getD p 0)).map (·.headAt x)).getD i 0 with hhd
  set tl : ℕ → ℕ → V3 := fun p i => ((subWp6 ws Ts.sum (Ts.take p).sum (Ts.getD p 0)).map (·.tailAt x)).getD i 0 with htl
  have hlt : ∀ p < Ts.length, (Ts.take p).sum < Ts.sum := fun p hp => by
    have hD : 0 < Ts[p] := h.pos _ (List.getElem_mem hp)
    obtain ⟨u, -, -, -, hlt⟩ := inPhase_param h.pos (p := p) (t := (Ts.take p).sum)
      ⟨hp, le_rfl, by rw [List.sum_take_succ Ts p hp]; linarith⟩
    exact hlt
  have direct : ∀ p < Ts.length, ∀ k < ws.length,
      (k = 0 → ¬ (0 < (if p = 0 then 0 else (e (p - 1)).gens.length) ∧
        (if p = 0 then 0 else (e (p - 1)).gens.length) < (e p).gens.length)) →
      (k + 1 = ws.length → p + 1 < Ts.length → ¬ (e (p + 1)).gens.length ≤ (e p).gens.length) →
      K (e p) (g - hd p k) (-tl p k) := by
    intro p hp k hk h0 h1
    have hk' : k < (subWp6 ws Ts.sum (Ts.take p).sum (Ts.getD p 0)).length := by rw [subWp6_length]; exact hk
    have hmem := forceRange_mem (subWp6 ws Ts.sum (Ts.take p).sum (Ts.getD p 0))
      (if p = 0 then 0 else (e (p - 1)).gens.length) (e p).gens.length
      (if p + 1 < Ts.length then some (e (p + 1)).gens.length else none) k hk' h0 (by
        intro hk1 n hn'
        by_cases hp1 : p + 1 < Ts.length
        · rw [if_pos hp1] at hn'
          cases hn'
          exact h1 (by rw [subWp6_length] at hk1; exact hk1) hp1
        · rw [if_neg hp1] at hn'; cases hn')
    have hb' := contBlocks_mem e Ts.sum ws Ts 0 0 0 p hp
      (subWp6 ws Ts.sum (Ts.take p).sum (Ts.getD p 0))[k] (by simpa using hmem)
    have := hB _ hb'
    simp only [zero_add] at this
    rw [R.hg p hp] at this
    have e1 : hd p k = (subWp6 ws Ts.sum (Ts.take p).sum (Ts.getD p 0))[k].headAt x := by
      simp only [hhd]
      rw [getD_map_lt _ _ _ hk']
    have e2 : tl p k = (subWp6 ws Ts.sum (Ts.take p).sum (Ts.getD p 0))[k].tailAt x := by
      simp only [htl]
      rw [getD_map_lt _ _ _ hk']
    rw [e1, e2]
    exact this
  -- the last control point of a phase is the first of the next one
  have join : ∀ p, p + 1 < Ts.length → hd p (ws.length - 1) = hd (p + 1) 0 ∧ tl p (ws.length - 1) = tl (p + 1) 0 := by
    intro p hp
    have q1 := hlt p (by omega)
    have q2 := hlt (p + 1) hp
    have hs : (Ts.take p).sum + 1 * Ts.getD p 0 = (Ts.take (p + 1)).sum + 0 * Ts.getD (p + 1) 0 := by
      rw [List.sum_take_succ Ts p (by omega)]
      simp [List.getD, show p < Ts.length by omega]
    constructor
    · have a1 := subWp6_head ws hne h.total q1 x (D := Ts.getD p 0) 1
      have a2 := subWp6_head ws hne h.total q2 x (D := Ts.getD (p + 1) 0) 0
      rw [bez_at_one] at a1
      rw [bez_at_zero] at a2
      simp only [hhd]
      rw [a1, a2, hs]
    · have a1 := subWp6_tail ws hne h.total q1 x (D := Ts.getD p 0) 1
      have a2 := subWp6_tail ws hne h.total q2 x (D := Ts.getD (p + 1) 0) 0
      rw [bez_at_one] at a1
      rw [bez_at_zero] at a2
      simp only [htl]
      rw [a1, a2, hs]
  -- every control point
  have all : ∀ p < Ts.length, ∀ k < ws.length,
      K (e p) (g - hd p k) (-tl p k) := by
    intro p hp k hk
    by_cases hlast : k + 1 = ws.length ∧ p + 1 < Ts.length ∧ (e (p + 1)).gens.length ≤ (e p).gens.length
    · obtain ⟨k1, p1, hle⟩ := hlast
      have hk' : k = ws.length - 1 := by omega
      obtain ⟨j1, j2⟩ := join p p1
      rw [hk', j1, j2]
      have := direct (p + 1) p1 0 (by omega) (fun _ => by
        rw [if_neg (by omega)]
        simp only [Nat.add_sub_cancel]
        omega) (fun hc => by omega)
      exact (hnest p p1).1 hle _ _ this
    · by_cases hfirst : k = 0 ∧ (0 < (if p = 0 then 0 else (e (p - 1)).gens.length) ∧
        (if p = 0 then 0 else (e (p - 1)).gens.length) < (e p).gens.length)
      · obtain ⟨k0, hc1, hc2⟩ := hfirst
        have hp0 : p ≠ 0 := by rintro rfl; simp at hc1
        rw [if_neg hp0] at hc1 hc2
        obtain ⟨p', rfl⟩ : ∃ p', p = p' + 1 := ⟨p - 1, by omega⟩
        simp only [Nat.add_sub_cancel] at hc1 hc2
        obtain ⟨j1, j2⟩ := join p' hp
        rw [k0, ← j1, ← j2]
        have := direct p' (by omega) (ws.length - 1) (by omega) (fun hc => by omega) (fun _ _ => by omega)
        exact (hnest p' hp).2 hc2 _ _ this
      · exact direct p hp k hk (fun h0 hc => hfirst ⟨h0, hc⟩) (fun h1 h2 h3 => hlast ⟨h1, h2, h3⟩)
  intro p hp v hv
  obtain ⟨k, hk, rfl⟩ := List.mem_iff_getElem.mp hv
  have := all p hp k (by rw [subWp6_length] at hk; exact hk)
  simp only [hhd, htl] at this
  rwa [getD_map_lt _ _ _ hk, getD_map_lt _ _ _ hk] at this

/-- A property of the wrench of each phase that holds for the wrench waypoints of the blocks holds at every instant, if
it is convex and passes, at a switch, from the phase whose equations are kept to the other one. -/
theorem C23_along {κ : ℝ} {pData : ProblemData} {Ts : List ℝ} {g : V3} {ct : ℕ → ContactData}
    {e : ℕ → Equilibrium} {pts : List V3} {ws : List Wp6} {S : ContSystem}
    (h : AcceptedC pData Ts g) (R : ContRaw κ pData Ts g ct e pts ws S) (K : Equilibrium → V3 → V3 → Prop) (x : V3)
    (hB : ∀ q ∈ contBlocks e Ts.sum ws Ts 0 0 0, K q.2 (q.2.gravity - q.1.headAt x) (-q.1.tailAt x))
    (hconv : ∀ p < Ts.length, ∀ (n : ℕ) (f τ : ℕ → V3) (u : ℝ), 0 ≤ u → u ≤ 1 → (∀ i ≤ n, K (e p) (f i) (τ i)) →
      K (e p) (bez n f u) (bez n τ u))
    (hnest : ∀ p, p + 1 < Ts.length →
      ((e (p + 1)).gens.length ≤ (e p).gens.length → ∀ f τ, K (e (p + 1)) f τ → K (e p) f τ) ∧
      ((e p).gens.length < (e (p + 1)).gens.length → ∀ f τ, K (e p) f τ → K (e (p + 1)) f τ)) :
    ∀ p t, InPhase Ts p t →
      K (e p) (g - headCurve ws x (t / Ts.sum)) (-tailCurve ws x (t / Ts.sum)) := by
  have hne : ws ≠ [] := by rw [← List.length_pos_iff]; have := R.hw2; omega
  have hw2 := R.hw2
  -- the control points of phase `p`
  set hd : ℕ → ℕ → V3 := fun p i => ((subWp6 ws Ts.sum (Ts.take p).sum (Ts.getD p 0)).map (·.headAt x)).getD i 0 with hhd
  set tl : ℕ → ℕ → V3 := fun p i => ((subWp6 ws Ts.sum (Ts.take p).sum (Ts.getD p 0)).map (·.tailAt x)).getD i 0 with htl
  have all : ∀ p < Ts.length, ∀ k < ws.length, K (e p) (g - hd p k) (-tl p k) := by
    intro p hp k hk
    have hk' : k < (subWp6 ws Ts.sum (Ts.take p).sum (Ts.getD p 0)).length := by rw [subWp6_length]; exact hk
    have := C23_controls h R K x hB hnest p hp _ (List.getElem_mem hk')
    simp only [hhd, htl]
    rwa [getD_map_lt _ _ _ hk', getD_map_lt _ _ _ hk']
  intro p t hp
  obtain ⟨u, u0, u1, rfl, hlt'⟩ := inPhase_param h.pos hp
  rw [← subWp6_head ws hne h.total hlt', ← subWp6_tail ws hne h.total hlt']
  have := hconv p hp.1 (ws.length - 1) (fun i => g - hd p i) (fun i => -tl p i) u u0 u1 fun i hi => all p hp.1 i (by omega)
  have e1 : bez (ws.length - 1) (fun i => g - hd p i) u = g - bez (ws.length - 1) (hd p) u := by
    rw [bez_sub, bez_const]
  have e2 : bez (ws.length - 1) (fun i => -tl p i) u = -bez (ws.length - 1) (tl p) u := by
    have := bez_smul (ws.length - 1) (-1 : ℝ) (tl p) u
    simpa using this
  rw [e1, e2] at this
  exact this

/-- C23, all seven sets: with force variables, positive masses and nested phases, at every instant of every
phase the wrench of the wrench waypoints is generated with non-negative coefficients by the contact
forces of that phase. -/
theorem C23_every_instant (κ : ℝ) (pData : ProblemData) (Ts : List ℝ) (g : V3)
    (h : AcceptedC pData Ts g) (hr : pData.representation ≠ DOUBLE_DESCRIPTION)
    (hm : ∀ ct ∈ pData.contacts, ∀ e, ct.contactPhase = some e → 0 < e.mass)
    (hn : NestedPhases pData.contacts)
    (S : ContSystem) (hS : computeConstraintsContinuous κ pData Ts = .ok S) (y : ℕ → ℝ)
    (hy : EqSat S.D S.d y) (hb : AboveBounds S.minBounds y) :
    ∃ ws, computeWwaypoints pData.flag pData.contacts pData.bc Ts.sum = .ok ws ∧
      ∀ p t, InPhase Ts p t → AtPhase pData.contacts p fun _ e =>
        InCone e (e.mass • (g - headCurve ws (first3 y) (t / Ts.sum)))
          (e.mass • (-tailCurve ws (first3 y) (t / Ts.sum))) := by
  obtain ⟨ct, e, pts, ws, S', R⟩ := cont_raw κ pData Ts g h
  have hSS := R.hS
  rw [hS] at hSS
  cases hSS
  have hB := blocks_inCone R hr y hy hb
  have hmass : ∀ p < Ts.length, 0 < (e p).mass := fun p hp =>
    hm (ct p) (List.mem_of_getElem? (R.hct p hp)) (e p) (R.he p hp)
  have hnest : ∀ p, p + 1 < Ts.length →
      ((e (p + 1)).gens.length ≤ (e p).gens.length → ConeLe (e (p + 1)) (e p)) ∧
      ((e p).gens.length < (e (p + 1)).gens.length → ConeLe (e p) (e (p + 1))) := fun p hp =>
    hn p (ct p) (ct (p + 1)) (e p) (e (p + 1)) (R.hct p (by omega)) (R.hct (p + 1) hp)
      (R.he p (by omega)) (R.he (p + 1) hp)
  refine ⟨ws, R.hws, fun p t hp => ⟨ct p, e p, R.hct p hp.1, R.he p hp.1, ?_⟩⟩
  refine C23_along h R (fun e f τ => InCone e (e.mass • f) (e.mass • τ)) (first3 y) hB ?_ ?_ p t hp
  · intro p hp n f τ u u0 u1 hall
    have := inCone_bez (e p) n (fun i => (e p).mass • f i) (fun i => (e p).mass • τ i) u u0 u1 hall
    rwa [bez_smul, bez_smul] at this
  · intro p hp
    refine ⟨fun hle f τ hK => ?_, fun hlt f τ hK => ?_⟩
    · exact inCone_scale _ (hmass _ hp) (hmass p (by omega)) ((hnest p hp).1 hle _ _ hK)
    · exact inCone_scale _ (hmass p (by omega)) (hmass _ hp) ((hnest p hp).2 hlt _ _ hK)

/-- C23. The five sets with exact wrench waypoints: at every instant of every phase the physical
gravito-inertial wrench is generated with non-negative coefficients by the contact forces. -/
theorem C23_sound (κ : ℝ) (pData : ProblemData) (Ts : List ℝ) (g : V3)
    (h : AcceptedC pData Ts g) (hr : pData.representation ≠ DOUBLE_DESCRIPTION)
    (hf : pData.flag ∈ [11#32, 19#32, 27#32, 7#32, 15#32])
    (hm : ∀ ct ∈ pData.contacts, ∀ e, ct.contactPhase = some e → 0 < e.mass)
    (hn : NestedPhases pData.contacts)
    (S : ContSystem) (hS : computeConstraintsContinuous κ pData Ts = .ok S) (y : ℕ → ℝ)
    (hy : EqSat S.D S.d y) (hb : AboveBounds S.minBounds y)
    (pts : List V3) (hpts : computeConstantWaypoints pData.flag pData.bc Ts.sum = .ok pts) :
    let c := curve (degreeOf pData.flag) (fill pData.flag (nth pts) (first3 y)) Ts.sum
    ∃ v a, IsDeriv c v ∧ IsDeriv v a ∧ ∀ p t, InPhase Ts p t →
      AtPhase pData.contacts p fun _ e => InCone e (e.mass • (g - a t)) (e.mass • cr (c t) (g - a t)) := by
  obtain ⟨ws, hws, hW⟩ := C23_every_instant κ pData Ts g h hr hm hn S hS y hy hb
  have h0 : 0 < pData.contacts.length := by rw [← h.size]; exact List.length_pos_iff.mpr h.ne
  obtain ⟨ct0, rest, hrest⟩ : ∃ ct0 rest, pData.contacts = ct0 :: rest := by
    cases hcs : pData.contacts with
    | nil => rw [hcs] at h0; simp at h0
    | cons a r => exact ⟨a, r, rfl⟩
  obtain ⟨e0, he0, hg0, -⟩ := h.phases ct0 (by rw [hrest]; simp)
  obtain ⟨ws', hw', hx'⟩ := C04_wrench_waypoints_partial pData.flag hf ct0 rest e0 he0 pData.bc
    Ts.sum h.total.ne' pts hpts
  rw [← hrest, hws] at hw'
  cases hw'
  obtain ⟨v, a, hv, ha, hs⟩ := hx' (first3 y)
  refine ⟨v, a, hv, ha, fun p t hp => ?_⟩
  obtain ⟨ct, e, q1, q2, q3⟩ := hW p t hp
  refine ⟨ct, e, q1, q2, ?_⟩
  rw [(hs t).1, (hs t).2, hg0, neg_wrenchTail] at q3
  exact q3

end Verif
