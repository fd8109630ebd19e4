import Verif.Lemmas.Tags

/-!
# Which times constrain which phase
-/

namespace Verif

theorem take_succ_sum (Ts : List ℝ) (a : ℕ) (ha : a < Ts.length) :
    (Ts.take (a + 1)).sum = (Ts.take a).sum + Ts.getD a 0 := by
  rw [List.take_add_one, List.sum_append, List.getD_eq_getElem?_getD, List.getElem?_eq_getElem ha]
  simp

/-- The samples with `n` points per phase: phase `p` is constrained at its start and at its `n` samples. -/
theorem fixed_constrained (Ts : List ℝ) (hne : Ts ≠ []) (n : ℕ) (hn : 0 < n) (t : ℝ) (p : ℕ) :
    Constrained (computeDiscretizedTimeFixed Ts n) t p ↔
      p < Ts.length ∧ ∃ b : ℕ, b ≤ n ∧ t = (Ts.take p).sum + b * (Ts.getD p 0 / n) := by
  obtain ⟨hlen, h0, -, hk⟩ := C17_fixed_discretization Ts n hn hne
  have hn' : (n : ℝ) ≠ 0 := by exact_mod_cast hn.ne'
  have hL : 0 < Ts.length := List.length_pos_iff.mpr hne
  generalize computeDiscretizedTimeFixed Ts n = l at *
  -- every index but the first
  have hidx : ∀ k q, l[k + 1]? = some q → ∃ a b, a < Ts.length ∧ b < n ∧ k = a * n + b ∧
      q = ((Ts.take a).sum + (b + 1) * (Ts.getD a 0 / n), (a : ℤ)) := by
    intro k q hq
    have hlt : k + 1 < l.length := by
      by_contra hge
      rw [List.getElem?_eq_none (by omega)] at hq
      simp at hq
    have hb : k % n < n := Nat.mod_lt _ hn
    have hdiv : k / n * n + k % n = k := by rw [Nat.mul_comm]; exact Nat.div_add_mod k n
    have ha : k / n < Ts.length := by
      rw [Nat.div_lt_iff_lt_mul hn]
      omega
    refine ⟨k / n, k % n, ha, hb, hdiv.symm, ?_⟩
    have := hk (k / n) (k % n) ha hb
    rw [hdiv, hq] at this
    exact Option.some.inj this
  constructor
  · rintro (h | ⟨l₁, i, t', l₂, hl, hne'⟩)
    · obtain ⟨k, hk'⟩ := List.mem_iff_getElem?.mp h
      cases k with
      | zero =>
        rw [h0] at hk'
        simp only [Option.some.injEq, Prod.mk.injEq] at hk'
        obtain ⟨rfl, hp⟩ := hk'
        obtain rfl : p = 0 := by exact_mod_cast hp.symm
        exact ⟨hL, 0, by omega, by simp⟩
      | succ k =>
        obtain ⟨a, b, ha, hb, -, hq⟩ := hidx k _ hk'
        simp only [Prod.mk.injEq] at hq
        obtain ⟨rfl, hp⟩ := hq
        obtain rfl : p = a := by exact_mod_cast hp
        exact ⟨ha, b + 1, hb, by push_cast; ring⟩
    · have e1 : l[l₁.length]? = some (t, i) := by rw [hl]; simp
      have e2 : l[l₁.length + 1]? = some (t', (p : ℤ)) := by rw [hl]; simp
      generalize l₁.length = k at e1 e2
      obtain ⟨a', b', ha', hb', hk2, hq2⟩ := hidx k _ e2
      simp only [Prod.mk.injEq] at hq2
      obtain rfl : p = a' := by exact_mod_cast hq2.2
      cases k with
      | zero =>
        rw [h0] at e1
        simp only [Option.some.injEq, Prod.mk.injEq] at e1
        have : p = 0 := by
          by_contra h
          have := Nat.mul_pos (Nat.pos_of_ne_zero h) hn
          omega
        rw [this] at hne'
        exact absurd e1.2 hne'
      | succ k =>
        obtain ⟨a, b, ha, hb, hk1, hq1⟩ := hidx k _ e1
        simp only [Prod.mk.injEq] at hq1
        obtain ⟨rfl, rfl⟩ := hq1
        have hpa : p ≠ a := by exact_mod_cast hne'
        have h3 : p * n + b' = a * n + b + 1 := by omega
        have h4 : b + 1 = n ∧ p = a + 1 := by
          by_cases hbn : b + 1 < n
          · exfalso
            have e1 : (p * n + b') / n = p := by
              rw [Nat.mul_comm, Nat.mul_add_div hn, Nat.div_eq_of_lt hb']; omega
            have e2 : (a * n + (b + 1)) / n = a := by
              rw [Nat.mul_comm, Nat.mul_add_div hn, Nat.div_eq_of_lt hbn]; omega
            rw [h3, show a * n + b + 1 = a * n + (b + 1) by omega, e2] at e1
            exact hpa e1.symm
          · have hbn' : b + 1 = n := by omega
            refine ⟨hbn', ?_⟩
            have e1 : (p * n + b') / n = p := by
              rw [Nat.mul_comm, Nat.mul_add_div hn, Nat.div_eq_of_lt hb']; omega
            have e2 : (a + 1) * n / n = a + 1 := Nat.mul_div_cancel _ hn
            rw [h3, show a * n + b + 1 = (a + 1) * n by rw [Nat.add_mul]; omega, e2] at e1
            exact e1.symm
        obtain ⟨h5, rfl⟩ := h4
        refine ⟨ha', 0, by omega, ?_⟩
        rw [take_succ_sum Ts a ha]
        have h6 : ((b : ℝ) + 1) = n := by exact_mod_cast h5
        rw [h6]
        field_simp
        simp
  · rintro ⟨hp, b, hb, rfl⟩
    cases b with
    | succ b =>
      left
      have := hk p b hp (by omega)
      have := List.mem_of_getElem? this
      convert this using 3
      push_cast
      ring
    | zero =>
      cases p with
      | zero =>
        left
        have := List.mem_of_getElem? h0
        simpa using this
      | succ p =>
        right
        have e1 := hk p (n - 1) (by omega) (by omega)
        have e2 := hk (p + 1) 0 hp hn
        have i1 : p * n + (n - 1) + 1 = p * n + n := by omega
        have i2 : (p + 1) * n + 0 + 1 = p * n + n + 1 := by rw [Nat.add_mul]; omega
        rw [i1] at e1
        rw [i2] at e2
        have hlt : p * n + n + 1 < l.length := by
          by_contra hge
          rw [List.getElem?_eq_none (by omega)] at e2
          simp at e2
        refine ⟨l.take (p * n + n), p, (Ts.take (p + 1)).sum + ((0 : ℕ) + 1) * (Ts.getD (p + 1) 0 / n),
          l.drop (p * n + n + 2), ?_, by push_cast; omega⟩
        have d1 : l.drop (p * n + n) = l[p * n + n]'(by omega) :: l.drop (p * n + n + 1) := List.drop_eq_getElem_cons (by omega)
        have d2 : l.drop (p * n + n + 1) = l[p * n + n + 1] :: l.drop (p * n + n + 1 + 1) := List.drop_eq_getElem_cons hlt
        rw [List.getElem?_eq_getElem (by omega), Option.some.injEq] at e1 e2
        conv_lhs => rw [← List.take_append_drop (p * n + n) l, d1, d2, e1, e2]
        have ht : (Ts.take p).sum + (((n - 1 : ℕ) : ℝ) + 1) * (Ts.getD p 0 / n)
            = (Ts.take (p + 1)).sum + ((0 : ℕ) : ℝ) * (Ts.getD (p + 1) 0 / n) := by
          rw [take_succ_sum Ts p (by omega)]
          have : (((n - 1 : ℕ) : ℝ) + 1) = n := by
            have : n - 1 + 1 = n := by omega
            exact_mod_cast this
          rw [this]
          field_simp
          simp
        rw [ht]

theorem phaseSamples_mem (step start T : ℝ) (i : ℤ) (hs : 0 < step) (q : ℝ × ℤ) :
    q ∈ phaseSamples step start T i ↔ q.2 = i ∧ ((∃ k : ℕ, k * step < T ∧ q.1 = start + k * step) ∨ q.1 = start + T) := by
  unfold phaseSamples
  rw [List.mem_append, List.mem_map]
  have hk : ∀ k : ℕ, k ∈ List.range ⌈T / step⌉₊ ↔ k * step < T := by
    intro k
    rw [List.mem_range, Nat.lt_ceil, lt_div_iff₀ hs]
  constructor
  · rintro (⟨k, h1, rfl⟩ | h)
    · exact ⟨rfl, Or.inl ⟨k, (hk k).mp h1, rfl⟩⟩
    · simp only [List.mem_singleton] at h
      subst h
      exact ⟨rfl, Or.inr rfl⟩
  · obtain ⟨t, j⟩ := q
    rintro ⟨rfl, ⟨k, h1, rfl⟩ | rfl⟩
    · exact Or.inl ⟨k, (hk k).mpr h1, rfl⟩
    · exact Or.inr (by simp)

theorem allSamples_mem (step : ℝ) (hs : 0 < step) (Ts : List ℝ) (hpos : ∀ T ∈ Ts, 0 < T) : ∀ (i : ℤ) (start t : ℝ) (p : ℕ),
    (t, i + p) ∈ allSamples step Ts i start ↔ p < Ts.length ∧
      ((∃ k : ℕ, k * step < Ts.getD p 0 ∧ t = start + (Ts.take p).sum + k * step) ∨ t = start + (Ts.take (p + 1)).sum) := by
  induction Ts with
  | nil => intro i start t p; simp [allSamples]
  | cons T Ts ih =>
    have hTs : ∀ T ∈ Ts, 0 < T := fun T hT => hpos T (List.mem_cons_of_mem _ hT)
    intro i start t p
    rw [allSamples, List.mem_append, phaseSamples_mem step start T i hs]
    cases p with
    | zero =>
      have hno : (t, i + ((0 : ℕ) : ℤ)) ∉ allSamples step Ts (i + 1) (start + T) := by
        intro hq
        obtain ⟨k1, k2, k3, k4⟩ := allSamples_bounds step hs Ts (fun T hT => (hTs T hT).le) (i + 1) (start + T) _ hq
        simp at k3
      simp only [hno, or_false]
      simp
    | succ p =>
      have hno : ¬ (i + ((p + 1 : ℕ) : ℤ) = i) := by omega
      simp only [hno, false_and, false_or]
      have e : i + ((p + 1 : ℕ) : ℤ) = i + 1 + p := by push_cast; ring
      rw [e, ih hTs (i + 1) (start + T) t p]
      rw [List.take_succ_cons (i := p + 1), List.take_succ_cons, List.sum_cons, List.sum_cons, ← add_assoc, ← add_assoc]
      simp only [List.length_cons, Nat.add_lt_add_iff_right, List.getD_cons_succ]

/-- The samples of a time step: phase `p` is constrained at the multiples of the step and at its end. -/
theorem step_constrained (Ts : List ℝ) (hpos : ∀ T ∈ Ts, 0 < T) (step : ℝ) (hs : 0 < step) (t : ℝ) (p : ℕ) :
    Constrained (allSamples step Ts 0 0) t p ↔
      p < Ts.length ∧ ((∃ k : ℕ, k * step < Ts.getD p 0 ∧ t = (Ts.take p).sum + k * step) ∨ t = (Ts.take (p + 1)).sum) := by
  have hmem := allSamples_mem step hs Ts hpos 0 0
  simp only [zero_add] at hmem
  rw [← hmem t p]
  constructor
  · rintro (h | ⟨l₁, i, t', l₂, hl, hne⟩)
    · exact h
    · have hnn : ∀ T ∈ Ts, 0 ≤ T := fun T hT => (hpos T hT).le
      have hpw := allSamples_pairwise step hs Ts hnn 0 0
      have hb := allSamples_bounds step hs Ts hnn 0 0
      have hph := allSamples_phase step hs Ts hpos 0 0
      simp only [zero_add] at hph hb
      generalize allSamples step Ts 0 0 = l at *
      obtain ⟨-, -, b1, b2⟩ := hb (t, i) (by rw [hl]; simp)
      obtain ⟨-, -, -, c2⟩ := hb (t', (p : ℤ)) (by rw [hl]; simp)
      obtain ⟨a, rfl⟩ : ∃ a : ℕ, i = a := ⟨i.toNat, by simp only at b1; omega⟩
      simp only at b2 c2
      obtain ⟨-, d2, d3⟩ := hph a (by omega)
      have hta := (d3 (t, (a : ℤ)) (by rw [hl]; simp) rfl).2
      subst hl
      rw [List.pairwise_append] at hpw
      obtain ⟨-, hpw2, hpw3⟩ := hpw
      rw [List.pairwise_cons, List.pairwise_cons] at hpw2
      obtain ⟨w1, w2, -⟩ := hpw2
      have hap : (a : ℤ) ≤ p := (w1 (t', (p : ℤ)) (by simp)).2
      have ht : t = (Ts.take (a + 1)).sum := by
        refine le_antisymm hta ?_
        rcases List.mem_append.mp d2 with h | h
        · exact (hpw3 _ h (t, (a : ℤ)) (by simp)).1
        · rcases List.mem_cons.mp h with h | h
          · simp only [Prod.mk.injEq] at h
            exact h.1.le
          · rcases List.mem_cons.mp h with h | h
            · simp only [Prod.mk.injEq] at h
              exact absurd h.2.symm hne
            · have := (w2 _ h).2
              simp only at this
              omega
      have hp : p = a + 1 := by
        obtain ⟨f1, -, -⟩ := hph (a + 1) (by omega)
        rcases List.mem_append.mp f1 with h | h
        · have := (hpw3 _ h (t, (a : ℤ)) (by simp)).2
          push_cast at this
          omega
        · rcases List.mem_cons.mp h with h | h
          · simp only [Prod.mk.injEq] at h
            omega
          · rcases List.mem_cons.mp h with h | h
            · simp only [Prod.mk.injEq] at h
              omega
            · have := (w2 _ h).2
              push_cast at this
              omega
      subst hp
      obtain ⟨f1, -, -⟩ := hph (a + 1) (by omega)
      subst ht
      exact f1
  · exact fun h => Or.inl h

/-- A time that constrains a phase is in the closed interval of the phase. -/
theorem fixed_inPhase (Ts : List ℝ) (hne : Ts ≠ []) (hpos : ∀ T ∈ Ts, 0 < T) (n : ℕ) (hn : 0 < n) (t : ℝ) (p : ℕ)
    (h : Constrained (computeDiscretizedTimeFixed Ts n) t p) : InPhase Ts p t := by
  obtain ⟨hp, b, hb, rfl⟩ := (fixed_constrained Ts hne n hn t p).mp h
  have hn' : (0 : ℝ) < n := by exact_mod_cast hn
  have hD : 0 ≤ Ts.getD p 0 := by
    rw [List.getD_eq_getElem?_getD, List.getElem?_eq_getElem hp]
    exact (hpos _ (List.getElem_mem hp)).le
  have hb' : (b : ℝ) ≤ n := by exact_mod_cast hb
  refine ⟨hp, by have := mul_nonneg b.cast_nonneg (div_nonneg hD hn'.le); linarith, ?_⟩
  rw [take_succ_sum Ts p hp]
  have : (b : ℝ) * (Ts.getD p 0 / n) ≤ n * (Ts.getD p 0 / n) := mul_le_mul_of_nonneg_right hb' (div_nonneg hD hn'.le)
  rw [mul_div_cancel₀ _ hn'.ne'] at this
  linarith

theorem step_inPhase (Ts : List ℝ) (hpos : ∀ T ∈ Ts, 0 < T) (step : ℝ) (hs : 0 < step) (t : ℝ) (p : ℕ)
    (h : Constrained (allSamples step Ts 0 0) t p) : InPhase Ts p t := by
  obtain ⟨hp, h | h⟩ := (step_constrained Ts hpos step hs t p).mp h
  · obtain ⟨k, hk, rfl⟩ := h
    refine ⟨hp, by have := mul_nonneg k.cast_nonneg hs.le; linarith, ?_⟩
    rw [take_succ_sum Ts p hp]
    linarith
  · subst h
    refine ⟨hp, ?_, le_rfl⟩
    rw [take_succ_sum Ts p hp, List.getD_eq_getElem?_getD, List.getElem?_eq_getElem hp]
    have := hpos _ (List.getElem_mem hp)
    simp only [Option.getD_some]
    linarith

end Verif
