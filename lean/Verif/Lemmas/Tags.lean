import Verif.Lemmas.OneStepSem
import Verif.Props.C16

/-!
# The time arrays produced by the two discretisations
-/

namespace Verif

theorem TagsFrom.congr {N : ℕ} : ∀ {l l' : TTime} {p : ℕ}, TagsFrom N p l →
    l'.map (·.2) = l.map (·.2) → TagsFrom N p l' := by
  intro l
  induction l with
  | nil => intro l' p h; exact h.elim
  | cons q l ih =>
    intro l' p h he
    cases l' with
    | nil => simp at he
    | cons q' l' =>
      simp only [List.map_cons, List.cons.injEq] at he
      cases l with
      | nil =>
        cases l' with
        | nil => exact ⟨by rw [he.1]; exact h.1, h.2⟩
        | cons a b => simp at he
      | cons a b =>
        cases l' with
        | nil => simp at he
        | cons a' b' =>
          refine ⟨by rw [he.1]; exact h.1, ?_⟩
          rcases h.2 with h2 | h2
          · exact Or.inl (ih h2 he.2)
          · exact Or.inr (ih h2 he.2)

theorem TagsFrom.single {N p : ℕ} (hp : p + 1 = N) : ∀ {l : TTime}, l ≠ [] → (∀ q ∈ l, q.2 = p) →
    TagsFrom N p l := by
  intro l
  induction l with
  | nil => intro h; exact absurd rfl h
  | cons q l ih =>
    intro _ h
    cases l with
    | nil => exact ⟨h q List.mem_cons_self, hp⟩
    | cons a b => exact ⟨h q List.mem_cons_self,
        Or.inl (ih (by simp) fun q hq => h q (List.mem_cons_of_mem _ hq))⟩

theorem TagsFrom.append {N p : ℕ} {l' : TTime} (h' : TagsFrom N (p + 1) l') : ∀ {l : TTime}, l ≠ [] →
    (∀ q ∈ l, q.2 = p) → TagsFrom N p (l ++ l') := by
  intro l
  induction l with
  | nil => intro h; exact absurd rfl h
  | cons q l ih =>
    intro _ h
    cases l with
    | nil =>
      cases l' with
      | nil => exact h'.elim
      | cons a b => exact ⟨h q List.mem_cons_self, Or.inr h'⟩
    | cons a b => exact ⟨h q List.mem_cons_self,
        Or.inl (ih (by simp) fun q hq => h q (List.mem_cons_of_mem _ hq))⟩

theorem allSamples_tags (step : ℝ) (hs : 0 < step) (Ts : List ℝ) : Ts ≠ [] → (∀ T ∈ Ts, 0 ≤ T) →
    ∀ (p : ℕ) (start : ℝ), TagsFrom (p + Ts.length) p (allSamples step Ts p start) := by
  induction Ts with
  | nil => intro h; exact absurd rfl h
  | cons T Ts ih =>
    intro _ h p start
    have hT := h T List.mem_cons_self
    have hb := fun q hq => (phaseSamples_bounds step start T p hs hT q hq).2.2
    rw [allSamples]
    cases Ts with
    | nil =>
      rw [allSamples, List.append_nil]
      exact TagsFrom.single (by simp) (phaseSamples_ne _ _ _ _) hb
    | cons T' Ts' =>
      have := ih (by simp) (fun T hT => h T (List.mem_cons_of_mem _ hT)) (p + 1) (start + T)
      refine TagsFrom.append ?_ (phaseSamples_ne _ _ _ _) hb
      push_cast at this
      have e : p + (T :: T' :: Ts').length = p + 1 + (T' :: Ts').length := by
        simp only [List.length_cons]; omega
      rw [e]
      exact this

theorem fixedOuter_tags (n : ℕ) (hn : 0 < n) (Ts : List ℝ) : Ts ≠ [] →
    ∀ (p : ℕ) (t : ℝ), TagsFrom (p + Ts.length) p (fixedOuter n Ts p t) := by
  induction Ts with
  | nil => intro h; exact absurd rfl h
  | cons T Ts ih =>
    intro _ p t
    rw [fixedOuter, fixedInner_eq]
    have hne : (List.range n).map (fun j : ℕ => (t + ((j : ℝ) + 1) * (T / n), (p : ℤ))) ≠ [] := by
      simp; omega
    have hb : ∀ q ∈ (List.range n).map (fun j : ℕ => (t + ((j : ℝ) + 1) * (T / n), (p : ℤ))), q.2 = p := by
      intro q hq
      obtain ⟨j, -, rfl⟩ := List.mem_map.mp hq
      rfl
    cases Ts with
    | nil =>
      rw [fixedOuter, List.append_nil]
      exact TagsFrom.single (by simp) hne hb
    | cons T' Ts' =>
      have := ih (by simp) (p + 1) (t + n * (T / n))
      push_cast at this
      have e : p + (T :: T' :: Ts').length = p + 1 + (T' :: Ts').length := by
        simp only [List.length_cons]; omega
      rw [e]
      exact TagsFrom.append this hne hb

theorem fixed_tags (n : ℕ) (hn : 0 < n) (Ts : List ℝ) (hne : Ts ≠ []) :
    TagsFrom Ts.length 0 (computeDiscretizedTimeFixed Ts n) := by
  have h0 := fixedOuter_tags n hn Ts hne 0 0
  rw [zero_add] at h0
  have h1 : TagsFrom Ts.length 0 ((0, 0) :: fixedOuter n Ts 0 0) := by
    have := h0.ne
    cases hf : fixedOuter n Ts (0 : ℕ) 0 with
    | nil => exact absurd hf this
    | cons a b =>
      rw [hf] at h0
      exact ⟨rfl, Or.inl h0⟩
  refine h1.congr ?_
  have hlen := fixedOuter_length n Ts 0 0
  have hL : 0 < Ts.length := List.length_pos_iff.mpr hne
  have key := fixedOuter_get n hn Ts 0 0 (Ts.length - 1) (n - 1) (by omega) (by omega)
  have hidx : (Ts.length - 1) * n + (n - 1) = Ts.length * n - 1 := by
    obtain ⟨m, hm⟩ : ∃ m, Ts.length = m + 1 := ⟨Ts.length - 1, by omega⟩
    rw [hm]
    simp only [Nat.add_sub_cancel]
    have : (m + 1) * n = m * n + n := by ring
    omega
  have hLn : 0 < Ts.length * n := Nat.mul_pos hL hn
  have hlast : ((((0 : ℝ), (0 : ℤ)) :: fixedOuter n Ts 0 0).map (·.2)).getLast? = some ((Ts.length : ℤ) - 1) := by
    rw [List.getLast?_eq_getElem?]
    simp only [List.length_map, List.length_cons, hlen, Nat.add_sub_cancel, List.getElem?_map]
    obtain ⟨m, hm⟩ : ∃ m, Ts.length * n = m + 1 := ⟨Ts.length * n - 1, by omega⟩
    rw [hm, List.getElem?_cons_succ]
    rw [hidx, hm, Nat.add_sub_cancel] at key
    rw [key]
    simp
    omega
  rw [computeDiscretizedTimeFixed]
  simp only [List.map_append, List.map_dropLast, List.map_cons (l := []), List.map_nil]
  exact List.dropLast_append_getLast? _ hlast

theorem fixedOuter_le (n : ℕ) (Ts : List ℝ) : (∀ T ∈ Ts, 0 ≤ T) → ∀ (i : ℤ) (t : ℝ),
    ∀ q ∈ fixedOuter n Ts i t, t ≤ q.1 ∧ q.1 ≤ t + Ts.sum := by
  induction Ts with
  | nil => intro _ i t q hq; simp [fixedOuter] at hq
  | cons T Ts ih =>
    intro h i t q hq
    have hT := h T List.mem_cons_self
    have hTs : ∀ T ∈ Ts, 0 ≤ T := fun T hT => h T (List.mem_cons_of_mem _ hT)
    have hsum := List.sum_nonneg hTs
    rw [fixedOuter, fixedInner_eq, List.mem_append] at hq
    rw [List.sum_cons]
    rcases hq with hq | hq
    · obtain ⟨j, hj, rfl⟩ := List.mem_map.mp hq
      have hj' := List.mem_range.mp hj
      have hn : (0 : ℝ) < n := by exact_mod_cast (by omega : 0 < n)
      have h1 : ((j : ℝ) + 1) ≤ n := by exact_mod_cast hj'
      have h2 : ((j : ℝ) + 1) * (T / n) ≤ T := by
        rw [mul_div_assoc', div_le_iff₀ hn, mul_comm]
        exact mul_le_mul_of_nonneg_left h1 hT
      have h3 : 0 ≤ ((j : ℝ) + 1) * (T / n) := by positivity
      constructor <;> dsimp only <;> linarith
    · obtain ⟨h1, h2⟩ := ih hTs _ _ q hq
      have : (n : ℝ) * (T / n) = T ∨ n = 0 := by
        by_cases hn : n = 0
        · exact Or.inr hn
        · left; field_simp
      rcases this with e | e
      · dsimp only at h1 h2; rw [e] at h1 h2; constructor <;> linarith
      · subst e; simp at h1 h2; constructor <;> linarith

theorem fixed_le (n : ℕ) (Ts : List ℝ) (h : ∀ T ∈ Ts, 0 ≤ T) :
    ∀ q ∈ computeDiscretizedTimeFixed Ts n, 0 ≤ q.1 ∧ q.1 ≤ Ts.sum := by
  intro q hq
  have hsum := List.sum_nonneg h
  rw [computeDiscretizedTimeFixed, List.mem_append, List.mem_singleton] at hq
  rcases hq with hq | rfl
  · have := List.mem_of_mem_dropLast hq
    rcases List.mem_cons.mp this with rfl | hm
    · exact ⟨le_rfl, hsum⟩
    · simpa using fixedOuter_le n Ts h 0 0 q hm
  · exact ⟨hsum, le_rfl⟩

theorem discWhile_mono (step c : ℝ) (i : ℤ) : ∀ (fuel : ℕ) (t : ℝ) (acc l : TTime),
    discWhile step c i fuel t acc = .ok l → ∀ fuel' ≥ fuel, discWhile step c i fuel' t acc = .ok l := by
  intro fuel
  induction fuel with
  | zero => intro t acc l h; simp [discWhile] at h
  | succ f ih =>
    intro t acc l h fuel' hf
    obtain ⟨f', rfl⟩ : ∃ f', fuel' = f' + 1 := ⟨fuel' - 1, by omega⟩
    rw [discWhile] at h ⊢
    split_ifs at h ⊢
    · exact ih _ _ _ h f' (by omega)
    · exact h

theorem discFor_mono (step : ℝ) (Ts : List ℝ) : ∀ (fuel : ℕ) (i : ℤ) (t : ℝ) (acc l : TTime),
    discFor step fuel Ts i t acc = .ok l →
      (∀ T ∈ Ts, step * 2 ≤ T) ∧ ∀ fuel' ≥ fuel, discFor step fuel' Ts i t acc = .ok l := by
  induction Ts with
  | nil => intro fuel i t acc l h; exact ⟨by simp, fun _ _ => h⟩
  | cons T Ts ih =>
    intro fuel i t acc l h
    rw [discFor] at h
    split_ifs at h with hc
    obtain ⟨a, h1, h2⟩ := Out.bind_eq_ok.mp h
    obtain ⟨h3, h4⟩ := ih _ _ _ _ _ h2
    refine ⟨fun T' hT' => ?_, fun fuel' hf => ?_⟩
    · rcases List.mem_cons.mp hT' with rfl | hT'
      · exact hc
      · exact h3 T' hT'
    · rw [discFor, if_pos hc, discWhile_mono _ _ _ _ _ _ _ h1 fuel' hf, Out.ok_bind]
      exact h4 fuel' hf

/-- A successful call of `computeDiscretizedTime` returns the samples, whatever the fuel. -/
theorem disc_eq (Ts : List ℝ) (step : ℝ) (hs : 0 < step) (fuel : ℕ) (l : TTime)
    (h : computeDiscretizedTime Ts step fuel = .ok l) :
    (∀ T ∈ Ts, step * 2 ≤ T) ∧ l = allSamples step Ts 0 0 := by
  obtain ⟨h1, h2⟩ := discFor_mono step Ts fuel 0 0 [] l h
  refine ⟨h1, ?_⟩
  obtain ⟨N, hN⟩ := discFor_eq step hs Ts h1
  have a1 := h2 (max N fuel) (le_max_right _ _)
  rw [hN _ (le_max_left _ _)] at a1
  cases a1
  simp

end Verif
