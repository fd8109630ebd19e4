import Verif.TimeProofs

/-!
# C16, C17 — time discretisation
-/

namespace Verif

/-- C16. For every positive step and every vector of phase durations the documented precondition
admits (each phase holds at least two steps), `computeDiscretizedTime` terminates and returns
samples that
* start at time 0 in phase 0 and end exactly at the total duration in the last phase,
* are sorted (time and phase),
* stay inside `[0, total]` and inside the phase indices,
* contain the start and the end of every phase `j`, tagged `j`, and nothing tagged `j` outside it,
* never skip more than one step. -/
theorem C16_discretized_time (Ts : List ℝ) (step : ℝ) (hs : 0 < step)
    (h : ∀ T ∈ Ts, step * 2 ≤ T) :
    ∃ N, ∀ fuel ≥ N, ∃ l, computeDiscretizedTime Ts step fuel = .ok l ∧
      (Ts ≠ [] → l.head? = some (0, 0) ∧ l.getLast? = some (Ts.sum, (Ts.length : ℤ) - 1)) ∧
      l.Pairwise (fun a b => a.1 ≤ b.1 ∧ a.2 ≤ b.2) ∧
      (∀ q ∈ l, 0 ≤ q.1 ∧ q.1 ≤ Ts.sum ∧ 0 ≤ q.2 ∧ q.2 < Ts.length) ∧
      (∀ j < Ts.length, ((Ts.take j).sum, (j : ℤ)) ∈ l ∧ ((Ts.take (j + 1)).sum, (j : ℤ)) ∈ l ∧
        ∀ q ∈ l, q.2 = j → (Ts.take j).sum ≤ q.1 ∧ q.1 ≤ (Ts.take (j + 1)).sum) ∧
      l.IsChain (fun a b => b.1 ≤ a.1 + step) := by
  obtain ⟨N, hN⟩ := discFor_eq step hs Ts h
  have hpos : ∀ T ∈ Ts, 0 < T := fun T hT => by have := h T hT; linarith
  have hnn : ∀ T ∈ Ts, 0 ≤ T := fun T hT => (hpos T hT).le
  refine ⟨N, fun fuel hf => ⟨allSamples step Ts 0 0, ?_, ?_, allSamples_pairwise step hs Ts hnn 0 0,
    ?_, ?_, allSamples_gap step hs Ts hpos 0 0⟩⟩
  · rw [computeDiscretizedTime, hN fuel hf]; simp
  · intro hne
    constructor
    · obtain ⟨T, Ts', rfl⟩ := List.exists_cons_of_ne_nil hne
      exact allSamples_head step 0 T Ts' 0 hs (hpos T List.mem_cons_self)
    · rw [allSamples_last step Ts hne]; simp
  · intro q hq
    simpa using allSamples_bounds step hs Ts hnn 0 0 q hq
  · intro j hj
    simpa using allSamples_phase step hs Ts hpos 0 0 j hj

/-- Non-vacuity of C16: two phases. -/
example : (0 : ℝ) < 1 / 4 ∧ ∀ T ∈ [1, (3 : ℝ) / 5], (1 / 4 : ℝ) * 2 ≤ T := by
  norm_num

/-- C16, the precondition is checked: a phase too short for two steps makes the call stop on its
assertion, whatever the other phases. -/
theorem C16_short_phase (Ts : List ℝ) (step : ℝ) (hs : 0 < step) (h : ∃ T ∈ Ts, T < step * 2) :
    ∃ N, ∀ fuel ≥ N, computeDiscretizedTime Ts step fuel = .assertFail := by
  suffices H : ∃ N, ∀ fuel ≥ N, ∀ (i : ℤ) (start : ℝ) (acc : TTime),
      discFor step fuel Ts i start acc = .assertFail by
    obtain ⟨N, hN⟩ := H
    exact ⟨N, fun fuel hf => hN fuel hf 0 0 []⟩
  induction Ts with
  | nil => simp at h
  | cons T Ts ih =>
    by_cases hT : step * 2 ≤ T
    · obtain ⟨N, hN⟩ := ih (by
        obtain ⟨T', hT', hlt⟩ := h
        rcases List.mem_cons.mp hT' with rfl | h'
        · linarith
        · exact ⟨T', h', hlt⟩)
      refine ⟨max N (⌈T / step⌉₊ + 1), fun fuel hf i start acc => ?_⟩
      obtain ⟨c1, c2⟩ := ceil_props step T hs
      rw [discFor, if_pos hT, discWhile_eq step (start + T) i ⌈T / step⌉₊ fuel start acc
        (le_trans (le_max_right _ _) hf) (fun k hk => by have := c1 k hk; linarith) (by linarith)]
      rw [Out.ok_bind, hN fuel (le_trans (le_max_left _ _) hf)]
    · exact ⟨0, fun fuel _ i start acc => by rw [discFor, if_neg hT]⟩

/-- C16, why the step must be positive: with a zero or negative step the call never returns as soon
as the first phase has a positive duration. -/
theorem C16_nonpositive_step (T : ℝ) (Ts : List ℝ) (step : ℝ) (hs : step ≤ 0) (hT : 0 < T)
    (fuel : ℕ) : computeDiscretizedTime (T :: Ts) step fuel = .diverge := by
  have H : ∀ (fuel : ℕ) (t : ℝ) (acc : TTime), t < T → discWhile step T 0 fuel t acc = .diverge := by
    intro fuel
    induction fuel with
    | zero => intro t acc _; rfl
    | succ f ih =>
      intro t acc ht
      rw [discWhile, if_pos ht]
      exact ih _ _ (by linarith)
  rw [computeDiscretizedTime, discFor, if_pos (by linarith), zero_add, H fuel 0 [] hT]
  rfl

/-- C17. With `n ≥ 1` points per phase and at least one phase, `computeDiscretizedTimeFixed` returns
`phases * n + 1` samples: the first is time 0 in phase 0, the last is the total duration in the last
phase, and sample number `a * n + b + 1` is at `b + 1` times a `n`-th of phase `a` after the start
of phase `a`, tagged `a`. -/
theorem C17_fixed_discretization (Ts : List ℝ) (n : ℕ) (hn : 0 < n) (hne : Ts ≠ []) :
    (computeDiscretizedTimeFixed Ts n).length = Ts.length * n + 1 ∧
    (computeDiscretizedTimeFixed Ts n)[0]? = some (0, 0) ∧
    (computeDiscretizedTimeFixed Ts n).getLast? = some (Ts.sum, (Ts.length : ℤ) - 1) ∧
    ∀ a b : ℕ, a < Ts.length → b < n →
      (computeDiscretizedTimeFixed Ts n)[a * n + b + 1]?
        = some ((Ts.take a).sum + (b + 1) * (Ts.getD a 0 / n), (a : ℤ)) := by
  have hL : 0 < Ts.length := List.length_pos_iff.mpr hne
  have hlen := fixedOuter_length n Ts 0 0
  have hLn : 0 < Ts.length * n := Nat.mul_pos hL hn
  have hn' : (n : ℝ) ≠ 0 := by exact_mod_cast hn.ne'
  refine ⟨?_, ?_, ?_, ?_⟩
  · simp [computeDiscretizedTimeFixed, hlen]
  · rw [computeDiscretizedTimeFixed, List.getElem?_append_left (by simp [hlen, hLn]),
      List.getElem?_dropLast]
    simp [hlen, hLn.ne', hL, hn]
    all_goals omega
  · simp [computeDiscretizedTimeFixed]
  · intro a b ha hb
    have key := fixedOuter_get n hn Ts 0 0 a b ha hb
    have hlt : a * n + b < Ts.length * n := by
      have : (a + 1) * n ≤ Ts.length * n := Nat.mul_le_mul_right n ha
      have e : (a + 1) * n = a * n + n := by ring
      omega
    rw [computeDiscretizedTimeFixed]
    by_cases hlast : a * n + b + 1 = Ts.length * n
    · rw [List.getElem?_append_right (by simp [hlen, hlast])]
      have hidx : a * n + b + 1 - ((((0 : ℝ), (0 : ℤ)) :: fixedOuter n Ts 0 0).dropLast).length = 0 := by
        simp [hlen, hlast]
      rw [hidx]
      have hb' : b + 1 = n ∧ a + 1 = Ts.length := by
        have h1 : (a + 1) * n ≤ Ts.length * n := Nat.mul_le_mul_right n ha
        have e : (a + 1) * n = a * n + n := by ring
        have hb1 : b + 1 = n := by omega
        refine ⟨hb1, ?_⟩
        have : (a + 1) * n = Ts.length * n := by omega
        exact Nat.eq_of_mul_eq_mul_right hn this
      obtain ⟨hb1, ha1⟩ := hb'
      have ebn : ((b : ℝ) + 1) = n := by exact_mod_cast hb1
      have e1 : (n : ℝ) * (Ts.getD a 0 / n) = Ts.getD a 0 := by field_simp
      have e2 : Ts.sum = (Ts.take a).sum + Ts.getD a 0 := by
        have hs := List.sum_take_succ Ts a ha
        rw [ha1, List.take_length] at hs
        rw [hs]
        simp [List.getD, ha]
      simp only [List.getElem?_cons_zero, ebn, e1, e2]
      congr 2
      omega
    · rw [List.getElem?_append_left (by simp [hlen]; omega), List.getElem?_dropLast]
      simp only [List.length_cons, hlen]
      rw [if_pos (by omega), List.getElem?_cons_succ, key]
      simp

/-- Non-vacuity of C17. -/
example : (computeDiscretizedTimeFixed [2, 3] 2)[3]? = some ((7 : ℝ) / 2, 1) := by
  have := (C17_fixed_discretization [2, 3] 2 (by norm_num) (by simp)).2.2.2 1 0 (by simp) (by norm_num)
  simp at this
  rw [this]
  norm_num

end Verif
