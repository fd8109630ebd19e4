import Verif.Lemmas.Normalize

/-!
# C15 — row normalisation preserves the feasible set
-/

namespace Verif
open Matrix

/-- `x` satisfies all the inequalities `a · x ≤ b` of a list of rows. -/
def RowsHold {n : ℕ} (rows : List ((Fin n → ℝ) × ℝ)) (x : Fin n → ℝ) : Prop :=
  ∀ r ∈ rows, r.1 ⬝ᵥ x ≤ r.2

/-- C15. `Normalize` keeps the number of rows and the set of solutions, whatever it returns. -/
theorem C15_feasible_set {n : ℕ} (rows : List ((Fin n → ℝ) × ℝ)) :
    (Normalize rows).1.length = rows.length ∧
      ∀ x, RowsHold (Normalize rows).1 x ↔ RowsHold rows x := by
  obtain ⟨hp, hcase⟩ := removeZeroRows_spec rows
  have hperm : ∀ x, RowsHold (removeZeroRows rows).1 x ↔ RowsHold rows x := fun x =>
    ⟨fun h r hr => h r (hp.mem_iff.mpr hr), fun h r hr => h r (hp.mem_iff.mp hr)⟩
  rw [Normalize]
  generalize hq : removeZeroRows rows = q at *
  obtain ⟨l, o⟩ := q
  cases o with
  | none => exact ⟨hp.length_eq, hperm⟩
  | some k =>
    rcases hcase with ⟨k', hk', hle, hnz, hz⟩ | ⟨h, -⟩
    · cases hk'
      dsimp only at *
      refine ⟨?_, fun x => ?_⟩
      · rw [List.length_append, List.length_map, ← List.length_append, List.take_append_drop]
        exact hp.length_eq
      · rw [← hperm x]
        constructor
        · intro h r hr
          rw [← List.take_append_drop k l, List.mem_append] at hr
          rcases hr with hr | hr
          · have := h _ (List.mem_append_left _ (List.mem_map_of_mem hr))
            exact (row_div_le _ _ _ _ (eNorm_pos (hnz r hr))).mp this
          · exact h r (List.mem_append_right _ hr)
        · intro h r hr
          rw [List.mem_append, List.mem_map] at hr
          rcases hr with ⟨q, hq, rfl⟩ | hr
          · exact (row_div_le _ _ _ _ (eNorm_pos (hnz q hq))).mpr (h q (List.mem_of_mem_take hq))
          · exact h r (List.mem_of_mem_drop hr)
    · cases h

/-- C15. A count `k` means: the first `k` rows have unit norm, the others are trivially true
(zero row, nonnegative bound). -/
theorem C15_count {n : ℕ} (rows : List ((Fin n → ℝ) × ℝ)) (k : ℕ)
    (h : (Normalize rows).2 = some k) :
    k ≤ rows.length ∧ (∀ r ∈ (Normalize rows).1.take k, eNorm r.1 = 1) ∧
      ∀ r ∈ (Normalize rows).1.drop k, r.1 = 0 ∧ 0 ≤ r.2 := by
  obtain ⟨hp, hcase⟩ := removeZeroRows_spec rows
  rw [Normalize] at h ⊢
  generalize hq : removeZeroRows rows = q at *
  obtain ⟨l, o⟩ := q
  cases o with
  | none => cases h
  | some k₀ =>
    cases h
    rcases hcase with ⟨k', hk', hle, hnz, hz⟩ | ⟨h, -⟩
    · cases hk'
      dsimp only at *
      have hlen : (List.map (fun r : (Fin n → ℝ) × ℝ => ((fun j => r.1 j / eNorm r.1), r.2 / eNorm r.1))
          (l.take k)).length = k := by
        rw [List.length_map, List.length_take, min_eq_left]
        rw [hp.length_eq]; exact hle
      refine ⟨hle, ?_, ?_⟩
      · rw [List.take_left' hlen]
        intro r hr
        obtain ⟨q, hq, rfl⟩ := List.mem_map.mp hr
        exact eNorm_normalized (hnz q hq)
      · rw [List.drop_left' hlen]
        exact hz
    · cases h

/-- C15. The answer -1 is given exactly for systems containing an inequality `0 ≤ b` with `b < 0`,
which no point satisfies. -/
theorem C15_minus_one {n : ℕ} (rows : List ((Fin n → ℝ) × ℝ)) :
    ((Normalize rows).2 = none ↔ ∃ r ∈ rows, r.1 = 0 ∧ r.2 < 0) ∧
    ((Normalize rows).2 = none → ∀ x, ¬ RowsHold rows x) := by
  have hiff : (Normalize rows).2 = none ↔ ∃ r ∈ rows, r.1 = 0 ∧ r.2 < 0 := by
    obtain ⟨hp, hcase⟩ := removeZeroRows_spec rows
    rw [Normalize]
    generalize hq : removeZeroRows rows = q at *
    obtain ⟨l, o⟩ := q
    cases o with
    | none =>
      rcases hcase with ⟨k', hk', -⟩ | ⟨-, h⟩
      · cases hk'
      · exact ⟨fun _ => h, fun _ => rfl⟩
    | some k =>
      rcases hcase with ⟨k', hk', hle, hnz, hz⟩ | ⟨h, -⟩
      · cases hk'
        dsimp only at *
        refine ⟨fun h => (by cases h), ?_⟩
        rintro ⟨r, hr, h0, hb⟩
        have hr' := hp.mem_iff.mpr hr
        rw [← List.take_append_drop k l, List.mem_append] at hr'
        rcases hr' with h1 | h1
        · exact absurd h0 (hnz r h1)
        · exact absurd hb (not_lt.mpr (hz r h1).2)
      · cases h
  refine ⟨hiff, fun h x hx => ?_⟩
  obtain ⟨r, hr, h0, hb⟩ := hiff.mp h
  have := hx r hr
  rw [h0, zero_dotProduct] at this
  linarith

/-- Non-vacuity: a system with a zero row is reduced to its single non-trivial row. -/
example : (Normalize [(![0, 0], (1 : ℝ)), (![3, 4], 10)]).2 = some 1 := by
  simp [Normalize, removeZeroRows, rzLoop, swapAt, zrow,
    not_lt.mpr (zero_le_one (α := ℝ))]

end Verif
