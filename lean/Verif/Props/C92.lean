import Verif.Model.Dispatch
import Verif.Props.C09

/-!
# C92: number of free variables
-/

namespace Verif

/-- Bit `k` of a flag, as `Flag.has`. -/
theorem has_twoPow (f : Flag) (k : ℕ) (hk : k < 32) : f.has (BitVec.twoPow 32 k) = f.getLsbD k := by
  unfold Flag.has
  rw [BitVec.and_twoPow]
  cases f.getLsbD k with
  | false => simp
  | true =>
    simp only [if_true, bne_iff_ne, ne_eq]
    intro h
    have := congrArg (fun b : BitVec 32 => b.getLsbD k) h
    simp [BitVec.getLsbD_twoPow, hk] at this

/-- C92: for each of the 2^32 values of the flags, `dimVar` is three times the largest of 5, 4, 3, 2 whose bit (11, 10,
9, 8) is set, and 3 when none is set. -/
theorem C92_all_flags (f : Flag) :
    (f.getLsbD 11 = true → 3 * dimVarPts f = 15) ∧
    (f.getLsbD 11 = false → f.getLsbD 10 = true → 3 * dimVarPts f = 12) ∧
    (f.getLsbD 11 = false → f.getLsbD 10 = false → f.getLsbD 9 = true → 3 * dimVarPts f = 9) ∧
    (f.getLsbD 11 = false → f.getLsbD 10 = false → f.getLsbD 9 = false → f.getLsbD 8 = true → 3 * dimVarPts f = 6) ∧
    (f.getLsbD 11 = false → f.getLsbD 10 = false → f.getLsbD 9 = false → f.getLsbD 8 = false →
      3 * dimVarPts f = 3) := by
  have h2 : f.has TWO_FREE_VAR = f.getLsbD 8 := has_twoPow f 8 (by norm_num)
  have h3 : f.has THREE_FREE_VAR = f.getLsbD 9 := has_twoPow f 9 (by norm_num)
  have h4 : f.has FOUR_FREE_VAR = f.getLsbD 10 := has_twoPow f 10 (by norm_num)
  have h5 : f.has FIVE_FREE_VAR = f.getLsbD 11 := has_twoPow f 11 (by norm_num)
  unfold dimVarPts
  rw [h2, h3, h4, h5]
  refine ⟨?_, ?_, ?_, ?_, ?_⟩ <;> intros <;> simp_all

/-- C92: for the sets of constraints of the library this is the dimension of the unknown: one point for the seven sets
of the centre of mass (the set with a free end has it twice), all the free control points for the sets with jerks. -/
theorem C92_sets (f : Flag) :
    (f ∈ comFlags → dimVarPts f = 1) ∧ (f ∈ effFlags → dimVarPts f = (freeSlots f).length) := by
  constructor
  · intro h
    simp only [comFlags, List.mem_cons, List.not_mem_nil, or_false] at h
    rcases h with h | h | h | h | h | h | h <;> subst h <;> decide
  · intro h
    simp only [effFlags, List.mem_cons, List.not_mem_nil, or_false] at h
    rcases h with h | h | h <;> subst h <;> decide

/-- Flags outside the sets of the library. -/
example : dimVarPts 0x0F00#32 = 5 ∧ dimVarPts 0x0700#32 = 4 ∧ dimVarPts 0x0100#32 = 2 := by decide

end Verif
