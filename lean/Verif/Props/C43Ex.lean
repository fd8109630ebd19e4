import Verif.Props.C39Ref

/-! A problem meeting the hypotheses of the theorems on the QP solver: minimise `½ x²` subject to `x ≥ 1` and
`2 x ≥ 1`, and the same with the equality `x = 2`. -/

namespace Verif
open Matrix

/-- Minimise `½ x²` subject to `x ≥ 1` and `2 x ≥ 1`. -/
def smallQP : QP 1 := { G := 1, g := 0, CE := [], CI := [(fun _ => 1, -1), (fun _ => 2, -1)] }

theorem small_factor : Factor (1 : Matrix (Fin 1) (Fin 1) ℝ) (fun _ _ => 1) := by
  intro v
  funext i
  fin_cases i
  simp [dotProduct]

theorem small_conditioned : Conditioned dblEps 1 4 smallQP (fun _ _ => 1) := by
  refine ⟨by norm_num [dblEps], by norm_num, fun v => by simp [smallQP], by simp [smallQP], ?_, by norm_num [dblEps]⟩
  intro e he
  simp only [smallQP, List.mem_cons, List.not_mem_nil, or_false] at he
  rcases he with rfl | rfl <;> norm_num [jj, dotProduct]

theorem small_separated : Separated dblEps smallQP := by
  refine ⟨1, ⟨by norm_num, fun v => by simp [smallQP]⟩, ?_⟩
  intro v hv m N hN
  have hm : ∀ v ∈ smallQP.normals, v = (fun _ => 1) ∨ v = fun _ => 2 := by
    intro v hv
    simpa [QP.normals, smallQP] using hv
  rcases Nat.eq_zero_or_pos m with rfl | hpos
  · right
    intro c
    rcases hm v hv with rfl | rfl <;> norm_num [dotProduct, dblEps]
  · left
    refine ⟨fun k => if k = 0 then v 0 / N 0 0 else 0, ?_⟩
    rw [Finset.sum_eq_single 0 (by intro k _ hk; simp [hk]) (by simp; omega)]
    funext i
    fin_cases i
    rcases hm v hv with rfl | rfl <;> rcases hm (N 0) (hN 0 hpos) with h | h <;> norm_num [h]

/-- The solver answers OPTIMAL with the objective of the solution `x = 1`, up to the tolerance. -/
example (w : Work 1) : ∃ s, solveQuadprog dblEps 1000 smallQP (fun _ _ => 1) w 5000 = .ok (.optimal, s) ∧
    qpObj smallQP s.x ≤ 1 / 2 ∧ violation smallQP s.x ≤ max 0 (qpTol dblEps smallQP fun _ _ => 1) := by
  obtain ⟨r, s, h1, h2⟩ := C40_separated_partial w small_factor (by simp [smallQP]) small_conditioned small_separated
    (maxIter := 1000) (by simp [smallQP])
  have hf : QPFeasible smallQP (fun _ => 1) := by
    refine ⟨by simp [EqHolds, smallQP], fun e he => ?_⟩
    simp only [smallQP, List.mem_cons, List.not_mem_nil, or_false] at he
    rcases he with rfl | rfl <;> norm_num [dotProduct]
  rcases h2 with ⟨rfl, _, h3, _, h4⟩ | ⟨_, h3⟩ | ⟨_, i, hi, _⟩
  · refine ⟨s, h1 _ (by simp [smallQP]), (h4 _ hf).trans ?_, h3⟩
    simp [qpObj, smallQP, dotProduct]
  · exact absurd hf (h3 _)
  · simp [smallQP] at hi

/-- With the equality `x = 2` as well. -/
def smallEq : QP 1 := { smallQP with CE := [(fun _ => 1, -2)] }

theorem smallEq_sep : EqSep dblEps smallEq := by
  refine ⟨1, ⟨by norm_num, fun v => by simp [smallEq, smallQP]⟩, ?_⟩
  intro i hi c
  have : i = 0 := by simpa [smallEq] using hi
  subst this
  norm_num [eqRest, smallEq, dotProduct, dblEps]

theorem smallEq_conditioned : Conditioned dblEps 1 4 smallEq (fun _ _ => 1) := by
  obtain ⟨a, b, c, d, e, f⟩ := small_conditioned
  refine ⟨a, b, c, ?_, e, f⟩
  intro e he
  simp only [smallEq, List.mem_cons, List.not_mem_nil, or_false] at he
  subst he
  norm_num [jj, dotProduct]

/-- Every answer is OPTIMAL-and-equality-satisfying or not OPTIMAL; it is never REDUNDANT_EQUALITIES. -/
example (w : Work 1) (fuel : ℕ) (s : QState 1) :
    solveQuadprog dblEps 1000 smallEq (fun _ _ => 1) w fuel ≠ .ok (.redundantEqualities, s) := fun h =>
  (C44_redundant_conditioned_partial small_factor smallEq_conditioned (by simp [smallEq]) h).2 smallEq_sep

end Verif
