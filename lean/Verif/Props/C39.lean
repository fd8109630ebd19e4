import Verif.Lemmas.QuadRun

/-!
# C39–C42, C44: answers of the QP solver

The theorems hold for every `eps ≥ 0`, provided every threshold test of the run is exact (`ExactRun`). In
exact arithmetic, `eps = 0`, every run is exact (`exactRun_zero`).
-/

namespace Verif
open Matrix

variable {n : ℕ}

/-- C39. An OPTIMAL answer satisfies the equalities, and the inequalities up to a total violation of
`nIneqCon * eps * c1 * c2 * 100`. -/
theorem C39_feasible_partial {eps : ℝ} (heps : 0 ≤ eps) {maxIter : ℕ} {P : QP n} {J0 : ℕ → VecN n} {w : Work n}
    (hF : Factor P.G J0) (hE : P.CE.length ≤ n) (hX : ExactRun eps maxIter P J0 w) {fuel : ℕ} {s : QState n}
    (h : solveQuadprog eps maxIter P J0 w fuel = .ok (.optimal, s)) :
    EqHolds P s.x ∧ violation P s.x ≤ max 0 (qpTol eps P J0) := by
  obtain ⟨h1, h2, h3, _⟩ := solveQuadprog_sound heps hF hE hX h
  exact ⟨h1.eqHolds, h3⟩

/-- Without violation all inequalities hold. -/
theorem feasible_of_violation {P : QP n} {x : VecN n} (h : violation P x ≤ 0) : ∀ e ∈ P.CI, 0 ≤ e.1 ⬝ᵥ x + e.2 := by
  unfold violation at h
  intro e he
  have hnn : ∀ a ∈ P.CI.map (fun e => max 0 (-(e.1 ⬝ᵥ x + e.2))), 0 ≤ a := by
    intro a ha
    obtain ⟨e, _, rfl⟩ := List.mem_map.mp ha
    exact le_max_left _ _
  have h1 := List.single_le_sum hnn _ (List.mem_map.mpr ⟨e, he, rfl⟩)
  have := le_max_right 0 (-(e.1 ⬝ᵥ x + e.2))
  linarith

/-- C39, exact arithmetic: an OPTIMAL answer is feasible. -/
theorem C39_feasible_exact_partial {maxIter : ℕ} {P : QP n} {J0 : ℕ → VecN n} {w : Work n} (hF : Factor P.G J0)
    (hE : P.CE.length ≤ n) {fuel : ℕ} {s : QState n}
    (h : solveQuadprog 0 maxIter P J0 w fuel = .ok (.optimal, s)) : QPFeasible P s.x := by
  obtain ⟨h1, h2⟩ := C39_feasible_partial le_rfl hF hE (exactRun_zero w hF hE) h
  refine ⟨h1, feasible_of_violation (h2.trans (le_of_eq ?_))⟩
  simp [qpTol]

/-- C40. No feasible point has a lower objective than an OPTIMAL answer, and `getObjValue` is the objective
there. -/
theorem C40_optimal_partial {eps : ℝ} (heps : 0 ≤ eps) {maxIter : ℕ} {P : QP n} {J0 : ℕ → VecN n} {w : Work n}
    (hF : Factor P.G J0) (hE : P.CE.length ≤ n) (hX : ExactRun eps maxIter P J0 w) {fuel : ℕ} {s : QState n}
    (h : solveQuadprog eps maxIter P J0 w fuel = .ok (.optimal, s)) :
    (∀ y, QPFeasible P y → qpObj P s.x ≤ qpObj P y) ∧ s.f = qpObj P s.x := by
  obtain ⟨h1, h2, _, _⟩ := solveQuadprog_sound heps hF hE hX h
  exact ⟨fun y hy => h1.optimal h2 hy, h1.obj⟩

/-- C40, exact arithmetic: an OPTIMAL answer solves the problem, and is the only solution. -/
theorem C40_solution_exact_partial {maxIter : ℕ} {P : QP n} {J0 : ℕ → VecN n} {w : Work n} (hF : Factor P.G J0)
    (hE : P.CE.length ≤ n) {fuel : ℕ} {s : QState n}
    (h : solveQuadprog 0 maxIter P J0 w fuel = .ok (.optimal, s)) :
    QPSolution P s.x ∧ s.f = qpObj P s.x ∧ ∀ y, QPSolution P y → y = s.x := by
  have h1 := C40_optimal_partial le_rfl hF hE (exactRun_zero w hF hE) h
  have h2 := C39_feasible_exact_partial hF hE h
  refine ⟨⟨h2, h1.1⟩, h1.2, fun y hy => ?_⟩
  -- the middle point would be better
  by_contra hne
  have hv : y - s.x ≠ 0 := sub_ne_zero.mpr hne
  have hpos : 0 < (y - s.x) ⬝ᵥ P.G *ᵥ (y - s.x) := by
    rcases (hF.nonneg (y - s.x)).lt_or_eq with hlt | heq
    · exact hlt
    · exfalso
      rw [hF.quad] at heq
      have := (Finset.sum_eq_zero_iff_of_nonneg fun j _ => sq_nonneg (J0 j ⬝ᵥ P.G *ᵥ (y - s.x))).mp heq.symm
      apply hv
      rw [← hF.left (y - s.x)]
      unfold jj
      apply Finset.sum_eq_zero
      intro j hj
      have := this j hj
      rw [pow_eq_zero_iff (by norm_num)] at this
      rw [this, zero_smul]
  have hmid : QPFeasible P (s.x + (1 / 2 : ℝ) • (y - s.x)) := by
    refine ⟨fun e he => ?_, fun e he => ?_⟩
    · have a := h2.1 e he
      have b := hy.1.1 e he
      rw [dotProduct_add, dotProduct_smul, dotProduct_sub, smul_eq_mul]
      linarith
    · have a := h2.2 e he
      have b := hy.1.2 e he
      rw [dotProduct_add, dotProduct_smul, dotProduct_sub, smul_eq_mul]
      linarith
  have e1 := h1.1 _ hmid
  have e2 := hy.2 _ h2
  rw [qpObj_add hF] at e1
  have e3 := qpObj_add hF s.x (y - s.x)
  rw [add_sub_cancel] at e3
  rw [Matrix.mulVec_smul] at e1
  simp only [dotProduct_smul, smul_dotProduct, smul_eq_mul] at e1
  nlinarith

/-- C41. When the answer is UNBOUNDED no point satisfies the constraints. -/
theorem C41_infeasible_partial {eps : ℝ} (heps : 0 ≤ eps) {maxIter : ℕ} {P : QP n} {J0 : ℕ → VecN n} {w : Work n}
    (hF : Factor P.G J0) (hE : P.CE.length ≤ n) (hX : ExactRun eps maxIter P J0 w) {fuel : ℕ} {s : QState n}
    (h : solveQuadprog eps maxIter P J0 w fuel = .ok (.unbounded, s)) : ∀ y, ¬ QPFeasible P y :=
  solveQuadprog_sound heps hF hE hX h

/-- The status INFEASIBLE is never returned by an exact run. -/
theorem C41_never_infeasible_status_partial {eps : ℝ} (heps : 0 ≤ eps) {maxIter : ℕ} {P : QP n} {J0 : ℕ → VecN n}
    {w : Work n} (hF : Factor P.G J0) (hE : P.CE.length ≤ n) (hX : ExactRun eps maxIter P J0 w) {fuel : ℕ}
    {s : QState n} : solveQuadprog eps maxIter P J0 w fuel ≠ .ok (.infeasible, s) := fun h =>
  solveQuadprog_sound heps hF hE hX h

/-- C42, C43. The solver returns within `nEqCon + 2 + maxIter (n + 3)` passes through its labels, without
any access outside its arrays; it returns MAX_ITER_REACHED only if the limit is at most `2 ^ nIneqCon`. -/
theorem C42_terminates_partial {eps : ℝ} (heps : 0 ≤ eps) {maxIter : ℕ} {P : QP n} {J0 : ℕ → VecN n} {w : Work n}
    (hF : Factor P.G J0) (hE : P.CE.length ≤ n) (hX : ExactRun eps maxIter P J0 w) :
    ∃ r s, (∀ fuel, P.CE.length + 2 + maxIter * (n + 3) ≤ fuel →
        solveQuadprog eps maxIter P J0 w fuel = .ok (r, s)) ∧
      (r = .maxIterReached → maxIter ≤ 2 ^ P.CI.length) := by
  obtain ⟨r, s, h1, h2⟩ := solveQuadprog_ok heps hF hE hX
  refine ⟨r, s, h1, ?_⟩
  rintro rfl
  exact h2

/-- C44. REDUNDANT_EQUALITIES means that some equality normal is a combination of the ones before it. -/
theorem C44_redundant_partial {eps : ℝ} (heps : 0 ≤ eps) {maxIter : ℕ} {P : QP n} {J0 : ℕ → VecN n} {w : Work n}
    (hF : Factor P.G J0) (hE : P.CE.length ≤ n) (hX : ExactRun eps maxIter P J0 w) {fuel : ℕ} {s : QState n}
    (h : solveQuadprog eps maxIter P J0 w fuel = .ok (.redundantEqualities, s)) :
    ∃ i, i < P.CE.length ∧ EqDependent P i :=
  solveQuadprog_sound heps hF hE hX h

theorem Factors.independent {G : Matrix (Fin n) (Fin n) ℝ} {J : ℕ → VecN n} {R : ℕ → ℕ → ℝ} {N : ℕ → VecN n}
    {iq : ℕ} (h : Factors G J R N iq) {i : ℕ} (hi : i < iq) (c : ℕ → ℝ) : N i ≠ ∑ k ∈ Finset.range i, c k • N k := by
  intro he
  have hle := h.le
  have h1 : J i ⬝ᵥ N i = R i i := (h.tri i hi).1 i le_rfl (by omega)
  rw [he, dotProduct_sum, Finset.sum_eq_zero] at h1
  · exact (h.tri i hi).2.2 h1.symm
  · intro k hk
    have hk := Finset.mem_range.mp hk
    rw [dotProduct_smul, (h.tri k (by omega)).2.1 i hk (by omega), smul_zero]

/-- C44, conversely: an OPTIMAL answer is only given when no equality normal is a combination of the ones
before it. -/
theorem C44_independent_partial {eps : ℝ} (heps : 0 ≤ eps) {maxIter : ℕ} {P : QP n} {J0 : ℕ → VecN n} {w : Work n}
    (hF : Factor P.G J0) (hE : P.CE.length ≤ n) (hX : ExactRun eps maxIter P J0 w) {fuel : ℕ} {s : QState n}
    (h : solveQuadprog eps maxIter P J0 w fuel = .ok (.optimal, s)) : ∀ i, i < P.CE.length → ¬ EqDependent P i := by
  obtain ⟨h1, _, _, _⟩ := solveQuadprog_sound heps hF hE hX h
  rintro i hi ⟨c, hc⟩
  apply h1.fac.independent (lt_of_lt_of_le hi h1.ne_le) c
  rw [nrm, h1.eqs i hi, conOf_neg, hc]
  apply Finset.sum_congr rfl
  intro k hk
  rw [nrm, h1.eqs k ((Finset.mem_range.mp hk).trans hi), conOf_neg]

/-- Total correctness in exact arithmetic: with an iteration limit above `2 ^ nIneqCon` the solver returns,
and it answers OPTIMAL with the solution, UNBOUNDED for an infeasible problem, or REDUNDANT_EQUALITIES for
dependent equalities. -/
theorem C40_total_partial {maxIter : ℕ} {P : QP n} {J0 : ℕ → VecN n} (w : Work n) (hF : Factor P.G J0)
    (hE : P.CE.length ≤ n) (hm : 2 ^ P.CI.length < maxIter) :
    ∃ r s, (∀ fuel, P.CE.length + 2 + maxIter * (n + 3) ≤ fuel →
        solveQuadprog 0 maxIter P J0 w fuel = .ok (r, s)) ∧
      ((r = .optimal ∧ QPSolution P s.x ∧ s.f = qpObj P s.x) ∨ (r = .unbounded ∧ ∀ y, ¬ QPFeasible P y) ∨
        (r = .redundantEqualities ∧ ∃ i, i < P.CE.length ∧ EqDependent P i)) := by
  obtain ⟨r, s, h1, h2⟩ := solveQuadprog_ok le_rfl hF hE (exactRun_zero (maxIter := maxIter) w hF hE)
  refine ⟨r, s, h1, ?_⟩
  have h3 := h1 _ le_rfl
  cases r with
  | optimal =>
    obtain ⟨a, b, _⟩ := C40_solution_exact_partial hF hE h3
    exact Or.inl ⟨rfl, a, b⟩
  | infeasible => exact h2.elim
  | unbounded => exact Or.inr (Or.inl ⟨rfl, h2⟩)
  | maxIterReached =>
    have h2 : maxIter ≤ 2 ^ P.CI.length := h2
    omega
  | redundantEqualities => exact Or.inr (Or.inr ⟨rfl, h2⟩)

/-- The multipliers of an OPTIMAL answer: the gradient of the objective is the combination of the normals
in the active set with the first `q` entries of `getLagrangeMultipliers`; those of inequalities are not
negative, and every constraint in the active set holds with equality. -/
theorem C59_multipliers_partial {eps : ℝ} (heps : 0 ≤ eps) {maxIter : ℕ} {P : QP n} {J0 : ℕ → VecN n} {w : Work n}
    (hF : Factor P.G J0) (hE : P.CE.length ≤ n) (hX : ExactRun eps maxIter P J0 w) {fuel : ℕ} {s : QState n}
    (h : solveQuadprog eps maxIter P J0 w fuel = .ok (.optimal, s)) :
    P.CE.length ≤ s.iq ∧ s.iq ≤ n ∧ (∀ k, k < P.CE.length → s.A k = -(k : ℤ) - 1) ∧
      (∀ k, P.CE.length ≤ k → k < s.iq → ∃ i, s.A k = (i : ℕ) ∧ i < P.CI.length ∧ P.slack s.x i = 0 ∧ 0 ≤ s.u k) ∧
      P.G *ᵥ s.x + P.g = ∑ k ∈ Finset.range s.iq,
        s.u k • (if k < P.CE.length then (P.CE.getD k (0, 0)).1 else (P.row (s.A k).toNat).1) := by
  obtain ⟨h1, h2, _, _⟩ := solveQuadprog_sound heps hF hE hX h
  refine ⟨h1.ne_le, h1.fac.le, h1.eqs, ?_, ?_⟩
  · intro k k1 k2
    obtain ⟨r1, r2⟩ := h1.rng k k1 k2
    refine ⟨(s.A k).toNat, by omega, by omega, ?_, h1.pos k k1 k2⟩
    rw [← h1.con_ineq k1 k2]; exact h1.act k k2
  · rw [h2]
    apply Finset.sum_congr rfl
    intro k hk
    have hk := Finset.mem_range.mp hk
    congr 1
    by_cases hne : k < P.CE.length
    · rw [if_pos hne, nrm, h1.eqs k hne, conOf_neg]
    · rw [if_neg hne, nrm]
      obtain ⟨i, hi⟩ := Int.eq_ofNat_of_zero_le (h1.rng k (not_lt.mp hne) hk).1
      rw [hi, conOf_nat]; rfl

end Verif
