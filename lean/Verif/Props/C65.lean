import Verif.Lemmas.QuadShift
import Verif.Lemmas.Factor
import Verif.Props.C39

/-!
# C65, C66: the sparse variant of the QP solver, and a provided inverse
-/

namespace Verif
open Matrix

variable {n : ℕ}

theorem idCols_dot (j : ℕ) (hj : j < n) (v : VecN n) : idCols n j ⬝ᵥ v = v ⟨j, hj⟩ := by
  unfold idCols dotProduct
  simp only [ite_mul, one_mul, zero_mul]
  rw [Finset.sum_eq_single ⟨j, hj⟩]
  · simp
  · intro b _ hb
    rw [if_neg]
    intro h
    exact hb (Fin.ext h)
  · simp

theorem idCols_sum (v : VecN n) : ∑ j ∈ Finset.range n, (idCols n j ⬝ᵥ v) • idCols n j = v := by
  funext i
  rw [Finset.sum_apply, Finset.sum_eq_single i.val]
  · rw [idCols_dot i.val i.isLt]
    simp [idCols]
  · intro b _ hb
    simp [idCols, Ne.symm hb]
  · intro h
    exact absurd (Finset.mem_range.mpr i.isLt) h

theorem factor_id : Factor (1 : Matrix (Fin n) (Fin n) ℝ) (idCols n) := by
  intro v
  rw [idCols_sum, one_mulVec]

/-- The problem whose objective is the distance to `x0`. -/
noncomputable def nearest (P : QP n) (x0 : VecN n) : QP n := { P with G := 1, g := -x0 }

/-- Difference of the first objective values. -/
noncomputable def sparseShift (P : QP n) (x0 : VecN n) : ℝ := 1 / 2 * (P.g ⬝ᵥ x0) - 1 / 2 * ((nearest P x0).g ⬝ᵥ x0)

theorem sparse_eq_dense (maxIter : ℕ) (P : QP n) (x0 : VecN n) (w : Work n) (fuel : ℕ) :
    solveQuadprogSparse 0 maxIter P x0 w fuel
      = (solveQuadprog 0 maxIter (nearest P x0) (idCols n) w fuel).mapOk fun r => (r.1, r.2.sh (sparseShift P x0)) := by
  have h : (QNext.eq 0 (qpInitAt P (idCols n) x0 w))
      = (QNext.eq 0 (qpInit (nearest P x0) (idCols n) w)).sh (sparseShift P x0) := by
    have hx : -∑ j ∈ Finset.range n, (idCols n j ⬝ᵥ (nearest P x0).g) • idCols n j = x0 := by
      rw [idCols_sum]; simp [nearest]
    unfold qpInitAt qpInit
    rw [hx]
    simp only [QNext.sh, QState.sh, sparseShift]
    congr 2
    ring
  unfold solveQuadprogSparse solveQuadprog
  rw [h]
  exact qpRun_sh (P := nearest P x0) (P' := P) rfl rfl (by simp [qpTol]) _ fuel _

theorem nearest_obj (P : QP n) (x0 y : VecN n) :
    2 * qpObj (nearest P x0) y = (y - x0) ⬝ᵥ (y - x0) - x0 ⬝ᵥ x0 := by
  unfold qpObj nearest
  simp only [one_mulVec, sub_dotProduct, dotProduct_sub, neg_dotProduct, dotProduct_comm x0 y]
  ring

/-- C65. In exact arithmetic `solve_quadprog_sparse` returns; OPTIMAL comes with the feasible point that is the nearest to
the unconstrained minimiser `x0`, UNBOUNDED means that there is no feasible point. -/
theorem C65_projection (maxIter : ℕ) (P : QP n) (x0 : VecN n) (w : Work n) (hE : P.CE.length ≤ n) :
    ∃ r s, (∀ fuel, P.CE.length + 2 + maxIter * (n + 3) ≤ fuel → solveQuadprogSparse 0 maxIter P x0 w fuel = .ok (r, s)) ∧
      (r = .optimal → QPFeasible P s.x ∧ ∀ y, QPFeasible P y → (s.x - x0) ⬝ᵥ (s.x - x0) ≤ (y - x0) ⬝ᵥ (y - x0)) ∧
      (r = .unbounded → ∀ y, ¬ QPFeasible P y) ∧
      (r = .redundantEqualities → ∃ i, i < P.CE.length ∧ EqDependent P i) ∧
      (r = .maxIterReached → maxIter ≤ 2 ^ P.CI.length) ∧ r ≠ .infeasible := by
  have hX := exactRun_zero (maxIter := maxIter) (P := nearest P x0) w factor_id hE
  obtain ⟨r, s, h1, h2⟩ := C42_terminates_partial le_rfl (P := nearest P x0) factor_id hE hX
  have h3 := h1 _ le_rfl
  refine ⟨r, s.sh (sparseShift P x0), fun fuel hf => by rw [sparse_eq_dense, h1 fuel hf]; rfl, ?_, ?_, ?_, h2, ?_⟩
  · rintro rfl
    obtain ⟨⟨k1, k2⟩, -, -⟩ := C40_solution_exact_partial (P := nearest P x0) factor_id hE h3
    refine ⟨k1, fun y hy => ?_⟩
    have := k2 y hy
    have e1 := nearest_obj P x0 s.x
    have e2 := nearest_obj P x0 y
    show (s.x - x0) ⬝ᵥ (s.x - x0) ≤ _
    linarith
  · rintro rfl
    exact C41_infeasible_partial le_rfl (P := nearest P x0) factor_id hE hX h3
  · rintro rfl
    exact C44_redundant_partial le_rfl (P := nearest P x0) factor_id hE hX h3
  · rintro rfl
    exact C41_never_infeasible_status_partial le_rfl (P := nearest P x0) factor_id hE hX h3

/-- C65 when the Hessian is the identity: an OPTIMAL answer solves the problem. -/
theorem C65_identity_partial (maxIter : ℕ) (P : QP n) (hG : P.G = 1) (w : Work n) (hE : P.CE.length ≤ n) (fuel : ℕ) (s : QState n)
    (h : solveQuadprogSparse 0 maxIter P (-P.g) w fuel = .ok (.optimal, s)) : QPSolution P s.x ∧ s.f = qpObj P s.x := by
  have hP : nearest P (-P.g) = P := by
    cases P
    simp only [nearest, neg_neg]
    simp only at hG
    rw [hG]
  rw [sparse_eq_dense, hP] at h
  have h0 : sparseShift P (-P.g) = 0 := by simp [sparseShift, hP]
  rw [h0] at h
  cases hd : solveQuadprog 0 maxIter P (idCols n) w fuel with
  | ok r =>
    rw [hd] at h
    have h' := Out.ok.inj h
    obtain ⟨r1, r2⟩ := r
    simp only [Prod.mk.injEq] at h'
    obtain ⟨rfl, rfl⟩ := h'
    obtain ⟨k1, k2, -⟩ := C40_solution_exact_partial (by rw [hG]; exact factor_id) hE hd
    refine ⟨k1, ?_⟩
    simpa using k2
  | throw e => rw [hd] at h; cases h
  | assertFail => rw [hd] at h; cases h
  | ub => rw [hd] at h; cases h
  | diverge => rw [hd] at h; cases h

/-- Minimise `½ (x² + 4 y²)` where `x + y ≥ 1`. -/
def sumProblem : QP 2 := { G := !![1, 0; 0, 4], g := 0, CE := [], CI := [(![1, 1], -1)] }

/-- C65 is false of the code: on `sumProblem`, with the exact unconstrained minimiser 0, the answer is OPTIMAL at a point
which is not the solution. -/
theorem C65_refuted (w : Work 2) : Matrix.PosDef sumProblem.G ∧ sumProblem.G *ᵥ 0 = -sumProblem.g ∧
    ∃ s N, (∀ fuel ≥ N, solveQuadprogSparse 0 1000 sumProblem 0 w fuel = .ok (.optimal, s)) ∧ ¬ QPSolution sumProblem s.x := by
  refine ⟨?_, by simp [sumProblem], ?_⟩
  · apply PosDef.of_dotProduct_mulVec_pos
    · ext i j
      fin_cases i <;> fin_cases j <;> simp [sumProblem]
    · intro x hx
      have : x 0 ≠ 0 ∨ x 1 ≠ 0 := by
        by_contra hc
        push Not at hc
        apply hx
        funext i
        fin_cases i
        · exact hc.1
        · exact hc.2
      simp only [star_trivial, sumProblem, dotProduct, mulVec, Fin.sum_univ_two]
      simp
      rcases this with h | h
      · have := mul_self_pos.mpr h
        nlinarith [mul_self_nonneg (x 1)]
      · have := mul_self_pos.mpr h
        nlinarith [mul_self_nonneg (x 0)]
  · have hfe : ∀ y : VecN 2, QPFeasible sumProblem y ↔ 1 ≤ y 0 + y 1 := by
      intro y
      simp [QPFeasible, EqHolds, sumProblem, dotProduct, Fin.sum_univ_two]
    obtain ⟨r, s, h1, h2, h3, h4, h5, h6⟩ := C65_projection 1000 sumProblem 0 w (by simp [sumProblem])
    cases r with
    | optimal =>
      refine ⟨s, _, h1, fun hs => ?_⟩
      obtain ⟨k1, k2⟩ := h2 rfl
      have k1 := (hfe _).mp k1
      have k2 := k2 ![1 / 2, 1 / 2] ((hfe _).mpr (by norm_num))
      have k3 := hs.2 ![4 / 5, 1 / 5] ((hfe _).mpr (by norm_num))
      simp only [qpObj, sumProblem, dotProduct, mulVec, Fin.sum_univ_two] at k2 k3
      simp at k2 k3
      have e : s.x 0 = s.x 1 := by
        have : (s.x 0 - s.x 1) ^ 2 ≤ 0 := by nlinarith
        have := pow_eq_zero_iff (two_ne_zero) |>.mp (le_antisymm this (sq_nonneg _))
        linarith
      rw [e] at k1 k2 k3
      nlinarith
    | infeasible => exact absurd rfl h6
    | unbounded => exact absurd ((hfe ![1, 1]).mpr (by norm_num)) (h3 rfl _)
    | maxIterReached =>
      have := h5 rfl
      simp [sumProblem] at this
    | redundantEqualities =>
      obtain ⟨i, hi, -⟩ := h4 rfl
      simp [sumProblem] at hi

/-! ## C66 -/

/-- C66, what happens. On an object which knows the sizes of the problem and has a factor in `m_J`, `solve_quadprog` gives the
answer it would give for the opposite linear term, for every epsilon. -/
theorem C66_opposite (chol : Matrix (Fin n) (Fin n) ℝ → ℕ → VecN n) (eps : ℝ) (o : QPObj) (P : QP n) (w : Work n) (fuel : ℕ)
    (hp : o.inverseProvided = true) (h1 : o.nVars = n) (h2 : o.nEq = P.CE.length) (h3 : o.nIneq = P.CI.length) :
    ∃ δ, QPObj.solve chol eps o P w fuel
      = (solveQuadprog eps o.maxIter { P with g := -P.g } (o.cols n) w fuel).mapOk
          fun r => ((r.1, r.2.sh δ), o.after (r.1, r.2.sh δ)) := by
  have hr : o.resized n P.CE.length P.CI.length = o := by
    unfold QPObj.resized
    rw [if_neg]
    simp [h1, h2, h3]
  set J := o.cols n with hJ
  set x := ∑ j ∈ Finset.range n, (J j ⬝ᵥ P.g) • J j with hx
  refine ⟨P.g ⬝ᵥ x, ?_⟩
  have h : (QNext.eq 0 (qpInitAt P J x w)) = (QNext.eq 0 (qpInit { P with g := -P.g } J w)).sh (P.g ⬝ᵥ x) := by
    have hx' : -∑ j ∈ Finset.range n, (J j ⬝ᵥ -P.g) • J j = x := by
      simp [hx]
    unfold qpInitAt qpInit
    simp only [hx']
    simp only [QNext.sh, QState.sh]
    congr 2
    rw [neg_dotProduct]
    ring
  unfold QPObj.solve
  simp only [hr, hp, if_true, ← hJ, ← hx]
  rw [h, qpRun_sh (P := { P with g := -P.g }) (P' := P) rfl rfl rfl]
  unfold solveQuadprog
  cases qpRun eps o.maxIter { P with g := -P.g } J fuel (.eq 0 (qpInit { P with g := -P.g } J w)) <;> rfl

/-- Without constraints the solver returns its first point. -/
theorem qpRun_free (eps : ℝ) (maxIter : ℕ) (hm : 2 ≤ maxIter) (P : QP n) (hE : P.CE = []) (hI : P.CI = []) (J : ℕ → VecN n)
    (x0 : VecN n) (w : Work n) : ∃ s, s.x = x0 ∧ s.J = J ∧ ∀ fuel ≥ 2,
      qpRun eps maxIter P J fuel (.eq 0 (qpInitAt P J x0 w)) = .ok (.optimal, s) := by
  have e1 : qpStep eps maxIter P J (.eq 0 (qpInitAt P J x0 w)) = .ok (.l1 { qpInitAt P J x0 w with iai := fun i => (i : ℤ) }) := by
    simp only [qpStep, stepEq]
    rw [if_neg (by simp [hE])]
  have e2 : ∃ s : QState n, s.x = x0 ∧ s.J = J ∧ qpStep eps maxIter P J (.l1 { qpInitAt P J x0 w with iai := fun i => (i : ℤ) })
      = .ok (.ret .optimal s) := by
    simp only [qpStep, stepL1]
    rw [if_neg (by simp [qpInitAt, qpInit]; omega), if_pos ⟨by simp [qpInitAt, qpInit], fun i _ h => by simp [qpInitAt, qpInit] at h⟩,
      if_pos (by simp [hI, qpTol])]
    exact ⟨_, rfl, rfl, rfl⟩
  obtain ⟨s, s1, s2, e2⟩ := e2
  refine ⟨s, s1, s2, fun fuel hf => ?_⟩
  obtain ⟨k, rfl⟩ : ∃ k, fuel = k + 2 := ⟨fuel - 2, by omega⟩
  simp only [qpRun, e1, Out.ok_bind, e2]

/-- C66 is false of the code, in a session: an object solves a problem without constraints, the factor it has computed is
declared as provided, and the same problem is solved again. The second answer is the opposite of the first, which is the
solution. -/
theorem C66_refuted_sign (chol : Matrix (Fin n) (Fin n) ℝ → ℕ → VecN n) (eps : ℝ) (P : QP n) (hE : P.CE = []) (hI : P.CI = [])
    (hF : Factor P.G (chol P.G)) (hg : P.g ≠ 0) (w w' : Work n) :
    ∃ s o s' o', (∀ fuel ≥ 2, QPObj.solve chol eps .new P w fuel = .ok ((.optimal, s), o)) ∧
      (∀ fuel ≥ 2, QPObj.solve chol eps { o with inverseProvided := true } P w' fuel = .ok ((.optimal, s'), o')) ∧
      P.G *ᵥ s.x = -P.g ∧ s'.x = -s.x ∧ s'.x ≠ s.x := by
  set J := chol P.G with hJ
  set v := ∑ j ∈ Finset.range n, (J j ⬝ᵥ P.g) • J j with hv
  obtain ⟨s, s1, s2, hs⟩ := qpRun_free eps 1000 (by norm_num) P hE hI J (-v) w
  set o1 := QPObj.new.resized n P.CE.length P.CI.length with ho1
  have hn1 : o1.inverseProvided = false ∧ o1.maxIter = 1000 := by
    rw [ho1]; unfold QPObj.resized; split_ifs <;> exact ⟨rfl, rfl⟩
  have hn2 : o1.nVars = n ∧ o1.nEq = P.CE.length ∧ o1.nIneq = P.CI.length := by
    rw [ho1]; unfold QPObj.resized
    split_ifs with h
    · exact ⟨rfl, rfl, rfl⟩
    · push Not at h
      exact ⟨h.1.symm, h.2.1.symm, h.2.2.symm⟩
  set o2 : QPObj := { o1.after (.optimal, s) with inverseProvided := true } with ho2
  have hr2 : o2.resized n P.CE.length P.CI.length = o2 := by
    unfold QPObj.resized
    rw [if_neg]
    push Not
    exact ⟨hn2.1.symm, hn2.2.1.symm, hn2.2.2.symm⟩
  have hc2 : o2.cols n = J := by
    funext j i
    simp only [QPObj.cols, ho2, QPObj.after, i.isLt, dif_pos, Fin.eta, s2]
  obtain ⟨s', s1', -, hs'⟩ := qpRun_free eps 1000 (by norm_num) P hE hI J v w'
  refine ⟨s, o1.after (.optimal, s), s', o2.after (.optimal, s'), fun fuel hf => ?_, fun fuel hf => ?_, ?_, ?_, ?_⟩
  · unfold QPObj.solve
    rw [← ho1]
    simp only [hn1.1, hn1.2]
    have : solveQuadprog eps 1000 P (chol P.G) w fuel = .ok (.optimal, s) := by
      rw [← hs fuel hf, ← hJ]
      rfl
    rw [if_neg (by simp), this]
    rfl
  · have hm2 : o2.maxIter = 1000 := hn1.2
    have hp2 : o2.inverseProvided = true := rfl
    show QPObj.solve chol eps o2 P w' fuel = _
    unfold QPObj.solve
    rw [hr2]
    simp only [hp2, if_true, hc2, hm2]
    rw [← hv, hs' fuel hf]
    rfl
  · rw [s1, mulVec_neg, hv, hF]
  · rw [s1, s1', neg_neg]
  · intro h
    rw [s1, s1'] at h
    apply hg
    have h0 : v = 0 := by
      funext i
      have := congrFun h i
      simp only [Pi.neg_apply] at this
      simp only [Pi.zero_apply]
      linarith
    rw [← hF P.g, ← hv, h0, mulVec_zero]

/-- C66 is false of the code, on an object that has not seen the sizes of the problem: `reset` erases the factor. Without
equalities the answer is then 0 if 0 is feasible, whatever the objective, and otherwise UNBOUNDED, which stands for an
infeasible problem. -/
theorem C66_erased (chol : Matrix (Fin n) (Fin n) ℝ → ℕ → VecN n) (eps : ℝ) (he : 0 ≤ eps) (o : QPObj) (P : QP n) (w : Work n)
    (hp : o.inverseProvided = true) (hm : 2 ≤ o.maxIter) (hE : P.CE = [])
    (hs : n ≠ o.nVars ∨ P.CE.length ≠ o.nEq ∨ P.CI.length ≠ o.nIneq) :
    ∃ r s o', (∀ fuel ≥ 4, QPObj.solve chol eps o P w fuel = .ok ((r, s), o')) ∧ s.x = 0 ∧
      r = (open Classical in if QPFeasible P 0 then .optimal else .unbounded) := by
  have hr : o.resized n P.CE.length P.CI.length
      = { o with nVars := n, nEq := P.CE.length, nIneq := P.CI.length, mJ := fun _ _ => 0 } := if_pos hs
  set J : ℕ → VecN n := fun _ _ => 0 with hJ
  have hJ0 : ∀ j, J j = 0 := fun j => rfl
  have hx0 : ∑ j ∈ Finset.range n, (J j ⬝ᵥ P.g) • J j = 0 := by simp [hJ0]
  have hEl : P.CE.length = 0 := by simp [hE]
  have htol : qpTol eps P J = 0 := by simp [qpTol, hJ0]
  have hfe : QPFeasible P 0 ↔ violation P 0 = 0 := by
    constructor
    · rintro ⟨-, h⟩
      unfold violation
      refine List.sum_eq_zero fun x hx => ?_
      obtain ⟨e, he', rfl⟩ := List.mem_map.mp hx
      exact max_eq_left (by linarith [h e he'])
    · intro h
      exact ⟨fun e he' => (by rw [hE] at he'; cases he'), feasible_of_violation h.le⟩
  suffices hrun : ∃ r s, (∀ fuel ≥ 4, qpRun eps o.maxIter P J fuel (.eq 0 (qpInitAt P J 0 w)) = .ok (r, s)) ∧ s.x = 0 ∧
      r = (open Classical in if QPFeasible P 0 then .optimal else .unbounded) by
    obtain ⟨r, s, h1, h2, h3⟩ := hrun
    refine ⟨r, s, QPObj.after { o with nVars := n, nEq := P.CE.length, nIneq := P.CI.length, mJ := fun _ _ => 0 } (r, s), fun fuel hf => ?_, h2, h3⟩
    unfold QPObj.solve
    rw [hr]
    simp only [hp, if_true]
    show (qpRun eps o.maxIter P J fuel (.eq 0 (qpInitAt P J (∑ j ∈ Finset.range n, (J j ⬝ᵥ P.g) • J j) w)) >>= _) = _
    rw [hx0, h1 fuel hf, Out.ok_bind]
    simp [QPObj.after, hp]
  set s0 := qpInitAt P J 0 w with hs0
  have e1 : qpStep eps o.maxIter P J (.eq 0 s0) = .ok (.l1 { s0 with iai := fun i => (i : ℤ) }) := by
    simp only [qpStep, stepEq]
    rw [if_neg (by simp [hE])]
  by_cases hF : QPFeasible P 0
  · have e2 : ∃ s : QState n, s.x = 0 ∧ qpStep eps o.maxIter P J (.l1 { s0 with iai := fun i => (i : ℤ) })
        = .ok (.ret .optimal s) := by
      simp only [qpStep, stepL1]
      rw [if_neg (by simp [hs0, qpInitAt, qpInit]; omega), if_pos ⟨by simp [hs0, qpInitAt, qpInit], fun i _ h => by simp [hs0, qpInitAt, qpInit] at h⟩,
        if_pos]
      · exact ⟨_, rfl, rfl⟩
      · have : s0.x = 0 := rfl
        rw [this, psi_eq, hfe.mp hF, htol]
        simp
    obtain ⟨s, s1, e2⟩ := e2
    refine ⟨.optimal, s, fun fuel hf => ?_, s1, by rw [if_pos hF]⟩
    obtain ⟨k, rfl⟩ : ∃ k, fuel = k + 2 := ⟨fuel - 2, by omega⟩
    simp only [qpRun, e1, Out.ok_bind, e2]
  · have hv : 0 < violation P 0 := lt_of_le_of_ne (violation_nonneg P 0) fun h => hF (hfe.mpr h.symm)
    obtain ⟨i, hi, hneg⟩ : ∃ i < P.CI.length, P.slack 0 i < 0 := by
      by_contra hc
      push Not at hc
      have := psi_eq P 0
      rw [Finset.sum_eq_zero fun i hi => min_eq_left (hc i (Finset.mem_range.mp hi))] at this
      linarith
    have e2 : ∃ s : QState n, s.x = 0 ∧ s.iq = 0 ∧ s.J = J ∧ s.s = P.slack 0 ∧ s.ss = 0 ∧ s.ip = 0 ∧ (∀ i, s.iaexcl i = true) ∧ (∀ i, s.iai i ≠ -1) ∧
        qpStep eps o.maxIter P J (.l1 { s0 with iai := fun i => (i : ℤ) }) = .ok (.l2 s) := by
      simp only [qpStep, stepL1]
      rw [if_neg (by simp [hs0, qpInitAt, qpInit]; omega), if_pos ⟨by simp [hs0, qpInitAt, qpInit], fun i _ h => by simp [hs0, qpInitAt, qpInit] at h⟩,
        if_neg]
      · refine ⟨_, rfl, rfl, rfl, rfl, rfl, rfl, fun _ => rfl, fun i => ?_, rfl⟩
        simp [markActive, hs0, qpInitAt, qpInit]
      · have : s0.x = 0 := rfl
        rw [this, psi_eq, htol, abs_neg, abs_of_pos hv]
        exact not_le.mpr hv
    obtain ⟨s, s1, s2, s3, s4, s5, s6, s7, s8, e2⟩ := e2
    have e3 : ∃ s' : QState n, s'.x = 0 ∧ s'.iq = 0 ∧ s'.J = J ∧ s'.ip < P.CI.length ∧ qpStep eps o.maxIter P J (.l2 s) = .ok (.l2a s') := by
      obtain ⟨c1, c2, c3⟩ := chooseViolated_spec s.s s.iai s.iaexcl (List.range P.CI.length) (s.ss, s.ip)
      have c4 := c2 i (List.mem_range.mpr hi) (s8 i) (s7 i)
      rw [s4] at c4
      simp only [qpStep, stepL2]
      have hlt : (chooseViolated s.s s.iai s.iaexcl (List.range P.CI.length) (s.ss, s.ip)).1 < 0 := by rw [s4]; linarith
      have hip : (chooseViolated s.s s.iai s.iaexcl (List.range P.CI.length) (s.ss, s.ip)).2 < P.CI.length := by
        rcases c3 with c3 | ⟨j, hj, c3, -⟩
        · rw [c3, s5] at hlt
          exact absurd hlt (lt_irrefl _)
        · rw [c3]
          exact List.mem_range.mp hj
      have hc : (chooseViolated s.s s.iai s.iaexcl (List.range P.CI.length) (s.ss, s.ip)).2 < P.CI.length ∧
          s.iq < P.CE.length + P.CI.length := ⟨hip, by rw [s2]; omega⟩
      rw [if_neg (not_le.mpr hlt), if_pos hc]
      refine ⟨_, ?_, ?_, ?_, ?_, rfl⟩
      · exact s1
      · exact s2
      · exact s3
      · exact hip
    obtain ⟨s', t1, t2, t3, t4, e3⟩ := e3
    have e4 : qpStep eps o.maxIter P J (.l2a s') = .ok (.ret .unbounded s') := by
      simp only [qpStep, stepL2a]
      rw [if_pos ⟨by omega, by omega, t4⟩]
      have hz : ∀ d, updateZ s'.J d s'.iq = 0 := by
        intro d
        unfold updateZ
        rw [t3]
        simp [hJ0]
      simp only [hz]
      rw [if_neg (by simpa using he)]
      rw [t2]
      simp [partialLen]
    refine ⟨.unbounded, s', fun fuel hf => ?_, t1, by rw [if_neg hF]⟩
    obtain ⟨k, rfl⟩ : ∃ k, fuel = k + 4 := ⟨fuel - 4, by omega⟩
    simp only [qpRun, e1, Out.ok_bind, e2, e3, e4]

end Verif
