import Verif.Props.C90
import Verif.Props.C75
import Verif.Props.C76

/-!
# C93: the zero step planner and the end effector planner with a solver that rounds
-/

namespace Verif

open Arith

/-! ## What follows the solver -/

/-- What `solver.x`, `solver.success_` of a run with rounding are for the planners. -/
noncomputable def fpResult {n : ℕ} (r : QPStatus) (s : FState ℝ n) : ResultData :=
  { success := r = .optimal, cost := if r = .optimal then s.f else -1, x := List.ofFn s.x }

theorem fpResult_success {n : ℕ} (r : QPStatus) (s : FState ℝ n) : (fpResult r s).success = true ↔ r = .optimal :=
  decide_eq_true_iff

/-- The end of `solveEndEffector`, for every answer of the solver. -/
theorem endEffectorResult_total (flag : Flag) (hf : flag ∈ effFlags) (d : BC) (T : ℝ) (hT : 0 < T) {pi : List V3}
    (hpi : computeConstantWaypoints flag d T = .ok pi) (q : ResultData) (hlen : q.x.length = 3 * dimVarPts flag) :
    ∃ r, endEffectorResult flag d T q = .ok r ∧ r.success = q.success ∧
      (r.success = true → r.c_of_t.T = T ∧ r.c_of_t.eval = curve (degreeOf flag) (fillMany flag (nth pi) (pointsOf (unk q.x))) T ∧
        MeetsBoundary flag d r.c_of_t.eval T) ∧ (r.success = false → r = ResultDataCOMTraj.default) := by
  unfold endEffectorResult
  cases hq : q.success with
  | false => exact ⟨_, rfl, rfl, fun h => (by cases h), fun _ => rfl⟩
  | true =>
    obtain ⟨cu, hcu⟩ := C50_curve_exists flag hf d T hT q.x hlen
    rw [if_pos rfl, hcu, Out.ok_bind]
    refine ⟨_, rfl, rfl, fun _ => ?_, fun h => (by cases h)⟩
    obtain ⟨-, -, t1, pi', e1, t2, t3⟩ := C50_curve flag hf d T q.x cu hcu
    rw [hpi] at e1
    cases e1
    exact ⟨t1, t2, t3⟩

/-- The end of `solve0step`, for every answer of the solver. -/
theorem zeroStepResult_total (pData : ProblemData) (T : ℝ) (hT : 0 < T) (q : ResultData)
    (hlen : q.x.length = if pData.useAngularMomentum then 6 else 3) :
    ∃ r, zeroStepResult pData T q = .ok r ∧ r.success = q.success ∧
      (r.success = true → r.x = q.x ∧ r.c_of_t.T = T ∧
        r.c_of_t.eval = stopCurve pData.bc.c0 pData.bc.dc0 (first3 (unk q.x)) T ∧
        MomentumRate pData.useAngularMomentum pData.l0 (last3 (unk q.x)) T r.dL_of_t.eval) ∧
      (r.success = false → r = ResultDataCOMTraj.default) := by
  unfold zeroStepResult
  cases hq : q.success with
  | false => exact ⟨_, rfl, rfl, fun h => (by cases h), fun _ => rfl⟩
  | true =>
    have h3 : 3 ≤ q.x.length := by rw [hlen]; split_ifs <;> norm_num
    have hmk : ∀ p ps mult, mkBezier (p :: ps) T mult = .ok ⟨p :: ps, T, mult⟩ := by
      intro p ps mult
      unfold mkBezier
      rw [if_neg]
      rintro (h | h)
      · simp at h
      · linarith
    have hcur : ∀ x, (⟨[pData.bc.c0, fun k => pData.bc.dc0 k * T / 3 + pData.bc.c0 k, x, x], T, 1⟩ : Bezier).eval =
        stopCurve pData.bc.c0 pData.bc.dc0 x T := by
      intro x
      funext t
      simp only [Bezier.eval, one_smul, List.length_cons, List.length_nil, stopCurve, curve]
      congr 2
      funext i
      have : (fun k => pData.bc.dc0 k * T / 3 + pData.bc.c0 k) = pData.bc.c0 + (T / 3) • pData.bc.dc0 := by
        funext k; simp; ring
      rw [this]
    rw [if_pos rfl]
    unfold computeRealCost zeroStepCurve computedL_of_T head3 tail3
    by_cases ha : pData.useAngularMomentum = true
    · simp only [if_pos ha, if_pos h3, Out.pure_eq, Out.ok_bind, hmk]
      refine ⟨_, rfl, rfl, fun _ => ⟨rfl, rfl, hcur _, ?_⟩, fun h => (by cases h)⟩
      unfold MomentumRate
      rw [if_pos ha]
      have := curve_isDeriv 2 (fun i => [pData.l0, last3 (unk q.x), 0, 0].getD i 0) T
      refine (congrArg (IsDeriv _) ?_).mpr this
      funext t
      simp only [Bezier.eval, List.length_cons, List.length_nil, curve]
      rw [← bez_smul]
      apply bez_congr
      intro i hi
      have h6 : q.x.length = 6 := by rw [hlen, if_pos ha]
      interval_cases i <;> funext k <;> simp [hodo, last3, unk, h6] <;> ring
    · have h33 : q.x.length = 3 := by rw [hlen, if_neg ha]
      simp only [if_neg ha, if_pos h33, if_pos h3, Out.pure_eq, Out.ok_bind, hmk]
      refine ⟨_, rfl, rfl, fun _ => ⟨rfl, rfl, hcur _, ?_⟩, fun h => (by cases h)⟩
      unfold MomentumRate
      rw [if_neg ha]
      funext t
      simp [Bezier.zero, Bezier.eval, bez]

/-! ## The end effector planner -/

/-- C93, `solveEndEffector`: the constraints are passed to the solver with rounding, every row known up to `ρ`. -/
theorem C93_end_effector (flag : Flag) (hf : flag ∈ effFlags) (d : BC) (path : ℝ → V3) (T w : ℝ) (hT : 0 < T) (h0 : 0 ≤ w) (h1 : w ≤ 1) :
    ∃ pi A b c, computeConstantWaypoints flag d T = .ok pi ∧ computeEndEffectorConstraints flag d T pi = .ok (A, b) ∧
      computeEndEffectorCost flag d path T w pi = .ok c ∧ A.cols = 3 * dimVarPts flag ∧
      ∀ (o : Arith ℝ (3 * dimVarPts flag)) (m : ℕ) (u g : ℝ) (_ : o.Rounded m u g) (maxIter : ℕ) (P : FQP ℝ (3 * dimVarPts flag))
        (_ : P.CI.length ≤ m) (J0 : ℕ → Fin (3 * dimVarPts flag) → ℝ) (x0 : Fin (3 * dimVarPts flag) → ℝ)
        (wk : FWork ℝ (3 * dimVarPts flag)) (ν σ β B X ρ : ℝ) (_ : o.ScaledFp u g maxIter P J0 ν σ β B) (_ : 0 ≤ X)
        (_ : ∀ q, o.Reach maxIter P J0 (.eq 0 (o.init P J0 x0 wk)) q → ∑ k, (st q).x k ^ 2 ≤ X ^ 2) (_ : 0 ≤ ρ) (_ : GivenRows P A b ρ),
      ∃ r s, (∀ fuel ≥ P.CE.length + 2 + maxIter * (3 * dimVarPts flag + 3), o.solve maxIter P J0 x0 wk fuel = .ok (r, s)) ∧
        ∃ res, endEffectorResult flag d T (fpResult r s) = .ok res ∧ (res.success = true ↔ r = .optimal) ∧
          (res.success = true → ∃ Y, res.c_of_t.T = T ∧ res.c_of_t.eval = curve (degreeOf flag) (fillMany flag (nth pi) Y) T ∧
            MeetsBoundary flag d res.c_of_t.eval T ∧
            EndOkTol flag d T pi (fpTol o u g maxIter P J0 ν σ β B X + ρ * (X + 1)) Y) ∧
          (res.success = false → res = ResultDataCOMTraj.default) := by
  obtain ⟨pi, hpi, hl⟩ := effPts flag hf d T
  obtain ⟨A, b, hA, hc, hb, hb1, -⟩ := endOk_iff flag hf d T pi hl
  obtain ⟨A', b', hA', -, hS, -⟩ := end_system flag hf d T pi hl
  rw [hA] at hA'
  cases hA'
  obtain ⟨c, hcost, hpos, -⟩ := endCost_pos flag hf d path T w hT h0 h1 pi hl
  refine ⟨pi, A, b, c, hpi, hA, hcost, hc, ?_⟩
  intro o m u g ho maxIter P hm J0 x0 wk ν σ β B X ρ hC hX hx hρ hP
  obtain ⟨r, s, hrun, hxs, hsat⟩ := optimal_rows o ho maxIter P hm J0 x0 wk hC hX hx hρ hP
  refine ⟨r, s, hrun, ?_⟩
  obtain ⟨res, hres, hss, hgood, hbad⟩ := endEffectorResult_total flag hf d T hT hpi (fpResult r s) (by simp [fpResult])
  have hiff : res.success = true ↔ r = .optimal := by rw [hss]; exact fpResult_success r s
  refine ⟨res, hres, hiff, fun hrs => ?_, hbad⟩
  obtain ⟨t1, t2, t3⟩ := hgood hrs
  refine ⟨_, t1, t2, t3, hS _ _ ?_⟩
  show SatTol A b _ (unk (List.ofFn s.x))
  rw [unk_ofFn]
  exact hsat (hiff.mp hrs)

/-! ## The zero step planner -/

theorem zeroScale_exists (ct : ContactData) (e : Equilibrium) (c0 dc0 : V3) (T : ℝ) : ∃ R, ZeroScale ct e c0 dc0 T R := by
  have key : ∀ l : List V3, ∃ R, ∀ K ∈ l, len K ≤ R := by
    intro l
    induction l with
    | nil => exact ⟨0, by simp⟩
    | cons a l ih =>
      obtain ⟨R, hR⟩ := ih
      refine ⟨max (len a) R, fun K hK => ?_⟩
      rcases List.mem_cons.mp hK with rfl | hK
      · exact le_max_left _ _
      · exact (hR K hK).trans (le_max_right _ _)
  obtain ⟨R, hR⟩ := key ct.Kin
  exact ⟨max R (max (|e.mass| * (6 / (T * T) * (1 + len c0 + T * len dc0) + len e.gravity)) (3 / T)),
    fun K hK => (hR K hK).trans (le_max_left _ _), (le_max_left _ _).trans (le_max_right _ _), (le_max_right _ _).trans (le_max_right _ _)⟩

/-- The number of unknowns of the zero step problem. -/
def zeroDim (pData : ProblemData) : ℕ := if pData.useAngularMomentum then 6 else 3

/-- C93, `solve0step` with the inequalities passed to a solver with rounding; `S` are the instants at which the wrench is constrained. -/
def ZeroRounded (pData : ProblemData) (ct : ContactData) (e : Equilibrium) (T timeStep : ℝ) (S : ℝ → Prop) : Prop :=
  ∃ A b, zeroStepInequalities ct pData.bc.c0 pData.bc.dc0 pData.l0 pData.useAngularMomentum T timeStep = .ok (A, b) ∧ A.cols = zeroDim pData ∧
    ∀ (o : Arith ℝ (zeroDim pData)) (m : ℕ) (u g : ℝ) (_ : o.Rounded m u g) (maxIter : ℕ) (P : FQP ℝ (zeroDim pData))
      (_ : P.CI.length ≤ m) (J0 : ℕ → Fin (zeroDim pData) → ℝ) (x0 : Fin (zeroDim pData) → ℝ)
      (wk : FWork ℝ (zeroDim pData)) (ν σ β B X ρ : ℝ) (_ : o.ScaledFp u g maxIter P J0 ν σ β B) (_ : 0 ≤ X)
      (_ : ∀ q, o.Reach maxIter P J0 (.eq 0 (o.init P J0 x0 wk)) q → ∑ k, (st q).x k ^ 2 ≤ X ^ 2) (_ : 0 ≤ ρ) (_ : GivenRows P A b ρ),
    ∃ r s, (∀ fuel ≥ P.CE.length + 2 + maxIter * (zeroDim pData + 3), o.solve maxIter P J0 x0 wk fuel = .ok (r, s)) ∧
      ∃ res, zeroStepResult pData T (fpResult r s) = .ok res ∧ (res.success = true ↔ r = .optimal) ∧
        (res.success = true → ZeroAnswer pData ct e T (fpTol o u g maxIter P J0 ν σ β B X + ρ * (X + 1)) S res) ∧
        (res.success = false → res = ResultDataCOMTraj.default)

theorem zeroRounded (pData : ProblemData) (ct : ContactData) (e : Equilibrium) (h : ZeroContact ct e) {T timeStep : ℝ} (hs : GoodStep T timeStep)
    {S : ℝ → Prop} {ws us : List Wp6} (hw : ComputeAllWaypoints pData.bc.c0 pData.bc.dc0 e.gravity T timeStep = .ok ws)
    (hu : ComputeAllWaypointsAngularMomentum pData.l0 T timeStep = .ok us) (hl : ws.length = us.length)
    (hS : ConeFrom pData e T ws us S) : ZeroRounded pData ct e T timeStep S := by
  obtain ⟨R, hR⟩ := zeroScale_exists ct e pData.bc.c0 pData.bc.dc0 T
  obtain ⟨A, b, hA, hc, hb, hb1, hrw, -, hsem⟩ := zeroStep_system ct e h pData.bc.c0 pData.bc.dc0 pData.l0
    pData.useAngularMomentum hs hR hw hu hl
  refine ⟨A, b, hA, hc, ?_⟩
  intro o m u g ho maxIter P hm J0 x0 wk ν σ β B X ρ hC hX hx hρ hP
  obtain ⟨r, s, hrun, hxs, hsat⟩ := optimal_rows o ho maxIter P hm J0 x0 wk hC hX hx hρ hP
  refine ⟨r, s, hrun, ?_⟩
  obtain ⟨res, hres, hss, hgood, hbad⟩ := zeroStepResult_total pData T hs.pos (fpResult r s) (by simp [fpResult, zeroDim])
  have hiff : res.success = true ↔ r = .optimal := by rw [hss]; exact fpResult_success r s
  refine ⟨res, hres, hiff, fun hrs => ?_, hbad⟩
  obtain ⟨-, -, t2, t3⟩ := hgood hrs
  have hsat' := hsat (hiff.mp hrs)
  rw [← unk_ofFn] at hsat'
  obtain ⟨hcone, hkin⟩ := hsem _ _ hsat'
  obtain ⟨v, hv, c1, c2, c3, c4⟩ := stopCurve_spec pData.bc.c0 pData.bc.dc0 (first3 (unk (List.ofFn s.x))) T hs.pos.ne'
  obtain ⟨v', a, hv', ha⟩ : ∃ v a, IsDeriv (stopCurve pData.bc.c0 pData.bc.dc0 (first3 (unk (List.ofFn s.x))) T) v ∧ IsDeriv v a :=
    ⟨_, _, curve_isDeriv 2 _ T, curve_isDeriv 1 _ T⟩
  obtain rfl : v = v' := deriv_unique hv hv'
  have t2' : res.c_of_t.eval = stopCurve pData.bc.c0 pData.bc.dc0 (first3 (unk (List.ofFn s.x))) T := t2
  refine ⟨v, a, by rw [t2']; exact hv, ha, by rw [t2']; exact c1, c2, c4, fun hang => ?_, fun hang => ⟨fun t => ?_, ?_⟩, ?_⟩
  · rw [MomentumRate, if_pos hang] at t3
    obtain ⟨-, -, l1, l2, -⟩ := momentumCurve_spec pData.l0 (last3 (unk (fpResult r s).x)) T hs.pos.ne'
    exact ⟨_, t3, l1, l2⟩
  · rw [MomentumRate, if_neg (by simp [hang])] at t3
    rw [t3]
  · rw [t2', c3]
    exact hkin hang
  · rw [t2']
    exact hS _ _ _ v a _ hv ha t3 hcone

/-- C93. Without discretisation the wrench is constrained at every instant, with a time step at the samples. -/
theorem C93_zero_step (pData : ProblemData) (ct : ContactData) (e : Equilibrium) (h : ZeroContact ct e) (T timeStep : ℝ) :
    (0 < T → timeStep ≤ 0 ∨ T < timeStep → ZeroRounded pData ct e T timeStep fun t => 0 ≤ t ∧ t ≤ T) ∧
    ∀ N, 1 ≤ N → StepCount T timeStep N → ZeroRounded pData ct e T timeStep fun t => ∃ i : ℕ, i ≤ N ∧ t = i * (T / N) := by
  refine ⟨fun hT hst => ?_, fun N hN hst => ?_⟩
  · obtain ⟨ws, us, hws, hus, hl, hl', hS⟩ := coneFrom_continuous pData e hT hst
    exact zeroRounded pData ct e h (Or.inl ⟨hT, hst⟩) hws hus (by omega) hS
  · obtain ⟨ws, us, hws, hus, hl, hl', hS⟩ := coneFrom_discretised pData e hN hst
    exact zeroRounded pData ct e h (Or.inr ⟨N, hN, hst⟩) hws hus (by omega) hS

/-! ## The hypotheses are met -/

/-- The scaling hypotheses from bounds on the data: `ν` bounds the norm of the factor, `σ` its smallest singular value, `R` the rows. -/
theorem scaled_fp {n : ℕ} {fl : ℝ → ℝ} {eps : ℝ} (tri : (ℕ → ℕ → ℝ) → (ℕ → ℝ) → ℕ → ℕ → ℝ) {A b : Mat} {R B u ρ ν σ : ℝ} {M maxIter : ℕ}
    {J0 : ℕ → Fin n → ℝ} (hR : 0 ≤ R) (hB : 0 ≤ B) (hρ : 0 ≤ ρ) (hu : 0 ≤ u) (hrow : ∀ r < A.rows, ∑ c ∈ Finset.range n, A.e r c ^ 2 ≤ R ^ 2)
    (hb : ∀ r < A.rows, |b.e r 0| ≤ B) {P : FQP ℝ n} (hP : GivenRows P A b ρ) (hν : 0 ≤ ν) (hσ : 0 < σ)
    (hsum : ∑ j ∈ Finset.range n, ∑ k, J0 j k ^ 2 ≤ ν ^ 2)
    (hlow : ∀ v : ℕ → ℝ, σ ^ 2 * ∑ j ∈ Finset.range n, v j ^ 2 ≤ ∑ k, (∑ j ∈ Finset.range n, v j * J0 j k) ^ 2)
    (h0 : u ≤ 1 / 1000) (h1 : 1000 * u * (n * (2 + maxIter * (n + 3) : ℕ)) ≤ 1) (h2 : 2 * (M + 1 : ℕ) * u ≤ 1 / 100)
    (hsm : 200 * u * (n * (2 + maxIter * (n + 3) : ℕ)) * ν + 8 * (M + 1 : ℕ) * u * ν ≤ σ)
    (h3 : 14 * (2 * (M + 1 : ℕ) * u * (R + ρ) * ν ^ 2) ^ 2 ≤ eps) (h4 : 2 * eps * ν ^ 2 * max 1 (2 * ν ^ 2 * (R + ρ) ^ 2) ≤ 1) :
    (flArith fl eps tri n).ScaledFp u ((1 + u) ^ (M + 1) - 1) maxIter P J0 ν σ (R + ρ) (B + ρ) := by
  have hg : (1 + u) ^ (M + 1) - 1 ≤ 2 * (M + 1 : ℕ) * u := pow_sub_one_le hu h2 (by linarith)
  have hg0 : 0 ≤ (1 + u) ^ (M + 1) - 1 := by
    have : (1 : ℝ) ≤ (1 + u) ^ (M + 1) := one_le_pow₀ (by linarith)
    linarith
  have hlen : P.CE.length + 2 + maxIter * (n + 3) = 2 + maxIter * (n + 3) := by rw [hP.noEq]; simp
  have hce : ∀ e ∈ P.CE, False := fun e he => by rw [hP.noEq] at he; simp at he
  have hmem : ∀ e ∈ P.CI, ∃ r < A.rows, e = P.CI.getD r (0, 0) := by
    intro e he
    obtain ⟨r, hr, rfl⟩ := List.mem_iff_getElem.mp he
    exact ⟨r, by rw [← hP.count]; exact hr, by rw [List.getD_eq_getElem?_getD, List.getElem?_eq_getElem hr]; rfl⟩
  have hci : ∀ e ∈ P.CI, ∑ k, e.1 k ^ 2 ≤ (R + ρ) ^ 2 := by
    intro e he
    obtain ⟨r, hr, rfl⟩ := hmem e he
    have e1 := hP.normal r hr
    have e2 := hrow r hr
    rw [Finset.sum_range] at e2
    have e3 := abs_sum_mul_le Finset.univ (fun k => (P.CI.getD r (0, 0)).1 k + A.e r k) (fun k : Fin n => A.e r k) hρ hR e1 e2
    have e4 : ∑ k, (P.CI.getD r (0, 0)).1 k ^ 2 = ∑ k, ((P.CI.getD r (0, 0)).1 k + A.e r k) ^ 2 + ∑ k : Fin n, A.e r k ^ 2 -
        2 * ∑ k : Fin n, ((P.CI.getD r (0, 0)).1 k + A.e r k) * A.e r k := by
      rw [Finset.mul_sum, ← Finset.sum_add_distrib, ← Finset.sum_sub_distrib]
      exact Finset.sum_congr rfl fun k _ => by ring
    rw [e4]
    have := (abs_le.mp e3).1
    nlinarith
  refine {
    cond := {
      u0 := hu, u1 := h0, g0 := hg0, g1 := by linarith
      steps := by rw [hlen]; exact h1
      sum := hsum
      ce := fun e he => (hce e he).elim
      ci := hci
      eps := h4 }
    ν0 := hν
    β0 := by positivity
    σ0 := hσ
    b0 := by positivity
    low := hlow
    small := ?_
    eps := ?_
    ce := fun e he => (hce e he).elim
    ci := ?_ }
  · rw [hlen]
    have := mul_le_mul_of_nonneg_right hg hν
    nlinarith
  · refine le_trans ?_ h3
    have h5 : 0 ≤ ((1 + u) ^ (M + 1) - 1) * (R + ρ) * ν ^ 2 := by positivity
    have h6 : ((1 + u) ^ (M + 1) - 1) * (R + ρ) * ν ^ 2 ≤ 2 * (M + 1 : ℕ) * u * (R + ρ) * ν ^ 2 := by gcongr
    have := pow_le_pow_left₀ h5 h6 2
    linarith
  · intro e he
    obtain ⟨r, hr, rfl⟩ := hmem e he
    have e1 := hP.offset r hr
    have e2 := hb r hr
    have := abs_sub_abs_le_abs_sub (P.CI.getD r (0, 0)).2 (b.e r 0)
    linarith

/-- The smallest singular value of a factor whose columns are independent. -/
theorem factor_low {n : ℕ} (J0 : ℕ → Fin n → ℝ) (hinv : ∀ v : ℕ → ℝ, (∀ k, ∑ j ∈ Finset.range n, v j * J0 j k = 0) → ∀ j < n, v j = 0) :
    ∃ σ > 0, ∀ v : ℕ → ℝ, σ ^ 2 * ∑ j ∈ Finset.range n, v j ^ 2 ≤ ∑ k, (∑ j ∈ Finset.range n, v j * J0 j k) ^ 2 := by
  have e : ∀ x : Fin n → ℝ, ∑ a : Fin n, ∑ b : Fin n, (∑ k, J0 a.val k * J0 b.val k) * (x a * x b) = ∑ k, (∑ j : Fin n, x j * J0 j k) ^ 2 := by
    intro x
    have h1 : ∀ k, (∑ j : Fin n, x j * J0 j k) ^ 2 = ∑ a : Fin n, ∑ b : Fin n, (J0 a.val k * J0 b.val k) * (x a * x b) := by
      intro k
      rw [sq, Finset.sum_mul_sum]
      exact Finset.sum_congr rfl fun a _ => Finset.sum_congr rfl fun b _ => by ring
    simp only [h1, Finset.sum_mul]
    rw [Finset.sum_comm]
    refine Eq.trans ?_ (Finset.sum_comm)
    rw [Finset.sum_comm]
    exact Finset.sum_congr rfl fun a _ => Finset.sum_comm
  have hA : AxisPos (fun a b : Fin n => ∑ k, J0 a.val k * J0 b.val k : Matrix (Fin n) (Fin n) ℝ) := by
    refine ⟨fun a b => Finset.sum_congr rfl fun k _ => mul_comm _ _, fun x hx => ?_⟩
    rw [e]
    refine lt_of_le_of_ne (Finset.sum_nonneg fun _ _ => sq_nonneg _) fun h0 => hx ?_
    have h1 := (Finset.sum_eq_zero_iff_of_nonneg fun _ _ => sq_nonneg _).mp h0.symm
    have h2 := hinv (extN x) fun k => by
      rw [Finset.sum_range]
      have := pow_eq_zero_iff (two_ne_zero) |>.mp (h1 k (Finset.mem_univ k))
      rw [← this]
      exact Finset.sum_congr rfl fun j _ => by rw [extN, dif_pos j.2]
    funext j
    have := h2 j j.2
    rwa [extN, dif_pos j.2] at this
  obtain ⟨k, hk, hq⟩ := hA.curvature
  refine ⟨Real.sqrt k, Real.sqrt_pos.mpr hk, fun v => ?_⟩
  have := hq fun a => v a
  rw [e (fun a => v a)] at this
  rw [Real.sq_sqrt hk.le, Finset.sum_range]
  simpa only [Finset.sum_range] using this

theorem small_exists (a : ℝ) (ha : 0 ≤ a) {c : ℝ} (hc : 0 < c) : ∃ u0 > 0, ∀ u : ℝ, 0 ≤ u → u ≤ u0 → a * u ≤ c := by
  refine ⟨c / (a + 1), by positivity, fun u hu h => ?_⟩
  rw [le_div_iff₀ (by linarith)] at h
  nlinarith

/-- C93, the hypotheses are met: for every system of inequalities and every invertible factor of the Hessian, if the threshold of the solver is
small for the data and the relative error of the arithmetic is small for the data and the threshold, the solver with all operations rounded and
sums computed from left to right meets the hypotheses of `C93_end_effector` and `C93_zero_step`. -/
theorem C93_scale_exists {n : ℕ} (A b : Mat) (J0 : ℕ → Fin n → ℝ)
    (hinv : ∀ v : ℕ → ℝ, (∀ k, ∑ j ∈ Finset.range n, v j * J0 j k = 0) → ∀ j < n, v j = 0) :
    ∃ R B ν σ, 0 < σ ∧ ∀ maxIter M, A.rows ≤ M → n ≤ M → ∃ e0 > 0, ∀ eps, 0 < eps → eps ≤ e0 → ∃ u0 > 0, ∀ u, 0 ≤ u → u ≤ u0 →
      ∀ ρ, 0 ≤ ρ → ρ ≤ 1 → ∀ (fl : ℝ → ℝ) (tri : (ℕ → ℕ → ℝ) → (ℕ → ℝ) → ℕ → ℕ → ℝ) (P : FQP ℝ n) (x0 : Fin n → ℝ) (w : FWork ℝ n),
        (∀ x, |fl x - x| ≤ u * |x|) → GivenRows P A b ρ →
      ∃ X, 0 ≤ X ∧ (flArith fl eps tri n).Rounded M u ((1 + u) ^ (M + 1) - 1) ∧ P.CI.length ≤ M ∧
        (flArith fl eps tri n).ScaledFp u ((1 + u) ^ (M + 1) - 1) maxIter P J0 ν σ (R + ρ) (B + ρ) ∧
        ∀ q, (flArith fl eps tri n).Reach maxIter P J0 (.eq 0 ((flArith fl eps tri n).init P J0 x0 w)) q → ∑ k, (st q).x k ^ 2 ≤ X ^ 2 := by
  obtain ⟨σ, hσ, hlow⟩ := factor_low J0 hinv
  obtain ⟨B, hB, hb⟩ := rhs_bound b A.rows
  obtain ⟨R, hR, hrow⟩ : ∃ R, 0 ≤ R ∧ ∀ r < A.rows, ∑ c ∈ Finset.range n, A.e r c ^ 2 ≤ R ^ 2 := by
    set S := ∑ r ∈ Finset.range A.rows, ∑ c ∈ Finset.range n, A.e r c ^ 2 with hS
    have hS0 : 0 ≤ S := Finset.sum_nonneg fun _ _ => Finset.sum_nonneg fun _ _ => sq_nonneg _
    refine ⟨Real.sqrt S, Real.sqrt_nonneg _, fun r hr => ?_⟩
    rw [Real.sq_sqrt hS0]
    exact Finset.single_le_sum (f := fun r => ∑ c ∈ Finset.range n, A.e r c ^ 2) (fun _ _ => Finset.sum_nonneg fun _ _ => sq_nonneg _)
      (Finset.mem_range.mpr hr)
  set N := ∑ j ∈ Finset.range n, ∑ k, J0 j k ^ 2 with hN
  have hN0 : 0 ≤ N := Finset.sum_nonneg fun _ _ => Finset.sum_nonneg fun _ _ => sq_nonneg _
  set ν := Real.sqrt N with hνd
  have hν : 0 ≤ ν := Real.sqrt_nonneg _
  have hνN : ν ^ 2 = N := Real.sq_sqrt hN0
  refine ⟨R, B, ν, σ, hσ, fun maxIter M hM hnM => ?_⟩
  obtain ⟨e0, he0, hE⟩ := small_exists (2 * ν ^ 2 * max 1 (2 * ν ^ 2 * (R + 1) ^ 2)) (by positivity) one_pos
  refine ⟨e0, he0, fun eps hp hle => ?_⟩
  have hC0 : 0 ≤ ((n : ℝ) * (2 + maxIter * (n + 3) : ℕ)) := by positivity
  obtain ⟨u1, p1, q1⟩ := small_exists (1000 * ((n : ℝ) * (2 + maxIter * (n + 3) : ℕ))) (by positivity) one_pos
  obtain ⟨u2, p2, q2⟩ := small_exists (2 * (M + 1 : ℕ)) (by positivity) (show (0 : ℝ) < 1 / 100 by norm_num)
  obtain ⟨u3, p3, q3⟩ := small_exists (200 * ((n : ℝ) * (2 + maxIter * (n + 3) : ℕ)) * ν + 8 * (M + 1 : ℕ) * ν) (by positivity) hσ
  obtain ⟨u4, p4, q4⟩ := small_exists (2 * (M + 1 : ℕ) * (R + 1) * ν ^ 2) (by positivity) (show 0 < Real.sqrt (eps / 14) from Real.sqrt_pos.mpr (by positivity))
  refine ⟨min (1 / 1000) (min (min u1 u2) (min u3 u4)), by positivity, fun u hu hule ρ hρ hρ1 fl tri P x0 w hfl hP => ?_⟩
  simp only [le_min_iff] at hule
  obtain ⟨l0, ⟨l1, l2⟩, l3, l4⟩ := hule
  have hS := scaled_fp (fl := fl) (eps := eps) tri (M := M) (maxIter := maxIter) (J0 := J0) hR hB hρ hu hrow hb hP hν hσ hνN.ge hlow l0
    (by have := q1 u hu l1; linarith) (by have := q2 u hu l2; linarith) (by have := q3 u hu l3; linarith)
    (by
      have h1 := q4 u hu l4
      have h2 : 2 * (M + 1 : ℕ) * u * (R + ρ) * ν ^ 2 ≤ 2 * (M + 1 : ℕ) * (R + 1) * ν ^ 2 * u := by
        have : 2 * (M + 1 : ℕ) * u * (R + ρ) * ν ^ 2 ≤ 2 * (M + 1 : ℕ) * u * (R + 1) * ν ^ 2 := by gcongr
        linarith
      have h3 : 0 ≤ 2 * (M + 1 : ℕ) * u * (R + ρ) * ν ^ 2 := by positivity
      have h4 := pow_le_pow_left₀ h3 (h2.trans h1) 2
      rw [Real.sq_sqrt (show 0 ≤ eps / 14 by positivity)] at h4
      linarith)
    (by
      have h1 := hE eps hp.le hle
      have h2 : max 1 (2 * ν ^ 2 * (R + ρ) ^ 2) ≤ max 1 (2 * ν ^ 2 * (R + 1) ^ 2) := by gcongr
      have h3 := mul_le_mul_of_nonneg_left h2 (show 0 ≤ 2 * eps * ν ^ 2 by positivity)
      linarith)
  have hro := C87_left_to_right (n := n) (m := M) (N := M) hu hfl hp.le tri hnM le_rfl
  obtain ⟨X, hX, hx⟩ := reach_radius _ hro maxIter P (by rw [hP.noEq]; exact Nat.zero_le _) J0 x0 w hS.cond
  exact ⟨X, hX, hro, by rw [hP.count]; exact hM, hS, hx⟩

/-- A non-trivial case: the zero step example of C60 in doubles, with the threshold and the number of passes of the code. -/
theorem restProblem_doubles (fl : ℝ → ℝ) (hfl : ∀ x, |fl x - x| ≤ 2⁻¹ ^ 53 * |x|) (tri : (ℕ → ℕ → ℝ) → (ℕ → ℝ) → ℕ → ℕ → ℝ)
    (x0 : Fin 3 → ℝ) (w : FWork ℝ 3) :
    ∃ A b, zeroStepInequalities (onePush []) 0 0 0 false 1 0.3 = .ok (A, b) ∧ A.rows = 5 ∧
      ∃ B X r s, 0 ≤ X ∧ (∀ fuel ≥ 6002, (flArith fl (2⁻¹ ^ 52) tri 3).solve 1000 (rowsQP 1 0 A b) (fun j i => if j = i then 1 else 0) x0 w fuel = .ok (r, s)) ∧
        ∃ res, zeroStepResult restProblem 1 (fpResult r s) = .ok res ∧ (res.success = true ↔ r = .optimal) ∧
          (res.success = true → ZeroAnswer restProblem (onePush []) onePushPhase 1
            (fpTol (flArith fl (2⁻¹ ^ 52) tri 3) (2⁻¹ ^ 53) ((1 + 2⁻¹ ^ 53) ^ (5 + 1) - 1) 1000 (rowsQP 1 0 A b)
              (fun j i => if j = i then 1 else 0) 2 0.9 46 B X)
            (fun t => ∃ i : ℕ, i ≤ 3 ∧ t = i * (1 / ((3 : ℕ) : ℝ))) res) := by
  have hl0 : len 0 = 0 := by simp [len, dot]
  have hlg : len ![0, 0, -10] = 10 := by
    rw [len, show dot ![0, 0, -10] ![0, 0, -10] = (10 : ℝ) ^ 2 by simp [dot]; norm_num, Real.sqrt_sq (by norm_num)]
  have hR : ZeroScale (onePush []) onePushPhase restProblem.bc.c0 restProblem.bc.dc0 1 32 := by
    refine ⟨?_, ?_, by norm_num⟩
    · intro K hK
      simp [onePush] at hK
      subst hK
      simp [len, dot]
    · simp only [onePushPhase, restProblem, hl0, hlg]
      norm_num
  obtain ⟨ws, us, hws, hus, hl, hl', -⟩ := coneFrom_discretised restProblem onePushPhase (T := 1) (timeStep := 0.3) (N := 3) (by norm_num) stepCount_example
  obtain ⟨A, b, hA, hc, hb, hb1, hrw, hrow, -⟩ := zeroStep_system (onePush []) onePushPhase (onePush_ok []) restProblem.bc.c0 restProblem.bc.dc0
    restProblem.l0 restProblem.useAngularMomentum (Or.inr ⟨3, by norm_num, stepCount_example⟩) hR hws hus (by omega)
  obtain ⟨A', b', hA', hcol, hall⟩ := (C93_zero_step restProblem (onePush []) onePushPhase (onePush_ok []) 1 0.3).2 3 (by norm_num) stepCount_example
  rw [hA] at hA'
  cases hA'
  have hrows : A.rows = 5 := by
    rw [hrw, hl]
    simp [onePushPhase, onePush, restProblem]
  refine ⟨A, b, hA, hrows, ?_⟩
  obtain ⟨B, hB, hbb⟩ := rhs_bound b A.rows
  have hP := rowsQP_given 1 0 b (show A.cols = 3 from hcol)
  have hrow' : ∀ r < A.rows, ∑ c ∈ Finset.range 3, A.e r c ^ 2 ≤ (46 : ℝ) ^ 2 := fun r hr => (hrow r hr).trans (by norm_num)
  have hS := C90_scaled (fl := fl) (eps := 2⁻¹ ^ 52) tri (M := 5) (maxIter := 1000) one_pos (by norm_num) hB le_rfl (u := 2⁻¹ ^ 53) (by norm_num) hrow' hbb hP
    (fun _ => 1) (fun _ _ => by norm_num) (by norm_num) (by norm_num) (by norm_num) (by norm_num)
  simp only [Real.sqrt_one, div_one, add_zero] at hS
  have hro := C87_left_to_right (n := 3) (m := 5) (N := 5) (u := 2⁻¹ ^ 53) (by norm_num) hfl (eps := 2⁻¹ ^ 52) (by norm_num) tri (by norm_num) le_rfl
  obtain ⟨X, hX, hx⟩ := reach_radius _ hro 1000 (rowsQP 1 0 A b) (by rw [hP.noEq]; exact Nat.zero_le _) (fun j i => if j = i then 1 else 0) x0 w hS.cond
  have hcount : (rowsQP 1 0 A b).CI.length ≤ 5 := by rw [hP.count, hrows]
  obtain ⟨r, s, h1, res, h2, h3, h4, -⟩ := hall _ _ _ _ hro 1000 (rowsQP 1 0 A b) hcount _ x0 w _ _ _ _ X 0 hS hX hx le_rfl hP
  refine ⟨B, X, r, s, hX, h1, res, h2, h3, fun hres => ?_⟩
  have key : ZeroAnswer restProblem (onePush []) onePushPhase 1
      (fpTol (flArith fl (2⁻¹ ^ 52) tri 3) (2⁻¹ ^ 53) ((1 + 2⁻¹ ^ 53) ^ (5 + 1) - 1) 1000 (rowsQP 1 0 A b)
        (fun j i => if j = i then 1 else 0) 2 0.9 46 B X + 0 * (X + 1)) _ res := h4 hres
  rwa [zero_mul, add_zero] at key

theorem countBound_le {K : ℕ} (ws : List (WpB K)) : countBound ws ≤ ws.length := by
  induction ws with
  | nil => exact le_rfl
  | cons w ws ih =>
    unfold countBound
    split <;> simp <;> omega

/-- The system of the example. -/
theorem unitMove_rows : ∃ pi A b, computeConstantWaypoints 255#32 unitMove 1 = .ok pi ∧ computeEndEffectorConstraints 255#32 unitMove 1 pi = .ok (A, b) ∧
    A.rows ≤ 129 ∧ A.cols = 3 := by
  obtain ⟨pi, p1, p2, -⟩ := unitMove_pts
  obtain ⟨A, b, h, hr, hc, -⟩ := C48_rows unitMove (c0_dc0_ddc0_j0_j1_ddc1_dc1_c1.computeAccelerationWaypoints (nth pi) 1)
    (c0_dc0_ddc0_j0_j1_ddc1_dc1_c1.computeVelocityWaypoints (nth pi) 1) (fun _ => 10000) (fun _ => 10000)
    (c0_dc0_ddc0_j0_j1_ddc1_dc1_c1.computeJerkWaypoints (nth pi) 1) (fun _ => 10000)
  refine ⟨pi, A, b, p1, ?_, ?_, hc⟩
  · unfold computeEndEffectorConstraints
    have e1 : computeJerkWaypoints 255#32 unitMove 1 pi = .ok ⟨1, c0_dc0_ddc0_j0_j1_ddc1_dc1_c1.computeJerkWaypoints (nth pi) 1⟩ := by
      simp [computeJerkWaypoints, p2]
    have e2 : computeAccelerationWaypoints 255#32 unitMove 1 pi = .ok ⟨1, c0_dc0_ddc0_j0_j1_ddc1_dc1_c1.computeAccelerationWaypoints (nth pi) 1⟩ := by
      simp [computeAccelerationWaypoints, p2]
    have e3 : computeVelocityWaypoints 255#32 unitMove 1 pi = .ok ⟨1, c0_dc0_ddc0_j0_j1_ddc1_dc1_c1.computeVelocityWaypoints (nth pi) 1⟩ := by
      simp [computeVelocityWaypoints, p2]
    rw [e1, e2, e3]
    exact h
  · rw [hr]
    have h1 := countBound_le (c0_dc0_ddc0_j0_j1_ddc1_dc1_c1.computeAccelerationWaypoints (nth pi) 1)
    have h2 := countBound_le (c0_dc0_ddc0_j0_j1_ddc1_dc1_c1.computeVelocityWaypoints (nth pi) 1)
    have h3 := countBound_le (c0_dc0_ddc0_j0_j1_ddc1_dc1_c1.computeJerkWaypoints (nth pi) 1)
    simp only [c0_dc0_ddc0_j0_j1_ddc1_dc1_c1.computeAccelerationWaypoints, c0_dc0_ddc0_j0_j1_ddc1_dc1_c1.computeVelocityWaypoints,
      c0_dc0_ddc0_j0_j1_ddc1_dc1_c1.computeJerkWaypoints, List.length_cons, List.length_nil] at h1 h2 h3 ⊢
    omega

/-- A non-trivial case: the end effector example of C76 in doubles; `v` is the linear term of the cost, and the factor is within ten per cent. -/
theorem unitMove_doubles (fl : ℝ → ℝ) (hfl : ∀ x, |fl x - x| ≤ 2⁻¹ ^ 53 * |x|) (tri : (ℕ → ℕ → ℝ) → (ℕ → ℝ) → ℕ → ℕ → ℝ)
    (x0 : Fin 3 → ℝ) (w : FWork ℝ 3) (v : V3) :
    ∃ pi A b, computeConstantWaypoints 255#32 unitMove 1 = .ok pi ∧ computeEndEffectorConstraints 255#32 unitMove 1 pi = .ok (A, b) ∧
      ∃ B X r s, 0 ≤ X ∧ (∀ fuel ≥ 6002, (flArith fl (2⁻¹ ^ 52) tri 3).solve 1000 (rowsQP (1 / Real.sqrt 3) v A b)
          (fun j i => if j = i then 1.3 else 0) x0 w fuel = .ok (r, s)) ∧
        ∃ res, endEffectorResult 255#32 unitMove 1 (fpResult r s) = .ok res ∧ (res.success = true ↔ r = .optimal) ∧
          (res.success = true → ∃ Y, res.c_of_t.eval = curve 8 (fillMany 255#32 (nth pi) Y) 1 ∧ EndOkTol 255#32 unitMove 1 pi
            (fpTol (flArith fl (2⁻¹ ^ 52) tri 3) (2⁻¹ ^ 53) ((1 + 2⁻¹ ^ 53) ^ (129 + 1) - 1) 1000 (rowsQP (1 / Real.sqrt 3) v A b)
              (fun j i => if j = i then 1.3 else 0) (2 / Real.sqrt (1 / 2)) (0.9 / Real.sqrt (1 / 2)) 2000 B X) Y) := by
  obtain ⟨pi, A, b, hpi, hA, hrows, hcols⟩ := unitMove_rows
  refine ⟨pi, A, b, hpi, hA, ?_⟩
  obtain ⟨pi', A', b', c, hpi', hA', hcost, -, hall⟩ := C93_end_effector 255#32 (by decide) unitMove (fun _ => 0) 1 0 one_pos le_rfl zero_le_one
  rw [hpi] at hpi'
  cases hpi'
  rw [hA] at hA'
  cases hA'
  obtain ⟨pi', -, -, c', -, -, k1, -, -, hscale, -⟩ := C76_unitMove { exactLib 1000 with eps := dblEps } (exactLib_ok 1000) rfl (by norm_num [exactLib]) []
  rw [hpi] at k1
  cases k1
  obtain ⟨A', b', hA', hR, -⟩ := end_system 255#32 (by decide) unitMove 1 pi (by
    obtain ⟨pi', p1, p2, -⟩ := unitMove_pts
    rw [hpi] at p1
    cases p1
    rw [p2]
    rfl)
  rw [hA] at hA'
  cases hA'
  obtain ⟨B, hB, hbb⟩ := rhs_bound b A.rows
  have hP := rowsQP_given (1 / Real.sqrt 3) v b hcols
  have hrow : ∀ r < A.rows, ∑ c ∈ Finset.range 3, A.e r c ^ 2 ≤ (2000 : ℝ) ^ 2 := hR _ _ _ hscale
  have hS := C90_scaled (fl := fl) (eps := 2⁻¹ ^ 52) tri (M := 129) (maxIter := 1000) (k := 1 / 2) (R := 2000) (ρ := 0) (by norm_num) (by norm_num) hB le_rfl (u := 2⁻¹ ^ 53) (by norm_num) hrow hbb hP
    (fun _ => 1.3) (fun _ _ => by norm_num) (by norm_num) (by norm_num) (by norm_num) (by norm_num)
  simp only [add_zero] at hS
  have hro := C87_left_to_right (n := 3) (m := 129) (N := 129) (u := 2⁻¹ ^ 53) (by norm_num) hfl (eps := 2⁻¹ ^ 52) (by norm_num) tri (by norm_num) le_rfl
  obtain ⟨X, hX, hx⟩ := reach_radius _ hro 1000 (rowsQP (1 / Real.sqrt 3) v A b) (by rw [hP.noEq]; exact Nat.zero_le _) (fun j i => if j = i then 1.3 else 0) x0 w hS.cond
  have hcount : (rowsQP (1 / Real.sqrt 3) v A b).CI.length ≤ 129 := by rw [hP.count]; exact hrows
  obtain ⟨r, s, h1, res, h2, h3, h4, -⟩ := hall _ _ _ _ hro 1000 (rowsQP (1 / Real.sqrt 3) v A b) hcount _ x0 w _ _ _ _ X 0 hS hX hx le_rfl hP
  refine ⟨B, X, r, s, hX, h1, res, h2, h3, fun hres => ?_⟩
  obtain ⟨Y, -, y1, -, y2⟩ := h4 hres
  refine ⟨Y, y1, ?_⟩
  have key : EndOkTol 255#32 unitMove 1 pi
      (fpTol (flArith fl (2⁻¹ ^ 52) tri 3) (2⁻¹ ^ 53) ((1 + 2⁻¹ ^ 53) ^ (129 + 1) - 1) 1000 (rowsQP (1 / Real.sqrt 3) v A b)
        (fun j i => if j = i then 1.3 else 0) (2 / Real.sqrt (1 / 2)) (0.9 / Real.sqrt (1 / 2)) 2000 B X + 0 * (X + 1)) Y := y2
  rwa [zero_mul, add_zero] at key

end Verif
