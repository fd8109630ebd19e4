import Verif.Lemmas.FpReturned
import Verif.Props.C90

/-!
# C94: the planner on samples when all the numbers are computed with rounding
-/

namespace Verif
open FExp Matrix Arith

/-- The free point moves a position and an acceleration of the motion at a sample in an affine way. -/
theorem motion_bound (pData : ProblemData) (Ts : List ℝ) (g : V3) (h : Accepted pData Ts g) (l : TTime) :
    ∃ M, 1 ≤ M ∧ ∀ x c v a, Motion pData Ts.sum x c v a → ∀ q ∈ l, ∀ k, |c q.1 k| ≤ M * (1 + ∑ k, |x k|) ∧ |(g - a q.1) k| ≤ M * (1 + ∑ k, |x k|) := by
  have hT := h.total
  obtain ⟨pts, hpts⟩ := C01_answers pData.flag h.flag pData.bc Ts.sum h.capt
  have hpl := (C01_boundary_conditions pData.flag h.flag pData.bc Ts.sum hT.ne' pts hpts 0).1
  have hC2 := fun t => C02_position_coefs_partial pData.flag h.flag pts hpl t
  choose CO hCO hCOx using hC2
  have hC3 := fun x => C03_acceleration_coefs_partial pData.flag h.flag pts hpl Ts.sum hT.ne' x
  obtain ⟨_, _, _, _, hA0⟩ := hC3 0
  choose AO hAO _ using hA0
  have hmot : ∀ x c v a, Motion pData Ts.sum x c v a → ∀ t k, c t k = (CO (t / Ts.sum)).first * x k + (CO (t / Ts.sum)).second k ∧
      (g - a t) k = g k - ((AO (t / Ts.sum)).first * x k + (AO (t / Ts.sum)).second k) := by
    rintro x c v a ⟨pts', hpts', rfl, hv, ha⟩ t k
    rw [hpts] at hpts'
    cases hpts'
    obtain ⟨v2, a2, hv2, ha2, hacc⟩ := hC3 x
    have e1 := deriv_unique hv hv2
    subst e1
    have e2 := deriv_unique ha ha2
    subst e2
    constructor
    · exact (congrFun (hCOx (t / Ts.sum) x) k).symm
    · obtain ⟨co, hco, hx⟩ := hacc (t / Ts.sum)
      rw [hAO] at hco
      cases hco
      rw [div_mul_cancel₀ _ hT.ne'] at hx
      rw [Pi.sub_apply, ← hx]
      rfl
  have hone : ∀ q : ℝ × ℤ, ∃ M, 0 ≤ M ∧ ∀ x c v a, Motion pData Ts.sum x c v a → ∀ k, |c q.1 k| ≤ M * (1 + ∑ k, |x k|) ∧ |(g - a q.1) k| ≤ M * (1 + ∑ k, |x k|) := by
    intro q
    refine ⟨|(CO (q.1 / Ts.sum)).first| + ∑ k, |(CO (q.1 / Ts.sum)).second k| + |(AO (q.1 / Ts.sum)).first| + ∑ k, |(AO (q.1 / Ts.sum)).second k| + ∑ k, |g k|,
      ?_, fun x c v a hm k => ?_⟩
    · have := fun w : V3 => (Finset.sum_nonneg fun k _ => abs_nonneg (w k) : 0 ≤ ∑ k, |w k|)
      have h1 := this (CO (q.1 / Ts.sum)).second
      have h2 := this (AO (q.1 / Ts.sum)).second
      have h3 := this g
      positivity
    · obtain ⟨e1, e2⟩ := hmot x c v a hm q.1 k
      rw [e1, e2]
      have hs := fun w : V3 => (Finset.single_le_sum (f := fun k => |w k|) (fun i _ => abs_nonneg _) (Finset.mem_univ k) : |w k| ≤ ∑ k, |w k|)
      have b1 := hs x
      have b2 := hs (CO (q.1 / Ts.sum)).second
      have b3 := hs (AO (q.1 / Ts.sum)).second
      have b4 := hs g
      have n1 := abs_nonneg (x k)
      have n2 := abs_nonneg ((CO (q.1 / Ts.sum)).second k)
      have n3 := abs_nonneg ((AO (q.1 / Ts.sum)).second k)
      have n4 := abs_nonneg (g k)
      have n5 := abs_nonneg (CO (q.1 / Ts.sum)).first
      have n6 := abs_nonneg (AO (q.1 / Ts.sum)).first
      generalize ∑ k, |x k| = X at *
      generalize ∑ k, |(CO (q.1 / Ts.sum)).second k| = Y at *
      generalize ∑ k, |(AO (q.1 / Ts.sum)).second k| = Z at *
      generalize ∑ k, |g k| = G at *
      have hX : 0 ≤ X := n1.trans b1
      have c1 : |(CO (q.1 / Ts.sum)).first * x k| ≤ |(CO (q.1 / Ts.sum)).first| * X := by rw [abs_mul]; exact mul_le_mul_of_nonneg_left b1 n5
      have c2 : |(AO (q.1 / Ts.sum)).first * x k| ≤ |(AO (q.1 / Ts.sum)).first| * X := by rw [abs_mul]; exact mul_le_mul_of_nonneg_left b1 n6
      have m1 : 0 ≤ Y * X := mul_nonneg (n2.trans b2) hX
      have m2 : 0 ≤ Z * X := mul_nonneg (n3.trans b3) hX
      have m3 : 0 ≤ G * X := mul_nonneg (n4.trans b4) hX
      have m4 := mul_nonneg n5 hX
      have m5 := mul_nonneg n6 hX
      constructor
      · refine (abs_add_le _ _).trans ?_
        nlinarith
      · refine (abs_sub _ _).trans ?_
        have := abs_add_le ((AO (q.1 / Ts.sum)).first * x k) ((AO (q.1 / Ts.sum)).second k)
        nlinarith
  have hlist : ∀ l : TTime, ∃ M, 1 ≤ M ∧ ∀ x c v a, Motion pData Ts.sum x c v a → ∀ q ∈ l, ∀ k, |c q.1 k| ≤ M * (1 + ∑ k, |x k|) ∧ |(g - a q.1) k| ≤ M * (1 + ∑ k, |x k|) := by
    intro l
    induction l with
    | nil => exact ⟨1, le_rfl, fun _ _ _ _ _ q hq => by simp at hq⟩
    | cons q l ih =>
      obtain ⟨M, hM, hall⟩ := ih
      obtain ⟨M', hM', hq⟩ := hone q
      refine ⟨M + M', by linarith, fun x c v a hm q' hq' k => ?_⟩
      have hX : 0 ≤ 1 + ∑ k, |x k| := add_nonneg zero_le_one (Finset.sum_nonneg fun k _ => abs_nonneg _)
      have k1 : M * (1 + ∑ k, |x k|) ≤ (M + M') * (1 + ∑ k, |x k|) := mul_le_mul_of_nonneg_right (by linarith) hX
      have k2 : M' * (1 + ∑ k, |x k|) ≤ (M + M') * (1 + ∑ k, |x k|) := mul_le_mul_of_nonneg_right (by linarith) hX
      rcases List.mem_cons.mp hq' with rfl | hq'
      · exact ⟨(hq x c v a hm k).1.trans k2, (hq x c v a hm k).2.trans k2⟩
      · exact ⟨(hall x c v a hm q' hq' k).1.trans k1, (hall x c v a hm q' hq' k).2.trans k1⟩
  exact hlist l

/-- A bound for the kinematic rows. -/
theorem kin_bound (cts : List ContactData) : ∃ S : ℝ, 0 ≤ S ∧ ∀ ct ∈ cts, ∀ K ∈ ct.Kin, ∑ k, |K k| ≤ S := by
  have h1 : ∀ Kin : List V3, ∃ S : ℝ, 0 ≤ S ∧ ∀ K ∈ Kin, ∑ k, |K k| ≤ S := by
    intro Kin
    induction Kin with
    | nil => exact ⟨0, le_rfl, by simp⟩
    | cons K l ih =>
      obtain ⟨S, hS, h⟩ := ih
      have hK : 0 ≤ ∑ k, |K k| := Finset.sum_nonneg fun k _ => abs_nonneg _
      refine ⟨S + ∑ k, |K k|, by linarith, fun K' hK' => ?_⟩
      rcases List.mem_cons.mp hK' with rfl | hK'
      · linarith
      · exact (h K' hK').trans (by linarith)
  induction cts with
  | nil => exact ⟨0, le_rfl, by simp⟩
  | cons ct l ih =>
    obtain ⟨S, hS, h⟩ := ih
    obtain ⟨S', hS', h'⟩ := h1 ct.Kin
    refine ⟨S + S', by linarith, fun ct' hct K hK => ?_⟩
    rcases List.mem_cons.mp hct with rfl | hct
    · exact (h' K hK).trans (by linarith)
    · exact (h ct' hct K hK).trans (by linarith)

/-- C94, rows: for accepted data with one of the five sets whose wrench is exact there are `C` and `u₀`, which depend on the data only, such that whatever
the roundings of at most `u ≤ u₀` in `computeConstraintsOneStep`, the assembly returns a system with three columns, and if a point satisfies the
computed rows up to `δ`, then the curve built by `computeBezierCurve` from this point and from waypoints that are computed with roundings of at most `u`
too meets the boundary conditions as in C81 and the requirements at all samples up to `(R + C u) δ + C u (1 + |x|)` for the wrench and
`δ + C u (1 + |x|)` for position and acceleration. -/
theorem C94_rows (pData : ProblemData) (Ts : List ℝ) (g : V3) (h : Accepted pData Ts g) (hf : pData.flag ∈ [11#32, 19#32, 27#32, 7#32, 15#32])
    (l : TTime) (hl : Discretisation Ts l) {R : ℝ} (hs : WrenchScale pData Ts.sum l g R) :
    ∃ C u0 : ℝ, 0 ≤ C ∧ 0 < u0 ∧ ∀ u, 0 ≤ u → u ≤ u0 → ∀ F : RowFns, F.Rounded u pData g Ts.sum →
      ∃ A b, F.computeConstraintsOneStep pData Ts.length l = .ok (A, b) ∧ A.cols = 3 ∧ b.rows = A.rows ∧ b.cols = 1 ∧
        ∀ pts, ConstantWaypointsFp u pData.flag pData.bc Ts.sum pts → ∀ (x : V3) (δ : ℝ), 0 ≤ δ → SatTol A b δ (ext3 x) →
          ∃ cv v a, computeBezierCurve pData.flag Ts.sum pts x = .ok cv ∧ IsDeriv cv.eval v ∧ IsDeriv v a ∧
            MeetsBoundaryFp u (degreeOf pData.flag) pData.flag pData.bc cv.eval Ts.sum ∧
            MeetsSamplesTol pData l ((R + C * u) * δ + C * u * (1 + ∑ k, |x k|)) (δ + C * u * (1 + ∑ k, |x k|)) cv.eval a := by
  have hT := h.total
  obtain ⟨pts0, hpts0⟩ := C01_answers pData.flag h.flag pData.bc Ts.sum h.capt
  obtain ⟨ht, -⟩ := hl.tags h.ne h.pos
  obtain ⟨M, hM, hmot⟩ := motion_bound pData Ts g h l
  obtain ⟨S, hS, hkin⟩ := kin_bound pData.contacts
  have hX : ∀ x : V3, 0 ≤ ∑ k, |x k| := fun x => Finset.sum_nonneg fun k _ => abs_nonneg _
  have hdown : ∀ {δw δw' δ δ' : ℝ} {c a : ℝ → V3}, MeetsSamplesTol pData l δw δ c a → δw ≤ δw' → δ ≤ δ' → MeetsSamplesTol pData l δw' δ' c a := by
    intro δw δw' δ δ' c a hm h1 h2
    refine ⟨fun t p hcon => ?_, fun hac q hq k => (hm.2 hac q hq k).trans (by linarith)⟩
    obtain ⟨ct, e, k1, k2, k3, k4⟩ := hm.1 t p hcon
    exact ⟨ct, e, k1, k2, wrenchOk_mono k3 h1, kinOk_mono k4 h2⟩
  have hclose : ∀ u ε ε', (∀ pts', ConstantWaypointsFp u pData.flag pData.bc Ts.sum pts' → ∀ x c v a, Motion pData Ts.sum x c v a →
      ∃ v' a', IsDeriv (curve (degreeOf pData.flag) (fill pData.flag (nth pts') x) Ts.sum) v' ∧ IsDeriv v' a' ∧ ∀ q ∈ l, ∀ k,
        |curve (degreeOf pData.flag) (fill pData.flag (nth pts') x) Ts.sum q.1 k - c q.1 k| ≤ ε ∧ |a' q.1 k - a q.1 k| ≤ ε) → ε ≤ ε' →
      ∀ pts', ConstantWaypointsFp u pData.flag pData.bc Ts.sum pts' → ∀ x c v a, Motion pData Ts.sum x c v a →
      ∃ v' a', IsDeriv (curve (degreeOf pData.flag) (fill pData.flag (nth pts') x) Ts.sum) v' ∧ IsDeriv v' a' ∧ ∀ q ∈ l, ∀ k,
        |curve (degreeOf pData.flag) (fill pData.flag (nth pts') x) Ts.sum q.1 k - c q.1 k| ≤ ε' ∧ |a' q.1 k - a q.1 k| ≤ ε' := by
    intro u ε ε' H hle pts' hp x c v a hm
    obtain ⟨v', a', k1, k2, k3⟩ := H pts' hp x c v a hm
    exact ⟨v', a', k1, k2, fun q hq k => ⟨(k3 q hq k).1.trans hle, (k3 q hq k).2.trans hle⟩⟩
  have hrows : ∀ u ε ε', (∀ F : RowFns, F.Rounded u pData g Ts.sum → ∃ A b, F.computeConstraintsOneStep pData Ts.length l = .ok (A, b) ∧ A.cols = 3 ∧
      b.rows = A.rows ∧ b.cols = 1 ∧ ∀ x c v a, Motion pData Ts.sum x c v a → ∀ δ, 0 ≤ δ → SatTol A b δ (ext3 x) →
        MeetsSamplesTol pData l ((R + ε) * δ + ε * (1 + ∑ k, |x k|)) (δ + ε * (1 + ∑ k, |x k|)) c a) → ε ≤ ε' →
      ∀ F : RowFns, F.Rounded u pData g Ts.sum → ∃ A b, F.computeConstraintsOneStep pData Ts.length l = .ok (A, b) ∧ A.cols = 3 ∧
      b.rows = A.rows ∧ b.cols = 1 ∧ ∀ x c v a, Motion pData Ts.sum x c v a → ∀ δ, 0 ≤ δ → SatTol A b δ (ext3 x) →
        MeetsSamplesTol pData l ((R + ε') * δ + ε' * (1 + ∑ k, |x k|)) (δ + ε' * (1 + ∑ k, |x k|)) c a := by
    intro u ε ε' H hle F hF
    obtain ⟨A, b, k1, k2, k3, k4, k5⟩ := H F hF
    refine ⟨A, b, k1, k2, k3, k4, fun x c v a hm δ hδ hsat => hdown (k5 x c v a hm δ hδ hsat) ?_ ?_⟩
    · have := hX x
      gcongr
    · have := hX x
      gcongr
  refine (Ev.and (fp_samples pData Ts g h hf l hl hs) (returned_close pData Ts g h l hl) hrows hclose).imp_small
    (Q := fun u ε => ∀ F : RowFns, F.Rounded u pData g Ts.sum →
      ∃ A b, F.computeConstraintsOneStep pData Ts.length l = .ok (A, b) ∧ A.cols = 3 ∧ b.rows = A.rows ∧ b.cols = 1 ∧
        ∀ pts, ConstantWaypointsFp u pData.flag pData.bc Ts.sum pts → ∀ (x : V3) (δ : ℝ), 0 ≤ δ → SatTol A b δ (ext3 x) →
          ∃ cv v a, computeBezierCurve pData.flag Ts.sum pts x = .ok cv ∧ IsDeriv cv.eval v ∧ IsDeriv v a ∧
            MeetsBoundaryFp u (degreeOf pData.flag) pData.flag pData.bc cv.eval Ts.sum ∧
            MeetsSamplesTol pData l ((R + ε) * δ + ε * (1 + ∑ k, |x k|)) (δ + ε * (1 + ∑ k, |x k|)) cv.eval a)
    (2 + 21 * M + S) (by positivity) (s := 1 / 20) (by norm_num) ?_ fun u ε ε' H hle => ⟨hrows u ε ε' H.1 hle, hclose u ε ε' H.2 hle⟩
  rintro u ε hu hu1 huε hε ⟨H1, H2⟩ F hF
  have hε0 : 0 ≤ ε := hu.trans huε
  obtain ⟨A, b, k1, k2, k3, k4, k5⟩ := H1 F hF
  refine ⟨A, b, k1, k2, k3, k4, fun pts hp x δ hδ hsat => ?_⟩
  obtain ⟨hpl, hbd⟩ := C81_boundary hu (by push_cast; linarith) pData.flag h.flag pData.bc Ts.sum hT pts hp x
  obtain ⟨cv, hcv⟩ := bezierCurve_total pData.flag h.flag Ts.sum hT pts hpl x
  have hev := (bezierCurve_eval pData.flag h.flag Ts.sum pts hpl x cv hcv).2
  obtain ⟨v0, a0, hm⟩ := motion_exists pData Ts.sum pts0 hpts0 h.flag hT.ne' x
  obtain ⟨v, a, hv, ha, hcl⟩ := H2 pts hp x _ v0 a0 hm
  have hmeet := k5 x _ v0 a0 hm δ hδ hsat
  rw [← hev] at hv hcl hbd
  refine ⟨cv, v, a, hcv, hv, ha, hbd, ?_⟩
  have hx := hX x
  have hε1 : ε ≤ 1 := by linarith
  have hMX : 1 ≤ M * (1 + ∑ k, |x k|) := by nlinarith
  have t1 : (R + ε) * δ + ε * (1 + ∑ k, |x k|) + 21 * (M * (1 + ∑ k, |x k|)) * ε
      ≤ (R + (2 + 21 * M + S) * ε) * δ + (2 + 21 * M + S) * ε * (1 + ∑ k, |x k|) := by
    have e1 : 0 ≤ (1 + 21 * M + S) * ε * δ := by positivity
    have e2 : 0 ≤ (1 + S) * ε * (1 + ∑ k, |x k|) := by positivity
    nlinarith
  have t2 : δ + ε * (1 + ∑ k, |x k|) + S * ε ≤ δ + (2 + 21 * M + S) * ε * (1 + ∑ k, |x k|) := by
    have e1 : 0 ≤ (1 + 21 * M) * ε * (1 + ∑ k, |x k|) := by positivity
    have e2 : 0 ≤ S * ε * ∑ k, |x k| := by positivity
    nlinarith
  refine ⟨fun t p hcon => ?_, fun hac q hq k => ?_⟩
  · obtain ⟨i, hi⟩ := hcon.mem
    obtain ⟨ct, e, j1, j2, j3⟩ := hmeet.1 t p hcon
    obtain ⟨ct', e', j1', hg', hge⟩ := h.phase p (hcon.lt ht).1
    rw [j1] at j1'
    cases j1'
    rw [hg'.1] at j2
    cases j2
    have := phase_close j3 (fun k => (hcl (t, i) hi k).1) (fun k => (hcl (t, i) hi k).2) hε1 hMX (fun k => (hmot x _ v0 a0 hm (t, i) hi k).1)
      (fun k => by rw [hge]; exact (hmot x _ v0 a0 hm (t, i) hi k).2) (hkin ct (List.mem_of_getElem? j1))
    exact ⟨ct, e, j1, hg'.1, wrenchOk_mono this.1 t1, kinOk_mono this.2 t2⟩
  · have j1 := hmeet.2 hac q hq k
    have j2 := (hcl q hq k).2
    have j3 := abs_sub_abs_le_abs_sub (a q.1 k) (a0 q.1 k)
    have e1 : 0 ≤ (21 * M + S) * ε * (1 + ∑ k, |x k|) := by positivity
    have e2 : 0 ≤ ε * ∑ k, |x k| := by positivity
    nlinarith

/-- C94: the planner on samples when the constraints, the waypoints and the solver all round. For every arithmetic of the solver with the accuracy required
by C88, if the computed rows are given to the solver up to `ρ` and it answers `OPTIMAL`, then the curve built from its answer meets the boundary
conditions as in C81 and the requirements at all samples, with the error of the solver (C88) and an error of the order of the roundings of the data. -/
theorem C94_planner (pData : ProblemData) (Ts : List ℝ) (g : V3) (h : Accepted pData Ts g) (hf : pData.flag ∈ [11#32, 19#32, 27#32, 7#32, 15#32])
    (l : TTime) (hl : Discretisation Ts l) {R : ℝ} (hs : WrenchScale pData Ts.sum l g R) :
    ∃ C u0 : ℝ, 0 ≤ C ∧ 0 < u0 ∧ ∀ u, 0 ≤ u → u ≤ u0 → ∀ F : RowFns, F.Rounded u pData g Ts.sum →
      ∃ A b, F.computeConstraintsOneStep pData Ts.length l = .ok (A, b) ∧
      ∀ (o : Arith ℝ 3) (m : ℕ) (us gs : ℝ) (_ : o.Rounded m us gs) (maxIter : ℕ) (P : FQP ℝ 3) (_ : P.CI.length ≤ m) (J0 : ℕ → Fin 3 → ℝ)
        (x0 : Fin 3 → ℝ) (w : FWork ℝ 3) (ν σ β B X ρ : ℝ) (_ : o.ScaledFp us gs maxIter P J0 ν σ β B) (_ : 0 ≤ X)
        (_ : ∀ q, o.Reach maxIter P J0 (.eq 0 (o.init P J0 x0 w)) q → ∑ k, (st q).x k ^ 2 ≤ X ^ 2) (_ : 0 ≤ ρ) (_ : GivenRows P A b ρ)
        (pts : List V3) (_ : ConstantWaypointsFp u pData.flag pData.bc Ts.sum pts),
      ∃ r s, (∀ fuel ≥ P.CE.length + 2 + maxIter * (3 + 3), o.solve maxIter P J0 x0 w fuel = .ok (r, s)) ∧
        (r = .optimal → ∃ cv v a, computeBezierCurve pData.flag Ts.sum pts s.x = .ok cv ∧ IsDeriv cv.eval v ∧ IsDeriv v a ∧
          MeetsBoundaryFp u (degreeOf pData.flag) pData.flag pData.bc cv.eval Ts.sum ∧
          ∃ δ, δ = fpTol o us gs maxIter P J0 ν σ β B X + ρ * (X + 1) ∧
            MeetsSamplesTol pData l ((R + C * u) * δ + C * u * (1 + 3 * X)) (δ + C * u * (1 + 3 * X)) cv.eval a) := by
  obtain ⟨C, u0, hC, hu0, hall⟩ := C94_rows pData Ts g h hf l hl hs
  refine ⟨C, u0, hC, hu0, fun u hu hu1 F hF => ?_⟩
  obtain ⟨A, b, k1, k2, k3, k4, k5⟩ := hall u hu hu1 F hF
  refine ⟨A, b, k1, ?_⟩
  intro o m us gs ho maxIter P hm J0 x0 w ν σ β B X ρ hS hX hx hρ hP pts hp
  obtain ⟨r, s, hrun, hxs, hsat⟩ := optimal_rows o ho maxIter P hm J0 x0 w hS hX hx hρ hP
  refine ⟨r, s, hrun, fun hr => ?_⟩
  have hδ : 0 ≤ fpTol o us gs maxIter P J0 ν σ β B X + ρ * (X + 1) := by
    have := fpTol_nonneg ho hS hX
    positivity
  have e : ext3 s.x = extN s.x := by
    funext i
    rcases i with _ | _ | _ | i <;> simp [ext3, extN, V3.get]
  obtain ⟨cv, v, a, j1, j2, j3, j4, j5⟩ := k5 pts hp s.x _ hδ (by rw [e]; exact hsat hr)
  refine ⟨cv, v, a, j1, j2, j3, j4, _, rfl, ?_⟩
  have hsum : ∑ k, |s.x k| ≤ 3 * X := by
    have : ∀ k, |s.x k| ≤ X := fun k => abs_le_of_sq_le_sq (le_trans (Finset.single_le_sum (f := fun k => s.x k ^ 2) (fun i _ => sq_nonneg _) (Finset.mem_univ k)) hxs) hX
    calc ∑ k, |s.x k| ≤ ∑ _k : Fin 3, X := Finset.sum_le_sum fun k _ => this k
      _ = 3 * X := by simp
  have hCu : 0 ≤ C * u := mul_nonneg hC hu
  have hd := mul_le_mul_of_nonneg_left hsum hCu
  refine ⟨fun t p hcon => ?_, fun hac q hq k => (j5.2 hac q hq k).trans (by linarith)⟩
  obtain ⟨ct, e', i1, i2, i3, i4⟩ := j5.1 t p hcon
  exact ⟨ct, e', i1, i2, wrenchOk_mono i3 (by linarith), kinOk_mono i4 (by linarith)⟩

theorem mulVec_bound (M : M3) (y : V3) : (M *ᵥ y) ⬝ᵥ (M *ᵥ y) ≤ (∑ i, ∑ j, M i j ^ 2) * (y ⬝ᵥ y) := by
  rw [dotProduct, Finset.sum_mul]
  refine Finset.sum_le_sum fun i _ => ?_
  have := Finset.sum_mul_sq_le_sq_mul_sq Finset.univ (fun j => M i j) y
  rw [← sq, Matrix.mulVec, dotProduct, dotProduct]
  simpa [sq] using this

/-- C94, hypothesis: a bound `R` of the wrench as C94 needs it exists for all accepted data. -/
theorem C94_scale_exists (pData : ProblemData) (Ts : List ℝ) (g : V3) (h : Accepted pData Ts g)
    (hf : pData.flag ∈ [11#32, 19#32, 27#32, 7#32, 15#32]) (l : TTime) (hl : Discretisation Ts l) : ∃ R, WrenchScale pData Ts.sum l g R := by
  obtain ⟨W, CO, AO, -, -, -, -, hmot⟩ := sample_data pData Ts g h hf l hl
  set f : ℝ × ℤ → ℝ := fun q => (∑ i, ∑ j, (W q.1).top i j ^ 2) + ∑ i, ∑ j, (W q.1).bot i j ^ 2 with hfd
  have hf0 : ∀ q, 0 ≤ f q := fun q => by positivity
  set S := (l.map f).sum with hS
  have hS0 : 0 ≤ S := List.sum_nonneg (by intro x hx; obtain ⟨q, -, rfl⟩ := List.mem_map.mp hx; exact hf0 q)
  refine ⟨1 + S, by linarith, fun x c v a x' c' v' a' hm hm' q hq => ?_⟩
  obtain ⟨p1, p2, -, -⟩ := hmot _ _ _ _ hm q.1
  obtain ⟨q1, q2, -, -⟩ := hmot _ _ _ _ hm' q.1
  have d1 : a q.1 - a' q.1 = (W q.1).top *ᵥ (x - x') := by
    rw [← p1, ← q1, mulVec_sub]; simp [Wp6.headAt]
  have d2 : cr (c q.1) (g - a q.1) - cr (c' q.1) (g - a' q.1) = -((W q.1).bot *ᵥ (x - x')) := by
    have : (W q.1).bot *ᵥ (x - x') = (W q.1).tailAt x - (W q.1).tailAt x' := by
      rw [mulVec_sub]; simp [Wp6.tailAt]
    rw [this, p2, q2]; abel
  have h1 := mulVec_bound (W q.1).top (x - x')
  have h2 := mulVec_bound (W q.1).bot (x - x')
  have h3 : f q ≤ S := List.single_le_sum (by intro x hx; obtain ⟨q, -, rfl⟩ := List.mem_map.mp hx; exact hf0 q) _ (List.mem_map.mpr ⟨q, hq, rfl⟩)
  rw [d1, d2, ← dot_eq, ← dot_eq, ← dot_eq, neg_dotProduct_neg]
  have h4 : 0 ≤ (x - x') ⬝ᵥ (x - x') := by rw [dotProduct]; exact Finset.sum_nonneg fun i _ => mul_self_nonneg _
  have h5 : f q * ((x - x') ⬝ᵥ (x - x')) ≤ (1 + S) ^ 2 * ((x - x') ⬝ᵥ (x - x')) := mul_le_mul_of_nonneg_right (by nlinarith) h4
  simp only [hfd] at h5
  nlinarith

end Verif
