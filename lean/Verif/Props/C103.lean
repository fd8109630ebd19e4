import Verif.Lemmas.ZeroMargin

/-!
# C103: the zero step planner with angular momentum, with and without a time step, on problems with a margin

C100 for `solve0step` is without angular momentum and with a time step. Here are the four cases. With angular momentum there must be no kinematic
constraint, because the code mixes up the rows otherwise (C35).
-/

namespace Verif
open Matrix

/-! ## What the problem asks for -/

/-- The control points of the wrench, without a time step. -/
theorem stop_control (pData : ProblemData) (e : Equilibrium) {T timeStep : ℝ} (hT : 0 < T) (hst : timeStep ≤ 0 ∨ T < timeStep) {x xL : V3}
    {dL f τ : ℝ → V3} (hw : StopWrench pData e T x xL dL f τ) {ws us : List Wp6}
    (hws : ComputeAllWaypoints pData.bc.c0 pData.bc.dc0 e.gravity T timeStep = .ok ws)
    (hus : ComputeAllWaypointsAngularMomentum pData.l0 T timeStep = .ok us) {δ : ℝ}
    (h : ∀ k (hk : k < ws.length) (hk' : k < us.length), ConeTol e δ
      (e.mass • (e.gravity - (ws[k]).headAt x) - if pData.useAngularMomentum then (us[k]).headAt xL else 0)
      (e.mass • (-(ws[k]).tailAt x) - if pData.useAngularMomentum then (us[k]).tailAt xL else 0)) :
    ∃ p q : ℕ → V3, (∀ t, f t = bez 4 p (t / T)) ∧ (∀ t, τ t = bez 4 q (t / T)) ∧ ∀ i ≤ 4, ConeTol e δ (p i) (q i) := by
  obtain ⟨v, a, hv, ha, hm, hf, hτ⟩ := hw
  obtain ⟨ws', hws', hl, hW⟩ := C31_continuous pData.bc.c0 pData.bc.dc0 e.gravity T timeStep hT hst
  obtain ⟨us', hus', hl', hU⟩ := C32_waypoints_continuous pData.l0 T timeStep hT hst
  obtain rfl : ws = ws' := Out.ok.inj (hws.symm.trans hws')
  obtain rfl : us = us' := Out.ok.inj (hus.symm.trans hus')
  obtain ⟨v', a', hv', ha', hW⟩ := hW x
  obtain rfl := deriv_unique hv hv'
  obtain rfl := deriv_unique ha ha'
  refine ⟨fun i => e.mass • (e.gravity - (ws[i]!).headAt x) - if pData.useAngularMomentum then (us[i]!).headAt xL else 0,
    fun i => e.mass • (-(ws[i]!).tailAt x) - if pData.useAngularMomentum then (us[i]!).tailAt xL else 0, fun t => ?_, fun t => ?_,
    fun i hi => ?_⟩
  · rw [hf]
    have e1 := (hW t).1
    unfold headCurve at e1
    rw [hl] at e1
    cases hang : pData.useAngularMomentum with
    | true =>
      obtain ⟨dL', hd', hU⟩ := hU xL
      have e3 := (hU t).1
      unfold headCurve at e3
      rw [hl'] at e3
      have e3' : bez 4 (fun i => us[i]!.headAt xL) (t / T) = 0 := e3
      simp only [if_true]
      rw [bez_sub, bez_affine, ← e1, e3', sub_zero]
    | false =>
      simp only [Bool.false_eq_true, if_false, sub_zero]
      rw [bez_affine, ← e1]
  · rw [hτ]
    have e1 := (hW t).2
    unfold tailCurve at e1
    rw [hl] at e1
    have e1' : bez 4 (fun i => ws[i]!.tailAt x) (t / T) = wrenchTail e.gravity (stopCurve pData.bc.c0 pData.bc.dc0 x T t) (a t) := e1
    unfold MomentumRate at hm
    cases hang : pData.useAngularMomentum with
    | true =>
      rw [hang, if_pos rfl] at hm
      obtain ⟨dL', hd', hU⟩ := hU xL
      obtain rfl := deriv_unique hm hd'
      have e3 := (hU t).2
      unfold tailCurve at e3
      rw [hl'] at e3
      have e3' : bez 4 (fun i => us[i]!.tailAt xL) (t / T) = dL t := e3
      simp only [if_true]
      rw [bez_sub, bez_negs, e1', e3', wTail_eq]
    | false =>
      rw [hang, if_neg (by simp)] at hm
      simp only [Bool.false_eq_true, if_false, sub_zero]
      rw [bez_negs, e1', wTail_eq, hm, sub_zero]
  · have := h i (by omega) (by omega)
    dsimp only
    rw [getElem!_pos ws i (by omega), getElem!_pos us i (by omega)]
    exact this

theorem stop_lists (pData : ProblemData) (e : Equilibrium) {T timeStep : ℝ} (hs : GoodStep T timeStep) :
    ∃ ws us, ComputeAllWaypoints pData.bc.c0 pData.bc.dc0 e.gravity T timeStep = .ok ws ∧
      ComputeAllWaypointsAngularMomentum pData.l0 T timeStep = .ok us ∧ ws.length = us.length ∧
      ((timeStep ≤ 0 ∨ T < timeStep) ∧ ws.length = 5 ∨ ∃ N, 1 ≤ N ∧ StepCount T timeStep N ∧ ws.length = N + 1) := by
  have hT := hs.pos
  rcases hs with ⟨-, hst⟩ | ⟨N, hN, hst⟩
  · obtain ⟨ws, hws, hl, -⟩ := C31_continuous pData.bc.c0 pData.bc.dc0 e.gravity T timeStep hT hst
    obtain ⟨us, hus, hl', -⟩ := C32_waypoints_continuous pData.l0 T timeStep hT hst
    exact ⟨ws, us, hws, hus, by omega, Or.inl ⟨hst, hl⟩⟩
  · obtain ⟨ws, hws, hl, -⟩ := C31_discretised pData.bc.c0 pData.bc.dc0 e.gravity T timeStep N hN hst
    obtain ⟨us, hus, hl', -⟩ := C32_waypoints_discretised pData.l0 T timeStep N hN hst
    exact ⟨ws, us, hws, hus, by omega, Or.inr ⟨N, hN, hst, hl⟩⟩

/-- C103. The meaning of the inequalities in the four cases: a point satisfies them exactly when the motion it stands for satisfies
the kinematic constraints (without angular momentum) and the wrench is in the cone: its five control points without a time step, its values at
the samples with one. -/
theorem C103_exact (pData : ProblemData) (ct : ContactData) (e : Equilibrium) (h : ZeroContact ct e) {T timeStep : ℝ}
    (hs : GoodStep T timeStep) (hkin : pData.useAngularMomentum = true → ct.kin = []) :
    ∃ A b, zeroStepInequalities ct pData.bc.c0 pData.bc.dc0 pData.l0 pData.useAngularMomentum T timeStep = .ok (A, b) ∧
      ∀ y dL, MomentumRate pData.useAngularMomentum pData.l0 (last3 y) T dL →
        (Sat A b y ↔ StopTol pData ct e T timeStep 0 (first3 y) (last3 y) dL) := by
  have hT := hs.pos
  obtain ⟨ws, us, hws, hus, hlen, -⟩ := stop_lists pData e hs
  obtain ⟨R, hR⟩ : ∃ R, ZeroScale ct e pData.bc.c0 pData.bc.dc0 T R := by
    have hk : ∃ R0, ∀ K ∈ ct.Kin, len K ≤ R0 := by
      induction ct.Kin with
      | nil => exact ⟨0, by simp⟩
      | cons K l ih =>
        obtain ⟨R0, h0⟩ := ih
        exact ⟨max (len K) R0, fun K' hK' => by
          rcases List.mem_cons.mp hK' with rfl | h
          · exact le_max_left _ _
          · exact (h0 K' h).trans (le_max_right _ _)⟩
    obtain ⟨R0, h0⟩ := hk
    exact ⟨max R0 (max (|e.mass| * (6 / (T * T) * (1 + len pData.bc.c0 + T * len pData.bc.dc0) + len e.gravity)) (3 / T)),
      fun K hK => (h0 K hK).trans (le_max_left _ _), (le_max_left _ _).trans (le_max_right _ _),
      (le_max_right _ _).trans (le_max_right _ _)⟩
  obtain ⟨A, b, hA, hc, hb, hb1, hrw, -, hsem⟩ := zeroStep_system ct e h pData.bc.c0 pData.bc.dc0 pData.l0 pData.useAngularMomentum hs hR
    hws hus hlen
  refine ⟨A, b, hA, fun y dL hm => ⟨fun hy => ?_, fun hy => ?_⟩⟩
  · obtain ⟨hcone, hkn⟩ := hsem 0 y ((satTol_zero A b y).mpr hy)
    obtain ⟨v, a, hv, ha⟩ : ∃ v a, IsDeriv (stopCurve pData.bc.c0 pData.bc.dc0 (first3 y) T) v ∧ IsDeriv v a :=
      ⟨_, _, curve_isDeriv 2 _ T, curve_isDeriv 1 _ T⟩
    have hw : StopWrench pData e T (first3 y) (last3 y) dL (fun t => e.mass • (e.gravity - a t))
        fun t => e.mass • cr (stopCurve pData.bc.c0 pData.bc.dc0 (first3 y) T t) (e.gravity - a t) - dL t :=
      ⟨v, a, hv, ha, hm, fun _ => rfl, fun _ => rfl⟩
    refine ⟨⟨_, _, hw, fun hst => stop_control pData e hT hst hw hws hus hcone, fun N hN hst i hi => ?_⟩, hkn⟩
    obtain ⟨ws', us', hws', hus', -, -, hS⟩ := coneFrom_discretised pData e hN hst
    obtain rfl : ws = ws' := Out.ok.inj (hws.symm.trans hws')
    obtain rfl : us = us' := Out.ok.inj (hus.symm.trans hus')
    exact hS 0 _ _ v a dL hv ha hm hcone _ ⟨i, hi, rfl⟩
  · have := stop_rows pData ct e h hs hkin hy hA hws hus hlen
    rw [neg_zero] at this
    have hsat := this.sat
    intro r hr
    refine le_trans (le_of_eq (Finset.sum_congr rfl fun c hc' => ?_)) (hsat r hr)
    congr 1
    have hc6 : c < 6 := by
      have := Finset.mem_range.mp hc'
      rw [hc] at this
      split at this <;> omega
    unfold stopVar
    interval_cases c <;> simp [V3.get, first3, last3]

/-! ## Cost -/

/-- The cost of a motion: with angular momentum `T` times the integral of the squared norm of the derivative of the momentum, plus
the squared distance with weight 0.0001; without, the squared distance from `c0` to the point where it stops. -/
noncomputable def stopEffort (pData : ProblemData) (T : ℝ) (x : V3) (dL : ℝ → V3) : ℝ :=
  if pData.useAngularMomentum then (T * ∫ t in (0 : ℝ)..T, dot (dL t) (dL t)) + 0.0001 * dot (x - pData.bc.c0) (x - pData.bc.c0)
  else dot (x - pData.bc.c0) (x - pData.bc.c0)

/-- How far the cost is from the least cost without constraints. -/
noncomputable def stopExcess (pData : ProblemData) (x xL : V3) : ℝ :=
  if pData.useAngularMomentum then 6 / 5 * dot (xL - (3 / 4 : ℝ) • pData.l0) (xL - (3 / 4 : ℝ) • pData.l0)
    + 0.0001 * dot (x - pData.bc.c0) (x - pData.bc.c0)
  else dot (x - pData.bc.c0) (x - pData.bc.c0)

theorem angularCost_integral {l0 xL : V3} {T : ℝ} (hT : 0 < T) {dL : ℝ → V3} (h : IsDeriv (momentumCurve l0 xL T) dL) :
    T * (∫ t in (0 : ℝ)..T, dot (dL t) (dL t)) = angularCost l0 xL := by
  obtain rfl := deriv_unique h (curve_isDeriv 2 _ T)
  have e : ∀ t, dot (curve 2 (hodo (2 + 1) (fun i => [l0, xL, 0, 0].getD i 0) T) T t)
      (curve 2 (hodo (2 + 1) (fun i => [l0, xL, 0, 0].getD i 0) T) T t) = momPoly l0 xL T (t / T) := by
    intro t
    unfold curve momPoly
    generalize t / T = u
    simp [dot, bez_apply, bezS2, hodo]
    field_simp
    ring
  simp only [e]
  rw [intervalIntegral.integral_comp_div (momPoly l0 xL T) hT.ne', zero_div, div_self hT.ne']
  unfold momPoly
  rw [integral_poly4]
  simp [dot, angularCost]
  field_simp
  ring

theorem stop_quad (pData : ProblemData) {T : ℝ} (hT : 0 < T) : ∃ K, ∀ y dL, MomentumRate pData.useAngularMomentum pData.l0 (last3 y) T dL →
    quadForm (zeroStepCost pData.bc.c0 pData.l0 pData.useAngularMomentum).1 (zeroStepCost pData.bc.c0 pData.l0 pData.useAngularMomentum).2
      (if pData.useAngularMomentum then 6 else 3) y = stopEffort pData T (first3 y) dL - K := by
  unfold stopEffort
  cases hang : pData.useAngularMomentum with
  | true =>
    obtain ⟨K, hK⟩ := C33_qp_angular pData.bc.c0 pData.l0
    refine ⟨K, fun y dL hd => ?_⟩
    simp only [if_true]
    unfold MomentumRate at hd
    rw [if_pos rfl] at hd
    rw [hK, angularCost_integral hT hd]
  | false =>
    obtain ⟨K, hK⟩ := C33_qp_distance pData.bc.c0 pData.l0
    refine ⟨K, fun y dL _ => ?_⟩
    simp only [Bool.false_eq_true, if_false]
    exact hK y

theorem exists_rate (useAng : Bool) (l0 xL : V3) (T : ℝ) : ∃ dL, MomentumRate useAng l0 xL T dL := by
  unfold MomentumRate
  cases useAng with
  | true => exact ⟨_, curve_isDeriv 2 _ T⟩
  | false => exact ⟨_, rfl⟩

theorem stop_excess (pData : ProblemData) {T : ℝ} (hT : 0 < T) {x xL x' xL' : V3} {dL dL' : ℝ → V3}
    (h : MomentumRate pData.useAngularMomentum pData.l0 xL T dL) (h' : MomentumRate pData.useAngularMomentum pData.l0 xL' T dL') :
    stopEffort pData T x dL - stopEffort pData T x' dL' ≤ stopExcess pData x xL := by
  unfold stopEffort stopExcess
  unfold MomentumRate at h h'
  have hd := dot_nonneg (x' - pData.bc.c0)
  cases hang : pData.useAngularMomentum with
  | true =>
    rw [hang, if_pos rfl] at h h'
    simp only [if_true]
    rw [angularCost_integral hT h, angularCost_integral hT h']
    have key : ∀ z : V3, angularCost pData.l0 z = 6 / 5 * dot (z - (3 / 4 : ℝ) • pData.l0) (z - (3 / 4 : ℝ) • pData.l0)
        + 9 / 8 * dot pData.l0 pData.l0 := by
      intro z
      simp [angularCost, dot]
      ring
    rw [key, key]
    have := dot_nonneg (xL' - (3 / 4 : ℝ) • pData.l0)
    linarith
  | false =>
    simp only [Bool.false_eq_true, if_false]
    linarith

/-- The square of the largest eigenvalue of the cost. -/
noncomputable def zeroSpan (useAng : Bool) : ℝ := if useAng then 36 / 25 else 1

theorem zeroCost_span (c0 l0 : V3) (useAng : Bool) (n : ℕ) (v : VecN n) :
    (fun i j : Fin n => (zeroStepCost c0 l0 useAng).1.e i j : Matrix (Fin n) (Fin n) ℝ) *ᵥ v ⬝ᵥ
      (fun i j : Fin n => (zeroStepCost c0 l0 useAng).1.e i j : Matrix (Fin n) (Fin n) ℝ) *ᵥ v ≤ (36 / 25 : ℝ) * (v ⬝ᵥ v) := by
  have : (fun i j : Fin n => (zeroStepCost c0 l0 useAng).1.e i j : Matrix (Fin n) (Fin n) ℝ)
      = Matrix.diagonal fun i : Fin n => if i.val < 3 then (if useAng then (0.0001 : ℝ) else 1) else 6 / 5 := by
    ext i j
    simp only [zeroStepCost, Matrix.diagonal_apply]
    by_cases hij : i = j
    · subst hij
      by_cases h3 : i.val < 3
      · simp [h3]
      · simp [h3, not_lt.mp h3]
    · have hv : i.val ≠ j.val := fun h => hij (Fin.ext h)
      simp [hij, hv]
  rw [this]
  simp only [dotProduct, Matrix.mulVec_diagonal]
  rw [Finset.mul_sum]
  refine Finset.sum_le_sum fun i _ => ?_
  have hc : (if i.val < 3 then (if useAng then (0.0001 : ℝ) else 1) else 6 / 5) ^ 2 ≤ 36 / 25 := by
    split_ifs <;> norm_num
  have := mul_le_mul_of_nonneg_right hc (mul_self_nonneg (v i))
  refine le_trans (le_of_eq ?_) this
  ring

theorem zeroCost_span' (c0 l0 : V3) (useAng : Bool) (v : VecN (if useAng then 6 else 3)) :
    (fun i j : Fin (if useAng then 6 else 3) => (zeroStepCost c0 l0 useAng).1.e i j : Matrix _ _ ℝ) *ᵥ v ⬝ᵥ
      (fun i j : Fin (if useAng then 6 else 3) => (zeroStepCost c0 l0 useAng).1.e i j : Matrix _ _ ℝ) *ᵥ v ≤ zeroSpan useAng * (v ⬝ᵥ v) := by
  cases useAng with
  | true => exact zeroCost_span _ _ _ _ v
  | false => simpa [zeroSpan] using zeroCost_le c0 l0 v

/-- The result of `solve0step` is made from that of the solver. -/
theorem zeroStepResult_fields {pData : ProblemData} {T : ℝ} {q : ResultData} {r : ResultDataCOMTraj} (hres : zeroStepResult pData T q = .ok r) :
    r.success = q.success ∧ (q.success = true → r.x = q.x) := by
  unfold zeroStepResult at hres
  cases hq : q.success with
  | true =>
    rw [if_pos hq] at hres
    obtain ⟨_, -, hres⟩ := Out.bind_eq_ok.mp hres
    obtain ⟨_, -, hres⟩ := Out.bind_eq_ok.mp hres
    obtain ⟨_, -, hres⟩ := Out.bind_eq_ok.mp hres
    obtain rfl := Out.ok.inj hres
    exact ⟨rfl, fun _ => rfl⟩
  | false =>
    rw [if_neg (by simp [hq])] at hres
    obtain rfl := Out.ok.inj hres
    exact ⟨rfl, fun h => (by cases h)⟩

/-- The answer of C75 in the four cases. -/
theorem stop_answer (lib : Lib) (hL : LibOk lib) (he : 0 ≤ lib.eps) (pData : ProblemData) (ct : ContactData)
    (e : Equilibrium) (h : ZeroContact ct e) (hct : pData.contacts = [ct])
    (hrep : pData.representation = DOUBLE_DESCRIPTION) (T timeStep R : ℝ)
    (hR : ZeroScale ct e pData.bc.c0 pData.bc.dc0 T R) (hT : 0 < T)
    (h1 : lib.eps ≤ zeroCurv pData.useAngularMomentum) (h2 : lib.eps * (2 * R ^ 2) ≤ zeroCurv pData.useAngularMomentum ^ 2) {n : ℕ}
    (hn : (timeStep ≤ 0 ∨ T < timeStep) ∧ n = 5 ∨ ∃ N, 1 ≤ N ∧ StepCount T timeStep N ∧ n = N + 1) :
    ∃ r F, (∀ fuel ≥ F, solve0step lib fuel pData [T] timeStep = .ok r) ∧ (r.success = true →
      ZeroAnswer pData ct e T (zeroTol lib.eps pData.useAngularMomentum
          (n * e.poly.length + (ct.kin.length + if pData.useAngularMomentum then ct.ang.length else 0)))
        (fun t => (timeStep ≤ 0 ∨ T < timeStep) ∧ 0 ≤ t ∧ t ≤ T ∨ ∃ N, 1 ≤ N ∧ StepCount T timeStep N ∧ ∃ i : ℕ, i ≤ N ∧ t = i * (T / N)) r) := by
  obtain ⟨hcont, hdisc⟩ := C75_tolerance lib hL he pData ct e h hct hrep T timeStep R hR h1 h2
  have hexcl : ∀ N, 1 ≤ N → StepCount T timeStep N → ¬ (timeStep ≤ 0 ∨ T < timeStep) := by
    intro N hN hc hor
    have hN' : (1 : ℝ) ≤ N := by exact_mod_cast hN
    have := hc.pos
    have := hc.lo
    rcases hor with h | h
    · linarith
    · nlinarith
  rcases hn with ⟨hst, rfl⟩ | ⟨N, hN, hst, rfl⟩
  · obtain ⟨r, F, hr, hans⟩ := hcont hT hst
    refine ⟨r, F, hr, fun hsu => ?_⟩
    obtain ⟨v, a, p1, p2, p3, p4, p5, p6, p7, p8⟩ := hans hsu
    refine ⟨v, a, p1, p2, p3, p4, p5, p6, p7, fun t ht => ?_⟩
    rcases ht with ⟨-, ht⟩ | ⟨N, hN, hc, -⟩
    · exact p8 t ht
    · exact absurd hst (hexcl N hN hc)
  · obtain ⟨r, F, hr, hans⟩ := hdisc N hN hst
    refine ⟨r, F, hr, fun hsu => ?_⟩
    obtain ⟨v, a, p1, p2, p3, p4, p5, p6, p7, p8⟩ := hans hsu
    refine ⟨v, a, p1, p2, p3, p4, p5, p6, p7, fun t ht => ?_⟩
    rcases ht with ⟨ho, -⟩ | ⟨N', hN', hc, i, hi, rfl⟩
    · exact absurd ho (hexcl N hN hst)
    · have : N' = N := by
        have := numSteps_eq hc
        rw [numSteps_eq hst] at this
        have := Out.ok.inj this
        omega
      subst this
      exact p8 _ ⟨i, hi, rfl⟩

/-! ## C103 -/

/-- C103. `solve0step`, with or without angular momentum, with or without a time step. If some motion that stops satisfies the constraints with
the margin `m`, and the margin is large compared to the threshold of the solver, then `solve0step` succeeds, or the QP solver uses up its
iterations. The motion of the answer satisfies the constraints up to the tolerance, and no admissible motion has a cost smaller by more than the
given amount. -/
theorem C103_stop (lib : Lib) (hL : LibOk lib) (he : 0 ≤ lib.eps) (pData : ProblemData) (ct : ContactData)
    (e : Equilibrium) (h : ZeroContact ct e) (hct : pData.contacts = [ct])
    (hrep : pData.representation = DOUBLE_DESCRIPTION) (hkin : pData.useAngularMomentum = true → ct.kin = []) (T timeStep R : ℝ)
    (hs : GoodStep T timeStep) (hR : ZeroScale ct e pData.bc.c0 pData.bc.dc0 T R)
    (h1 : lib.eps ≤ zeroCurv pData.useAngularMomentum) (h2 : lib.eps * (2 * R ^ 2) ≤ zeroCurv pData.useAngularMomentum ^ 2)
    {m : ℝ} (hm : 0 < m) {x xL : V3} {dL : ℝ → V3} (hmar : StopTol pData ct e T timeStep (-m) x xL dL) (hi : 1 ≤ lib.maxIter)
    (hc : 32 * lib.maxIter ^ 2 * zeroSpan pData.useAngularMomentum * lib.eps * stopExcess pData x xL
      ≤ zeroCurv pData.useAngularMomentum * m ^ 2) :
    ∃ A b, zeroStepInequalities ct pData.bc.c0 pData.bc.dc0 pData.l0 pData.useAngularMomentum T timeStep = .ok (A, b) ∧
      ∃ r M, (∀ fuel ≥ M, solve0step lib fuel pData [T] timeStep = .ok r) ∧
        (r.success = true ∨ ∃ o, ∀ fuel ≥ M, callQuadprog lib fuel (zeroStepCost pData.bc.c0 pData.l0 pData.useAngularMomentum).1
          (zeroStepCost pData.bc.c0 pData.l0 pData.useAngularMomentum).2 (Mat.noRows A.cols) (Mat.noRows 1).neg A.neg b
            = .ok (.maxIterReached, o)) ∧
        (r.success = true →
          ZeroAnswer pData ct e T (zeroTol lib.eps pData.useAngularMomentum A.rows)
            (fun t => (timeStep ≤ 0 ∨ T < timeStep) ∧ 0 ≤ t ∧ t ≤ T ∨ ∃ N, 1 ≤ N ∧ StepCount T timeStep N ∧ ∃ i : ℕ, i ≤ N ∧ t = i * (T / N)) r ∧
          ∀ x' xL' dL', StopTol pData ct e T timeStep 0 x' xL' dL' →
            stopEffort pData T (r.c_of_t.eval T) r.dL_of_t.eval ≤ stopEffort pData T x' dL' +
              4 * lib.maxIter ^ 2 * zeroSpan pData.useAngularMomentum * lib.eps * stopExcess pData x xL ^ 2
                / (zeroCurv pData.useAngularMomentum * m ^ 2)) := by
  have hT := hs.pos
  obtain ⟨ws, us, hws, hus, hlen, hmode⟩ := stop_lists pData e hs
  obtain ⟨A, b, hA, hcol, hb, hb1, hrw, hnorm, -⟩ := zeroStep_system ct e h pData.bc.c0 pData.bc.dc0 pData.l0 pData.useAngularMomentum hs hR
    hws hus hlen
  refine ⟨A, b, hA, ?_⟩
  set Hg := zeroStepCost pData.bc.c0 pData.l0 pData.useAngularMomentum with hHg
  have hrows : Hg.2.rows = if pData.useAngularMomentum then 6 else 3 := rfl
  have hfit : Fits A b (Mat.noRows A.cols) (Mat.noRows 1) Hg.1 Hg.2 :=
    ⟨⟨rfl, rfl⟩, ⟨hb, hb1, by rw [hcol, hrows]⟩, ⟨rfl, by rw [hrows, ← hcol]; rfl⟩⟩
  have hk : 0 < zeroCurv pData.useAngularMomentum := by unfold zeroCurv; split_ifs <;> norm_num
  have hΛ : 0 ≤ zeroSpan pData.useAngularMomentum := by unfold zeroSpan; split_ifs <;> norm_num
  have hsq : (Real.sqrt 2 * R) ^ 2 = 2 * R ^ 2 := by rw [mul_pow, Real.sq_sqrt (by norm_num)]
  obtain ⟨K, hK⟩ := stop_quad pData hT
  have hrate : MomentumRate pData.useAngularMomentum pData.l0 xL T dL := by
    obtain ⟨⟨f, τ, ⟨v, a, -, -, hmr, -⟩, -⟩, -⟩ := hmar
    exact hmr
  have hmarg := stop_rows pData ct e h hs hkin hmar hA hws hus hlen
  rw [neg_neg] at hmarg
  obtain ⟨q, M, hrun, hql, hfound, hgood⟩ := solve_margin_gen lib hL he hk hfit rfl (zeroStepInit pData) (R := Real.sqrt 2 * R)
    (zeroCost_posDef _ _ _ _) (zeroCost_ge _ _ _ _) hΛ (zeroCost_span' _ _ _)
    (by rw [hrows, hsq]; exact hnorm) h1 (by rw [hsq]; exact h2) hm (stopVar x xL) hmarg (F := stopExcess pData x xL)
    (fun y => by
      obtain ⟨dLy, hdy⟩ := exists_rate pData.useAngularMomentum pData.l0 (last3 y) T
      rw [hrows, hK y dLy hdy, hK (stopVar x xL) dL (by rw [last3_stopVar]; exact hrate), first3_stopVar]
      have := stop_excess pData hT (x := x) (x' := first3 y) hrate hdy
      linarith) hi hc
  obtain ⟨r, M', hr, hans⟩ := stop_answer lib hL he pData ct e h hct hrep T timeStep R hR hT h1 h2 hmode
  have hsolve : ∀ fuel ≥ M, solve0step lib fuel pData [T] timeStep = zeroStepResult pData T q := by
    intro fuel hf
    unfold solve0step
    rw [if_pos hrep, hct]
    dsimp only
    rw [hA, Out.ok_bind]
    dsimp only
    rw [hrun fuel hf, Out.ok_bind]
  have hres : zeroStepResult pData T q = .ok r := by
    rw [← hsolve (max M M') (le_max_left _ _)]
    exact hr _ (le_max_right _ _)
  have hsx := zeroStepResult_fields hres
  refine ⟨r, max M M', fun fuel hf => hr fuel ((le_max_right _ _).trans hf), ?_, fun hrs => ⟨?_, ?_⟩⟩
  · rcases hfound with hq | ⟨o, ho⟩
    · exact Or.inl (hsx.1.trans hq)
    · exact Or.inr ⟨o, fun fuel hf => ho fuel ((le_max_left _ _).trans hf)⟩
  · rw [hrw]
    exact hans hrs
  · intro x' xL' dL' hx'
    have hqs : q.success = true := hsx.1.symm.trans hrs
    obtain ⟨-, hopt⟩ := hgood hqs
    have hs0 := stop_rows pData ct e h hs hkin hx' hA hws hus hlen
    rw [neg_zero] at hs0
    have hle := hopt _ hs0.sat
    have hrate' : MomentumRate pData.useAngularMomentum pData.l0 xL' T dL' := by
      obtain ⟨⟨f, τ, ⟨v, a, -, -, hmr, -⟩, -⟩, -⟩ := hx'
      exact hmr
    obtain ⟨T', z, v, hT', -, hz, -, -, -, -, -, hzT, -⟩ := C30_stops (hr M' le_rfl) hrs
    obtain rfl : T = T' := by simpa using hT'
    have hz1 : z = first3 (unk q.x) := by
      rw [hsx.2 hqs] at hz
      unfold head3 at hz
      split at hz
      · simp at hz; rw [← hz]; rfl
      · simp at hz
    have hrr : MomentumRate pData.useAngularMomentum pData.l0 (last3 (unk q.x)) T r.dL_of_t.eval := by
      unfold MomentumRate
      cases hang : pData.useAngularMomentum with
      | true =>
        rw [if_pos rfl]
        obtain ⟨T', zL, hT2, -, hzL, -, hd, -⟩ := C32_returned (hr M' le_rfl) hrs hang
        obtain rfl : T = T' := by simpa using hT2
        have : zL = last3 (unk q.x) := by
          rw [hsx.2 hqs] at hzL
          unfold tail3 at hzL
          rw [hql, hrows, hang] at hzL
          simp at hzL
          rw [← hzL]
          rfl
        rw [this] at hd
        exact hd
      | false =>
        rw [if_neg (by simp)]
        funext t
        exact C32_none (hr M' le_rfl) hrs hang t
    rw [hrows, hK _ _ hrr, hK _ dL' (by rw [last3_stopVar]; exact hrate'), first3_stopVar, ← hz1, ← hzT] at hle
    linarith

/-! ## An instance -/

/-- The vertical force must outweigh the torque about the first axis. -/
noncomputable def spinPhase : Equilibrium :=
  { mass := 2, gravity := ![0, 0, -10], poly := [((![0, 0, 1], ![1, 0, 0]), 0)], polyOk := true, isPP := true, gens := [] }

noncomputable def spinContact : ContactData := { contactPhase := some spinPhase, Kin := [], kin := [], Ang := [], ang := [] }

/-- A robot at rest with angular momentum 13 about the first axis. The cheapest momentum curve (`xL = 9.75`) is not admissible. -/
noncomputable def spinProblem : ProblemData :=
  { restProblem with contacts := [spinContact], useAngularMomentum := true, l0 := ![13, 0, 0] }

theorem spin_stop : StopTol spinProblem spinContact spinPhase 1 (-1) (-(1 / 4)) 0 ![7, 0, 0]
    (fun t => ![-18 * (1 - t) ^ 2 - 42 * t * (1 - t), 0, 0]) := by
  have hz : stopCurve 0 0 0 1 = fun _ => 0 := by
    funext s k
    rw [stopCurve, curve, bez_apply, bezS3]
    simp
  have hv : IsDeriv (stopCurve 0 0 0 1) fun _ => 0 := by rw [hz]; exact fun t => hasDerivAt_const t _
  have hm : IsDeriv (momentumCurve ![13, 0, 0] ![7, 0, 0] 1) fun t => ![-18 * (1 - t) ^ 2 - 42 * t * (1 - t), 0, 0] := by
    have := curve_isDeriv 2 (fun i => [(![13, 0, 0] : V3), ![7, 0, 0], 0, 0].getD i 0) 1
    have e : curve 2 (hodo (2 + 1) (fun i => [(![13, 0, 0] : V3), ![7, 0, 0], 0, 0].getD i 0) 1) 1
        = fun t => ![-18 * (1 - t) ^ 2 - 42 * t * (1 - t), 0, 0] := by
      funext t k
      unfold curve
      rw [bez_apply, bezS2]
      fin_cases k <;> simp [hodo]
      ring
    rw [← e]
    exact this
  refine ⟨⟨fun _ => ![0, 0, -20], fun t => ![18 * (1 - t) ^ 2 + 42 * t * (1 - t), 0, 0],
    ⟨fun _ => 0, fun _ => 0, hv, fun t => hasDerivAt_const t _, ?_, ?_, ?_⟩, ⟨fun _ => ?_, ?_⟩⟩, ?_⟩
  · unfold MomentumRate
    rw [if_pos (show spinProblem.useAngularMomentum = true from rfl)]
    exact hm
  · intro t
    funext k
    fin_cases k <;> simp [spinPhase]
    norm_num
  · intro t
    have h0 : stopCurve spinProblem.bc.c0 spinProblem.bc.dc0 0 1 t = 0 := congrFun hz t
    rw [h0]
    funext k
    fin_cases k <;> simp [cr]
    ring
  · refine ⟨fun _ => ![0, 0, -20], fun i => ![[18, 39 / 2, 17, 21 / 2, 0].getD i 0, 0, 0], fun t => (bez_const _ _ _).symm, fun t => ?_, ?_⟩
    · funext k
      rw [bez_apply, bezS4]
      fin_cases k <;> simp
      ring
    · intro i hi r hr
      simp [spinPhase] at hr
      subst hr
      have h2 : Real.sqrt 2 ≤ 2 := by
        rw [show (2 : ℝ) = Real.sqrt 4 by rw [show (4 : ℝ) = 2 ^ 2 by norm_num, Real.sqrt_sq (by norm_num)]]
        exact Real.sqrt_le_sqrt (by rw [show Real.sqrt 4 = 2 by rw [show (4 : ℝ) = 2 ^ 2 by norm_num, Real.sqrt_sq (by norm_num)]]; norm_num)
      have e2 : Real.sqrt (dot ![0, 0, 1] ![0, 0, 1] + dot ![1, 0, 0] ![1, 0, 0]) = Real.sqrt 2 := by
        congr 1; simp [dot]; norm_num
      dsimp only
      rw [e2]
      interval_cases i <;> simp [dot] <;> linarith
  · intro N hN hs
    have := hs.pos
    norm_num at this
  · intro h
    simp [spinProblem] at h

/-- With the threshold of doubles and one thousand iterations, that robot has the margin one quarter. -/
theorem spinProblem_margin (lib : Lib) (hL : LibOk lib) (he : lib.eps = dblEps) (hm : lib.maxIter = 1000) :
    ∃ A b, zeroStepInequalities spinContact 0 0 ![13, 0, 0] true 1 (-1) = .ok (A, b) ∧
      ∃ r M, (∀ fuel ≥ M, solve0step lib fuel spinProblem [1] (-1) = .ok r) ∧
        (r.success = true ∨ ∃ o, ∀ fuel ≥ M, callQuadprog lib fuel (zeroStepCost 0 ![13, 0, 0] true).1
          (zeroStepCost 0 ![13, 0, 0] true).2 (Mat.noRows A.cols) (Mat.noRows 1).neg A.neg b = .ok (.maxIterReached, o)) := by
  have hl0 : len 0 = 0 := by simp [len, dot]
  have hlg : len ![0, 0, -10] = 10 := by
    rw [len, show dot ![0, 0, -10] ![0, 0, -10] = (10 : ℝ) ^ 2 by simp [dot]; norm_num, Real.sqrt_sq (by norm_num)]
  obtain ⟨A, b, hA, r, M, hr, hfound, -⟩ := C103_stop lib hL (by rw [he, dblEps]; norm_num) spinProblem spinContact spinPhase
    ⟨rfl, rfl, rfl, by
      intro r hr
      simp [spinPhase] at hr
      subst hr
      intro h0
      have := congrFun (congrArg Prod.fst h0) 2
      simp at this, fun h => absurd rfl h⟩ rfl rfl (fun _ => rfl) 1 (-1) 32
    (Or.inl ⟨one_pos, Or.inl (by norm_num)⟩)
    ⟨by simp [spinContact], by
      simp only [spinPhase, spinProblem, restProblem, hl0, hlg]
      norm_num, by norm_num⟩
    (by rw [he, dblEps]; simp only [zeroCurv, spinProblem]; norm_num) (by rw [he, dblEps]; simp only [zeroCurv, spinProblem]; norm_num)
    (m := 1 / 4) (by norm_num) spin_stop (by omega)
    (by
      rw [hm, he, dblEps]
      simp [zeroCurv, zeroSpan, stopExcess, dot, spinProblem, restProblem]
      norm_num)
  exact ⟨A, b, hA, r, M, hr, hfound⟩

end Verif
