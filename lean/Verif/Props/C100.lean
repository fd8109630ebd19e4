import Verif.Props.C75
import Verif.Props.C76
import Verif.Lemmas.SolveMarginGen

/-!
# C100: the zero step planner and the end effector planner on problems with a margin

The threshold of the solver is as in the code. If some admissible motion has a margin, the planner succeeds unless the solver uses up its
iterations, and the cost of its answer is close to the least one.
-/

namespace Verif
open Matrix

/-! ## The zero step planner -/

/-- A row holds with a margin if the half space does. -/
theorem plain_margin {m : ℝ} {g x : V3} {r : V3 × V3} (hr : r ≠ 0) {w : Wp6} {a : ℕ → ℝ} {β δ : ℝ}
    (h : LoopRow m g (unitRow r) w a β)
    (hs : dot r.1 (m • (g - w.headAt x)) + dot r.2 (m • (-w.tailAt x)) ≤ δ * Real.sqrt (dot r.1 r.1 + dot r.2 r.2)) :
    seg3 a 0 ⬝ᵥ x ≤ β + δ := by
  have hp := norm6_pos hr
  rw [h.fst, h.rhs]
  have key : (m • rowMul (unitRow r) w) ⬝ᵥ x - m * rowDot (unitRow r) (g - w.head) (0 - w.tail)
      = (norm6 r)⁻¹ * (dot r.1 (m • (g - w.headAt x)) + dot r.2 (m • (-w.tailAt x))) := by
    unfold rowMul rowDot unitRow
    rw [smul_dotProduct, add_dotProduct, ← dotProduct_mulVec, ← dotProduct_mulVec]
    simp only [Wp6.headAt, Wp6.tailAt, dot_eq, dot, Pi.smul_apply, Pi.neg_apply, Pi.sub_apply,
      Pi.add_apply, smul_eq_mul, Pi.zero_apply]
    ring
  have e : norm6 r = Real.sqrt (dot r.1 r.1 + dot r.2 r.2) := by unfold norm6; rw [dot_eq, dot_eq]
  rw [← e] at hs
  have h1 : (norm6 r)⁻¹ * (dot r.1 (m • (g - w.headAt x)) + dot r.2 (m • (-w.tailAt x))) ≤ δ := by
    rw [inv_mul_le_iff₀ hp, mul_comm]
    exact hs
  linarith

/-- The system of the zero step problem holds up to `δ` at an end point when the motion does. -/
theorem zeroStep_rows_hold (ct : ContactData) (e : Equilibrium) (h : ZeroContact ct e) (c0 dc0 l0 : V3)
    {T timeStep : ℝ} {N : ℕ} (hN : 1 ≤ N) (hs : StepCount T timeStep N) {A b : Mat}
    (hA : zeroStepInequalities ct c0 dc0 l0 false T timeStep = .ok (A, b)) {δ : ℝ} {y : ℕ → ℝ} {v a : ℝ → V3}
    (hv : IsDeriv (stopCurve c0 dc0 (first3 y) T) v) (ha : IsDeriv v a)
    (hcone : ∀ i : ℕ, i ≤ N → ConeTol e δ (e.mass • (e.gravity - a (i * (T / N))))
      (e.mass • cr (stopCurve c0 dc0 (first3 y) T (i * (T / N))) (e.gravity - a (i * (T / N)))))
    (hkin : KinTol ct δ (first3 y)) : SatTol A b δ y := by
  obtain ⟨ws, hws, hl, hw⟩ := C31_discretised c0 dc0 e.gravity T timeStep N hN hs
  obtain ⟨v', a', hv', ha', hW⟩ := hw (first3 y)
  obtain rfl := deriv_unique hv hv'
  obtain rfl := deriv_unique ha ha'
  have h4 := h.2.2.2.1
  obtain ⟨A', b', hA', k1, k2, k3, k4, hst, hk⟩ := ineq_plain_rows ct e h ws []
  have : zeroStepInequalities ct c0 dc0 l0 false T timeStep = .ok (A', b') := by
    unfold zeroStepInequalities angularWaypoints
    rw [h.1]
    dsimp only
    rw [hws, Out.ok_bind]
    simp only [Bool.false_eq_true, if_false, Out.ok_bind]
    exact hA'
  rw [hA] at this
  cases this
  intro r hr
  rw [k1, sum_first]
  by_cases hlt : r < ws.length * e.poly.length
  · obtain ⟨k, hkl, j, hj, rfl⟩ := split_index hlt
    rw [zero_add]
    refine plain_margin (h4 _ (List.getElem_mem hj)) (hst k hkl j hj) ?_
    have := hcone k (by omega) _ (List.getElem_mem hj)
    rw [(hW k hkl).1, (hW k hkl).2, wTail_eq]
    exact this
  · obtain ⟨i, rfl⟩ : ∃ i, r = ws.length * e.poly.length + i := ⟨r - ws.length * e.poly.length, by omega⟩
    have hi : i < ct.kin.length := by omega
    have hk0 : ct.kin ≠ [] := by intro h0; simp [h0] at hi
    rw [(hk i hi).1, (hk i hi).2, dot_eq]
    exact (kin_zip_iff (h.2.2.2.2 hk0) fun K k => dot K (first3 y) ≤ k + δ).mp hkin i hi

theorem kinTol_zero (ct : ContactData) (x : V3) : KinTol ct 0 x ↔ KinOk ct x := by
  simp [KinTol, KinOk]

theorem coneTol_zero (e : Equilibrium) (f τ : V3) : ConeTol e 0 f τ ↔ ConeOk e f τ := by
  simp [ConeTol, ConeOk]

theorem zeroCost_le (c0 l0 : V3) (v : VecN 3) :
    (fun i j : Fin 3 => (zeroStepCost c0 l0 false).1.e i j : Matrix (Fin 3) (Fin 3) ℝ) *ᵥ v ⬝ᵥ
      (fun i j : Fin 3 => (zeroStepCost c0 l0 false).1.e i j : Matrix (Fin 3) (Fin 3) ℝ) *ᵥ v ≤ 1 * (v ⬝ᵥ v) := by
  rw [one_mul]
  refine le_of_eq ?_
  simp [mulVec, dotProduct, Fin.sum_univ_three, zeroStepCost]

/-- C100, the zero step planner without angular momentum, with a time step. If the robot can stop at some point `x` such that the kinematic
constraints hold there with the margin `m` and the wrench at the samples is at distance at least `m` from the border of the cone, and the
margin is large compared to the threshold of the solver, then `solve0step` succeeds, or the QP solver uses up its iterations. The
answer stays in the cone and in the kinematic constraints up to the tolerance, and no admissible end point is closer to `c0` by more than the given amount. -/
theorem C100_stop (lib : Lib) (hL : LibOk lib) (he : 0 ≤ lib.eps) (pData : ProblemData) (ct : ContactData)
    (e : Equilibrium) (h : ZeroContact ct e) (hct : pData.contacts = [ct])
    (hrep : pData.representation = DOUBLE_DESCRIPTION) (hang : pData.useAngularMomentum = false) (T timeStep R : ℝ)
    (hR : ZeroScale ct e pData.bc.c0 pData.bc.dc0 T R) (h1 : lib.eps ≤ 1) (h2 : lib.eps * (2 * R ^ 2) ≤ 1)
    (N : ℕ) (hN : 1 ≤ N) (hs : StepCount T timeStep N) {m : ℝ} (hm : 0 < m) {x : V3} {v a : ℝ → V3}
    (hv : IsDeriv (stopCurve pData.bc.c0 pData.bc.dc0 x T) v) (ha : IsDeriv v a) (hkin : KinTol ct (-m) x)
    (hcone : ∀ i : ℕ, i ≤ N → ConeTol e (-m) (e.mass • (e.gravity - a (i * (T / N))))
      (e.mass • cr (stopCurve pData.bc.c0 pData.bc.dc0 x T (i * (T / N))) (e.gravity - a (i * (T / N)))))
    (hi : 1 ≤ lib.maxIter) (hmar : 32 * lib.maxIter ^ 2 * lib.eps * dot (x - pData.bc.c0) (x - pData.bc.c0) ≤ m ^ 2) :
    ∃ A b, zeroStepInequalities ct pData.bc.c0 pData.bc.dc0 pData.l0 false T timeStep = .ok (A, b) ∧
      ∃ r M, (∀ fuel ≥ M, solve0step lib fuel pData [T] timeStep = .ok r) ∧
        (r.success = true ∨ ∃ o, ∀ fuel ≥ M, callQuadprog lib fuel (zeroStepCost pData.bc.c0 pData.l0 false).1
          (zeroStepCost pData.bc.c0 pData.l0 false).2 (Mat.noRows A.cols) (Mat.noRows 1).neg A.neg b = .ok (.maxIterReached, o)) ∧
        (r.success = true →
          ZeroAnswer pData ct e T (zeroTol lib.eps false ((N + 1) * e.poly.length + ct.kin.length))
            (fun t => ∃ i : ℕ, i ≤ N ∧ t = i * (T / N)) r ∧
          ∀ x' v' a', IsDeriv (stopCurve pData.bc.c0 pData.bc.dc0 x' T) v' → IsDeriv v' a' → KinOk ct x' →
            (∀ i : ℕ, i ≤ N → ConeOk e (e.mass • (e.gravity - a' (i * (T / N))))
              (e.mass • cr (stopCurve pData.bc.c0 pData.bc.dc0 x' T (i * (T / N))) (e.gravity - a' (i * (T / N))))) →
            r.cost ^ 2 ≤ dot (x' - pData.bc.c0) (x' - pData.bc.c0) +
              4 * lib.maxIter ^ 2 * lib.eps * dot (x - pData.bc.c0) (x - pData.bc.c0) ^ 2 / m ^ 2) := by
  have hg : GoodStep T timeStep := Or.inr ⟨N, hN, hs⟩
  have hT := hg.pos
  obtain ⟨ws, hws, hl, -⟩ := C31_discretised pData.bc.c0 pData.bc.dc0 e.gravity T timeStep N hN hs
  obtain ⟨us, hus, hl', -⟩ := C32_waypoints_discretised pData.l0 T timeStep N hN hs
  obtain ⟨A, b, hA, hc, hb, hb1, hrw, hnorm, -⟩ := zeroStep_system ct e h pData.bc.c0 pData.bc.dc0 pData.l0 false hg hR hws hus (by omega)
  simp only [Bool.false_eq_true, if_false] at hc hrw hnorm
  refine ⟨A, b, hA, ?_⟩
  set Hg := zeroStepCost pData.bc.c0 pData.l0 false with hHg
  have hrows : Hg.2.rows = 3 := rfl
  have hext : ∀ x : V3, first3 (ext3 x) = x := fun x => by funext k; simp [first3, ext3]
  obtain ⟨K, hK⟩ := C33_qp_distance pData.bc.c0 pData.l0
  have hfit : Fits A b (Mat.noRows A.cols) (Mat.noRows 1) Hg.1 Hg.2 := ⟨⟨rfl, rfl⟩, ⟨hb, hb1, hc⟩, ⟨rfl, hc⟩⟩
  have hsq : (Real.sqrt 2 * R) ^ 2 = 2 * R ^ 2 := by rw [mul_pow, Real.sq_sqrt (by norm_num)]
  have hrow : ∀ {δ x v a}, IsDeriv (stopCurve pData.bc.c0 pData.bc.dc0 x T) v → IsDeriv v a → KinTol ct δ x →
      (∀ i : ℕ, i ≤ N → ConeTol e δ (e.mass • (e.gravity - a (i * (T / N))))
        (e.mass • cr (stopCurve pData.bc.c0 pData.bc.dc0 x T (i * (T / N))) (e.gravity - a (i * (T / N))))) →
      SatTol A b δ (ext3 x) := by
    intro δ x v a hv ha hk hc
    refine zeroStep_rows_hold ct e h pData.bc.c0 pData.bc.dc0 pData.l0 hN hs hA (v := v) (a := a) ?_ ha ?_ ?_
    · rw [hext]; exact hv
    · rw [hext]; exact hc
    · rw [hext]; exact hk
  obtain ⟨q, M, hrun, hlen, hfound, hgood⟩ := solve_margin_gen lib hL he one_pos hfit rfl (zeroStepInit pData) (R := Real.sqrt 2 * R)
    (zeroCost_posDef _ _ _ _) (fun v => by have := zeroCost_ge pData.bc.c0 pData.l0 false 3 v; simp only [zeroCurv, Bool.false_eq_true, if_false] at this; exact this)
    zero_le_one (zeroCost_le _ _) (by rw [hsq]; exact hnorm) h1 (by rw [hsq]; linarith) hm (ext3 x)
    (SatMargin.of_satTol (hrow hv ha hkin hcone)) (F := dot (x - pData.bc.c0) (x - pData.bc.c0))
    (fun y => by
      rw [hrows, hK, hK, hext]
      linarith [dot_nonneg (first3 y - pData.bc.c0)]) hi (by linarith)
  obtain ⟨r, M', hr, hans⟩ := (C75_tolerance lib hL he pData ct e h hct hrep T timeStep R hR (by rw [hang]; exact h1)
    (by rw [hang]; simpa [zeroCurv] using h2)).2 N hN hs
  have hsolve : ∀ fuel ≥ M, solve0step lib fuel pData [T] timeStep = zeroStepResult pData T q := by
    intro fuel hf
    unfold solve0step
    rw [if_pos hrep, hct]
    dsimp only
    rw [hang, hA, Out.ok_bind]
    dsimp only
    rw [hrun fuel hf, Out.ok_bind]
  have hres : zeroStepResult pData T q = .ok r := by
    rw [← hsolve (max M M') (le_max_left _ _)]
    exact hr _ (le_max_right _ _)
  have hsx : r.success = q.success ∧ (q.success = true → r.x = q.x) := by
    unfold zeroStepResult at hres
    cases hq : q.success with
    | true =>
      rw [if_pos hq] at hres
      obtain ⟨_, -, hres⟩ := Out.bind_eq_ok.mp hres
      obtain ⟨_, -, hres⟩ := Out.bind_eq_ok.mp hres
      obtain ⟨_, -, hres⟩ := Out.bind_eq_ok.mp hres
      obtain rfl := Out.ok.inj hres
      exact ⟨rfl, fun _ => rfl⟩
    | false =>
      rw [if_neg (by simp [hq])] at hres
      obtain rfl := Out.ok.inj hres
      exact ⟨rfl, fun h => (by cases h)⟩
  refine ⟨r, max M M', fun fuel hf => hr fuel ((le_max_right _ _).trans hf), ?_, fun hrs => ⟨?_, ?_⟩⟩
  · rcases hfound with hq | ⟨o, ho⟩
    · exact Or.inl (hsx.1.trans hq)
    · exact Or.inr ⟨o, fun fuel hf => ho fuel ((le_max_left _ _).trans hf)⟩
  · have := hans hrs
    rw [hang] at this
    simpa using this
  · intro x' v' a' hv' ha' hk' hc'
    have hqs : q.success = true := hsx.1.symm.trans hrs
    obtain ⟨-, hopt⟩ := hgood hqs
    have := hopt (ext3 x') ((satTol_zero A b _).mp (hrow hv' ha' ((kinTol_zero ct x').mpr hk') fun i hi =>
      (coneTol_zero e _ _).mpr (hc' i hi)))
    rw [hrows, hK, hK, hext, one_mul, mul_one] at this
    obtain ⟨x2, hx2, hcost⟩ := C33_distance (hr M' le_rfl) hrs hang
    have hx3 : x2 = first3 (unk q.x) := by
      rw [← hsx.2 hqs]
      unfold head3 at hx2
      split at hx2
      · simp at hx2; rw [← hx2]; rfl
      · simp at hx2
    rw [hcost, Real.sq_sqrt (dot_nonneg _), hx3]
    have e3 : dot (pData.bc.c0 - first3 (unk q.x)) (pData.bc.c0 - first3 (unk q.x)) =
        dot (first3 (unk q.x) - pData.bc.c0) (first3 (unk q.x) - pData.bc.c0) := by
      simp only [dot, Pi.sub_apply]; ring
    rw [e3]
    linarith

/-! ## The end effector planner -/

/-- The squares of the entries of a cost sum to at most one third, as after `normalizeCost`. -/
def SmallCost {K : ℕ} (H : Matrix (Fin K) (Fin K) ℝ) : Prop := ∑ a, ∑ b, 3 * H a b ^ 2 ≤ 1

theorem smallCost_normalize {K : ℕ} (H : Matrix (Fin K) (Fin K) ℝ) (g : Fin K → V3) : SmallCost (normalizeCost H g).1 := by
  unfold SmallCost normalizeCost blockNorm
  set S := ∑ a, ∑ b, 3 * H a b ^ 2 with hS
  have hS0 : 0 ≤ S := Finset.sum_nonneg fun a _ => Finset.sum_nonneg fun b _ => by positivity
  have e : ∑ a, ∑ b, 3 * (H a b / Real.sqrt S) ^ 2 = S / Real.sqrt S ^ 2 := by
    rw [hS, Finset.sum_div]
    refine Finset.sum_congr rfl fun a _ => ?_
    rw [Finset.sum_div]
    refine Finset.sum_congr rfl fun b _ => ?_
    rw [div_pow]; ring
  rw [e, Real.sq_sqrt hS0]
  exact div_self_le_one S

theorem SmallCost.combine {K : ℕ} {H H' : Matrix (Fin K) (Fin K) ℝ} (h : SmallCost H) (h' : SmallCost H') {w : ℝ} (h0 : 0 ≤ w) (h1 : w ≤ 1) :
    SmallCost (fun a b => (1 - w) * H a b + w * H' a b : Matrix (Fin K) (Fin K) ℝ) := by
  unfold SmallCost at *
  have e : ∑ a, ∑ b, 3 * ((1 - w) * H a b + w * H' a b) ^ 2 ≤ (1 - w) * ∑ a, ∑ b, 3 * H a b ^ 2 + w * ∑ a, ∑ b, 3 * H' a b ^ 2 := by
    rw [Finset.mul_sum, Finset.mul_sum, ← Finset.sum_add_distrib]
    refine Finset.sum_le_sum fun a _ => ?_
    rw [Finset.mul_sum, Finset.mul_sum, ← Finset.sum_add_distrib]
    refine Finset.sum_le_sum fun b _ => ?_
    nlinarith [mul_nonneg (mul_nonneg h0 (sub_nonneg.mpr h1)) (sq_nonneg (H a b - H' a b))]
  refine e.trans ?_
  nlinarith [mul_le_mul_of_nonneg_left h (sub_nonneg.mpr h1), mul_le_mul_of_nonneg_left h' h0]

theorem endCost_small (flag : Flag) (hf : flag ∈ effFlags) (d : BC) (path : ℝ → V3) (T w : ℝ) {pi : List V3}
    (hl : pi.length = degreeOf flag + 1) {c : BlockCost (dimVarPts flag)} (hc : computeEndEffectorCost flag d path T w pi = .ok c) : SmallCost c.1 := by
  have smooth : ∀ S, computeVelocityCost flag d T pi = .ok S → SmallCost S.2.1 := by
    intro S hS
    simp only [effFlags, List.mem_cons, List.not_mem_nil, or_false] at hf
    rcases hf with rfl | rfl | rfl <;>
    · simp [computeVelocityCost, withPts, degreeOf, hl] at hS
      subst hS
      exact smallCost_normalize _ _
  have rrt : ∀ S, endEffectorDistanceCost flag d path T w = .ok S → SmallCost S.1 := by
    intro S hS
    unfold endEffectorDistanceCost at hS
    split at hS
    · unfold computeDistanceCostFunctionPath computeDistanceCostFunction at hS
      split at hS
      · obtain ⟨_, -, hS⟩ := Out.bind_eq_ok.mp hS
        obtain ⟨c', -, hS⟩ := Out.bind_eq_ok.mp hS
        unfold divideByNorm at hS
        split at hS
        · cases hS
        · cases Out.ok.inj hS
          exact smallCost_normalize _ _
      · cases hS
    · cases Out.ok.inj hS
      simp [SmallCost]
  unfold computeEndEffectorCost at hc
  split at hc
  case isTrue hw =>
    obtain ⟨R, hR, hc⟩ := Out.bind_eq_ok.mp hc
    obtain ⟨S, hS, hc⟩ := Out.bind_eq_ok.mp hc
    obtain ⟨S', hS', hc⟩ := Out.bind_eq_ok.mp hc
    cases Out.ok.inj hc
    have k1 := smooth S hS
    have k2 : SmallCost S'.1 := by
      obtain ⟨K, S⟩ := S
      unfold asCost at hS'
      split at hS'
      case isTrue hK =>
        dsimp only at hK
        subst hK
        cases Out.ok.inj hS'
        exact k1
      · cases hS'
    exact k2.combine (rrt R hR) hw.1 hw.2
  · cases hc

/-- The Hessian of a small cost. -/
theorem blockH_le {K : ℕ} (c : BlockCost K) (h : SmallCost c.1) (v : VecN (3 * K)) :
    (fun i j : Fin (3 * K) => c.H.e i j : Matrix (Fin (3 * K)) (Fin (3 * K)) ℝ) *ᵥ v ⬝ᵥ
      (fun i j : Fin (3 * K) => c.H.e i j : Matrix (Fin (3 * K)) (Fin (3 * K)) ℝ) *ᵥ v ≤ 1 * (v ⬝ᵥ v) := by
  have hrow : ∀ i : Fin (3 * K), ((fun i j : Fin (3 * K) => c.H.e i j : Matrix (Fin (3 * K)) (Fin (3 * K)) ℝ) *ᵥ v) i ^ 2
      ≤ (∑ j : Fin (3 * K), c.H.e i j ^ 2) * (v ⬝ᵥ v) := by
    intro i
    have := Finset.sum_mul_sq_le_sq_mul_sq Finset.univ (fun j : Fin (3 * K) => c.H.e i j) v
    refine le_trans this (le_of_eq ?_)
    congr 1
    exact Finset.sum_congr rfl fun j _ => sq _
  have hsum : ∑ i : Fin (3 * K), ∑ j : Fin (3 * K), c.H.e i j ^ 2 ≤ 1 := by
    refine le_trans (le_of_eq ?_) h
    rw [← Finset.sum_range (fun i => ∑ j : Fin (3 * K), c.H.e i j ^ 2), sum_range_three]
    refine Finset.sum_congr rfl fun a _ => ?_
    have e : ∀ k : Fin 3, ∑ j : Fin (3 * K), c.H.e (3 * a.val + k.val) j ^ 2 = ∑ b, c.1 a b ^ 2 := by
      intro k
      rw [← Finset.sum_range (fun j => c.H.e (3 * a.val + k.val) j ^ 2), sum_range_three]
      refine Finset.sum_congr rfl fun b _ => ?_
      simp only [blockH_entry]
      rw [Finset.sum_eq_single k]
      · simp
      · intro l _ hl
        rw [if_neg fun hh => hl hh.symm]; ring
      · simp
    rw [Fin.sum_univ_three, e, e, e, ← Finset.mul_sum]
    ring
  have h0 : 0 ≤ v ⬝ᵥ v := Finset.sum_nonneg fun i _ => mul_self_nonneg _
  calc _ = ∑ i : Fin (3 * K), ((fun i j : Fin (3 * K) => c.H.e i j : Matrix (Fin (3 * K)) (Fin (3 * K)) ℝ) *ᵥ v) i ^ 2 :=
        Finset.sum_congr rfl fun i _ => (sq _).symm
    _ ≤ ∑ i : Fin (3 * K), (∑ j : Fin (3 * K), c.H.e i j ^ 2) * (v ⬝ᵥ v) := Finset.sum_le_sum fun i _ => hrow i
    _ = (∑ i : Fin (3 * K), ∑ j : Fin (3 * K), c.H.e i j ^ 2) * (v ⬝ᵥ v) := by rw [Finset.sum_mul]
    _ ≤ 1 * (v ⬝ᵥ v) := mul_le_mul_of_nonneg_right hsum h0

/-- C100, the end effector planner. If some free points satisfy the constraints with the margin `m`, `F` bounds how far their cost is
from the least one, and the margin is large compared to the threshold of the solver, then `solveEndEffector` succeeds, or the QP solver
uses up its iterations. The answer satisfies the constraints up to the tolerance, and no admissible free points are better by more
than the given amount. -/
theorem C100_end (lib : Lib) (hL : LibOk lib) (he : 0 ≤ lib.eps) (flag : Flag) (hf : flag ∈ effFlags) (d : BC)
    (path : ℝ → V3) (T w : ℝ) (hT : 0 < T) (h0 : 0 ≤ w) (h1 : w ≤ 1) (init : List ℝ) :
    ∃ pi A b c, computeConstantWaypoints flag d T = .ok pi ∧ computeEndEffectorConstraints flag d T pi = .ok (A, b) ∧
      computeEndEffectorCost flag d path T w pi = .ok c ∧
      ∀ k R, EndScale flag d T pi c k R → lib.eps ≤ k → lib.eps * R ^ 2 ≤ k ^ 2 → 1 ≤ lib.maxIter →
        ∀ m F X, 0 < m → EndOkTol flag d T pi (-m) X → (∀ X', blockForm c.1 c.2 X - blockForm c.1 c.2 X' ≤ F) →
          32 * lib.maxIter ^ 2 * lib.eps * F ≤ k * m ^ 2 →
        ∃ r N, (∀ fuel ≥ N, solveEndEffector lib fuel flag d path T w init = .ok r) ∧
          (r.success = true ∨ ∃ o, ∀ fuel ≥ N, callQuadprog lib fuel c.H c.g (Mat.noRows A.cols) (Mat.noRows 1).neg A.neg b
            = .ok (.maxIterReached, o)) ∧
          (r.success = true →
            ∃ X, r.c_of_t.T = T ∧ r.c_of_t.eval = curve (degreeOf flag) (fillMany flag (nth pi) X) T ∧
              MeetsBoundary flag d r.c_of_t.eval T ∧
              EndOkTol flag d T pi (solverTolGen lib.eps k (3 * ∑ a, c.1 a a) (3 * dimVarPts flag) A.rows) X ∧
              ∀ X', EndOk flag d T pi X' → blockForm c.1 c.2 X ≤ blockForm c.1 c.2 X' + 4 * lib.maxIter ^ 2 * lib.eps * F ^ 2 / (k * m ^ 2)) ∧
          (r.success = false → r = ResultDataCOMTraj.default) := by
  obtain ⟨pi, hpi, hl⟩ := effPts flag hf d T
  obtain ⟨A, b, hA, hc, hb, hb1, hiff⟩ := endOk_iff flag hf d T pi hl
  obtain ⟨A', b', hA', hR, hS, hM⟩ := end_system flag hf d T pi hl
  rw [hA] at hA'
  cases hA'
  obtain ⟨c, hcost, hpos, -⟩ := endCost_pos flag hf d path T w hT h0 h1 pi hl
  refine ⟨pi, A, b, c, hpi, hA, hcost, fun k R h g1 g2 hi m F X hm hX hF hmar => ?_⟩
  have hfit : Fits A b (Mat.noRows A.cols) (Mat.noRows 1) c.H c.g := ⟨⟨rfl, rfl⟩, ⟨hb, hb1, hc⟩, ⟨rfl, hc⟩⟩
  have hg : c.g.rows = 3 * dimVarPts flag := rfl
  obtain ⟨q, N, hrun, hlen, hfound, hok⟩ := solve_margin_gen lib hL he h.pos hfit rfl init (blockH_posDef c hpos)
    (blockH_ge c h.cost) zero_le_one (blockH_le c (endCost_small flag hf d path T w hl hcost)) (hR c k R h) g1 g2 hm (coordsOf X)
    (hM _ _ (by rw [pointsOf_coordsOf]; exact hX)) (F := F)
    (fun x => by rw [hg, quadForm_blocks, quadForm_blocks, pointsOf_coordsOf]; exact hF _) hi (by linarith)
  obtain ⟨r, hr, hs, hsu, hfail⟩ := end_result lib flag hf d path T w hT init hpi hA hcost hlen hrun
  refine ⟨r, N, hr, hfound.imp_left fun hq => hs.trans hq, fun hsucc => ?_, hfail⟩
  obtain ⟨t1, t2, t3⟩ := hsu hsucc
  obtain ⟨o1, o2⟩ := hok (hs ▸ hsucc)
  refine ⟨_, t1, t2, t3, hS _ _ ?_, fun X' hX' => ?_⟩
  · rwa [hg, blockH_trace] at o1
  · have := o2 (coordsOf X') ((hiff _).mpr (by rw [pointsOf_coordsOf]; exact hX'))
    rw [hg, quadForm_blocks, quadForm_blocks, pointsOf_coordsOf, mul_one] at this
    exact this

/-! ## Instances -/

/-- The robot of `restProblem` that has to move back by one metre. -/
noncomputable def backProblem : ProblemData :=
  { restProblem with contacts := [{ onePush [] with kin := [-1] }] }

/-- With the threshold of doubles and one thousand iterations, the point two metres back has the margin one. -/
theorem backProblem_margin (lib : Lib) (hL : LibOk lib) (he : lib.eps = dblEps) (hm : lib.maxIter = 1000) :
    ∃ A b, zeroStepInequalities { onePush [] with kin := [-1] } 0 0 0 false 1 0.3 = .ok (A, b) ∧
      ∃ r M, (∀ fuel ≥ M, solve0step lib fuel backProblem [1] 0.3 = .ok r) ∧
        (r.success = true ∨ ∃ o, ∀ fuel ≥ M, callQuadprog lib fuel (zeroStepCost 0 0 false).1
          (zeroStepCost 0 0 false).2 (Mat.noRows A.cols) (Mat.noRows 1).neg A.neg b = .ok (.maxIterReached, o)) := by
  have hz : stopCurve 0 0 ![-2, 0, 0] 1 = fun s => ![-2 * (3 * s ^ 2 - 2 * s ^ 3), 0, 0] := by
    funext s k
    rw [stopCurve, curve, bez_apply, bezS3]
    fin_cases k <;> simp
    ring
  have hv : IsDeriv (stopCurve 0 0 ![-2, 0, 0] 1) fun s => ![-2 * (6 * s - 6 * s ^ 2), 0, 0] := by
    rw [hz]
    intro t
    rw [hasDerivAt_pi]
    intro k
    fin_cases k
    · have h := (((hasDerivAt_id t).pow 2).const_mul 3 |>.sub (((hasDerivAt_id t).pow 3).const_mul 2)).const_mul (-2 : ℝ)
      refine (h.congr_deriv ?_)
      simp
      ring
    · exact hasDerivAt_const t (0 : ℝ)
    · exact hasDerivAt_const t (0 : ℝ)
  have ha : IsDeriv (fun s : ℝ => (![-2 * (6 * s - 6 * s ^ 2), 0, 0] : V3)) fun s => ![-2 * (6 - 12 * s), 0, 0] := by
    intro t
    rw [hasDerivAt_pi]
    intro k
    fin_cases k
    · have h := (((hasDerivAt_id t).const_mul 6).sub (((hasDerivAt_id t).pow 2).const_mul 6)).const_mul (-2 : ℝ)
      refine (h.congr_deriv ?_)
      simp
      ring
    · exact hasDerivAt_const t (0 : ℝ)
    · exact hasDerivAt_const t (0 : ℝ)
  have hl0 : len 0 = 0 := by simp [len, dot]
  have hlg : len ![0, 0, -10] = 10 := by
    rw [len, show dot ![0, 0, -10] ![0, 0, -10] = (10 : ℝ) ^ 2 by simp [dot]; norm_num, Real.sqrt_sq (by norm_num)]
  obtain ⟨A, b, hA, r, M, hr, hfound, -⟩ := C100_stop lib hL (by rw [he, dblEps]; norm_num) backProblem { onePush [] with kin := [-1] } onePushPhase
    ⟨rfl, rfl, rfl, (onePush_ok []).2.2.2.1, fun _ => rfl⟩ rfl rfl rfl 1 0.3 32
    ⟨by
      intro K hK
      simp [onePush] at hK
      subst hK
      simp [len, dot], by
      simp only [onePushPhase, backProblem, restProblem, hl0, hlg]
      norm_num, by norm_num⟩ (by rw [he, dblEps]; norm_num) (by rw [he, dblEps]; norm_num) 3 (by norm_num) stepCount_example
    (m := 1) one_pos (x := ![-2, 0, 0]) hv ha
    (by
      intro q hq
      simp [onePush] at hq
      subst hq
      simp [dot]
      norm_num)
    (by
      intro i _ r hr
      simp [onePushPhase] at hr
      subst hr
      simp [dot, onePushPhase]
      norm_num)
    (by omega)
    (by
      rw [hm, he, dblEps]
      simp [dot, backProblem, restProblem]
      norm_num)
  exact ⟨A, b, hA, r, M, hr, hfound⟩

/-- With the threshold of doubles and one thousand iterations, the motion of one metre that passes one metre higher has the margin one. -/
theorem unitMove_margin (lib : Lib) (hL : LibOk lib) (he : lib.eps = dblEps) (hm : lib.maxIter = 1000) (init : List ℝ) :
    ∃ pi A b c r N, computeConstantWaypoints 255#32 unitMove 1 = .ok pi ∧
      computeEndEffectorConstraints 255#32 unitMove 1 pi = .ok (A, b) ∧
      computeEndEffectorCost 255#32 unitMove (fun _ => 0) 1 0 pi = .ok c ∧
      (∀ fuel ≥ N, solveEndEffector lib fuel 255#32 unitMove (fun _ => 0) 1 0 init = .ok r) ∧
      (r.success = true ∨ ∃ o, ∀ fuel ≥ N, callQuadprog lib fuel c.H c.g (Mat.noRows A.cols) (Mat.noRows 1).neg A.neg b
        = .ok (.maxIterReached, o)) := by
  obtain ⟨pi, p1, p2, p3, p4⟩ := unitMove_pts
  have q0 := p3 0 (by norm_num)
  have q1 := p3 1 (by norm_num)
  have q2 := p3 2 (by norm_num)
  have q3 := p3 3 (by norm_num)
  have q5 := p4 5 (by norm_num) (by norm_num)
  have q6 := p4 6 (by norm_num) (by norm_num)
  have q7 := p4 7 (by norm_num) (by norm_num)
  have q8 := p4 8 (by norm_num) (by norm_num)
  obtain ⟨c, hc, hscale, hH, hg⟩ := unitMove_cost p1
  obtain ⟨pi', A, b, c', e1, e2, e3, hall⟩ := C100_end lib hL (by rw [he, dblEps]; norm_num) 255#32 (by decide) unitMove
    (fun _ => 0) 1 0 one_pos le_rfl zero_le_one init
  rw [p1] at e1
  cases e1
  rw [hc] at e3
  cases e3
  have hX : EndOkTol 255#32 unitMove 1 pi (-1) fun _ => ![unitMid, 0, 1] := by
    refine ⟨_, _, _, by simp [computeVelocityWaypoints, p2]; rfl, by simp [computeAccelerationWaypoints, p2]; rfl,
      by simp [computeJerkWaypoints, p2]; rfl, ?_, ?_, ?_, ?_⟩
    · intro w hw _ k
      simp only [c0_dc0_ddc0_j0_j1_ddc1_dc1_c1.computeVelocityWaypoints, List.mem_cons, List.not_mem_nil, or_false] at hw
      rcases hw with rfl | rfl | rfl | rfl | rfl | rfl | rfl | rfl <;> fin_cases k <;>
        norm_num [WpB.at, q0, q1, q2, q3, q5, q6, q7, q8, unitMid]
    · intro w hw _ k
      simp only [c0_dc0_ddc0_j0_j1_ddc1_dc1_c1.computeAccelerationWaypoints, List.mem_cons, List.not_mem_nil, or_false] at hw
      rcases hw with rfl | rfl | rfl | rfl | rfl | rfl | rfl <;> fin_cases k <;>
        norm_num [WpB.at, q0, q1, q2, q3, q5, q6, q7, q8, unitMid]
    · intro w hw _ k
      simp only [c0_dc0_ddc0_j0_j1_ddc1_dc1_c1.computeJerkWaypoints, List.mem_cons, List.not_mem_nil, or_false] at hw
      rcases hw with rfl | rfl | rfl | rfl | rfl | rfl <;> fin_cases k <;>
        norm_num [WpB.at, q0, q1, q2, q3, q5, q6, q7, q8, unitMid]
    · intro j hj
      simp [unitMove]
  obtain ⟨r, N, hr, hfound, -⟩ := hall _ _ hscale (by rw [he, dblEps]; norm_num) (by rw [he, dblEps]; norm_num) (by omega) 1 1 _ one_pos hX
    (by
      intro X'
      change blockForm (K := 1) c.1 c.2 _ - blockForm (K := 1) c.1 c.2 _ ≤ 1
      simp only [blockForm, Fin.sum_univ_one, hH, hg]
      have h3 : 1 ≤ Real.sqrt 3 := Real.one_le_sqrt.mpr (by norm_num)
      have h4 : (Real.sqrt 3)⁻¹ ≤ 1 := inv_le_one_of_one_le₀ h3
      simp [dot]
      have : 0 ≤ (Real.sqrt 3)⁻¹ * ((X' 0 0 - unitMid) * (X' 0 0 - unitMid) + X' 0 1 * X' 0 1 + X' 0 2 * X' 0 2) :=
        mul_nonneg (by positivity) (by nlinarith [mul_self_nonneg (X' 0 0 - unitMid), mul_self_nonneg (X' 0 1), mul_self_nonneg (X' 0 2)])
      nlinarith)
    (by rw [hm, he, dblEps]; norm_num)
  exact ⟨pi, A, b, c, r, N, p1, e2, hc, hr, hfound⟩

end Verif
