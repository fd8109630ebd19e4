import Verif.Props.C100

/-!
# The rows of the zero step problem at a motion with a margin

With and without angular momentum, with and without a time step.
-/

namespace Verif
open Matrix

/-- The curves `f`, `τ` are the gravito-inertial wrench of the motion that stops at `x` with the second control point `xL` of
the angular momentum, and `dL` is the derivative of the momentum. -/
def StopWrench (pData : ProblemData) (e : Equilibrium) (T : ℝ) (x xL : V3) (dL f τ : ℝ → V3) : Prop :=
  ∃ v a, IsDeriv (stopCurve pData.bc.c0 pData.bc.dc0 x T) v ∧ IsDeriv v a ∧
    MomentumRate pData.useAngularMomentum pData.l0 xL T dL ∧ (∀ t, f t = e.mass • (e.gravity - a t)) ∧
    ∀ t, τ t = e.mass • cr (stopCurve pData.bc.c0 pData.bc.dc0 x T t) (e.gravity - a t) - dL t

/-- What the zero step problem asks of the wrench, up to `δ`: without a time step, its five control points are in the cone; with a
time step, its values at the samples are. -/
def WrenchTol (e : Equilibrium) (T timeStep δ : ℝ) (f τ : ℝ → V3) : Prop :=
  (timeStep ≤ 0 ∨ T < timeStep → ∃ p q : ℕ → V3, (∀ t, f t = bez 4 p (t / T)) ∧ (∀ t, τ t = bez 4 q (t / T)) ∧
    ∀ i ≤ 4, ConeTol e δ (p i) (q i)) ∧
  ∀ N, 1 ≤ N → StepCount T timeStep N → ∀ i : ℕ, i ≤ N → ConeTol e δ (f (i * (T / N))) (τ (i * (T / N)))

/-- The motion that stops at `x` satisfies the constraints up to `δ`. -/
def StopTol (pData : ProblemData) (ct : ContactData) (e : Equilibrium) (T timeStep δ : ℝ) (x xL : V3) (dL : ℝ → V3) : Prop :=
  (∃ f τ, StopWrench pData e T x xL dL f τ ∧ WrenchTol e T timeStep δ f τ) ∧
  (pData.useAngularMomentum = false → KinTol ct δ x)

/-- The two points as unknowns of the problem. -/
def stopVar (x xL : V3) : ℕ → ℝ := fun c => if c < 3 then V3.get x c else V3.get xL (c - 3)

theorem first3_stopVar (x xL : V3) : first3 (stopVar x xL) = x := by
  funext k; fin_cases k <;> simp [first3, stopVar, V3.get]

theorem last3_stopVar (x xL : V3) : last3 (stopVar x xL) = xL := by
  funext k; fin_cases k <;> simp [last3, stopVar, V3.get]

/-- Five control points are determined by the curve. -/
theorem bez4_unique {p q : ℕ → V3} (h : ∀ u, bez 4 p u = bez 4 q u) : ∀ i ≤ 4, p i = q i := by
  have key : ∀ k, p 0 k = q 0 k ∧ p 1 k = q 1 k ∧ p 2 k = q 2 k ∧ p 3 k = q 3 k ∧ p 4 k = q 4 k := by
    intro k
    have hk : ∀ u, bez 4 (fun i => p i k) u = bez 4 (fun i => q i k) u := by
      intro u
      have := congrFun (h u) k
      rwa [bez_apply, bez_apply] at this
    simp only [bezS4] at hk
    have a0 := hk 0
    have a1 := hk 1
    have a2 := hk 2
    have a3 := hk (-1)
    have a4 := hk (1 / 2)
    norm_num at a0 a1 a2 a3 a4
    refine ⟨?_, ?_, ?_, ?_, ?_⟩ <;> linarith
  intro i hi
  funext k
  obtain ⟨k0, k1, k2, k3, k4⟩ := key k
  interval_cases i <;> assumption

/-- Each waypoint of the wrench is in the cone up to `δ` when the motion satisfies the constraints up to `δ`. -/
theorem stop_waypoints (pData : ProblemData) (e : Equilibrium) {T timeStep δ : ℝ} (hs : GoodStep T timeStep) {x xL : V3}
    {dL f τ : ℝ → V3} (hw : StopWrench pData e T x xL dL f τ) (ht : WrenchTol e T timeStep δ f τ) {ws us : List Wp6}
    (hws : ComputeAllWaypoints pData.bc.c0 pData.bc.dc0 e.gravity T timeStep = .ok ws)
    (hus : ComputeAllWaypointsAngularMomentum pData.l0 T timeStep = .ok us) :
    ∀ k (hk : k < ws.length) (hk' : k < us.length), ConeTol e δ
      (e.mass • (e.gravity - (ws[k]).headAt x) - if pData.useAngularMomentum then (us[k]).headAt xL else 0)
      (e.mass • (-(ws[k]).tailAt x) - if pData.useAngularMomentum then (us[k]).tailAt xL else 0) := by
  intro k hk hk'
  obtain ⟨v, a, hv, ha, hm, hf, hτ⟩ := hw
  have hT := hs.pos
  rcases hs with ⟨-, hst⟩ | ⟨N, hN, hst⟩
  · obtain ⟨ws', hws', hl, hW⟩ := C31_continuous pData.bc.c0 pData.bc.dc0 e.gravity T timeStep hT hst
    obtain ⟨us', hus', hl', hU⟩ := C32_waypoints_continuous pData.l0 T timeStep hT hst
    obtain rfl : ws = ws' := Out.ok.inj (hws.symm.trans hws')
    obtain rfl : us = us' := Out.ok.inj (hus.symm.trans hus')
    obtain ⟨v', a', hv', ha', hW⟩ := hW x
    obtain rfl := deriv_unique hv hv'
    obtain rfl := deriv_unique ha ha'
    obtain ⟨p, q, hp, hq, hc⟩ := ht.1 hst
    have hcT : ∀ u : ℝ, u * T / T = u := fun u => by field_simp
    have key : (∀ u, bez 4 p u = bez 4 (fun i => e.mass • (e.gravity - (ws[i]!).headAt x)
          - if pData.useAngularMomentum then (us[i]!).headAt xL else 0) u) ∧
        ∀ u, bez 4 q u = bez 4 (fun i => e.mass • (-(ws[i]!).tailAt x)
          - if pData.useAngularMomentum then (us[i]!).tailAt xL else 0) u := by
      refine ⟨fun u => ?_, fun u => ?_⟩
      · have h1 := hp (u * T)
        rw [hcT, hf] at h1
        rw [← h1]
        have e1 := (hW (u * T)).1
        unfold headCurve at e1
        rw [hl, hcT] at e1
        unfold MomentumRate at hm
        cases hang : pData.useAngularMomentum with
        | true =>
          rw [hang, if_pos rfl] at hm
          obtain ⟨dL', hd', hU⟩ := hU xL
          have e3 := (hU (u * T)).1
          unfold headCurve at e3
          rw [hl', hcT] at e3
          simp only [if_true]
          rw [bez_sub, bez_affine, ← e1]
          have e3' : bez 4 (fun i => us[i]!.headAt xL) u = 0 := e3
          rw [e3', sub_zero]
        | false =>
          simp only [Bool.false_eq_true, if_false, sub_zero]
          rw [bez_affine, ← e1]
      · have h1 := hq (u * T)
        rw [hcT, hτ] at h1
        rw [← h1]
        have e1 := (hW (u * T)).2
        unfold tailCurve at e1
        rw [hl, hcT] at e1
        have e1' : bez 4 (fun i => ws[i]!.tailAt x) u = wrenchTail e.gravity (stopCurve pData.bc.c0 pData.bc.dc0 x T (u * T)) (a (u * T)) := e1
        unfold MomentumRate at hm
        cases hang : pData.useAngularMomentum with
        | true =>
          rw [hang, if_pos rfl] at hm
          obtain ⟨dL', hd', hU⟩ := hU xL
          obtain rfl := deriv_unique hm hd'
          have e3 := (hU (u * T)).2
          unfold tailCurve at e3
          rw [hl', hcT] at e3
          have e3' : bez 4 (fun i => us[i]!.tailAt xL) u = dL (u * T) := e3
          simp only [if_true]
          rw [bez_sub, bez_negs, e1', e3', wTail_eq]
        | false =>
          rw [hang, if_neg (by simp)] at hm
          simp only [Bool.false_eq_true, if_false, sub_zero]
          rw [bez_negs, e1', wTail_eq, hm, sub_zero]
    have := hc k (by omega)
    rw [bez4_unique key.1 k (by omega), bez4_unique key.2 k (by omega), getElem!_pos ws k hk, getElem!_pos us k hk'] at this
    exact this
  · obtain ⟨ws', hws', hl, hW⟩ := C31_discretised pData.bc.c0 pData.bc.dc0 e.gravity T timeStep N hN hst
    obtain ⟨us', hus', hl', hU⟩ := C32_waypoints_discretised pData.l0 T timeStep N hN hst
    obtain rfl : ws = ws' := Out.ok.inj (hws.symm.trans hws')
    obtain rfl : us = us' := Out.ok.inj (hus.symm.trans hus')
    obtain ⟨v', a', hv', ha', hW⟩ := hW x
    obtain rfl := deriv_unique hv hv'
    obtain rfl := deriv_unique ha ha'
    have := ht.2 N hN hst k (by omega)
    rw [hf, hτ] at this
    rw [(hW k hk).1, (hW k hk).2, wTail_eq]
    unfold MomentumRate at hm
    cases hang : pData.useAngularMomentum with
    | true =>
      rw [hang, if_pos rfl] at hm
      obtain ⟨dL', hd', hU⟩ := hU xL
      obtain rfl := deriv_unique hm hd'
      simp only [if_true]
      rw [(hU k hk').1, (hU k hk').2, sub_zero]
      exact this
    | false =>
      rw [hang, if_neg (by simp)] at hm
      simp only [Bool.false_eq_true, if_false, sub_zero]
      rw [hm, sub_zero] at this
      exact this

/-- A row with angular momentum holds with a margin if the half space does. -/
theorem ang_margin {m : ℝ} {g x xL : V3} {r : V3 × V3} (hr : r ≠ 0) {w u : Wp6} {a : ℕ → ℝ} {β δ : ℝ}
    (h : LoopRowAng m g (unitRow r) w u a β)
    (hs : dot r.1 (m • (g - w.headAt x) - u.headAt xL) + dot r.2 (m • (-w.tailAt x) - u.tailAt xL)
      ≤ δ * Real.sqrt (dot r.1 r.1 + dot r.2 r.2)) :
    seg3 a 0 ⬝ᵥ x + seg3 a 3 ⬝ᵥ xL ≤ β + δ := by
  have hp := norm6_pos hr
  rw [h.fst, h.snd, h.rhs]
  have key : (m • rowMul (unitRow r) w) ⬝ᵥ x + rowMul (unitRow r) u ⬝ᵥ xL
      - (m * rowDot (unitRow r) (g - w.head) (0 - w.tail) + rowDot (unitRow r) (-u.head) (-u.tail))
      = (norm6 r)⁻¹ * (dot r.1 (m • (g - w.headAt x) - u.headAt xL) + dot r.2 (m • (-w.tailAt x) - u.tailAt xL)) := by
    unfold rowMul rowDot unitRow
    rw [smul_dotProduct, add_dotProduct, add_dotProduct, ← dotProduct_mulVec, ← dotProduct_mulVec,
      ← dotProduct_mulVec, ← dotProduct_mulVec]
    simp only [Wp6.headAt, Wp6.tailAt, dot_eq, dot, Pi.smul_apply, Pi.neg_apply, Pi.sub_apply,
      Pi.add_apply, smul_eq_mul, Pi.zero_apply]
    ring
  have e : norm6 r = Real.sqrt (dot r.1 r.1 + dot r.2 r.2) := by unfold norm6; rw [dot_eq, dot_eq]
  rw [← e] at hs
  have h1 : (norm6 r)⁻¹ * (dot r.1 (m • (g - w.headAt x) - u.headAt xL) + dot r.2 (m • (-w.tailAt x) - u.tailAt xL)) ≤ δ := by
    rw [inv_mul_le_iff₀ hp, mul_comm]
    exact hs
  linarith

theorem SatMargin.sat {A b : Mat} {y : ℕ → ℝ} (h : SatMargin A b 0 y) : Sat A b y := by
  intro r hr
  rcases h r hr with h | ⟨hz, hb⟩
  · linarith
  · rw [Finset.sum_eq_zero fun c hc => by rw [hz c (Finset.mem_range.mp hc), zero_mul]]
    exact hb

/-- The system of the zero step problem holds up to `δ` at the unknowns of a motion that satisfies the constraints up to `δ`. With
angular momentum there must be no kinematic constraint. -/
theorem stop_rows (pData : ProblemData) (ct : ContactData) (e : Equilibrium) (h : ZeroContact ct e) {T timeStep δ : ℝ}
    (hs : GoodStep T timeStep) (hkin : pData.useAngularMomentum = true → ct.kin = []) {x xL : V3} {dL : ℝ → V3}
    (hst : StopTol pData ct e T timeStep δ x xL dL) {A b : Mat}
    (hA : zeroStepInequalities ct pData.bc.c0 pData.bc.dc0 pData.l0 pData.useAngularMomentum T timeStep = .ok (A, b)) {ws us : List Wp6}
    (hws : ComputeAllWaypoints pData.bc.c0 pData.bc.dc0 e.gravity T timeStep = .ok ws)
    (hus : ComputeAllWaypointsAngularMomentum pData.l0 T timeStep = .ok us) (hlen : ws.length = us.length) :
    SatMargin A b (-δ) (stopVar x xL) := by
  obtain ⟨⟨f, τ, hw, ht⟩, hk⟩ := hst
  have hcone := stop_waypoints pData e hs hw ht hws hus
  have h4 := h.2.2.2.1
  unfold zeroStepInequalities angularWaypoints at hA
  rw [h.1] at hA
  dsimp only at hA
  rw [hws, Out.ok_bind] at hA
  cases hang : pData.useAngularMomentum with
  | false =>
    simp only [hang, Bool.false_eq_true, if_false, Out.ok_bind, sub_zero] at hA hcone
    obtain ⟨A', b', hA', k1, k2, k3, k4, hrow, hkr⟩ := ineq_plain_rows ct e h ws []
    rw [hA] at hA'
    cases hA'
    refine SatMargin.of_satTol ?_
    rw [neg_neg]
    intro r hr
    rw [k1, sum_first, first3_stopVar]
    by_cases hlt : r < ws.length * e.poly.length
    · obtain ⟨k, hkl, j, hj, rfl⟩ := split_index hlt
      rw [zero_add]
      exact plain_margin (h4 _ (List.getElem_mem hj)) (hrow k hkl j hj) (hcone k hkl (by omega) _ (List.getElem_mem hj))
    · obtain ⟨i, rfl⟩ : ∃ i, r = ws.length * e.poly.length + i := ⟨r - ws.length * e.poly.length, by omega⟩
      have hi : i < ct.kin.length := by omega
      have hk0 : ct.kin ≠ [] := by intro h0; simp [h0] at hi
      rw [(hkr i hi).1, (hkr i hi).2, dot_eq]
      exact (kin_zip_iff (h.2.2.2.2 hk0) fun K k => dot K x ≤ k + δ).mp (hk hang) i hi
  | true =>
    simp only [hang, if_true] at hA hcone
    rw [hus, Out.ok_bind] at hA
    obtain ⟨A', b', hA', k1, k2, k3, k4, hrow, hkr⟩ := ineq_ang_rows ct e h ws us hlen
    rw [hA] at hA'
    cases hA'
    have hk0 := hkin hang
    intro r hr
    by_cases hlt : r < ws.length * e.poly.length
    · left
      obtain ⟨k, hkl, j, hj, rfl⟩ := split_index hlt
      rw [k1, sum_both, first3_stopVar, last3_stopVar, zero_add, sub_neg_eq_add]
      exact ang_margin (h4 _ (List.getElem_mem hj)) (hrow k hkl (by omega) j hj) (hcone k hkl (by omega) _ (List.getElem_mem hj))
    · right
      obtain ⟨i, rfl⟩ : ∃ i, r = ws.length * e.poly.length + i := ⟨r - ws.length * e.poly.length, by omega⟩
      have hi : i < ct.kin.length + ct.ang.length := by omega
      obtain ⟨q1, q2, q3⟩ := hkr i hi
      have hi' : ¬ ct.ang.length ≤ i := by simp [hk0] at hi; omega
      have e1 : (angRow ct ct.ang.length i) = (0, 0, 0) := by
        unfold angRow
        rw [if_neg (by simp [hk0]), if_neg hi', if_neg hi', if_neg (by simp [hk0])]
      rw [e1] at q1 q2 q3
      refine ⟨fun c hc => ?_, by rw [q3]⟩
      rw [k1] at hc
      have z1 := congrFun q1
      have z2 := congrFun q2
      have a0 := z1 0
      have a1 := z1 1
      have a2 := z1 2
      have a3 := z2 0
      have a4 := z2 1
      have a5 := z2 2
      simp [seg3] at a0 a1 a2 a3 a4 a5
      interval_cases c <;> assumption

end Verif
