import Verif.Props.C51
import Verif.Props.C60

/-!
# C62: the zero step planner from Python
-/

namespace Verif
open Matrix

/-- An `Equilibrium` the zero step planner can use. -/
def UsablePhase (e : Equilibrium) : Prop := e.isPP = true ∧ e.polyOk = true ∧ ∀ r ∈ e.poly, r.1 ≠ 0

theorem kinOk_iff (Kin kin : Mat) (h3 : Kin.cols = 3) (hr : Kin.rows = kin.rows) (e : Option Equilibrium) (A : List V3) (a : List ℝ) (c : V3) :
    KinOk ⟨e, (List.range Kin.rows).map (fun r k => Kin.e r k), (List.range kin.rows).map (fun r => kin.e r 0), A, a⟩ c
      ↔ Sat Kin kin (ext3 c) := by
  unfold KinOk Sat
  rw [h3, hr]
  simp only [Finset.sum_range_succ, Finset.sum_range_zero, zero_add]
  constructor
  · intro h r hr
    have := h (fun k => Kin.e r k, kin.e r 0) (by
      rw [List.mem_iff_getElem]
      exact ⟨r, by simpa using hr, by simp⟩)
    simpa [dot, ext3] using this
  · intro h q hq
    obtain ⟨i, hi, rfl⟩ := List.mem_iff_getElem.mp hq
    have := h i (by simpa using hi)
    simpa [dot, ext3] using this

/-- C62. `zeroStepCapturability` with a usable phase and no discretisation, in exact arithmetic: it returns; when it
succeeds the motion starts at `com` with velocity `dCom`, stops at the end of the duration, with angular momentum from `l0`
to zero (or none), and its wrench is in the cone of the phase at every instant. -/
theorem C62_capturability (lib : Lib) (hL : LibOk lib) (he : lib.eps = 0) (e : Equilibrium) (h : UsablePhase e)
    (com dCom l0 : V3) (useAng : Bool) (T timeStep : ℝ) (hT : 0 < T) (hs : timeStep ≤ 0 ∨ T < timeStep) :
    ∃ r N, (∀ fuel ≥ N, zeroStepCapturability lib fuel (some e) com dCom l0 useAng T timeStep = .ok r) ∧
      (r.success = true → ∃ v a, IsDeriv r.c_of_t.eval v ∧ IsDeriv v a ∧
        r.c_of_t.eval 0 = com ∧ v 0 = dCom ∧ v T = 0 ∧
        (useAng = true → ∃ L, IsDeriv L r.dL_of_t.eval ∧ L 0 = l0 ∧ L T = 0) ∧
        (useAng = false → ∀ t, r.dL_of_t.eval t = 0) ∧
        ∀ t, 0 ≤ t → t ≤ T → ConeOk e (e.mass • (e.gravity - a t))
          (e.mass • cr (r.c_of_t.eval t) (e.gravity - a t) - r.dL_of_t.eval t)) := by
  obtain ⟨r, N, h1, h2⟩ := C60_equilibrium lib hL he
    (zeroStepProblem { ContactData.default with contactPhase := some e } com dCom l0 useAng) _ e
    ⟨rfl, h.1, h.2.1, h.2.2, fun h => absurd rfl h⟩ rfl rfl T timeStep hT hs
  refine ⟨r, N, h1, fun hsuc => ?_⟩
  obtain ⟨v, a, k1, k2, k3, k4, k5, k6, k7, k8⟩ := h2 hsuc
  exact ⟨v, a, k1, k2, k3, k4, k5, k6, fun hu => (k7 hu).1, k8⟩

/-- C62 with kinematic constraints and without angular momentum: moreover the point where the motion stops satisfies
them. -/
theorem C62_kinematic (lib : Lib) (hL : LibOk lib) (he : lib.eps = 0) (e : Equilibrium) (h : UsablePhase e)
    (com dCom l0 : V3) (T timeStep : ℝ) (hT : 0 < T) (hs : timeStep ≤ 0 ∨ T < timeStep) (Kin kin : Mat)
    (h3 : Kin.cols = 3) (h1 : kin.cols = 1) (hr : Kin.rows = kin.rows) :
    ∃ r N, (∀ fuel ≥ N, zeroStepCapturabilityWithKinConstraints lib fuel (some e) com dCom l0 false T timeStep Kin kin = .ok r) ∧
      (r.success = true → ∃ v a, IsDeriv r.c_of_t.eval v ∧ IsDeriv v a ∧
        r.c_of_t.eval 0 = com ∧ v 0 = dCom ∧ v T = 0 ∧ Sat Kin kin (ext3 (r.c_of_t.eval T)) ∧
        ∀ t, 0 ≤ t → t ≤ T → ConeOk e (e.mass • (e.gravity - a t))
          (e.mass • cr (r.c_of_t.eval t) (e.gravity - a t))) := by
  obtain ⟨r, N, k1, k2⟩ := C60_equilibrium lib hL he
    (zeroStepProblem { ContactData.default with contactPhase := some e, Kin := (List.range Kin.rows).map (fun r k => Kin.e r k), kin := (List.range kin.rows).map (fun r => kin.e r 0) } com dCom l0 false) _ e
    ⟨rfl, h.1, h.2.1, h.2.2, fun _ => by simp [hr]⟩ rfl rfl T timeStep hT hs
  refine ⟨r, N, fun fuel hf => ?_, fun hsuc => ?_⟩
  · unfold zeroStepCapturabilityWithKinConstraints asRows3 asVector
    rw [if_pos h3, if_pos h1, Out.ok_bind, Out.ok_bind]
    exact k1 fuel hf
  · obtain ⟨v, a, c1, c2, c3, c4, c5, c6, c7, c8⟩ := k2 hsuc
    obtain ⟨d1, d2⟩ := c7 rfl
    refine ⟨v, a, c1, c2, c3, c4, c5, (kinOk_iff Kin kin h3 hr _ _ _ _).mp d2, fun t t0 t1 => ?_⟩
    have := c8 t t0 t1
    rwa [d1 t, sub_zero] at this

/-- C62. Constraints whose sizes do not match are never used: no call with them returns, even with a solver that does. -/
theorem C62_sizes (lib : Lib) (fuel : ℕ) (e : Option Equilibrium) (com dCom l0 : V3) (useAng : Bool) (T timeStep : ℝ)
    (Kin kin : Mat) (h : Kin.cols ≠ 3 ∨ kin.cols ≠ 1 ∨ 0 < kin.rows ∧ Kin.rows ≠ kin.rows) (r : ResultDataCOMTraj) :
    zeroStepCapturabilityWithKinConstraints lib fuel e com dCom l0 useAng T timeStep Kin kin ≠ .ok r := by
  intro H
  unfold zeroStepCapturabilityWithKinConstraints at H
  obtain ⟨K, hK, H⟩ := Out.bind_eq_ok.mp H
  obtain ⟨k, hk, H⟩ := Out.bind_eq_ok.mp H
  unfold asRows3 at hK
  unfold asVector at hk
  split at hK
  · split at hk
    · rename_i h3 h1
      obtain rfl := Out.ok.inj hK
      obtain rfl := Out.ok.inj hk
      have hr : 0 < kin.rows ∧ Kin.rows ≠ kin.rows := by
        rcases h with h | h | h
        · exact absurd h3 h
        · exact absurd h1 h
        · exact h
      cases e with
      | none => cases H
      | some e =>
        dsimp only at H
        unfold solve0step zeroStepProblem at H
        simp only [if_true] at H
        obtain ⟨Ab, hAb, -⟩ := Out.bind_eq_ok.mp H
        unfold zeroStepInequalities at hAb
        simp only [Out.bind_eq_ok] at hAb
        obtain ⟨wps, -, wpL, -, hAb⟩ := hAb
        unfold compute6dControlPointInequalities at hAb
        dsimp only at hAb
        split at hAb
        · obtain ⟨q, -, hAb⟩ := Out.bind_eq_ok.mp hAb
          obtain ⟨q2, hq2, -⟩ := Out.bind_eq_ok.mp hAb
          unfold addKinematic at hq2
          simp only [List.length_map, List.length_range] at hq2
          rw [if_neg (by omega)] at hq2
          split at hq2
          · rename_i hc; omega
          · cases hq2
        · cases hAb
    · cases hk
  · cases hK

/-! ## The kinematic constraints are lost with angular momentum -/

/-- The constraint `x ≤ -1` on the first axis. -/
def leftOf : Mat × Mat := (⟨1, 3, fun _ c => if c = 0 then 1 else 0⟩, ⟨1, 1, fun _ _ => -1⟩)

/-- The contact that the binding builds. -/
noncomputable def leftContact : ContactData :=
  { ContactData.default with
    contactPhase := some onePushPhase
    Kin := (List.range leftOf.1.rows).map fun r k => leftOf.1.e r k
    kin := (List.range leftOf.2.rows).map fun r => leftOf.2.e r 0 }

theorem onePush_usable : UsablePhase onePushPhase := ⟨rfl, rfl, (onePush_ok []).2.2.2.1⟩

theorem leftContact_ok : ZeroContact leftContact onePushPhase :=
  ⟨rfl, rfl, rfl, onePush_usable.2.2, fun _ => rfl⟩

theorem left_sat (x l : ℝ) (h : x + l ≤ -1) :
    ∃ A b, zeroStepInequalities leftContact 0 0 0 true 1 (-1) = .ok (A, b) ∧ Sat A b (alongX x l) := by
  unfold zeroStepInequalities angularWaypoints ComputeAllWaypoints ComputeAllWaypointsAngularMomentum
  simp only [numSteps_neg (show (-1 : ℝ) ≤ 0 by norm_num), Out.ok_bind,
    discretize_none _ (show (-1 : ℤ) ≤ 0 by norm_num), if_true]
  rw [leftContact_ok.1]
  dsimp only
  obtain ⟨A, b, hA, -, -, -, hS⟩ := ineq_ang leftContact onePushPhase leftContact_ok
    [w0 0 (fun k => (0 : V3) k * 1 / 3 + (0 : V3) k) onePushPhase.gravity (1 / (1 * 1)),
      w1 0 (fun k => (0 : V3) k * 1 / 3 + (0 : V3) k) onePushPhase.gravity (1 / (1 * 1)),
      w2 0 (fun k => (0 : V3) k * 1 / 3 + (0 : V3) k) onePushPhase.gravity (1 / (1 * 1)),
      w3 0 (fun k => (0 : V3) k * 1 / 3 + (0 : V3) k) onePushPhase.gravity (1 / (1 * 1)),
      w4 (fun k => (0 : V3) k * 1 / 3 + (0 : V3) k) onePushPhase.gravity (1 / (1 * 1))]
    [u0 0 (1 / 1), u1 0 (1 / 1), u2 0 (1 / 1), u3 (1 / 1), u4] rfl
  refine ⟨A, b, hA, ?_⟩
  rw [hS, alongX_first, alongX_last]
  refine ⟨?_, ?_⟩
  · intro k hk _
    simp only [List.length_cons, List.length_nil] at hk
    intro r hr
    simp [onePushPhase] at hr
    subst hr
    have hf : ∀ f τ : V3, dot ![0, 0, 1] f + dot 0 τ = f 2 := by intro f τ; simp [dot]
    rw [hf]
    interval_cases k <;>
      simp only [List.getElem_cons_zero, List.getElem_cons_succ, Pi.sub_apply, Pi.smul_apply, smul_eq_mul, Wp6.headAt,
        Pi.add_apply, mulVec, dotProduct, Fin.sum_univ_three] <;>
      simp [onePushPhase, w0, w1, w2, w3, w4, u0, u1, u2, u3, u4, Wp6.headAt, Wp6.tailAt, dot, mulVec, dotProduct,
        Fin.sum_univ_three, Matrix.one_apply]
  · intro i hi
    simp [leftContact, leftOf, ContactData.default] at hi
    subst hi
    simp [angRow, leftContact, leftOf, ContactData.default, dotProduct, Fin.sum_univ_three]
    linarith

/-- The last clause of C62 is false when `kin` is empty: the rows of `Kin`, however many, are then dropped and the call is the
one without kinematic constraints. -/
theorem C62_dropped (lib : Lib) (fuel : ℕ) (e : Option Equilibrium) (com dCom l0 : V3) (useAng : Bool) (T timeStep : ℝ)
    (Kin kin : Mat) (h3 : Kin.cols = 3) (h1 : kin.cols = 1) (h0 : kin.rows = 0) :
    zeroStepCapturabilityWithKinConstraints lib fuel e com dCom l0 useAng T timeStep Kin kin
      = zeroStepCapturability lib fuel e com dCom l0 useAng T timeStep := by
  unfold zeroStepCapturabilityWithKinConstraints zeroStepCapturability asRows3 asVector
  rw [if_pos h3, if_pos h1, h0]
  cases e with
  | none => rfl
  | some e =>
    simp only [Out.ok_bind, List.range_zero, List.map_nil]
    unfold solve0step zeroStepProblem zeroStepInequalities compute6dControlPointInequalities addKinematic addAngularIf addAngularMomentum
    simp [ContactData.default]
    rfl

/-- C62 is false with angular momentum: asked to stop at `x ≤ -1`, the function reports success and stops elsewhere. -/
theorem C62_refuted_kinematic : ∃ M, ∀ maxIter > M, ∃ r N,
    (∀ fuel ≥ N, zeroStepCapturabilityWithKinConstraints (exactLib maxIter) fuel (some onePushPhase) 0 0 0 true 1 (-1)
      leftOf.1 leftOf.2 = .ok r) ∧ r.success = true ∧ ¬ Sat leftOf.1 leftOf.2 (ext3 (r.c_of_t.eval 1)) := by
  obtain ⟨A, b, hA, hz⟩ := left_sat (-1 + 1 / 20000) (-1 / 20000) (by norm_num)
  refine ⟨2 ^ A.rows, fun maxIter hM => ?_⟩
  obtain ⟨A', b', r, N, hA', hrun, hok, hfail⟩ := C60_solves (exactLib maxIter) (exactLib_ok maxIter) rfl
    (zeroStepProblem leftContact 0 0 0 true) leftContact onePushPhase leftContact_ok rfl rfl 1 (-1)
    (Or.inl ⟨one_pos, Or.inl (by norm_num)⟩)
  have e : zeroStepInequalities leftContact (zeroStepProblem leftContact 0 0 0 true).bc.c0
    (zeroStepProblem leftContact 0 0 0 true).bc.dc0 (zeroStepProblem leftContact 0 0 0 true).l0
    (zeroStepProblem leftContact 0 0 0 true).useAngularMomentum 1 (-1) = .ok (A, b) := hA
  rw [e] at hA'
  cases hA'
  have hsuc : r.success = true := by
    by_contra hs
    rcases (hfail (by simpa using hs)).2 with h1 | h1
    · change maxIter ≤ _ at h1
      omega
    · exact h1 _ hz
  refine ⟨r, N, hrun, hsuc, fun hsat => ?_⟩
  obtain ⟨-, hlen, hmin⟩ := hok hsuc
  obtain ⟨T', x, v', hT', -, hx, -, hev, hv', c1, c2, c3, c4⟩ := C30_stops (hrun N le_rfl) hsuc
  obtain rfl : (1 : ℝ) = T' := by simpa using hT'
  have hm := hmin _ hz
  have hx0 := hsat 0 (by simp [leftOf])
  rw [c3] at hx0
  simp [leftOf, Finset.sum_range_succ, ext3] at hx0
  have hxx : x = first3 (unk r.x) := by
    unfold head3 at hx
    split at hx
    · simp at hx; rw [← hx]; rfl
    · simp at hx
  rw [hxx] at hx0
  have e1 : (zeroStepProblem leftContact 0 0 0 true).useAngularMomentum = true := rfl
  have e2 : (zeroStepProblem leftContact 0 0 0 true).bc.c0 = 0 := rfl
  have e3 : (zeroStepProblem leftContact 0 0 0 true).l0 = 0 := rfl
  rw [e1, e2, e3] at hm
  simp only [zeroObjective, angularCost, alongX_first, alongX_last, if_true, dot] at hm
  simp at hm
  nlinarith [sq_nonneg (first3 (unk r.x) 1), sq_nonneg (first3 (unk r.x) 2), sq_nonneg (last3 (unk r.x) 0),
    sq_nonneg (last3 (unk r.x) 1), sq_nonneg (last3 (unk r.x) 2)]

end Verif
