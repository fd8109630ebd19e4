import Verif.Props.C34

/-!
# C35: angular constraints in the zero step problem

`compute6dControlPointInequalities` passes the kinematic constraints twice (src/common_solve_methods.cpp:127), so the
claim is false.
-/

namespace Verif
open Matrix

/-! ## Specification -/

/-- The momentum `xL` satisfies the angular constraints of the phase. -/
def AngOk (ct : ContactData) (xL : V3) : Prop := ∀ q ∈ List.zip ct.Ang ct.ang, dot q.1 xL ≤ q.2

/-- The wrench of the motion stopping at `x`, with the momentum curve of `xL`, stays in the cone. -/
def MotionOk (e : Equilibrium) (c0 dc0 l0 x xL : V3) (T : ℝ) : Prop :=
  ∀ v a dL, IsDeriv (stopCurve c0 dc0 x T) v → IsDeriv v a → IsDeriv (momentumCurve l0 xL T) dL →
    ∀ t, 0 ≤ t → t ≤ T →
      ConeOk e (e.mass • (e.gravity - a t)) (e.mass • cr (stopCurve c0 dc0 x T t) (e.gravity - a t) - dL t)

/-! ## Counterexamples -/

/-- Gravity downwards, and a contact that can only push. -/
noncomputable def onePushPhase : Equilibrium :=
  { mass := 2, gravity := ![0, 0, -10], poly := [((![0, 0, 1], 0), 0)], polyOk := true, isPP := true, gens := [] }

noncomputable def onePush (ang : List ℝ) : ContactData :=
  { contactPhase := some onePushPhase, Kin := [![1, 0, 0]], kin := [1], Ang := ang.map fun _ => ![1, 0, 0], ang := ang }

theorem onePush_ok (ang : List ℝ) : ZeroContact (onePush ang) onePushPhase := by
  refine ⟨rfl, rfl, rfl, ?_, fun _ => rfl⟩
  intro r hr
  simp [onePushPhase] at hr
  subst hr
  intro h0
  have := congrFun (congrArg Prod.fst h0) 2
  simp at this

/-- Unknowns `(x, 0, 0)` and `(l, 0, 0)`. -/
def alongX (x l : ℝ) : ℕ → ℝ := fun c => if c = 0 then x else if c = 3 then l else 0

theorem alongX_first (x l : ℝ) : first3 (alongX x l) = ![x, 0, 0] := by
  funext k; fin_cases k <;> simp [first3, alongX]

theorem alongX_last (x l : ℝ) : last3 (alongX x l) = ![l, 0, 0] := by
  funext k; fin_cases k <;> simp [last3, alongX]

/-- A motion along the first axis only pushes. -/
theorem push_sat (ang : List ℝ) (x l : ℝ) :
    ∃ A b, zeroStepInequalities (onePush ang) 0 0 0 true 1 (-1) = .ok (A, b) ∧
      (Sat A b (alongX x l) ↔ ∀ i < 1 + ang.length, (angRow (onePush ang) ang.length i).1 ⬝ᵥ ![x, 0, 0]
            + (angRow (onePush ang) ang.length i).2.1 ⬝ᵥ ![l, 0, 0] ≤ (angRow (onePush ang) ang.length i).2.2) := by
  unfold zeroStepInequalities angularWaypoints ComputeAllWaypoints ComputeAllWaypointsAngularMomentum
  simp only [numSteps_neg (show (-1 : ℝ) ≤ 0 by norm_num), Out.ok_bind,
    discretize_none _ (show (-1 : ℤ) ≤ 0 by norm_num), if_true]
  simp only [onePush]
  obtain ⟨A, b, hA, -, -, -, hS⟩ := ineq_ang (onePush ang) onePushPhase (onePush_ok ang)
    [w0 0 (fun k => (0 : V3) k * 1 / 3 + (0 : V3) k) onePushPhase.gravity (1 / (1 * 1)),
      w1 0 (fun k => (0 : V3) k * 1 / 3 + (0 : V3) k) onePushPhase.gravity (1 / (1 * 1)),
      w2 0 (fun k => (0 : V3) k * 1 / 3 + (0 : V3) k) onePushPhase.gravity (1 / (1 * 1)),
      w3 0 (fun k => (0 : V3) k * 1 / 3 + (0 : V3) k) onePushPhase.gravity (1 / (1 * 1)),
      w4 (fun k => (0 : V3) k * 1 / 3 + (0 : V3) k) onePushPhase.gravity (1 / (1 * 1))]
    [u0 0 (1 / 1), u1 0 (1 / 1), u2 0 (1 / 1), u3 (1 / 1), u4] rfl
  refine ⟨A, b, hA, ?_⟩
  rw [hS, alongX_first, alongX_last]
  constructor
  · exact fun h => h.2
  · intro h
    refine ⟨?_, h⟩
    intro k hk _
    simp only [List.length_cons, List.length_nil] at hk
    intro r hr
    simp [onePushPhase] at hr
    subst hr
    have hf : ∀ f τ : V3, dot ![0, 0, 1] f + dot 0 τ = f 2 := by intro f τ; simp [dot]
    rw [hf]
    interval_cases k <;>
      simp only [List.getElem_cons_zero, List.getElem_cons_succ, Pi.sub_apply, Pi.smul_apply, smul_eq_mul, Wp6.headAt,
        Pi.add_apply, mulVec, dotProduct, Fin.sum_univ_three] <;>
      simp [onePushPhase, w0, w1, w2, w3, w4, u0, u1, u2, u3, u4, Wp6.headAt, Wp6.tailAt, dot, mulVec, dotProduct,
        Fin.sum_univ_three, Matrix.one_apply]

/-- C35 is false: the angular constraints are not enforced. -/
theorem C35_refuted_angular :
    ∃ (ct : ContactData) (e : Equilibrium) (A b : Mat) (y : ℕ → ℝ), ZeroContact ct e ∧
      ct.Ang.length = ct.ang.length ∧ zeroStepInequalities ct 0 0 0 true 1 (-1) = .ok (A, b) ∧ Sat A b y ∧
      ¬ AngOk ct (last3 y) := by
  obtain ⟨A, b, hA, hS⟩ := push_sat [0] 0 (1 / 2)
  refine ⟨onePush [0], onePushPhase, A, b, alongX 0 (1 / 2), onePush_ok _, rfl, hA, hS.mpr ?_, ?_⟩
  · intro i hi
    simp at hi
    interval_cases i <;> simp [angRow, onePush, dotProduct, Fin.sum_univ_three] <;> norm_num
  · intro h
    have := h (![1, 0, 0], 0) (by simp [onePush])
    rw [alongX_last] at this
    simp [dot] at this
    norm_num at this

/-- C35 is false: with no angular constraints, the kinematic constraints are not enforced either. -/
theorem C35_refuted_kinematic :
    ∃ (ct : ContactData) (e : Equilibrium) (A b : Mat) (y : ℕ → ℝ), ZeroContact ct e ∧ ct.ang = [] ∧ ct.Ang = [] ∧
      zeroStepInequalities ct 0 0 0 true 1 (-1) = .ok (A, b) ∧ Sat A b y ∧ ¬ KinOk ct (first3 y) := by
  obtain ⟨A, b, hA, hS⟩ := push_sat [] 5 (-5)
  refine ⟨onePush [], onePushPhase, A, b, alongX 5 (-5), onePush_ok _, rfl, rfl, hA, hS.mpr ?_, ?_⟩
  · intro i hi
    simp at hi
    subst hi
    simp [angRow, onePush, dotProduct, Fin.sum_univ_three]
  · intro h
    have := h (![1, 0, 0], 1) (by simp [onePush])
    rw [alongX_first] at this
    simp [dot] at this

/-- C35 is false: a motion that satisfies everything asked for is rejected. -/
theorem C35_refuted_spurious :
    ∃ (ct : ContactData) (e : Equilibrium) (A b : Mat) (y : ℕ → ℝ), ZeroContact ct e ∧
      ct.Ang.length = ct.ang.length ∧ zeroStepInequalities ct 0 0 0 true 1 (-1) = .ok (A, b) ∧
      MotionOk e 0 0 0 (first3 y) (last3 y) 1 ∧ KinOk ct (first3 y) ∧ AngOk ct (last3 y) ∧ ¬ Sat A b y := by
  obtain ⟨A, b, hA, hS⟩ := push_sat [100] 0 50
  refine ⟨onePush [100], onePushPhase, A, b, alongX 0 50, onePush_ok _, rfl, hA, ?_, ?_, ?_, ?_⟩
  · intro v a dL hv ha _ t _ _
    have hz : stopCurve 0 0 (first3 (alongX 0 50)) 1 = fun _ => 0 := by
      funext s k
      rw [stopCurve, curve, bez_apply, bezS3, alongX_first]
      fin_cases k <;> simp
    rw [hz] at hv
    have h0 : IsDeriv (fun _ : ℝ => (0 : V3)) fun _ => 0 := fun t => hasDerivAt_const t _
    obtain rfl := deriv_unique hv h0
    obtain rfl := deriv_unique ha h0
    intro r hr
    simp [onePushPhase] at hr
    subst hr
    simp [dot, onePushPhase]
  · intro q hq
    simp [onePush] at hq
    subst hq
    rw [alongX_first]
    simp [dot]
  · intro q hq
    simp [onePush] at hq
    subst hq
    rw [alongX_last]
    simp [dot]
    norm_num
  · rw [hS]
    intro h
    have := h 1 (by simp)
    simp [angRow, onePush, dotProduct, Fin.sum_univ_three] at this

/-! ## What does hold -/

/-- C35, what does hold: the kinematic constraints are enforced when there are at least as many angular as kinematic
constraints. -/
theorem C35_kinematic_partial (ct : ContactData) (e : Equilibrium) (h : ZeroContact ct e) (c0 dc0 l0 : V3)
    (T timeStep : ℝ) (hn : ct.kin.length ≤ ct.ang.length) (A b : Mat)
    (hT : 0 < T ∧ (timeStep ≤ 0 ∨ T < timeStep) ∨ ∃ N, 1 ≤ N ∧ StepCount T timeStep N)
    (hA : zeroStepInequalities ct c0 dc0 l0 true T timeStep = .ok (A, b)) (y : ℕ → ℝ) (hy : Sat A b y) :
    KinOk ct (first3 y) := by
  unfold zeroStepInequalities angularWaypoints at hA
  rw [h.1] at hA
  simp only [Out.bind_eq_ok, if_true] at hA
  obtain ⟨ws, hw, us, hu, hA⟩ := hA
  have hlen : ws.length = us.length := by
    rcases hT with ⟨hT, hs⟩ | ⟨N, hN, hs⟩
    · obtain ⟨ws', hw', h1, -⟩ := C31_continuous c0 dc0 e.gravity T timeStep hT hs
      obtain ⟨us', hu', h2, -⟩ := C32_waypoints_continuous l0 T timeStep hT hs
      rw [hw'] at hw; rw [hu'] at hu
      cases hw; cases hu
      omega
    · obtain ⟨ws', hw', h1, -⟩ := C31_discretised c0 dc0 e.gravity T timeStep N hN hs
      obtain ⟨us', hu', h2, -⟩ := C32_waypoints_discretised l0 T timeStep N hN hs
      rw [hw'] at hw; rw [hu'] at hu
      cases hw; cases hu
      omega
  obtain ⟨A', b', hA', -, -, -, hS⟩ := ineq_ang ct e h ws us hlen
  rw [hA'] at hA
  cases hA
  by_cases hk : ct.kin = []
  · intro q hq; simp [hk] at hq
  · have hl := h.2.2.2.2 hk
    unfold KinOk
    rw [kin_zip_iff hl fun K k => dot K (first3 y) ≤ k]
    intro j hj
    have := ((hS y).mp hy).2 j (by omega)
    unfold angRow at this
    rw [if_pos hj, if_neg (by omega), if_neg (by omega), if_pos hj, dot_eq] at this
    simpa using this

/-- C35, what does hold: without kinematic constraints, and without angular constraints, the inequalities with a time
step say exactly that the wrench is in the cone at the instants `0, T/N, …, T`. -/
theorem C35_exact_partial (ct : ContactData) (e : Equilibrium) (h : ZeroContact ct e) (c0 dc0 l0 : V3)
    (hk : ct.kin = []) (T timeStep : ℝ) (N : ℕ) (hN : 1 ≤ N) (hs : StepCount T timeStep N) :
    ∃ A b, zeroStepInequalities ct c0 dc0 l0 true T timeStep = .ok (A, b) ∧
      ∀ y v a dL, IsDeriv (stopCurve c0 dc0 (first3 y) T) v → IsDeriv v a →
        IsDeriv (momentumCurve l0 (last3 y) T) dL →
        (Sat A b y ↔ ∀ i : ℕ, i ≤ N → ConeOk e (e.mass • (e.gravity - a (i * (T / N))))
            (e.mass • cr (stopCurve c0 dc0 (first3 y) T (i * (T / N))) (e.gravity - a (i * (T / N)))
              - dL (i * (T / N)))) := by
  obtain ⟨ws, hws, hl, hw⟩ := C31_discretised c0 dc0 e.gravity T timeStep N hN hs
  obtain ⟨us, hus, hl', hu⟩ := C32_waypoints_discretised l0 T timeStep N hN hs
  unfold zeroStepInequalities angularWaypoints
  rw [h.1]
  dsimp only
  rw [hws, Out.ok_bind, if_pos rfl, hus, Out.ok_bind]
  obtain ⟨A, b, hA, hc, -, -, hS⟩ := ineq_ang ct e h ws us (by omega)
  refine ⟨A, b, hA, fun y v a dL hv ha hdL => ?_⟩
  obtain ⟨v', a', hv', ha', hW⟩ := hw (first3 y)
  obtain ⟨dL', hdL', hU⟩ := hu (last3 y)
  obtain rfl := deriv_unique hv hv'
  obtain rfl := deriv_unique ha ha'
  obtain rfl := deriv_unique hdL hdL'
  rw [hS]
  have hrest : ∀ i < ct.kin.length + ct.ang.length, (angRow ct ct.ang.length i).1 ⬝ᵥ first3 y
            + (angRow ct ct.ang.length i).2.1 ⬝ᵥ last3 y ≤ (angRow ct ct.ang.length i).2.2 := by
    intro i hi
    rw [hk] at hi
    simp at hi
    unfold angRow
    rw [if_neg (by simp [hk]), if_neg (by omega), if_neg (by omega), if_neg (by simp [hk])]
    simp
  rw [and_iff_left hrest]
  constructor
  · intro hall i hi
    have := hall i (by omega) (by omega)
    rw [(hW i (by omega)).1, (hW i (by omega)).2, (hU i (by omega)).1, (hU i (by omega)).2, wTail_eq] at this
    simpa using this
  · intro hall i hi hi'
    rw [(hW i hi).1, (hW i hi).2, (hU i hi').1, (hU i hi').2, wTail_eq]
    simpa using hall i (by omega)

end Verif
