import Verif.Props.C18

/-!
# C24 — stability margin and row scaling
-/

namespace Verif
open Matrix

theorem WrenchOk.mono {e : Equilibrium} {ρ ρ' : ℝ} {f τ : V3} (h : max ρ 0 ≤ max ρ' 0)
    (hw : WrenchOk e ρ' f τ) : WrenchOk e ρ f τ := by
  intro r hr
  refine le_trans (hw r hr) ?_
  refine mul_le_mul_of_nonneg_right (by linarith) ?_
  exact mul_nonneg (abs_nonneg _) (Real.sqrt_nonneg _)

/-- The feasible set of the discretised problem. -/
def Feasible (pData : ProblemData) (Ts : List ℝ) (l : TTime) (x : V3) : Prop :=
  ∃ A b, computeConstraintsOneStep pData Ts.length Ts.sum l = .ok (A, b) ∧ Sat A b (ext3 x)

theorem feasible_mono (pData : ProblemData) (Ts : List ℝ) (g : V3) (h : Accepted pData Ts g)
    (l : TTime) (hl : Discretisation Ts l) (ρ ρ' : ℝ) (hρ : max ρ 0 ≤ max ρ' 0) (x : V3)
    (hx : Feasible { pData with reduce_h := ρ' } Ts l x) :
    Feasible { pData with reduce_h := ρ } Ts l x := by
  have h1 : Accepted { pData with reduce_h := ρ } Ts g :=
    ⟨h.size, h.ne, h.pos, h.good, h.flag, h.capt⟩
  have h2 : Accepted { pData with reduce_h := ρ' } Ts g :=
    ⟨h.size, h.ne, h.pos, h.good, h.flag, h.capt⟩
  obtain ⟨A, b, hA, hs⟩ := hx
  obtain ⟨pts, ws, hpts, hws, H⟩ := C19_meaning _ Ts g h2 l hl A b hA
  obtain ⟨v, a, hv, ha, hiff⟩ := H x
  obtain ⟨k1, k2⟩ := hiff.mp hs
  refine C58_all_sets _ Ts g h1 l hl pts hpts ws hws x v a hv ha ?_ k2
  intro t p hc
  obtain ⟨ct, e, q1, q2, q3, q4⟩ := k1 t p hc
  exact ⟨ct, e, q1, q2, q3.mono hρ, q4⟩

/-- C24. Increasing the margin never enlarges the feasible set. -/
theorem C24_margin_monotone (pData : ProblemData) (Ts : List ℝ) (g : V3) (h : Accepted pData Ts g)
    (l : TTime) (hl : Discretisation Ts l) (ρ ρ' : ℝ) (hρ : ρ ≤ ρ') (x : V3)
    (hx : Feasible { pData with reduce_h := ρ' } Ts l x) :
    Feasible { pData with reduce_h := ρ } Ts l x :=
  feasible_mono pData Ts g h l hl ρ ρ' (max_le_max_right 0 hρ) x hx

/-- C24. A nonpositive margin is no margin: all nonpositive values give the same feasible set. -/
theorem C24_nonpositive_margin (pData : ProblemData) (Ts : List ℝ) (g : V3)
    (h : Accepted pData Ts g) (l : TTime) (hl : Discretisation Ts l) (ρ : ℝ) (hρ : ρ ≤ 0) (x : V3) :
    Feasible { pData with reduce_h := ρ } Ts l x ↔ Feasible { pData with reduce_h := 0 } Ts l x := by
  have e : max ρ 0 = max (0 : ℝ) 0 := by rw [max_eq_right hρ, max_self]
  exact ⟨feasible_mono pData Ts g h l hl 0 ρ e.ge x, feasible_mono pData Ts g h l hl ρ 0 e.le x⟩

/-- C24. For a homogeneous cone (`h = 0`) and no margin, normalising the rows and scaling them by the
mass changes nothing: admissibility is membership of the wrench in the cone. -/
theorem wrenchOk_cone (e : Equilibrium) (ρ : ℝ) (hρ : ρ ≤ 0) (h0 : ∀ r ∈ e.poly, r.2 = 0)
    (f τ : V3) : WrenchOk e ρ f τ ↔ ∀ r ∈ e.poly, dot r.1.1 f + dot r.1.2 τ ≤ 0 := by
  refine forall₂_congr fun r hr => ?_
  unfold WrenchRowOk
  rw [h0 r hr, max_eq_right hρ]
  simp

/-- C24. For homogeneous cones the solutions are exactly the motions whose gravito-inertial wrench
(not normalised, not scaled by any row norm) is in the cone of each phase (five exact sets). -/
theorem C24_cone (pData : ProblemData) (Ts : List ℝ) (g : V3)
    (h : Accepted pData Ts g) (hf : pData.flag ∈ [11#32, 19#32, 27#32, 7#32, 15#32])
    (hρ : pData.reduce_h ≤ 0)
    (hcone : ∀ ct ∈ pData.contacts, ∀ e, ct.contactPhase = some e → ∀ r ∈ e.poly, r.2 = 0)
    (l : TTime) (hl : Discretisation Ts l)
    (A b : Mat) (hA : computeConstraintsOneStep pData Ts.length Ts.sum l = .ok (A, b)) :
    ∃ pts, computeConstantWaypoints pData.flag pData.bc Ts.sum = .ok pts ∧ ∀ x : V3,
      let c := curve (degreeOf pData.flag) (fill pData.flag (nth pts) x) Ts.sum
      ∃ v a, IsDeriv c v ∧ IsDeriv v a ∧
        (Sat A b (ext3 x) ↔
          (∀ t p, Constrained l t p → AtPhase pData.contacts p fun ct e =>
            (∀ r ∈ e.poly, dot r.1.1 (e.mass • (g - a t)) + dot r.1.2 (e.mass • cr (c t) (g - a t)) ≤ 0)
              ∧ KinOk ct (c t)) ∧
          (pData.constraintAcceleration = true →
            ∀ q ∈ l, ∀ k, |a q.1 k| ≤ pData.maxAcceleration)) := by
  obtain ⟨pts, hpts, H⟩ := C19_physical pData Ts g h hf l hl A b hA
  refine ⟨pts, hpts, fun x => ?_⟩
  obtain ⟨v, a, hv, ha, hiff⟩ := H x
  refine ⟨v, a, hv, ha, hiff.trans ?_⟩
  refine and_congr_left fun _ => forall₂_congr fun t p => imp_congr_right fun hc => ?_
  have k : ∀ ct e, pData.contacts[p]? = some ct → ct.contactPhase = some e →
      e.gravity = g ∧ (∀ r ∈ e.poly, r.2 = 0) := by
    intro ct e h1 h2
    have hm := List.mem_of_getElem? h1
    obtain ⟨e', he', hg'⟩ := h.good ct hm
    rw [he'.1] at h2
    cases h2
    exact ⟨hg', hcone ct hm _ he'.1⟩
  constructor
  · rintro ⟨ct, e, q1, q2, q3, q4⟩
    obtain ⟨k1, k2⟩ := k ct e q1 q2
    rw [k1] at q3
    exact ⟨ct, e, q1, q2, (wrenchOk_cone e _ hρ k2 _ _).mp q3, q4⟩
  · rintro ⟨ct, e, q1, q2, q3, q4⟩
    obtain ⟨k1, k2⟩ := k ct e q1 q2
    refine ⟨ct, e, q1, q2, ?_, q4⟩
    rw [k1]
    exact (wrenchOk_cone e _ hρ k2 _ _).mpr q3

/-! ## The motion that does not move -/

/-- A problem with all boundary conditions zero. -/
def stillProblem (cts : List ContactData) (ρ : ℝ) : ProblemData :=
  { contacts := cts, bc := ⟨0, 0, 0, 0, 0, 0, 0, 0⟩, l0 := 0,
    useAngularMomentum := false, flag := 11#32, constraintAcceleration := false,
    maxAcceleration := 1, reduce_h := ρ, costFunction := 1, representation := 1 }

theorem still_curve (T : ℝ) :
    curve 3 (fill 11#32 (nth (c0_dc0_c1.computeConstantWaypoints ⟨0, 0, 0, 0, 0, 0, 0, 0⟩ T)) 0) T
      = fun _ => 0 := by
  funext s
  have : fill 11#32 (nth (c0_dc0_c1.computeConstantWaypoints ⟨0, 0, 0, 0, 0, 0, 0, 0⟩ T)) 0
      = fun _ => 0 := by
    funext i
    unfold fill
    split_ifs
    · rfl
    · simp only [c0_dc0_c1.computeConstantWaypoints, nth]
      rcases i with _ | _ | _ | _ | i <;> simp <;> rfl
  rw [this, curve, bez]
  simp

theorem still_feasible (cts : List ContactData) (ρ : ℝ) (Ts : List ℝ) (g : V3)
    (h : Accepted (stillProblem cts ρ) Ts g) (l : TTime) (hl : Discretisation Ts l)
    (hok : ∀ ct ∈ cts, ∀ e, ct.contactPhase = some e → PhaseOk ct e ρ 0 0) :
    Feasible (stillProblem cts ρ) Ts l 0 := by
  have hpts : computeConstantWaypoints (stillProblem cts ρ).flag (stillProblem cts ρ).bc Ts.sum = .ok
      (c0_dc0_c1.computeConstantWaypoints ⟨0, 0, 0, 0, 0, 0, 0, 0⟩ Ts.sum) := by
    simp [computeConstantWaypoints, stillProblem]
  have hcurve := still_curve Ts.sum
  refine C58_not_cut_off _ Ts g h (by simp [stillProblem]) l hl _ hpts 0
    (fun _ => 0) (fun _ => 0) ?_ (fun s => hasDerivAt_const s 0) ?_ (by simp [stillProblem])
  · change IsDeriv (curve 3 (fill 11#32 _ 0) Ts.sum) _
    rw [hcurve]; exact fun s => hasDerivAt_const s 0
  · intro t p hc
    have hp : p < Ts.length := (hc.lt (hl.tags h.ne h.pos).1).1
    obtain ⟨ct, e, q1, q2, -⟩ := h.phase p hp
    refine ⟨ct, e, q1, q2.1, ?_⟩
    change PhaseOk ct e ρ (curve 3 (fill 11#32 _ 0) Ts.sum t) 0
    rw [hcurve]
    exact hok ct (List.mem_of_getElem? q1) e q2.1

/-- A contact that can push upwards with at most 300 N. -/
def weakContact : ContactData :=
  { contactPhase := some
      { mass := 50, gravity := ![0, 0, -9.81], poly := [((![0, 0, -1], 0), 300)],
        polyOk := true, isPP := true, gens := [] },
    Kin := [], kin := [], Ang := [], ang := [] }

/-- C24, the limit of the claim: when the inequalities are not homogeneous the rows are normalised
and scaled by the mass but `h` is not, so the assembled constraints are not those of the polytope.
A robot of 50 kg (490.5 N) standing still on a contact limited to 300 N is accepted. -/
theorem C24_nonhomogeneous_refuted :
    ∃ (pData : ProblemData) (l : TTime) (x : V3) (e : Equilibrium),
      Accepted pData [1] ![0, 0, -9.81] ∧ Discretisation [1] l ∧ Feasible pData [1] l x ∧
      pData.contacts = [weakContact] ∧ weakContact.contactPhase = some e ∧
      -- the motion is the constant zero one, whose wrench violates the polytope:
      curve (degreeOf pData.flag)
        (fill pData.flag (nth (c0_dc0_c1.computeConstantWaypoints pData.bc 1)) x) 1 = (fun _ => 0) ∧
      ∃ r ∈ e.poly, ¬ (dot r.1.1 (e.mass • (e.gravity - 0)) + dot r.1.2 (e.mass • cr 0 (e.gravity - 0))
        ≤ r.2) := by
  have hgood : GoodContact weakContact
      { mass := 50, gravity := ![0, 0, -9.81], poly := [((![0, 0, -1], 0), 300)],
        polyOk := true, isPP := true, gens := [] } := by
    refine ⟨rfl, rfl, by norm_num, ?_, fun h => absurd rfl h⟩
    intro r hr
    simp only [List.mem_singleton] at hr
    subst hr
    intro h
    have := congrFun (congrArg Prod.fst h) 2
    simp at this
  have hacc : Accepted (stillProblem [weakContact] 0) [1] ![0, 0, -9.81] := by
    refine ⟨rfl, by simp, by simp, ?_, by simp [stillProblem, comFlags], by simp [stillProblem]⟩
    intro ct hct
    simp only [stillProblem, List.mem_singleton] at hct
    subst hct
    exact ⟨_, hgood, rfl⟩
  have hl : Discretisation [1] (computeDiscretizedTimeFixed [1] 3) := Or.inl ⟨3, by norm_num, rfl⟩
  refine ⟨stillProblem [weakContact] 0, _, 0, _, hacc, hl, ?_, rfl, hgood.1, still_curve 1,
    ((![0, 0, -1], 0), 300), by simp, ?_⟩
  · refine still_feasible _ _ _ _ hacc _ hl ?_
    intro ct hct e he
    simp only [List.mem_singleton] at hct
    subst hct
    rw [hgood.1] at he
    cases he
    refine ⟨?_, by simp [KinOk, weakContact]⟩
    intro r hr
    simp only [List.mem_singleton] at hr
    subst hr
    have h1 : Real.sqrt (dot ![0, 0, -1] ![0, 0, -1] + dot (0 : V3) 0) = 1 := by
      rw [show dot ![0, 0, -1] ![0, 0, -1] + dot (0 : V3) 0 = 1 by simp [dot]]
      exact Real.sqrt_one
    simp only [WrenchRowOk, h1]
    simp [dot]
    norm_num
  · simp [dot]
    norm_num

end Verif
