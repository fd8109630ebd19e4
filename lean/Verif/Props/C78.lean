import Verif.Props.C56

/-!
# C78 — the cost handed to the solver is strictly convex

The solver needs a positive definite Hessian (its first step is a Cholesky factorisation).
-/

namespace Verif
open Matrix

/-- The Hessian of the cost on `n` variables is positive definite. -/
def StrictlyConvex (H : Mat) (n : ℕ) : Prop :=
  Matrix.PosDef (fun i j : Fin n => H.e i j : Matrix (Fin n) (Fin n) ℝ)

/-- C78. The distance always, and the acceleration with every constraint set except `c0_dc0_ddc0_ddc1_dc1_c1`, give a
strictly convex cost, for all samples. -/
theorem C78_convex (pData : ProblemData) (Ts : List ℝ) (g : V3) (h : Accepted pData Ts g) (l : TTime)
    (hl : Discretisation Ts l)
    (hc : pData.costFunction = DISTANCE_TRAVELED ∨ pData.costFunction = ACCELERATION ∧ pData.flag ≠ 63#32) (n : ℕ) :
    ∃ H q, genCostFunction pData Ts Ts.sum l (3 + n) = .ok (H, q) ∧ StrictlyConvex H (3 + n) := by
  obtain ⟨pts, hpts⟩ := C01_answers pData.flag h.flag pData.bc Ts.sum h.capt
  obtain ⟨k, w, K, hk, hgen, -⟩ := cost_hess pData Ts h.total l (C26_samples Ts h.ne h.pos l hl) h.flag
    (goodCost pData Ts h.total h.ne h.flag h.capt l hl hc) pts hpts n
  exact ⟨_, _, hgen, costH_posDef n k hk⟩

/-- C78, the remaining case, acceleration with the set `c0_dc0_ddc0_ddc1_dc1_c1`: the cost is strictly convex iff
there is a sample, other than the first and the last instant, that is not one of the two inflection instants
`(5 ± √5)/10 T` of the influence of the free point. -/
theorem C78_set63 (pData : ProblemData) (Ts : List ℝ) (g : V3) (h : Accepted pData Ts g) (hf : pData.flag = 63#32)
    (l : TTime) (hl : Discretisation Ts l) (hc : pData.costFunction = ACCELERATION) (n : ℕ) :
    ∃ H q, genCostFunction pData Ts Ts.sum l (3 + n) = .ok (H, q) ∧
      (StrictlyConvex H (3 + n) ↔
        ∃ s ∈ l, s.1 ≠ 0 ∧ s.1 ≠ Ts.sum ∧ 5 * s.1 ^ 2 - 5 * Ts.sum * s.1 + Ts.sum ^ 2 ≠ 0) := by
  have hT := h.total
  have hle := C26_samples Ts h.ne h.pos l hl
  obtain ⟨pts, hpts⟩ := C01_answers pData.flag h.flag pData.bc Ts.sum h.capt
  have hpl := (C01_boundary_conditions pData.flag h.flag pData.bc Ts.sum hT.ne' pts hpts 0).1
  rw [hf] at hpl
  simp only [degreeOf] at hpl
  have hev : ∀ t, ∃ co, evaluateAccelerationCurveAtTime 63#32 pts Ts.sum t = .ok co ∧
      co.first = 120 / Ts.sum ^ 2 * (t * (1 - t) * (5 * t ^ 2 - 5 * t + 1)) := by
    intro t
    refine ⟨_, by simp [evaluateAccelerationCurveAtTime, withPts, hpl]; rfl, ?_⟩
    simp [c0_dc0_ddc0_ddc1_dc1_c1.evaluateAccelerationCurveAtTime]
    field_simp
    ring
  choose AO hAO hfirst using hev
  have hA : computeDiscretizedAccelerationWaypoints pData Ts.sum l = .ok (l.map fun q => AO (q.1 / Ts.sum)) := by
    rw [computeDiscretizedAccelerationWaypoints, hpts, Out.ok_bind]
    refine mapList_ok _ _ _ fun q hq => ?_
    rw [min_eq_left ((div_le_one hT).mpr (hle q hq)), hf]
    exact hAO _
  have hgen : genCostFunction pData Ts Ts.sum l (3 + n) = .ok (costH n (accelSums (l.map fun q => AO (q.1 / Ts.sum))
      (0, 0)).1, costG n (accelSums (l.map fun q => AO (q.1 / Ts.sum)) (0, 0)).2) := by
    unfold genCostFunction costGenCostFunction computeCostMinAcceleration
    rw [if_pos hc, hA, Out.ok_bind]
    exact cost_blocks n _ _
  refine ⟨_, _, hgen, ?_⟩
  have hk : (accelSums (l.map fun q => AO (q.1 / Ts.sum)) (0, 0)).1
      = (l.map fun q => (AO (q.1 / Ts.sum)).first * (AO (q.1 / Ts.sum)).first).sum := by
    rw [accelSums_eq]
    simp [List.map_map, Function.comp_def]
  rw [hk]
  have hz : ∀ s : ℝ, (AO (s / Ts.sum)).first ≠ 0 ↔
      s ≠ 0 ∧ s ≠ Ts.sum ∧ 5 * s ^ 2 - 5 * Ts.sum * s + Ts.sum ^ 2 ≠ 0 := by
    intro s
    rw [hfirst]
    have e : 120 / Ts.sum ^ 2 * (s / Ts.sum * (1 - s / Ts.sum) * (5 * (s / Ts.sum) ^ 2 - 5 * (s / Ts.sum) + 1))
        = 120 / Ts.sum ^ 6 * (s * ((Ts.sum - s) * (5 * s ^ 2 - 5 * Ts.sum * s + Ts.sum ^ 2))) := by
      field_simp
    rw [e, mul_ne_zero_iff, mul_ne_zero_iff, mul_ne_zero_iff, sub_ne_zero]
    have h0 : (120 : ℝ) / Ts.sum ^ 6 ≠ 0 := by positivity
    simp only [h0, ne_eq, not_false_iff, true_and]
    rw [eq_comm (a := Ts.sum)]
  constructor
  · intro hp
    by_contra hcon
    push_neg at hcon
    have hzero : (l.map fun q => (AO (q.1 / Ts.sum)).first * (AO (q.1 / Ts.sum)).first).sum = 0 := by
      refine List.sum_eq_zero fun z hz' => ?_
      obtain ⟨q, hq, rfl⟩ := List.mem_map.mp hz'
      have : (AO (q.1 / Ts.sum)).first = 0 := by
        by_contra hne
        obtain ⟨a1, a2, a3⟩ := (hz q.1).mp hne
        exact a3 (hcon q hq a1 a2)
      rw [this, zero_mul]
    rw [hzero] at hp
    have hd := hp.diag_pos (i := ⟨0, by omega⟩)
    simp [costH] at hd
  · rintro ⟨s, hs, h1, h2, h3⟩
    refine costH_posDef n _ (lt_of_lt_of_le (mul_self_pos.mpr ((hz s.1).mpr ⟨h1, h2, h3⟩)) ?_)
    refine List.single_le_sum ?_ _ (List.mem_map.mpr ⟨s, hs, rfl⟩)
    intro z hz'
    obtain ⟨q', -, rfl⟩ := List.mem_map.mp hz'
    exact mul_self_nonneg _

/-- C78, the singular case: with one phase and one point per phase the acceleration at both samples is imposed by the boundary
conditions, the Hessian is zero. -/
theorem C78_singular (pData : ProblemData) (T : ℝ) (g : V3) (h : Accepted pData [T] g) (hf : pData.flag = 63#32)
    (hc : pData.costFunction = ACCELERATION) :
    ∃ H q, genCostFunction pData [T] ([T] : List ℝ).sum (computeDiscretizedTimeFixed [T] 1) 3 = .ok (H, q) ∧
      ¬ StrictlyConvex H 3 := by
  obtain ⟨H, q, h1, h2⟩ := C78_set63 pData [T] g h hf _ (Or.inl ⟨1, one_pos, rfl⟩) hc 0
  refine ⟨H, q, h1, fun hs => ?_⟩
  obtain ⟨s, hs, a1, a2, -⟩ := h2.mp hs
  have hl : computeDiscretizedTimeFixed [T] 1 = [(0, 0), (T, 0)] := by
    simp [computeDiscretizedTimeFixed, fixedOuter, fixedInner]
  rw [hl] at hs
  simp at hs
  rcases hs with rfl | rfl
  · exact a1 rfl
  · exact a2 (by simp)

/-- Such a problem. -/
noncomputable def still63 : ProblemData :=
  { contacts := [freeContact], bc := ⟨![1, 0, 0], 0, 0, 0, ![3, 0, 0], 0, 0, 0⟩, l0 := 0,
    useAngularMomentum := false, flag := 63#32, constraintAcceleration := false, maxAcceleration := 0, reduce_h := 0,
    costFunction := 1, representation := 1 }

theorem still63_accepted : Accepted still63 [1] 0 := by
  refine ⟨rfl, by simp, by simp, ?_, by simp [still63, comFlags], by simp [still63]⟩
  intro ct hct
  simp only [still63, List.mem_singleton] at hct
  subst hct
  exact ⟨_, ⟨rfl, rfl, by norm_num, by simp, by simp [freeContact]⟩, rfl⟩

example : ∃ H q, genCostFunction still63 [1] ([1] : List ℝ).sum (computeDiscretizedTimeFixed [1] 1) 3 = .ok (H, q) ∧
    ¬ StrictlyConvex H 3 := C78_singular still63 1 0 still63_accepted rfl rfl

/-- With two points it is strictly convex. -/
example : ∃ H q, genCostFunction still63 [1] ([1] : List ℝ).sum (computeDiscretizedTimeFixed [1] 2) 3 = .ok (H, q) ∧
    StrictlyConvex H 3 := by
  obtain ⟨H, q, h1, h2⟩ := C78_set63 still63 [1] 0 still63_accepted rfl _ (Or.inl ⟨2, two_pos, rfl⟩) rfl 0
  refine ⟨H, q, h1, h2.mpr ⟨(1 / 2, 0), ?_, by norm_num, by norm_num, by norm_num⟩⟩
  simp [computeDiscretizedTimeFixed, fixedOuter, fixedInner]

end Verif
