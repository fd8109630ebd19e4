import Verif.Model.Cost
import Verif.Props.C18
import Verif.Props.C21

/-!
# C26, C27: the cost functions
-/

namespace Verif
open Matrix

/-- `x' H x + 2 g' x` for `n` variables. -/
noncomputable def quadForm (H g : Mat) (n : ℕ) (y : ℕ → ℝ) : ℝ :=
  (∑ r ∈ Finset.range n, ∑ c ∈ Finset.range n, y r * H.e r c * y c) + 2 * ∑ r ∈ Finset.range n, g.e r 0 * y r

theorem sum_split3 (n : ℕ) (f : ℕ → ℝ) :
    ∑ r ∈ Finset.range (3 + n), f r = (f 0 + f 1 + f 2) + ∑ r ∈ Finset.range n, f (3 + r) := by
  rw [Finset.sum_range_add]
  simp [Finset.sum_range_succ]

/-- Hessian left by the cost functions. -/
noncomputable def costH (n : ℕ) (k : ℝ) : Mat :=
  ⟨3 + n, 3 + n, fun r c => if r < 3 ∧ c < 3 then (if r = c then k else 0) else if r = c then 1e-6 else 0⟩

/-- Linear term left by the cost functions. -/
def costG (n : ℕ) (v : V3) : Mat := ⟨3 + n, 1, fun r _ => if r < 3 then V3.get v r else 0⟩

/-- The quadratic form of a diagonal Hessian: `k` on the first three variables, `1e-6` on the others. -/
theorem quadForm_head (n : ℕ) (k : ℝ) (v : V3) (y : ℕ → ℝ) :
    quadForm (costH n k) (costG n v) (3 + n) y
      = k * dot (first3 y) (first3 y) + 2 * dot v (first3 y) + 1e-6 * ∑ c ∈ Finset.range n, y (3 + c) ^ 2 := by
  have h1 : ∀ r ∈ Finset.range (3 + n), (∑ c ∈ Finset.range (3 + n), y r *
      (if r < 3 ∧ c < 3 then (if r = c then k else 0) else if r = c then 1e-6 else 0) * y c)
      = (if r < 3 then k else 1e-6) * y r ^ 2 := by
    intro r hr
    rw [Finset.sum_eq_single r]
    · simp only [and_self, if_true]
      split_ifs <;> ring
    · intro c _ hc
      have : ¬ r = c := fun h => hc h.symm
      simp [this]
    · intro h; exact absurd hr h
  unfold quadForm
  simp only [costH, costG]
  rw [Finset.sum_congr rfl h1, sum_split3, sum_split3]
  have h2 : ∀ f : ℕ → ℝ, ∑ c ∈ Finset.range n, (if 3 + c < 3 then k else 1e-6) * f c
      = 1e-6 * ∑ c ∈ Finset.range n, f c := by
    intro f
    rw [Finset.mul_sum]
    exact Finset.sum_congr rfl fun c _ => by rw [if_neg (by omega)]
  rw [h2 fun c => y (3 + c) ^ 2]
  have h3 : ∑ c ∈ Finset.range n, (if 3 + c < 3 then V3.get v (3 + c) else 0) * y (3 + c) = 0 :=
    Finset.sum_eq_zero fun c _ => by rw [if_neg (by omega), zero_mul]
  rw [h3]
  simp [dot, first3, V3.get]
  ring

theorem accelSums_eq (l : List Coefs) (s : ℝ × V3) :
    accelSums l s = (s.1 + (l.map fun co => co.first * co.first).sum,
      s.2 + (l.map fun co => co.first • co.second).sum) := by
  induction l generalizing s with
  | nil => simp [accelSums]
  | cons co l ih =>
    rw [accelSums, ih]
    simp [add_assoc]

theorem dot_sum_left (l : List V3) (x : V3) : dot l.sum x = (l.map fun v => dot v x).sum := by
  induction l with
  | nil => simp [dot]
  | cons v l ih =>
    rw [List.map_cons, List.sum_cons, List.sum_cons, ← ih]
    simp [dot]
    ring

/-- Sum of the squares of the values of affine functions. -/
theorem sum_sq_affine (l : List Coefs) (x : V3) :
    (l.map fun co => dot (co.first • x + co.second) (co.first • x + co.second)).sum
      = (l.map fun co => co.first * co.first).sum * dot x x
        + 2 * dot (l.map fun co => co.first • co.second).sum x
        + (l.map fun co => dot co.second co.second).sum := by
  rw [dot_sum_left]
  induction l with
  | nil => simp
  | cons co l ih =>
    simp only [List.map_cons, List.sum_cons, ih]
    simp [dot]
    ring

/-- Shape of what every cost function leaves. -/
theorem cost_blocks (n : ℕ) (k : ℝ) (v : V3) :
    (do
      let H ← setBlock33 { rows := 3 + n, cols := 3 + n, e := fun r c => if r = c then 1e-6 else 0 } k
      let g ← setHead3 { rows := 3 + n, cols := 1, e := fun _ _ => 0 } v
      return (H, g) : Out (Mat × Mat))
      = .ok (costH n k, costG n v) := by
  simp [setBlock33, setHead3, costH, costG]

/-- The accelerations at the samples, as affine functions of the free point. -/
theorem accel_samples (pData : ProblemData) (T : ℝ) (hT : 0 < T) (l : TTime) (hle : ∀ q ∈ l, q.1 ≤ T)
    (hf : pData.flag ∈ comFlags) (pts : List V3)
    (hpts : computeConstantWaypoints pData.flag pData.bc T = .ok pts) :
    ∃ A : ℝ → Coefs, computeDiscretizedAccelerationWaypoints pData T l = .ok (l.map fun q => A q.1) ∧
      ∀ x, ∃ v a, IsDeriv (curve (degreeOf pData.flag) (fill pData.flag (nth pts) x) T) v ∧ IsDeriv v a ∧
        ∀ t, (A t).first • x + (A t).second = a t := by
  have hpl := (C01_boundary_conditions pData.flag hf pData.bc T hT.ne' pts hpts 0).1
  have hC3 := fun x => C03_acceleration_coefs_partial pData.flag hf pts hpl T hT.ne' x
  obtain ⟨_, _, _, _, hA0⟩ := hC3 0
  choose AO hAO _ using hA0
  refine ⟨fun t => AO (t / T), ?_, fun x => ?_⟩
  · rw [computeDiscretizedAccelerationWaypoints, hpts, Out.ok_bind]
    refine mapList_ok _ _ _ fun q hq => ?_
    rw [min_eq_left ((div_le_one hT).mpr (hle q hq))]
    exact hAO _
  · obtain ⟨v, a, hv, ha, h⟩ := hC3 x
    refine ⟨v, a, hv, ha, fun t => ?_⟩
    obtain ⟨co, h1, h2⟩ := h (t / T)
    rw [hAO] at h1
    cases h1
    rw [h2, div_mul_cancel₀ _ hT.ne']

/-- C26, ACCELERATION: the quadratic form of the cost is, up to a constant, the sum over the samples of the squared
norm of the acceleration (plus `1e-6` times the squares of the force variables, if any). -/
theorem C26_acceleration (pData : ProblemData) (Ts : List ℝ) (T' : ℝ) (hcost : pData.costFunction = ACCELERATION)
    (hT : 0 < Ts.sum) (l : TTime) (hle : ∀ q ∈ l, q.1 ≤ Ts.sum) (hf : pData.flag ∈ comFlags) (pts : List V3)
    (hpts : computeConstantWaypoints pData.flag pData.bc Ts.sum = .ok pts) (n : ℕ) :
    ∃ H g K, genCostFunction pData Ts T' l (3 + n) = .ok (H, g) ∧
      H.rows = 3 + n ∧ H.cols = 3 + n ∧ g.rows = 3 + n ∧
      ∀ y : ℕ → ℝ, ∃ v a, IsDeriv (curve (degreeOf pData.flag) (fill pData.flag (nth pts) (first3 y)) Ts.sum) v ∧
        IsDeriv v a ∧ quadForm H g (3 + n) y
          = (l.map fun q => dot (a q.1) (a q.1)).sum + 1e-6 * ∑ c ∈ Finset.range n, y (3 + c) ^ 2 - K := by
  obtain ⟨A, hA, hx⟩ := accel_samples pData Ts.sum hT l hle hf pts hpts
  refine ⟨costH n (accelSums (l.map fun q => A q.1) (0, 0)).1, costG n (accelSums (l.map fun q => A q.1) (0, 0)).2,
    ((l.map fun q => A q.1).map fun co => dot co.second co.second).sum, ?_, rfl, rfl, rfl, fun y => ?_⟩
  · unfold genCostFunction costGenCostFunction computeCostMinAcceleration
    rw [if_pos hcost, hA, Out.ok_bind]
    exact cost_blocks n _ _
  · obtain ⟨v, a, hv, ha, h⟩ := hx (first3 y)
    refine ⟨v, a, hv, ha, ?_⟩
    rw [quadForm_head]
    have e := sum_sq_affine (l.map fun q => A q.1) (first3 y)
    have e2 : (l.map fun q => dot (a q.1) (a q.1))
        = (l.map fun q => A q.1).map fun co => dot (co.first • first3 y + co.second) (co.first • first3 y + co.second) := by
      rw [List.map_map]
      refine List.map_congr_left fun q _ => ?_
      simp only [Function.comp, h]
    rw [e2, e, accelSums_eq]
    simp only [zero_add]
    ring

/-- C26, DISTANCE_TRAVELED: the quadratic form of the cost is, up to a constant, the squared distance of the free
point to the middle of `c0` and `c1` (plus `1e-6` times the squares of the force variables, if any). -/
theorem C26_distance (pData : ProblemData) (Ts : List ℝ) (T : ℝ) (l : TTime)
    (hcost : pData.costFunction = DISTANCE_TRAVELED) (n : ℕ) :
    ∃ H g K, genCostFunction pData Ts T l (3 + n) = .ok (H, g) ∧
      H.rows = 3 + n ∧ H.cols = 3 + n ∧ g.rows = 3 + n ∧
      ∀ y : ℕ → ℝ, quadForm H g (3 + n) y
        = dot (first3 y - (1 / 2 : ℝ) • (pData.bc.c0 + pData.bc.c1)) (first3 y - (1 / 2 : ℝ) • (pData.bc.c0 + pData.bc.c1))
          + 1e-6 * ∑ c ∈ Finset.range n, y (3 + c) ^ 2 - K := by
  refine ⟨costH n 1, costG n (-fun k => (pData.bc.c0 k + pData.bc.c1 k) / 2), dot ((1 / 2 : ℝ) • (pData.bc.c0 + pData.bc.c1)) ((1 / 2 : ℝ) • (pData.bc.c0 + pData.bc.c1)),
    ?_, rfl, rfl, rfl, fun y => ?_⟩
  · unfold genCostFunction costGenCostFunction computeCostMidPoint
    rw [if_neg (by rw [hcost]; decide), if_pos hcost]
    exact cost_blocks n _ _
  · rw [quadForm_head]
    simp [dot]
    ring

/-- C27 is false: whatever the flag, TARGET_END_VELOCITY never gives a cost; in particular it throws when the final
velocity is free. -/
theorem C27_refuted (pData : ProblemData) (Ts : List ℝ) (T : ℝ) (l : TTime)
    (hcost : pData.costFunction = TARGET_END_VELOCITY) (n : ℕ) :
    (∀ q, genCostFunction pData Ts T l n ≠ .ok q) ∧
    (pData.flag ∈ comFlags → genCostFunction pData Ts T l n
      = .throw "Can't use computeCostEndVelocity as cost function when end velocity is a contraint") := by
  have e : ∀ H g, costGenCostFunction pData Ts T l H g = computeCostEndVelocity pData.flag pData.bc T H g := by
    intro H g
    unfold costGenCostFunction
    rw [if_neg (by rw [hcost]; decide), if_neg (by rw [hcost]; decide), if_pos hcost]
  unfold genCostFunction
  rw [e]
  by_cases h0 : pData.flag = 0#32
  · constructor
    · intro q
      rw [h0]
      simp [computeCostEndVelocity, endVelocityBody, computeFinalVelocityPoint]
    · intro h; rw [h0] at h; exact absurd h (by decide)
  · rw [computeCostEndVelocity, if_pos ⟨h0, by decide⟩]
    exact ⟨fun q => by simp, fun _ => rfl⟩

/-- C27, partial: what the function would compute if it did not throw is, up to a constant, the squared distance of
the final velocity to `dc1`. Missing: the test before it lets no flag through (`C27_refuted`). -/
theorem C27_body_partial (flag : Flag) (hf : flag ∈ comFlags) (d : BC) (T : ℝ) (hT : T ≠ 0) (pts : List V3)
    (hpts : computeConstantWaypoints flag d T = .ok pts) (n : ℕ) :
    ∃ H g K, endVelocityBody flag d T { rows := 3 + n, cols := 3 + n, e := fun r c => if r = c then 1e-6 else 0 }
        { rows := 3 + n, cols := 1, e := fun _ _ => 0 } = .ok (H, g) ∧
      ∀ y : ℕ → ℝ, ∃ v, IsDeriv (curve (degreeOf flag) (fill flag (nth pts) (first3 y)) T) v ∧
        quadForm H g (3 + n) y = dot (v T - d.dc1) (v T - d.dc1)
          + 1e-6 * ∑ c ∈ Finset.range n, y (3 + c) ^ 2 - K := by
  obtain ⟨co, hco, hx⟩ := C05_final_velocity flag hf d T hT pts hpts
  refine ⟨costH n (co.first * co.first), costG n (co.first • (co.second - d.dc1)), dot (co.second - d.dc1) (co.second - d.dc1), ?_, fun y => ?_⟩
  · unfold endVelocityBody
    rw [hco, Out.ok_bind]
    exact cost_blocks n _ _
  · obtain ⟨v, hv, h⟩ := hx (first3 y)
    refine ⟨v, hv, ?_⟩
    rw [quadForm_head, ← h]
    simp [dot]
    ring

/-- C26, C27. Any other cost function throws. -/
theorem C26_unknown (pData : ProblemData) (Ts : List ℝ) (T : ℝ) (l : TTime) (n : ℕ)
    (h1 : pData.costFunction ≠ ACCELERATION) (h2 : pData.costFunction ≠ DISTANCE_TRAVELED)
    (h3 : pData.costFunction ≠ TARGET_END_VELOCITY) :
    genCostFunction pData Ts T l n = .throw "Unknown cost function" := by
  simp [genCostFunction, costGenCostFunction, h1, h2, h3]

/-- The samples of a discretisation are in range, as C26 asks. -/
theorem C26_samples (Ts : List ℝ) (hne : Ts ≠ []) (hpos : ∀ T ∈ Ts, 0 < T) (l : TTime) (hl : Discretisation Ts l) :
    ∀ q ∈ l, q.1 ≤ Ts.sum := fun q hq => ((hl.tags hne hpos).2 q hq).2

/-- A non-trivial case of C26: the two phases, five samples, and the cost of the acceleration. -/
example : ∃ H g K, genCostFunction { twoPhases with costFunction := ACCELERATION } [1, 2] 0.5 (computeDiscretizedTimeFixed [1, 2] 5) 3 = .ok (H, g) ∧
    ∀ y : ℕ → ℝ, ∃ pts v a, IsDeriv (curve 3 (fill 11#32 (nth pts) (first3 y)) 3) v ∧ IsDeriv v a ∧
      quadForm H g 3 y = ((computeDiscretizedTimeFixed [1, 2] 5).map fun q => dot (a q.1) (a q.1)).sum - K := by
  have hs : ([1, 2] : List ℝ).sum = 3 := by norm_num
  have hle := C26_samples [1, 2] (by simp) (by simp) _ (Or.inl ⟨5, by norm_num, rfl⟩ : Discretisation [1, 2] (computeDiscretizedTimeFixed [1, 2] 5))
  obtain ⟨H, g, K, h1, -, -, -, h2⟩ := C26_acceleration { twoPhases with costFunction := ACCELERATION } [1, 2] 0.5 rfl (by norm_num) _ hle
    (by decide) _ (by simp [computeConstantWaypoints, twoPhases]; rfl) 0
  refine ⟨H, g, K, h1, fun y => ?_⟩
  obtain ⟨v, a, hv, ha, h⟩ := h2 y
  rw [hs] at hv
  exact ⟨_, v, a, hv, ha, by simpa using h⟩

end Verif
