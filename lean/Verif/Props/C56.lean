import Verif.Props.C28
import Verif.Props.C23
import Verif.Props.C25
import Verif.Lemmas.SolveExact
import Verif.Lemmas.ForceRank

/-!
# C56: the planner from end to end
-/

namespace Verif
open Matrix

/-! ## Specification -/

/-- The motions the planner chooses from: position `c`, velocity `v` and acceleration `a` for the free point `x`. -/
def Motion (pData : ProblemData) (T : ℝ) (x : V3) (c v a : ℝ → V3) : Prop :=
  ∃ pts, computeConstantWaypoints pData.flag pData.bc T = .ok pts ∧
    c = curve (degreeOf pData.flag) (fill pData.flag (nth pts) x) T ∧ IsDeriv c v ∧ IsDeriv v a

/-- A motion meets the requirements at all samples: wrench and position for the phase(s) of the sample, and the
acceleration bound if requested. -/
def MeetsSamples (pData : ProblemData) (l : TTime) (c a : ℝ → V3) : Prop :=
  (∀ t p, Constrained l t p → AtPhase pData.contacts p fun ct e => PhaseOk ct e pData.reduce_h (c t) (a t)) ∧
  (pData.constraintAcceleration = true → ∀ q ∈ l, ∀ k, |a q.1 k| ≤ pData.maxAcceleration)

/-- The quantity to be minimised. -/
noncomputable def motionCost (pData : ProblemData) (l : TTime) (x : V3) (a : ℝ → V3) : ℝ :=
  if pData.costFunction = ACCELERATION then (l.map fun q => dot (a q.1) (a q.1)).sum
  else dot (x - (1 / 2 : ℝ) • (pData.bc.c0 + pData.bc.c1)) (x - (1 / 2 : ℝ) • (pData.bc.c0 + pData.bc.c1))

/-- A cost function for which the Hessian is not singular: the distance, or the acceleration when at some sample it
depends on the free point. -/
def GoodCost (pData : ProblemData) (T : ℝ) (l : TTime) : Prop :=
  pData.costFunction = DISTANCE_TRAVELED ∨ pData.costFunction = ACCELERATION ∧
    ∃ q ∈ l, ∃ x c v a x' c' v' a', Motion pData T x c v a ∧ Motion pData T x' c' v' a' ∧ a q.1 ≠ a' q.1

/-! ## The cost -/

theorem cost_hess (pData : ProblemData) (Ts : List ℝ) (hT : 0 < Ts.sum) (l : TTime) (hle : ∀ q ∈ l, q.1 ≤ Ts.sum)
    (hf : pData.flag ∈ comFlags) (hc : GoodCost pData Ts.sum l) (pts : List V3)
    (hpts : computeConstantWaypoints pData.flag pData.bc Ts.sum = .ok pts) (n : ℕ) :
    ∃ k w K, 0 < k ∧ genCostFunction pData Ts Ts.sum l (3 + n) = .ok (costH n k, costG n w) ∧
      ∀ y c v a, Motion pData Ts.sum (first3 y) c v a → quadForm (costH n k) (costG n w) (3 + n) y
        = motionCost pData l (first3 y) a + 1e-6 * ∑ c ∈ Finset.range n, y (3 + c) ^ 2 - K := by
  rcases hc with hc | ⟨hc, hdep⟩
  · refine ⟨1, -fun k => (pData.bc.c0 k + pData.bc.c1 k) / 2,
      dot ((1 / 2 : ℝ) • (pData.bc.c0 + pData.bc.c1)) ((1 / 2 : ℝ) • (pData.bc.c0 + pData.bc.c1)), one_pos, ?_, ?_⟩
    · unfold genCostFunction costGenCostFunction computeCostMidPoint
      rw [if_neg (by rw [hc]; decide), if_pos hc]
      exact cost_blocks n _ _
    · intro y c v a _
      rw [quadForm_head, motionCost, if_neg (by rw [hc]; decide)]
      simp [dot]
      ring
  · obtain ⟨A, hA, hx⟩ := accel_samples pData Ts.sum hT l hle hf pts hpts
    have hacc : ∀ x c v a, Motion pData Ts.sum x c v a → ∀ t, (A t).first • x + (A t).second = a t := by
      rintro x c v a ⟨pts', hpts', rfl, hv, ha⟩
      rw [hpts] at hpts'
      cases hpts'
      obtain ⟨v', a', hv', ha', h⟩ := hx x
      have e1 := deriv_unique hv hv'
      subst e1
      have e2 := deriv_unique ha ha'
      subst e2
      exact h
    refine ⟨(accelSums (l.map fun q => A q.1) (0, 0)).1, (accelSums (l.map fun q => A q.1) (0, 0)).2,
      ((l.map fun q => A q.1).map fun co => dot co.second co.second).sum, ?_, ?_, ?_⟩
    · obtain ⟨q, hq, x, c, v, a, x', c', v', a', hm, hm', hne⟩ := hdep
      have h0 : (A q.1).first ≠ 0 := by
        intro h0
        apply hne
        rw [← hacc _ _ _ _ hm, ← hacc _ _ _ _ hm', h0, zero_smul, zero_smul]
      rw [accelSums_eq]
      simp only [zero_add, List.map_map]
      refine lt_of_lt_of_le (mul_self_pos.mpr h0) ?_
      refine List.single_le_sum ?_ _ (List.mem_map.mpr ⟨q, hq, rfl⟩)
      intro z hz
      obtain ⟨q', -, rfl⟩ := List.mem_map.mp hz
      exact mul_self_nonneg _
    · unfold genCostFunction costGenCostFunction computeCostMinAcceleration
      rw [if_pos hc, hA, Out.ok_bind]
      exact cost_blocks n _ _
    · intro y c v a hm
      have h := hacc _ _ _ _ hm
      rw [quadForm_head, motionCost, if_pos hc]
      have e := sum_sq_affine (l.map fun q => A q.1) (first3 y)
      have e2 : (l.map fun q => dot (a q.1) (a q.1))
          = (l.map fun q => A q.1).map fun co =>
              dot (co.first • first3 y + co.second) (co.first • first3 y + co.second) := by
        rw [List.map_map]
        refine List.map_congr_left fun q _ => ?_
        simp only [Function.comp, h]
      rw [e2, e, accelSums_eq]
      simp only [zero_add]
      ring

/-! ## The discretised formulation -/

theorem sat_first3 {A b : Mat} (hA : A.cols = 3) (y : ℕ → ℝ) : Sat A b (ext3 (first3 y)) ↔ Sat A b y := by
  unfold Sat
  rw [hA]
  refine forall₂_congr fun r _ => ?_
  rw [Finset.sum_congr rfl fun c hc => ?_]
  have := Finset.mem_range.mp hc
  simp only [ext3, dif_pos this, first3]

theorem first3_ext3 (x : V3) : first3 (ext3 x) = x := by
  funext k
  simp [first3, ext3]

theorem motion_exists (pData : ProblemData) (T : ℝ) (pts : List V3)
    (hpts : computeConstantWaypoints pData.flag pData.bc T = .ok pts) (hf : pData.flag ∈ comFlags) (hT : T ≠ 0)
    (x : V3) : ∃ v a, Motion pData T x (curve (degreeOf pData.flag) (fill pData.flag (nth pts) x) T) v a := by
  have hpl := (C01_boundary_conditions pData.flag hf pData.bc T hT pts hpts 0).1
  obtain ⟨v, a, hv, ha, -⟩ := C03_acceleration_coefs_partial pData.flag hf pts hpl T hT x
  exact ⟨v, a, pts, hpts, rfl, hv, ha⟩

/-- What follows the discretisation in both planners. -/
noncomputable def planSamples (lib : Lib) (fuel : ℕ) (pData : ProblemData) (Ts : List ℝ) (l : TTime) :
    Out ResultDataCOMTraj := do
  let Ab ← computeConstraintsOneStep pData Ts.length Ts.sum l
  let Hg ← genCostFunction pData Ts Ts.sum l 3
  let resQp ← solversSolve lib fuel Ab.1 Ab.2 (Mat.noRows Ab.1.cols) (Mat.noRows 1) Hg.1 Hg.2
    (List.replicate 3 0) [] [] SOLVER_QUADPROG
  genTraj resQp pData Ts.sum

/-- The free point of a result. -/
def ResultDataCOMTraj.point (res : ResultDataCOMTraj) : V3 := fun k => res.x.getD k 0

/-- The curve of the planner is built from any list of points of the right length. -/
theorem bezierCurve_total (flag : Flag) (hf : flag ∈ comFlags) (T : ℝ) (hT : 0 < T) (pts : List V3) (hpl : pts.length = degreeOf flag + 1) (x : V3) :
    ∃ c, computeBezierCurve flag T pts x = .ok c := by
  have hT' : ¬ T ≤ 0 := not_le.mpr hT
  simp only [comFlags, List.mem_cons, List.not_mem_nil, or_false] at hf
  rcases hf with rfl | rfl | rfl | rfl | rfl | rfl | rfl <;> simp only [degreeOf] at hpl
  · match pts, hpl with
    | [p0, p1, p2, p3], _ =>
      simp [computeBezierCurve, bezierInit, bezierEnd, mkBezier, rd, hT', Flag.has, INIT_POS, INIT_VEL, INIT_ACC,
        END_POS, END_VEL, END_ACC]
  · match pts, hpl with
    | [p0, p1, p2, p3], _ =>
      simp [computeBezierCurve, bezierInit, bezierEnd, mkBezier, rd, hT', Flag.has, INIT_POS, INIT_VEL, INIT_ACC,
        END_POS, END_VEL, END_ACC]
  · match pts, hpl with
    | [p0, p1, p2, p3, p4], _ =>
      simp [computeBezierCurve, bezierInit, bezierEnd, mkBezier, rd, hT', Flag.has, INIT_POS, INIT_VEL, INIT_ACC,
        END_POS, END_VEL, END_ACC]
  · match pts, hpl with
    | [p0, p1, p2, p3], _ =>
      simp [computeBezierCurve, bezierInit, bezierEnd, mkBezier, rd, hT', Flag.has, INIT_POS, INIT_VEL, INIT_ACC,
        END_POS, END_VEL, END_ACC]
  · match pts, hpl with
    | [p0, p1, p2, p3, p4], _ =>
      simp [computeBezierCurve, bezierInit, bezierEnd, mkBezier, rd, hT', Flag.has, INIT_POS, INIT_VEL, INIT_ACC,
        END_POS, END_VEL, END_ACC]
  · match pts, hpl with
    | [p0, p1, p2, p3, p4, p5], _ =>
      simp [computeBezierCurve, bezierInit, bezierEnd, mkBezier, rd, hT', Flag.has, INIT_POS, INIT_VEL, INIT_ACC,
        END_POS, END_VEL, END_ACC]
  · match pts, hpl with
    | [p0, p1, p2, p3, p4, p5, p6], _ =>
      simp [computeBezierCurve, bezierInit, bezierEnd, mkBezier, rd, hT', Flag.has, INIT_POS, INIT_VEL, INIT_ACC,
        END_POS, END_VEL, END_ACC]

/-- The result on an answer of the solver. -/
theorem genTraj_total (q : ResultData) (pData : ProblemData) (T : ℝ) (hT : 0 < T) (pts : List V3)
    (hpts : computeConstantWaypoints pData.flag pData.bc T = .ok pts) (hf : pData.flag ∈ comFlags)
    (hx : 3 ≤ q.x.length) :
    ∃ res, genTraj q pData T = .ok res ∧ res.success = q.success ∧
      (q.success = true → res.point = first3 (unk q.x) ∧ res.cost = q.cost ∧
        res.c_of_t.eval = curve (degreeOf pData.flag) (fill pData.flag (nth pts) res.point) T) := by
  by_cases hs : q.success = true
  · have hpl := (C01_boundary_conditions pData.flag hf pData.bc T hT.ne' pts hpts 0).1
    obtain ⟨c, hc⟩ := bezierCurve_total pData.flag hf T hT pts hpl (first3 (unk q.x))
    have hh : head3 q.x = .ok (first3 (unk q.x)) := by
      unfold head3
      rw [if_pos hx]
      rfl
    refine ⟨{ success := true, cost := q.cost, x := List.ofFn (first3 (unk q.x)), c_of_t := c, dL_of_t := Bezier.zero T,
              dc1 := c.derivate c.T 1, ddc1 := c.derivate c.T 2 }, ?_, hs.symm, fun _ => ?_⟩
    · unfold genTraj
      rw [if_pos hs, hh, Out.ok_bind, hpts, Out.ok_bind, hc, Out.ok_bind]
      rfl
    · have hp : (fun k : Fin 3 => (List.ofFn (first3 (unk q.x))).getD k 0) = first3 (unk q.x) := by
        funext k
        fin_cases k <;> rfl
      refine ⟨hp, rfl, ?_⟩
      unfold ResultDataCOMTraj.point
      dsimp only
      rw [hp]
      exact (bezierCurve_eval pData.flag hf T pts hpl _ c hc).2
  · refine ⟨ResultDataCOMTraj.default, ?_, ?_, fun h => absurd h hs⟩
    · unfold genTraj; rw [if_neg hs]
    · simp [ResultDataCOMTraj.default] at hs ⊢; exact hs

/-- Both planners on samples, in exact arithmetic, in terms of the assembled system. -/
theorem planSamples_exact (lib : Lib) (hL : LibOk lib) (he : lib.eps = 0) (pData : ProblemData) (Ts : List ℝ) (g : V3)
    (h : Accepted pData Ts g) (l : TTime) (hl : Discretisation Ts l) (hc : GoodCost pData Ts.sum l) :
    ∃ A b res N, computeConstraintsOneStep pData Ts.length Ts.sum l = .ok (A, b) ∧
      (∀ fuel ≥ N, planSamples lib fuel pData Ts l = .ok res) ∧
      (res.success = true → Sat A b (ext3 res.point) ∧ ∃ v a, Motion pData Ts.sum res.point res.c_of_t.eval v a ∧
        ∀ x' c' v' a', Motion pData Ts.sum x' c' v' a' → Sat A b (ext3 x') →
          motionCost pData l res.point a ≤ motionCost pData l x' a') ∧
      (res.success = false → lib.maxIter ≤ 2 ^ A.rows ∨ ∀ x', ¬ Sat A b (ext3 x')) := by
  obtain ⟨A, b, hA, hcols, hbr, hbc⟩ := C18_in_bounds_and_complete pData Ts g h l hl
  obtain ⟨pts, hpts⟩ := C01_answers pData.flag h.flag pData.bc Ts.sum h.capt
  have hle := C26_samples Ts h.ne h.pos l hl
  obtain ⟨k, w, K, hk, hgen, hcost⟩ := cost_hess pData Ts h.total l hle h.flag hc pts hpts 0
  rw [Nat.add_zero] at hgen hcost
  have hfits : Fits A b (Mat.noRows A.cols) (Mat.noRows 1) (costH 0 k) (costG 0 w) :=
    ⟨⟨rfl, rfl⟩, ⟨hbr, hbc, hcols⟩, ⟨rfl, hcols⟩⟩
  obtain ⟨q, N, hrun, hxl, hsucc, hfail⟩ := solve_exact lib hL he hfits [] (List.replicate 3 0) (Or.inl rfl)
    (costH_posDef 0 k hk) (Nat.zero_le _)
  have hxl' : q.x.length = 3 := hxl
  obtain ⟨res, hres, hs, hgood⟩ := genTraj_total q pData Ts.sum h.total pts hpts h.flag (by omega)
  have hall : ∀ y, AllSat A b (Mat.noRows A.cols) (Mat.noRows 1) [] y ↔ Sat A b y := by
    intro y
    unfold AllSat
    refine ⟨fun h => h.1, fun h => ⟨h, fun r hr => absurd hr (Nat.not_lt_zero _), fun c b h => by simp at h⟩⟩
  refine ⟨A, b, res, N, hA, fun fuel hfuel => ?_, fun hrs => ?_, fun hrs => ?_⟩
  · unfold planSamples
    rw [hA, Out.ok_bind, hgen, Out.ok_bind]
    dsimp only
    rw [hrun fuel hfuel, Out.ok_bind, hres]
  · rw [hs] at hrs
    obtain ⟨hp, -, hcurve⟩ := hgood hrs
    obtain ⟨hsat, -, hopt⟩ := hsucc hrs
    rw [hall] at hsat
    obtain ⟨v, a, hm⟩ := motion_exists pData Ts.sum pts hpts h.flag h.total.ne' res.point
    rw [← hcurve] at hm
    refine ⟨by rw [hp, sat_first3 hcols]; exact hsat, v, a, hm, fun x' c' v' a' hm' hsat' => ?_⟩
    have o := hopt (ext3 x') ((hall _).mpr hsat')
    change quadForm (costH 0 k) (costG 0 w) 3 _ ≤ quadForm (costH 0 k) (costG 0 w) 3 _ at o
    rw [hp] at hm ⊢
    rw [hcost _ _ _ _ hm, hcost (ext3 x') c' v' a' (by rw [first3_ext3]; exact hm'), first3_ext3] at o
    simp only [Finset.range_zero, Finset.sum_empty, mul_zero, add_zero] at o
    linarith
  · rw [hs] at hrs
    rcases hfail hrs with h1 | h1 | ⟨i, hi, -⟩
    · exact Or.inl (by simpa using h1)
    · exact Or.inr fun x' hx' => h1 _ ((hall _).mpr hx')
    · exact absurd hi (Nat.not_lt_zero _)

/-- The verdict of a planner on a time array: with `success_` the returned curve is one of the motions, meets the
requirements at all samples, and none that does has a lower cost; without it no motion meets them, or `limit`. -/
structure Verdict (pData : ProblemData) (T : ℝ) (l : TTime) (limit : Prop) (res : ResultDataCOMTraj) : Prop where
  found : res.success = true → ∃ v a, Motion pData T res.point res.c_of_t.eval v a ∧
    MeetsSamples pData l res.c_of_t.eval a ∧
    ∀ x' c' v' a', Motion pData T x' c' v' a' → MeetsSamples pData l c' a' →
      motionCost pData l res.point a ≤ motionCost pData l x' a'
  none : res.success = false → limit ∨ ∀ x' c' v' a', Motion pData T x' c' v' a' → ¬ MeetsSamples pData l c' a'

theorem planSamples_verdict (lib : Lib) (hL : LibOk lib) (he : lib.eps = 0) (pData : ProblemData) (Ts : List ℝ) (g : V3)
    (h : Accepted pData Ts g) (hf : pData.flag ∈ [11#32, 19#32, 27#32, 7#32, 15#32])
    (l : TTime) (hl : Discretisation Ts l) (hc : GoodCost pData Ts.sum l) :
    ∃ res N, (∀ fuel ≥ N, planSamples lib fuel pData Ts l = .ok res) ∧
      Verdict pData Ts.sum l (∀ A b, computeConstraintsOneStep pData Ts.length Ts.sum l = .ok (A, b) →
        lib.maxIter ≤ 2 ^ A.rows) res := by
  obtain ⟨A, b, res, N, hA, hrun, hsucc, hfail⟩ := planSamples_exact lib hL he pData Ts g h l hl hc
  obtain ⟨pts, hpts, hx⟩ := C19_physical pData Ts g h hf l hl A b hA
  have key : ∀ x c v a, Motion pData Ts.sum x c v a → (Sat A b (ext3 x) ↔ MeetsSamples pData l c a) := by
    rintro x c v a ⟨pts', hpts', rfl, hv, ha⟩
    rw [hpts] at hpts'
    cases hpts'
    obtain ⟨v', a', hv', ha', hiff⟩ := hx x
    have e1 := deriv_unique hv hv'
    subst e1
    have e2 := deriv_unique ha ha'
    subst e2
    exact hiff
  refine ⟨res, N, hrun, ⟨fun hs => ?_, fun hs => ?_⟩⟩
  · obtain ⟨s1, v, a, hm, s2⟩ := hsucc hs
    exact ⟨v, a, hm, (key _ _ _ _ hm).mp s1, fun x' c' v' a' hm' hs' => s2 x' c' v' a' hm' ((key _ _ _ _ hm').mpr hs')⟩
  · rcases hfail hs with h1 | h1
    · left
      intro A' b' hA'
      rw [hA] at hA'
      cases hA'
      exact h1
    · right
      intro x' c' v' a' hm' hs'
      exact h1 x' ((key _ _ _ _ hm').mpr hs')

theorem Discretisation.last {Ts : List ℝ} {l : TTime} (h : Discretisation Ts l) (hne : Ts ≠ []) :
    ∃ i, (Ts.sum, i) ∈ l := by
  rcases h with ⟨n, hn, rfl⟩ | ⟨step, hs, fuel, h⟩
  · exact ⟨_, List.mem_of_getLast? (C17_fixed_discretization Ts n hn hne).2.2.1⟩
  · obtain ⟨-, rfl⟩ := disc_eq Ts step hs fuel l h
    have := allSamples_last step Ts hne 0 0
    rw [zero_add] at this
    exact ⟨_, List.mem_of_getLast? this⟩

/-- In six of the seven constraint sets the final acceleration depends on the free point. -/
theorem accel_end (flag : Flag) (hf : flag ∈ comFlags) (h63 : flag ≠ 63#32) (pts : List V3)
    (hl : pts.length = degreeOf flag + 1) (T : ℝ) (hT : T ≠ 0) :
    ∃ co, evaluateAccelerationCurveAtTime flag pts T 1 = .ok co ∧ co.first ≠ 0 := by
  simp only [comFlags, List.mem_cons, List.not_mem_nil, or_false] at hf
  rcases hf with rfl | rfl | rfl | rfl | rfl | rfl | rfl <;> simp [degreeOf] at hl
  · refine ⟨_, by simp [evaluateAccelerationCurveAtTime, withPts, hl]; rfl, ?_⟩
    simp [c0_dc0_c1.evaluateAccelerationCurveAtTime, hT]
    try norm_num
  · refine ⟨_, by simp [evaluateAccelerationCurveAtTime, withPts, hl]; rfl, ?_⟩
    simp [c0_dc0_dc1.evaluateAccelerationCurveAtTime, hT]
    try norm_num
  · refine ⟨_, by simp [evaluateAccelerationCurveAtTime, withPts, hl]; rfl, ?_⟩
    simp [c0_dc0_dc1_c1.evaluateAccelerationCurveAtTime, hT]
    try norm_num
  · refine ⟨_, by simp [evaluateAccelerationCurveAtTime, withPts, hl]; rfl, ?_⟩
    simp [c0_dc0_ddc0.evaluateAccelerationCurveAtTime, hT]
    try norm_num
  · refine ⟨_, by simp [evaluateAccelerationCurveAtTime, withPts, hl]; rfl, ?_⟩
    simp [c0_dc0_ddc0_c1.evaluateAccelerationCurveAtTime, hT]
    try norm_num
  · refine ⟨_, by simp [evaluateAccelerationCurveAtTime, withPts, hl]; rfl, ?_⟩
    simp [c0_dc0_ddc0_dc1_c1.evaluateAccelerationCurveAtTime, hT]
    try norm_num
  · exact absurd rfl h63

/-- Both cost functions are good, except the acceleration with the set `c0_dc0_ddc0_ddc1_dc1_c1`. -/
theorem goodCost (pData : ProblemData) (Ts : List ℝ) (hT : 0 < Ts.sum) (hne : Ts ≠ []) (hf : pData.flag ∈ comFlags)
    (hcapt : pData.flag = 19#32 → pData.bc.dc1 = 0) (l : TTime) (hl : Discretisation Ts l)
    (hc : pData.costFunction = DISTANCE_TRAVELED ∨ pData.costFunction = ACCELERATION ∧ pData.flag ≠ 63#32) :
    GoodCost pData Ts.sum l := by
  rcases hc with hc | ⟨hc, h63⟩
  · exact Or.inl hc
  right
  refine ⟨hc, ?_⟩
  obtain ⟨i, hi⟩ := hl.last hne
  obtain ⟨pts, hpts⟩ := C01_answers pData.flag hf pData.bc Ts.sum hcapt
  have hpl := (C01_boundary_conditions pData.flag hf pData.bc Ts.sum hT.ne' pts hpts 0).1
  obtain ⟨co, hco, h0⟩ := accel_end pData.flag hf h63 pts hpl Ts.sum hT.ne'
  have key : ∀ x, ∃ v a, Motion pData Ts.sum x (curve (degreeOf pData.flag) (fill pData.flag (nth pts) x) Ts.sum) v a ∧
      a Ts.sum = co.first • x + co.second := by
    intro x
    obtain ⟨v, a, hv, ha, h⟩ := C03_acceleration_coefs_partial pData.flag hf pts hpl Ts.sum hT.ne' x
    obtain ⟨co', h1, h2⟩ := h 1
    rw [hco] at h1
    cases h1
    rw [one_mul] at h2
    exact ⟨v, a, ⟨pts, hpts, rfl, hv, ha⟩, h2.symm⟩
  obtain ⟨v, a, hm, e⟩ := key 0
  obtain ⟨v', a', hm', e'⟩ := key fun _ => 1
  refine ⟨_, hi, _, _, v, a, _, _, v', a', hm, hm', fun hc => h0 ?_⟩
  have := congrFun hc 0
  rw [e, e'] at this
  simpa using this

/-- C56, `computeCOMTrajFixedSize`. In exact arithmetic, for every accepted problem in double description with one of
the five exact constraint sets and at least one point per phase, the call returns; if it succeeds the returned curve
meets the boundary conditions and, at all samples, the requirements, at the least cost; if it fails no motion
meets them, or the iteration limit of the solver is at most `2 ^ (number of inequalities)`. -/
theorem C56_fixedSize_partial (lib : Lib) (hL : LibOk lib) (he : lib.eps = 0) (pData : ProblemData) (Ts : List ℝ)
    (g : V3) (h : Accepted pData Ts g) (hr : pData.representation = DOUBLE_DESCRIPTION)
    (hf : pData.flag ∈ [11#32, 19#32, 27#32, 7#32, 15#32]) (n : ℕ) (hn : 0 < n)
    (hc : pData.costFunction = DISTANCE_TRAVELED ∨ pData.costFunction = ACCELERATION) :
    ∃ res N, (∀ fuel ≥ N, computeCOMTrajFixedSize lib fuel pData Ts n = .ok res) ∧
      (res.success = true → MeetsBoundary pData.flag pData.bc res.c_of_t.eval Ts.sum) ∧
      Verdict pData Ts.sum (computeDiscretizedTimeFixed Ts n) (∀ A b, computeConstraintsOneStep pData Ts.length Ts.sum
        (computeDiscretizedTimeFixed Ts n) = .ok (A, b) → lib.maxIter ≤ 2 ^ A.rows) res := by
  obtain ⟨res, N, hrun, hv⟩ := planSamples_verdict lib hL he pData Ts g h hf _ (Or.inl ⟨n, hn, rfl⟩)
    (goodCost pData Ts h.total h.ne h.flag h.capt _ (Or.inl ⟨n, hn, rfl⟩)
      (hc.imp_right fun hc => ⟨hc, fun e => by rw [e] at hf; simp at hf⟩))
  have hrun' : ∀ fuel ≥ N, computeCOMTrajFixedSize lib fuel pData Ts n = .ok res := by
    intro fuel hfuel
    have := hrun fuel hfuel
    unfold planSamples at this
    unfold computeCOMTrajFixedSize
    rw [if_pos hr, if_neg (not_not.mpr h.size)]
    exact this
  refine ⟨res, N, hrun', fun hs => ?_, hv⟩
  obtain ⟨q, hq⟩ := (C29_planned pData Ts res).1 _ _ _ (hrun' N le_rfl)
  exact (C07_boundary_partial pData Ts q res hq hs h.flag).2.2

/-- C56, `computeCOMTraj` with a time step at most half of every phase. -/
theorem C56_timeStep_partial (κ : ℝ) (lib : Lib) (hL : LibOk lib) (he : lib.eps = 0) (pData : ProblemData)
    (Ts : List ℝ) (g : V3) (h : Accepted pData Ts g) (hr : pData.representation = DOUBLE_DESCRIPTION)
    (hf : pData.flag ∈ [11#32, 19#32, 27#32, 7#32, 15#32]) (step : ℝ) (hstep : 0 < step)
    (hshort : ∀ T ∈ Ts, step * 2 ≤ T)
    (hc : pData.costFunction = DISTANCE_TRAVELED ∨ pData.costFunction = ACCELERATION) :
    ∃ l res N, Discretisation Ts l ∧
      (∀ fuel ≥ N, computeDiscretizedTime Ts step fuel = .ok l) ∧
      (∀ fuel ≥ N, computeCOMTraj κ lib fuel pData Ts step SOLVER_QUADPROG = .ok res) ∧
      (res.success = true → MeetsBoundary pData.flag pData.bc res.c_of_t.eval Ts.sum) ∧
      Verdict pData Ts.sum l (∀ A b, computeConstraintsOneStep pData Ts.length Ts.sum l = .ok (A, b) →
        lib.maxIter ≤ 2 ^ A.rows) res := by
  obtain ⟨N0, hN0⟩ := C16_discretized_time Ts step hstep hshort
  obtain ⟨l, hl, -⟩ := hN0 N0 le_rfl
  have hdet : ∀ fuel ≥ N0, computeDiscretizedTime Ts step fuel = .ok l := by
    intro fuel hfuel
    obtain ⟨l', hl', -⟩ := hN0 fuel hfuel
    rw [hl', (disc_eq Ts step hstep _ _ hl').2, (disc_eq Ts step hstep _ _ hl).2]
  have hD : Discretisation Ts l := Or.inr ⟨step, hstep, N0, hl⟩
  obtain ⟨res, N, hrun, hv⟩ := planSamples_verdict lib hL he pData Ts g h hf l hD
    (goodCost pData Ts h.total h.ne h.flag h.capt l hD
      (hc.imp_right fun hc => ⟨hc, fun e => by rw [e] at hf; simp at hf⟩))
  have hrun' : ∀ fuel ≥ max N0 N, computeCOMTraj κ lib fuel pData Ts step SOLVER_QUADPROG = .ok res := by
    intro fuel hfuel
    have := hrun fuel (le_trans (le_max_right _ _) hfuel)
    unfold planSamples at this
    obtain ⟨A, b, hA, hcols, -⟩ := C18_in_bounds_and_complete pData Ts g h l hD
    rw [hA, Out.ok_bind] at this
    unfold computeCOMTraj comSystem
    rw [if_neg (not_not.mpr h.size), if_pos hstep, if_pos hr, hdet fuel (le_trans (le_max_left _ _) hfuel), Out.ok_bind,
      hA, Out.ok_bind]
    simp only [Out.pure_eq, Out.ok_bind, hcols] at this ⊢
    exact this
  refine ⟨l, res, max N0 N, hD, fun fuel hfuel => hdet fuel (le_trans (le_max_left _ _) hfuel), hrun', fun hs => ?_, hv⟩
  obtain ⟨q, hq⟩ := (C29_planned pData Ts res).2 _ _ _ _ _ (hrun' _ le_rfl)
  exact (C07_boundary_partial pData Ts q res hq hs h.flag).2.2

/-! ## The continuous formulation -/

/-- `computeCOMTraj` without a time step, in exact arithmetic, in terms of the assembled systems. -/
theorem continuous_exact (κ : ℝ) (lib : Lib) (hL : LibOk lib) (he : lib.eps = 0) (pData : ProblemData) (Ts : List ℝ)
    (g : V3) (h : AcceptedC pData Ts g) (step : ℝ) (hstep : step ≤ 0)
    (hc : pData.costFunction = DISTANCE_TRAVELED ∨ pData.costFunction = ACCELERATION ∧ pData.flag ≠ 63#32)
    (S : ContSystem) (hS : computeConstraintsContinuous κ pData Ts = .ok S) (hE : S.D.rows ≤ S.A.cols) :
    ∃ res N, (∀ fuel ≥ N, computeCOMTraj κ lib fuel pData Ts step SOLVER_QUADPROG = .ok res) ∧
      (res.success = true → ∃ y, first3 y = res.point ∧ AllSat S.A S.b S.D S.d S.minBounds y ∧
        ∃ v a, Motion pData Ts.sum res.point res.c_of_t.eval v a ∧
        ∀ z c' v' a', Motion pData Ts.sum (first3 z) c' v' a' → AllSat S.A S.b S.D S.d S.minBounds z →
          motionCost pData (computeDiscretizedTimeFixed Ts 7) res.point a
            + 1e-6 * ∑ c ∈ Finset.range (S.A.cols - 3), y (3 + c) ^ 2
          ≤ motionCost pData (computeDiscretizedTimeFixed Ts 7) (first3 z) a'
            + 1e-6 * ∑ c ∈ Finset.range (S.A.cols - 3), z (3 + c) ^ 2) ∧
      (res.success = false → lib.maxIter ≤ 2 ^ (S.A.rows + S.minBounds.length) ∨
        (∀ z, ¬ AllSat S.A S.b S.D S.d S.minBounds z) ∨
        ∃ i < S.D.rows, ∃ c : ℕ → ℝ, ∀ j < S.A.cols, S.D.e i j = ∑ k ∈ Finset.range i, c k * S.D.e k j) := by
  obtain ⟨S', hS', h1, h2, h3, h4, h5, h6, h7, h8⟩ := C21_in_bounds_and_complete κ pData Ts g h
  rw [hS] at hS'
  cases hS'
  obtain ⟨pts, hpts⟩ := C01_answers pData.flag h.flag pData.bc Ts.sum h.capt
  have hl : Discretisation Ts (computeDiscretizedTimeFixed Ts 7) := Or.inl ⟨7, by norm_num, rfl⟩
  obtain ⟨k, w, K, hk, hgen, hcost⟩ := cost_hess pData Ts h.total _ (C26_samples Ts h.ne h.pos _ hl) h.flag
    (goodCost pData Ts h.total h.ne h.flag h.capt _ hl hc) pts hpts (S.A.cols - 3)
  have hdim : 3 + (S.A.cols - 3) = S.A.cols := by omega
  have hfits : Fits S.A S.b S.D S.d (costH (S.A.cols - 3) k) (costG (S.A.cols - 3) w) :=
    ⟨⟨rfl, rfl⟩, ⟨h1, h2, hdim.symm⟩, ⟨h3, by rw [h5]; exact hdim.symm⟩⟩
  have hm : S.minBounds = [] ∨ S.minBounds.length = (costG (S.A.cols - 3) w).rows := by
    by_cases hr : pData.representation = DOUBLE_DESCRIPTION
    · exact Or.inl (h7 hr).2.2
    · right; rw [h8 hr]; exact hdim.symm
  have hrows : (costG (S.A.cols - 3) w).rows = S.A.cols := hdim
  obtain ⟨q, N, hrun, hxl, hsucc, hfail⟩ := solve_exact lib hL he hfits S.minBounds (List.replicate S.A.cols 0) hm
    (costH_posDef _ k hk) (by rw [hrows]; exact hE)
  rw [hrows] at hxl hsucc hfail
  obtain ⟨res, hres, hs, hgood⟩ := genTraj_total q pData Ts.sum h.total pts hpts h.flag (by omega)
  refine ⟨res, N, fun fuel hfuel => ?_, fun hrs => ?_, fun hrs => ?_⟩
  · unfold computeCOMTraj comSystem
    rw [if_neg (not_not.mpr h.size), if_neg (not_lt.mpr hstep), hS, Out.ok_bind, Out.pure_eq, Out.ok_bind]
    rw [hdim] at hgen
    dsimp only
    rw [hgen, Out.ok_bind]
    dsimp only
    rw [hrun fuel hfuel, Out.ok_bind, hres]
  · rw [hs] at hrs
    obtain ⟨hp, -, hcurve⟩ := hgood hrs
    obtain ⟨hsat, -, hopt⟩ := hsucc hrs
    obtain ⟨v, a, hmo⟩ := motion_exists pData Ts.sum pts hpts h.flag h.total.ne' res.point
    rw [← hcurve] at hmo
    refine ⟨_, hp.symm, hsat, v, a, hmo, fun z c' v' a' hm' hz => ?_⟩
    have o := hopt z hz
    rw [hdim] at hcost
    rw [hp] at hmo ⊢
    rw [hcost _ _ _ _ hmo, hcost z c' v' a' hm'] at o
    linarith
  · rw [hs] at hrs
    exact hfail hrs

/-- C56, continuous formulation in double description, the five exact sets, no constant waypoint at the origin: in
exact arithmetic the call returns, and if it succeeds the returned curve meets the boundary conditions and the
requirements of its phase at every instant, its acceleration being bounded as in C25; if it fails the
(conservative) system has no solution, or the iteration limit is at most `2 ^ (number of inequalities)`. -/
theorem C56_continuous_partial (κ : ℝ) (lib : Lib) (hL : LibOk lib) (he : lib.eps = 0) (pData : ProblemData)
    (Ts : List ℝ) (g : V3) (h : AcceptedC pData Ts g) (hr : pData.representation = DOUBLE_DESCRIPTION)
    (hf : pData.flag ∈ [11#32, 19#32, 27#32, 7#32, 15#32]) (step : ℝ) (hstep : step ≤ 0)
    (hc : pData.costFunction = DISTANCE_TRAVELED ∨ pData.costFunction = ACCELERATION)
    (pts : List V3) (hpts : computeConstantWaypoints pData.flag pData.bc Ts.sum = .ok pts)
    (hz : ∀ i < pts.length, i ∉ freeSlots pData.flag → ∃ k, 1e-12 < |nth pts i k|) :
    ∃ S res N, computeConstraintsContinuous κ pData Ts = .ok S ∧
      (∀ fuel ≥ N, computeCOMTraj κ lib fuel pData Ts step SOLVER_QUADPROG = .ok res) ∧
      (res.success = true → MeetsBoundary pData.flag pData.bc res.c_of_t.eval Ts.sum ∧
        ∃ v a, IsDeriv res.c_of_t.eval v ∧ IsDeriv v a ∧
          (∀ p t, InPhase Ts p t → AtPhase pData.contacts p fun ct e =>
            PhaseOk ct e pData.reduce_h (res.c_of_t.eval t) (a t)) ∧
          ∀ p t, InPhase Ts p t → ∀ k, |κ * Ts.sum ^ 2 * a t k| ≤ pData.maxAcceleration) ∧
      (res.success = false → lib.maxIter ≤ 2 ^ S.A.rows ∨ ∀ z, ¬ Sat S.A S.b z) := by
  obtain ⟨S, hS, h1, h2, h3, h4, h5, h6, h7, h8⟩ := C21_in_bounds_and_complete κ pData Ts g h
  obtain ⟨q1, q2, q3⟩ := h7 hr
  obtain ⟨res, N, hrun, hsucc, hfail⟩ := continuous_exact κ lib hL he pData Ts g h step hstep
    (hc.imp_right fun hc => ⟨hc, fun e => by rw [e] at hf; simp at hf⟩) S hS (by omega)
  refine ⟨S, res, N, hS, hrun, fun hs => ?_, fun hs => ?_⟩
  · obtain ⟨y, hy, hsat, v, a, ⟨pts', hpts', hcv, hv, ha⟩, -⟩ := hsucc hs
    rw [hpts] at hpts'
    cases hpts'
    obtain ⟨q, hq⟩ := (C29_planned pData Ts res).2 _ _ _ _ _ (hrun _ le_rfl)
    refine ⟨(C07_boundary_partial pData Ts q res hq hs h.flag).2.2, v, a, hv, ha, ?_, ?_⟩
    · obtain ⟨v', a', hv', ha', hok⟩ := C22_sound κ pData Ts g h hr hf S hS y hsat.1 pts hpts hz
      rw [hy, ← hcv] at hv' hok
      have e1 := deriv_unique hv hv'
      subst e1
      have e2 := deriv_unique ha ha'
      subst e2
      exact hok
    · obtain ⟨v', a', hv', ha', hok⟩ := C25_every_instant κ pData Ts g h S hS y hsat.1 pts hpts hz
      rw [hy, ← hcv] at hv'
      have e1 := deriv_unique hv hv'
      subst e1
      have e2 := deriv_unique ha ha'
      subst e2
      exact hok
  · rcases hfail hs with h' | h' | ⟨i, hi, -⟩
    · left; rw [q3] at h'; exact h'
    · right
      intro z hz'
      refine h' z ⟨hz', fun r hr => ?_, fun c b hb => ?_⟩
      · omega
      · rw [q3] at hb; simp at hb
    · omega

/-- C56, force variables, the five exact sets, positive masses and nested phases, no constant waypoint at the origin,
no more equations than unknowns (see `C56_force_spans_partial`): in exact arithmetic the call returns, and if it succeeds the returned curve meets the
boundary conditions and, at every instant, is reachable and can be supported by nonnegative forces of the contacts of
its phase. -/
theorem C56_force_partial (κ : ℝ) (lib : Lib) (hL : LibOk lib) (he : lib.eps = 0) (pData : ProblemData)
    (Ts : List ℝ) (g : V3) (h : AcceptedC pData Ts g) (hr : pData.representation ≠ DOUBLE_DESCRIPTION)
    (hf : pData.flag ∈ [11#32, 19#32, 27#32, 7#32, 15#32]) (step : ℝ) (hstep : step ≤ 0)
    (hc : pData.costFunction = DISTANCE_TRAVELED ∨ pData.costFunction = ACCELERATION)
    (hm : ∀ ct ∈ pData.contacts, ∀ e, ct.contactPhase = some e → 0 < e.mass)
    (hn : NestedPhases pData.contacts)
    (S : ContSystem) (hS : computeConstraintsContinuous κ pData Ts = .ok S) (hE : S.D.rows ≤ S.A.cols)
    (pts : List V3) (hpts : computeConstantWaypoints pData.flag pData.bc Ts.sum = .ok pts)
    (hz : ∀ i < pts.length, i ∉ freeSlots pData.flag → ∃ k, 1e-12 < |nth pts i k|) :
    ∃ res N, (∀ fuel ≥ N, computeCOMTraj κ lib fuel pData Ts step SOLVER_QUADPROG = .ok res) ∧
      (res.success = true → MeetsBoundary pData.flag pData.bc res.c_of_t.eval Ts.sum ∧
        ∃ v a, IsDeriv res.c_of_t.eval v ∧ IsDeriv v a ∧
          ∀ p t, InPhase Ts p t → AtPhase pData.contacts p fun ct e =>
            InCone e (e.mass • (g - a t)) (e.mass • cr (res.c_of_t.eval t) (g - a t)) ∧
            KinOk ct (res.c_of_t.eval t)) ∧
      (res.success = false → lib.maxIter ≤ 2 ^ (S.A.rows + S.minBounds.length) ∨
        (∀ z, ¬ AllSat S.A S.b S.D S.d S.minBounds z) ∨
        ∃ i < S.D.rows, ∃ c : ℕ → ℝ, ∀ j < S.A.cols, S.D.e i j = ∑ k ∈ Finset.range i, c k * S.D.e k j) := by
  obtain ⟨res, N, hrun, hsucc, hfail⟩ := continuous_exact κ lib hL he pData Ts g h step hstep
    (hc.imp_right fun hc => ⟨hc, fun e => by rw [e] at hf; simp at hf⟩) S hS hE
  refine ⟨res, N, hrun, fun hs => ?_, hfail⟩
  obtain ⟨y, hy, hsat, v, a, ⟨pts', hpts', hcv, hv, ha⟩, -⟩ := hsucc hs
  rw [hpts] at hpts'
  cases hpts'
  obtain ⟨q, hq⟩ := (C29_planned pData Ts res).2 _ _ _ _ _ (hrun _ le_rfl)
  refine ⟨(C07_boundary_partial pData Ts q res hq hs h.flag).2.2, v, a, hv, ha, fun p t hp => ?_⟩
  obtain ⟨v', a', hv', ha', hok⟩ := C23_sound κ pData Ts g h hr hf hm hn S hS y hsat.2.1 hsat.2.2 pts hpts
  rw [hy, ← hcv] at hv' hok
  have e1 := deriv_unique hv hv'
  subst e1
  have e2 := deriv_unique ha ha'
  subst e2
  obtain ⟨ct, e, i1, i2, i3⟩ := hok p t hp
  obtain ⟨ct', e', j1, j2, j3⟩ := C22_kinematics_every_instant κ pData Ts g h S hS y hsat.1 pts hpts hz p t hp
  rw [i1] at j1
  cases j1
  rw [hy, ← hcv] at j3
  exact ⟨ct, e, i1, i2, i3, j3⟩

/-- C56, force variables, when the generators of every phase span the space of wrenches: there are then no more
equations than unknowns, and a failure means that the system has no solution, or that the iteration limit is
at most `2 ^ (number of inequalities and bounds)`. -/
theorem C56_force_spans_partial (κ : ℝ) (lib : Lib) (hL : LibOk lib) (he : lib.eps = 0) (pData : ProblemData)
    (Ts : List ℝ) (g : V3) (h : AcceptedC pData Ts g) (hr : pData.representation ≠ DOUBLE_DESCRIPTION)
    (hf : pData.flag ∈ [11#32, 19#32, 27#32, 7#32, 15#32]) (step : ℝ) (hstep : step ≤ 0)
    (hc : pData.costFunction = DISTANCE_TRAVELED ∨ pData.costFunction = ACCELERATION)
    (hm : ∀ ct ∈ pData.contacts, ∀ e, ct.contactPhase = some e → 0 < e.mass)
    (hs : ∀ ct ∈ pData.contacts, ∀ e, ct.contactPhase = some e → Spans e)
    (hn : NestedPhases pData.contacts)
    (pts : List V3) (hpts : computeConstantWaypoints pData.flag pData.bc Ts.sum = .ok pts)
    (hz : ∀ i < pts.length, i ∉ freeSlots pData.flag → ∃ k, 1e-12 < |nth pts i k|) :
    ∃ S res N, computeConstraintsContinuous κ pData Ts = .ok S ∧
      (∀ fuel ≥ N, computeCOMTraj κ lib fuel pData Ts step SOLVER_QUADPROG = .ok res) ∧
      (res.success = true → MeetsBoundary pData.flag pData.bc res.c_of_t.eval Ts.sum ∧
        ∃ v a, IsDeriv res.c_of_t.eval v ∧ IsDeriv v a ∧
          ∀ p t, InPhase Ts p t → AtPhase pData.contacts p fun ct e =>
            InCone e (e.mass • (g - a t)) (e.mass • cr (res.c_of_t.eval t) (g - a t)) ∧
            KinOk ct (res.c_of_t.eval t)) ∧
      (res.success = false → lib.maxIter ≤ 2 ^ (S.A.rows + S.minBounds.length) ∨
        ∀ z, ¬ AllSat S.A S.b S.D S.d S.minBounds z) := by
  obtain ⟨S, hS, -⟩ := C21_in_bounds_and_complete κ pData Ts g h
  obtain ⟨hE, hI⟩ := force_independent κ pData Ts g h hr hs S hS
  obtain ⟨res, N, hrun, hsucc, hfail⟩ := C56_force_partial κ lib hL he pData Ts g h hr hf step hstep hc hm hn S hS hE
    pts hpts hz
  refine ⟨S, res, N, hS, hrun, hsucc, fun hq => ?_⟩
  rcases hfail hq with h1 | h1 | ⟨i, hi, c, hdep⟩
  · exact Or.inl h1
  · exact Or.inr h1
  · exact absurd hdep (hI i hi c)

end Verif
