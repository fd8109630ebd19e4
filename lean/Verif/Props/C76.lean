import Verif.Props.C64
import Verif.Props.C71
import Verif.Props.C39Ref
import Verif.Lemmas.EndRows
import Verif.Lemmas.SolveTolGen
import Mathlib.Analysis.InnerProductSpace.PiL2

/-!
# C76: the end effector planner with the thresholds of the solver
-/

namespace Verif
open Finset

/-! ## Specification -/

/-- The constraints of the end effector problem up to `δ`. -/
def EndOkTol (flag : Flag) (d : BC) (T : ℝ) (pi : List V3) (δ : ℝ) (X : ℕ → V3) : Prop :=
  ∃ vel acc jerk, computeVelocityWaypoints flag d T pi = .ok vel ∧ computeAccelerationWaypoints flag d T pi = .ok acc ∧
    computeJerkWaypoints flag d T pi = .ok jerk ∧
    Within vel.2 (fun _ => 10000 + δ) (fun _ => 10000 + δ) X ∧ Within acc.2 (fun _ => 10000 + δ) (fun _ => 10000 + δ) X ∧
    Within jerk.2 (fun _ => 10000 + δ) (fun _ => 10000 + δ) X ∧
    ∀ j < dimVarPts flag, min (d.c0 2) (d.c1 2) - δ ≤ X j 2

/-- The size of the data: `R` bounds the influence of the free points on the control points of the derivatives, `k` the
curvature of the cost from below. -/
structure EndScale {K : ℕ} (flag : Flag) (d : BC) (T : ℝ) (pi : List V3) (c : BlockCost K) (k R : ℝ) : Prop where
  pos : 0 < k
  one : 1 ≤ R
  vel : ∀ ws, computeVelocityWaypoints flag d T pi = .ok ws → ∀ w ∈ ws.2, ∑ j, w.first j ^ 2 ≤ R ^ 2
  acc : ∀ ws, computeAccelerationWaypoints flag d T pi = .ok ws → ∀ w ∈ ws.2, ∑ j, w.first j ^ 2 ≤ R ^ 2
  jerk : ∀ ws, computeJerkWaypoints flag d T pi = .ok ws → ∀ w ∈ ws.2, ∑ j, w.first j ^ 2 ≤ R ^ 2
  cost : ∀ X : ℕ → V3, k * ∑ a : Fin K, sq3 (X a.val) ≤ ∑ a, ∑ b, c.1 a b * dot (X a.val) (X b.val)

/-! ## The system -/

/-- A positive definite form is at least a multiple of the sum of the squares. -/
theorem AxisPos.curvature {K : ℕ} {H : Matrix (Fin K) (Fin K) ℝ} (h : AxisPos H) :
    ∃ k > 0, ∀ x : Fin K → ℝ, k * ∑ a, x a ^ 2 ≤ ∑ a, ∑ b, H a b * (x a * x b) := by
  set f : EuclideanSpace ℝ (Fin K) → ℝ := fun x => ∑ a, ∑ b, H a b * (x a * x b) with hf
  have hcont : Continuous f := by fun_prop
  rcases K.eq_zero_or_pos with rfl | hK
  · exact ⟨1, one_pos, fun x => by simp⟩
  have hn : (Metric.sphere (0 : EuclideanSpace ℝ (Fin K)) 1).Nonempty :=
    ⟨EuclideanSpace.single ⟨0, hK⟩ 1, by simp⟩
  obtain ⟨x0, hx0, hmin⟩ := (isCompact_sphere (0 : EuclideanSpace ℝ (Fin K)) 1).exists_isMinOn hn hcont.continuousOn
  have hx0' : x0 ≠ 0 := by
    rintro rfl
    simp at hx0
  refine ⟨f x0, h.2 x0.ofLp (fun e => hx0' (by ext i; simpa using congrFun e i)), fun x => ?_⟩
  by_cases hx : x = 0
  · subst hx; simp
  set z : EuclideanSpace ℝ (Fin K) := WithLp.toLp 2 x with hz
  have hzn : 0 < ‖z‖ := norm_pos_iff.mpr (fun e => hx (by funext i; simpa [hz] using congrArg (fun u => u.ofLp i) e))
  have hzz : ‖z‖ ^ 2 = ∑ a, x a ^ 2 := by
    rw [EuclideanSpace.norm_sq_eq]
    simp [hz]
  have := hmin (show (‖z‖⁻¹ • z) ∈ Metric.sphere (0 : EuclideanSpace ℝ (Fin K)) 1 by
    simp [norm_smul, hzn.ne'])
  have e : f (‖z‖⁻¹ • z) = (∑ a, ∑ b, H a b * (x a * x b)) / ‖z‖ ^ 2 := by
    rw [hf, sum_div]
    refine sum_congr rfl fun a _ => ?_
    rw [sum_div]
    refine sum_congr rfl fun b _ => ?_
    simp [hz]
    field_simp
  simp only [Set.mem_setOf_eq] at this
  rw [e, le_div_iff₀ (by positivity), hzz] at this
  exact this

theorem end_system (flag : Flag) (hf : flag ∈ effFlags) (d : BC) (T : ℝ) (pi : List V3)
    (hl : pi.length = degreeOf flag + 1) :
    ∃ A b, computeEndEffectorConstraints flag d T pi = .ok (A, b) ∧
      (∀ {K : ℕ} (c : BlockCost K) k R, EndScale flag d T pi c k R →
        ∀ r < A.rows, ∑ c ∈ range (3 * dimVarPts flag), A.e r c ^ 2 ≤ R ^ 2) ∧
      (∀ y δ, SatTol A b δ y → EndOkTol flag d T pi δ (pointsOf y)) ∧
      ∀ y m, EndOkTol flag d T pi (-m) (pointsOf y) → SatMargin A b m y := by
  obtain ⟨vel, acc, jerk, A, b, e1, e2, e3, e4, -⟩ := C48_end_effector flag hf d T pi hl
  have key : ∀ (K : ℕ) (hK : dimVarPts flag = K) (v a j : List (WpB K)), vel = ⟨K, v⟩ → acc = ⟨K, a⟩ → jerk = ⟨K, j⟩ →
      ∃ A b, computeEndEffectorConstraints flag d T pi = .ok (A, b) ∧
      (∀ {K : ℕ} (c : BlockCost K) k R, EndScale flag d T pi c k R →
        ∀ r < A.rows, ∑ c ∈ range (3 * dimVarPts flag), A.e r c ^ 2 ≤ R ^ 2) ∧
      (∀ y δ, SatTol A b δ y → EndOkTol flag d T pi δ (pointsOf y)) ∧
      ∀ y m, EndOkTol flag d T pi (-m) (pointsOf y) → SatMargin A b m y := by
    rintro K rfl v a j rfl rfl rfl
    obtain ⟨A, b, hA, hR, hS, hM⟩ := constraints_tol d a v (fun _ => 10000) (fun _ => 10000) j (fun _ => 10000)
    refine ⟨A, b, ?_, fun c k R h r hr => ?_, fun y δ hy => ?_, fun y m hy => ?_⟩
    · unfold computeEndEffectorConstraints
      rw [e1, e2, e3]
      simp only [Out.ok_bind, asPts, dif_pos]
      exact hA
    · refine hR R h.one (fun w hw => ?_) r hr
      simp only [List.mem_append] at hw
      rcases hw with (hw | hw) | hw
      · exact h.acc _ e2 w hw
      · exact h.vel _ e1 w hw
      · exact h.jerk _ e3 w hw
    · obtain ⟨k1, k2, k3, k4⟩ := hS y δ hy
      exact ⟨_, _, _, e1, e2, e3, k2, k1, k3, k4⟩
    · obtain ⟨_, _, _, f1, f2, f3, k2, k1, k3, k4⟩ := hy
      rw [e1] at f1
      rw [e2] at f2
      rw [e3] at f3
      cases f1
      cases f2
      cases f3
      simp only [sub_neg_eq_add, ← sub_eq_add_neg] at k1 k2 k3 k4
      exact hM y m k1 k2 k3 k4
  have hd : vel.1 = dimVarPts flag ∧ acc.1 = dimVarPts flag ∧ jerk.1 = dimVarPts flag := by
    unfold computeEndEffectorConstraints at e4
    rw [e1, e2, e3] at e4
    simp only [Out.ok_bind, asPts] at e4
    by_cases hj : jerk.1 = dimVarPts flag
    · by_cases ha : acc.1 = dimVarPts flag
      · by_cases hv : vel.1 = dimVarPts flag
        · exact ⟨hv, ha, hj⟩
        · simp [hj, ha, hv] at e4
      · simp [hj, ha] at e4
    · simp [hj] at e4
  obtain ⟨K1, v⟩ := vel
  obtain ⟨K2, a⟩ := acc
  obtain ⟨K3, j⟩ := jerk
  dsimp only at hd
  obtain ⟨rfl, rfl, rfl⟩ := hd
  exact key _ rfl v a j rfl rfl rfl

/-! ## C76 -/

/-- The Hessian in terms of the blocks. -/
theorem blockH_ge {K : ℕ} (c : BlockCost K) {k : ℝ}
    (h : ∀ X : ℕ → V3, k * ∑ a : Fin K, sq3 (X a.val) ≤ ∑ a, ∑ b, c.1 a b * dot (X a.val) (X b.val))
    (v : VecN (3 * K)) :
    k * (v ⬝ᵥ v) ≤ v ⬝ᵥ Matrix.mulVec (fun i j : Fin (3 * K) => c.H.e i j : Matrix (Fin (3 * K)) (Fin (3 * K)) ℝ) v := by
  let y : ℕ → ℝ := fun r => if h : r < 3 * K then v ⟨r, h⟩ else 0
  have hy : ∀ i : Fin (3 * K), y i.val = v i := fun i => dif_pos i.isLt
  have e : v ⬝ᵥ (Matrix.mulVec (fun i j : Fin (3 * K) => c.H.e i j : Matrix (Fin (3 * K)) (Fin (3 * K)) ℝ) v)
      = ∑ r ∈ range (3 * K), ∑ s ∈ range (3 * K), y r * c.H.e r s * y s := by
    rw [dotProduct, Finset.sum_range]
    refine sum_congr rfl fun i _ => ?_
    change v i * ∑ j : Fin (3 * K), c.H.e i.val j.val * v j = _
    rw [mul_sum, Finset.sum_range]
    refine sum_congr rfl fun j _ => ?_
    rw [hy, hy]; ring
  have e2 : v ⬝ᵥ v = ∑ a : Fin K, sq3 (pointsOf y a.val) := by
    rw [dotProduct]
    rw [show ∑ i, v i * v i = ∑ r ∈ range (3 * K), y r * y r by
      rw [Finset.sum_range]; exact sum_congr rfl fun i _ => by rw [hy]]
    rw [sum_range_three]
    refine sum_congr rfl fun a _ => ?_
    rw [Fin.sum_univ_three]
    rfl
  rw [e, e2, blockH_form]
  refine (h (pointsOf y)).trans (le_of_eq ?_)
  rw [Fin.sum_univ_three, ← sum_add_distrib, ← sum_add_distrib]
  refine sum_congr rfl fun a _ => ?_
  rw [← sum_add_distrib, ← sum_add_distrib]
  refine sum_congr rfl fun b _ => ?_
  rw [dot]; ring

/-- The trace of the Hessian. -/
theorem blockH_trace {K : ℕ} (c : BlockCost K) : ∑ i ∈ range (3 * K), c.H.e i i = 3 * ∑ a, c.1 a a := by
  rw [sum_range_three, mul_sum]
  refine sum_congr rfl fun a _ => ?_
  rw [Fin.sum_univ_three, blockH_entry, blockH_entry, blockH_entry]
  simp only [if_true]
  ring

/-- What is left after the solver. -/
theorem end_result (lib : Lib) (flag : Flag) (hf : flag ∈ effFlags) (d : BC) (path : ℝ → V3) (T w : ℝ) (hT : 0 < T)
    (init : List ℝ) {pi : List V3} {A b : Mat} {c : BlockCost (dimVarPts flag)} {q : ResultData} {N : ℕ}
    (hpi : computeConstantWaypoints flag d T = .ok pi) (hA : computeEndEffectorConstraints flag d T pi = .ok (A, b))
    (hcost : computeEndEffectorCost flag d path T w pi = .ok c) (hlen : q.x.length = 3 * dimVarPts flag)
    (hrun : ∀ fuel ≥ N, solversSolve lib fuel A b { rows := 0, cols := A.cols, e := fun _ _ => 0 }
      { rows := 0, cols := 1, e := fun _ _ => 0 } c.H c.g init [] [] SOLVER_QUADPROG = .ok q) :
    ∃ r, (∀ fuel ≥ N, solveEndEffector lib fuel flag d path T w init = .ok r) ∧ r.success = q.success ∧
      (r.success = true → r.c_of_t.T = T ∧
        r.c_of_t.eval = curve (degreeOf flag) (fillMany flag (nth pi) (pointsOf (unk q.x))) T ∧
        MeetsBoundary flag d r.c_of_t.eval T) ∧ (r.success = false → r = ResultDataCOMTraj.default) := by
  obtain ⟨r, hr⟩ : ∃ r, endEffectorResult flag d T q = .ok r := by
    unfold endEffectorResult
    split
    · obtain ⟨cu, hcu⟩ := C50_curve_exists flag hf d T hT q.x hlen
      rw [hcu, Out.ok_bind]
      exact ⟨_, rfl⟩
    · exact ⟨_, rfl⟩
  have hall : ∀ fuel ≥ N, solveEndEffector lib fuel flag d path T w init = .ok r := by
    intro fuel hfu
    unfold solveEndEffector
    rw [hpi, Out.ok_bind, hA, Out.ok_bind, hcost, Out.ok_bind, hrun fuel hfu, Out.ok_bind, hr]
  obtain ⟨k1, k2⟩ := C50_result lib N flag hf d path T w init r (hall N le_rfl)
  have hsx : r.success = q.success ∧ (q.success = true → r.x = q.x) := by
    unfold endEffectorResult at hr
    cases hq : q.success with
    | true =>
      rw [if_pos hq] at hr
      obtain ⟨cu, -, hr⟩ := Out.bind_eq_ok.mp hr
      obtain rfl := Out.ok.inj hr
      exact ⟨rfl, fun _ => rfl⟩
    | false =>
      rw [if_neg (by simp [hq])] at hr
      obtain rfl := Out.ok.inj hr
      exact ⟨rfl, fun h => (by cases h)⟩
  refine ⟨r, hall, hsx.1, fun hs => ?_, k2⟩
  obtain ⟨-, -, t1, pi', e1, t2, t3⟩ := k1 hs
  rw [hpi] at e1
  obtain rfl := Out.ok.inj e1
  rw [hsx.2 (hsx.1 ▸ hs)] at t2
  exact ⟨t1, t2, t3⟩

/-- C76. `solveEndEffector` with the thresholds of the code: for each scale `k`, `R` of the data such that epsilon is small
compared to it, it returns, and a successful result meets the boundary conditions and satisfies the constraints up to the
tolerance `solverTolGen`. -/
theorem C76_tolerance (lib : Lib) (hL : LibOk lib) (he : 0 ≤ lib.eps) (flag : Flag) (hf : flag ∈ effFlags) (d : BC)
    (path : ℝ → V3) (T w : ℝ) (hT : 0 < T) (h0 : 0 ≤ w) (h1 : w ≤ 1) (init : List ℝ) :
    ∃ pi A b c, computeConstantWaypoints flag d T = .ok pi ∧ computeEndEffectorConstraints flag d T pi = .ok (A, b) ∧
      computeEndEffectorCost flag d path T w pi = .ok c ∧
      ∀ k R, EndScale flag d T pi c k R → lib.eps ≤ k → lib.eps * R ^ 2 ≤ k ^ 2 →
        ∃ r N, (∀ fuel ≥ N, solveEndEffector lib fuel flag d path T w init = .ok r) ∧
          (r.success = true →
            ∃ X, r.c_of_t.T = T ∧ r.c_of_t.eval = curve (degreeOf flag) (fillMany flag (nth pi) X) T ∧
              MeetsBoundary flag d r.c_of_t.eval T ∧
              EndOkTol flag d T pi (solverTolGen lib.eps k (3 * ∑ a, c.1 a a) (3 * dimVarPts flag) A.rows) X) ∧
          (r.success = false → r = ResultDataCOMTraj.default) := by
  obtain ⟨pi, hpi, hl⟩ := effPts flag hf d T
  obtain ⟨A, b, hA, hc, hb, hb1, -⟩ := endOk_iff flag hf d T pi hl
  obtain ⟨A', b', hA', hR, hS, -⟩ := end_system flag hf d T pi hl
  rw [hA] at hA'
  cases hA'
  obtain ⟨c, hcost, hpos, -⟩ := endCost_pos flag hf d path T w hT h0 h1 pi hl
  refine ⟨pi, A, b, c, hpi, hA, hcost, fun k R h g1 g2 => ?_⟩
  have hfit : Fits A b { rows := 0, cols := A.cols, e := fun _ _ => 0 } { rows := 0, cols := 1, e := fun _ _ => 0 } c.H c.g :=
    ⟨⟨rfl, rfl⟩, ⟨hb, hb1, hc⟩, ⟨rfl, hc⟩⟩
  obtain ⟨q, N, hrun, hlen, hok⟩ := solve_tol_gen lib hL he h.pos hfit rfl init (blockH_posDef c hpos)
    (blockH_ge c h.cost) (hR c k R h) g1 g2
  have hg : c.g.rows = 3 * dimVarPts flag := rfl
  obtain ⟨r, hr, hs, hsu, hfail⟩ := end_result lib flag hf d path T w hT init hpi hA hcost hlen hrun
  refine ⟨r, N, hr, fun hsucc => ?_, hfail⟩
  obtain ⟨t1, t2, t3⟩ := hsu hsucc
  refine ⟨_, t1, t2, t3, hS _ _ ?_⟩
  have := hok (hs ▸ hsucc)
  rwa [hg, blockH_trace] at this

/-- A scale exists for every problem. -/
theorem C76_scale_exists (flag : Flag) (hf : flag ∈ effFlags) (d : BC)
    (path : ℝ → V3) (T w : ℝ) (hT : 0 < T) (h0 : 0 ≤ w) (h1 : w ≤ 1) {pi : List V3} {c : BlockCost (dimVarPts flag)}
    (hpi : computeConstantWaypoints flag d T = .ok pi) (hc : computeEndEffectorCost flag d path T w pi = .ok c) :
    ∃ k R, EndScale flag d T pi c k R := by
  obtain ⟨pi', hpi', hl⟩ := effPts flag hf d T
  rw [hpi] at hpi'
  cases hpi'
  obtain ⟨c', hc', hpos, -⟩ := endCost_pos flag hf d path T w hT h0 h1 pi hl
  rw [hc] at hc'
  cases hc'
  obtain ⟨vel, acc, jerk, A, b, e1, e2, e3, -⟩ := C48_end_effector flag hf d T pi hl
  have bound : ∀ {K : ℕ} (ws : List (WpB K)), ∃ R, 1 ≤ R ∧ ∀ R' ≥ R, ∀ w ∈ ws, ∑ j, w.first j ^ 2 ≤ R' ^ 2 := by
    intro K ws
    induction ws with
    | nil => exact ⟨1, le_rfl, fun R' _ w hw => by simp at hw⟩
    | cons w ws ih =>
      obtain ⟨R, hR, hw⟩ := ih
      refine ⟨max R (∑ j, w.first j ^ 2), le_max_of_le_left hR, fun R' hR' w' hw' => ?_⟩
      have h1 : 1 ≤ R' := (le_max_of_le_left hR).trans hR'
      rcases List.mem_cons.mp hw' with rfl | hw'
      · have := (le_max_right R _).trans hR'
        nlinarith
      · exact hw R' ((le_max_left _ _).trans hR') w' hw'
  obtain ⟨R1, g1, b1⟩ := bound vel.2
  obtain ⟨R2, -, b2⟩ := bound acc.2
  obtain ⟨R3, -, b3⟩ := bound jerk.2
  obtain ⟨k, hk, hform⟩ : ∃ k > 0, ∀ x : Fin (dimVarPts flag) → ℝ, k * ∑ a, x a ^ 2 ≤ ∑ a, ∑ b, c.1 a b * (x a * x b) :=
    hpos.curvature
  refine ⟨k, max R1 (max R2 R3), hk, le_max_of_le_left g1, ?_, ?_, ?_, fun X => ?_⟩
  · intro ws hws
    rw [e1] at hws
    cases hws
    exact b1 _ (le_max_left _ _)
  · intro ws hws
    rw [e2] at hws
    cases hws
    exact b2 _ (le_max_of_le_right (le_max_left _ _))
  · intro ws hws
    rw [e3] at hws
    cases hws
    exact b3 _ (le_max_of_le_right (le_max_right _ _))
  · have e : ∑ a, ∑ b, c.1 a b * dot (X a.val) (X b.val)
        = ∑ l : Fin 3, ∑ a, ∑ b, c.1 a b * (X a.val l * X b.val l) := by
      rw [Fin.sum_univ_three, ← sum_add_distrib, ← sum_add_distrib]
      refine sum_congr rfl fun a _ => ?_
      rw [← sum_add_distrib, ← sum_add_distrib]
      exact sum_congr rfl fun b _ => by rw [dot]; ring
    have e' : k * ∑ a : Fin (dimVarPts flag), sq3 (X a.val) = ∑ l : Fin 3, k * ∑ a : Fin (dimVarPts flag), X a.val l ^ 2 := by
      rw [← mul_sum, Fin.sum_univ_three, ← sum_add_distrib, ← sum_add_distrib]
      congr 1
      exact sum_congr rfl fun a _ => by rw [sq3, dot]; ring
    rw [e, e']
    exact sum_le_sum fun l _ => hform fun a => X a.val l

/-- C76. If some free points that satisfy the constraints have the least cost among all free points, `solveEndEffector`
succeeds with them, whatever the thresholds. -/
theorem C76_best (lib : Lib) (hL : LibOk lib) (hm : 1 < lib.maxIter) (flag : Flag) (hf : flag ∈ effFlags) (d : BC)
    (path : ℝ → V3) (T w : ℝ) (hT : 0 < T) (h0 : 0 ≤ w) (h1 : w ≤ 1) (init : List ℝ) {pi : List V3}
    {c : BlockCost (dimVarPts flag)} (hpi : computeConstantWaypoints flag d T = .ok pi)
    (hc : computeEndEffectorCost flag d path T w pi = .ok c) {X : ℕ → V3} (hX : EndOk flag d T pi X)
    (hbest : ∀ X', blockForm c.1 c.2 X ≤ blockForm c.1 c.2 X') :
    ∃ r, (∀ fuel ≥ 3, solveEndEffector lib fuel flag d path T w init = .ok r) ∧ r.success = true ∧
      r.c_of_t.eval = curve (degreeOf flag) (fillMany flag (nth pi) X) T ∧ MeetsBoundary flag d r.c_of_t.eval T := by
  obtain ⟨pi', hpi', hl⟩ := effPts flag hf d T
  rw [hpi] at hpi'
  cases hpi'
  obtain ⟨A, b, hA, hcol, hb, hb1, hS⟩ := endOk_iff flag hf d T pi hl
  obtain ⟨c', hc', hpos, -⟩ := endCost_pos flag hf d path T w hT h0 h1 pi hl
  rw [hc] at hc'
  cases hc'
  have hfit : Fits A b { rows := 0, cols := A.cols, e := fun _ _ => 0 } { rows := 0, cols := 1, e := fun _ _ => 0 } c.H c.g :=
    ⟨⟨rfl, rfl⟩, ⟨hb, hb1, hcol⟩, ⟨rfl, hcol⟩⟩
  have hg : c.g.rows = 3 * dimVarPts flag := rfl
  obtain ⟨q, hrun, hq, hlen, hx, -⟩ := solve_unconstrained lib hL hm hfit rfl init (blockH_posDef c hpos) (coordsOf X)
    (by
      intro y
      rw [hg, quadForm_blocks, quadForm_blocks, pointsOf_coordsOf]
      exact hbest _) ((hS _).mpr (by rw [pointsOf_coordsOf]; exact hX))
  obtain ⟨r, hr, hs, hsu, -⟩ := end_result lib flag hf d path T w hT init hpi hA hc hlen hrun
  have hsucc : r.success = true := hs.trans hq
  obtain ⟨-, t2, t3⟩ := hsu hsucc
  refine ⟨r, hr, hsucc, t2.trans ?_, t3⟩
  have : ∀ j < dimVarPts flag, pointsOf (unk q.x) j = X j := by
    intro j hj
    rw [← pointsOf_coordsOf X]
    funext k
    exact hx _ (by rw [hg]; have := k.isLt; omega)
  have hfill : fillMany flag (nth pi) (pointsOf (unk q.x)) = fillMany flag (nth pi) X := by
    funext i
    unfold fillMany
    by_cases hi : i ∈ freeSlots flag
    · rw [if_pos hi, if_pos hi]
      apply this
      simp only [effFlags, List.mem_cons, List.not_mem_nil, or_false] at hf
      rcases hf with rfl | rfl | rfl <;> simp [freeSlots] at hi <;>
        (rcases hi with rfl | rfl | rfl | rfl | rfl) <;> decide
    · rw [if_neg hi, if_neg hi]
  rw [hfill]

/-! ## An instance -/

/-- The best middle point of the motion of one metre. -/
noncomputable def unitMid : ℝ := (7.83216783216697 + 7.83216783216777 - 9.13752913758454) / 2 / 6.52680652684107

/-- The cost of the motion of one metre along x in one second, and its scale. -/
theorem unitMove_cost {pi : List V3} (p1 : computeConstantWaypoints 255#32 unitMove 1 = .ok pi) :
    ∃ c : BlockCost 1, computeEndEffectorCost 255#32 unitMove (fun _ => 0) 1 0 pi = .ok c ∧ EndScale 255#32 unitMove 1 pi c (1 / 2) 2000 ∧
      c.1 0 0 = 1 / Real.sqrt 3 ∧ c.2 0 = -(1 / Real.sqrt 3) • ![unitMid, 0, 0] := by
  obtain ⟨pi', p1', p2, p3, p4⟩ := unitMove_pts
  rw [p1] at p1'
  cases p1'
  have q0 := p3 0 (by norm_num)
  have q1 := p3 1 (by norm_num)
  have q2 := p3 2 (by norm_num)
  have q3 := p3 3 (by norm_num)
  have q5 := p4 5 (by norm_num) (by norm_num)
  have q6 := p4 6 (by norm_num) (by norm_num)
  have q7 := p4 7 (by norm_num) (by norm_num)
  have q8 := p4 8 (by norm_num) (by norm_num)
  set c : BlockCost 1 := normalizeCost (c0_dc0_ddc0_j0_j1_ddc1_dc1_c1.velocityCostH 1)
    (c0_dc0_ddc0_j0_j1_ddc1_dc1_c1.velocityCostG (nth pi) 1) with hcdef
  have hv : computeVelocityCost 255#32 unitMove 1 pi = .ok ⟨1, c⟩ := by
    simp [computeVelocityCost, withPts, p2]
    rfl
  have hc : computeEndEffectorCost 255#32 unitMove (fun _ => 0) 1 0 pi = .ok c := by
    obtain ⟨c', h1, -, S, h2, h3, -⟩ := endCost_pos 255#32 (by decide) unitMove (fun _ => 0) 1 0 one_pos le_rfl zero_le_one pi
      (by rw [p2]; rfl)
    rw [hv] at h2
    have : c = S := by
      have := Out.ok.inj h2
      exact eq_of_heq (Sigma.mk.inj this).2
    rw [h1, h3 rfl, this]
  have hnorm : blockNorm (c0_dc0_ddc0_j0_j1_ddc1_dc1_c1.velocityCostH 1) = Real.sqrt 3 * 6.52680652684107 := by
    unfold blockNorm c0_dc0_ddc0_j0_j1_ddc1_dc1_c1.velocityCostH
    simp only [Fin.sum_univ_one]
    rw [Real.sqrt_mul (by norm_num)]
    simp
    exact Real.sqrt_sq (by norm_num)
  have h3 : 0 < Real.sqrt 3 := Real.sqrt_pos.mpr (by norm_num)
  have h3' : Real.sqrt 3 ≤ 2 := Real.sqrt_le_iff.mpr (by norm_num)
  have hH : c.1 0 0 = 1 / Real.sqrt 3 := by
    rw [hcdef, normalizeCost, hnorm]
    simp [c0_dc0_ddc0_j0_j1_ddc1_dc1_c1.velocityCostH]
    field_simp
  have hg : c.2 0 = -(1 / Real.sqrt 3) • ![unitMid, 0, 0] := by
    rw [hcdef, normalizeCost, hnorm]
    funext k
    fin_cases k <;> simp [c0_dc0_ddc0_j0_j1_ddc1_dc1_c1.velocityCostG, q0, q1, q3, q5, q7, q8, unitMid]
    field_simp
    ring
  have hscale : EndScale 255#32 unitMove 1 pi c (1 / 2) 2000 := by
    refine ⟨by norm_num, by norm_num, ?_, ?_, ?_, fun X => ?_⟩
    · intro ws hws w hw
      simp only [computeVelocityWaypoints] at hws
      simp [p2] at hws
      subst hws
      simp only [c0_dc0_ddc0_j0_j1_ddc1_dc1_c1.computeVelocityWaypoints, List.mem_cons, List.not_mem_nil, or_false] at hw
      rcases hw with rfl | rfl | rfl | rfl | rfl | rfl | rfl | rfl <;> norm_num
    · intro ws hws w hw
      simp only [computeAccelerationWaypoints] at hws
      simp [p2] at hws
      subst hws
      simp only [c0_dc0_ddc0_j0_j1_ddc1_dc1_c1.computeAccelerationWaypoints, List.mem_cons, List.not_mem_nil, or_false] at hw
      rcases hw with rfl | rfl | rfl | rfl | rfl | rfl | rfl <;> norm_num
    · intro ws hws w hw
      simp only [computeJerkWaypoints] at hws
      simp [p2] at hws
      subst hws
      simp only [c0_dc0_ddc0_j0_j1_ddc1_dc1_c1.computeJerkWaypoints, List.mem_cons, List.not_mem_nil, or_false] at hw
      rcases hw with rfl | rfl | rfl | rfl | rfl | rfl <;> norm_num
    · change 1 / 2 * ∑ a : Fin 1, sq3 (X a.val) ≤ ∑ a : Fin 1, ∑ b : Fin 1, c.1 a b * dot (X a.val) (X b.val)
      simp only [Fin.sum_univ_one, hH]
      have : 0 ≤ sq3 (X 0) := by unfold sq3 dot; nlinarith [mul_self_nonneg (X 0 0), mul_self_nonneg (X 0 1), mul_self_nonneg (X 0 2)]
      exact mul_le_mul_of_nonneg_right (one_div_le_one_div_of_le h3 h3') this
  exact ⟨c, hc, hscale, hH, hg⟩

/-- With the threshold of doubles, the motion of one metre along x in one second meets the hypotheses, and the planner
succeeds on it. -/
theorem C76_unitMove (lib : Lib) (hL : LibOk lib) (he : lib.eps = dblEps) (hm : 1 < lib.maxIter) (init : List ℝ) :
    ∃ pi A b c r N, computeConstantWaypoints 255#32 unitMove 1 = .ok pi ∧
      computeEndEffectorConstraints 255#32 unitMove 1 pi = .ok (A, b) ∧
      computeEndEffectorCost 255#32 unitMove (fun _ => 0) 1 0 pi = .ok c ∧ EndScale 255#32 unitMove 1 pi c (1 / 2) 2000 ∧
      (∀ fuel ≥ N, solveEndEffector lib fuel 255#32 unitMove (fun _ => 0) 1 0 init = .ok r) ∧ r.success = true ∧
      ∃ X, r.c_of_t.eval = curve 8 (fillMany 255#32 (nth pi) X) 1 ∧ EndOkTol 255#32 unitMove 1 pi
        (solverTolGen lib.eps (1 / 2) (3 * ∑ a, c.1 a a) 3 A.rows) X := by
  obtain ⟨pi, p1, p2, p3, p4⟩ := unitMove_pts
  have q0 := p3 0 (by norm_num)
  have q1 := p3 1 (by norm_num)
  have q2 := p3 2 (by norm_num)
  have q3 := p3 3 (by norm_num)
  have q5 := p4 5 (by norm_num) (by norm_num)
  have q6 := p4 6 (by norm_num) (by norm_num)
  have q7 := p4 7 (by norm_num) (by norm_num)
  have q8 := p4 8 (by norm_num) (by norm_num)
  obtain ⟨c, hc, hscale, hH, hg⟩ := unitMove_cost p1
  have hX : EndOk 255#32 unitMove 1 pi (xPt unitMid) := by
    refine ⟨_, _, _, by simp [computeVelocityWaypoints, p2]; rfl, by simp [computeAccelerationWaypoints, p2]; rfl,
      by simp [computeJerkWaypoints, p2]; rfl, ?_, ?_, ?_, ?_⟩
    · intro w hw _ k
      simp only [c0_dc0_ddc0_j0_j1_ddc1_dc1_c1.computeVelocityWaypoints, List.mem_cons, List.not_mem_nil, or_false] at hw
      rcases hw with rfl | rfl | rfl | rfl | rfl | rfl | rfl | rfl <;> fin_cases k <;>
        norm_num [WpB.at, xPt, q0, q1, q2, q3, q5, q6, q7, q8, unitMid]
    · intro w hw _ k
      simp only [c0_dc0_ddc0_j0_j1_ddc1_dc1_c1.computeAccelerationWaypoints, List.mem_cons, List.not_mem_nil, or_false] at hw
      rcases hw with rfl | rfl | rfl | rfl | rfl | rfl | rfl <;> fin_cases k <;>
        norm_num [WpB.at, xPt, q0, q1, q2, q3, q5, q6, q7, q8, unitMid]
    · intro w hw _ k
      simp only [c0_dc0_ddc0_j0_j1_ddc1_dc1_c1.computeJerkWaypoints, List.mem_cons, List.not_mem_nil, or_false] at hw
      rcases hw with rfl | rfl | rfl | rfl | rfl | rfl <;> fin_cases k <;>
        norm_num [WpB.at, xPt, q0, q1, q2, q3, q5, q6, q7, q8, unitMid]
    · intro j hj
      simp [unitMove, xPt]
  obtain ⟨r', hr', hs', -⟩ := C76_best lib hL hm 255#32 (by decide) unitMove (fun _ => 0) 1 0 one_pos le_rfl zero_le_one init
    p1 hc hX (by
      intro X'
      change blockForm (K := 1) c.1 c.2 _ ≤ blockForm (K := 1) c.1 c.2 _
      simp only [blockForm, Fin.sum_univ_one, hH, hg]
      have h4 : 0 < 1 / Real.sqrt 3 := by positivity
      simp [dot, xPt]
      have : 0 ≤ (Real.sqrt 3)⁻¹ * ((X' 0 0 - unitMid) * (X' 0 0 - unitMid) + X' 0 1 * X' 0 1 + X' 0 2 * X' 0 2) :=
        mul_nonneg (by positivity) (by nlinarith [mul_self_nonneg (X' 0 0 - unitMid), mul_self_nonneg (X' 0 1), mul_self_nonneg (X' 0 2)])
      nlinarith)
  obtain ⟨pi', A, b, c', e1, e2, e3, hall⟩ := C76_tolerance lib hL (by rw [he, dblEps]; norm_num) 255#32 (by decide) unitMove
    (fun _ => 0) 1 0 one_pos le_rfl zero_le_one init
  rw [p1] at e1
  cases e1
  rw [hc] at e3
  cases e3
  obtain ⟨r, N, hr, hsu, -⟩ := hall _ _ hscale (by rw [he, dblEps]; norm_num) (by rw [he, dblEps]; norm_num)
  have : r = r' := by
    have a := hr (max N 3) (le_max_left _ _)
    rw [hr' _ (le_max_right _ _)] at a
    cases a
    rfl
  subst this
  obtain ⟨X, -, t2, -, t4⟩ := hsu hs'
  exact ⟨pi, A, b, c, r, N, p1, e2, hc, hscale, hr, hs', X, t2, t4⟩

end Verif
