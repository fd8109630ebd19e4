import Verif.Lemmas.Quiet
import Verif.Props.C18

/-!
# C07, C08, C28, C29: the results of the planner
-/

namespace Verif
open Matrix

/-! ## C28 -/

/-- C28. `computeCOMTraj` throws the exception about the sizes iff the number of durations differs from the number
of contacts. -/
theorem C28_computeCOMTraj (κ : ℝ) (lib : Lib) (fuel : ℕ) (pData : ProblemData) (Ts : List ℝ) (timeStep : ℝ)
    (solver : SolverType) :
    computeCOMTraj κ lib fuel pData Ts timeStep solver
      = .throw "Time phase vector has different size than the number of contact phases"
    ↔ Ts.length ≠ pData.contacts.length := by
  unfold computeCOMTraj
  constructor
  · intro h hs
    rw [if_neg (not_not.mpr hs)] at h
    refine Quiet.ne ?_ h
    quiet
  · intro h
    rw [if_pos h]; rfl

/-- C28. The same for `computeCOMTrajFixedSize`, which asserts the double description first. -/
theorem C28_fixedSize (lib : Lib) (fuel : ℕ) (pData : ProblemData) (Ts : List ℝ) (n : ℕ) :
    computeCOMTrajFixedSize lib fuel pData Ts n
      = .throw "Time phase vector has different size than the number of contact phases"
    ↔ pData.representation = DOUBLE_DESCRIPTION ∧ Ts.length ≠ pData.contacts.length := by
  unfold computeCOMTrajFixedSize
  by_cases hr : pData.representation = DOUBLE_DESCRIPTION
  · rw [if_pos hr]
    constructor
    · intro h
      refine ⟨hr, fun hs => ?_⟩
      rw [if_neg (not_not.mpr hs)] at h
      refine Quiet.ne ?_ h
      quiet
    · intro h
      rw [if_pos h.2]; rfl
  · rw [if_neg hr]
    simp [hr]

/-- C28. When the sizes differ nothing else is looked at: the outcome is the same for all problems and solvers. -/
theorem C28_first (κ κ' : ℝ) (lib lib' : Lib) (fuel fuel' : ℕ) (pData pData' : ProblemData) (Ts Ts' : List ℝ)
    (s s' : ℝ) (v v' : SolverType) (h : Ts.length ≠ pData.contacts.length) (h' : Ts'.length ≠ pData'.contacts.length) :
    computeCOMTraj κ lib fuel pData Ts s v = computeCOMTraj κ' lib' fuel' pData' Ts' s' v' := by
  rw [(C28_computeCOMTraj ..).mpr h, (C28_computeCOMTraj ..).mpr h']

/-! ## C29 -/

/-- A call of `computeCOMTraj` or of `computeCOMTrajFixedSize` that returned `res`, the solver having answered `q`. -/
def Planned (pData : ProblemData) (Ts : List ℝ) (q : ResultData) (res : ResultDataCOMTraj) : Prop :=
  (∃ lib fuel n l A b Hg, l = computeDiscretizedTimeFixed Ts n ∧
    computeConstraintsOneStep pData Ts.length Ts.sum l = .ok (A, b) ∧
    genCostFunction pData Ts Ts.sum l 3 = .ok Hg ∧
    solversSolve lib fuel A b (Mat.noRows A.cols) (Mat.noRows 1) Hg.1 Hg.2 (List.replicate 3 0) [] [] SOLVER_QUADPROG
      = .ok q ∧ computeCOMTrajFixedSize lib fuel pData Ts n = .ok res) ∨
  ∃ κ lib fuel timeStep solver sys Hg, comSystem κ fuel pData Ts timeStep = .ok sys ∧
    genCostFunction pData Ts Ts.sum sys.1 sys.2.A.cols = .ok Hg ∧
    solversSolve lib fuel sys.2.A sys.2.b sys.2.D sys.2.d Hg.1 Hg.2 (List.replicate sys.2.A.cols 0) sys.2.minBounds []
      solver = .ok q ∧ computeCOMTraj κ lib fuel pData Ts timeStep solver = .ok res

/-- Every call that returns consulted the solver. -/
theorem C29_planned (pData : ProblemData) (Ts : List ℝ) (res : ResultDataCOMTraj) :
    (∀ lib fuel n, computeCOMTrajFixedSize lib fuel pData Ts n = .ok res → ∃ q, Planned pData Ts q res) ∧
    (∀ κ lib fuel s v, computeCOMTraj κ lib fuel pData Ts s v = .ok res → ∃ q, Planned pData Ts q res) := by
  constructor
  · intro lib fuel n h
    have h0 := h
    unfold computeCOMTrajFixedSize at h
    split_ifs at h with h1 h2
    simp only [Out.bind_eq_ok] at h
    obtain ⟨⟨A, b⟩, e1, Hg, e2, q, e3, e4⟩ := h
    exact ⟨q, Or.inl ⟨lib, fuel, n, _, A, b, Hg, rfl, e1, e2, e3, h0⟩⟩
  · intro κ lib fuel s v h
    have h0 := h
    unfold computeCOMTraj at h
    split_ifs at h with h1
    simp only [Out.bind_eq_ok] at h
    obtain ⟨sys, e1, Hg, e2, q, e3, e4⟩ := h
    exact ⟨q, Or.inr ⟨κ, lib, fuel, s, v, sys, Hg, e1, e2, e3, h0⟩⟩

theorem Planned.genTraj {pData : ProblemData} {Ts : List ℝ} {q : ResultData} {res : ResultDataCOMTraj}
    (h : Planned pData Ts q res) : genTraj q pData Ts.sum = .ok res := by
  rcases h with ⟨lib, fuel, n, l, A, b, Hg, rfl, h1, h2, h3, h4⟩ | ⟨κ, lib, fuel, s, v, sys, Hg, h1, h2, h3, h4⟩
  · unfold computeCOMTrajFixedSize at h4
    split_ifs at h4 with e1 e2
    simp only [h1, h2, h3, Out.ok_bind] at h4
    exact h4
  · unfold computeCOMTraj at h4
    split_ifs at h4 with e1
    simp only [h1, h2, h3, Out.ok_bind] at h4
    exact h4

/-- C29. When the solver does not report success the result is the default one: failure, cost -1, no `x`, constant
zero curves over `[0, 1]`, zero velocity and acceleration. -/
theorem C29_failure (pData : ProblemData) (Ts : List ℝ) (q : ResultData) (res : ResultDataCOMTraj)
    (h : Planned pData Ts q res) (hq : q.success = false) :
    res.success = false ∧ res.cost = -1 ∧ res.x = [] ∧ res.c_of_t.T = 1 ∧ (∀ t, res.c_of_t.eval t = 0) ∧
      res.dL_of_t.T = 1 ∧ (∀ t, res.dL_of_t.eval t = 0) ∧ res.dc1 = 0 ∧ res.ddc1 = 0 := by
  have := h.genTraj
  unfold Verif.genTraj at this
  rw [hq] at this
  simp at this
  subst this
  simp [ResultDataCOMTraj.default, Bezier.zero, Bezier.eval, bez]

/-- C29. When the solver reports success, `success_` is set, the cost is the one of the solver, `x` holds its first
three values, and the angular momentum derivative is zero over the whole duration. -/
theorem C29_success (pData : ProblemData) (Ts : List ℝ) (q : ResultData) (res : ResultDataCOMTraj)
    (h : Planned pData Ts q res) (hq : q.success = true) :
    res.success = true ∧ res.cost = q.cost ∧ 3 ≤ q.x.length ∧ res.x = q.x.take 3 ∧
      res.c_of_t.T = Ts.sum ∧ res.dL_of_t.T = Ts.sum ∧ ∀ t, res.dL_of_t.eval t = 0 := by
  have := h.genTraj
  unfold Verif.genTraj at this
  rw [hq] at this
  simp only [if_true, Out.bind_eq_ok] at this
  obtain ⟨x, e1, pts, e2, c, e3, e4⟩ := this
  cases e4
  unfold head3 at e1
  split_ifs at e1 with hl
  cases e1
  have hT : c.T = Ts.sum := by
    unfold computeBezierCurve mkBezier at e3
    simp only [Out.bind_eq_ok] at e3
    obtain ⟨w0, -, w1, -, e⟩ := e3
    split_ifs at e
    cases e
    rfl
  refine ⟨rfl, rfl, hl, ?_, hT, rfl, fun t => by simp [Bezier.zero, Bezier.eval, bez]⟩
  obtain ⟨qs, qc, qx⟩ := q
  match qx, hl with
  | a :: b :: c :: l, _ => simp [List.ofFn_succ]

/-- C29. Hence `success_` says exactly that the solver succeeded. -/
theorem C29_success_iff (pData : ProblemData) (Ts : List ℝ) (q : ResultData) (res : ResultDataCOMTraj)
    (h : Planned pData Ts q res) : res.success = true ↔ q.success = true := by
  cases hq : q.success with
  | true => exact ⟨fun _ => rfl, fun _ => (C29_success pData Ts q res h hq).1⟩
  | false => rw [(C29_failure pData Ts q res h hq).1]

/-! ## C08 -/

theorem derivPts_length (P : List V3) : (Bezier.derivPts P).length = P.length - 1 := by
  simp [Bezier.derivPts]

/-- The derivative of a `bezier_t` is the derivative of the function it evaluates to. -/
theorem Bezier.isDeriv (c : Bezier) : IsDeriv c.eval (c.computeDerivate 1).eval := by
  unfold Bezier.computeDerivate
  split_ifs with h
  · intro s
    have e1 : c.eval = fun _ => c.mult • c.pts.getD 0 0 := by
      funext t
      have h0 : c.pts.length - 1 = 0 := by omega
      rw [Bezier.eval, h0]
      simp [bez]
    rw [e1]
    have e2 : ({ pts := [0], T := c.T, mult := c.mult } : Bezier).eval s = 0 := by simp [Bezier.eval, bez]
    rw [e2]
    exact hasDerivAt_const s _
  · obtain ⟨n, hn⟩ : ∃ n, c.pts.length = n + 2 := ⟨c.pts.length - 2, by omega⟩
    intro s
    have e1 : c.eval = fun t => c.mult • curve (n + 1) (fun i => c.pts.getD i 0) c.T t := by
      funext t
      rw [Bezier.eval, hn]
      rfl
    rw [e1]
    have d := (curve_hasDerivAt n (fun i => c.pts.getD i 0) c.T s).const_smul c.mult
    refine d.congr_deriv ?_
    unfold Bezier.computeDerivate Bezier.eval
    simp only [derivPts_length, hn]
    rw [curve, show n + 2 - 1 - 1 = n by omega, mul_smul]
    congr 1
    rw [← bez_smul]
    refine bez_congr fun i hi => ?_
    have : (Bezier.derivPts c.pts).getD i 0 = ((n + 1 : ℕ) : ℝ) • (c.pts.getD (i + 1) 0 - c.pts.getD i 0) := by
      unfold Bezier.derivPts
      rw [hn, List.getD_eq_getElem?_getD, List.getElem?_zipWith]
      have h1 : c.pts[i]? = some (c.pts.getD i 0) := by
        rw [List.getD_eq_getElem?_getD, List.getElem?_eq_getElem (by omega)]; rfl
      have h2 : c.pts.tail[i]? = some (c.pts.getD (i + 1) 0) := by
        rw [List.getElem?_tail, List.getD_eq_getElem?_getD, List.getElem?_eq_getElem (by omega)]; rfl
      rw [h1, h2]
      rfl
    rw [this, smul_smul]
    congr 1
    push_cast
    ring

theorem Bezier.computeDerivate_two (c : Bezier) :
    (c.computeDerivate 2).eval = ((c.computeDerivate 1).computeDerivate 1).eval := by
  by_cases h : c.pts.length ≤ 1
  · have e1 : c.computeDerivate 2 = { pts := [0], T := c.T, mult := c.mult } := by
      unfold Bezier.computeDerivate; rw [if_pos h]
    have e2 : c.computeDerivate 1 = { pts := [0], T := c.T, mult := c.mult } := by
      unfold Bezier.computeDerivate; rw [if_pos h]
    rw [e1, e2]
    unfold Bezier.computeDerivate
    rw [if_pos (by simp)]
  · have e1 : c.computeDerivate 2
        = Bezier.computeDerivate { pts := Bezier.derivPts c.pts, T := c.T, mult := c.mult * (1 / c.T) } 1 := by
      rw [Bezier.computeDerivate, if_neg h]
    have e2 : c.computeDerivate 1 = { pts := Bezier.derivPts c.pts, T := c.T, mult := c.mult * (1 / c.T) } := by
      rw [Bezier.computeDerivate, if_neg h, Bezier.computeDerivate]
    rw [e1, e2]

/-- C08. On success `dc1_` and `ddc1_` are the first and second time derivatives of the returned curve at the end of
the motion. -/
theorem C08_terminal (pData : ProblemData) (Ts : List ℝ) (q : ResultData) (res : ResultDataCOMTraj)
    (h : Planned pData Ts q res) (hs : res.success = true) :
    ∃ v a, IsDeriv res.c_of_t.eval v ∧ IsDeriv v a ∧ res.dc1 = v Ts.sum ∧ res.ddc1 = a Ts.sum := by
  have hq := (C29_success_iff pData Ts q res h).mp hs
  have hT := (C29_success pData Ts q res h hq).2.2.2.2.1
  have := h.genTraj
  unfold Verif.genTraj at this
  rw [hq] at this
  simp only [if_true, Out.bind_eq_ok] at this
  obtain ⟨x, e1, pts, e2, c, e3, e4⟩ := this
  cases e4
  refine ⟨_, _, Bezier.isDeriv c, Bezier.isDeriv _, ?_, ?_⟩
  · rw [← hT]; rfl
  · rw [← hT, ← Bezier.computeDerivate_two]; rfl

/-! ## C07 -/

/-- The curve built for a flag of the planner is the one with the free points set to `x`. -/
theorem bezierCurve_eval (flag : Flag) (hf : flag ∈ comFlags) (T : ℝ) (pts : List V3)
    (hl : pts.length = degreeOf flag + 1) (x : V3) (c : Bezier) (h : computeBezierCurve flag T pts x = .ok c) :
    0 < T ∧ c.eval = curve (degreeOf flag) (fill flag (nth pts) x) T := by
  have hT : 0 < T := by
    unfold computeBezierCurve mkBezier at h
    simp only [Out.bind_eq_ok] at h
    obtain ⟨w0, -, w1, -, e⟩ := h
    split_ifs at e with h0
    push_neg at h0
    exact h0.2
  refine ⟨hT, ?_⟩
  have key : ∀ l : List V3, c = { pts := l, T := T, mult := 1 } → l.length = degreeOf flag + 1 →
      (∀ i ≤ degreeOf flag, l.getD i 0 = fill flag (nth pts) x i) →
      c.eval = curve (degreeOf flag) (fill flag (nth pts) x) T := by
    intro l hc h1 h2
    funext t
    rw [hc, Bezier.eval]
    simp only [one_smul, h1, Nat.add_sub_cancel]
    exact bez_congr fun i hi => h2 i hi
  have hT' : ¬ T ≤ 0 := not_le.mpr hT
  simp only [comFlags, List.mem_cons, List.not_mem_nil, or_false] at hf
  rcases hf with rfl | rfl | rfl | rfl | rfl | rfl | rfl
  · match pts, hl with
    | [p0, p1, p2, p3], _ =>
      have : c = { pts := [p0, p1, x, p3], T := T, mult := 1 } := by
        simpa [computeBezierCurve, bezierInit, bezierEnd, mkBezier, rd, hT', Flag.has, INIT_POS, INIT_VEL, INIT_ACC,
          END_POS, END_VEL, END_ACC] using h.symm
      refine key _ this rfl fun i hi => ?_
      simp only [degreeOf] at hi
      match i, hi with
      | 0, _ | 1, _ | 2, _ | 3, _ => simp [fill, freeSlots, nth]
  · match pts, hl with
    | [p0, p1, p2, p3], _ =>
      have : c = { pts := [p0, p1, x, x], T := T, mult := 1 } := by
        simpa [computeBezierCurve, bezierInit, bezierEnd, mkBezier, rd, hT', Flag.has, INIT_POS, INIT_VEL, INIT_ACC,
          END_POS, END_VEL, END_ACC] using h.symm
      refine key _ this rfl fun i hi => ?_
      simp only [degreeOf] at hi
      match i, hi with
      | 0, _ | 1, _ | 2, _ | 3, _ => simp [fill, freeSlots, nth]
  · match pts, hl with
    | [p0, p1, p2, p3, p4], _ =>
      have : c = { pts := [p0, p1, x, p3, p4], T := T, mult := 1 } := by
        simpa [computeBezierCurve, bezierInit, bezierEnd, mkBezier, rd, hT', Flag.has, INIT_POS, INIT_VEL, INIT_ACC,
          END_POS, END_VEL, END_ACC] using h.symm
      refine key _ this rfl fun i hi => ?_
      simp only [degreeOf] at hi
      match i, hi with
      | 0, _ | 1, _ | 2, _ | 3, _ | 4, _ => simp [fill, freeSlots, nth]
  · match pts, hl with
    | [p0, p1, p2, p3], _ =>
      have : c = { pts := [p0, p1, p2, x], T := T, mult := 1 } := by
        simpa [computeBezierCurve, bezierInit, bezierEnd, mkBezier, rd, hT', Flag.has, INIT_POS, INIT_VEL, INIT_ACC,
          END_POS, END_VEL, END_ACC] using h.symm
      refine key _ this rfl fun i hi => ?_
      simp only [degreeOf] at hi
      match i, hi with
      | 0, _ | 1, _ | 2, _ | 3, _ => simp [fill, freeSlots, nth]
  · match pts, hl with
    | [p0, p1, p2, p3, p4], _ =>
      have : c = { pts := [p0, p1, p2, x, p4], T := T, mult := 1 } := by
        simpa [computeBezierCurve, bezierInit, bezierEnd, mkBezier, rd, hT', Flag.has, INIT_POS, INIT_VEL, INIT_ACC,
          END_POS, END_VEL, END_ACC] using h.symm
      refine key _ this rfl fun i hi => ?_
      simp only [degreeOf] at hi
      match i, hi with
      | 0, _ | 1, _ | 2, _ | 3, _ | 4, _ => simp [fill, freeSlots, nth]
  · match pts, hl with
    | [p0, p1, p2, p3, p4, p5], _ =>
      have : c = { pts := [p0, p1, p2, x, p4, p5], T := T, mult := 1 } := by
        simpa [computeBezierCurve, bezierInit, bezierEnd, mkBezier, rd, hT', Flag.has, INIT_POS, INIT_VEL, INIT_ACC,
          END_POS, END_VEL, END_ACC] using h.symm
      refine key _ this rfl fun i hi => ?_
      simp only [degreeOf] at hi
      match i, hi with
      | 0, _ | 1, _ | 2, _ | 3, _ | 4, _ | 5, _ => simp [fill, freeSlots, nth]
  · match pts, hl with
    | [p0, p1, p2, p3, p4, p5, p6], _ =>
      have : c = { pts := [p0, p1, p2, x, p4, p5, p6], T := T, mult := 1 } := by
        simpa [computeBezierCurve, bezierInit, bezierEnd, mkBezier, rd, hT', Flag.has, INIT_POS, INIT_VEL, INIT_ACC,
          END_POS, END_VEL, END_ACC] using h.symm
      refine key _ this rfl fun i hi => ?_
      simp only [degreeOf] at hi
      match i, hi with
      | 0, _ | 1, _ | 2, _ | 3, _ | 4, _ | 5, _ | 6, _ => simp [fill, freeSlots, nth]

/-- C07. Whenever the planner reports success with one of its seven constraint sets, the returned curve is defined
over `[0, sum Ts]` and meets every requested boundary condition, whatever the solver answered. Missing: the set with
jerks, for which it is false (`C07_refuted`). -/
theorem C07_boundary_partial (pData : ProblemData) (Ts : List ℝ) (q : ResultData) (res : ResultDataCOMTraj)
    (h : Planned pData Ts q res) (hs : res.success = true) (hf : pData.flag ∈ comFlags) :
    0 < Ts.sum ∧ res.c_of_t.T = Ts.sum ∧ MeetsBoundary pData.flag pData.bc res.c_of_t.eval Ts.sum := by
  have hq := (C29_success_iff pData Ts q res h).mp hs
  have hT := (C29_success pData Ts q res h hq).2.2.2.2.1
  have := h.genTraj
  unfold Verif.genTraj at this
  rw [hq] at this
  simp only [if_true, Out.bind_eq_ok] at this
  obtain ⟨x, e1, pts, e2, c, e3, e4⟩ := this
  cases e4
  by_cases h0 : Ts.sum = 0
  · exfalso
    unfold computeBezierCurve mkBezier at e3
    simp only [Out.bind_eq_ok] at e3
    obtain ⟨w0, -, w1, -, e⟩ := e3
    rw [if_pos (Or.inr h0.le)] at e
    cases e
  obtain ⟨hl, hm⟩ := C01_boundary_conditions pData.flag hf pData.bc Ts.sum h0 pts e2 x
  obtain ⟨hpos, hc⟩ := bezierCurve_eval pData.flag hf Ts.sum pts hl x c e3
  refine ⟨hpos, hT, ?_⟩
  change MeetsBoundary pData.flag pData.bc c.eval Ts.sum
  rw [hc]
  exact hm

/-- The curve returned is the one of the free point found by the solver. -/
theorem planned_curve (pData : ProblemData) (Ts : List ℝ) (q : ResultData) (res : ResultDataCOMTraj)
    (h : Planned pData Ts q res) (hs : res.success = true) (hf : pData.flag ∈ comFlags) :
    ∃ pts, computeConstantWaypoints pData.flag pData.bc Ts.sum = .ok pts ∧
      res.c_of_t.eval
        = curve (degreeOf pData.flag) (fill pData.flag (nth pts) (fun k => q.x.getD k 0)) Ts.sum := by
  have h0 := (C07_boundary_partial pData Ts q res h hs hf).1
  have hq := (C29_success_iff pData Ts q res h).mp hs
  have := h.genTraj
  unfold Verif.genTraj at this
  rw [hq] at this
  simp only [if_true, Out.bind_eq_ok] at this
  obtain ⟨x, e1, pts, e2, c, e3, e4⟩ := this
  cases e4
  unfold head3 at e1
  split_ifs at e1 with hl
  cases e1
  obtain ⟨hl', -⟩ := C01_boundary_conditions pData.flag hf pData.bc Ts.sum h0.ne' pts e2 0
  exact ⟨pts, e2, (bezierCurve_eval pData.flag hf Ts.sum pts hl' _ c e3).2⟩

end Verif
