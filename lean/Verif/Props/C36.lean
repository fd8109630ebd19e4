import Verif.Lemmas.SolverFront

/-!
# C36–C38: the front end of the solvers
-/

namespace Verif
open Matrix

/-- The sizes of the arguments of `solve` fit together. -/
structure Fits (A b D d Hess g : Mat) : Prop where
  hess : Hess.rows = g.rows ∧ Hess.cols = g.rows
  ineq : b.rows = A.rows ∧ b.cols = 1 ∧ A.cols = g.rows
  eqs : d.rows = D.rows ∧ D.cols = g.rows

/-- C36. With the quadratic solver, lower bounds `m` (none, or one per variable) and no upper bound, `solve` runs
`solve_quadprog` on a problem with the given Hessian and linear term, whose feasible points are exactly the points
with `A y ≤ b`, `D y = d` and `y ≥ m`; this also holds up to any violation `δ` of the inequalities; the normals of
the constraints are the rows of `-A`, of the identity (if there are bounds) and of `D`. -/
theorem C36_problem {A b D d Hess g : Mat} (h : Fits A b D d Hess g) (m : List ℝ)
    (hm : m = [] ∨ m.length = g.rows) :
    ∃ P : QP g.rows, (∀ i j, P.G i j = Hess.e i j) ∧ (∀ i, P.g i = g.e i 0) ∧
      P.CI.length = A.rows + m.length ∧ P.CE.length = D.rows ∧
      (∀ e ∈ P.CI, (∃ r < A.rows, ∀ j, e.1 j = -A.e r j) ∨ m ≠ [] ∧ ∃ k, ∀ j, e.1 j = if j = k then 1 else 0) ∧
      (∀ k < D.rows, ∀ j, (P.CE.getD k (0, 0)).1 j = D.e k j) ∧
      (∀ y : ℕ → ℝ, QPFeasible P (fun i => y i) ↔ Sat A b y ∧ EqSat D d y ∧ AboveBounds m y) ∧
      (∀ δ (y : ℕ → ℝ), (∀ e ∈ P.CI, -δ ≤ e.1 ⬝ᵥ (fun i => y i) + e.2) ↔
        SatTol A b δ y ∧ AboveBoundsTol m δ y) ∧
      (∀ y : ℕ → ℝ, EqHolds P (fun i => y i) ↔ EqSat D d y) ∧
      ∀ (lib : Lib) (fuel : ℕ) (init : List ℝ),
        solversSolve lib fuel A b D d Hess g init m [] SOLVER_QUADPROG = (do
          let r ← solveQuadprog lib.eps lib.maxIter P (lib.chol g.rows P.G) (lib.work g.rows) fuel
          return { success := r.1 = .optimal, cost := if r.1 = .optimal then r.2.f else -1, x := List.ofFn r.2.x }) := by
  obtain ⟨h1, h2, h3⟩ := h
  obtain ⟨A', b', e1, e2, e3, e4, e4', e5⟩ := minBound_satTol m A b (by rw [h2.2.2]; exact hm) h2.1 h2.2.1
  have hineq : ∀ δ (y : ℕ → ℝ), (∀ e ∈ (qpOf g.rows Hess g D d.neg A'.neg b').CI,
      -δ ≤ e.1 ⬝ᵥ (fun i : Fin g.rows => y i) + e.2) ↔ SatTol A b δ y ∧ AboveBoundsTol m δ y := by
    intro δ y
    rw [qpOf_ineqTol g.rows Hess g D d.neg A' b' (by omega), e5]
  refine ⟨qpOf g.rows Hess g D d.neg A'.neg b', fun _ _ => rfl, fun _ => rfl, ?_, ?_, ?_, ?_, ?_, hineq, ?_, ?_⟩
  · simp [qpOf, Mat.neg, e4]
  · simp [qpOf]
  · intro e he
    simp only [qpOf, List.mem_map, List.mem_range] at he
    obtain ⟨r, hr, rfl⟩ := he
    rcases e4' r hr with ⟨hr', h⟩ | ⟨hne, k, hk, h⟩
    · left
      exact ⟨r, hr', fun j => by simp [Mat.rowN, Mat.neg, h j (by rw [h2.2.2]; exact j.2)]⟩
    · right
      refine ⟨hne, ⟨k, by omega⟩, fun j => ?_⟩
      simp only [Mat.rowN, Mat.neg, h j (by rw [h2.2.2]; exact j.2)]
      by_cases hjk : k = j
      · subst hjk; simp
      · rw [if_neg hjk, if_neg (fun hc => hjk (by rw [hc])), neg_zero]
  · intro k hk j
    simp [qpOf, List.getD_eq_getElem?_getD, hk, Mat.rowN]
  · intro y
    have := hineq 0 y
    rw [satTol_zero, aboveTol_zero, neg_zero] at this
    unfold QPFeasible
    rw [this, qpOf_eq g.rows Hess g D d A'.neg b' h3.2]
    tauto
  · intro y
    exact qpOf_eq g.rows Hess g D d A'.neg b' h3.2 y
  · intro lib fuel init
    unfold solversSolve addBoundaryConstraintsQuadProg
    rw [if_pos rfl, e1, Out.ok_bind]
    have e6 : addConstraintMaxBoundQuadProg [] A' b' = .ok (A', b') := by simp [addConstraintMaxBoundQuadProg]
    rw [e6, Out.ok_bind]
    unfold callQuadprog
    have hc : Hess.rows = g.rows ∧ Hess.cols = g.rows ∧ D.rows = d.neg.rows ∧ D.cols = g.rows ∧
        A'.neg.rows = b'.rows ∧ A'.neg.cols = g.rows := by
      refine ⟨h1.1, h1.2, by simp [Mat.neg, h3.1], h3.2, by simp [Mat.neg, e3], by simp [Mat.neg, e2, h2.2.2]⟩
    rw [if_pos hc]
    dsimp only
    cases solveQuadprog lib.eps lib.maxIter (qpOf g.rows Hess g D d.neg A'.neg b')
      (lib.chol g.rows (qpOf g.rows Hess g D d.neg A'.neg b').G) (lib.work g.rows) fuel <;> rfl

/-- C36. Bounds of another size are rejected. -/
theorem C36_wrong_size (lib : Lib) (fuel : ℕ) (A b D d Hess g : Mat) (init m mx : List ℝ)
    (hm : m ≠ []) (hs : m.length ≠ A.cols) (r : ResultData) :
    solversSolve lib fuel A b D d Hess g init m mx SOLVER_QUADPROG ≠ .ok r := by
  intro h
  have e1 : ∀ q, addConstraintMinBoundQuadProg m A b ≠ .ok q := by
    intro q hq
    unfold addConstraintMinBoundQuadProg at hq
    rw [if_neg (by simpa using hm)] at hq
    simp only [if_neg hs, Out.bind_eq_ok] at hq
    obtain ⟨_, -, _, -, _, -, h⟩ := hq
    cases h
  unfold solversSolve addBoundaryConstraintsQuadProg at h
  rw [if_pos rfl, Out.bind_eq_ok] at h
  obtain ⟨q, hq, -⟩ := h
  rw [Out.bind_eq_ok] at hq
  obtain ⟨q', hq', -⟩ := hq
  exact e1 q' hq'

/-- C37 is false: with the quadratic solver, a nonempty vector of upper bounds never gives an answer; when the sizes
fit together the matrix allocated for the rows is overrun. -/
theorem C37_refuted (lib : Lib) (fuel : ℕ) (A b D d Hess g : Mat) (init m mx : List ℝ) (hmx : mx ≠ []) :
    (∀ r, solversSolve lib fuel A b D d Hess g init m mx SOLVER_QUADPROG ≠ .ok r) ∧
    (Fits A b D d Hess g → (m = [] ∨ m.length = g.rows) → mx.length = g.rows → 3 ≤ g.rows →
      solversSolve lib fuel A b D d Hess g init m mx SOLVER_QUADPROG = .ub) := by
  have h0 : ¬ mx.length = 0 := by simpa using hmx
  have key : ∀ (A b : Mat), 3 ≤ A.rows + A.cols → 0 < A.cols ∨ 0 < A.rows →
      addConstraintMaxBoundQuadProg mx A b = .ub := by
    intro A b h3 hpos
    unfold addConstraintMaxBoundQuadProg
    rw [if_neg h0, if_neg (by omega)]
    by_cases hw : 0 + A.rows ≤ A.rows + A.cols - 3 ∧ 0 + A.cols ≤ A.cols
    · have w1 : (Buf.uninit (A.rows + A.cols - 3) A.cols).write 0 0 A.rows A.cols A.e = .ok _ := if_pos hw
      rw [w1, Out.ok_bind]
      unfold Buf.write
      rw [if_neg]
      · rfl
      · simp only [Buf.uninit]
        omega
    · have w1 : (Buf.uninit (A.rows + A.cols - 3) A.cols).write 0 0 A.rows A.cols A.e = .ub := if_neg hw
      rw [w1]
      rfl
  have key2 : ∀ (A b : Mat) q, addConstraintMaxBoundQuadProg mx A b ≠ .ok q := by
    intro A b q
    by_cases h3 : A.rows + A.cols < 3
    · unfold addConstraintMaxBoundQuadProg
      rw [if_neg h0, if_pos h3]
      simp
    · rw [key A b (by omega) (by omega)]
      simp
  constructor
  · intro r h
    unfold solversSolve addBoundaryConstraintsQuadProg at h
    rw [if_pos rfl, Out.bind_eq_ok] at h
    obtain ⟨q, hq, -⟩ := h
    rw [Out.bind_eq_ok] at hq
    obtain ⟨q', -, hq'⟩ := hq
    exact key2 _ _ _ hq'
  · intro h hm hmx' h3
    obtain ⟨A', b', e1, e2, -, -, -⟩ := minBound_satTol m A b (by rw [h.ineq.2.2]; exact hm) h.ineq.1 h.ineq.2.1
    unfold solversSolve addBoundaryConstraintsQuadProg
    rw [if_pos rfl, e1, Out.ok_bind]
    have hA := h.ineq.2.2
    have e3 : addConstraintMaxBoundQuadProg mx (A', b').1 (A', b').2 = .ub :=
      key A' b' (by omega) (by omega)
    rw [e3]
    rfl

/-- C38, quadratic solver: `success_` says that `solve_quadprog` reported OPTIMAL for the problem of C36; `cost_` is
then `getObjValue()`, and -1 otherwise; `x` is the vector it left. -/
theorem C38_quadprog (lib : Lib) (fuel : ℕ) {A b D d Hess g : Mat} (h : Fits A b D d Hess g) (init m : List ℝ)
    (hm : m = [] ∨ m.length = g.rows) (res : ResultData)
    (hr : solversSolve lib fuel A b D d Hess g init m [] SOLVER_QUADPROG = .ok res) :
    ∃ (P : QP g.rows) (st : QPStatus) (s : QState g.rows),
      (∀ y : ℕ → ℝ, QPFeasible P (fun i => y i) ↔ Sat A b y ∧ EqSat D d y ∧ AboveBounds m y) ∧
      solveQuadprog lib.eps lib.maxIter P (lib.chol g.rows P.G) (lib.work g.rows) fuel = .ok (st, s) ∧
      (res.success = true ↔ st = .optimal) ∧ (st = .optimal → res.cost = s.f) ∧
      (st ≠ .optimal → res.cost = -1) ∧ res.x = List.ofFn s.x := by
  obtain ⟨P, -, -, -, -, -, -, hf, -, -, he⟩ := C36_problem h m hm
  rw [he, Out.bind_eq_ok] at hr
  obtain ⟨⟨st, s⟩, h1, h2⟩ := hr
  cases h2
  exact ⟨P, st, s, hf, h1, by simp, fun e => by simp [e], fun e => by simp [e], rfl⟩

/-- C38, linear solver: `success_` says that GLPK reported GLP_OPT; `cost_` is then its objective value, and -1
otherwise, with the initial guess left in `x`. -/
theorem C38_glpk (lib : Lib) (fuel : ℕ) (simplex : LP → LPAnswer) (hl : lib.glpk = some simplex)
    (A b D d Hess g : Mat) (init m mx : List ℝ) (res : ResultData)
    (hr : solversSolve lib fuel A b D d Hess g init m mx SOLVER_GLPK = .ok res) :
    ∃ lp, glpkProblem g D d A b m mx init.length = .ok lp ∧
      (res.success = true ↔ (simplex lp).opt = true) ∧
      ((simplex lp).opt = true → res.cost = (simplex lp).val ∧ res.x.length = init.length ∧
        ∀ i < init.length, res.x.getD i 0 = (simplex lp).prim (i + 1)) ∧
      ((simplex lp).opt = false → res.cost = -1 ∧ res.x = init) := by
  unfold solversSolve at hr
  rw [if_neg (by decide), hl] at hr
  simp only [if_true, Out.bind_eq_ok] at hr
  obtain ⟨lp, h1, h2⟩ := hr
  refine ⟨lp, h1, ?_⟩
  by_cases ho : (simplex lp).opt = true
  · rw [if_pos ho] at h2
    cases h2
    refine ⟨by simp [ho], fun _ => ⟨rfl, by simp, fun i hi => ?_⟩, fun hc => by simp [ho] at hc⟩
    simp [List.getD_eq_getElem?_getD, hi]
  · rw [if_neg ho] at h2
    cases h2
    exact ⟨by simp [ho], fun hc => absurd hc ho, fun _ => ⟨rfl, rfl⟩⟩

/-- C38. An unknown solver type throws, and so does GLPK when the library is compiled without it. -/
theorem C38_unknown (lib : Lib) (fuel : ℕ) (A b D d Hess g : Mat) (init m mx : List ℝ) (solver : SolverType)
    (h1 : solver ≠ SOLVER_QUADPROG) (h2 : solver ≠ SOLVER_GLPK ∨ lib.glpk = none) :
    solversSolve lib fuel A b D d Hess g init m mx solver = .throw "Unknown solver type in solver-asbtract" := by
  unfold solversSolve
  rw [if_neg h1]
  cases hl : lib.glpk with
  | none => rfl
  | some f =>
    have : solver ≠ SOLVER_GLPK := by
      rcases h2 with h | h
      · exact h
      · rw [hl] at h; cases h
    simp only [if_neg this]

/-- The hypotheses of C36 and C38 hold for instance for three variables, one inequality, one equality and bounds. -/
example : Fits ⟨1, 3, fun _ _ => 1⟩ ⟨1, 1, fun _ _ => 2⟩ ⟨1, 3, fun _ c => c⟩ ⟨1, 1, fun _ _ => 0⟩
    ⟨3, 3, fun r c => if r = c then 1 else 0⟩ ⟨3, 1, fun _ _ => 0⟩ ∧
    ([0, 0, -1] : List ℝ).length = (⟨3, 1, fun _ _ => 0⟩ : Mat).rows := by
  refine ⟨⟨⟨rfl, rfl⟩, ⟨rfl, rfl, rfl⟩, ⟨rfl, rfl⟩⟩, rfl⟩

end Verif
