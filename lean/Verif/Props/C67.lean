import Verif.Props.C45
import Verif.Props.C65

/-!
# C67: solver objects over sequences of calls
-/

namespace Verif
open Matrix

/-- What can be done with a solver object. -/
inductive QPOp where
  | solve (n : ℕ) (P : QP n) (w : Work n) (fuel : ℕ)
  | setMaxIter (k : ℤ)

/-- A call. -/
noncomputable def QPObj.op (chol : ∀ n, Matrix (Fin n) (Fin n) ℝ → ℕ → VecN n) (eps : ℝ) (o : QPObj) : QPOp → Out QPObj
  | .solve n P w fuel => QPObj.solve (chol n) eps o P w fuel >>= fun r => .ok r.2
  | .setMaxIter k => .ok (o.setMaxIter k).2

/-- A sequence of calls. -/
noncomputable def QPObj.ops (chol : ∀ n, Matrix (Fin n) (Fin n) ℝ → ℕ → VecN n) (eps : ℝ) : QPObj → List QPOp → Out QPObj
  | o, [] => .ok o
  | o, c :: l => o.op chol eps c >>= fun o => QPObj.ops chol eps o l

/-- The iteration limit after a sequence of calls: the last nonnegative one that was set. -/
def limitAfter : ℕ → List QPOp → ℕ
  | m, [] => m
  | m, .solve _ _ _ _ :: l => limitAfter m l
  | m, .setMaxIter k :: l => limitAfter (if k < 0 then m else k.toNat) l

theorem QPObj.resized_fields (o : QPObj) (n a b : ℕ) :
    (o.resized n a b).inverseProvided = o.inverseProvided ∧ (o.resized n a b).maxIter = o.maxIter ∧ (o.resized n a b).q = o.q := by
  unfold QPObj.resized
  split_ifs <;> exact ⟨rfl, rfl, rfl⟩

theorem QPObj.solve_eq {n : ℕ} (chol : Matrix (Fin n) (Fin n) ℝ → ℕ → VecN n) (eps : ℝ) (o : QPObj) (P : QP n) (w : Work n)
    (fuel : ℕ) (h : o.inverseProvided = false) : QPObj.solve chol eps o P w fuel
      = solveQuadprog eps o.maxIter P (chol P.G) w fuel >>= fun r => .ok (r, (o.resized n P.CE.length P.CI.length).after r) := by
  obtain ⟨h1, h2, -⟩ := o.resized_fields n P.CE.length P.CI.length
  unfold QPObj.solve
  simp only [h1, h, h2]
  rfl

theorem QPObj.op_fields (chol : ∀ n, Matrix (Fin n) (Fin n) ℝ → ℕ → VecN n) (eps : ℝ) (o o' : QPObj) (c : QPOp)
    (h : o.inverseProvided = false) (hc : o.op chol eps c = .ok o') :
    o'.inverseProvided = false ∧ o'.maxIter = limitAfter o.maxIter [c] := by
  cases c with
  | solve n P w fuel =>
    obtain ⟨h1, h2, -⟩ := o.resized_fields n P.CE.length P.CI.length
    unfold QPObj.op at hc
    simp only at hc
    rw [QPObj.solve_eq _ _ _ _ _ _ h] at hc
    obtain ⟨r, hr, hc⟩ := Out.bind_eq_ok.mp hc
    obtain ⟨r', hr', hr⟩ := Out.bind_eq_ok.mp hr
    obtain rfl := Out.ok.inj hr
    obtain rfl := Out.ok.inj hc
    exact ⟨h1.trans h, h2⟩
  | setMaxIter k =>
    obtain rfl := Out.ok.inj hc
    unfold QPObj.setMaxIter
    simp only [limitAfter]
    split_ifs
    · exact ⟨h, rfl⟩
    · exact ⟨h, rfl⟩

theorem QPObj.ops_fields (chol : ∀ n, Matrix (Fin n) (Fin n) ℝ → ℕ → VecN n) (eps : ℝ) : ∀ (l : List QPOp) (o o' : QPObj),
    o.inverseProvided = false → o.ops chol eps l = .ok o' → o'.inverseProvided = false ∧ o'.maxIter = limitAfter o.maxIter l
  | [], o, o', h, hl => by
    obtain rfl := Out.ok.inj hl
    exact ⟨h, rfl⟩
  | c :: l, o, o', h, hl => by
    obtain ⟨o1, h1, h2⟩ := Out.bind_eq_ok.mp hl
    obtain ⟨k1, k2⟩ := QPObj.op_fields chol eps o o1 c h h1
    obtain ⟨k3, k4⟩ := QPObj.ops_fields chol eps l o1 o' k1 h2
    refine ⟨k3, ?_⟩
    rw [k4, k2]
    cases c <;> rfl

/-- C67. After any sequence of calls that return, on problems of any sizes and with any settings of the iteration limit, a
solver object answers as a new object with the same limit: same verdict, point, value, active set and multipliers. -/
theorem C67_sessions (chol : ∀ n, Matrix (Fin n) (Fin n) ℝ → ℕ → VecN n) (eps : ℝ) (l : List QPOp) (o : QPObj)
    (h : QPObj.new.ops chol eps l = .ok o) {n : ℕ} (P : QP n) (w w' : Work n) (fuel : ℕ) :
    SameOut (fun a b => SameRes a.1 b.1) (QPObj.solve (chol n) eps o P w fuel)
      (QPObj.solve (chol n) eps { QPObj.new with maxIter := limitAfter 1000 l } P w' fuel) := by
  obtain ⟨h1, h2⟩ := QPObj.ops_fields chol eps l .new o rfl h
  rw [QPObj.solve_eq _ _ _ _ _ _ h1, QPObj.solve_eq _ _ _ _ _ _ rfl, h2]
  have := C45_reuse eps (limitAfter 1000 l) P (chol n P.G) w w' fuel
  show SameOut _ (solveQuadprog eps (limitAfter 1000 l) P (chol n P.G) w fuel >>= _)
    (solveQuadprog eps (limitAfter 1000 l) P (chol n P.G) w' fuel >>= _)
  revert this
  generalize solveQuadprog eps (limitAfter 1000 l) P (chol n P.G) w fuel = a
  generalize solveQuadprog eps (limitAfter 1000 l) P (chol n P.G) w' fuel = b
  intro this
  cases this with
  | ok hr => exact .ok hr
  | throw => exact .throw
  | assertFail => exact .assertFail
  | ub => exact .ub
  | diverge => exact .diverge

/-- C67, `getActiveSetSize`: it is the size of the active set of the last call, unless this one found redundant equalities;
then it is what it was before. -/
theorem C67_size {n : ℕ} (chol : Matrix (Fin n) (Fin n) ℝ → ℕ → VecN n) (eps : ℝ) (o o' : QPObj) (P : QP n) (w : Work n) (fuel : ℕ)
    (r : QPStatus) (s : QState n) (h : QPObj.solve chol eps o P w fuel = .ok ((r, s), o')) :
    o'.q = if r = .redundantEqualities then o.q else s.iq := by
  obtain ⟨-, -, h3⟩ := o.resized_fields n P.CE.length P.CI.length
  unfold QPObj.solve at h
  simp only at h
  split_ifs at h
  all_goals
    obtain ⟨r', -, h⟩ := Out.bind_eq_ok.mp h
    obtain ⟨rfl, rfl⟩ := Prod.mk.inj (Out.ok.inj h)
    simp only [QPObj.after, h3]

/-- `x = 0` twice, in two variables. -/
def twiceProblem : QP 2 := { G := 1, g := 0, CE := [(![1, 0], 0), (![1, 0], 0)], CI := [] }
/-- `x = 0` and `y = 0`. -/
def twoProblem : QP 2 := { G := 1, g := 0, CE := [(![1, 0], 0), (![0, 1], 0)], CI := [] }

theorem twice_redundant (w : Work 2) : ∃ s, ∀ fuel, 5004 ≤ fuel →
    solveQuadprog 0 1000 twiceProblem (idCols 2) w fuel = .ok (.redundantEqualities, s) := by
  obtain ⟨r, s, h1, h2⟩ := C40_total_partial (maxIter := 1000) (P := twiceProblem) w factor_id (by simp [twiceProblem]) (by simp [twiceProblem])
  have hb : twiceProblem.CE.length + 2 + 1000 * (2 + 3) = 5004 := rfl
  rw [hb] at h1
  rcases h2 with ⟨rfl, -⟩ | ⟨rfl, h⟩ | ⟨rfl, -⟩
  · exfalso
    refine C44_independent_partial le_rfl (P := twiceProblem) factor_id (by simp [twiceProblem])
      (exactRun_zero w factor_id (by simp [twiceProblem])) (h1 _ le_rfl) 1 (by simp [twiceProblem]) ⟨fun _ => 1, ?_⟩
    simp [twiceProblem]
  · exfalso
    refine h 0 ⟨?_, by simp [twiceProblem]⟩
    intro e he
    simp [twiceProblem] at he
    simp [he]
  · exact ⟨s, h1⟩

theorem two_optimal (w : Work 2) : ∃ s, s.iq = 2 ∧ ∀ fuel, 5004 ≤ fuel →
    solveQuadprog 0 1000 twoProblem (idCols 2) w fuel = .ok (.optimal, s) := by
  obtain ⟨r, s, h1, h2⟩ := C40_total_partial (maxIter := 1000) (P := twoProblem) w factor_id (by simp [twoProblem]) (by simp [twoProblem])
  have hb : twoProblem.CE.length + 2 + 1000 * (2 + 3) = 5004 := rfl
  rw [hb] at h1
  rcases h2 with ⟨rfl, -⟩ | ⟨rfl, h⟩ | ⟨rfl, i, hi, c, hc⟩
  · refine ⟨s, ?_, h1⟩
    obtain ⟨k1, -, -, -⟩ := solveQuadprog_sound le_rfl (P := twoProblem) factor_id (by simp [twoProblem])
      (exactRun_zero w factor_id (by simp [twoProblem])) (h1 _ le_rfl)
    have a := k1.ne_le
    have b := k1.fac.le
    have c : twoProblem.CE.length = 2 := rfl
    omega
  · exfalso
    refine h 0 ⟨?_, by simp [twoProblem]⟩
    intro e he
    simp [twoProblem] at he
    rcases he with rfl | rfl <;> simp
  · exfalso
    have : i < 2 := hi
    interval_cases i
    · have := congrFun hc 0
      simp [twoProblem] at this
    · have := congrFun hc 1
      simp [twoProblem] at this

/-- C67 is false of the code for `getActiveSetSize`: after redundant equalities it depends on the problem solved before. -/
theorem C67_refuted_size (w : Work 2) : ∃ o1 r1 o2 r2 o3, ∀ fuel, 5004 ≤ fuel →
    QPObj.solve (fun _ => idCols 2) 0 .new twiceProblem w fuel = .ok (r1, o1) ∧
    QPObj.solve (fun _ => idCols 2) 0 .new twoProblem w fuel = .ok (r2, o2) ∧
    QPObj.solve (fun _ => idCols 2) 0 o2 twiceProblem w fuel = .ok (r1, o3) ∧ o1.q = 0 ∧ o3.q = 2 := by
  obtain ⟨s1, h1⟩ := twice_redundant w
  obtain ⟨s2, h2, h3⟩ := two_optimal w
  refine ⟨(QPObj.new.resized 2 2 0).after (.redundantEqualities, s1), (.redundantEqualities, s1),
    (QPObj.new.resized 2 2 0).after (.optimal, s2), (.optimal, s2),
    (((QPObj.new.resized 2 2 0).after (.optimal, s2)).resized 2 2 0).after (.redundantEqualities, s1),
    fun fuel hf => ⟨?_, ?_, ?_, ?_, ?_⟩⟩
  · rw [QPObj.solve_eq _ _ _ _ _ _ rfl]
    show (solveQuadprog 0 1000 twiceProblem (idCols 2) w fuel >>= _) = _
    rw [h1 fuel hf]
    rfl
  · rw [QPObj.solve_eq _ _ _ _ _ _ rfl]
    show (solveQuadprog 0 1000 twoProblem (idCols 2) w fuel >>= _) = _
    rw [h3 fuel hf]
    rfl
  · rw [QPObj.solve_eq _ _ _ _ _ _ rfl]
    show (solveQuadprog 0 1000 twiceProblem (idCols 2) w fuel >>= _) = _
    rw [h1 fuel hf]
    rfl
  · simp [QPObj.after, QPObj.resized, QPObj.new, twiceProblem]
  · simp [QPObj.after, QPObj.resized, QPObj.new, twiceProblem, twoProblem, h2]

end Verif
