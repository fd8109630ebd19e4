import Verif.Props.C80
import Verif.Props.C71Ex
import Verif.Props.C43Ex

/-!
# C79, C80: examples with the threshold and the iteration limit of the code
-/

namespace Verif
open Matrix

/-- Minimise `½ x² - 2 x` subject to `x ≤ 1`, twice, and `(1 + 1e-9) x ≤ 1`. -/
noncomputable def twiceQP : QP 1 :=
  { G := 1, g := fun _ => -2, CE := [], CI := [(fun _ => -1, 1), (fun _ => -1, 1), (fun _ => -(1 + 1e-9), 1)] }

/-- The point zero has the margin one; the rows are dependent. -/
theorem twice_margin (w : Work 1) : ∃ r s,
    (∀ fuel, 2 + 1000 * (1 + 3) ≤ fuel → solveQuadprog dblEps 1000 twiceQP (fun _ _ => 1) w fuel = .ok (r, s)) ∧
      (r = .maxIterReached ∨ r = .optimal ∧ violation twiceQP s.x ≤ max 0 (qpTol dblEps twiceQP fun _ _ => 1) ∧
        ∀ v, QPFeasible twiceQP v → qpObj twiceQP s.x ≤ qpObj twiceQP v
          + 8 * ((1000 : ℕ) : ℝ) ^ 2 * 1 * dblEps * 2 ^ 2 / (1 * 1 ^ 2)) := by
  refine C79_margin (B := 4) (y := 0) w small_factor ?_ one_pos rfl ⟨by norm_num, fun v => by simp [twiceQP]⟩ one_pos ?_ ?_
    (by norm_num) (by norm_num [dblEps])
  · refine ⟨by norm_num [dblEps], by norm_num, fun v => by simp [twiceQP], by simp [twiceQP], ?_, by norm_num [dblEps]⟩
    intro e he
    simp only [twiceQP, List.mem_cons, List.not_mem_nil, or_false] at he
    rcases he with rfl | rfl | rfl <;> norm_num [jj, dotProduct]
  · intro e he
    simp only [twiceQP, List.mem_cons, List.not_mem_nil, or_false] at he
    rcases he with rfl | rfl | rfl <;> simp
  · intro x
    simp only [qpObj, twiceQP, Matrix.one_mulVec, dotProduct]
    simp
    nlinarith [sq_nonneg (x 0 - 2)]

/-- A motion of the problem of `C71Ex.lean` with the margin one half, and a positive cost. -/
theorem restPhases_slack (n : ℕ) (hn : 0 < n) : ∃ c v a, Motion restPhases ([1, 2] : List ℝ).sum ![1 / 10, 0, 0] c v a ∧
    MeetsSamplesTol restPhases (computeDiscretizedTimeFixed [1, 2] n) (-(11 * (1 / 2))) (-(1 / 2)) c a ∧
    motionCost restPhases (computeDiscretizedTimeFixed [1, 2] n) ![1 / 10, 0, 0] a = 1 / 100 := by
  have hs : ([1, 2] : List ℝ).sum = 3 := by norm_num
  have hD : Discretisation [1, 2] (computeDiscretizedTimeFixed [1, 2] n) := Or.inl ⟨n, hn, rfl⟩
  obtain ⟨pts, hpts⟩ := C01_answers restPhases.flag restPhases_accepted.flag restPhases.bc ([1, 2] : List ℝ).sum
    restPhases_accepted.capt
  set x : V3 := ![1 / 10, 0, 0] with hx
  obtain ⟨v, a, hmot⟩ := motion_exists restPhases ([1, 2] : List ℝ).sum pts hpts restPhases_accepted.flag
    (by rw [hs]; norm_num) x
  have hmot' := hmot
  rw [hs] at hmot'
  obtain ⟨hc, ha⟩ := restPhases_motion hmot'
  have hcost : motionCost restPhases (computeDiscretizedTimeFixed [1, 2] n) x a = 1 / 100 := by
    have hne : restPhases.costFunction ≠ ACCELERATION := by simp [restPhases, DISTANCE_TRAVELED, ACCELERATION]
    simp only [motionCost, if_neg hne]
    simp [restPhases, twoPhases, dot, hx]
    norm_num
  -- the positions and accelerations are small
  have hwt : ∀ q ∈ computeDiscretizedTimeFixed [1, 2] n, 0 ≤ q.1 / 3 ∧ q.1 / 3 ≤ 1 := by
    intro q hq
    obtain ⟨hq0, hq1⟩ := (hD.tags (by simp) (by simp)).2 q hq
    rw [hs] at hq1
    exact ⟨by positivity, by linarith⟩
  have hw1 : ∀ s : ℝ, 0 ≤ s → s ≤ 1 → 3 * s ^ 2 * (1 - s) ≤ 1 := by
    intro s s0 s1
    nlinarith [sq_nonneg (s - 2 / 3), sq_nonneg s, mul_nonneg s0 (sub_nonneg.mpr s1), mul_nonneg (mul_nonneg s0 s0) (sub_nonneg.mpr s1)]
  have hmeet : MeetsSamplesTol restPhases (computeDiscretizedTimeFixed [1, 2] n) (-(11 * (1 / 2))) (-(1 / 2))
      (curve (degreeOf restPhases.flag) (fill restPhases.flag (nth pts) x) ([1, 2] : List ℝ).sum) a := by
    constructor
    · intro t p hcon
      have hp : p < 2 := (hcon.lt (hD.tags (by simp) (by simp)).1).1
      obtain ⟨i, hi⟩ := hcon.mem
      obtain ⟨s0, s1⟩ := hwt _ hi
      refine ⟨pushContact, _, ?_, pushContact_good.1, ?_, ?_⟩
      · interval_cases p <;> rfl
      · intro r hr
        simp only [List.mem_singleton] at hr
        subst hr
        have h1 : Real.sqrt (dot ![0, 0, 1] ![0, 0, 1] + dot (0 : V3) 0) = 1 := by
          rw [show dot ![0, 0, 1] ![0, 0, 1] + dot (0 : V3) 0 = 1 by simp [dot]]
          exact Real.sqrt_one
        simp only [WrenchRowOkTol, h1, ha]
        simp [dot, restPhases, twoPhases, hx]
        norm_num
      · intro q hq
        simp [pushContact] at hq
        subst hq
        rw [hs, hc]
        have := hw1 _ s0 s1
        simp [dot, hx]
        linarith
    · intro _ q hq j
      obtain ⟨s0, s1⟩ := hwt _ hq
      rw [ha]
      fin_cases j <;> simp [restPhases, twoPhases, hx] <;> try norm_num
      have : |2 / 3 - 2 * (q.1 / 3)| ≤ 4 / 3 := by rw [abs_le]; constructor <;> linarith
      linarith
  exact ⟨_, v, a, hmot, hmeet, hcost⟩

/-- The problem of `C71Ex.lean` has a motion with the margin one half, and a positive cost. -/
theorem restPhases_margin (lib : Lib) (hL : LibOk lib) (he : lib.eps = dblEps) (hi : lib.maxIter = 1000) (n : ℕ) (hn : 0 < n) :
    ∃ A b H gr res N,
      computeConstraintsOneStep restPhases 2 ([1, 2] : List ℝ).sum (computeDiscretizedTimeFixed [1, 2] n) = .ok (A, b) ∧
      genCostFunction restPhases [1, 2] ([1, 2] : List ℝ).sum (computeDiscretizedTimeFixed [1, 2] n) 3 = .ok (H, gr) ∧
      (∀ fuel ≥ N, computeCOMTrajFixedSize lib fuel restPhases [1, 2] n = .ok res) ∧
      ∃ gap, gap ≤ 1e-11 ∧
        MarginVerdict lib restPhases ([1, 2] : List ℝ).sum (computeDiscretizedTimeFixed [1, 2] n) 11 1 gap N A b H gr res := by
  have hs : ([1, 2] : List ℝ).sum = 3 := by norm_num
  have hD : Discretisation [1, 2] (computeDiscretizedTimeFixed [1, 2] n) := Or.inl ⟨n, hn, rfl⟩
  obtain ⟨c, v, a, hmot, hmeet, hcost⟩ := restPhases_slack n hn
  obtain ⟨A, b, H, gr, res, N, h1, h2, h3, h4⟩ := C80_fixedSize lib hL (by rw [he, dblEps]; norm_num) restPhases
    [1, 2] _ restPhases_accepted rfl (by simp [restPhases, twoPhases]) n hn (Or.inl rfl) (k := 1) (R := 11)
    (by rw [hs]; exact restPhases_scale _ hD) (by rw [he, dblEps]; norm_num) (by rw [he, dblEps]; norm_num)
    (m := 1 / 2) (by norm_num) hmot hmeet (by rw [hi]; norm_num) (by rw [hcost, he, hi, dblEps]; norm_num)
  refine ⟨A, b, H, gr, res, N, h1, h2, h3, _, ?_, h4⟩
  rw [hcost, he, hi, dblEps]; norm_num

end Verif
