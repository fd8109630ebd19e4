import Verif.Props.C85
import Verif.Props.C100

/-!
# C85: an end effector asked to stay where it is, with the thresholds of the solver
-/

namespace Verif
open Finset

/-- A form with a curvature is bounded from below. -/
theorem blockForm_ge {K : ℕ} (c : BlockCost K) {k : ℝ} (hk : 0 < k)
    (h : ∀ X : ℕ → V3, k * ∑ a : Fin K, sq3 (X a.val) ≤ ∑ a, ∑ b, c.1 a b * dot (X a.val) (X b.val)) (X : ℕ → V3) :
    -(∑ a, sq3 (c.2 a)) / k ≤ blockForm c.1 c.2 X := by
  unfold blockForm
  have h1 := h X
  have h2 : ∀ a : Fin K, -(sq3 (c.2 a)) / k ≤ k * sq3 (X a.val) + 2 * dot (c.2 a) (X a.val) := by
    intro a
    rw [div_le_iff₀ hk]
    simp only [sq3, dot]
    nlinarith [sq_nonneg (k * X a.val 0 + c.2 a 0), sq_nonneg (k * X a.val 1 + c.2 a 1), sq_nonneg (k * X a.val 2 + c.2 a 2)]
  have h3 := Finset.sum_le_sum fun a (_ : a ∈ Finset.univ) => h2 a
  rw [Finset.sum_add_distrib, ← Finset.mul_sum, ← Finset.mul_sum, ← Finset.sum_div, Finset.sum_neg_distrib] at h3
  linarith

/-- C100, the end effector planner: if some free points satisfy the constraints with a margin, every threshold that is small enough
returns a curve that meets the boundary conditions, unless the limit on the number of iterations is reached. -/
theorem C100_end_threshold_exists (flag : Flag) (hf : flag ∈ effFlags) (d : BC) (path : ℝ → V3) (T w : ℝ) (hT : 0 < T)
    (h0 : 0 ≤ w) (h1 : w ≤ 1) {pi : List V3} (hpi : computeConstantWaypoints flag d T = .ok pi) {m : ℝ} (hm : 0 < m) {X : ℕ → V3}
    (hX : EndOkTol flag d T pi (-m) X) (maxIter : ℕ) (hi : 1 ≤ maxIter) :
    ∃ A b c, computeEndEffectorConstraints flag d T pi = .ok (A, b) ∧ computeEndEffectorCost flag d path T w pi = .ok c ∧
      ∃ ε > (0 : ℝ), ∀ lib : Lib, LibOk lib → 0 ≤ lib.eps → lib.eps ≤ ε → lib.maxIter = maxIter → ∀ init : List ℝ,
        ∃ r N, (∀ fuel ≥ N, solveEndEffector lib fuel flag d path T w init = .ok r) ∧
          (r.success = true ∨ ∃ o, ∀ fuel ≥ N, callQuadprog lib fuel c.H c.g (Mat.noRows A.cols) (Mat.noRows 1).neg A.neg b
            = .ok (.maxIterReached, o)) ∧
          (r.success = true → MeetsBoundary flag d r.c_of_t.eval T) := by
  obtain ⟨pi', A, b, c, e1, e2, e3, -⟩ := C100_end (exactLib 1) (exactLib_ok 1) le_rfl flag hf d path T w hT h0 h1 []
  rw [hpi] at e1
  cases e1
  obtain ⟨k, R, hs⟩ := C76_scale_exists flag hf d path T w hT h0 h1 hpi e3
  have hk := hs.pos
  have hR : 0 < R := lt_of_lt_of_le zero_lt_one hs.one
  set F : ℝ := |blockForm c.1 c.2 X| + (∑ a, sq3 (c.2 a)) / k with hF
  have hsq : 0 ≤ ∑ a, sq3 (c.2 a) := Finset.sum_nonneg fun a _ => by
    simp only [sq3, dot]; nlinarith [sq_nonneg (c.2 a 0), sq_nonneg (c.2 a 1), sq_nonneg (c.2 a 2)]
  have hF0 : 0 ≤ F := by positivity
  have hFX : ∀ X', blockForm c.1 c.2 X - blockForm c.1 c.2 X' ≤ F := by
    intro X'
    have := blockForm_ge c hk hs.cost X'
    rw [neg_div] at this
    linarith [le_abs_self (blockForm c.1 c.2 X)]
  have hi' : (1 : ℝ) ≤ maxIter := by exact_mod_cast hi
  have hden : 0 < 32 * (maxIter : ℝ) ^ 2 * (F + 1) := by positivity
  refine ⟨A, b, c, e2, e3, min (min k (k ^ 2 / R ^ 2)) (k * m ^ 2 / (32 * maxIter ^ 2 * (F + 1))), by positivity,
    fun lib hL he hle hmi init => ?_⟩
  have hle1 := hle.trans (min_le_left _ _)
  have hle2 := hle.trans (min_le_right _ _)
  rw [le_div_iff₀ hden] at hle2
  have hle3 := hle1.trans (min_le_right _ _)
  rw [le_div_iff₀ (by positivity)] at hle3
  obtain ⟨pi', A', b', c', f1, f2, f3, hall⟩ := C100_end lib hL he flag hf d path T w hT h0 h1 init
  rw [hpi] at f1
  cases f1
  rw [e2] at f2
  cases f2
  rw [e3] at f3
  cases f3
  obtain ⟨r, N, hr, hv, hok, -⟩ := hall k R hs (hle1.trans (min_le_left _ _)) hle3 (by omega) m F X hm hX hFX (by
    rw [hmi]
    have : 32 * (maxIter : ℝ) ^ 2 * lib.eps * F ≤ 32 * (maxIter : ℝ) ^ 2 * lib.eps * (F + 1) :=
      mul_le_mul_of_nonneg_left (by linarith) (by positivity)
    linarith)
  refine ⟨r, N, hr, hv, fun hsucc => ?_⟩
  obtain ⟨_, -, -, hb, -⟩ := hok hsucc
  exact hb

/-- Raising the free points by a small height moves the control points of the derivatives little. -/
theorem within_raise {K : ℕ} {ws : List (WpB K)} {B R h : ℝ} (p : V3) (hR : 0 ≤ R) (hh : 0 ≤ h)
    (hw : Within ws (fun _ => B) (fun _ => B) fun _ => p) (hn : ∀ w ∈ ws, ∑ j, w.first j ^ 2 ≤ R ^ 2) :
    Within ws (fun _ => B + K * R * h) (fun _ => B + K * R * h) fun _ => ![p 0, p 1, p 2 + h] := by
  intro w hw' hd k
  obtain ⟨l, u⟩ := hw w hw' hd k
  have hj : ∀ j, |w.first j| ≤ R := by
    intro j
    have := (Finset.single_le_sum (fun i _ => sq_nonneg (w.first i)) (Finset.mem_univ j)).trans (hn w hw')
    exact abs_le_of_sq_le_sq this hR
  have hsum : |∑ j, w.first j| ≤ K * R := by
    refine (Finset.abs_sum_le_sum_abs _ _).trans ((Finset.sum_le_sum fun j _ => hj j).trans (le_of_eq ?_))
    simp
  have hmove : |w.at (fun _ => ![p 0, p 1, p 2 + h]) k - w.at (fun _ => p) k| ≤ K * R * h := by
    unfold WpB.at
    simp only [Pi.add_apply, Finset.sum_apply, Pi.smul_apply, smul_eq_mul, add_sub_add_right_eq_sub]
    rw [← Finset.sum_mul, ← Finset.sum_mul, ← mul_sub, abs_mul]
    have : |(![p 0, p 1, p 2 + h] : V3) k - p k| ≤ h := by
      fin_cases k <;> simp [abs_of_nonneg hh, hh]
    exact mul_le_mul hsum this (abs_nonneg _) (by positivity)
  rw [abs_le] at hmove
  constructor <;> linarith

/-- C85 with the thresholds of the solver: for the set with one free point at every position, for the sets with three and five free points
below the limit, a request to stay succeeds for every threshold that is small enough, unless the limit on the number of iterations is reached. -/
theorem C85_margin_partial (flag : Flag) (hf : flag ∈ effFlags) (p : V3) (T : ℝ) (hT : 0 < T)
    (hp : flag = 255#32 ∨ ∀ k, |p k| < stayLimit flag T) (path : ℝ → V3) (w : ℝ) (h0 : 0 ≤ w) (h1 : w ≤ 1) (maxIter : ℕ) (hi : 1 ≤ maxIter) :
    ∃ pi A b c, computeConstantWaypoints flag (restAt p) T = .ok pi ∧ computeEndEffectorConstraints flag (restAt p) T pi = .ok (A, b) ∧
      computeEndEffectorCost flag (restAt p) path T w pi = .ok c ∧
      ∃ ε > (0 : ℝ), ∀ lib : Lib, LibOk lib → 0 ≤ lib.eps → lib.eps ≤ ε → lib.maxIter = maxIter → ∀ init : List ℝ,
        ∃ r N, (∀ fuel ≥ N, solveEndEffector lib fuel flag (restAt p) path T w init = .ok r) ∧
          (r.success = true ∨ ∃ o, ∀ fuel ≥ N, callQuadprog lib fuel c.H c.g (Mat.noRows A.cols) (Mat.noRows 1).neg A.neg b
            = .ok (.maxIterReached, o)) ∧
          (r.success = true → MeetsBoundary flag (restAt p) r.c_of_t.eval T) := by
  obtain ⟨pi, hpi, hl⟩ := effPts flag hf (restAt p) T
  obtain ⟨B, hB0, hB1, hB⟩ : ∃ B : ℝ, 0 ≤ B ∧ B < 10000 ∧ (flag = 255#32 ∨ ∀ k, |p k| * 10000 ≤ B * stayLimit flag T) := by
    rcases hp with hp | hp
    · exact ⟨0, le_rfl, by norm_num, Or.inl hp⟩
    · have hpos : 0 < stayLimit flag T := lt_of_le_of_lt (abs_nonneg _) (hp 0)
      set q := max |p 0| (max |p 1| |p 2|) with hq
      have hq0 : 0 ≤ q := le_max_of_le_left (abs_nonneg _)
      have hq1 : q < stayLimit flag T := max_lt (hp 0) (max_lt (hp 1) (hp 2))
      refine ⟨q * 10000 / stayLimit flag T, by positivity, ?_, Or.inr fun k => ?_⟩
      · rw [div_lt_iff₀ hpos]; linarith
      · rw [div_mul_cancel₀ _ hpos.ne']
        have : |p k| ≤ q := by
          fin_cases k
          · exact le_max_left _ _
          · exact (le_max_left _ _).trans (le_max_right _ _)
          · exact (le_max_right _ _).trans (le_max_right _ _)
        linarith
  obtain ⟨c, hc, -⟩ := endCost_pos flag hf (restAt p) path T w hT h0 h1 pi hl
  obtain ⟨k, R, hs⟩ := C76_scale_exists flag hf (restAt p) path T w hT h0 h1 hpi hc
  have hR0 : 0 ≤ R := zero_le_one.trans hs.one
  obtain ⟨vel, acc, jerk, a1, a2, a3, w1, w2, w3⟩ := rest_within flag hf p T B hT hB0 hB hpi
  set n : ℕ := vel.1 + acc.1 + jerk.1 with hn
  set m : ℝ := (10000 - B) / (n * R + 1) with hm
  have hden : 0 < (n : ℝ) * R + 1 := by positivity
  have hm0 : 0 < m := div_pos (by linarith) hden
  have hmm : n * R * m + m = 10000 - B := by
    have := div_mul_cancel₀ (10000 - B) hden.ne'
    rw [← hm] at this
    linarith
  have hle : ∀ K : ℕ, K ≤ n → ∀ ws : List (WpB K), Within ws (fun _ => B + K * R * m) (fun _ => B + K * R * m) (fun _ => ![p 0, p 1, p 2 + m]) →
      Within ws (fun _ => 10000 + -m) (fun _ => 10000 + -m) (fun _ => ![p 0, p 1, p 2 + m]) := by
    intro K hK ws h w hw hd k
    obtain ⟨l, u⟩ := h w hw hd k
    have hKn : (K : ℝ) * R * m ≤ n * R * m := by
      have : (K : ℝ) ≤ n := by exact_mod_cast hK
      gcongr
    dsimp only at *
    constructor <;> linarith
  have hX : EndOkTol flag (restAt p) T pi (-m) fun _ => ![p 0, p 1, p 2 + m] := by
    refine ⟨vel, acc, jerk, a1, a2, a3, hle _ (by omega) _ (within_raise p hR0 hm0.le w1 (hs.vel _ a1)),
      hle _ (by omega) _ (within_raise p hR0 hm0.le w2 (hs.acc _ a2)), hle _ (by omega) _ (within_raise p hR0 hm0.le w3 (hs.jerk _ a3)), fun j _ => ?_⟩
    simp [restAt]
  obtain ⟨A, b, c', e2, e3, h⟩ := C100_end_threshold_exists flag hf (restAt p) path T w hT h0 h1 hpi hm0 hX maxIter hi
  exact ⟨pi, A, b, c', hpi, e2, e3, h⟩

/-- C85 is false away from the origin for the sets with three and five free points, with every threshold of the solver that is small enough too. -/
theorem C85_far_threshold (flag : Flag) (hf : flag ∈ [767#32, 2303#32]) (p : V3) (T : ℝ) (hT : 0 < T) (hT' : T ≤ 1000) (k : Fin 3)
    (hp : stayLimit flag T * (1 + T / 8) < |p k|) (path : ℝ → V3) (w : ℝ) (h0 : 0 ≤ w) (h1 : w ≤ 1) :
    ∃ ε > (0 : ℝ), ∀ lib : Lib, LibOk lib → 0 ≤ lib.eps → lib.eps ≤ ε → ∀ init : List ℝ,
      ∃ r N, (∀ fuel ≥ N, solveEndEffector lib fuel flag (restAt p) path T w init = .ok r) ∧ r.success = false := by
  have hf' : flag ∈ effFlags := by
    simp only [List.mem_cons, List.not_mem_nil, or_false] at hf
    rcases hf with rfl | rfl <;> decide
  have hS : 0 < stayLimit flag T := by
    unfold stayLimit
    split_ifs <;> positivity
  set L := stayLimit flag T * (1 + T / 8) with hL
  have hL0 : 0 < L := by positivity
  set δ : ℝ := (|p k| * 10000 / L - 10000) / 2 with hδ
  have hδL : 2 * δ * L = |p k| * 10000 - 10000 * L := by
    rw [hδ]; field_simp
  have hδ0 : 0 < δ := by
    have : 10000 < |p k| * 10000 / L := by rw [lt_div_iff₀ hL0]; linarith
    linarith
  obtain ⟨pi, A, b, c, e1, e2, e3, -⟩ := C76_tolerance (exactLib 1) (exactLib_ok 1) le_rfl flag hf' (restAt p) path T w hT h0 h1 []
  obtain ⟨κ, R, hs⟩ := C76_scale_exists flag hf' (restAt p) path T w hT h0 h1 e1 e3
  have hκ := hs.pos
  have hR : 0 < R := lt_of_lt_of_le zero_lt_one hs.one
  set C : ℝ := |100 * A.rows * (3 * ∑ a, c.1 a a) * ((3 * dimVarPts flag : ℕ) / Real.sqrt κ)| with hC
  have hC0 : 0 ≤ C := abs_nonneg _
  refine ⟨min (min κ (κ ^ 2 / R ^ 2)) (δ / (C + 1)), by positivity, fun lib hlib he hle init => ?_⟩
  have hle1 := hle.trans (min_le_left _ _)
  have hle2 := hle.trans (min_le_right _ _)
  rw [le_div_iff₀ (by positivity)] at hle2
  have hle3 := hle1.trans (min_le_right _ _)
  rw [le_div_iff₀ (by positivity)] at hle3
  obtain ⟨pi', A', b', c', f1, f2, f3, hall⟩ := C76_tolerance lib hlib he flag hf' (restAt p) path T w hT h0 h1 init
  rw [e1] at f1
  cases f1
  rw [e2] at f2
  cases f2
  rw [e3] at f3
  cases f3
  obtain ⟨r, N, hr, hok, -⟩ := hall κ R hs (hle1.trans (min_le_left _ _)) hle3
  refine ⟨r, N, hr, ?_⟩
  by_contra hsucc
  obtain ⟨X, -, -, -, vel, acc, jerk, a1, a2, a3, w1, w2, w3, -⟩ := hok (by simpa using hsucc)
  have htol : solverTolGen lib.eps κ (3 * ∑ a, c.1 a a) (3 * dimVarPts flag) A.rows ≤ δ := by
    have e : solverTolGen lib.eps κ (3 * ∑ a, c.1 a a) (3 * dimVarPts flag) A.rows
        = lib.eps * (100 * A.rows * (3 * ∑ a, c.1 a a) * ((3 * dimVarPts flag : ℕ) / Real.sqrt κ)) := by
      unfold solverTolGen; ring
    rw [e]
    have := mul_le_mul_of_nonneg_left (le_abs_self (100 * A.rows * (3 * ∑ a, c.1 a a) * ((3 * dimVarPts flag : ℕ) / Real.sqrt κ))) he
    rw [← hC] at this
    linarith
  have hmono : ∀ {K : ℕ} (ws : List (WpB K)),
      Within ws (fun _ => 10000 + solverTolGen lib.eps κ (3 * ∑ a, c.1 a a) (3 * dimVarPts flag) A.rows)
        (fun _ => 10000 + solverTolGen lib.eps κ (3 * ∑ a, c.1 a a) (3 * dimVarPts flag) A.rows) X →
      Within ws (fun _ => 10000 + δ) (fun _ => 10000 + δ) X := by
    intro K ws h w hw hd j
    obtain ⟨l, u⟩ := h w hw hd j
    dsimp only at *
    constructor <;> linarith
  refine far_not_within flag hf p T (10000 + δ) hT hT' (by positivity) k ?_ e1 X ⟨vel, acc, jerk, a1, a2, a3, hmono _ w1, hmono _ w2, hmono _ w3⟩
  rw [← hL]
  nlinarith

/-- One metre from the origin and a tenth of a second are within the limit of the set with three free points. -/
example : ∀ k, |(![1, 0, 0] : V3) k| < stayLimit 767#32 (1 / 10) := by
  intro k
  rw [stayLimit, if_pos rfl]
  fin_cases k <;> norm_num

/-- Two metres are not. -/
example : stayLimit 767#32 (1 / 10) * (1 + (1 / 10) / 8) < |(![2, 0, 0] : V3) 0| := by
  rw [stayLimit, if_pos rfl]
  norm_num

end Verif
