import Verif.Lemmas.SolveExact
import Verif.Props.C63
import Verif.Props.C50

/-!
# The Hessian of the end effector problem
-/

namespace Verif
open Finset

/-- Symmetric and nonnegative. -/
def AxisNonneg {K : ℕ} (H : Matrix (Fin K) (Fin K) ℝ) : Prop :=
  (∀ a b, H a b = H b a) ∧ ∀ x : Fin K → ℝ, 0 ≤ ∑ a, ∑ b, H a b * (x a * x b)

/-- Symmetric and positive. -/
def AxisPos {K : ℕ} (H : Matrix (Fin K) (Fin K) ℝ) : Prop :=
  (∀ a b, H a b = H b a) ∧ ∀ x : Fin K → ℝ, x ≠ 0 → 0 < ∑ a, ∑ b, H a b * (x a * x b)

theorem AxisPos.nonneg {K : ℕ} {H : Matrix (Fin K) (Fin K) ℝ} (h : AxisPos H) : AxisNonneg H := by
  refine ⟨h.1, fun x => ?_⟩
  by_cases hx : x = 0
  · subst hx; simp
  · exact (h.2 x hx).le

theorem form_combine {K : ℕ} (S R : Matrix (Fin K) (Fin K) ℝ) (u w : ℝ) (x : Fin K → ℝ) :
    ∑ a, ∑ b, (u * S a b + w * R a b) * (x a * x b)
      = u * ∑ a, ∑ b, S a b * (x a * x b) + w * ∑ a, ∑ b, R a b * (x a * x b) := by
  simp only [mul_sum, ← sum_add_distrib]
  exact sum_congr rfl fun a _ => sum_congr rfl fun b _ => by ring

theorem AxisPos.combine {K : ℕ} {S R : Matrix (Fin K) (Fin K) ℝ} (hS : AxisPos S) (hR : AxisPos R) (w : ℝ) (h0 : 0 ≤ w)
    (h1 : w ≤ 1) : AxisPos fun a b => (1 - w) * S a b + w * R a b := by
  refine ⟨fun a b => show (1 - w) * S a b + w * R a b = (1 - w) * S b a + w * R b a by rw [hS.1 a b, hR.1 a b], fun x hx => ?_⟩
  rw [form_combine]
  have s := hS.2 x hx
  have r := hR.2 x hx
  rcases h0.eq_or_lt with rfl | hw
  · simpa using s
  · have : 0 ≤ (1 - w) := by linarith
    positivity

theorem AxisPos.scale {K : ℕ} {S : Matrix (Fin K) (Fin K) ℝ} (hS : AxisPos S) (N : ℝ) (hN : 0 < N) :
    AxisPos fun a b => S a b / N := by
  refine ⟨fun a b => show S a b / N = S b a / N by rw [hS.1 a b], fun x hx => ?_⟩
  have e : ∑ a, ∑ b, S a b / N * (x a * x b) = (∑ a, ∑ b, S a b * (x a * x b)) / N := by
    rw [sum_div]
    refine sum_congr rfl fun a _ => ?_
    rw [sum_div]
    exact sum_congr rfl fun b _ => by ring
  rw [e]
  exact div_pos (hS.2 x hx) hN

theorem sum_sq_pos {K : ℕ} {x : Fin K → ℝ} (hx : x ≠ 0) : 0 < ∑ a, x a ^ 2 := by
  obtain ⟨a, ha⟩ := Function.ne_iff.mp hx
  exact lt_of_lt_of_le (by have : x a ≠ 0 := ha; positivity) (single_le_sum (f := fun a => x a ^ 2) (fun b _ => sq_nonneg _) (mem_univ a))

theorem smooth_pos (flag : Flag) (hf : flag ∈ effFlags) (d : BC) (T : ℝ) (hT : 0 < T) (pi : List V3)
    (hl : pi.length = degreeOf flag + 1) :
    ∃ c : BlockCost (dimVarPts flag), computeVelocityCost flag d T pi = .ok ⟨dimVarPts flag, c⟩ ∧ AxisPos c.1 := by
  have hT' : 0 < T⁻¹ := inv_pos.mpr hT
  simp only [effFlags, List.mem_cons, List.not_mem_nil, or_false] at hf
  rcases hf with rfl | rfl | rfl <;> simp [degreeOf] at hl
  · refine ⟨normalizeCost (c0_dc0_ddc0_j0_j1_ddc1_dc1_c1.velocityCostH T) (c0_dc0_ddc0_j0_j1_ddc1_dc1_c1.velocityCostG (nth pi) T), ?_, ?_⟩
    · simp [computeVelocityCost, withPts, hl]
      exact ⟨rfl, HEq.rfl⟩
    · refine AxisPos.scale (K := 1) ⟨?_, fun x hx => ?_⟩ _ (velNorm8 T hT)
      · intro a b; fin_cases a <;> fin_cases b <;> rfl
      · rw [velPos8]
        have := sum_sq_pos hx
        positivity
  · refine ⟨normalizeCost (c0_dc0_ddc0_j0_x3_j1_ddc1_dc1_c1.velocityCostH T) (c0_dc0_ddc0_j0_x3_j1_ddc1_dc1_c1.velocityCostG (nth pi) T), ?_, ?_⟩
    · simp [computeVelocityCost, withPts, hl]
      exact ⟨rfl, HEq.rfl⟩
    · refine AxisPos.scale (K := 3) ⟨?_, fun x hx => ?_⟩ _ (velNorm10 T hT)
      · intro a b; fin_cases a <;> fin_cases b <;> rfl
      · rw [velPos10]
        have := sum_sq_pos hx
        positivity
  · refine ⟨normalizeCost (c0_dc0_ddc0_j0_x5_j1_ddc1_dc1_c1.velocityCostH T) (c0_dc0_ddc0_j0_x5_j1_ddc1_dc1_c1.velocityCostG (nth pi) T), ?_, ?_⟩
    · simp [computeVelocityCost, withPts, hl]
      exact ⟨rfl, HEq.rfl⟩
    · refine AxisPos.scale (K := 5) ⟨?_, fun x hx => ?_⟩ _ (velNorm12 T hT)
      · intro a b; fin_cases a <;> fin_cases b <;> rfl
      · rw [velPos12]
        have := sum_sq_pos hx
        positivity

/-- At the samples 1 to 5 of 50, the blocks determine the free points. -/
theorem samples_span (flag : Flag) (hf : flag ∈ effFlags) (pi : List V3) (hl : pi.length = degreeOf flag + 1)
    (W : ℝ → WpB (dimVarPts flag)) (hW : ∀ t, evaluateCurveWaypointAtTime flag pi t = .ok ⟨dimVarPts flag, W t⟩)
    (x : Fin (dimVarPts flag) → ℝ) (hx : ∀ k : ℕ, 1 ≤ k → k ≤ 5 → ∑ a, (W ((k : ℝ) * (1 / 49))).first a * x a = 0) : x = 0 := by
  have inj : ∀ (K : ℕ) (u v : WpB K), (Out.ok ⟨K, u⟩ : Out WpS) = .ok ⟨K, v⟩ → u = v := by
    intro K u v h
    have := Out.ok.inj h
    simpa using this
  simp only [effFlags, List.mem_cons, List.not_mem_nil, or_false] at hf
  rcases hf with rfl | rfl | rfl <;> simp [degreeOf] at hl
  · have e : ∀ t, W t = c0_dc0_ddc0_j0_j1_ddc1_dc1_c1.evaluateCurveWaypointAtTime (nth pi) t := fun t => by
      refine inj 1 _ _ ((hW t).symm.trans ?_)
      simp [evaluateCurveWaypointAtTime, withPts, hl]
    change Fin 1 → ℝ at x
    have h1 := hx 1 (by norm_num) (by norm_num)
    have h1 : ∑ a : Fin 1, (c0_dc0_ddc0_j0_j1_ddc1_dc1_c1.evaluateCurveWaypointAtTime (nth pi) (((1 : ℕ) : ℝ) * (1 / 49))).first a * x a = 0 := by
      rw [← e]; exact h1
    simp [c0_dc0_ddc0_j0_j1_ddc1_dc1_c1.evaluateCurveWaypointAtTime, c0_dc0_ddc0_j0_j1_ddc1_dc1_c1.evaluateCurveAtTime] at h1
    norm_num at h1
    funext a
    fin_cases a
    exact h1
  · have e : ∀ t, W t = c0_dc0_ddc0_j0_x3_j1_ddc1_dc1_c1.evaluateCurveWaypointAtTime (nth pi) t := fun t => by
      refine inj 3 _ _ ((hW t).symm.trans ?_)
      simp [evaluateCurveWaypointAtTime, withPts, hl]
    change Fin 3 → ℝ at x
    have h : ∀ k : ℕ, 1 ≤ k → k ≤ 5 → ∑ a : Fin 3, (c0_dc0_ddc0_j0_x3_j1_ddc1_dc1_c1.evaluateCurveWaypointAtTime (nth pi) ((k : ℝ) * (1 / 49))).first a * x a = 0 := by
      intro k k1 k2
      rw [← e]; exact hx k k1 k2
    have h1 := h 1 (by norm_num) (by norm_num)
    have h2 := h 2 (by norm_num) (by norm_num)
    have h3 := h 3 (by norm_num) (by norm_num)
    simp [c0_dc0_ddc0_j0_x3_j1_ddc1_dc1_c1.evaluateCurveWaypointAtTime, Fin.sum_univ_three] at h1 h2 h3
    norm_num at h1 h2 h3
    funext a
    fin_cases a
    · change x 0 = 0; linarith
    · change x 1 = 0; linarith
    · change x 2 = 0; linarith
  · have e : ∀ t, W t = c0_dc0_ddc0_j0_x5_j1_ddc1_dc1_c1.evaluateCurveWaypointAtTime (nth pi) t := fun t => by
      refine inj 5 _ _ ((hW t).symm.trans ?_)
      simp [evaluateCurveWaypointAtTime, withPts, hl]
    change Fin 5 → ℝ at x
    have h : ∀ k : ℕ, 1 ≤ k → k ≤ 5 → ∑ a : Fin 5, (c0_dc0_ddc0_j0_x5_j1_ddc1_dc1_c1.evaluateCurveWaypointAtTime (nth pi) ((k : ℝ) * (1 / 49))).first a * x a = 0 := by
      intro k k1 k2
      rw [← e]; exact hx k k1 k2
    have h1 := h 1 (by norm_num) (by norm_num)
    have h2 := h 2 (by norm_num) (by norm_num)
    have h3 := h 3 (by norm_num) (by norm_num)
    have h4 := h 4 (by norm_num) (by norm_num)
    have h5 := h 5 (by norm_num) (by norm_num)
    simp [c0_dc0_ddc0_j0_x5_j1_ddc1_dc1_c1.evaluateCurveWaypointAtTime, Fin.sum_univ_five] at h1 h2 h3 h4 h5
    norm_num at h1 h2 h3 h4 h5
    funext a
    fin_cases a
    · change x 0 = 0; linarith
    · change x 1 = 0; linarith
    · change x 2 = 0; linarith
    · change x 3 = 0; linarith
    · change x 4 = 0; linarith

theorem distance_pos (flag : Flag) (hf : flag ∈ effFlags) (d : BC) (T : ℝ) (path : ℝ → V3) :
    ∃ c, computeDistanceCostFunctionPath flag d T 50 path = .ok c ∧ AxisPos c.1 := by
  obtain ⟨pi, hpi, hl⟩ := effPts flag hf d T
  obtain ⟨W, hW, a0, ha⟩ := curveWaypoint_blocks flag hf pi hl
  have hlen : (samplePath 50 path).length = 50 := by simp [samplePath]
  obtain ⟨c, C, h1, h2, -⟩ := distanceLoop_spec flag pi (1 / (((50 : ℕ) : ℝ) - 1)) W hW (samplePath 50 path) 0 (0, 0)
  rw [hlen] at h2
  have hst : (1 / (((50 : ℕ) : ℝ) - 1)) = 1 / 49 := by norm_num
  rw [hst] at h1 h2
  simp only [Matrix.zero_apply, zero_add] at h2
  have hform : ∀ x : Fin (dimVarPts flag) → ℝ, ∑ a, ∑ b, c.1 a b * (x a * x b)
      = ∑ k ∈ range 50, (∑ a, (W ((k : ℝ) * (1 / 49))).first a * x a) ^ 2 := by
    intro x
    have : ∀ k : ℕ, (∑ a, (W ((k : ℝ) * (1 / 49))).first a * x a) ^ 2
        = ∑ a, ∑ b, (W ((k : ℝ) * (1 / 49))).first a * (W ((k : ℝ) * (1 / 49))).first b * (x a * x b) := by
      intro k
      rw [sq, sum_mul_sum]
      exact sum_congr rfl fun a _ => sum_congr rfl fun b _ => by ring
    simp only [this, h2, sum_mul]
    symm
    rw [sum_comm]
    refine sum_congr rfl fun a _ => ?_
    rw [sum_comm]
  have hpos : AxisPos c.1 := by
    refine ⟨fun a b => ?_, fun x hx => ?_⟩
    · rw [h2, h2]
      exact sum_congr rfl fun k _ => mul_comm _ _
    · rw [hform]
      refine lt_of_le_of_ne (sum_nonneg fun k _ => sq_nonneg _) fun h0 => hx ?_
      have hz := (sum_eq_zero_iff_of_nonneg fun k _ => sq_nonneg _).mp h0.symm
      refine samples_span flag hf pi hl W hW x fun k k1 k2 => ?_
      exact pow_eq_zero_iff (by norm_num) |>.mp (hz k (mem_range.mpr (by omega)))
  have hN : 0 < blockNorm c.1 := by
    have := hpos.2 (Pi.single a0 1) (by simp)
    simp [Pi.single_apply] at this
    exact blockNorm_pos _ a0 a0 this.ne'
  refine ⟨normalizeCost c.1 c.2, ?_, hpos.scale _ hN⟩
  unfold computeDistanceCostFunctionPath computeDistanceCostFunction
  rw [if_pos ⟨hlen.symm, by norm_num⟩, hpi, Out.ok_bind, hst, h1, Out.ok_bind, divideByNorm, if_neg hN.ne']

end Verif
