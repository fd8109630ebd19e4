import Verif.Lemmas.VelCost
import Verif.Props.C49
import Verif.Props.C18

/-!
# C63: the velocity cost
-/

namespace Verif
open Finset

/-- Relative precision of the decimals in the three `computeVelocityCost`. -/
noncomputable def velTol (flag : Flag) : ℝ :=
  if flag = 255#32 then 2e-11 else if flag = 767#32 then 1e-8 else 6e-7

theorem vel_integral (n : ℕ) (p : ℕ → V3) (T : ℝ) (hT : 0 < T) (v : ℝ → V3) (hv : IsDeriv (curve (n + 1) p T) v) :
    ∫ t in (0 : ℝ)..T, sq3 (v t) = T⁻¹ * ∑ k, velQ (n + 1) (fun i => p i k) := by
  obtain rfl := deriv_unique hv (curve_isDeriv n p T)
  have e : ∀ t, sq3 (curve n (hodo (n + 1) p T) T t)
      = ∑ k : Fin 3, bez n (fun i => hodo (n + 1) p T i k) (t / T) ^ 2 := by
    intro t
    simp only [sq3, dot, curve, bez_apply, Fin.sum_univ_three]
    ring
  simp only [e]
  have hc : ∀ (k : Fin 3), Continuous fun t : ℝ => bez n (fun i => hodo (n + 1) p T i k) (t / T) ^ 2 := by
    intro k
    unfold bez
    fun_prop
  rw [intervalIntegral.integral_finset_sum fun k _ => (hc k).intervalIntegrable _ _, mul_sum]
  refine sum_congr rfl fun k _ => ?_
  rw [integral_curve_sq _ _ _ hT]
  unfold velQ hodo
  rw [mul_sum, mul_sum, mul_sum]
  refine sum_congr rfl fun i _ => ?_
  rw [mul_sum, mul_sum, mul_sum]
  refine sum_congr rfl fun j _ => ?_
  simp only [Pi.smul_apply, Pi.sub_apply, smul_eq_mul, Nat.add_sub_cancel]
  field_simp

theorem blockForm_axes {K : ℕ} (H : Matrix (Fin K) (Fin K) ℝ) (g : Fin K → V3) (X : ℕ → V3) :
    blockForm H g X = ∑ k : Fin 3, (∑ a, ∑ b, H a b * (X a.val k * X b.val k) + 2 * ∑ a, g a k * X a.val k) := by
  unfold blockForm
  simp only [Fin.sum_univ_three, dot, mul_add, sum_add_distrib, mul_sum]
  try ring

/-- One axis at a time. -/
theorem vel_axes {K n : ℕ} (H : Matrix (Fin K) (Fin K) ℝ) (g : Fin K → V3) (P X : ℕ → V3) (T δ : ℝ) (hT : 0 < T)
    (hN : 0 < blockNorm H) (q : (ℕ → ℝ) → ℝ) (m : ℝ) (hm : 0 < m)
    (F : ℕ → V3) (hF : ∀ i, F i = if 4 ≤ i ∧ i < 4 + K then X (i - 4) else P i)
    (hc : ∀ k : Fin 3, ∑ a, ∑ b, H a b * (F (4 + a.val) k * F (4 + b.val) k) + 2 * ∑ a, g a k * F (4 + a.val) k
      = T⁻¹ * q fun i => F i k)
    (hb : ∀ p, |q p - m * (velQ n p - velQ n (zeroFree K p))| ≤ m * δ * ∑ i ∈ range (n + 1), p i ^ 2) :
    |blockForm (normalizeCost H g).1 (normalizeCost H g).2 X
        - (m / blockNorm H * (T⁻¹ * ∑ k : Fin 3, velQ n (fun i => F i k))
          + -(m / blockNorm H * (T⁻¹ * ∑ k : Fin 3, velQ n (zeroFree K fun i => P i k))))|
      ≤ δ * (m / blockNorm H) / T * ∑ i ∈ range (n + 1), sq3 (F i) := by
  have hX : ∀ a : Fin K, X a.val = F (4 + a.val) := by
    intro a
    rw [hF, if_pos (by omega)]
    congr 1
    omega
  have hz : ∀ k : Fin 3, zeroFree K (fun i => P i k) = zeroFree K fun i => F i k := by
    intro k
    funext i
    unfold zeroFree
    by_cases h : 4 ≤ i ∧ i < 4 + K
    · rw [if_pos h, if_pos h]
    · rw [if_neg h, if_neg h]
      dsimp only
      rw [hF, if_neg h]
  rw [blockForm_normalize, blockForm_axes]
  simp only [hX, hc, hz]
  have h0 := hb fun i => F i 0
  have h1 := hb fun i => F i 1
  have h2 := hb fun i => F i 2
  have e : ∑ i ∈ range (n + 1), sq3 (F i)
      = ∑ i ∈ range (n + 1), F i 0 ^ 2 + ∑ i ∈ range (n + 1), F i 1 ^ 2 + ∑ i ∈ range (n + 1), F i 2 ^ 2 := by
    rw [← sum_add_distrib, ← sum_add_distrib]
    exact sum_congr rfl fun i _ => by simp only [sq3, dot]; ring
  rw [e]
  simp only [Fin.sum_univ_three]
  set s := (blockNorm H)⁻¹ * T⁻¹ with hs
  have hs0 : 0 < s := by positivity
  have e1 : ∀ a b c a' b' c' z z' z'' : ℝ, (blockNorm H)⁻¹ * (T⁻¹ * a + T⁻¹ * b + T⁻¹ * c)
      - (m / blockNorm H * (T⁻¹ * (a' + b' + c')) + -(m / blockNorm H * (T⁻¹ * (z + z' + z''))))
      = s * ((a - m * (a' - z)) + (b - m * (b' - z')) + (c - m * (c' - z''))) := by
    intros; rw [hs, div_eq_mul_inv]; ring
  have e2 : ∀ a b c : ℝ, δ * (m / blockNorm H) / T * (a + b + c) = s * (m * δ * a + m * δ * b + m * δ * c) := by
    intros; rw [hs, div_eq_mul_inv, div_eq_mul_inv]; ring
  rw [e1, e2, abs_mul, abs_of_pos hs0]
  refine mul_le_mul_of_nonneg_left ?_ hs0.le
  exact (abs_add_le _ _).trans (add_le_add ((abs_add_le _ _).trans (add_le_add h0 h1)) h2)

theorem velNorm8 (T : ℝ) (hT : 0 < T) : 0 < blockNorm (c0_dc0_ddc0_j0_j1_ddc1_dc1_c1.velocityCostH T) := by
  refine blockNorm_pos _ 0 0 ?_
  simp [c0_dc0_ddc0_j0_j1_ddc1_dc1_c1.velocityCostH]
  exact ⟨by norm_num, hT.ne'⟩

theorem velNorm10 (T : ℝ) (hT : 0 < T) : 0 < blockNorm (c0_dc0_ddc0_j0_x3_j1_ddc1_dc1_c1.velocityCostH T) := by
  refine blockNorm_pos _ 0 0 ?_
  simp [c0_dc0_ddc0_j0_x3_j1_ddc1_dc1_c1.velocityCostH]
  exact ⟨by norm_num, hT.ne'⟩

theorem velNorm12 (T : ℝ) (hT : 0 < T) : 0 < blockNorm (c0_dc0_ddc0_j0_x5_j1_ddc1_dc1_c1.velocityCostH T) := by
  refine blockNorm_pos _ 0 0 ?_
  simp [c0_dc0_ddc0_j0_x5_j1_ddc1_dc1_c1.velocityCostH]
  exact ⟨by norm_num, hT.ne'⟩

theorem fillMany_eff (flag : Flag) (K : ℕ) (h : freeSlots flag = List.range' 4 K) (P X : ℕ → V3) (i : ℕ) :
    fillMany flag P X i = if 4 ≤ i ∧ i < 4 + K then X (i - 4) else P i := by
  unfold fillMany
  rw [h]
  by_cases hi : 4 ≤ i ∧ i < 4 + K
  · rw [if_pos (by simpa using hi), if_pos hi]
    obtain ⟨m, rfl⟩ : ∃ m, K = m + 1 := ⟨K - 1, by omega⟩
    rfl
  · rw [if_neg (by simpa using hi), if_neg hi]

theorem axis_fill {flag : Flag} {K : ℕ} (h : freeSlots flag = List.range' 4 K) {P X : ℕ → V3} {i : ℕ} {k : Fin 3} :
    fillMany flag P X i k = if 4 ≤ i ∧ i < 4 + K then fillMany flag P X i k else P i k := by
  by_cases hi : 4 ≤ i ∧ i < 4 + K
  · rw [if_pos hi]
  · rw [if_neg hi, fillMany_eff flag K h, if_neg hi]

/-- C63. The cost returned by `computeVelocityCost` is, up to a positive factor `s` and a constant, the integral of the
squared velocity of the curve over its duration; the decimals in the source are correct to a relative precision of 2e-11,
1e-8 and 6e-7. -/
theorem C63_velocity_cost (flag : Flag) (hf : flag ∈ effFlags) (d : BC) (T : ℝ) (hT : 0 < T) (pi : List V3)
    (hl : pi.length = degreeOf flag + 1) :
    ∃ c, computeVelocityCost flag d T pi = .ok c ∧ c.1 = dimVarPts flag ∧ ∃ s > 0, ∃ C, ∀ X v,
      IsDeriv (curve (degreeOf flag) (fillMany flag (nth pi) X) T) v →
      |blockForm c.2.1 c.2.2 X - (s * (∫ t in (0 : ℝ)..T, sq3 (v t)) + C)|
        ≤ velTol flag * s / T * ∑ i ∈ range (degreeOf flag + 1), sq3 (fillMany flag (nth pi) X i) := by
  simp only [effFlags, List.mem_cons, List.not_mem_nil, or_false] at hf
  rcases hf with rfl | rfl | rfl
  · have hl : pi.length = 9 := by simpa [degreeOf] using hl
    refine ⟨⟨1, normalizeCost (c0_dc0_ddc0_j0_j1_ddc1_dc1_c1.velocityCostH T)
      (c0_dc0_ddc0_j0_j1_ddc1_dc1_c1.velocityCostG (nth pi) T)⟩, ?_, rfl,
      15 / blockNorm (c0_dc0_ddc0_j0_j1_ddc1_dc1_c1.velocityCostH T), ?_,
      -(15 / blockNorm (c0_dc0_ddc0_j0_j1_ddc1_dc1_c1.velocityCostH T)
        * (T⁻¹ * ∑ k : Fin 3, velQ 8 (zeroFree 1 fun i => nth pi i k))), fun X v hv => ?_⟩
    · simp [computeVelocityCost, withPts, hl]
    · have := velNorm8 T hT
      positivity
    · have hd : degreeOf 255#32 = 7 + 1 := rfl
      rw [hd] at hv ⊢
      rw [vel_integral 7 _ T hT v hv]
      have ht : velTol 255#32 = 2e-11 := by simp [velTol]
      rw [ht]
      refine vel_axes _ _ (nth pi) X T _ hT (velNorm8 T hT) velPoly8 15 (by norm_num) _ (fun i => ?_) (fun k => ?_) (fun p => ?_)
      · exact fillMany_eff 255#32 1 (by simp [freeSlots, List.range']) _ _ _
      · exact velCode8 (nth pi) (fun i => fillMany 255#32 (nth pi) X i k) k T fun i => axis_fill (by simp [freeSlots, List.range'])
      · refine (velBound8 p).trans (le_of_eq ?_)
        norm_num
  · have hl : pi.length = 11 := by simpa [degreeOf] using hl
    refine ⟨⟨3, normalizeCost (c0_dc0_ddc0_j0_x3_j1_ddc1_dc1_c1.velocityCostH T)
      (c0_dc0_ddc0_j0_x3_j1_ddc1_dc1_c1.velocityCostG (nth pi) T)⟩, ?_, rfl,
      19 / blockNorm (c0_dc0_ddc0_j0_x3_j1_ddc1_dc1_c1.velocityCostH T), ?_,
      -(19 / blockNorm (c0_dc0_ddc0_j0_x3_j1_ddc1_dc1_c1.velocityCostH T)
        * (T⁻¹ * ∑ k : Fin 3, velQ 10 (zeroFree 3 fun i => nth pi i k))), fun X v hv => ?_⟩
    · simp [computeVelocityCost, withPts, hl]
    · have := velNorm10 T hT
      positivity
    · have hd : degreeOf 767#32 = 9 + 1 := rfl
      rw [hd] at hv ⊢
      rw [vel_integral 9 _ T hT v hv]
      have ht : velTol 767#32 = 1e-8 := by simp [velTol]
      rw [ht]
      refine vel_axes _ _ (nth pi) X T _ hT (velNorm10 T hT) velPoly10 19 (by norm_num) _ (fun i => ?_) (fun k => ?_) (fun p => ?_)
      · exact fillMany_eff 767#32 3 (by simp [freeSlots, List.range']) _ _ _
      · exact velCode10 (nth pi) (fun i => fillMany 767#32 (nth pi) X i k) k T fun i => axis_fill (by simp [freeSlots, List.range'])
      · refine (velBound10 p).trans (le_of_eq ?_)
        norm_num
  · have hl : pi.length = 13 := by simpa [degreeOf] using hl
    refine ⟨⟨5, normalizeCost (c0_dc0_ddc0_j0_x5_j1_ddc1_dc1_c1.velocityCostH T)
      (c0_dc0_ddc0_j0_x5_j1_ddc1_dc1_c1.velocityCostG (nth pi) T)⟩, ?_, rfl,
      23 / blockNorm (c0_dc0_ddc0_j0_x5_j1_ddc1_dc1_c1.velocityCostH T), ?_,
      -(23 / blockNorm (c0_dc0_ddc0_j0_x5_j1_ddc1_dc1_c1.velocityCostH T)
        * (T⁻¹ * ∑ k : Fin 3, velQ 12 (zeroFree 5 fun i => nth pi i k))), fun X v hv => ?_⟩
    · simp [computeVelocityCost, withPts, hl]
    · have := velNorm12 T hT
      positivity
    · have hd : degreeOf 2303#32 = 11 + 1 := rfl
      rw [hd] at hv ⊢
      rw [vel_integral 11 _ T hT v hv]
      have ht : velTol 2303#32 = 6e-7 := by simp [velTol]
      rw [ht]
      refine vel_axes _ _ (nth pi) X T _ hT (velNorm12 T hT) velPoly12 23 (by norm_num) _ (fun i => ?_) (fun k => ?_) (fun p => ?_)
      · exact fillMany_eff 2303#32 5 (by simp [freeSlots, List.range']) _ _ _
      · exact velCode12 (nth pi) (fun i => fillMany 2303#32 (nth pi) X i k) k T fun i => axis_fill (by simp [freeSlots, List.range'])
      · refine (velBound12 p).trans (le_of_eq ?_)
        norm_num

/-- C63 does not hold exactly: with all constant points equal, the curve that stays there has no velocity, but another one
has less cost. -/
theorem C63_not_exact : ∃ (pi : List V3) (X X' : ℕ → V3) (c : Σ K : ℕ, Matrix (Fin K) (Fin K) ℝ × (Fin K → V3)),
    pi.length = 9 ∧ (∀ p ∈ pi, p = ![1, 0, 0]) ∧ (∀ j, X j = ![1, 0, 0]) ∧
    computeVelocityCost 255#32 unitMove 1 pi = .ok c ∧ blockForm c.2.1 c.2.2 X' < blockForm c.2.1 c.2.2 X := by
  have hN := velNorm8 1 one_pos
  refine ⟨List.replicate 9 ![1, 0, 0], xPt 1, xPt (1 + 1e-11), ⟨1, normalizeCost (c0_dc0_ddc0_j0_j1_ddc1_dc1_c1.velocityCostH 1)
      (c0_dc0_ddc0_j0_j1_ddc1_dc1_c1.velocityCostG (nth (List.replicate 9 ![1, 0, 0])) 1)⟩, rfl, ?_, fun _ => rfl, ?_, ?_⟩
  · intro p hp
    exact List.eq_of_mem_replicate hp
  · simp [computeVelocityCost, withPts]
  · rw [blockForm_normalize, blockForm_normalize]
    refine mul_lt_mul_of_pos_left ?_ (inv_pos.mpr hN)
    have hn : ∀ i < 9, nth (List.replicate 9 (![1, 0, 0] : V3)) i = ![1, 0, 0] := by
      intro i hi
      interval_cases i <;> rfl
    have e : ∀ x, blockForm (c0_dc0_ddc0_j0_j1_ddc1_dc1_c1.velocityCostH 1)
        (c0_dc0_ddc0_j0_j1_ddc1_dc1_c1.velocityCostG (nth (List.replicate 9 ![1, 0, 0])) 1) (xPt x)
        = 6.52680652684107 * x ^ 2 + (-7.8321678321748 - 7.83216783237586 + 9.13752913728184 + 9.13752913758454
          - 7.83216783216697 - 7.83216783216777) * x := by
      intro x
      rw [blockForm_axes]
      simp only [Fin.sum_univ_three, Fin.sum_univ_one, c0_dc0_ddc0_j0_j1_ddc1_dc1_c1.velocityCostH,
        c0_dc0_ddc0_j0_j1_ddc1_dc1_c1.velocityCostG, hn 0 (by norm_num), hn 1 (by norm_num), hn 3 (by norm_num),
        hn 5 (by norm_num), hn 7 (by norm_num), hn 8 (by norm_num)]
      simp [xPt]
      ring
    rw [e, e]
    norm_num

end Verif
