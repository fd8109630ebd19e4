import Verif.Lemmas.VelIntegral
import Verif.Lemmas.EndCost

/-!
# The coefficients of `computeVelocityCost`

Generated by `tools/gen_velcost.py`: exact expansions of the integral of a squared velocity, and bounds on the distance of
the decimals in the source from these.
-/

namespace Verif
open Finset

set_option maxHeartbeats 4000000

/-- The integral of the squared velocity of a curve of degree `n` with control points `p` on a line, traversed in time
1. -/
noncomputable def velQ (n : ℕ) (p : ℕ → ℝ) : ℝ :=
  n ^ 2 * ∑ i ∈ range n, ∑ j ∈ range n, bernProd (n - 1) i j * ((p (i + 1) - p i) * (p (j + 1) - p j))

/-- `p` with the free points at the origin. -/
def zeroFree (K : ℕ) (p : ℕ → ℝ) : ℕ → ℝ := fun i => if 4 ≤ i ∧ i < 4 + K then 0 else p i

theorem velQ8 (p : ℕ → ℝ) : velQ 8 p =
      (64 / 15 : ℝ) * (p 0 * p 0) +
      (-64 / 15 : ℝ) * (p 0 * p 1) +
      (-448 / 195 : ℝ) * (p 0 * p 2) +
      (-224 / 195 : ℝ) * (p 0 * p 3) +
      (-224 / 429 : ℝ) * (p 0 * p 4) +
      (-448 / 2145 : ℝ) * (p 0 * p 5) +
      (-448 / 6435 : ℝ) * (p 0 * p 6) +
      (-112 / 6435 : ℝ) * (p 0 * p 7) +
      (-16 / 6435 : ℝ) * (p 0 * p 8) +
      (448 / 195 : ℝ) * (p 1 * p 1) +
      (224 / 195 : ℝ) * (p 1 * p 2) +
      (-448 / 2145 : ℝ) * (p 1 * p 3) +
      (-224 / 429 : ℝ) * (p 1 * p 4) +
      (-896 / 2145 : ℝ) * (p 1 * p 5) +
      (-112 / 495 : ℝ) * (p 1 * p 6) +
      (-544 / 6435 : ℝ) * (p 1 * p 7) +
      (-112 / 6435 : ℝ) * (p 1 * p 8) +
      (1568 / 2145 : ℝ) * (p 2 * p 2) +
      (1568 / 2145 : ℝ) * (p 2 * p 3) +
      (-784 / 2145 : ℝ) * (p 2 * p 5) +
      (-224 / 585 : ℝ) * (p 2 * p 6) +
      (-112 / 495 : ℝ) * (p 2 * p 7) +
      (-448 / 6435 : ℝ) * (p 2 * p 8) +
      (3136 / 6435 : ℝ) * (p 3 * p 3) +
      (784 / 1287 : ℝ) * (p 3 * p 4) +
      (224 / 6435 : ℝ) * (p 3 * p 5) +
      (-784 / 2145 : ℝ) * (p 3 * p 6) +
      (-896 / 2145 : ℝ) * (p 3 * p 7) +
      (-448 / 2145 : ℝ) * (p 3 * p 8) +
      (560 / 1287 : ℝ) * (p 4 * p 4) +
      (784 / 1287 : ℝ) * (p 4 * p 5) +
      (-224 / 429 : ℝ) * (p 4 * p 7) +
      (-224 / 429 : ℝ) * (p 4 * p 8) +
      (3136 / 6435 : ℝ) * (p 5 * p 5) +
      (1568 / 2145 : ℝ) * (p 5 * p 6) +
      (-448 / 2145 : ℝ) * (p 5 * p 7) +
      (-224 / 195 : ℝ) * (p 5 * p 8) +
      (1568 / 2145 : ℝ) * (p 6 * p 6) +
      (224 / 195 : ℝ) * (p 6 * p 7) +
      (-448 / 195 : ℝ) * (p 6 * p 8) +
      (448 / 195 : ℝ) * (p 7 * p 7) +
      (-64 / 15 : ℝ) * (p 7 * p 8) +
      (64 / 15 : ℝ) * (p 8 * p 8) := by
  have b0_0 : bernProd 7 0 0 = (1 / 15 : ℝ) := by norm_num [bernProd, Nat.choose, Nat.factorial]
  have b0_1 : bernProd 7 0 1 = (1 / 30 : ℝ) := by norm_num [bernProd, Nat.choose, Nat.factorial]
  have b0_2 : bernProd 7 0 2 = (1 / 65 : ℝ) := by norm_num [bernProd, Nat.choose, Nat.factorial]
  have b0_3 : bernProd 7 0 3 = (1 / 156 : ℝ) := by norm_num [bernProd, Nat.choose, Nat.factorial]
  have b0_4 : bernProd 7 0 4 = (1 / 429 : ℝ) := by norm_num [bernProd, Nat.choose, Nat.factorial]
  have b0_5 : bernProd 7 0 5 = (1 / 1430 : ℝ) := by norm_num [bernProd, Nat.choose, Nat.factorial]
  have b0_6 : bernProd 7 0 6 = (1 / 6435 : ℝ) := by norm_num [bernProd, Nat.choose, Nat.factorial]
  have b0_7 : bernProd 7 0 7 = (1 / 51480 : ℝ) := by norm_num [bernProd, Nat.choose, Nat.factorial]
  have b1_0 : bernProd 7 1 0 = (1 / 30 : ℝ) := by norm_num [bernProd, Nat.choose, Nat.factorial]
  have b1_1 : bernProd 7 1 1 = (7 / 195 : ℝ) := by norm_num [bernProd, Nat.choose, Nat.factorial]
  have b1_2 : bernProd 7 1 2 = (7 / 260 : ℝ) := by norm_num [bernProd, Nat.choose, Nat.factorial]
  have b1_3 : bernProd 7 1 3 = (7 / 429 : ℝ) := by norm_num [bernProd, Nat.choose, Nat.factorial]
  have b1_4 : bernProd 7 1 4 = (7 / 858 : ℝ) := by norm_num [bernProd, Nat.choose, Nat.factorial]
  have b1_5 : bernProd 7 1 5 = (7 / 2145 : ℝ) := by norm_num [bernProd, Nat.choose, Nat.factorial]
  have b1_6 : bernProd 7 1 6 = (49 / 51480 : ℝ) := by norm_num [bernProd, Nat.choose, Nat.factorial]
  have b1_7 : bernProd 7 1 7 = (1 / 6435 : ℝ) := by norm_num [bernProd, Nat.choose, Nat.factorial]
  have b2_0 : bernProd 7 2 0 = (1 / 65 : ℝ) := by norm_num [bernProd, Nat.choose, Nat.factorial]
  have b2_1 : bernProd 7 2 1 = (7 / 260 : ℝ) := by norm_num [bernProd, Nat.choose, Nat.factorial]
  have b2_2 : bernProd 7 2 2 = (21 / 715 : ℝ) := by norm_num [bernProd, Nat.choose, Nat.factorial]
  have b2_3 : bernProd 7 2 3 = (7 / 286 : ℝ) := by norm_num [bernProd, Nat.choose, Nat.factorial]
  have b2_4 : bernProd 7 2 4 = (7 / 429 : ℝ) := by norm_num [bernProd, Nat.choose, Nat.factorial]
  have b2_5 : bernProd 7 2 5 = (49 / 5720 : ℝ) := by norm_num [bernProd, Nat.choose, Nat.factorial]
  have b2_6 : bernProd 7 2 6 = (7 / 2145 : ℝ) := by norm_num [bernProd, Nat.choose, Nat.factorial]
  have b2_7 : bernProd 7 2 7 = (1 / 1430 : ℝ) := by norm_num [bernProd, Nat.choose, Nat.factorial]
  have b3_0 : bernProd 7 3 0 = (1 / 156 : ℝ) := by norm_num [bernProd, Nat.choose, Nat.factorial]
  have b3_1 : bernProd 7 3 1 = (7 / 429 : ℝ) := by norm_num [bernProd, Nat.choose, Nat.factorial]
  have b3_2 : bernProd 7 3 2 = (7 / 286 : ℝ) := by norm_num [bernProd, Nat.choose, Nat.factorial]
  have b3_3 : bernProd 7 3 3 = (35 / 1287 : ℝ) := by norm_num [bernProd, Nat.choose, Nat.factorial]
  have b3_4 : bernProd 7 3 4 = (245 / 10296 : ℝ) := by norm_num [bernProd, Nat.choose, Nat.factorial]
  have b3_5 : bernProd 7 3 5 = (7 / 429 : ℝ) := by norm_num [bernProd, Nat.choose, Nat.factorial]
  have b3_6 : bernProd 7 3 6 = (7 / 858 : ℝ) := by norm_num [bernProd, Nat.choose, Nat.factorial]
  have b3_7 : bernProd 7 3 7 = (1 / 429 : ℝ) := by norm_num [bernProd, Nat.choose, Nat.factorial]
  have b4_0 : bernProd 7 4 0 = (1 / 429 : ℝ) := by norm_num [bernProd, Nat.choose, Nat.factorial]
  have b4_1 : bernProd 7 4 1 = (7 / 858 : ℝ) := by norm_num [bernProd, Nat.choose, Nat.factorial]
  have b4_2 : bernProd 7 4 2 = (7 / 429 : ℝ) := by norm_num [bernProd, Nat.choose, Nat.factorial]
  have b4_3 : bernProd 7 4 3 = (245 / 10296 : ℝ) := by norm_num [bernProd, Nat.choose, Nat.factorial]
  have b4_4 : bernProd 7 4 4 = (35 / 1287 : ℝ) := by norm_num [bernProd, Nat.choose, Nat.factorial]
  have b4_5 : bernProd 7 4 5 = (7 / 286 : ℝ) := by norm_num [bernProd, Nat.choose, Nat.factorial]
  have b4_6 : bernProd 7 4 6 = (7 / 429 : ℝ) := by norm_num [bernProd, Nat.choose, Nat.factorial]
  have b4_7 : bernProd 7 4 7 = (1 / 156 : ℝ) := by norm_num [bernProd, Nat.choose, Nat.factorial]
  have b5_0 : bernProd 7 5 0 = (1 / 1430 : ℝ) := by norm_num [bernProd, Nat.choose, Nat.factorial]
  have b5_1 : bernProd 7 5 1 = (7 / 2145 : ℝ) := by norm_num [bernProd, Nat.choose, Nat.factorial]
  have b5_2 : bernProd 7 5 2 = (49 / 5720 : ℝ) := by norm_num [bernProd, Nat.choose, Nat.factorial]
  have b5_3 : bernProd 7 5 3 = (7 / 429 : ℝ) := by norm_num [bernProd, Nat.choose, Nat.factorial]
  have b5_4 : bernProd 7 5 4 = (7 / 286 : ℝ) := by norm_num [bernProd, Nat.choose, Nat.factorial]
  have b5_5 : bernProd 7 5 5 = (21 / 715 : ℝ) := by norm_num [bernProd, Nat.choose, Nat.factorial]
  have b5_6 : bernProd 7 5 6 = (7 / 260 : ℝ) := by norm_num [bernProd, Nat.choose, Nat.factorial]
  have b5_7 : bernProd 7 5 7 = (1 / 65 : ℝ) := by norm_num [bernProd, Nat.choose, Nat.factorial]
  have b6_0 : bernProd 7 6 0 = (1 / 6435 : ℝ) := by norm_num [bernProd, Nat.choose, Nat.factorial]
  have b6_1 : bernProd 7 6 1 = (49 / 51480 : ℝ) := by norm_num [bernProd, Nat.choose, Nat.factorial]
  have b6_2 : bernProd 7 6 2 = (7 / 2145 : ℝ) := by norm_num [bernProd, Nat.choose, Nat.factorial]
  have b6_3 : bernProd 7 6 3 = (7 / 858 : ℝ) := by norm_num [bernProd, Nat.choose, Nat.factorial]
  have b6_4 : bernProd 7 6 4 = (7 / 429 : ℝ) := by norm_num [bernProd, Nat.choose, Nat.factorial]
  have b6_5 : bernProd 7 6 5 = (7 / 260 : ℝ) := by norm_num [bernProd, Nat.choose, Nat.factorial]
  have b6_6 : bernProd 7 6 6 = (7 / 195 : ℝ) := by norm_num [bernProd, Nat.choose, Nat.factorial]
  have b6_7 : bernProd 7 6 7 = (1 / 30 : ℝ) := by norm_num [bernProd, Nat.choose, Nat.factorial]
  have b7_0 : bernProd 7 7 0 = (1 / 51480 : ℝ) := by norm_num [bernProd, Nat.choose, Nat.factorial]
  have b7_1 : bernProd 7 7 1 = (1 / 6435 : ℝ) := by norm_num [bernProd, Nat.choose, Nat.factorial]
  have b7_2 : bernProd 7 7 2 = (1 / 1430 : ℝ) := by norm_num [bernProd, Nat.choose, Nat.factorial]
  have b7_3 : bernProd 7 7 3 = (1 / 429 : ℝ) := by norm_num [bernProd, Nat.choose, Nat.factorial]
  have b7_4 : bernProd 7 7 4 = (1 / 156 : ℝ) := by norm_num [bernProd, Nat.choose, Nat.factorial]
  have b7_5 : bernProd 7 7 5 = (1 / 65 : ℝ) := by norm_num [bernProd, Nat.choose, Nat.factorial]
  have b7_6 : bernProd 7 7 6 = (1 / 30 : ℝ) := by norm_num [bernProd, Nat.choose, Nat.factorial]
  have b7_7 : bernProd 7 7 7 = (1 / 15 : ℝ) := by norm_num [bernProd, Nat.choose, Nat.factorial]
  simp only [velQ, sum_range_succ, sum_range_zero, Nat.reduceSub, Nat.reduceAdd, Nat.cast_ofNat, zero_add, b0_0, b0_1, b0_2, b0_3, b0_4, b0_5, b0_6, b0_7, b1_0, b1_1, b1_2, b1_3, b1_4, b1_5, b1_6, b1_7, b2_0, b2_1, b2_2, b2_3, b2_4, b2_5, b2_6, b2_7, b3_0, b3_1, b3_2, b3_3, b3_4, b3_5, b3_6, b3_7, b4_0, b4_1, b4_2, b4_3, b4_4, b4_5, b4_6, b4_7, b5_0, b5_1, b5_2, b5_3, b5_4, b5_5, b5_6, b5_7, b6_0, b6_1, b6_2, b6_3, b6_4, b6_5, b6_6, b6_7, b7_0, b7_1, b7_2, b7_3, b7_4, b7_5, b7_6, b7_7]
  ring

/-- The coded cost along one axis, times the duration. -/
noncomputable def velPoly8 (p : ℕ → ℝ) : ℝ :=
      (-19580419580437 / 2500000000000 : ℝ) * (p 0 * p 4) +
      (-391608391618793 / 50000000000000 : ℝ) * (p 1 * p 4) +
      (114219114216023 / 12500000000000 : ℝ) * (p 3 * p 4) +
      (652680652684107 / 100000000000000 : ℝ) * (p 4 * p 4) +
      (456876456879227 / 50000000000000 : ℝ) * (p 4 * p 5) +
      (-783216783216697 / 100000000000000 : ℝ) * (p 4 * p 7) +
      (-783216783216777 / 100000000000000 : ℝ) * (p 4 * p 8)

theorem velCode8 (P : ℕ → V3) (p : ℕ → ℝ) (k : Fin 3) (T : ℝ) (hp : ∀ i, p i = if 4 ≤ i ∧ i < 4 + 1 then p i else P i k) :
    ∑ a, ∑ b, c0_dc0_ddc0_j0_j1_ddc1_dc1_c1.velocityCostH T a b * (p (4 + a.val) * p (4 + b.val))
      + 2 * ∑ a, c0_dc0_ddc0_j0_j1_ddc1_dc1_c1.velocityCostG P T a k * p (4 + a.val) = T⁻¹ * velPoly8 p := by
  have h0 : P 0 k = p 0 := by rw [hp 0]; simp
  have h1 : P 1 k = p 1 := by rw [hp 1]; simp
  have h2 : P 2 k = p 2 := by rw [hp 2]; simp
  have h3 : P 3 k = p 3 := by rw [hp 3]; simp
  have h5 : P 5 k = p 5 := by rw [hp 5]; simp
  have h6 : P 6 k = p 6 := by rw [hp 6]; simp
  have h7 : P 7 k = p 7 := by rw [hp 7]; simp
  have h8 : P 8 k = p 8 := by rw [hp 8]; simp
  simp only [velPoly8, c0_dc0_ddc0_j0_j1_ddc1_dc1_c1.velocityCostH, c0_dc0_ddc0_j0_j1_ddc1_dc1_c1.velocityCostG, Fin.sum_univ_one]
  simp [h0, h1, h2, h3, h5, h6, h7, h8]
  ring

theorem velBound8 (p : ℕ → ℝ) :
    |velPoly8 p - 15 * (velQ 8 p - velQ 8 (zeroFree 1 p))|
      ≤ (3 / 10000000000 : ℝ) * ∑ i ∈ range 9, p i ^ 2 := by
  have e : velPoly8 p - 15 * (velQ 8 p - velQ 8 (zeroFree 1 p)) =
      (-2491 / 357500000000000 : ℝ) * (p 0 * p 4) +
      (-1487399 / 7150000000000000 : ℝ) * (p 1 * p 4) +
      (-1326133 / 5362500000000000 : ℝ) * (p 3 * p 4) +
      (1481903 / 42900000000000000 : ℝ) * (p 4 * p 4) +
      (1188383 / 21450000000000000 : ℝ) * (p 4 * p 5) +
      (12329 / 14300000000000000 : ℝ) * (p 4 * p 7) +
      (889 / 14300000000000000 : ℝ) * (p 4 * p 8) := by
    unfold velPoly8
    rw [velQ8, velQ8]
    have z0 : zeroFree 1 p 0 = p 0 := by simp [zeroFree]
    have z1 : zeroFree 1 p 1 = p 1 := by simp [zeroFree]
    have z2 : zeroFree 1 p 2 = p 2 := by simp [zeroFree]
    have z3 : zeroFree 1 p 3 = p 3 := by simp [zeroFree]
    have z4 : zeroFree 1 p 4 = 0 := by simp [zeroFree]
    have z5 : zeroFree 1 p 5 = p 5 := by simp [zeroFree]
    have z6 : zeroFree 1 p 6 = p 6 := by simp [zeroFree]
    have z7 : zeroFree 1 p 7 = p 7 := by simp [zeroFree]
    have z8 : zeroFree 1 p 8 = p 8 := by simp [zeroFree]
    simp only [z0, z1, z2, z3, z4, z5, z6, z7, z8]
    ring
  rw [e, abs_le]
  simp only [sum_range_succ, sum_range_zero, zero_add]
  constructor
  · have : 0 ≤ (2491 / 715000000000000 : ℝ) * (p 0 - p 4) ^ 2 +
      (1487399 / 14300000000000000 : ℝ) * (p 1 - p 4) ^ 2 +
      (1326133 / 10725000000000000 : ℝ) * (p 3 - p 4) ^ 2 +
      (1188383 / 42900000000000000 : ℝ) * (p 4 + p 5) ^ 2 +
      (12329 / 28600000000000000 : ℝ) * (p 4 + p 7) ^ 2 +
      (889 / 28600000000000000 : ℝ) * (p 4 + p 8) ^ 2 +
      (212009 / 715000000000000 : ℝ) * p 0 ^ 2 +
      (2802601 / 14300000000000000 : ℝ) * p 1 ^ 2 +
      (3 / 10000000000 : ℝ) * p 2 ^ 2 +
      (1891367 / 10725000000000000 : ℝ) * p 3 ^ 2 +
      (201719 / 2681250000000000 : ℝ) * p 4 ^ 2 +
      (11681617 / 42900000000000000 : ℝ) * p 5 ^ 2 +
      (3 / 10000000000 : ℝ) * p 6 ^ 2 +
      (8567671 / 28600000000000000 : ℝ) * p 7 ^ 2 +
      (8579111 / 28600000000000000 : ℝ) * p 8 ^ 2 := by positivity
    linarith only [this]
  · have : 0 ≤ (2491 / 715000000000000 : ℝ) * (p 0 + p 4) ^ 2 +
      (1487399 / 14300000000000000 : ℝ) * (p 1 + p 4) ^ 2 +
      (1326133 / 10725000000000000 : ℝ) * (p 3 + p 4) ^ 2 +
      (1188383 / 42900000000000000 : ℝ) * (p 4 - p 5) ^ 2 +
      (12329 / 28600000000000000 : ℝ) * (p 4 - p 7) ^ 2 +
      (889 / 28600000000000000 : ℝ) * (p 4 - p 8) ^ 2 +
      (212009 / 715000000000000 : ℝ) * p 0 ^ 2 +
      (2802601 / 14300000000000000 : ℝ) * p 1 ^ 2 +
      (3 / 10000000000 : ℝ) * p 2 ^ 2 +
      (1891367 / 10725000000000000 : ℝ) * p 3 ^ 2 +
      (131849 / 21450000000000000 : ℝ) * p 4 ^ 2 +
      (11681617 / 42900000000000000 : ℝ) * p 5 ^ 2 +
      (3 / 10000000000 : ℝ) * p 6 ^ 2 +
      (8567671 / 28600000000000000 : ℝ) * p 7 ^ 2 +
      (8579111 / 28600000000000000 : ℝ) * p 8 ^ 2 := by positivity
    linarith only [this]

theorem velQ10 (p : ℕ → ℝ) : velQ 10 p =
      (100 / 19 : ℝ) * (p 0 * p 0) +
      (-100 / 19 : ℝ) * (p 0 * p 1) +
      (-900 / 323 : ℝ) * (p 0 * p 2) +
      (-450 / 323 : ℝ) * (p 0 * p 3) +
      (-210 / 323 : ℝ) * (p 0 * p 4) +
      (-90 / 323 : ℝ) * (p 0 * p 5) +
      (-450 / 4199 : ℝ) * (p 0 * p 6) +
      (-150 / 4199 : ℝ) * (p 0 * p 7) +
      (-450 / 46189 : ℝ) * (p 0 * p 8) +
      (-90 / 46189 : ℝ) * (p 0 * p 9) +
      (-10 / 46189 : ℝ) * (p 0 * p 10) +
      (900 / 323 : ℝ) * (p 1 * p 1) +
      (450 / 323 : ℝ) * (p 1 * p 2) +
      (-60 / 323 : ℝ) * (p 1 * p 3) +
      (-180 / 323 : ℝ) * (p 1 * p 4) +
      (-1980 / 4199 : ℝ) * (p 1 * p 5) +
      (-1200 / 4199 : ℝ) * (p 1 * p 6) +
      (-6300 / 46189 : ℝ) * (p 1 * p 7) +
      (-180 / 3553 : ℝ) * (p 1 * p 8) +
      (-620 / 46189 : ℝ) * (p 1 * p 9) +
      (-90 / 46189 : ℝ) * (p 1 * p 10) +
      (270 / 323 : ℝ) * (p 2 * p 2) +
      (270 / 323 : ℝ) * (p 2 * p 3) +
      (270 / 4199 : ℝ) * (p 2 * p 4) +
      (-1350 / 4199 : ℝ) * (p 2 * p 5) +
      (-1350 / 3553 : ℝ) * (p 2 * p 6) +
      (-12690 / 46189 : ℝ) * (p 2 * p 7) +
      (-6570 / 46189 : ℝ) * (p 2 * p 8) +
      (-180 / 3553 : ℝ) * (p 2 * p 9) +
      (-450 / 46189 : ℝ) * (p 2 * p 10) +
      (2160 / 4199 : ℝ) * (p 3 * p 3) +
      (2700 / 4199 : ℝ) * (p 3 * p 4) +
      (5400 / 46189 : ℝ) * (p 3 * p 5) +
      (-11340 / 46189 : ℝ) * (p 3 * p 6) +
      (-960 / 2717 : ℝ) * (p 3 * p 7) +
      (-12690 / 46189 : ℝ) * (p 3 * p 8) +
      (-6300 / 46189 : ℝ) * (p 3 * p 9) +
      (-150 / 4199 : ℝ) * (p 3 * p 10) +
      (18900 / 46189 : ℝ) * (p 4 * p 4) +
      (26460 / 46189 : ℝ) * (p 4 * p 5) +
      (5880 / 46189 : ℝ) * (p 4 * p 6) +
      (-11340 / 46189 : ℝ) * (p 4 * p 7) +
      (-1350 / 3553 : ℝ) * (p 4 * p 8) +
      (-1200 / 4199 : ℝ) * (p 4 * p 9) +
      (-450 / 4199 : ℝ) * (p 4 * p 10) +
      (17640 / 46189 : ℝ) * (p 5 * p 5) +
      (26460 / 46189 : ℝ) * (p 5 * p 6) +
      (5400 / 46189 : ℝ) * (p 5 * p 7) +
      (-1350 / 4199 : ℝ) * (p 5 * p 8) +
      (-1980 / 4199 : ℝ) * (p 5 * p 9) +
      (-90 / 323 : ℝ) * (p 5 * p 10) +
      (18900 / 46189 : ℝ) * (p 6 * p 6) +
      (2700 / 4199 : ℝ) * (p 6 * p 7) +
      (270 / 4199 : ℝ) * (p 6 * p 8) +
      (-180 / 323 : ℝ) * (p 6 * p 9) +
      (-210 / 323 : ℝ) * (p 6 * p 10) +
      (2160 / 4199 : ℝ) * (p 7 * p 7) +
      (270 / 323 : ℝ) * (p 7 * p 8) +
      (-60 / 323 : ℝ) * (p 7 * p 9) +
      (-450 / 323 : ℝ) * (p 7 * p 10) +
      (270 / 323 : ℝ) * (p 8 * p 8) +
      (450 / 323 : ℝ) * (p 8 * p 9) +
      (-900 / 323 : ℝ) * (p 8 * p 10) +
      (900 / 323 : ℝ) * (p 9 * p 9) +
      (-100 / 19 : ℝ) * (p 9 * p 10) +
      (100 / 19 : ℝ) * (p 10 * p 10) := by
  have b0_0 : bernProd 9 0 0 = (1 / 19 : ℝ) := by norm_num [bernProd, Nat.choose, Nat.factorial]
  have b0_1 : bernProd 9 0 1 = (1 / 38 : ℝ) := by norm_num [bernProd, Nat.choose, Nat.factorial]
  have b0_2 : bernProd 9 0 2 = (4 / 323 : ℝ) := by norm_num [bernProd, Nat.choose, Nat.factorial]
  have b0_3 : bernProd 9 0 3 = (7 / 1292 : ℝ) := by norm_num [bernProd, Nat.choose, Nat.factorial]
  have b0_4 : bernProd 9 0 4 = (7 / 3230 : ℝ) := by norm_num [bernProd, Nat.choose, Nat.factorial]
  have b0_5 : bernProd 9 0 5 = (1 / 1292 : ℝ) := by norm_num [bernProd, Nat.choose, Nat.factorial]
  have b0_6 : bernProd 9 0 6 = (1 / 4199 : ℝ) := by norm_num [bernProd, Nat.choose, Nat.factorial]
  have b0_7 : bernProd 9 0 7 = (1 / 16796 : ℝ) := by norm_num [bernProd, Nat.choose, Nat.factorial]
  have b0_8 : bernProd 9 0 8 = (1 / 92378 : ℝ) := by norm_num [bernProd, Nat.choose, Nat.factorial]
  have b0_9 : bernProd 9 0 9 = (1 / 923780 : ℝ) := by norm_num [bernProd, Nat.choose, Nat.factorial]
  have b1_0 : bernProd 9 1 0 = (1 / 38 : ℝ) := by norm_num [bernProd, Nat.choose, Nat.factorial]
  have b1_1 : bernProd 9 1 1 = (9 / 323 : ℝ) := by norm_num [bernProd, Nat.choose, Nat.factorial]
  have b1_2 : bernProd 9 1 2 = (27 / 1292 : ℝ) := by norm_num [bernProd, Nat.choose, Nat.factorial]
  have b1_3 : bernProd 9 1 3 = (21 / 1615 : ℝ) := by norm_num [bernProd, Nat.choose, Nat.factorial]
  have b1_4 : bernProd 9 1 4 = (9 / 1292 : ℝ) := by norm_num [bernProd, Nat.choose, Nat.factorial]
  have b1_5 : bernProd 9 1 5 = (27 / 8398 : ℝ) := by norm_num [bernProd, Nat.choose, Nat.factorial]
  have b1_6 : bernProd 9 1 6 = (21 / 16796 : ℝ) := by norm_num [bernProd, Nat.choose, Nat.factorial]
  have b1_7 : bernProd 9 1 7 = (18 / 46189 : ℝ) := by norm_num [bernProd, Nat.choose, Nat.factorial]
  have b1_8 : bernProd 9 1 8 = (81 / 923780 : ℝ) := by norm_num [bernProd, Nat.choose, Nat.factorial]
  have b1_9 : bernProd 9 1 9 = (1 / 92378 : ℝ) := by norm_num [bernProd, Nat.choose, Nat.factorial]
  have b2_0 : bernProd 9 2 0 = (4 / 323 : ℝ) := by norm_num [bernProd, Nat.choose, Nat.factorial]
  have b2_1 : bernProd 9 2 1 = (27 / 1292 : ℝ) := by norm_num [bernProd, Nat.choose, Nat.factorial]
  have b2_2 : bernProd 9 2 2 = (36 / 1615 : ℝ) := by norm_num [bernProd, Nat.choose, Nat.factorial]
  have b2_3 : bernProd 9 2 3 = (6 / 323 : ℝ) := by norm_num [bernProd, Nat.choose, Nat.factorial]
  have b2_4 : bernProd 9 2 4 = (54 / 4199 : ℝ) := by norm_num [bernProd, Nat.choose, Nat.factorial]
  have b2_5 : bernProd 9 2 5 = (63 / 8398 : ℝ) := by norm_num [bernProd, Nat.choose, Nat.factorial]
  have b2_6 : bernProd 9 2 6 = (168 / 46189 : ℝ) := by norm_num [bernProd, Nat.choose, Nat.factorial]
  have b2_7 : bernProd 9 2 7 = (324 / 230945 : ℝ) := by norm_num [bernProd, Nat.choose, Nat.factorial]
  have b2_8 : bernProd 9 2 8 = (18 / 46189 : ℝ) := by norm_num [bernProd, Nat.choose, Nat.factorial]
  have b2_9 : bernProd 9 2 9 = (1 / 16796 : ℝ) := by norm_num [bernProd, Nat.choose, Nat.factorial]
  have b3_0 : bernProd 9 3 0 = (7 / 1292 : ℝ) := by norm_num [bernProd, Nat.choose, Nat.factorial]
  have b3_1 : bernProd 9 3 1 = (21 / 1615 : ℝ) := by norm_num [bernProd, Nat.choose, Nat.factorial]
  have b3_2 : bernProd 9 3 2 = (6 / 323 : ℝ) := by norm_num [bernProd, Nat.choose, Nat.factorial]
  have b3_3 : bernProd 9 3 3 = (84 / 4199 : ℝ) := by norm_num [bernProd, Nat.choose, Nat.factorial]
  have b3_4 : bernProd 9 3 4 = (147 / 8398 : ℝ) := by norm_num [bernProd, Nat.choose, Nat.factorial]
  have b3_5 : bernProd 9 3 5 = (588 / 46189 : ℝ) := by norm_num [bernProd, Nat.choose, Nat.factorial]
  have b3_6 : bernProd 9 3 6 = (1764 / 230945 : ℝ) := by norm_num [bernProd, Nat.choose, Nat.factorial]
  have b3_7 : bernProd 9 3 7 = (168 / 46189 : ℝ) := by norm_num [bernProd, Nat.choose, Nat.factorial]
  have b3_8 : bernProd 9 3 8 = (21 / 16796 : ℝ) := by norm_num [bernProd, Nat.choose, Nat.factorial]
  have b3_9 : bernProd 9 3 9 = (1 / 4199 : ℝ) := by norm_num [bernProd, Nat.choose, Nat.factorial]
  have b4_0 : bernProd 9 4 0 = (7 / 3230 : ℝ) := by norm_num [bernProd, Nat.choose, Nat.factorial]
  have b4_1 : bernProd 9 4 1 = (9 / 1292 : ℝ) := by norm_num [bernProd, Nat.choose, Nat.factorial]
  have b4_2 : bernProd 9 4 2 = (54 / 4199 : ℝ) := by norm_num [bernProd, Nat.choose, Nat.factorial]
  have b4_3 : bernProd 9 4 3 = (147 / 8398 : ℝ) := by norm_num [bernProd, Nat.choose, Nat.factorial]
  have b4_4 : bernProd 9 4 4 = (882 / 46189 : ℝ) := by norm_num [bernProd, Nat.choose, Nat.factorial]
  have b4_5 : bernProd 9 4 5 = (3969 / 230945 : ℝ) := by norm_num [bernProd, Nat.choose, Nat.factorial]
  have b4_6 : bernProd 9 4 6 = (588 / 46189 : ℝ) := by norm_num [bernProd, Nat.choose, Nat.factorial]
  have b4_7 : bernProd 9 4 7 = (63 / 8398 : ℝ) := by norm_num [bernProd, Nat.choose, Nat.factorial]
  have b4_8 : bernProd 9 4 8 = (27 / 8398 : ℝ) := by norm_num [bernProd, Nat.choose, Nat.factorial]
  have b4_9 : bernProd 9 4 9 = (1 / 1292 : ℝ) := by norm_num [bernProd, Nat.choose, Nat.factorial]
  have b5_0 : bernProd 9 5 0 = (1 / 1292 : ℝ) := by norm_num [bernProd, Nat.choose, Nat.factorial]
  have b5_1 : bernProd 9 5 1 = (27 / 8398 : ℝ) := by norm_num [bernProd, Nat.choose, Nat.factorial]
  have b5_2 : bernProd 9 5 2 = (63 / 8398 : ℝ) := by norm_num [bernProd, Nat.choose, Nat.factorial]
  have b5_3 : bernProd 9 5 3 = (588 / 46189 : ℝ) := by norm_num [bernProd, Nat.choose, Nat.factorial]
  have b5_4 : bernProd 9 5 4 = (3969 / 230945 : ℝ) := by norm_num [bernProd, Nat.choose, Nat.factorial]
  have b5_5 : bernProd 9 5 5 = (882 / 46189 : ℝ) := by norm_num [bernProd, Nat.choose, Nat.factorial]
  have b5_6 : bernProd 9 5 6 = (147 / 8398 : ℝ) := by norm_num [bernProd, Nat.choose, Nat.factorial]
  have b5_7 : bernProd 9 5 7 = (54 / 4199 : ℝ) := by norm_num [bernProd, Nat.choose, Nat.factorial]
  have b5_8 : bernProd 9 5 8 = (9 / 1292 : ℝ) := by norm_num [bernProd, Nat.choose, Nat.factorial]
  have b5_9 : bernProd 9 5 9 = (7 / 3230 : ℝ) := by norm_num [bernProd, Nat.choose, Nat.factorial]
  have b6_0 : bernProd 9 6 0 = (1 / 4199 : ℝ) := by norm_num [bernProd, Nat.choose, Nat.factorial]
  have b6_1 : bernProd 9 6 1 = (21 / 16796 : ℝ) := by norm_num [bernProd, Nat.choose, Nat.factorial]
  have b6_2 : bernProd 9 6 2 = (168 / 46189 : ℝ) := by norm_num [bernProd, Nat.choose, Nat.factorial]
  have b6_3 : bernProd 9 6 3 = (1764 / 230945 : ℝ) := by norm_num [bernProd, Nat.choose, Nat.factorial]
  have b6_4 : bernProd 9 6 4 = (588 / 46189 : ℝ) := by norm_num [bernProd, Nat.choose, Nat.factorial]
  have b6_5 : bernProd 9 6 5 = (147 / 8398 : ℝ) := by norm_num [bernProd, Nat.choose, Nat.factorial]
  have b6_6 : bernProd 9 6 6 = (84 / 4199 : ℝ) := by norm_num [bernProd, Nat.choose, Nat.factorial]
  have b6_7 : bernProd 9 6 7 = (6 / 323 : ℝ) := by norm_num [bernProd, Nat.choose, Nat.factorial]
  have b6_8 : bernProd 9 6 8 = (21 / 1615 : ℝ) := by norm_num [bernProd, Nat.choose, Nat.factorial]
  have b6_9 : bernProd 9 6 9 = (7 / 1292 : ℝ) := by norm_num [bernProd, Nat.choose, Nat.factorial]
  have b7_0 : bernProd 9 7 0 = (1 / 16796 : ℝ) := by norm_num [bernProd, Nat.choose, Nat.factorial]
  have b7_1 : bernProd 9 7 1 = (18 / 46189 : ℝ) := by norm_num [bernProd, Nat.choose, Nat.factorial]
  have b7_2 : bernProd 9 7 2 = (324 / 230945 : ℝ) := by norm_num [bernProd, Nat.choose, Nat.factorial]
  have b7_3 : bernProd 9 7 3 = (168 / 46189 : ℝ) := by norm_num [bernProd, Nat.choose, Nat.factorial]
  have b7_4 : bernProd 9 7 4 = (63 / 8398 : ℝ) := by norm_num [bernProd, Nat.choose, Nat.factorial]
  have b7_5 : bernProd 9 7 5 = (54 / 4199 : ℝ) := by norm_num [bernProd, Nat.choose, Nat.factorial]
  have b7_6 : bernProd 9 7 6 = (6 / 323 : ℝ) := by norm_num [bernProd, Nat.choose, Nat.factorial]
  have b7_7 : bernProd 9 7 7 = (36 / 1615 : ℝ) := by norm_num [bernProd, Nat.choose, Nat.factorial]
  have b7_8 : bernProd 9 7 8 = (27 / 1292 : ℝ) := by norm_num [bernProd, Nat.choose, Nat.factorial]
  have b7_9 : bernProd 9 7 9 = (4 / 323 : ℝ) := by norm_num [bernProd, Nat.choose, Nat.factorial]
  have b8_0 : bernProd 9 8 0 = (1 / 92378 : ℝ) := by norm_num [bernProd, Nat.choose, Nat.factorial]
  have b8_1 : bernProd 9 8 1 = (81 / 923780 : ℝ) := by norm_num [bernProd, Nat.choose, Nat.factorial]
  have b8_2 : bernProd 9 8 2 = (18 / 46189 : ℝ) := by norm_num [bernProd, Nat.choose, Nat.factorial]
  have b8_3 : bernProd 9 8 3 = (21 / 16796 : ℝ) := by norm_num [bernProd, Nat.choose, Nat.factorial]
  have b8_4 : bernProd 9 8 4 = (27 / 8398 : ℝ) := by norm_num [bernProd, Nat.choose, Nat.factorial]
  have b8_5 : bernProd 9 8 5 = (9 / 1292 : ℝ) := by norm_num [bernProd, Nat.choose, Nat.factorial]
  have b8_6 : bernProd 9 8 6 = (21 / 1615 : ℝ) := by norm_num [bernProd, Nat.choose, Nat.factorial]
  have b8_7 : bernProd 9 8 7 = (27 / 1292 : ℝ) := by norm_num [bernProd, Nat.choose, Nat.factorial]
  have b8_8 : bernProd 9 8 8 = (9 / 323 : ℝ) := by norm_num [bernProd, Nat.choose, Nat.factorial]
  have b8_9 : bernProd 9 8 9 = (1 / 38 : ℝ) := by norm_num [bernProd, Nat.choose, Nat.factorial]
  have b9_0 : bernProd 9 9 0 = (1 / 923780 : ℝ) := by norm_num [bernProd, Nat.choose, Nat.factorial]
  have b9_1 : bernProd 9 9 1 = (1 / 92378 : ℝ) := by norm_num [bernProd, Nat.choose, Nat.factorial]
  have b9_2 : bernProd 9 9 2 = (1 / 16796 : ℝ) := by norm_num [bernProd, Nat.choose, Nat.factorial]
  have b9_3 : bernProd 9 9 3 = (1 / 4199 : ℝ) := by norm_num [bernProd, Nat.choose, Nat.factorial]
  have b9_4 : bernProd 9 9 4 = (1 / 1292 : ℝ) := by norm_num [bernProd, Nat.choose, Nat.factorial]
  have b9_5 : bernProd 9 9 5 = (7 / 3230 : ℝ) := by norm_num [bernProd, Nat.choose, Nat.factorial]
  have b9_6 : bernProd 9 9 6 = (7 / 1292 : ℝ) := by norm_num [bernProd, Nat.choose, Nat.factorial]
  have b9_7 : bernProd 9 9 7 = (4 / 323 : ℝ) := by norm_num [bernProd, Nat.choose, Nat.factorial]
  have b9_8 : bernProd 9 9 8 = (1 / 38 : ℝ) := by norm_num [bernProd, Nat.choose, Nat.factorial]
  have b9_9 : bernProd 9 9 9 = (1 / 19 : ℝ) := by norm_num [bernProd, Nat.choose, Nat.factorial]
  simp only [velQ, sum_range_succ, sum_range_zero, Nat.reduceSub, Nat.reduceAdd, Nat.cast_ofNat, zero_add, b0_0, b0_1, b0_2, b0_3, b0_4, b0_5, b0_6, b0_7, b0_8, b0_9, b1_0, b1_1, b1_2, b1_3, b1_4, b1_5, b1_6, b1_7, b1_8, b1_9, b2_0, b2_1, b2_2, b2_3, b2_4, b2_5, b2_6, b2_7, b2_8, b2_9, b3_0, b3_1, b3_2, b3_3, b3_4, b3_5, b3_6, b3_7, b3_8, b3_9, b4_0, b4_1, b4_2, b4_3, b4_4, b4_5, b4_6, b4_7, b4_8, b4_9, b5_0, b5_1, b5_2, b5_3, b5_4, b5_5, b5_6, b5_7, b5_8, b5_9, b6_0, b6_1, b6_2, b6_3, b6_4, b6_5, b6_6, b6_7, b6_8, b6_9, b7_0, b7_1, b7_2, b7_3, b7_4, b7_5, b7_6, b7_7, b7_8, b7_9, b8_0, b8_1, b8_2, b8_3, b8_4, b8_5, b8_6, b8_7, b8_8, b8_9, b9_0, b9_1, b9_2, b9_3, b9_4, b9_5, b9_6, b9_7, b9_8, b9_9]
  ring

/-- The coded cost along one axis, times the duration. -/
noncomputable def velPoly10 (p : ℕ → ℝ) : ℝ :=
      (-12352941184069 / 1000000000000 : ℝ) * (p 0 * p 4) +
      (-529411764601331 / 100000000000000 : ℝ) * (p 0 * p 5) +
      (-203619909557297 / 100000000000000 : ℝ) * (p 0 * p 6) +
      (-26470588357537 / 2500000000000 : ℝ) * (p 1 * p 4) +
      (-447963802623641 / 50000000000000 : ℝ) * (p 1 * p 5) +
      (-542986425052241 / 100000000000000 : ℝ) * (p 1 * p 6) +
      (2443438903321 / 2000000000000 : ℝ) * (p 2 * p 4) +
      (-610859723220821 / 100000000000000 : ℝ) * (p 2 * p 5) +
      (-360962566857463 / 50000000000000 : ℝ) * (p 2 * p 6) +
      (122171947000329 / 10000000000000 : ℝ) * (p 3 * p 4) +
      (11106540003679 / 5000000000000 : ℝ) * (p 3 * p 5) +
      (-466474700749421 / 100000000000000 : ℝ) * (p 3 * p 6) +
      (388728916823403 / 50000000000000 : ℝ) * (p 4 * p 4) +
      (27211024351663 / 2500000000000 : ℝ) * (p 4 * p 5) +
      (120937884230467 / 50000000000000 : ℝ) * (p 4 * p 6) +
      (-233237350848769 / 50000000000000 : ℝ) * (p 4 * p 7) +
      (-721925133730399 / 100000000000000 : ℝ) * (p 4 * p 8) +
      (-108597285066759 / 20000000000000 : ℝ) * (p 4 * p 9) +
      (-203619909502433 / 100000000000000 : ℝ) * (p 4 * p 10) +
      (725627312788583 / 100000000000000 : ℝ) * (p 5 * p 5) +
      (108844097036619 / 10000000000000 : ℝ) * (p 5 * p 6) +
      (55532702530231 / 25000000000000 : ℝ) * (p 5 * p 7) +
      (-610859728485633 / 100000000000000 : ℝ) * (p 5 * p 8) +
      (-55995475113027 / 6250000000000 : ℝ) * (p 5 * p 9) +
      (-264705882352881 / 50000000000000 : ℝ) * (p 5 * p 10) +
      (388728918108279 / 50000000000000 : ℝ) * (p 6 * p 6) +
      (24434389141211 / 2000000000000 : ℝ) * (p 6 * p 7) +
      (61085972847883 / 50000000000000 : ℝ) * (p 6 * p 8) +
      (-26470588235293 / 2500000000000 : ℝ) * (p 6 * p 9) +
      (-61764705882353 / 5000000000000 : ℝ) * (p 6 * p 10)

theorem velCode10 (P : ℕ → V3) (p : ℕ → ℝ) (k : Fin 3) (T : ℝ) (hp : ∀ i, p i = if 4 ≤ i ∧ i < 4 + 3 then p i else P i k) :
    ∑ a, ∑ b, c0_dc0_ddc0_j0_x3_j1_ddc1_dc1_c1.velocityCostH T a b * (p (4 + a.val) * p (4 + b.val))
      + 2 * ∑ a, c0_dc0_ddc0_j0_x3_j1_ddc1_dc1_c1.velocityCostG P T a k * p (4 + a.val) = T⁻¹ * velPoly10 p := by
  have h0 : P 0 k = p 0 := by rw [hp 0]; simp
  have h1 : P 1 k = p 1 := by rw [hp 1]; simp
  have h2 : P 2 k = p 2 := by rw [hp 2]; simp
  have h3 : P 3 k = p 3 := by rw [hp 3]; simp
  have h7 : P 7 k = p 7 := by rw [hp 7]; simp
  have h8 : P 8 k = p 8 := by rw [hp 8]; simp
  have h9 : P 9 k = p 9 := by rw [hp 9]; simp
  have h10 : P 10 k = p 10 := by rw [hp 10]; simp
  simp only [velPoly10, c0_dc0_ddc0_j0_x3_j1_ddc1_dc1_c1.velocityCostH, c0_dc0_ddc0_j0_x3_j1_ddc1_dc1_c1.velocityCostG, Fin.sum_univ_three]
  simp [h0, h1, h2, h3, h7, h8, h9, h10]
  ring

theorem velBound10 (p : ℕ → ℝ) :
    |velPoly10 p - 19 * (velQ 10 p - velQ 10 (zeroFree 3 p))|
      ≤ (19 / 100000000 : ℝ) * ∑ i ∈ range 11, p i ^ 2 := by
  have e : velPoly10 p - 19 * (velQ 10 p - velQ 10 (zeroFree 3 p)) =
      (-129173 / 17000000000000 : ℝ) * (p 0 * p 4) +
      (1777373 / 1700000000000000 : ℝ) * (p 0 * p 5) +
      (-12162637 / 22100000000000000 : ℝ) * (p 0 * p 6) +
      (-2078129 / 42500000000000 : ℝ) * (p 1 * p 4) +
      (-379824661 / 11050000000000000 : ℝ) * (p 1 * p 5) +
      (63454739 / 22100000000000000 : ℝ) * (p 1 * p 6) +
      (-2366059 / 442000000000000 : ℝ) * (p 2 * p 4) +
      (1168198559 / 22100000000000000 : ℝ) * (p 2 * p 5) +
      (-2345581 / 9350000000000000 : ℝ) * (p 2 * p 6) +
      (287072709 / 2210000000000000 : ℝ) * (p 3 * p 4) +
      (-1251056351 / 12155000000000000 : ℝ) * (p 3 * p 5) +
      (2478157549 / 243100000000000000 : ℝ) * (p 3 * p 6) +
      (-3202307307 / 121550000000000000 : ℝ) * (p 4 * p 4) +
      (198892753 / 6077500000000000 : ℝ) * (p 4 * p 5) +
      (-3435734723 / 121550000000000000 : ℝ) * (p 4 * p 6) +
      (86642561 / 121550000000000000 : ℝ) * (p 4 * p 7) +
      (-7584613 / 18700000000000000 : ℝ) * (p 4 * p 8) +
      (246261 / 4420000000000000 : ℝ) * (p 4 * p 9) +
      (-37693 / 22100000000000000 : ℝ) * (p 4 * p 10) +
      (-2610954727 / 243100000000000000 : ℝ) * (p 5 * p 5) +
      (-103979211 / 24310000000000000 : ℝ) * (p 5 * p 6) +
      (-149008439 / 60775000000000000 : ℝ) * (p 5 * p 7) +
      (4675107 / 22100000000000000 : ℝ) * (p 5 * p 8) +
      (21033 / 1381250000000000 : ℝ) * (p 5 * p 9) +
      (1023 / 850000000000000 : ℝ) * (p 5 * p 10) +
      (-78773751 / 121550000000000000 : ℝ) * (p 6 * p 6) +
      (207631 / 442000000000000 : ℝ) * (p 6 * p 7) +
      (-617857 / 11050000000000000 : ℝ) * (p 6 * p 8) +
      (19 / 42500000000000 : ℝ) * (p 6 * p 9) +
      (-1 / 85000000000000 : ℝ) * (p 6 * p 10) := by
    unfold velPoly10
    rw [velQ10, velQ10]
    have z0 : zeroFree 3 p 0 = p 0 := by simp [zeroFree]
    have z1 : zeroFree 3 p 1 = p 1 := by simp [zeroFree]
    have z2 : zeroFree 3 p 2 = p 2 := by simp [zeroFree]
    have z3 : zeroFree 3 p 3 = p 3 := by simp [zeroFree]
    have z4 : zeroFree 3 p 4 = 0 := by simp [zeroFree]
    have z5 : zeroFree 3 p 5 = 0 := by simp [zeroFree]
    have z6 : zeroFree 3 p 6 = 0 := by simp [zeroFree]
    have z7 : zeroFree 3 p 7 = p 7 := by simp [zeroFree]
    have z8 : zeroFree 3 p 8 = p 8 := by simp [zeroFree]
    have z9 : zeroFree 3 p 9 = p 9 := by simp [zeroFree]
    have z10 : zeroFree 3 p 10 = p 10 := by simp [zeroFree]
    simp only [z0, z1, z2, z3, z4, z5, z6, z7, z8, z9, z10]
    ring
  rw [e, abs_le]
  simp only [sum_range_succ, sum_range_zero, zero_add]
  constructor
  · have : 0 ≤ (129173 / 34000000000000 : ℝ) * (p 0 - p 4) ^ 2 +
      (1777373 / 3400000000000000 : ℝ) * (p 0 + p 5) ^ 2 +
      (12162637 / 44200000000000000 : ℝ) * (p 0 - p 6) ^ 2 +
      (2078129 / 85000000000000 : ℝ) * (p 1 - p 4) ^ 2 +
      (379824661 / 22100000000000000 : ℝ) * (p 1 - p 5) ^ 2 +
      (63454739 / 44200000000000000 : ℝ) * (p 1 + p 6) ^ 2 +
      (2366059 / 884000000000000 : ℝ) * (p 2 - p 4) ^ 2 +
      (1168198559 / 44200000000000000 : ℝ) * (p 2 + p 5) ^ 2 +
      (2345581 / 18700000000000000 : ℝ) * (p 2 - p 6) ^ 2 +
      (287072709 / 4420000000000000 : ℝ) * (p 3 + p 4) ^ 2 +
      (1251056351 / 24310000000000000 : ℝ) * (p 3 - p 5) ^ 2 +
      (2478157549 / 486200000000000000 : ℝ) * (p 3 + p 6) ^ 2 +
      (198892753 / 12155000000000000 : ℝ) * (p 4 + p 5) ^ 2 +
      (3435734723 / 243100000000000000 : ℝ) * (p 4 - p 6) ^ 2 +
      (86642561 / 243100000000000000 : ℝ) * (p 4 + p 7) ^ 2 +
      (7584613 / 37400000000000000 : ℝ) * (p 4 - p 8) ^ 2 +
      (246261 / 8840000000000000 : ℝ) * (p 4 + p 9) ^ 2 +
      (37693 / 44200000000000000 : ℝ) * (p 4 - p 10) ^ 2 +
      (103979211 / 48620000000000000 : ℝ) * (p 5 - p 6) ^ 2 +
      (149008439 / 121550000000000000 : ℝ) * (p 5 - p 7) ^ 2 +
      (4675107 / 44200000000000000 : ℝ) * (p 5 + p 8) ^ 2 +
      (21033 / 2762500000000000 : ℝ) * (p 5 + p 9) ^ 2 +
      (1023 / 1700000000000000 : ℝ) * (p 5 + p 10) ^ 2 +
      (207631 / 884000000000000 : ℝ) * (p 6 + p 7) ^ 2 +
      (617857 / 22100000000000000 : ℝ) * (p 6 - p 8) ^ 2 +
      (19 / 85000000000000 : ℝ) * (p 6 + p 9) ^ 2 +
      (1 / 170000000000000 : ℝ) * (p 6 - p 10) ^ 2 +
      (4097403307 / 22100000000000000 : ℝ) * p 0 ^ 2 +
      (499559143 / 3400000000000000 : ℝ) * p 1 ^ 2 +
      (15633099659 / 97240000000000000 : ℝ) * p 2 ^ 2 +
      (33300717441 / 486200000000000000 : ℝ) * p 3 ^ 2 +
      (1049549701 / 28600000000000000 : ℝ) * p 4 ^ 2 +
      (31027515947 / 486200000000000000 : ℝ) * p 5 ^ 2 +
      (16130561641 / 97240000000000000 : ℝ) * p 6 ^ 2 +
      (11436810509 / 60775000000000000 : ℝ) * p 7 ^ 2 +
      (92214381 / 486200000000000 : ℝ) * p 8 ^ 2 +
      (8396422287 / 44200000000000000 : ℝ) * p 9 ^ 2 +
      (8397935449 / 44200000000000000 : ℝ) * p 10 ^ 2 := by positivity
    linarith only [this]
  · have : 0 ≤ (129173 / 34000000000000 : ℝ) * (p 0 + p 4) ^ 2 +
      (1777373 / 3400000000000000 : ℝ) * (p 0 - p 5) ^ 2 +
      (12162637 / 44200000000000000 : ℝ) * (p 0 + p 6) ^ 2 +
      (2078129 / 85000000000000 : ℝ) * (p 1 + p 4) ^ 2 +
      (379824661 / 22100000000000000 : ℝ) * (p 1 + p 5) ^ 2 +
      (63454739 / 44200000000000000 : ℝ) * (p 1 - p 6) ^ 2 +
      (2366059 / 884000000000000 : ℝ) * (p 2 + p 4) ^ 2 +
      (1168198559 / 44200000000000000 : ℝ) * (p 2 - p 5) ^ 2 +
      (2345581 / 18700000000000000 : ℝ) * (p 2 + p 6) ^ 2 +
      (287072709 / 4420000000000000 : ℝ) * (p 3 - p 4) ^ 2 +
      (1251056351 / 24310000000000000 : ℝ) * (p 3 + p 5) ^ 2 +
      (2478157549 / 486200000000000000 : ℝ) * (p 3 - p 6) ^ 2 +
      (198892753 / 12155000000000000 : ℝ) * (p 4 - p 5) ^ 2 +
      (3435734723 / 243100000000000000 : ℝ) * (p 4 + p 6) ^ 2 +
      (86642561 / 243100000000000000 : ℝ) * (p 4 - p 7) ^ 2 +
      (7584613 / 37400000000000000 : ℝ) * (p 4 + p 8) ^ 2 +
      (246261 / 8840000000000000 : ℝ) * (p 4 - p 9) ^ 2 +
      (37693 / 44200000000000000 : ℝ) * (p 4 + p 10) ^ 2 +
      (103979211 / 48620000000000000 : ℝ) * (p 5 + p 6) ^ 2 +
      (149008439 / 121550000000000000 : ℝ) * (p 5 + p 7) ^ 2 +
      (4675107 / 44200000000000000 : ℝ) * (p 5 - p 8) ^ 2 +
      (21033 / 2762500000000000 : ℝ) * (p 5 - p 9) ^ 2 +
      (1023 / 1700000000000000 : ℝ) * (p 5 - p 10) ^ 2 +
      (207631 / 884000000000000 : ℝ) * (p 6 - p 7) ^ 2 +
      (617857 / 22100000000000000 : ℝ) * (p 6 + p 8) ^ 2 +
      (19 / 85000000000000 : ℝ) * (p 6 - p 9) ^ 2 +
      (1 / 170000000000000 : ℝ) * (p 6 + p 10) ^ 2 +
      (4097403307 / 22100000000000000 : ℝ) * p 0 ^ 2 +
      (499559143 / 3400000000000000 : ℝ) * p 1 ^ 2 +
      (15633099659 / 97240000000000000 : ℝ) * p 2 ^ 2 +
      (33300717441 / 486200000000000000 : ℝ) * p 3 ^ 2 +
      (3343138721 / 37400000000000000 : ℝ) * p 4 ^ 2 +
      (8294266971 / 97240000000000000 : ℝ) * p 5 ^ 2 +
      (81282998213 / 486200000000000000 : ℝ) * p 6 ^ 2 +
      (11436810509 / 60775000000000000 : ℝ) * p 7 ^ 2 +
      (92214381 / 486200000000000 : ℝ) * p 8 ^ 2 +
      (8396422287 / 44200000000000000 : ℝ) * p 9 ^ 2 +
      (8397935449 / 44200000000000000 : ℝ) * p 10 ^ 2 := by positivity
    linarith only [this]

theorem velQ12 (p : ℕ → ℝ) : velQ 12 p =
      (144 / 23 : ℝ) * (p 0 * p 0) +
      (-144 / 23 : ℝ) * (p 0 * p 1) +
      (-528 / 161 : ℝ) * (p 0 * p 2) +
      (-264 / 161 : ℝ) * (p 0 * p 3) +
      (-2376 / 3059 : ℝ) * (p 0 * p 4) +
      (-1056 / 3059 : ℝ) * (p 0 * p 5) +
      (-1056 / 7429 : ℝ) * (p 0 * p 6) +
      (-396 / 7429 : ℝ) * (p 0 * p 7) +
      (-132 / 7429 : ℝ) * (p 0 * p 8) +
      (-264 / 52003 : ℝ) * (p 0 * p 9) +
      (-792 / 676039 : ℝ) * (p 0 * p 10) +
      (-132 / 676039 : ℝ) * (p 0 * p 11) +
      (-12 / 676039 : ℝ) * (p 0 * p 12) +
      (528 / 161 : ℝ) * (p 1 * p 1) +
      (264 / 161 : ℝ) * (p 1 * p 2) +
      (-528 / 3059 : ℝ) * (p 1 * p 3) +
      (-264 / 437 : ℝ) * (p 1 * p 4) +
      (-27456 / 52003 : ℝ) * (p 1 * p 5) +
      (-132 / 391 : ℝ) * (p 1 * p 6) +
      (-1320 / 7429 : ℝ) * (p 1 * p 7) +
      (-4092 / 52003 : ℝ) * (p 1 * p 8) +
      (-19536 / 676039 : ℝ) * (p 1 * p 9) +
      (-5676 / 676039 : ℝ) * (p 1 * p 10) +
      (-168 / 96577 : ℝ) * (p 1 * p 11) +
      (-132 / 676039 : ℝ) * (p 1 * p 12) +
      (2904 / 3059 : ℝ) * (p 2 * p 2) +
      (2904 / 3059 : ℝ) * (p 2 * p 3) +
      (5808 / 52003 : ℝ) * (p 2 * p 4) +
      (-15972 / 52003 : ℝ) * (p 2 * p 5) +
      (-2904 / 7429 : ℝ) * (p 2 * p 6) +
      (-15972 / 52003 : ℝ) * (p 2 * p 7) +
      (-124872 / 676039 : ℝ) * (p 2 * p 8) +
      (-59532 / 676039 : ℝ) * (p 2 * p 9) +
      (-21912 / 676039 : ℝ) * (p 2 * p 10) +
      (-5676 / 676039 : ℝ) * (p 2 * p 11) +
      (-792 / 676039 : ℝ) * (p 2 * p 12) +
      (29040 / 52003 : ℝ) * (p 3 * p 3) +
      (36300 / 52003 : ℝ) * (p 3 * p 4) +
      (8712 / 52003 : ℝ) * (p 3 * p 5) +
      (-1452 / 7429 : ℝ) * (p 3 * p 6) +
      (-11616 / 35581 : ℝ) * (p 3 * p 7) +
      (-196020 / 676039 : ℝ) * (p 3 * p 8) +
      (-6600 / 35581 : ℝ) * (p 3 * p 9) +
      (-59532 / 676039 : ℝ) * (p 3 * p 10) +
      (-19536 / 676039 : ℝ) * (p 3 * p 11) +
      (-264 / 52003 : ℝ) * (p 3 * p 12) +
      (21780 / 52003 : ℝ) * (p 4 * p 4) +
      (4356 / 7429 : ℝ) * (p 4 * p 5) +
      (17424 / 96577 : ℝ) * (p 4 * p 6) +
      (-104544 / 676039 : ℝ) * (p 4 * p 7) +
      (-29700 / 96577 : ℝ) * (p 4 * p 8) +
      (-196020 / 676039 : ℝ) * (p 4 * p 9) +
      (-124872 / 676039 : ℝ) * (p 4 * p 10) +
      (-4092 / 52003 : ℝ) * (p 4 * p 11) +
      (-132 / 7429 : ℝ) * (p 4 * p 12) +
      (34848 / 96577 : ℝ) * (p 5 * p 5) +
      (52272 / 96577 : ℝ) * (p 5 * p 6) +
      (9504 / 52003 : ℝ) * (p 5 * p 7) +
      (-104544 / 676039 : ℝ) * (p 5 * p 8) +
      (-11616 / 35581 : ℝ) * (p 5 * p 9) +
      (-15972 / 52003 : ℝ) * (p 5 * p 10) +
      (-1320 / 7429 : ℝ) * (p 5 * p 11) +
      (-396 / 7429 : ℝ) * (p 5 * p 12) +
      (33264 / 96577 : ℝ) * (p 6 * p 6) +
      (52272 / 96577 : ℝ) * (p 6 * p 7) +
      (17424 / 96577 : ℝ) * (p 6 * p 8) +
      (-1452 / 7429 : ℝ) * (p 6 * p 9) +
      (-2904 / 7429 : ℝ) * (p 6 * p 10) +
      (-132 / 391 : ℝ) * (p 6 * p 11) +
      (-1056 / 7429 : ℝ) * (p 6 * p 12) +
      (34848 / 96577 : ℝ) * (p 7 * p 7) +
      (4356 / 7429 : ℝ) * (p 7 * p 8) +
      (8712 / 52003 : ℝ) * (p 7 * p 9) +
      (-15972 / 52003 : ℝ) * (p 7 * p 10) +
      (-27456 / 52003 : ℝ) * (p 7 * p 11) +
      (-1056 / 3059 : ℝ) * (p 7 * p 12) +
      (21780 / 52003 : ℝ) * (p 8 * p 8) +
      (36300 / 52003 : ℝ) * (p 8 * p 9) +
      (5808 / 52003 : ℝ) * (p 8 * p 10) +
      (-264 / 437 : ℝ) * (p 8 * p 11) +
      (-2376 / 3059 : ℝ) * (p 8 * p 12) +
      (29040 / 52003 : ℝ) * (p 9 * p 9) +
      (2904 / 3059 : ℝ) * (p 9 * p 10) +
      (-528 / 3059 : ℝ) * (p 9 * p 11) +
      (-264 / 161 : ℝ) * (p 9 * p 12) +
      (2904 / 3059 : ℝ) * (p 10 * p 10) +
      (264 / 161 : ℝ) * (p 10 * p 11) +
      (-528 / 161 : ℝ) * (p 10 * p 12) +
      (528 / 161 : ℝ) * (p 11 * p 11) +
      (-144 / 23 : ℝ) * (p 11 * p 12) +
      (144 / 23 : ℝ) * (p 12 * p 12) := by
  have b0_0 : bernProd 11 0 0 = (1 / 23 : ℝ) := by norm_num [bernProd, Nat.choose, Nat.factorial]
  have b0_1 : bernProd 11 0 1 = (1 / 46 : ℝ) := by norm_num [bernProd, Nat.choose, Nat.factorial]
  have b0_2 : bernProd 11 0 2 = (5 / 483 : ℝ) := by norm_num [bernProd, Nat.choose, Nat.factorial]
  have b0_3 : bernProd 11 0 3 = (3 / 644 : ℝ) := by norm_num [bernProd, Nat.choose, Nat.factorial]
  have b0_4 : bernProd 11 0 4 = (6 / 3059 : ℝ) := by norm_num [bernProd, Nat.choose, Nat.factorial]
  have b0_5 : bernProd 11 0 5 = (1 / 1311 : ℝ) := by norm_num [bernProd, Nat.choose, Nat.factorial]
  have b0_6 : bernProd 11 0 6 = (2 / 7429 : ℝ) := by norm_num [bernProd, Nat.choose, Nat.factorial]
  have b0_7 : bernProd 11 0 7 = (5 / 59432 : ℝ) := by norm_num [bernProd, Nat.choose, Nat.factorial]
  have b0_8 : bernProd 11 0 8 = (1 / 44574 : ℝ) := by norm_num [bernProd, Nat.choose, Nat.factorial]
  have b0_9 : bernProd 11 0 9 = (1 / 208012 : ℝ) := by norm_num [bernProd, Nat.choose, Nat.factorial]
  have b0_10 : bernProd 11 0 10 = (1 / 1352078 : ℝ) := by norm_num [bernProd, Nat.choose, Nat.factorial]
  have b0_11 : bernProd 11 0 11 = (1 / 16224936 : ℝ) := by norm_num [bernProd, Nat.choose, Nat.factorial]
  have b1_0 : bernProd 11 1 0 = (1 / 46 : ℝ) := by norm_num [bernProd, Nat.choose, Nat.factorial]
  have b1_1 : bernProd 11 1 1 = (11 / 483 : ℝ) := by norm_num [bernProd, Nat.choose, Nat.factorial]
  have b1_2 : bernProd 11 1 2 = (11 / 644 : ℝ) := by norm_num [bernProd, Nat.choose, Nat.factorial]
  have b1_3 : bernProd 11 1 3 = (33 / 3059 : ℝ) := by norm_num [bernProd, Nat.choose, Nat.factorial]
  have b1_4 : bernProd 11 1 4 = (55 / 9177 : ℝ) := by norm_num [bernProd, Nat.choose, Nat.factorial]
  have b1_5 : bernProd 11 1 5 = (22 / 7429 : ℝ) := by norm_num [bernProd, Nat.choose, Nat.factorial]
  have b1_6 : bernProd 11 1 6 = (77 / 59432 : ℝ) := by norm_num [bernProd, Nat.choose, Nat.factorial]
  have b1_7 : bernProd 11 1 7 = (11 / 22287 : ℝ) := by norm_num [bernProd, Nat.choose, Nat.factorial]
  have b1_8 : bernProd 11 1 8 = (33 / 208012 : ℝ) := by norm_num [bernProd, Nat.choose, Nat.factorial]
  have b1_9 : bernProd 11 1 9 = (55 / 1352078 : ℝ) := by norm_num [bernProd, Nat.choose, Nat.factorial]
  have b1_10 : bernProd 11 1 10 = (121 / 16224936 : ℝ) := by norm_num [bernProd, Nat.choose, Nat.factorial]
  have b1_11 : bernProd 11 1 11 = (1 / 1352078 : ℝ) := by norm_num [bernProd, Nat.choose, Nat.factorial]
  have b2_0 : bernProd 11 2 0 = (5 / 483 : ℝ) := by norm_num [bernProd, Nat.choose, Nat.factorial]
  have b2_1 : bernProd 11 2 1 = (11 / 644 : ℝ) := by norm_num [bernProd, Nat.choose, Nat.factorial]
  have b2_2 : bernProd 11 2 2 = (55 / 3059 : ℝ) := by norm_num [bernProd, Nat.choose, Nat.factorial]
  have b2_3 : bernProd 11 2 3 = (275 / 18354 : ℝ) := by norm_num [bernProd, Nat.choose, Nat.factorial]
  have b2_4 : bernProd 11 2 4 = (550 / 52003 : ℝ) := by norm_num [bernProd, Nat.choose, Nat.factorial]
  have b2_5 : bernProd 11 2 5 = (385 / 59432 : ℝ) := by norm_num [bernProd, Nat.choose, Nat.factorial]
  have b2_6 : bernProd 11 2 6 = (77 / 22287 : ℝ) := by norm_num [bernProd, Nat.choose, Nat.factorial]
  have b2_7 : bernProd 11 2 7 = (165 / 104006 : ℝ) := by norm_num [bernProd, Nat.choose, Nat.factorial]
  have b2_8 : bernProd 11 2 8 = (825 / 1352078 : ℝ) := by norm_num [bernProd, Nat.choose, Nat.factorial]
  have b2_9 : bernProd 11 2 9 = (3025 / 16224936 : ℝ) := by norm_num [bernProd, Nat.choose, Nat.factorial]
  have b2_10 : bernProd 11 2 10 = (55 / 1352078 : ℝ) := by norm_num [bernProd, Nat.choose, Nat.factorial]
  have b2_11 : bernProd 11 2 11 = (1 / 208012 : ℝ) := by norm_num [bernProd, Nat.choose, Nat.factorial]
  have b3_0 : bernProd 11 3 0 = (3 / 644 : ℝ) := by norm_num [bernProd, Nat.choose, Nat.factorial]
  have b3_1 : bernProd 11 3 1 = (33 / 3059 : ℝ) := by norm_num [bernProd, Nat.choose, Nat.factorial]
  have b3_2 : bernProd 11 3 2 = (275 / 18354 : ℝ) := by norm_num [bernProd, Nat.choose, Nat.factorial]
  have b3_3 : bernProd 11 3 3 = (825 / 52003 : ℝ) := by norm_num [bernProd, Nat.choose, Nat.factorial]
  have b3_4 : bernProd 11 3 4 = (825 / 59432 : ℝ) := by norm_num [bernProd, Nat.choose, Nat.factorial]
  have b3_5 : bernProd 11 3 5 = (77 / 7429 : ℝ) := by norm_num [bernProd, Nat.choose, Nat.factorial]
  have b3_6 : bernProd 11 3 6 = (99 / 14858 : ℝ) := by norm_num [bernProd, Nat.choose, Nat.factorial]
  have b3_7 : bernProd 11 3 7 = (2475 / 676039 : ℝ) := by norm_num [bernProd, Nat.choose, Nat.factorial]
  have b3_8 : bernProd 11 3 8 = (9075 / 5408312 : ℝ) := by norm_num [bernProd, Nat.choose, Nat.factorial]
  have b3_9 : bernProd 11 3 9 = (825 / 1352078 : ℝ) := by norm_num [bernProd, Nat.choose, Nat.factorial]
  have b3_10 : bernProd 11 3 10 = (33 / 208012 : ℝ) := by norm_num [bernProd, Nat.choose, Nat.factorial]
  have b3_11 : bernProd 11 3 11 = (1 / 44574 : ℝ) := by norm_num [bernProd, Nat.choose, Nat.factorial]
  have b4_0 : bernProd 11 4 0 = (6 / 3059 : ℝ) := by norm_num [bernProd, Nat.choose, Nat.factorial]
  have b4_1 : bernProd 11 4 1 = (55 / 9177 : ℝ) := by norm_num [bernProd, Nat.choose, Nat.factorial]
  have b4_2 : bernProd 11 4 2 = (550 / 52003 : ℝ) := by norm_num [bernProd, Nat.choose, Nat.factorial]
  have b4_3 : bernProd 11 4 3 = (825 / 59432 : ℝ) := by norm_num [bernProd, Nat.choose, Nat.factorial]
  have b4_4 : bernProd 11 4 4 = (110 / 7429 : ℝ) := by norm_num [bernProd, Nat.choose, Nat.factorial]
  have b4_5 : bernProd 11 4 5 = (99 / 7429 : ℝ) := by norm_num [bernProd, Nat.choose, Nat.factorial]
  have b4_6 : bernProd 11 4 6 = (990 / 96577 : ℝ) := by norm_num [bernProd, Nat.choose, Nat.factorial]
  have b4_7 : bernProd 11 4 7 = (9075 / 1352078 : ℝ) := by norm_num [bernProd, Nat.choose, Nat.factorial]
  have b4_8 : bernProd 11 4 8 = (2475 / 676039 : ℝ) := by norm_num [bernProd, Nat.choose, Nat.factorial]
  have b4_9 : bernProd 11 4 9 = (165 / 104006 : ℝ) := by norm_num [bernProd, Nat.choose, Nat.factorial]
  have b4_10 : bernProd 11 4 10 = (11 / 22287 : ℝ) := by norm_num [bernProd, Nat.choose, Nat.factorial]
  have b4_11 : bernProd 11 4 11 = (5 / 59432 : ℝ) := by norm_num [bernProd, Nat.choose, Nat.factorial]
  have b5_0 : bernProd 11 5 0 = (1 / 1311 : ℝ) := by norm_num [bernProd, Nat.choose, Nat.factorial]
  have b5_1 : bernProd 11 5 1 = (22 / 7429 : ℝ) := by norm_num [bernProd, Nat.choose, Nat.factorial]
  have b5_2 : bernProd 11 5 2 = (385 / 59432 : ℝ) := by norm_num [bernProd, Nat.choose, Nat.factorial]
  have b5_3 : bernProd 11 5 3 = (77 / 7429 : ℝ) := by norm_num [bernProd, Nat.choose, Nat.factorial]
  have b5_4 : bernProd 11 5 4 = (99 / 7429 : ℝ) := by norm_num [bernProd, Nat.choose, Nat.factorial]
  have b5_5 : bernProd 11 5 5 = (1386 / 96577 : ℝ) := by norm_num [bernProd, Nat.choose, Nat.factorial]
  have b5_6 : bernProd 11 5 6 = (2541 / 193154 : ℝ) := by norm_num [bernProd, Nat.choose, Nat.factorial]
  have b5_7 : bernProd 11 5 7 = (990 / 96577 : ℝ) := by norm_num [bernProd, Nat.choose, Nat.factorial]
  have b5_8 : bernProd 11 5 8 = (99 / 14858 : ℝ) := by norm_num [bernProd, Nat.choose, Nat.factorial]
  have b5_9 : bernProd 11 5 9 = (77 / 22287 : ℝ) := by norm_num [bernProd, Nat.choose, Nat.factorial]
  have b5_10 : bernProd 11 5 10 = (77 / 59432 : ℝ) := by norm_num [bernProd, Nat.choose, Nat.factorial]
  have b5_11 : bernProd 11 5 11 = (2 / 7429 : ℝ) := by norm_num [bernProd, Nat.choose, Nat.factorial]
  have b6_0 : bernProd 11 6 0 = (2 / 7429 : ℝ) := by norm_num [bernProd, Nat.choose, Nat.factorial]
  have b6_1 : bernProd 11 6 1 = (77 / 59432 : ℝ) := by norm_num [bernProd, Nat.choose, Nat.factorial]
  have b6_2 : bernProd 11 6 2 = (77 / 22287 : ℝ) := by norm_num [bernProd, Nat.choose, Nat.factorial]
  have b6_3 : bernProd 11 6 3 = (99 / 14858 : ℝ) := by norm_num [bernProd, Nat.choose, Nat.factorial]
  have b6_4 : bernProd 11 6 4 = (990 / 96577 : ℝ) := by norm_num [bernProd, Nat.choose, Nat.factorial]
  have b6_5 : bernProd 11 6 5 = (2541 / 193154 : ℝ) := by norm_num [bernProd, Nat.choose, Nat.factorial]
  have b6_6 : bernProd 11 6 6 = (1386 / 96577 : ℝ) := by norm_num [bernProd, Nat.choose, Nat.factorial]
  have b6_7 : bernProd 11 6 7 = (99 / 7429 : ℝ) := by norm_num [bernProd, Nat.choose, Nat.factorial]
  have b6_8 : bernProd 11 6 8 = (77 / 7429 : ℝ) := by norm_num [bernProd, Nat.choose, Nat.factorial]
  have b6_9 : bernProd 11 6 9 = (385 / 59432 : ℝ) := by norm_num [bernProd, Nat.choose, Nat.factorial]
  have b6_10 : bernProd 11 6 10 = (22 / 7429 : ℝ) := by norm_num [bernProd, Nat.choose, Nat.factorial]
  have b6_11 : bernProd 11 6 11 = (1 / 1311 : ℝ) := by norm_num [bernProd, Nat.choose, Nat.factorial]
  have b7_0 : bernProd 11 7 0 = (5 / 59432 : ℝ) := by norm_num [bernProd, Nat.choose, Nat.factorial]
  have b7_1 : bernProd 11 7 1 = (11 / 22287 : ℝ) := by norm_num [bernProd, Nat.choose, Nat.factorial]
  have b7_2 : bernProd 11 7 2 = (165 / 104006 : ℝ) := by norm_num [bernProd, Nat.choose, Nat.factorial]
  have b7_3 : bernProd 11 7 3 = (2475 / 676039 : ℝ) := by norm_num [bernProd, Nat.choose, Nat.factorial]
  have b7_4 : bernProd 11 7 4 = (9075 / 1352078 : ℝ) := by norm_num [bernProd, Nat.choose, Nat.factorial]
  have b7_5 : bernProd 11 7 5 = (990 / 96577 : ℝ) := by norm_num [bernProd, Nat.choose, Nat.factorial]
  have b7_6 : bernProd 11 7 6 = (99 / 7429 : ℝ) := by norm_num [bernProd, Nat.choose, Nat.factorial]
  have b7_7 : bernProd 11 7 7 = (110 / 7429 : ℝ) := by norm_num [bernProd, Nat.choose, Nat.factorial]
  have b7_8 : bernProd 11 7 8 = (825 / 59432 : ℝ) := by norm_num [bernProd, Nat.choose, Nat.factorial]
  have b7_9 : bernProd 11 7 9 = (550 / 52003 : ℝ) := by norm_num [bernProd, Nat.choose, Nat.factorial]
  have b7_10 : bernProd 11 7 10 = (55 / 9177 : ℝ) := by norm_num [bernProd, Nat.choose, Nat.factorial]
  have b7_11 : bernProd 11 7 11 = (6 / 3059 : ℝ) := by norm_num [bernProd, Nat.choose, Nat.factorial]
  have b8_0 : bernProd 11 8 0 = (1 / 44574 : ℝ) := by norm_num [bernProd, Nat.choose, Nat.factorial]
  have b8_1 : bernProd 11 8 1 = (33 / 208012 : ℝ) := by norm_num [bernProd, Nat.choose, Nat.factorial]
  have b8_2 : bernProd 11 8 2 = (825 / 1352078 : ℝ) := by norm_num [bernProd, Nat.choose, Nat.factorial]
  have b8_3 : bernProd 11 8 3 = (9075 / 5408312 : ℝ) := by norm_num [bernProd, Nat.choose, Nat.factorial]
  have b8_4 : bernProd 11 8 4 = (2475 / 676039 : ℝ) := by norm_num [bernProd, Nat.choose, Nat.factorial]
  have b8_5 : bernProd 11 8 5 = (99 / 14858 : ℝ) := by norm_num [bernProd, Nat.choose, Nat.factorial]
  have b8_6 : bernProd 11 8 6 = (77 / 7429 : ℝ) := by norm_num [bernProd, Nat.choose, Nat.factorial]
  have b8_7 : bernProd 11 8 7 = (825 / 59432 : ℝ) := by norm_num [bernProd, Nat.choose, Nat.factorial]
  have b8_8 : bernProd 11 8 8 = (825 / 52003 : ℝ) := by norm_num [bernProd, Nat.choose, Nat.factorial]
  have b8_9 : bernProd 11 8 9 = (275 / 18354 : ℝ) := by norm_num [bernProd, Nat.choose, Nat.factorial]
  have b8_10 : bernProd 11 8 10 = (33 / 3059 : ℝ) := by norm_num [bernProd, Nat.choose, Nat.factorial]
  have b8_11 : bernProd 11 8 11 = (3 / 644 : ℝ) := by norm_num [bernProd, Nat.choose, Nat.factorial]
  have b9_0 : bernProd 11 9 0 = (1 / 208012 : ℝ) := by norm_num [bernProd, Nat.choose, Nat.factorial]
  have b9_1 : bernProd 11 9 1 = (55 / 1352078 : ℝ) := by norm_num [bernProd, Nat.choose, Nat.factorial]
  have b9_2 : bernProd 11 9 2 = (3025 / 16224936 : ℝ) := by norm_num [bernProd, Nat.choose, Nat.factorial]
  have b9_3 : bernProd 11 9 3 = (825 / 1352078 : ℝ) := by norm_num [bernProd, Nat.choose, Nat.factorial]
  have b9_4 : bernProd 11 9 4 = (165 / 104006 : ℝ) := by norm_num [bernProd, Nat.choose, Nat.factorial]
  have b9_5 : bernProd 11 9 5 = (77 / 22287 : ℝ) := by norm_num [bernProd, Nat.choose, Nat.factorial]
  have b9_6 : bernProd 11 9 6 = (385 / 59432 : ℝ) := by norm_num [bernProd, Nat.choose, Nat.factorial]
  have b9_7 : bernProd 11 9 7 = (550 / 52003 : ℝ) := by norm_num [bernProd, Nat.choose, Nat.factorial]
  have b9_8 : bernProd 11 9 8 = (275 / 18354 : ℝ) := by norm_num [bernProd, Nat.choose, Nat.factorial]
  have b9_9 : bernProd 11 9 9 = (55 / 3059 : ℝ) := by norm_num [bernProd, Nat.choose, Nat.factorial]
  have b9_10 : bernProd 11 9 10 = (11 / 644 : ℝ) := by norm_num [bernProd, Nat.choose, Nat.factorial]
  have b9_11 : bernProd 11 9 11 = (5 / 483 : ℝ) := by norm_num [bernProd, Nat.choose, Nat.factorial]
  have b10_0 : bernProd 11 10 0 = (1 / 1352078 : ℝ) := by norm_num [bernProd, Nat.choose, Nat.factorial]
  have b10_1 : bernProd 11 10 1 = (121 / 16224936 : ℝ) := by norm_num [bernProd, Nat.choose, Nat.factorial]
  have b10_2 : bernProd 11 10 2 = (55 / 1352078 : ℝ) := by norm_num [bernProd, Nat.choose, Nat.factorial]
  have b10_3 : bernProd 11 10 3 = (33 / 208012 : ℝ) := by norm_num [bernProd, Nat.choose, Nat.factorial]
  have b10_4 : bernProd 11 10 4 = (11 / 22287 : ℝ) := by norm_num [bernProd, Nat.choose, Nat.factorial]
  have b10_5 : bernProd 11 10 5 = (77 / 59432 : ℝ) := by norm_num [bernProd, Nat.choose, Nat.factorial]
  have b10_6 : bernProd 11 10 6 = (22 / 7429 : ℝ) := by norm_num [bernProd, Nat.choose, Nat.factorial]
  have b10_7 : bernProd 11 10 7 = (55 / 9177 : ℝ) := by norm_num [bernProd, Nat.choose, Nat.factorial]
  have b10_8 : bernProd 11 10 8 = (33 / 3059 : ℝ) := by norm_num [bernProd, Nat.choose, Nat.factorial]
  have b10_9 : bernProd 11 10 9 = (11 / 644 : ℝ) := by norm_num [bernProd, Nat.choose, Nat.factorial]
  have b10_10 : bernProd 11 10 10 = (11 / 483 : ℝ) := by norm_num [bernProd, Nat.choose, Nat.factorial]
  have b10_11 : bernProd 11 10 11 = (1 / 46 : ℝ) := by norm_num [bernProd, Nat.choose, Nat.factorial]
  have b11_0 : bernProd 11 11 0 = (1 / 16224936 : ℝ) := by norm_num [bernProd, Nat.choose, Nat.factorial]
  have b11_1 : bernProd 11 11 1 = (1 / 1352078 : ℝ) := by norm_num [bernProd, Nat.choose, Nat.factorial]
  have b11_2 : bernProd 11 11 2 = (1 / 208012 : ℝ) := by norm_num [bernProd, Nat.choose, Nat.factorial]
  have b11_3 : bernProd 11 11 3 = (1 / 44574 : ℝ) := by norm_num [bernProd, Nat.choose, Nat.factorial]
  have b11_4 : bernProd 11 11 4 = (5 / 59432 : ℝ) := by norm_num [bernProd, Nat.choose, Nat.factorial]
  have b11_5 : bernProd 11 11 5 = (2 / 7429 : ℝ) := by norm_num [bernProd, Nat.choose, Nat.factorial]
  have b11_6 : bernProd 11 11 6 = (1 / 1311 : ℝ) := by norm_num [bernProd, Nat.choose, Nat.factorial]
  have b11_7 : bernProd 11 11 7 = (6 / 3059 : ℝ) := by norm_num [bernProd, Nat.choose, Nat.factorial]
  have b11_8 : bernProd 11 11 8 = (3 / 644 : ℝ) := by norm_num [bernProd, Nat.choose, Nat.factorial]
  have b11_9 : bernProd 11 11 9 = (5 / 483 : ℝ) := by norm_num [bernProd, Nat.choose, Nat.factorial]
  have b11_10 : bernProd 11 11 10 = (1 / 46 : ℝ) := by norm_num [bernProd, Nat.choose, Nat.factorial]
  have b11_11 : bernProd 11 11 11 = (1 / 23 : ℝ) := by norm_num [bernProd, Nat.choose, Nat.factorial]
  simp only [velQ, sum_range_succ, sum_range_zero, Nat.reduceSub, Nat.reduceAdd, Nat.cast_ofNat, zero_add, b0_0, b0_1, b0_2, b0_3, b0_4, b0_5, b0_6, b0_7, b0_8, b0_9, b0_10, b0_11, b1_0, b1_1, b1_2, b1_3, b1_4, b1_5, b1_6, b1_7, b1_8, b1_9, b1_10, b1_11, b2_0, b2_1, b2_2, b2_3, b2_4, b2_5, b2_6, b2_7, b2_8, b2_9, b2_10, b2_11, b3_0, b3_1, b3_2, b3_3, b3_4, b3_5, b3_6, b3_7, b3_8, b3_9, b3_10, b3_11, b4_0, b4_1, b4_2, b4_3, b4_4, b4_5, b4_6, b4_7, b4_8, b4_9, b4_10, b4_11, b5_0, b5_1, b5_2, b5_3, b5_4, b5_5, b5_6, b5_7, b5_8, b5_9, b5_10, b5_11, b6_0, b6_1, b6_2, b6_3, b6_4, b6_5, b6_6, b6_7, b6_8, b6_9, b6_10, b6_11, b7_0, b7_1, b7_2, b7_3, b7_4, b7_5, b7_6, b7_7, b7_8, b7_9, b7_10, b7_11, b8_0, b8_1, b8_2, b8_3, b8_4, b8_5, b8_6, b8_7, b8_8, b8_9, b8_10, b8_11, b9_0, b9_1, b9_2, b9_3, b9_4, b9_5, b9_6, b9_7, b9_8, b9_9, b9_10, b9_11, b10_0, b10_1, b10_2, b10_3, b10_4, b10_5, b10_6, b10_7, b10_8, b10_9, b10_10, b10_11, b11_0, b11_1, b11_2, b11_3, b11_4, b11_5, b11_6, b11_7, b11_8, b11_9, b11_10, b11_11]
  ring

/-- The coded cost along one axis, times the duration. -/
noncomputable def velPoly12 (p : ℕ → ℝ) : ℝ :=
      (-178646615739593 / 10000000000000 : ℝ) * (p 0 * p 4) +
      (-793984965058761 / 100000000000000 : ℝ) * (p 0 * p 5) +
      (-163467490358221 / 50000000000000 : ℝ) * (p 0 * p 6) +
      (-30650155181659 / 25000000000000 : ℝ) * (p 0 * p 7) +
      (-204334366257487 / 500000000000000 : ℝ) * (p 0 * p 8) +
      (-34736842459103 / 2500000000000 : ℝ) * (p 1 * p 4) +
      (-60716486205447 / 5000000000000 : ℝ) * (p 1 * p 5) +
      (-194117649251797 / 25000000000000 : ℝ) * (p 1 * p 6) +
      (-408668774398579 / 100000000000000 : ℝ) * (p 1 * p 7) +
      (-45245470218373 / 25000000000000 : ℝ) * (p 1 * p 8) +
      (64219575985759 / 25000000000000 : ℝ) * (p 2 * p 4) +
      (-44150854426697 / 6250000000000 : ℝ) * (p 2 * p 5) +
      (-179814242346011 / 20000000000000 : ℝ) * (p 2 * p 6) +
      (-35320655634633 / 5000000000000 : ℝ) * (p 2 * p 7) +
      (-8496717593051 / 2000000000000 : ℝ) * (p 2 * p 8) +
      (80274216257717 / 5000000000000 : ℝ) * (p 3 * p 4) +
      (48164480084267 / 12500000000000 : ℝ) * (p 3 * p 5) +
      (-112383897450447 / 25000000000000 : ℝ) * (p 3 * p 6) +
      (-93859061136583 / 12500000000000 : ℝ) * (p 3 * p 7) +
      (-333446675396089 / 50000000000000 : ℝ) * (p 3 * p 8) +
      (120411315903631 / 12500000000000 : ℝ) * (p 4 * p 4) +
      (134860690009623 / 10000000000000 : ℝ) * (p 4 * p 5) +
      (414955180440231 / 100000000000000 : ℝ) * (p 4 * p 6) +
      (-355676093144659 / 100000000000000 : ℝ) * (p 4 * p 7) +
      (-176827815054763 / 25000000000000 : ℝ) * (p 4 * p 8) +
      (-133378697393577 / 20000000000000 : ℝ) * (p 4 * p 9) +
      (-106208960943353 / 25000000000000 : ℝ) * (p 4 * p 10) +
      (-45245466662359 / 25000000000000 : ℝ) * (p 4 * p 11) +
      (-204334365268827 / 500000000000000 : ℝ) * (p 4 * p 12) +
      (829911962311903 / 100000000000000 : ℝ) * (p 5 * p 5) +
      (62243428098687 / 5000000000000 : ℝ) * (p 5 * p 6) +
      (210172524303919 / 50000000000000 : ℝ) * (p 5 * p 7) +
      (-177838228097659 / 50000000000000 : ℝ) * (p 5 * p 8) +
      (-375436331823579 / 50000000000000 : ℝ) * (p 5 * p 9) +
      (-14128261837107 / 2000000000000 : ℝ) * (p 5 * p 10) +
      (-81733746102217 / 20000000000000 : ℝ) * (p 5 * p 11) +
      (-24520123841333 / 20000000000000 : ℝ) * (p 5 * p 12) +
      (158437723188589 / 20000000000000 : ℝ) * (p 6 * p 6) +
      (12448679688301 / 1000000000000 : ℝ) * (p 6 * p 7) +
      (4149559164651 / 1000000000000 : ℝ) * (p 6 * p 8) +
      (-112383901964591 / 25000000000000 : ℝ) * (p 6 * p 9) +
      (-5619195037449 / 625000000000 : ℝ) * (p 6 * p 10) +
      (-776470588258269 / 100000000000000 : ℝ) * (p 6 * p 11) +
      (-81733746130031 / 25000000000000 : ℝ) * (p 6 * p 12) +
      (829911871865983 / 100000000000000 : ℝ) * (p 7 * p 7) +
      (134860680294621 / 10000000000000 : ℝ) * (p 7 * p 8) +
      (385316232209763 / 100000000000000 : ℝ) * (p 7 * p 9) +
      (-141282618454077 / 20000000000000 : ℝ) * (p 7 * p 10) +
      (-7589562140669 / 625000000000 : ℝ) * (p 7 * p 11) +
      (-396992481204547 / 50000000000000 : ℝ) * (p 7 * p 12) +
      (963290582796267 / 100000000000000 : ℝ) * (p 8 * p 8) +
      (160548429731073 / 10000000000000 : ℝ) * (p 8 * p 9) +
      (256877487851457 / 100000000000000 : ℝ) * (p 8 * p 10) +
      (-138947368423667 / 10000000000000 : ℝ) * (p 8 * p 11) +
      (-178646616541281 / 10000000000000 : ℝ) * (p 8 * p 12)

theorem velCode12 (P : ℕ → V3) (p : ℕ → ℝ) (k : Fin 3) (T : ℝ) (hp : ∀ i, p i = if 4 ≤ i ∧ i < 4 + 5 then p i else P i k) :
    ∑ a, ∑ b, c0_dc0_ddc0_j0_x5_j1_ddc1_dc1_c1.velocityCostH T a b * (p (4 + a.val) * p (4 + b.val))
      + 2 * ∑ a, c0_dc0_ddc0_j0_x5_j1_ddc1_dc1_c1.velocityCostG P T a k * p (4 + a.val) = T⁻¹ * velPoly12 p := by
  have h0 : P 0 k = p 0 := by rw [hp 0]; simp
  have h1 : P 1 k = p 1 := by rw [hp 1]; simp
  have h2 : P 2 k = p 2 := by rw [hp 2]; simp
  have h3 : P 3 k = p 3 := by rw [hp 3]; simp
  have h9 : P 9 k = p 9 := by rw [hp 9]; simp
  have h10 : P 10 k = p 10 := by rw [hp 10]; simp
  have h11 : P 11 k = p 11 := by rw [hp 11]; simp
  have h12 : P 12 k = p 12 := by rw [hp 12]; simp
  simp only [velPoly12, c0_dc0_ddc0_j0_x5_j1_ddc1_dc1_c1.velocityCostH, c0_dc0_ddc0_j0_x5_j1_ddc1_dc1_c1.velocityCostG, Fin.sum_univ_five]
  simp [h0, h1, h2, h3, h9, h10, h11, h12]
  ring

theorem velBound12 (p : ℕ → ℝ) :
    |velPoly12 p - 23 * (velQ 12 p - velQ 12 (zeroFree 5 p))|
      ≤ (69 / 5000000 : ℝ) * ∑ i ∈ range 13, p i ^ 2 := by
  have e : velPoly12 p - 23 * (velQ 12 p - velQ 12 (zeroFree 5 p)) =
      (106634131 / 1330000000000000 : ℝ) * (p 0 * p 4) +
      (-352815213 / 13300000000000000 : ℝ) * (p 0 * p 5) +
      (614294617 / 16150000000000000 : ℝ) * (p 0 * p 6) +
      (-123675857 / 8075000000000000 : ℝ) * (p 0 * p 7) +
      (-301168301 / 161500000000000000 : ℝ) * (p 0 * p 8) +
      (-6722957 / 47500000000000 : ℝ) * (p 1 * p 4) +
      (24689484333 / 11305000000000000 : ℝ) * (p 1 * p 5) +
      (-37280549 / 425000000000000 : ℝ) * (p 1 * p 6) +
      (-14130741017 / 32300000000000000 : ℝ) * (p 1 * p 7) +
      (-8163741353 / 56525000000000000 : ℝ) * (p 1 * p 8) +
      (461303801099 / 56525000000000000 : ℝ) * (p 2 * p 4) +
      (-81858761917 / 14131250000000000 : ℝ) * (p 2 * p 5) +
      (-277761553 / 6460000000000000 : ℝ) * (p 2 * p 6) +
      (-2389905213 / 11305000000000000 : ℝ) * (p 2 * p 7) +
      (-20212548043 / 58786000000000000 : ℝ) * (p 2 * p 8) +
      (2958698137 / 11305000000000000 : ℝ) * (p 3 * p 4) +
      (-110529472313 / 28262500000000000 : ℝ) * (p 3 * p 5) +
      (1123505619 / 8075000000000000 : ℝ) * (p 3 * p 6) +
      (32421706099 / 19337500000000000 : ℝ) * (p 3 * p 7) +
      (1870082756023 / 1469650000000000000 : ℝ) * (p 3 * p 8) +
      (-14741890309 / 28262500000000000 : ℝ) * (p 4 * p 4) +
      (2873108229 / 3230000000000000 : ℝ) * (p 4 * p 5) +
      (-3197331470031 / 419900000000000000 : ℝ) * (p 4 * p 6) +
      (12594199038013 / 2939300000000000000 : ℝ) * (p 4 * p 7) +
      (4585050163 / 104975000000000000 : ℝ) * (p 4 * p 8) +
      (-52489408761 / 587860000000000000 : ℝ) * (p 4 * p 9) +
      (10992025271 / 734825000000000000 : ℝ) * (p 4 * p 10) +
      (-123593699 / 56525000000000000 : ℝ) * (p 4 * p 11) +
      (18168879 / 161500000000000000 : ℝ) * (p 4 * p 12) +
      (329747680697 / 419900000000000000 : ℝ) * (p 5 * p 5) +
      (154586386713 / 20995000000000000 : ℝ) * (p 5 * p 6) +
      (77451160859 / 113050000000000000 : ℝ) * (p 5 * p 7) +
      (961525509013 / 1469650000000000000 : ℝ) * (p 5 * p 8) +
      (-5331076713 / 77350000000000000 : ℝ) * (p 5 * p 9) +
      (-13698927 / 4522000000000000 : ℝ) * (p 5 * p 10) +
      (8983909 / 6460000000000000 : ℝ) * (p 5 * p 11) +
      (-750559 / 6460000000000000 : ℝ) * (p 5 * p 12) +
      (-331114789 / 83980000000000000 : ℝ) * (p 6 * p 6) +
      (6011175899 / 4199000000000000 : ℝ) * (p 6 * p 7) +
      (-1067630451 / 4199000000000000 : ℝ) * (p 6 * p 8) +
      (-334562893 / 8075000000000000 : ℝ) * (p 6 * p 9) +
      (2903973 / 201875000000000 : ℝ) * (p 6 * p 10) +
      (-390573 / 1700000000000000 : ℝ) * (p 6 * p 11) +
      (-13 / 8075000000000000 : ℝ) * (p 6 * p 12) +
      (-50034737383 / 419900000000000000 : ℝ) * (p 7 * p 7) +
      (-264837417 / 3230000000000000 : ℝ) * (p 7 * p 8) +
      (1026274143 / 226100000000000000 : ℝ) * (p 7 * p 9) +
      (-324668097 / 45220000000000000 : ℝ) * (p 7 * p 10) +
      (-52609 / 1413125000000000 : ℝ) * (p 7 * p 11) +
      (-204751 / 6650000000000000 : ℝ) * (p 7 * p 12) +
      (7702359687 / 226100000000000000 : ℝ) * (p 8 * p 8) +
      (-378043947 / 22610000000000000 : ℝ) * (p 8 * p 9) +
      (32144277 / 226100000000000000 : ℝ) * (p 8 * p 10) +
      (-49673 / 190000000000000 : ℝ) * (p 8 * p 11) +
      (9627 / 1330000000000000 : ℝ) * (p 8 * p 12) := by
    unfold velPoly12
    rw [velQ12, velQ12]
    have z0 : zeroFree 5 p 0 = p 0 := by simp [zeroFree]
    have z1 : zeroFree 5 p 1 = p 1 := by simp [zeroFree]
    have z2 : zeroFree 5 p 2 = p 2 := by simp [zeroFree]
    have z3 : zeroFree 5 p 3 = p 3 := by simp [zeroFree]
    have z4 : zeroFree 5 p 4 = 0 := by simp [zeroFree]
    have z5 : zeroFree 5 p 5 = 0 := by simp [zeroFree]
    have z6 : zeroFree 5 p 6 = 0 := by simp [zeroFree]
    have z7 : zeroFree 5 p 7 = 0 := by simp [zeroFree]
    have z8 : zeroFree 5 p 8 = 0 := by simp [zeroFree]
    have z9 : zeroFree 5 p 9 = p 9 := by simp [zeroFree]
    have z10 : zeroFree 5 p 10 = p 10 := by simp [zeroFree]
    have z11 : zeroFree 5 p 11 = p 11 := by simp [zeroFree]
    have z12 : zeroFree 5 p 12 = p 12 := by simp [zeroFree]
    simp only [z0, z1, z2, z3, z4, z5, z6, z7, z8, z9, z10, z11, z12]
    ring
  rw [e, abs_le]
  simp only [sum_range_succ, sum_range_zero, zero_add]
  constructor
  · have : 0 ≤ (106634131 / 2660000000000000 : ℝ) * (p 0 + p 4) ^ 2 +
      (352815213 / 26600000000000000 : ℝ) * (p 0 - p 5) ^ 2 +
      (614294617 / 32300000000000000 : ℝ) * (p 0 + p 6) ^ 2 +
      (123675857 / 16150000000000000 : ℝ) * (p 0 - p 7) ^ 2 +
      (301168301 / 323000000000000000 : ℝ) * (p 0 - p 8) ^ 2 +
      (6722957 / 95000000000000 : ℝ) * (p 1 - p 4) ^ 2 +
      (24689484333 / 22610000000000000 : ℝ) * (p 1 + p 5) ^ 2 +
      (37280549 / 850000000000000 : ℝ) * (p 1 - p 6) ^ 2 +
      (14130741017 / 64600000000000000 : ℝ) * (p 1 - p 7) ^ 2 +
      (8163741353 / 113050000000000000 : ℝ) * (p 1 - p 8) ^ 2 +
      (461303801099 / 113050000000000000 : ℝ) * (p 2 + p 4) ^ 2 +
      (81858761917 / 28262500000000000 : ℝ) * (p 2 - p 5) ^ 2 +
      (277761553 / 12920000000000000 : ℝ) * (p 2 - p 6) ^ 2 +
      (2389905213 / 22610000000000000 : ℝ) * (p 2 - p 7) ^ 2 +
      (20212548043 / 117572000000000000 : ℝ) * (p 2 - p 8) ^ 2 +
      (2958698137 / 22610000000000000 : ℝ) * (p 3 + p 4) ^ 2 +
      (110529472313 / 56525000000000000 : ℝ) * (p 3 - p 5) ^ 2 +
      (1123505619 / 16150000000000000 : ℝ) * (p 3 + p 6) ^ 2 +
      (32421706099 / 38675000000000000 : ℝ) * (p 3 + p 7) ^ 2 +
      (1870082756023 / 2939300000000000000 : ℝ) * (p 3 + p 8) ^ 2 +
      (2873108229 / 6460000000000000 : ℝ) * (p 4 + p 5) ^ 2 +
      (3197331470031 / 839800000000000000 : ℝ) * (p 4 - p 6) ^ 2 +
      (12594199038013 / 5878600000000000000 : ℝ) * (p 4 + p 7) ^ 2 +
      (4585050163 / 209950000000000000 : ℝ) * (p 4 + p 8) ^ 2 +
      (52489408761 / 1175720000000000000 : ℝ) * (p 4 - p 9) ^ 2 +
      (10992025271 / 1469650000000000000 : ℝ) * (p 4 + p 10) ^ 2 +
      (123593699 / 113050000000000000 : ℝ) * (p 4 - p 11) ^ 2 +
      (18168879 / 323000000000000000 : ℝ) * (p 4 + p 12) ^ 2 +
      (154586386713 / 41990000000000000 : ℝ) * (p 5 + p 6) ^ 2 +
      (77451160859 / 226100000000000000 : ℝ) * (p 5 + p 7) ^ 2 +
      (961525509013 / 2939300000000000000 : ℝ) * (p 5 + p 8) ^ 2 +
      (5331076713 / 154700000000000000 : ℝ) * (p 5 - p 9) ^ 2 +
      (13698927 / 9044000000000000 : ℝ) * (p 5 - p 10) ^ 2 +
      (8983909 / 12920000000000000 : ℝ) * (p 5 + p 11) ^ 2 +
      (750559 / 12920000000000000 : ℝ) * (p 5 - p 12) ^ 2 +
      (6011175899 / 8398000000000000 : ℝ) * (p 6 + p 7) ^ 2 +
      (1067630451 / 8398000000000000 : ℝ) * (p 6 - p 8) ^ 2 +
      (334562893 / 16150000000000000 : ℝ) * (p 6 - p 9) ^ 2 +
      (2903973 / 403750000000000 : ℝ) * (p 6 + p 10) ^ 2 +
      (390573 / 3400000000000000 : ℝ) * (p 6 - p 11) ^ 2 +
      (13 / 16150000000000000 : ℝ) * (p 6 - p 12) ^ 2 +
      (264837417 / 6460000000000000 : ℝ) * (p 7 - p 8) ^ 2 +
      (1026274143 / 452200000000000000 : ℝ) * (p 7 + p 9) ^ 2 +
      (324668097 / 90440000000000000 : ℝ) * (p 7 - p 10) ^ 2 +
      (52609 / 2826250000000000 : ℝ) * (p 7 - p 11) ^ 2 +
      (204751 / 13300000000000000 : ℝ) * (p 7 - p 12) ^ 2 +
      (378043947 / 45220000000000000 : ℝ) * (p 8 - p 9) ^ 2 +
      (32144277 / 452200000000000000 : ℝ) * (p 8 + p 10) ^ 2 +
      (49673 / 380000000000000 : ℝ) * (p 8 - p 11) ^ 2 +
      (9627 / 2660000000000000 : ℝ) * (p 8 + p 12) ^ 2 +
      (7754687068567 / 565250000000000000 : ℝ) * p 0 ^ 2 +
      (5563165633421 / 452200000000000000 : ℝ) * p 1 ^ 2 +
      (38351875599971 / 5878600000000000000 : ℝ) * p 2 ^ 2 +
      (29891566239709 / 2939300000000000000 : ℝ) * p 3 ^ 2 +
      (18272534652839 / 7348250000000000000 : ℝ) * p 4 ^ 2 +
      (22312903612663 / 5878600000000000000 : ℝ) * p 5 ^ 2 +
      (4436173370749 / 839800000000000000 : ℝ) * p 6 ^ 2 +
      (13613101058443 / 1469650000000000000 : ℝ) * p 7 ^ 2 +
      (1201546439651 / 96687500000000000 : ℝ) * p 8 ^ 2 +
      (2011884596777 / 146965000000000000 : ℝ) * p 9 ^ 2 +
      (578628603197 / 41990000000000000 : ℝ) * p 10 ^ 2 +
      (623943171387 / 45220000000000000 : ℝ) * p 11 ^ 2 +
      (15600749238791 / 1130500000000000000 : ℝ) * p 12 ^ 2 := by positivity
    linarith only [this]
  · have : 0 ≤ (106634131 / 2660000000000000 : ℝ) * (p 0 - p 4) ^ 2 +
      (352815213 / 26600000000000000 : ℝ) * (p 0 + p 5) ^ 2 +
      (614294617 / 32300000000000000 : ℝ) * (p 0 - p 6) ^ 2 +
      (123675857 / 16150000000000000 : ℝ) * (p 0 + p 7) ^ 2 +
      (301168301 / 323000000000000000 : ℝ) * (p 0 + p 8) ^ 2 +
      (6722957 / 95000000000000 : ℝ) * (p 1 + p 4) ^ 2 +
      (24689484333 / 22610000000000000 : ℝ) * (p 1 - p 5) ^ 2 +
      (37280549 / 850000000000000 : ℝ) * (p 1 + p 6) ^ 2 +
      (14130741017 / 64600000000000000 : ℝ) * (p 1 + p 7) ^ 2 +
      (8163741353 / 113050000000000000 : ℝ) * (p 1 + p 8) ^ 2 +
      (461303801099 / 113050000000000000 : ℝ) * (p 2 - p 4) ^ 2 +
      (81858761917 / 28262500000000000 : ℝ) * (p 2 + p 5) ^ 2 +
      (277761553 / 12920000000000000 : ℝ) * (p 2 + p 6) ^ 2 +
      (2389905213 / 22610000000000000 : ℝ) * (p 2 + p 7) ^ 2 +
      (20212548043 / 117572000000000000 : ℝ) * (p 2 + p 8) ^ 2 +
      (2958698137 / 22610000000000000 : ℝ) * (p 3 - p 4) ^ 2 +
      (110529472313 / 56525000000000000 : ℝ) * (p 3 + p 5) ^ 2 +
      (1123505619 / 16150000000000000 : ℝ) * (p 3 - p 6) ^ 2 +
      (32421706099 / 38675000000000000 : ℝ) * (p 3 - p 7) ^ 2 +
      (1870082756023 / 2939300000000000000 : ℝ) * (p 3 - p 8) ^ 2 +
      (2873108229 / 6460000000000000 : ℝ) * (p 4 - p 5) ^ 2 +
      (3197331470031 / 839800000000000000 : ℝ) * (p 4 + p 6) ^ 2 +
      (12594199038013 / 5878600000000000000 : ℝ) * (p 4 - p 7) ^ 2 +
      (4585050163 / 209950000000000000 : ℝ) * (p 4 - p 8) ^ 2 +
      (52489408761 / 1175720000000000000 : ℝ) * (p 4 + p 9) ^ 2 +
      (10992025271 / 1469650000000000000 : ℝ) * (p 4 - p 10) ^ 2 +
      (123593699 / 113050000000000000 : ℝ) * (p 4 + p 11) ^ 2 +
      (18168879 / 323000000000000000 : ℝ) * (p 4 - p 12) ^ 2 +
      (154586386713 / 41990000000000000 : ℝ) * (p 5 - p 6) ^ 2 +
      (77451160859 / 226100000000000000 : ℝ) * (p 5 - p 7) ^ 2 +
      (961525509013 / 2939300000000000000 : ℝ) * (p 5 - p 8) ^ 2 +
      (5331076713 / 154700000000000000 : ℝ) * (p 5 + p 9) ^ 2 +
      (13698927 / 9044000000000000 : ℝ) * (p 5 + p 10) ^ 2 +
      (8983909 / 12920000000000000 : ℝ) * (p 5 - p 11) ^ 2 +
      (750559 / 12920000000000000 : ℝ) * (p 5 + p 12) ^ 2 +
      (6011175899 / 8398000000000000 : ℝ) * (p 6 - p 7) ^ 2 +
      (1067630451 / 8398000000000000 : ℝ) * (p 6 + p 8) ^ 2 +
      (334562893 / 16150000000000000 : ℝ) * (p 6 + p 9) ^ 2 +
      (2903973 / 403750000000000 : ℝ) * (p 6 - p 10) ^ 2 +
      (390573 / 3400000000000000 : ℝ) * (p 6 + p 11) ^ 2 +
      (13 / 16150000000000000 : ℝ) * (p 6 + p 12) ^ 2 +
      (264837417 / 6460000000000000 : ℝ) * (p 7 + p 8) ^ 2 +
      (1026274143 / 452200000000000000 : ℝ) * (p 7 - p 9) ^ 2 +
      (324668097 / 90440000000000000 : ℝ) * (p 7 + p 10) ^ 2 +
      (52609 / 2826250000000000 : ℝ) * (p 7 + p 11) ^ 2 +
      (204751 / 13300000000000000 : ℝ) * (p 7 + p 12) ^ 2 +
      (378043947 / 45220000000000000 : ℝ) * (p 8 + p 9) ^ 2 +
      (32144277 / 452200000000000000 : ℝ) * (p 8 - p 10) ^ 2 +
      (49673 / 380000000000000 : ℝ) * (p 8 + p 11) ^ 2 +
      (9627 / 2660000000000000 : ℝ) * (p 8 - p 12) ^ 2 +
      (7754687068567 / 565250000000000000 : ℝ) * p 0 ^ 2 +
      (5563165633421 / 452200000000000000 : ℝ) * p 1 ^ 2 +
      (38351875599971 / 5878600000000000000 : ℝ) * p 2 ^ 2 +
      (29891566239709 / 2939300000000000000 : ℝ) * p 3 ^ 2 +
      (25938317613519 / 7348250000000000000 : ℝ) * p 4 ^ 2 +
      (769409914891 / 345800000000000000 : ℝ) * p 5 ^ 2 +
      (4442795666529 / 839800000000000000 : ℝ) * p 6 ^ 2 +
      (268525850387 / 28262500000000000 : ℝ) * p 7 ^ 2 +
      (12973839433403 / 1049750000000000000 : ℝ) * p 8 ^ 2 +
      (2011884596777 / 146965000000000000 : ℝ) * p 9 ^ 2 +
      (578628603197 / 41990000000000000 : ℝ) * p 10 ^ 2 +
      (623943171387 / 45220000000000000 : ℝ) * p 11 ^ 2 +
      (15600749238791 / 1130500000000000000 : ℝ) * p 12 ^ 2 := by positivity
    linarith only [this]

theorem velPos8 (T : ℝ) (x : Fin 1 → ℝ) :
    ∑ a, ∑ b, c0_dc0_ddc0_j0_j1_ddc1_dc1_c1.velocityCostH T a b * (x a * x b)
      = T⁻¹ * ((1 / 100 : ℝ) * ∑ a, x a ^ 2 +
      (651680652684107 / 100000000000000 : ℝ) * (x 0) ^ 2) := by
  simp only [c0_dc0_ddc0_j0_j1_ddc1_dc1_c1.velocityCostH, Fin.sum_univ_one]
  simp
  ring

theorem velPos10 (T : ℝ) (x : Fin 3 → ℝ) :
    ∑ a, ∑ b, c0_dc0_ddc0_j0_x3_j1_ddc1_dc1_c1.velocityCostH T a b * (x a * x b)
      = T⁻¹ * ((1 / 100 : ℝ) * ∑ a, x a ^ 2 +
      (388228916823403 / 50000000000000 : ℝ) * (x 0 + (272110243516630 / 388228916823403 : ℝ) * x 1 + (120937884230467 / 776457833646806 : ℝ) * x 2) ^ 2 +
      (133233307491205460599912494149 / 38822891682340300000000000000 : ℝ) * (x 1 + (178373692347401431032768806075 / 133233307491205460599912494149 : ℝ) * x 2) ^ 2 +
      (37971369075098248667606758468460044094336047 / 26646661498241092119982498829800000000000000 : ℝ) * (x 2) ^ 2) := by
  simp only [c0_dc0_ddc0_j0_x3_j1_ddc1_dc1_c1.velocityCostH, Fin.sum_univ_three]
  simp
  ring

theorem velPos12 (T : ℝ) (x : Fin 5 → ℝ) :
    ∑ a, ∑ b, c0_dc0_ddc0_j0_x5_j1_ddc1_dc1_c1.velocityCostH T a b * (x a * x b)
      = T⁻¹ * ((1 / 100 : ℝ) * ∑ a, x a ^ 2 +
      (120286315903631 / 12500000000000 : ℝ) * (x 0 + (674303450048115 / 962290527229048 : ℝ) * x 1 + (414955180440231 / 1924581054458096 : ℝ) * x 2 + (-355676093144659 / 1924581054458096 : ℝ) * x 3 + (-176827815054763 / 481145263614524 : ℝ) * x 4) ^ 2 +
      (342968986492795182390682705119 / 96229052722904800000000000000 : ℝ) * (x 1 + (306039838348797076180036494985 / 228645990995196788260455136746 : ℝ) * x 2 + (644327675150034506039359346009 / 685937972985590364781365410238 : ℝ) * x 3 + (1819977546870741169238222834 / 9269432067372842767315748787 : ℝ) * x 4) ^ 2 +
      (16451923715698522792875470303124042275209693 / 15243066066346452550697009116400000000000000 : ℝ) * (x 2 + (97250901804206935944045251083428444343824799 / 49355771147095568378626410909372126825629079 : ℝ) * x 3 + (86914865695745847727584836370230212808105042 / 49355771147095568378626410909372126825629079 : ℝ) * x 4) ^ 2 +
      (9258096386720873390853991877279799966924448701105659239757 / 14806731344128670513587923272811638047688723700000000000000 : ℝ) * (x 3 + (24980229449706146541440960813708879118156871554584475838054 / 9258096386720873390853991877279799966924448701105659239757 : ℝ) * x 4) ^ 2 +
      (66349501586819287994415799412687580486964923911432710969431419766794913 / 231452409668021834771349796931994999173111217527641480993925000000000000 : ℝ) * (x 4) ^ 2) := by
  simp only [c0_dc0_ddc0_j0_x5_j1_ddc1_dc1_c1.velocityCostH, Fin.sum_univ_five]
  simp
  ring

end Verif
