import Verif.Lemmas.FpError
import Verif.Waypoints.Fp

/-!
# Rounding errors of the constant waypoints
-/

namespace Verif

section
variable {u : ℝ} (h0 : 0 ≤ u) {ρ : Var → ℝ} {T : ℝ} (hT : 0 < T) (hρ : ρ .T = T)
include h0 hT hρ
open FExp

theorem shape1 (n : ℕ) (hn : 0 < n) (hu : (3 : ℕ) * u < 1) (a b : Var) {r : ℝ}
    (h : ((FExp.var a * Fp.T / FExp.lit n) + FExp.var b : FExp).Computes u ρ r) :
    |r - (ρ a * T / n + ρ b)| ≤ gam 3 u * (|ρ a| * T / n + |ρ b|) := by
  have hn' : (n : ℝ) ≠ 0 := by exact_mod_cast hn.ne'
  have e := h.error h0 (n := 3) (by norm_num) hu
    ⟨⟨⟨trivial, trivial⟩, trivial, hn'⟩, trivial⟩ (le_of_eq rfl)
  change |r - (ρ a * ρ .T / n + ρ b)| ≤ _ * (|ρ a| * |ρ .T| / |(n : ℝ)| + |ρ b|) at e
  rw [hρ, abs_of_pos hT, Nat.abs_cast] at e
  exact e

theorem shape1n (n : ℕ) (hn : 0 < n) (hu : (3 : ℕ) * u < 1) (a b : Var) {r : ℝ}
    (h : ((-FExp.var a * Fp.T / FExp.lit n) + FExp.var b : FExp).Computes u ρ r) :
    |r - (-ρ a * T / n + ρ b)| ≤ gam 3 u * (|ρ a| * T / n + |ρ b|) := by
  have hn' : (n : ℝ) ≠ 0 := by exact_mod_cast hn.ne'
  have e := h.error h0 (n := 3) (by norm_num) hu
    ⟨⟨⟨trivial, trivial⟩, trivial, hn'⟩, trivial⟩ (le_of_eq rfl)
  change |r - (-ρ a * ρ .T / n + ρ b)| ≤ _ * (|ρ a| * |ρ .T| / |(n : ℝ)| + |ρ b|) at e
  rw [hρ, abs_of_pos hT, Nat.abs_cast] at e
  exact e

theorem shape2 (n : ℕ) (hn : 1 < n) (hu : (7 : ℕ) * u < 1) (a b c : Var) {r : ℝ}
    (h : ((FExp.var a * Fp.T * Fp.T / (FExp.lit n * (FExp.lit n - FExp.lit 1))) + (FExp.lit 2 * FExp.var b * Fp.T / FExp.lit n) + FExp.var c : FExp).Computes u ρ r) :
    |r - (ρ a * T * T / (n * (n - 1)) + 2 * ρ b * T / n + ρ c)| ≤
      gam 7 u * (|ρ a| * T * T / (n * (n - 1)) + 2 * |ρ b| * T / n + |ρ c|) := by
  have h1 : (1 : ℝ) < n := by exact_mod_cast hn
  have hn' : (n : ℝ) ≠ 0 := by linarith
  have hn2 : (n : ℝ) * (n - (1 : ℕ)) ≠ 0 := mul_ne_zero hn' (by push_cast; linarith)
  have e := h.error h0 (n := 7) (by norm_num) hu
    ⟨⟨⟨⟨⟨trivial, trivial⟩, trivial⟩, ⟨trivial, ⟨_, rfl⟩, ⟨_, rfl⟩⟩, hn2⟩, ⟨⟨trivial, trivial⟩, trivial⟩, trivial, hn'⟩, trivial⟩ (le_of_eq rfl)
  change |r - (ρ a * ρ .T * ρ .T / (n * (n - (1 : ℕ))) + (2 : ℕ) * ρ b * ρ .T / n + ρ c)| ≤
    _ * (|ρ a| * |ρ .T| * |ρ .T| / |(n : ℝ) * (n - (1 : ℕ))| + (2 : ℕ) * |ρ b| * |ρ .T| / |(n : ℝ)| + |ρ c|) at e
  have p2 : 0 < (n : ℝ) * (n - (1 : ℕ)) := by push_cast; exact mul_pos (by linarith) (by linarith)
  rw [hρ, abs_of_pos hT, Nat.abs_cast, abs_of_pos p2] at e
  push_cast at e
  exact e

theorem shape2n (n : ℕ) (hn : 1 < n) (hu : (7 : ℕ) * u < 1) (a b c : Var) {r : ℝ}
    (h : ((FExp.var a * Fp.T * Fp.T / (FExp.lit n * (FExp.lit n - FExp.lit 1))) - (FExp.lit 2 * FExp.var b * Fp.T / FExp.lit n) + FExp.var c : FExp).Computes u ρ r) :
    |r - (ρ a * T * T / (n * (n - 1)) - 2 * ρ b * T / n + ρ c)| ≤
      gam 7 u * (|ρ a| * T * T / (n * (n - 1)) + 2 * |ρ b| * T / n + |ρ c|) := by
  have h1 : (1 : ℝ) < n := by exact_mod_cast hn
  have hn' : (n : ℝ) ≠ 0 := by linarith
  have hn2 : (n : ℝ) * (n - (1 : ℕ)) ≠ 0 := mul_ne_zero hn' (by push_cast; linarith)
  have e := h.error h0 (n := 7) (by norm_num) hu
    ⟨⟨⟨⟨⟨trivial, trivial⟩, trivial⟩, ⟨trivial, ⟨_, rfl⟩, ⟨_, rfl⟩⟩, hn2⟩, ⟨⟨trivial, trivial⟩, trivial⟩, trivial, hn'⟩, trivial⟩ (le_of_eq rfl)
  change |r - (ρ a * ρ .T * ρ .T / (n * (n - (1 : ℕ))) - (2 : ℕ) * ρ b * ρ .T / n + ρ c)| ≤
    _ * (|ρ a| * |ρ .T| * |ρ .T| / |(n : ℝ) * (n - (1 : ℕ))| + (2 : ℕ) * |ρ b| * |ρ .T| / |(n : ℝ)| + |ρ c|) at e
  have p2 : 0 < (n : ℝ) * (n - (1 : ℕ)) := by push_cast; exact mul_pos (by linarith) (by linarith)
  rw [hρ, abs_of_pos hT, Nat.abs_cast, abs_of_pos p2] at e
  push_cast at e
  exact e

theorem shape3 (n : ℕ) (hn : 2 < n) (hu : (11 : ℕ) * u < 1) (a b c d : Var) {r : ℝ}
    (h : ((FExp.var a * Fp.T * Fp.T * Fp.T / (FExp.lit n * (FExp.lit n - FExp.lit 1) * (FExp.lit n - FExp.lit 2))) +
      (FExp.lit 3 * FExp.var b * Fp.T * Fp.T / (FExp.lit n * (FExp.lit n - FExp.lit 1))) +
      (FExp.lit 3 * FExp.var c * Fp.T / FExp.lit n) + FExp.var d : FExp).Computes u ρ r) :
    |r - (ρ a * T * T * T / (n * (n - 1) * (n - 2)) + 3 * ρ b * T * T / (n * (n - 1)) + 3 * ρ c * T / n + ρ d)| ≤
      gam 11 u * (|ρ a| * T * T * T / (n * (n - 1) * (n - 2)) + 3 * |ρ b| * T * T / (n * (n - 1)) + 3 * |ρ c| * T / n + |ρ d|) := by
  have h1 : (2 : ℝ) < n := by exact_mod_cast hn
  have hn' : (n : ℝ) ≠ 0 := by linarith
  have hn2 : (n : ℝ) * (n - (1 : ℕ)) ≠ 0 := mul_ne_zero hn' (by push_cast; linarith)
  have hn3 : (n : ℝ) * (n - (1 : ℕ)) * (n - (2 : ℕ)) ≠ 0 := mul_ne_zero hn2 (by push_cast; linarith)
  have e := h.error h0 (n := 11) (by norm_num) hu
    ⟨⟨⟨⟨⟨⟨⟨trivial, trivial⟩, trivial⟩, trivial⟩, ⟨⟨trivial, ⟨_, rfl⟩, ⟨_, rfl⟩⟩, ⟨_, rfl⟩, ⟨_, rfl⟩⟩, hn3⟩,
      ⟨⟨⟨trivial, trivial⟩, trivial⟩, trivial⟩, ⟨trivial, ⟨_, rfl⟩, ⟨_, rfl⟩⟩, hn2⟩, ⟨⟨trivial, trivial⟩, trivial⟩, trivial, hn'⟩, trivial⟩ (le_of_eq rfl)
  change |r - (ρ a * ρ .T * ρ .T * ρ .T / (n * (n - (1 : ℕ)) * (n - (2 : ℕ))) + (3 : ℕ) * ρ b * ρ .T * ρ .T / (n * (n - (1 : ℕ))) +
      (3 : ℕ) * ρ c * ρ .T / n + ρ d)| ≤
    _ * (|ρ a| * |ρ .T| * |ρ .T| * |ρ .T| / |(n : ℝ) * (n - (1 : ℕ)) * (n - (2 : ℕ))| +
      (3 : ℕ) * |ρ b| * |ρ .T| * |ρ .T| / |(n : ℝ) * (n - (1 : ℕ))| + (3 : ℕ) * |ρ c| * |ρ .T| / |(n : ℝ)| + |ρ d|) at e
  have p2 : 0 < (n : ℝ) * (n - (1 : ℕ)) := by push_cast; exact mul_pos (by linarith) (by linarith)
  have p3 : 0 < (n : ℝ) * (n - (1 : ℕ)) * (n - (2 : ℕ)) := mul_pos p2 (by push_cast; linarith)
  rw [hρ, abs_of_pos hT, Nat.abs_cast, abs_of_pos p2, abs_of_pos p3] at e
  push_cast at e
  exact e

theorem shape3n (n : ℕ) (hn : 2 < n) (hu : (11 : ℕ) * u < 1) (a b c d : Var) {r : ℝ}
    (h : ((-FExp.var a * Fp.T * Fp.T * Fp.T / (FExp.lit n * (FExp.lit n - FExp.lit 1) * (FExp.lit n - FExp.lit 2))) +
      (FExp.lit 3 * FExp.var b * Fp.T * Fp.T / (FExp.lit n * (FExp.lit n - FExp.lit 1))) -
      (FExp.lit 3 * FExp.var c * Fp.T / FExp.lit n) + FExp.var d : FExp).Computes u ρ r) :
    |r - (-ρ a * T * T * T / (n * (n - 1) * (n - 2)) + 3 * ρ b * T * T / (n * (n - 1)) - 3 * ρ c * T / n + ρ d)| ≤
      gam 11 u * (|ρ a| * T * T * T / (n * (n - 1) * (n - 2)) + 3 * |ρ b| * T * T / (n * (n - 1)) + 3 * |ρ c| * T / n + |ρ d|) := by
  have h1 : (2 : ℝ) < n := by exact_mod_cast hn
  have hn' : (n : ℝ) ≠ 0 := by linarith
  have hn2 : (n : ℝ) * (n - (1 : ℕ)) ≠ 0 := mul_ne_zero hn' (by push_cast; linarith)
  have hn3 : (n : ℝ) * (n - (1 : ℕ)) * (n - (2 : ℕ)) ≠ 0 := mul_ne_zero hn2 (by push_cast; linarith)
  have e := h.error h0 (n := 11) (by norm_num) hu
    ⟨⟨⟨⟨⟨⟨⟨trivial, trivial⟩, trivial⟩, trivial⟩, ⟨⟨trivial, ⟨_, rfl⟩, ⟨_, rfl⟩⟩, ⟨_, rfl⟩, ⟨_, rfl⟩⟩, hn3⟩,
      ⟨⟨⟨trivial, trivial⟩, trivial⟩, trivial⟩, ⟨trivial, ⟨_, rfl⟩, ⟨_, rfl⟩⟩, hn2⟩, ⟨⟨trivial, trivial⟩, trivial⟩, trivial, hn'⟩, trivial⟩ (le_of_eq rfl)
  change |r - (-ρ a * ρ .T * ρ .T * ρ .T / (n * (n - (1 : ℕ)) * (n - (2 : ℕ))) + (3 : ℕ) * ρ b * ρ .T * ρ .T / (n * (n - (1 : ℕ))) -
      (3 : ℕ) * ρ c * ρ .T / n + ρ d)| ≤
    _ * (|ρ a| * |ρ .T| * |ρ .T| * |ρ .T| / |(n : ℝ) * (n - (1 : ℕ)) * (n - (2 : ℕ))| +
      (3 : ℕ) * |ρ b| * |ρ .T| * |ρ .T| / |(n : ℝ) * (n - (1 : ℕ))| + (3 : ℕ) * |ρ c| * |ρ .T| / |(n : ℝ)| + |ρ d|) at e
  have p2 : 0 < (n : ℝ) * (n - (1 : ℕ)) := by push_cast; exact mul_pos (by linarith) (by linarith)
  have p3 : 0 < (n : ℝ) * (n - (1 : ℕ)) * (n - (2 : ℕ)) := mul_pos p2 (by push_cast; linarith)
  rw [hρ, abs_of_pos hT, Nat.abs_cast, abs_of_pos p2, abs_of_pos p3] at e
  push_cast at e
  exact e

end

/-! ## From the points to the derivatives at an end of the curve -/

section
variable {T n g c d q1 : ℝ} (hT : 0 < T) (hn : 2 < n) (hg : 0 ≤ g)
include hT hn

theorem jet_v (h1 : |q1 - (d * T / n + c)| ≤ g * (|d| * T / n + |c|)) :
    |n / T * (q1 - c) - d| ≤ g * (|d| + n / T * |c|) := by
  have hp : 0 < n / T := div_pos (by linarith) hT
  have e : n / T * (q1 - c) - d = n / T * (q1 - (d * T / n + c)) := by field_simp; ring
  rw [e, abs_mul, abs_of_pos hp]
  refine (mul_le_mul_of_nonneg_left h1 hp.le).trans (le_of_eq ?_)
  field_simp

theorem jet_a {dd q2 : ℝ} (h1 : |q1 - (d * T / n + c)| ≤ g * (|d| * T / n + |c|))
    (h2 : |q2 - (dd * T * T / (n * (n - 1)) + 2 * d * T / n + c)| ≤ g * (|dd| * T * T / (n * (n - 1)) + 2 * |d| * T / n + |c|)) :
    |(n - 1) / T * (n / T * (q2 - q1) - n / T * (q1 - c)) - dd| ≤
      g * (|dd| + 4 * (n - 1) / T * |d| + 3 * n * (n - 1) / T ^ 2 * |c|) := by
  have hn0 : n ≠ 0 := by linarith
  have hn1 : n - 1 ≠ 0 := by linarith
  have hp : 0 < n * (n - 1) / T ^ 2 := div_pos (mul_pos (by linarith) (by linarith)) (by positivity)
  have e : (n - 1) / T * (n / T * (q2 - q1) - n / T * (q1 - c)) - dd = n * (n - 1) / T ^ 2 *
      ((q2 - (dd * T * T / (n * (n - 1)) + 2 * d * T / n + c)) - 2 * (q1 - (d * T / n + c))) := by
    field_simp; ring
  rw [e, abs_mul, abs_of_pos hp]
  have h3 := (abs_sub (q2 - (dd * T * T / (n * (n - 1)) + 2 * d * T / n + c)) (2 * (q1 - (d * T / n + c))))
  rw [abs_mul, abs_two] at h3
  refine (mul_le_mul_of_nonneg_left (h3.trans (add_le_add h2 (mul_le_mul_of_nonneg_left h1 zero_le_two))) hp.le).trans (le_of_eq ?_)
  field_simp
  ring

theorem jet_j {dd j q2 q3 : ℝ} (h1 : |q1 - (d * T / n + c)| ≤ g * (|d| * T / n + |c|))
    (h2 : |q2 - (dd * T * T / (n * (n - 1)) + 2 * d * T / n + c)| ≤ g * (|dd| * T * T / (n * (n - 1)) + 2 * |d| * T / n + |c|))
    (h3 : |q3 - (j * T * T * T / (n * (n - 1) * (n - 2)) + 3 * dd * T * T / (n * (n - 1)) + 3 * d * T / n + c)| ≤
      g * (|j| * T * T * T / (n * (n - 1) * (n - 2)) + 3 * |dd| * T * T / (n * (n - 1)) + 3 * |d| * T / n + |c|)) :
    |(n - 2) / T * ((n - 1) / T * (n / T * (q3 - q2) - n / T * (q2 - q1)) - (n - 1) / T * (n / T * (q2 - q1) - n / T * (q1 - c))) - j| ≤
      g * (|j| + 6 * (n - 2) / T * |dd| + 12 * (n - 1) * (n - 2) / T ^ 2 * |d| + 7 * n * (n - 1) * (n - 2) / T ^ 3 * |c|) := by
  have hn0 : n ≠ 0 := by linarith
  have hn1 : n - 1 ≠ 0 := by linarith
  have hn2 : n - 2 ≠ 0 := by linarith
  have hp : 0 < n * (n - 1) * (n - 2) / T ^ 3 :=
    div_pos (mul_pos (mul_pos (by linarith) (by linarith)) (by linarith)) (by positivity)
  have e : (n - 2) / T * ((n - 1) / T * (n / T * (q3 - q2) - n / T * (q2 - q1)) - (n - 1) / T * (n / T * (q2 - q1) - n / T * (q1 - c))) - j =
      n * (n - 1) * (n - 2) / T ^ 3 *
      ((q3 - (j * T * T * T / (n * (n - 1) * (n - 2)) + 3 * dd * T * T / (n * (n - 1)) + 3 * d * T / n + c)) -
        3 * (q2 - (dd * T * T / (n * (n - 1)) + 2 * d * T / n + c)) + 3 * (q1 - (d * T / n + c))) := by
    field_simp; ring
  rw [e, abs_mul, abs_of_pos hp]
  have t1 := abs_add_le ((q3 - (j * T * T * T / (n * (n - 1) * (n - 2)) + 3 * dd * T * T / (n * (n - 1)) + 3 * d * T / n + c)) -
        3 * (q2 - (dd * T * T / (n * (n - 1)) + 2 * d * T / n + c))) (3 * (q1 - (d * T / n + c)))
  have t2 := abs_sub (q3 - (j * T * T * T / (n * (n - 1) * (n - 2)) + 3 * dd * T * T / (n * (n - 1)) + 3 * d * T / n + c))
        (3 * (q2 - (dd * T * T / (n * (n - 1)) + 2 * d * T / n + c)))
  rw [abs_mul, abs_of_pos (show (0 : ℝ) < 3 by norm_num)] at t1 t2
  have t3 := add_le_add (t2.trans (add_le_add h3 (mul_le_mul_of_nonneg_left h2 (show (0 : ℝ) ≤ 3 by norm_num))))
    (mul_le_mul_of_nonneg_left h1 (show (0 : ℝ) ≤ 3 by norm_num))
  refine (mul_le_mul_of_nonneg_left (t1.trans t3) hp.le).trans (le_of_eq ?_)
  field_simp
  ring

end

end Verif
