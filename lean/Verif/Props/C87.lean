import Verif.Lemmas.QuadRoundedInv
import Verif.Lemmas.QuadFlArith

/-!
# C87: with rounded arithmetic and well-scaled data the QP solver stays in bounds and returns
-/

namespace Verif

variable {n : ℕ}

/-- C87. With rounded arithmetic, and data whose size is small compared with `1 / eps` (`ConditionedFp`), no inequality is refused;
hence `solve_quadprog` reads and writes inside its arrays and returns after at most `nEqCon + 2 + maxIter (n + 3)` passes. -/
theorem C87_rounded (o : Arith ℝ n) {m : ℕ} {u g : ℝ} (ho : o.Rounded m u g) (maxIter : ℕ) (P : FQP ℝ n) (hE : P.CE.length ≤ n)
    (J0 : ℕ → Fin n → ℝ) (x0 : Fin n → ℝ) (w : FWork ℝ n) {N B : ℝ} (hC : o.ConditionedFp u g maxIter P J0 N B) :
    (∀ st, o.Reach maxIter P J0 (.eq 0 (o.init P J0 x0 w)) (.l2a st) → o.Accepts P st) ∧
    ∃ r s, ∀ fuel, P.CE.length + 2 + maxIter * (n + 3) ≤ fuel → o.solve maxIter P J0 x0 w fuel = .ok (r, s) := by
  have hacc : ∀ st, o.Reach maxIter P J0 (.eq 0 (o.init P J0 x0 w)) (.l2a st) → o.Accepts P st := by
    intro st hr
    obtain ⟨-, c, hc, hB⟩ := hC.reach ho hE hr
    exact hC.accepts ho (c := c) (by omega) hB
  refine ⟨hacc, ?_⟩
  obtain ⟨r, s, h, -⟩ := Arith.run_good ho.sane hacc _ (.eq 0 (o.init P J0 x0 w)) le_rfl ⟨rfl, Nat.zero_le _, hE, rfl⟩ .refl
  exact ⟨r, s, fun fuel hf => h fuel (by simpa [Arith.cost] using hf)⟩

/-- The sum of products computed from left to right with any rounding of relative error `u` has an error at most
`(1 + u)^(N+1) - 1` times the sum of the absolute values, and the resulting arithmetic is `Rounded`. -/
theorem C87_left_to_right {fl : ℝ → ℝ} {u : ℝ} (hu : 0 ≤ u) (hfl : ∀ x, |fl x - x| ≤ u * |x|) {eps : ℝ} (heps : 0 ≤ eps)
    (tri : (ℕ → ℕ → ℝ) → (ℕ → ℝ) → ℕ → ℕ → ℝ) {m N : ℕ} (hn : n ≤ N) (hm : m ≤ N) :
    (flArith fl eps tri n).Rounded m u ((1 + u) ^ (N + 1) - 1) :=
  flArith_rounded hu hfl heps tri hn hm

/-- A non-trivial case: doubles, one thousand passes, minimise `x² / 2` under `x ≥ 1`. -/
example (fl : ℝ → ℝ) (hfl : ∀ x, |fl x - x| ≤ 2⁻¹ ^ 53 * |x|) (tri : (ℕ → ℕ → ℝ) → (ℕ → ℝ) → ℕ → ℕ → ℝ) (x0 : Fin 1 → ℝ) (w : FWork ℝ 1) :
    ∃ r s, ∀ fuel, 4002 ≤ fuel →
      (flArith fl (2⁻¹ ^ 52) tri 1).solve 1000 ⟨1, fun _ => 0, [], [(fun _ => 1, -1)]⟩ (fun _ _ => 1) x0 w fuel = .ok (r, s) := by
  refine (C87_rounded (flArith fl (2⁻¹ ^ 52) tri 1) (C87_left_to_right (m := 1) (N := 1) (by norm_num) hfl (by norm_num) tri le_rfl le_rfl)
    1000 ⟨1, fun _ => 0, [], [(fun _ => 1, -1)]⟩ (by simp) (fun _ _ => 1) x0 w (N := 1) (B := 1) ?_).2
  exact {
    u0 := by norm_num, u1 := by norm_num, g0 := by norm_num, g1 := by norm_num
    steps := by norm_num
    sum := by simp
    ce := by simp
    ci := by simp
    eps := by simp only [flArith]; norm_num }

end Verif
