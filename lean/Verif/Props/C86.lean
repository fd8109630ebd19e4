import Verif.Lemmas.QuadFpExact
import Verif.Lemmas.QuadFlArith
import Verif.Lemmas.QuadFp

/-!
# C86: the QP solver stays in bounds and returns, whatever the arithmetic, unless a constraint is refused
-/

namespace Verif

variable {F : Type} {n : ℕ}

/-- C86. Whatever the numbers and the results of the operations on them (roundings, overflows, `NaN`s, any order of summation), as long as the comparisons are
`Sane` and no inequality selected with `|z.z| > eps` is refused by `add_constraint`, `solve_quadprog` reads and writes inside its
arrays and returns after at most `nEqCon + 2 + maxIter (n + 3)` passes. -/
theorem C86_any_arithmetic (o : Arith F n) (ho : o.Sane) (maxIter : ℕ) (P : FQP F n) (hE : P.CE.length ≤ n) (J0 : ℕ → Fin n → F)
    (x0 : Fin n → F) (w : FWork F n)
    (hacc : ∀ st, o.Reach maxIter P J0 (.eq 0 (o.init P J0 x0 w)) (.l2a st) → o.Accepts P st) :
    ∃ r s, ∀ fuel, P.CE.length + 2 + maxIter * (n + 3) ≤ fuel → o.solve maxIter P J0 x0 w fuel = .ok (r, s) := by
  obtain ⟨r, s, h, -⟩ := Arith.run_good ho hacc _ (.eq 0 (o.init P J0 x0 w)) le_rfl ⟨rfl, Nat.zero_le _, hE, rfl⟩ .refl
  exact ⟨r, s, fun fuel hf => h fuel (by simpa [Arith.cost] using hf)⟩

/-- The machine of C86 with exact operations is the machine of the other properties. -/
theorem C86_exact (eps : ℝ) (maxIter : ℕ) (P : QP n) (J0 : ℕ → VecN n) (w : Work n) (fuel : ℕ) :
    (exactArith eps n).solve maxIter P.toF J0 (-∑ j ∈ Finset.range n, (J0 j ⬝ᵥ P.g) • J0 j) w.toF fuel =
      solveQuadprog eps maxIter P J0 w fuel >>= fun r => .ok (r.1, r.2.toF) :=
  solveQuadprogF_exact eps maxIter P J0 w fuel

/-- Comparisons are sane with exact operations and with rounded operations. -/
example {eps : ℝ} (h : 0 ≤ eps) : (exactArith eps n).Sane :=
  ⟨by simpa [Arith.far, exactArith] using h, le_refl (0 : ℝ), fun _ _ => rfl⟩

/-- A non-trivial case: a problem with one variable, and no inequality to refuse. -/
example (fl : ℝ → ℝ) (hfl : ∀ x, |fl x - x| ≤ 1 / 1000 * |x|) (maxIter : ℕ) (x0 : Fin 1 → ℝ) (w : FWork ℝ 1) :
    ∃ r s, ∀ fuel, 3 + maxIter * 4 ≤ fuel →
      (flArith fl 0 (fun _ _ _ _ => 0) 1).solve maxIter ⟨1, fun _ => 1, [(fun _ => 1, 1)], []⟩ (fun _ _ => 1) x0 w fuel = .ok (r, s) := by
  refine C86_any_arithmetic (flArith fl 0 (fun _ _ _ _ => 0) 1)
    (flArith_rounded (u := 1 / 1000) (m := 0) (N := 1) (by norm_num) hfl le_rfl _ le_rfl (by norm_num)).sane maxIter
    ⟨1, fun _ => 1, [(fun _ => 1, 1)], []⟩ (by simp) (fun _ _ => 1) x0 w ?_
  intro st hr
  -- without inequalities label `l2a` is not reached
  have key : ∀ q, Arith.Reach (flArith fl 0 (fun _ _ _ _ => 0) 1) maxIter ⟨1, fun _ => 1, [(fun _ => 1, 1)], []⟩ (fun _ _ => 1)
      (.eq 0 (Arith.init (flArith fl 0 (fun _ _ _ _ => 0) 1) ⟨1, fun _ => 1, [(fun _ => 1, 1)], []⟩ (fun _ _ => 1) x0 w)) q →
      ∀ st, q ≠ .l2a st := by
    intro q hq
    induction hq with
    | refl => intro st h; cases h
    | @tail b c _ hs ih =>
      rintro st rfl
      cases b with
      | ret r s => cases hs
      | eq i s =>
        simp only [Arith.step, Arith.stepEq] at hs
        split at hs
        · split at hs
          · split at hs
            · split at hs <;> cases hs
            all_goals cases hs
          · cases hs
        · cases hs
      | l1 s =>
        simp only [Arith.step, Arith.stepL1] at hs
        split at hs
        · cases hs
        · split at hs
          · split at hs <;> cases hs
          · cases hs
      | l2 s =>
        simp only [Arith.step, Arith.stepL2] at hs
        split at hs
        · cases hs
        · split at hs
          · rename_i hh; exact absurd hh.1 (by simp)
          · cases hs
      | l2a s => exact ih s rfl
  exact absurd rfl (key _ hr st)

end Verif
