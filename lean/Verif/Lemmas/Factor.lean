import Verif.Lemmas.QuadAlg
import Mathlib.Analysis.Matrix.Order

/-! The contract on the factorisation can be met exactly for symmetric positive definite Hessians. -/

namespace Verif
open Matrix
open scoped ComplexOrder MatrixOrder

variable {n : ℕ}

/-- A factor exists exactly when the Hessian is symmetric positive definite. -/
theorem factor_iff_posDef (G : Matrix (Fin n) (Fin n) ℝ) : (∃ J, Factor G J) ↔ G.PosDef := by
  constructor
  · rintro ⟨J, hJ⟩
    apply PosDef.of_dotProduct_mulVec_pos
    · apply Matrix.ext
      intro i j
      have := hJ.symm (Pi.single j 1) (Pi.single i 1)
      simpa [Matrix.mulVec_single] using this
    · intro x hx
      simp only [star_trivial]
      rcases (hJ.nonneg x).lt_or_eq with h | h
      · exact h
      · exfalso
        apply hx
        rw [hJ.quad] at h
        have := (Finset.sum_eq_zero_iff_of_nonneg fun j _ => sq_nonneg (J j ⬝ᵥ G *ᵥ x)).mp h.symm
        rw [← hJ.left x]
        unfold jj
        apply Finset.sum_eq_zero
        intro j hj
        have := this j hj
        rw [pow_eq_zero_iff (by norm_num)] at this
        rw [this, zero_smul]
  · intro hG
    obtain ⟨B, hB⟩ := CStarAlgebra.nonneg_iff_eq_star_mul_self.mp hG.inv.posSemidef.nonneg
    refine ⟨fun j => if h : j < n then B ⟨j, h⟩ else 0, fun v => ?_⟩
    have h1 : ∑ j ∈ Finset.range n, ((if h : j < n then B ⟨j, h⟩ else 0) ⬝ᵥ v) • (if h : j < n then B ⟨j, h⟩ else 0) =
        G⁻¹ *ᵥ v := by
      rw [hB, ← Matrix.mulVec_mulVec, Finset.sum_range]
      funext i
      simp only [Fin.is_lt, dite_true, Fin.eta, Finset.sum_apply, Pi.smul_apply, smul_eq_mul, Matrix.mulVec, dotProduct,
        Matrix.star_apply, star_trivial]
      apply Finset.sum_congr rfl
      intro j _
      rw [mul_comm]
    rw [h1, Matrix.mulVec_mulVec, Matrix.mul_nonsing_inv _ ((Matrix.isUnit_iff_isUnit_det G).mp hG.isUnit), Matrix.one_mulVec]

end Verif
