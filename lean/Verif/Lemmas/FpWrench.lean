import Verif.Lemmas.FpNear
import Mathlib.Tactic.FinCases
import Mathlib.Tactic.NormNum
import Mathlib.Tactic.Ring

/-!
# Wrench waypoints: value of the expressions
-/

namespace Verif
open Matrix FExp

/-- Components of the value of a vector. -/
noncomputable def FVec.val (ρ : Var → ℝ) (v : FVec) : V3 := fun k => (v.e k).exact ρ

/-- Components of the value of a matrix. -/
noncomputable def FMat.val (ρ : Var → ℝ) (m : FMat) : M3 := fun i j => (m.e i j).exact ρ

section
variable (ρ : Var → ℝ)

@[simp] theorem val_smul (s : FExp) (v : FVec) : (s * v).val ρ = fun k => s.exact ρ * v.val ρ k := rfl
@[simp] theorem val_smul' (s : FExp) (v : FVec) : (v * s).val ρ = fun k => v.val ρ k * s.exact ρ := rfl
@[simp] theorem val_msmul (s : FExp) (v : FMat) : (s * v).val ρ = fun i j => s.exact ρ * v.val ρ i j := rfl
@[simp] theorem val_msmul' (s : FExp) (v : FMat) : (v * s).val ρ = fun i j => v.val ρ i j * s.exact ρ := rfl
@[simp] theorem val_mv (m : FMat) (v : FVec) : (m * v).val ρ = fun k => m.val ρ k 0 * v.val ρ 0 + m.val ρ k 1 * v.val ρ 1 + m.val ρ k 2 * v.val ρ 2 := rfl
@[simp] theorem val_add (v w : FVec) : (v + w).val ρ = fun k => v.val ρ k + w.val ρ k := rfl
@[simp] theorem val_sub (v w : FVec) : (v - w).val ρ = fun k => v.val ρ k - w.val ρ k := rfl
@[simp] theorem val_neg (v : FVec) : (-v).val ρ = fun k => -v.val ρ k := rfl
@[simp] theorem val_madd (v w : FMat) : (v + w).val ρ = fun i j => v.val ρ i j + w.val ρ i j := rfl
@[simp] theorem val_msub (v w : FMat) : (v - w).val ρ = fun i j => v.val ρ i j - w.val ρ i j := rfl
@[simp] theorem val_mneg (v : FMat) : (-v).val ρ = fun i j => -v.val ρ i j := rfl

@[simp] theorem val_zero : FVec.zero.val ρ = 0 := by funext k; simp [FVec.val, FVec.zero]
@[simp] theorem val_mzero : FMat.zero.val ρ = 0 := by funext i j; simp [FMat.val, FMat.zero]
@[simp] theorem val_one : Fp.Vec.I3.val ρ = 1 := by
  funext i j
  fin_cases i <;> fin_cases j <;> simp [FMat.val, Fp.Vec.I3]
@[simp] theorem val_skew (v : FVec) : (FMat.skew v).val ρ = skew (v.val ρ) := by
  funext i j
  fin_cases i <;> fin_cases j <;> simp [FMat.val, FVec.val, FMat.skew, skew]
@[simp] theorem val_cross (v w : FVec) : (FVec.cross v w).val ρ = eigenCross (v.val ρ) (w.val ρ) := by
  funext k
  fin_cases k <;> simp [FVec.val, FVec.cross, eigenCross]
end

@[simp] theorem val_pi (d : BC) (p : ℕ → V3) (g : V3) (T t : ℝ) (i : ℕ) : (Fp.Vec.pi i).val (env d p g T t) = p i := rfl
@[simp] theorem val_g (d : BC) (p : ℕ → V3) (g : V3) (T t : ℝ) : Fp.Vec.g.val (env d p g T t) = g := rfl
@[simp] theorem val_T (d : BC) (p : ℕ → V3) (g : V3) (T t : ℝ) : FpW.T.exact (env d p g T t) = T := rfl

/-- The value of a wrench waypoint. -/
noncomputable def FWp6.val (ρ : Var → ℝ) (w : FWp6) : Wp6 := ⟨w.top.val ρ, w.bot.val ρ, w.head.val ρ, w.tail.val ρ⟩

theorem FWp6.val_mat (ρ : Var → ℝ) (w : FWp6) (i : Fin 6) (j : Fin 3) : (w.val ρ).mat i j = (w.mat i j).exact ρ := by
  fin_cases i <;> rfl

theorem FWp6.val_vec (ρ : Var → ℝ) (w : FWp6) (i : Fin 6) : (w.val ρ).vec i = (w.vec i).exact ρ := by
  fin_cases i <;> rfl

theorem wp6_ext {w w' : Wp6} (h1 : ∀ i j, w.top i j = w'.top i j) (h2 : ∀ i j, w.bot i j = w'.bot i j) (h3 : ∀ i, w.head i = w'.head i)
    (h4 : ∀ i, w.tail i = w'.tail i) : w = w' := by
  obtain ⟨a, b, c, d⟩ := w
  obtain ⟨a', b', c', d'⟩ := w'
  simp only [Wp6.mk.injEq]
  exact ⟨funext₂ h1, funext₂ h2, funext h3, funext h4⟩

theorem mulVec3 (m : M3) (v : V3) (k : Fin 3) : (m *ᵥ v) k = m k 0 * v 0 + m k 1 * v 1 + m k 2 * v 2 := by
  simp [Matrix.mulVec, dotProduct, Fin.sum_univ_three]

variable (d : BC) (p : ℕ → V3) (g : V3) (T t : ℝ)

/-- Value of the expressions, without simplification. -/
macro "wval" : tactic => `(tactic| (
  simp only [FWp6.val, Fp.Vec.Cpi, Fp.Vec.Cg, mulVec3, val_smul, val_smul', val_msmul, val_msmul', val_mv, val_add, val_sub, val_neg, val_madd, val_msub, val_mneg,
    val_zero, val_mzero, val_one, val_skew, val_cross, val_pi, val_g, val_T, exact_add, exact_mul, exact_sub, exact_div, exact_neg, exact_ofNat,
    exact_ofScientific, Matrix.neg_apply, Pi.zero_apply, Matrix.zero_apply, Pi.neg_apply]
  first | done | (push_cast; ring) | (norm_num; done) | (norm_num; ring)))

theorem val_c0_dc0_c1 : FpW.c0_dc0_c1.computeWwaypoints.map (FWp6.val (env d p g T t)) = c0_dc0_c1.computeWwaypoints p g T := by
  unfold FpW.c0_dc0_c1.computeWwaypoints c0_dc0_c1.computeWwaypoints
  simp only [List.map_cons, List.map_nil, List.cons.injEq, and_true]
  repeat' apply And.intro
  all_goals refine wp6_ext (fun i j => ?_) (fun i j => ?_) (fun i => ?_) (fun i => ?_) <;> wval

theorem val_c0_dc0_dc1 : FpW.c0_dc0_dc1.computeWwaypoints.map (FWp6.val (env d p g T t)) = c0_dc0_dc1.computeWwaypoints p g T := by
  unfold FpW.c0_dc0_dc1.computeWwaypoints c0_dc0_dc1.computeWwaypoints
  simp only [List.map_cons, List.map_nil, List.cons.injEq, and_true]
  repeat' apply And.intro
  all_goals refine wp6_ext (fun i j => ?_) (fun i j => ?_) (fun i => ?_) (fun i => ?_) <;> wval

theorem val_c0_dc0_dc1_c1 : FpW.c0_dc0_dc1_c1.computeWwaypoints.map (FWp6.val (env d p g T t)) = c0_dc0_dc1_c1.computeWwaypoints p g T := by
  unfold FpW.c0_dc0_dc1_c1.computeWwaypoints c0_dc0_dc1_c1.computeWwaypoints
  simp only [List.map_cons, List.map_nil, List.cons.injEq, and_true]
  repeat' apply And.intro
  all_goals refine wp6_ext (fun i j => ?_) (fun i j => ?_) (fun i => ?_) (fun i => ?_) <;> wval

theorem val_c0_dc0_ddc0 : FpW.c0_dc0_ddc0.computeWwaypoints.map (FWp6.val (env d p g T t)) = c0_dc0_ddc0.computeWwaypoints p g T := by
  unfold FpW.c0_dc0_ddc0.computeWwaypoints c0_dc0_ddc0.computeWwaypoints
  simp only [List.map_cons, List.map_nil, List.cons.injEq, and_true]
  repeat' apply And.intro
  all_goals refine wp6_ext (fun i j => ?_) (fun i j => ?_) (fun i => ?_) (fun i => ?_) <;> wval

theorem val_c0_dc0_ddc0_c1 : FpW.c0_dc0_ddc0_c1.computeWwaypoints.map (FWp6.val (env d p g T t)) = c0_dc0_ddc0_c1.computeWwaypoints p g T := by
  unfold FpW.c0_dc0_ddc0_c1.computeWwaypoints c0_dc0_ddc0_c1.computeWwaypoints
  simp only [List.map_cons, List.map_nil, List.cons.injEq, and_true]
  repeat' apply And.intro
  all_goals refine wp6_ext (fun i j => ?_) (fun i j => ?_) (fun i => ?_) (fun i => ?_) <;> wval

theorem val_c0_dc0_ddc0_dc1_c1 : FpW.c0_dc0_ddc0_dc1_c1.computeWwaypoints.map (FWp6.val (env d p g T t)) = c0_dc0_ddc0_dc1_c1.computeWwaypoints p g T := by
  unfold FpW.c0_dc0_ddc0_dc1_c1.computeWwaypoints c0_dc0_ddc0_dc1_c1.computeWwaypoints
  simp only [List.map_cons, List.map_nil, List.cons.injEq, and_true]
  repeat' apply And.intro
  all_goals refine wp6_ext (fun i j => ?_) (fun i j => ?_) (fun i => ?_) (fun i => ?_) <;> wval

theorem val_c0_dc0_ddc0_ddc1_dc1_c1 : FpW.c0_dc0_ddc0_ddc1_dc1_c1.computeWwaypoints.map (FWp6.val (env d p g T t)) = c0_dc0_ddc0_ddc1_dc1_c1.computeWwaypoints p g T := by
  unfold FpW.c0_dc0_ddc0_ddc1_dc1_c1.computeWwaypoints c0_dc0_ddc0_ddc1_dc1_c1.computeWwaypoints
  simp only [List.map_cons, List.map_nil, List.cons.injEq, and_true]
  repeat' apply And.intro
  all_goals refine wp6_ext (fun i j => ?_) (fun i j => ?_) (fun i => ?_) (fun i => ?_) <;> wval

end Verif
