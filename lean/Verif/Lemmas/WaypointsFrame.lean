import Verif.Props.C112

/-!
# The wrench waypoints in other axes and in other units

The wrench waypoints of the seven sets, including the two whose coefficients are decimals, turn with the axes of the frame and
scale with the units: they are sums of multiples of points, of products `skew a * b` and of the identity.
-/

namespace Verif
open Matrix

/-! ## Other axes -/

/-- `v'` is `v` in the other axes. -/
def VecRot (R : V3 ≃ₗ[ℝ] V3) (v v' : V3) : Prop := v' = R v

/-- `M'` is the linear map `M` in the other axes. -/
def MatRot (R : V3 ≃ₗ[ℝ] V3) (M M' : M3) : Prop := ∀ x, M' *ᵥ R x = R (M *ᵥ x)

section
variable {R : V3 ≃ₗ[ℝ] V3}

theorem VecRot.add {f h f' h' : V3} (a : VecRot R f f') (b : VecRot R h h') :
    VecRot R (fun k => f k + h k) fun k => f' k + h' k := by
  subst a b
  exact (map_add R f h).symm

theorem VecRot.sub {f h f' h' : V3} (a : VecRot R f f') (b : VecRot R h h') :
    VecRot R (fun k => f k - h k) fun k => f' k - h' k := by
  subst a b
  exact (map_sub R f h).symm

theorem VecRot.mulLeft {f f' : V3} (c : ℝ) (a : VecRot R f f') : VecRot R (fun k => c * f k) fun k => c * f' k := by
  subst a
  exact (map_smul R c f).symm

theorem VecRot.mulRight {f f' : V3} (c : ℝ) (a : VecRot R f f') : VecRot R (fun k => f k * c) fun k => f' k * c := by
  have := a.mulLeft c
  simpa only [mul_comm] using this

theorem VecRot.neg {f f' : V3} (a : VecRot R f f') : VecRot R (fun k => -f k) fun k => -f' k := by
  subst a
  exact (map_neg R f).symm

theorem VecRot.zero : VecRot R 0 0 := (map_zero R).symm

theorem VecRot.point (a : V3) : VecRot R a (R a) := rfl

theorem MatRot.zero : MatRot R 0 0 := by
  intro x
  simp

theorem MatRot.one : MatRot R 1 1 := by
  intro x
  simp

theorem MatRot.add {f h f' h' : M3} (a : MatRot R f f') (b : MatRot R h h') :
    MatRot R (fun i j => f i j + h i j) fun i j => f' i j + h' i j := by
  intro x
  change (f' + h') *ᵥ R x = R ((f + h) *ᵥ x)
  rw [add_mulVec, add_mulVec, map_add, a x, b x]

theorem MatRot.sub {f h f' h' : M3} (a : MatRot R f f') (b : MatRot R h h') :
    MatRot R (fun i j => f i j - h i j) fun i j => f' i j - h' i j := by
  intro x
  change (f' - h') *ᵥ R x = R ((f - h) *ᵥ x)
  rw [sub_mulVec, sub_mulVec, map_sub, a x, b x]

theorem MatRot.mulLeft {f f' : M3} (c : ℝ) (a : MatRot R f f') : MatRot R (fun i j => c * f i j) fun i j => c * f' i j := by
  intro x
  change (c • f') *ᵥ R x = R ((c • f) *ᵥ x)
  rw [smul_mulVec, smul_mulVec, map_smul, a x]

theorem MatRot.mulRight {f f' : M3} (c : ℝ) (a : MatRot R f f') : MatRot R (fun i j => f i j * c) fun i j => f' i j * c := by
  have := a.mulLeft c
  simpa only [mul_comm] using this

theorem MatRot.neg {f f' : M3} (a : MatRot R f f') : MatRot R (fun i j => -f i j) fun i j => -f' i j := by
  intro x
  change (-f') *ᵥ R x = R ((-f) *ᵥ x)
  rw [neg_mulVec, neg_mulVec, map_neg, a x]

theorem MatRot.neg' {f f' : M3} (a : MatRot R f f') : MatRot R (-f) (-f') := a.neg

theorem VecRot.mulVec {M M' : M3} {f f' : V3} (a : MatRot R M M') (b : VecRot R f f') : VecRot R (M *ᵥ f) (M' *ᵥ f') := by
  subst b
  exact a f

theorem skew_cr (a b : V3) : skew a *ᵥ b = cr a b := by
  ext k
  fin_cases k <;> simp [skew, mulVec, dotProduct, Fin.sum_univ_three, cr, cross_apply] <;> ring

theorem MatRot.skew (hR : Rotation R) (a : V3) : MatRot R (skew a) (Verif.skew (R a)) := by
  intro x
  rw [skew_cr, skew_cr, hR.cr]

theorem VecRot.cross (hR : Rotation R) (a b : V3) : VecRot R (skew a *ᵥ b) (skew (R a) *ᵥ R b) := by
  unfold VecRot
  rw [skew_cr, skew_cr, hR.cr]

theorem MatRot.skewOf (hR : Rotation R) {a a' : V3} (h : VecRot R a a') : MatRot R (Verif.skew a) (Verif.skew a') := by
  subst h
  exact .skew hR a

theorem VecRot.eigenCross (hR : Rotation R) {a a' b b' : V3} (h : VecRot R a a') (k : VecRot R b b') :
    VecRot R (eigenCross a b) (Verif.eigenCross a' b') := by
  subst h k
  have e : ∀ u v : V3, Verif.eigenCross u v = cr u v := fun u v => by
    ext k
    fin_cases k <;> simp [Verif.eigenCross, cr, cross_apply]
  unfold VecRot
  rw [e, e, hR.cr]

/-- A wrench waypoint in the other axes. -/
structure WpRot (R : V3 ≃ₗ[ℝ] V3) (w w' : Wp6) : Prop where
  top : MatRot R w.top w'.top
  bot : MatRot R w.bot w'.bot
  head : VecRot R w.head w'.head
  tail : VecRot R w.tail w'.tail

theorem WpRot.headAt {w w' : Wp6} (h : WpRot R w w') (x : V3) : w'.headAt (R x) = R (w.headAt x) := by
  unfold Wp6.headAt
  rw [h.top x, h.head, map_add]

theorem WpRot.tailAt {w w' : Wp6} (h : WpRot R w w') (x : V3) : w'.tailAt (R x) = R (w.tailAt x) := by
  unfold Wp6.tailAt
  rw [h.bot x, h.tail, map_add]
end

/-- Compares a waypoint and its turned version term by term. -/
macro "wp_rot" hR:term : tactic => `(tactic| (
  repeat' first
    | exact List.Forall₂.nil
    | apply List.Forall₂.cons
    | (with_reducible exact VecRot.zero)
    | (with_reducible exact VecRot.point _)
    | exact VecRot.cross $hR _ _
    | (with_reducible apply VecRot.mulVec)
    | (with_reducible apply VecRot.eigenCross $hR)
    | (with_reducible apply VecRot.add)
    | (with_reducible apply VecRot.sub)
    | (with_reducible apply VecRot.mulLeft)
    | (with_reducible apply VecRot.mulRight)
    | (with_reducible apply VecRot.neg)
    | (apply WpRot.mk <;> dsimp only)
    | exact MatRot.zero
    | exact MatRot.one
    | exact MatRot.skew $hR _
    | apply MatRot.add
    | apply MatRot.sub
    | apply MatRot.mulLeft
    | apply MatRot.mulRight
    | apply MatRot.neg
    | apply MatRot.neg'
    | apply MatRot.skewOf $hR))

theorem c0_dc0_c1.rot {R : V3 ≃ₗ[ℝ] V3} (hR : Rotation R) (P : ℕ → V3) (g : V3) (T : ℝ) : List.Forall₂ (WpRot R)
    (c0_dc0_c1.computeWwaypoints P g T) (c0_dc0_c1.computeWwaypoints (fun i => R (P i)) (R g) T) := by
  unfold c0_dc0_c1.computeWwaypoints
  wp_rot hR

set_option maxHeartbeats 1600000 in
theorem c0_dc0_dc1.rot {R : V3 ≃ₗ[ℝ] V3} (hR : Rotation R) (P : ℕ → V3) (g : V3) (T : ℝ) : List.Forall₂ (WpRot R)
    (c0_dc0_dc1.computeWwaypoints P g T) (c0_dc0_dc1.computeWwaypoints (fun i => R (P i)) (R g) T) := by
  unfold c0_dc0_dc1.computeWwaypoints
  wp_rot hR

theorem c0_dc0_dc1_c1.rot {R : V3 ≃ₗ[ℝ] V3} (hR : Rotation R) (P : ℕ → V3) (g : V3) (T : ℝ) : List.Forall₂ (WpRot R)
    (c0_dc0_dc1_c1.computeWwaypoints P g T) (c0_dc0_dc1_c1.computeWwaypoints (fun i => R (P i)) (R g) T) := by
  unfold c0_dc0_dc1_c1.computeWwaypoints
  wp_rot hR

theorem c0_dc0_ddc0.rot {R : V3 ≃ₗ[ℝ] V3} (hR : Rotation R) (P : ℕ → V3) (g : V3) (T : ℝ) : List.Forall₂ (WpRot R)
    (c0_dc0_ddc0.computeWwaypoints P g T) (c0_dc0_ddc0.computeWwaypoints (fun i => R (P i)) (R g) T) := by
  unfold c0_dc0_ddc0.computeWwaypoints
  wp_rot hR

theorem c0_dc0_ddc0_c1.rot {R : V3 ≃ₗ[ℝ] V3} (hR : Rotation R) (P : ℕ → V3) (g : V3) (T : ℝ) : List.Forall₂ (WpRot R)
    (c0_dc0_ddc0_c1.computeWwaypoints P g T) (c0_dc0_ddc0_c1.computeWwaypoints (fun i => R (P i)) (R g) T) := by
  unfold c0_dc0_ddc0_c1.computeWwaypoints
  wp_rot hR

theorem c0_dc0_ddc0_dc1_c1.rot {R : V3 ≃ₗ[ℝ] V3} (hR : Rotation R) (P : ℕ → V3) (g : V3) (T : ℝ) : List.Forall₂ (WpRot R)
    (c0_dc0_ddc0_dc1_c1.computeWwaypoints P g T) (c0_dc0_ddc0_dc1_c1.computeWwaypoints (fun i => R (P i)) (R g) T) := by
  unfold c0_dc0_ddc0_dc1_c1.computeWwaypoints
  wp_rot hR

set_option maxHeartbeats 1600000 in
theorem c0_dc0_ddc0_ddc1_dc1_c1.rot {R : V3 ≃ₗ[ℝ] V3} (hR : Rotation R) (P : ℕ → V3) (g : V3) (T : ℝ) : List.Forall₂ (WpRot R)
    (c0_dc0_ddc0_ddc1_dc1_c1.computeWwaypoints P g T) (c0_dc0_ddc0_ddc1_dc1_c1.computeWwaypoints (fun i => R (P i)) (R g) T) := by
  unfold c0_dc0_ddc0_ddc1_dc1_c1.computeWwaypoints
  wp_rot hR

/-! ## Other units -/

/-- A wrench waypoint in the other units. -/
structure WpUnits (s k : ℝ) (w w' : Wp6) : Prop where
  top : ∀ i j, w'.top i j = 1 / k ^ 2 * w.top i j
  bot : ∀ i j, w'.bot i j = s / k ^ 2 * w.bot i j
  head : ∀ i, w'.head i = s / k ^ 2 * w.head i
  tail : ∀ i, w'.tail i = s ^ 2 / k ^ 2 * w.tail i

theorem WpUnits.headAt {s k : ℝ} {w w' : Wp6} (h : WpUnits s k w w') (x : V3) : w'.headAt (s • x) = (s / k ^ 2) • w.headAt x := by
  ext i
  simp only [Wp6.headAt, Pi.add_apply, mulVec, dotProduct, Fin.sum_univ_three, h.top, h.head, Pi.smul_apply, smul_eq_mul]
  ring

theorem WpUnits.tailAt {s k : ℝ} {w w' : Wp6} (h : WpUnits s k w w') (x : V3) :
    w'.tailAt (s • x) = (s ^ 2 / k ^ 2) • w.tailAt x := by
  ext i
  simp only [Wp6.tailAt, Pi.add_apply, mulVec, dotProduct, Fin.sum_univ_three, h.bot, h.tail, Pi.smul_apply, smul_eq_mul]
  ring

theorem skew_smul (c : ℝ) (a : V3) (i j : Fin 3) : skew (c • a) i j = c * skew a i j := by
  fin_cases i <;> fin_cases j <;> simp [skew]

theorem skew_smul_smul (c e : ℝ) (a b : V3) (i : Fin 3) : (skew (c • a) *ᵥ (e • b)) i = c * e * (skew a *ᵥ b) i := by
  simp only [mulVec, dotProduct, Fin.sum_univ_three, skew_smul, Pi.smul_apply, smul_eq_mul]
  ring

/-- Compares a waypoint and its version in the other units term by term. -/
macro "wp_units" : tactic => `(tactic| (
  repeat' first
    | exact List.Forall₂.nil
    | apply List.Forall₂.cons
  all_goals
    constructor <;> intros <;>
      simp only [skew_smul, skew_smul_smul, Pi.smul_apply, smul_eq_mul, Pi.zero_apply, mul_zero, Matrix.zero_apply] <;>
      field_simp))

theorem c0_dc0_c1.units (s k : ℝ) (hk : 0 < k) (P : ℕ → V3) (g : V3) (T : ℝ) (hT : 0 < T) : List.Forall₂ (WpUnits s k)
    (c0_dc0_c1.computeWwaypoints P g T)
    (c0_dc0_c1.computeWwaypoints (fun i => s • P i) ((s / k ^ 2) • g) (k * T)) := by
  unfold c0_dc0_c1.computeWwaypoints
  wp_units

theorem c0_dc0_dc1.units (s k : ℝ) (hk : 0 < k) (P : ℕ → V3) (g : V3) (T : ℝ) (hT : 0 < T) : List.Forall₂ (WpUnits s k)
    (c0_dc0_dc1.computeWwaypoints P g T)
    (c0_dc0_dc1.computeWwaypoints (fun i => s • P i) ((s / k ^ 2) • g) (k * T)) := by
  unfold c0_dc0_dc1.computeWwaypoints
  have e : ∀ u v : V3, eigenCross u v = skew u *ᵥ v := fun u v => by
    ext k
    fin_cases k <;> simp [eigenCross, skew, mulVec, dotProduct, Fin.sum_univ_three] <;> ring
  obtain ⟨E, f⟩ : ∃ E : Fin 3 → Fin 3 → Fin 3 → ℝ, ∀ (v : V3) (i j : Fin 3),
      skew v i j = E 0 i j * v 0 + E 1 i j * v 1 + E 2 i j * v 2 := by
    refine ⟨![skew ![1, 0, 0], skew ![0, 1, 0], skew ![0, 0, 1]], fun v i j => ?_⟩
    fin_cases i <;> fin_cases j <;> simp [skew]
  simp only [e]
  repeat' first
    | exact List.Forall₂.nil
    | apply List.Forall₂.cons
  all_goals
    constructor <;> intros <;>
      simp only [mulVec, dotProduct, Fin.sum_univ_three, f, Pi.smul_apply, smul_eq_mul, Pi.zero_apply, mul_zero, Matrix.neg_apply,
        zero_mul] <;> field_simp <;> ring

theorem c0_dc0_dc1_c1.units (s k : ℝ) (hk : 0 < k) (P : ℕ → V3) (g : V3) (T : ℝ) (hT : 0 < T) : List.Forall₂ (WpUnits s k)
    (c0_dc0_dc1_c1.computeWwaypoints P g T)
    (c0_dc0_dc1_c1.computeWwaypoints (fun i => s • P i) ((s / k ^ 2) • g) (k * T)) := by
  unfold c0_dc0_dc1_c1.computeWwaypoints
  wp_units

theorem c0_dc0_ddc0.units (s k : ℝ) (hk : 0 < k) (P : ℕ → V3) (g : V3) (T : ℝ) (hT : 0 < T) : List.Forall₂ (WpUnits s k)
    (c0_dc0_ddc0.computeWwaypoints P g T)
    (c0_dc0_ddc0.computeWwaypoints (fun i => s • P i) ((s / k ^ 2) • g) (k * T)) := by
  unfold c0_dc0_ddc0.computeWwaypoints
  wp_units

theorem c0_dc0_ddc0_c1.units (s k : ℝ) (hk : 0 < k) (P : ℕ → V3) (g : V3) (T : ℝ) (hT : 0 < T) : List.Forall₂ (WpUnits s k)
    (c0_dc0_ddc0_c1.computeWwaypoints P g T)
    (c0_dc0_ddc0_c1.computeWwaypoints (fun i => s • P i) ((s / k ^ 2) • g) (k * T)) := by
  unfold c0_dc0_ddc0_c1.computeWwaypoints
  wp_units

theorem c0_dc0_ddc0_dc1_c1.units (s k : ℝ) (hk : 0 < k) (P : ℕ → V3) (g : V3) (T : ℝ) (hT : 0 < T) : List.Forall₂ (WpUnits s k)
    (c0_dc0_ddc0_dc1_c1.computeWwaypoints P g T)
    (c0_dc0_ddc0_dc1_c1.computeWwaypoints (fun i => s • P i) ((s / k ^ 2) • g) (k * T)) := by
  unfold c0_dc0_ddc0_dc1_c1.computeWwaypoints
  wp_units

theorem c0_dc0_ddc0_ddc1_dc1_c1.units (s k : ℝ) (hk : 0 < k) (P : ℕ → V3) (g : V3) (T : ℝ) (hT : 0 < T) : List.Forall₂ (WpUnits s k)
    (c0_dc0_ddc0_ddc1_dc1_c1.computeWwaypoints P g T)
    (c0_dc0_ddc0_ddc1_dc1_c1.computeWwaypoints (fun i => s • P i) ((s / k ^ 2) • g) (k * T)) := by
  unfold c0_dc0_ddc0_ddc1_dc1_c1.computeWwaypoints
  wp_units

end Verif
