import Verif.Props.C120
import Verif.Props.C121

/-!
# C122: the end effector planner and the horizontal axes

`solve_end_effector.hh` bounds each coordinate of the velocity, the acceleration and the jerk by 10000, and keeps the free points
above the lower end. The horizontal axes may then be exchanged or reversed, for all three sets, all paths and all weights. Other
changes of axes change the verdict.
-/

namespace Verif
open Finset

/-! ## Signed exchanges of axes -/

/-- A linear map that exchanges or reverses the axes, by coordinates. -/
theorem AxesToAxes.signs {R : V3 ≃ₗ[ℝ] V3} (h : AxesToAxes R) : ∃ (s : Fin 3 → ℝ) (σ : Equiv.Perm (Fin 3)),
    (∀ k, s k * s k = 1) ∧ ∀ v k, R v k = s k * v (σ k) := by
  obtain ⟨σ, hσ⟩ := h
  obtain ⟨M, hM⟩ : ∃ M : Fin 3 → Fin 3 → ℝ, ∀ v k, R v k = v 0 * M 0 k + v 1 * M 1 k + v 2 * M 2 k :=
    ⟨![R ![1, 0, 0], R ![0, 1, 0], R ![0, 0, 1]], linear_entries R⟩
  have e0 := fun k => hσ ![1, 0, 0] k
  have e1 := fun k => hσ ![0, 1, 0] k
  have e2 := fun k => hσ ![0, 0, 1] k
  simp only [hM] at e0 e1 e2
  have key : ∀ k, M (σ k) k * M (σ k) k = 1 ∧ ∀ v : V3, R v k = M (σ k) k * v (σ k) := by
    intro k
    have a0 := e0 k
    have a1 := e1 k
    have a2 := e2 k
    generalize σ k = m at a0 a1 a2 ⊢
    fin_cases m <;> simp at a0 a1 a2 ⊢
    · refine ⟨?_, fun v => ?_⟩
      · rw [← abs_mul_abs_self, a0]; norm_num
      · rw [hM, a1, a2]; ring
    · refine ⟨?_, fun v => ?_⟩
      · rw [← abs_mul_abs_self, a1]; norm_num
      · rw [hM, a0, a2]; ring
    · refine ⟨?_, fun v => ?_⟩
      · rw [← abs_mul_abs_self, a2]; norm_num
      · rw [hM, a0, a1]; ring
  exact ⟨fun k => M (σ k) k, σ, fun k => (key k).1, fun v k => (key k).2 v⟩

theorem AxesToAxes.dot_eq {R : V3 ≃ₗ[ℝ] V3} (h : AxesToAxes R) (u v : V3) : dot (R u) (R v) = dot u v := by
  obtain ⟨s, σ, hs, hR⟩ := h.signs
  have e : ∀ u v : V3, dot u v = ∑ k, u k * v k := fun u v => by simp [dot, Fin.sum_univ_three]
  rw [e, e, ← Equiv.sum_comp σ fun k => u k * v k]
  refine sum_congr rfl fun k _ => ?_
  rw [hR, hR]
  linear_combination (u (σ k) * v (σ k)) * hs k

theorem effPts_turn (flag : Flag) (hf : flag ∈ effFlags) (d : BC) (T : ℝ) {R : V3 ≃ₗ[ℝ] V3} (hR : AxesToAxes R) (pts : List V3)
    (h : computeConstantWaypoints flag d T = .ok pts) :
    computeConstantWaypoints flag (d.rotate R) T = .ok (pts.map R) := by
  obtain ⟨s, σ, -, hR⟩ := hR.signs
  simp only [effFlags, List.mem_cons, List.not_mem_nil, or_false] at hf
  rcases hf with rfl | rfl | rfl
  · simp [computeConstantWaypoints] at h ⊢
    subst h
    simp [c0_dc0_ddc0_j0_j1_ddc1_dc1_c1.computeConstantWaypoints, BC.rotate]
    (repeat' apply And.intro) <;> ext k <;> simp [hR] <;> ring
  · simp [computeConstantWaypoints] at h ⊢
    subst h
    simp [c0_dc0_ddc0_j0_x3_j1_ddc1_dc1_c1.computeConstantWaypoints, BC.rotate]
    (repeat' apply And.intro) <;> ext k <;> simp [hR] <;> ring
  · simp [computeConstantWaypoints] at h ⊢
    subst h
    simp [c0_dc0_ddc0_j0_x5_j1_ddc1_dc1_c1.computeConstantWaypoints, BC.rotate]
    (repeat' apply And.intro) <;> ext k <;> simp [hR] <;> ring

/-- A control point in the other axes. -/
def TurnedWp (R : V3 ≃ₗ[ℝ] V3) {K : ℕ} (w w' : WpB K) : Prop := w'.first = w.first ∧ ∀ k, w'.second k = R w.second k

theorem TurnedWp.at {R : V3 ≃ₗ[ℝ] V3} {K : ℕ} {w w' : WpB K} (h : TurnedWp R w w') (X : ℕ → V3) :
    w'.at (fun j => R (X j)) = R (w.at X) := by
  unfold WpB.at
  rw [h.1, map_add, map_sum, show w'.second = R w.second from funext h.2]
  simp

theorem within_turn {R : V3 ≃ₗ[ℝ] V3} (hR : AxesToAxes R) {K : ℕ} {ws ws' : List (WpB K)} {X : ℕ → V3} {M : ℝ}
    (h : List.Forall₂ (TurnedWp R) ws ws') :
    Within ws (fun _ => M) (fun _ => M) X ↔ Within ws' (fun _ => M) (fun _ => M) (fun j => R (X j)) := by
  induction h with
  | nil => simp [Within]
  | @cons w w' ws ws' h _ ih =>
    have e : ∀ (w : WpB K) ws X, Within (w :: ws) (fun _ => M) (fun _ => M) X ↔
        (Depends w → ∀ k, |w.at X k| ≤ M) ∧ Within ws (fun _ => M) (fun _ => M) X := by
      intro w ws X; simp [Within, abs_le]
    have ed : Depends w' ↔ Depends w := by unfold Depends; rw [h.1]
    rw [e, e, ih, ed, h.at, hR.box]

theorem controls8_turn {R : V3 ≃ₗ[ℝ] V3} (hR : AxesToAxes R) (P : ℕ → V3) (T : ℝ) :
    List.Forall₂ (TurnedWp R) (c0_dc0_ddc0_j0_j1_ddc1_dc1_c1.computeVelocityWaypoints P T)
      (c0_dc0_ddc0_j0_j1_ddc1_dc1_c1.computeVelocityWaypoints (fun i => R (P i)) T) ∧
    List.Forall₂ (TurnedWp R) (c0_dc0_ddc0_j0_j1_ddc1_dc1_c1.computeAccelerationWaypoints P T)
      (c0_dc0_ddc0_j0_j1_ddc1_dc1_c1.computeAccelerationWaypoints (fun i => R (P i)) T) ∧
    List.Forall₂ (TurnedWp R) (c0_dc0_ddc0_j0_j1_ddc1_dc1_c1.computeJerkWaypoints P T)
      (c0_dc0_ddc0_j0_j1_ddc1_dc1_c1.computeJerkWaypoints (fun i => R (P i)) T) := by
  obtain ⟨s, σ, -, hR⟩ := hR.signs
  unfold c0_dc0_ddc0_j0_j1_ddc1_dc1_c1.computeVelocityWaypoints c0_dc0_ddc0_j0_j1_ddc1_dc1_c1.computeAccelerationWaypoints
    c0_dc0_ddc0_j0_j1_ddc1_dc1_c1.computeJerkWaypoints
  refine ⟨?_, ?_, ?_⟩ <;>
    (repeat' apply List.Forall₂.cons) <;> first | exact List.Forall₂.nil | (refine ⟨rfl, fun k => ?_⟩; simp only [hR]; (try simp only [Pi.zero_apply]); ring)

theorem controls10_turn {R : V3 ≃ₗ[ℝ] V3} (hR : AxesToAxes R) (P : ℕ → V3) (T : ℝ) :
    List.Forall₂ (TurnedWp R) (c0_dc0_ddc0_j0_x3_j1_ddc1_dc1_c1.computeVelocityWaypoints P T)
      (c0_dc0_ddc0_j0_x3_j1_ddc1_dc1_c1.computeVelocityWaypoints (fun i => R (P i)) T) ∧
    List.Forall₂ (TurnedWp R) (c0_dc0_ddc0_j0_x3_j1_ddc1_dc1_c1.computeAccelerationWaypoints P T)
      (c0_dc0_ddc0_j0_x3_j1_ddc1_dc1_c1.computeAccelerationWaypoints (fun i => R (P i)) T) ∧
    List.Forall₂ (TurnedWp R) (c0_dc0_ddc0_j0_x3_j1_ddc1_dc1_c1.computeJerkWaypoints P T)
      (c0_dc0_ddc0_j0_x3_j1_ddc1_dc1_c1.computeJerkWaypoints (fun i => R (P i)) T) := by
  obtain ⟨s, σ, -, hR⟩ := hR.signs
  unfold c0_dc0_ddc0_j0_x3_j1_ddc1_dc1_c1.computeVelocityWaypoints c0_dc0_ddc0_j0_x3_j1_ddc1_dc1_c1.computeAccelerationWaypoints
    c0_dc0_ddc0_j0_x3_j1_ddc1_dc1_c1.computeJerkWaypoints
  refine ⟨?_, ?_, ?_⟩ <;>
    (repeat' apply List.Forall₂.cons) <;> first | exact List.Forall₂.nil | (refine ⟨rfl, fun k => ?_⟩; simp only [hR]; (try simp only [Pi.zero_apply]); ring)

theorem controls12_turn {R : V3 ≃ₗ[ℝ] V3} (hR : AxesToAxes R) (P : ℕ → V3) (T : ℝ) :
    List.Forall₂ (TurnedWp R) (c0_dc0_ddc0_j0_x5_j1_ddc1_dc1_c1.computeVelocityWaypoints P T)
      (c0_dc0_ddc0_j0_x5_j1_ddc1_dc1_c1.computeVelocityWaypoints (fun i => R (P i)) T) ∧
    List.Forall₂ (TurnedWp R) (c0_dc0_ddc0_j0_x5_j1_ddc1_dc1_c1.computeAccelerationWaypoints P T)
      (c0_dc0_ddc0_j0_x5_j1_ddc1_dc1_c1.computeAccelerationWaypoints (fun i => R (P i)) T) ∧
    List.Forall₂ (TurnedWp R) (c0_dc0_ddc0_j0_x5_j1_ddc1_dc1_c1.computeJerkWaypoints P T)
      (c0_dc0_ddc0_j0_x5_j1_ddc1_dc1_c1.computeJerkWaypoints (fun i => R (P i)) T) := by
  obtain ⟨s, σ, -, hR⟩ := hR.signs
  unfold c0_dc0_ddc0_j0_x5_j1_ddc1_dc1_c1.computeVelocityWaypoints c0_dc0_ddc0_j0_x5_j1_ddc1_dc1_c1.computeAccelerationWaypoints
    c0_dc0_ddc0_j0_x5_j1_ddc1_dc1_c1.computeJerkWaypoints
  refine ⟨?_, ?_, ?_⟩ <;>
    (repeat' apply List.Forall₂.cons) <;> first | exact List.Forall₂.nil | (refine ⟨rfl, fun k => ?_⟩; simp only [hR]; (try simp only [Pi.zero_apply]); ring)

/-- The lists of control points of a call, in the two systems of axes. -/
theorem controls_turn (flag : Flag) (hf : flag ∈ effFlags) (d d' : BC) (T : ℝ) {R : V3 ≃ₗ[ℝ] V3} (hR : AxesToAxes R) (pi : List V3)
    (hl : pi.length = degreeOf flag + 1) : ∃ (K : ℕ) (v v' a a' j j' : List (WpB K)),
      computeVelocityWaypoints flag d T pi = .ok ⟨K, v⟩ ∧ computeVelocityWaypoints flag d' T (pi.map R) = .ok ⟨K, v'⟩ ∧
      computeAccelerationWaypoints flag d T pi = .ok ⟨K, a⟩ ∧ computeAccelerationWaypoints flag d' T (pi.map R) = .ok ⟨K, a'⟩ ∧
      computeJerkWaypoints flag d T pi = .ok ⟨K, j⟩ ∧ computeJerkWaypoints flag d' T (pi.map R) = .ok ⟨K, j'⟩ ∧
      List.Forall₂ (TurnedWp R) v v' ∧ List.Forall₂ (TurnedWp R) a a' ∧ List.Forall₂ (TurnedWp R) j j' := by
  have hn := nth_map R (map_zero R) pi
  simp only [effFlags, List.mem_cons, List.not_mem_nil, or_false] at hf
  rcases hf with rfl | rfl | rfl
  · have hl : pi.length = 9 := by simpa [degreeOf] using hl
    have q := controls8_turn hR (nth pi) T
    refine ⟨1, _, _, _, _, _, _, ?_, ?_, ?_, ?_, ?_, ?_, q.1, q.2.1, q.2.2⟩ <;>
      simp [computeVelocityWaypoints, computeAccelerationWaypoints, computeJerkWaypoints, hl, hn]
  · have hl : pi.length = 11 := by simpa [degreeOf] using hl
    have q := controls10_turn hR (nth pi) T
    refine ⟨3, _, _, _, _, _, _, ?_, ?_, ?_, ?_, ?_, ?_, q.1, q.2.1, q.2.2⟩ <;>
      simp [computeVelocityWaypoints, computeAccelerationWaypoints, computeJerkWaypoints, hl, hn]
  · have hl : pi.length = 13 := by simpa [degreeOf] using hl
    have q := controls12_turn hR (nth pi) T
    refine ⟨5, _, _, _, _, _, _, ?_, ?_, ?_, ?_, ?_, ?_, q.1, q.2.1, q.2.2⟩ <;>
      simp [computeVelocityWaypoints, computeAccelerationWaypoints, computeJerkWaypoints, hl, hn]

/-- C122, requirements: they hold of the free points in one system of axes when they hold of the turned ones in the other. -/
theorem C122_admissible (flag : Flag) (hf : flag ∈ effFlags) (d : BC) (T : ℝ) {R : V3 ≃ₗ[ℝ] V3} (hR : AxesToAxes R)
    (hz : ∀ v, R v 2 = v 2) (pi : List V3) (hl : pi.length = degreeOf flag + 1) (X : ℕ → V3) :
    EndOk flag d T pi X ↔ EndOk flag (d.rotate R) T (pi.map R) (fun j => R (X j)) := by
  obtain ⟨K, v, v', a, a', j, j', e1, f1, e2, f2, e3, f3, q1, q2, q3⟩ := controls_turn flag hf d (d.rotate R) T hR pi hl
  have hab : AboveEnds (dimVarPts flag) d.c0 d.c1 X ↔
      AboveEnds (dimVarPts flag) (d.rotate R).c0 (d.rotate R).c1 (fun j => R (X j)) := by
    simp only [AboveEnds, BC.rotate, hz]
  constructor
  · rintro ⟨_, _, _, g1, g2, g3, k1, k2, k3, k4⟩
    rw [e1] at g1; rw [e2] at g2; rw [e3] at g3
    obtain rfl := Out.ok.inj g1
    obtain rfl := Out.ok.inj g2
    obtain rfl := Out.ok.inj g3
    exact ⟨_, _, _, f1, f2, f3, (within_turn hR q1).mp k1, (within_turn hR q2).mp k2, (within_turn hR q3).mp k3, hab.mp k4⟩
  · rintro ⟨_, _, _, g1, g2, g3, k1, k2, k3, k4⟩
    rw [f1] at g1; rw [f2] at g2; rw [f3] at g3
    obtain rfl := Out.ok.inj g1
    obtain rfl := Out.ok.inj g2
    obtain rfl := Out.ok.inj g3
    exact ⟨_, _, _, e1, e2, e3, (within_turn hR q1).mpr k1, (within_turn hR q2).mpr k2, (within_turn hR q3).mpr k3, hab.mpr k4⟩

/-! ## The cost -/

/-- A cost in the other axes. -/
def turnCost (R : V3 ≃ₗ[ℝ] V3) {K : ℕ} (c : BlockCost K) : BlockCost K := (c.1, fun a => R (c.2 a))

theorem turnCost_form {R : V3 ≃ₗ[ℝ] V3} (hR : AxesToAxes R) {K : ℕ} (c : BlockCost K) (X : ℕ → V3) :
    blockForm (turnCost R c).1 (turnCost R c).2 (fun j => R (X j)) = blockForm c.1 c.2 X := by
  simp only [blockForm, turnCost, hR.dot_eq]

theorem normalizeCost_turn {R : V3 ≃ₗ[ℝ] V3} (hR : AxesToAxes R) {K : ℕ} (H : Matrix (Fin K) (Fin K) ℝ) (g : Fin K → V3) :
    normalizeCost H (fun a => R (g a)) = turnCost R (normalizeCost H g) := by
  obtain ⟨s, σ, -, hR⟩ := hR.signs
  unfold normalizeCost turnCost
  refine Prod.ext rfl ?_
  funext a k
  simp only [hR]
  ring

theorem velocityCost_turn (flag : Flag) (hf : flag ∈ effFlags) (d d' : BC) (T : ℝ) {R : V3 ≃ₗ[ℝ] V3} (hR : AxesToAxes R) (pi : List V3)
    (hl : pi.length = degreeOf flag + 1) {S} (h : computeVelocityCost flag d T pi = .ok ⟨dimVarPts flag, S⟩) :
    computeVelocityCost flag d' T (pi.map R) = .ok ⟨dimVarPts flag, turnCost R S⟩ := by
  have hn := nth_map R (map_zero R) pi
  have g8 : ∀ P : ℕ → V3, c0_dc0_ddc0_j0_j1_ddc1_dc1_c1.velocityCostG (fun i => R (P i)) T
      = fun a => R (c0_dc0_ddc0_j0_j1_ddc1_dc1_c1.velocityCostG P T a) := by
    obtain ⟨s, σ, -, hR⟩ := hR.signs
    intro P
    funext a k
    fin_cases a <;> simp only [c0_dc0_ddc0_j0_j1_ddc1_dc1_c1.velocityCostG] <;> simp [hR] <;> ring
  have g10 : ∀ P : ℕ → V3, c0_dc0_ddc0_j0_x3_j1_ddc1_dc1_c1.velocityCostG (fun i => R (P i)) T
      = fun a => R (c0_dc0_ddc0_j0_x3_j1_ddc1_dc1_c1.velocityCostG P T a) := by
    obtain ⟨s, σ, -, hR⟩ := hR.signs
    intro P
    funext a k
    fin_cases a <;> simp only [c0_dc0_ddc0_j0_x3_j1_ddc1_dc1_c1.velocityCostG] <;> simp [hR] <;> ring
  have g12 : ∀ P : ℕ → V3, c0_dc0_ddc0_j0_x5_j1_ddc1_dc1_c1.velocityCostG (fun i => R (P i)) T
      = fun a => R (c0_dc0_ddc0_j0_x5_j1_ddc1_dc1_c1.velocityCostG P T a) := by
    obtain ⟨s, σ, -, hR⟩ := hR.signs
    intro P
    funext a k
    fin_cases a <;> simp only [c0_dc0_ddc0_j0_x5_j1_ddc1_dc1_c1.velocityCostG] <;> simp [hR] <;> ring
  simp only [effFlags, List.mem_cons, List.not_mem_nil, or_false] at hf
  rcases hf with rfl | rfl | rfl
  · have hl : pi.length = 9 := by simpa [degreeOf] using hl
    have e : computeVelocityCost 255#32 d T pi = .ok ⟨1, normalizeCost (c0_dc0_ddc0_j0_j1_ddc1_dc1_c1.velocityCostH T)
        (c0_dc0_ddc0_j0_j1_ddc1_dc1_c1.velocityCostG (nth pi) T)⟩ := by simp [computeVelocityCost, withPts, hl]
    have e' : computeVelocityCost 255#32 d' T (pi.map R) = .ok ⟨1, normalizeCost (c0_dc0_ddc0_j0_j1_ddc1_dc1_c1.velocityCostH T)
        (c0_dc0_ddc0_j0_j1_ddc1_dc1_c1.velocityCostG (fun i => R (nth pi i)) T)⟩ := by simp [computeVelocityCost, withPts, hl, hn]
    rw [h] at e
    obtain rfl := eq_of_heq (Sigma.mk.inj (Out.ok.inj e)).2
    rw [e', g8, normalizeCost_turn hR]
    rfl
  · have hl : pi.length = 11 := by simpa [degreeOf] using hl
    have e : computeVelocityCost 767#32 d T pi = .ok ⟨3, normalizeCost (c0_dc0_ddc0_j0_x3_j1_ddc1_dc1_c1.velocityCostH T)
        (c0_dc0_ddc0_j0_x3_j1_ddc1_dc1_c1.velocityCostG (nth pi) T)⟩ := by simp [computeVelocityCost, withPts, hl]
    have e' : computeVelocityCost 767#32 d' T (pi.map R) = .ok ⟨3, normalizeCost (c0_dc0_ddc0_j0_x3_j1_ddc1_dc1_c1.velocityCostH T)
        (c0_dc0_ddc0_j0_x3_j1_ddc1_dc1_c1.velocityCostG (fun i => R (nth pi i)) T)⟩ := by simp [computeVelocityCost, withPts, hl, hn]
    rw [h] at e
    obtain rfl := eq_of_heq (Sigma.mk.inj (Out.ok.inj e)).2
    rw [e', g10, normalizeCost_turn hR]
    rfl
  · have hl : pi.length = 13 := by simpa [degreeOf] using hl
    have e : computeVelocityCost 2303#32 d T pi = .ok ⟨5, normalizeCost (c0_dc0_ddc0_j0_x5_j1_ddc1_dc1_c1.velocityCostH T)
        (c0_dc0_ddc0_j0_x5_j1_ddc1_dc1_c1.velocityCostG (nth pi) T)⟩ := by simp [computeVelocityCost, withPts, hl]
    have e' : computeVelocityCost 2303#32 d' T (pi.map R) = .ok ⟨5, normalizeCost (c0_dc0_ddc0_j0_x5_j1_ddc1_dc1_c1.velocityCostH T)
        (c0_dc0_ddc0_j0_x5_j1_ddc1_dc1_c1.velocityCostG (fun i => R (nth pi i)) T)⟩ := by simp [computeVelocityCost, withPts, hl, hn]
    rw [h] at e
    obtain rfl := eq_of_heq (Sigma.mk.inj (Out.ok.inj e)).2
    rw [e', g12, normalizeCost_turn hR]
    rfl

/-- A point of the curve, in the two systems of axes. -/
theorem curveWaypoint_turn (flag : Flag) (hf : flag ∈ effFlags) {R : V3 ≃ₗ[ℝ] V3} (hR : AxesToAxes R) (pi : List V3)
    (hl : pi.length = degreeOf flag + 1) (t : ℝ) : ∃ (w w' : WpB (dimVarPts flag)),
      evaluateCurveWaypointAtTime flag pi t = .ok ⟨_, w⟩ ∧ evaluateCurveWaypointAtTime flag (pi.map R) t = .ok ⟨_, w'⟩ ∧ TurnedWp R w w' := by
  have hn := nth_map R (map_zero R) pi
  obtain ⟨s, σ, -, hR⟩ := hR.signs
  simp only [effFlags, List.mem_cons, List.not_mem_nil, or_false] at hf
  rcases hf with rfl | rfl | rfl
  · have hl : pi.length = 9 := by simpa [degreeOf] using hl
    refine ⟨c0_dc0_ddc0_j0_j1_ddc1_dc1_c1.evaluateCurveWaypointAtTime (nth pi) t,
      c0_dc0_ddc0_j0_j1_ddc1_dc1_c1.evaluateCurveWaypointAtTime (fun i => R (nth pi i)) t, ?_, ?_, rfl, fun k => ?_⟩
    · simp [evaluateCurveWaypointAtTime, withPts, hl]; rfl
    · simp [evaluateCurveWaypointAtTime, withPts, hl, hn]; rfl
    · simp only [c0_dc0_ddc0_j0_j1_ddc1_dc1_c1.evaluateCurveWaypointAtTime, c0_dc0_ddc0_j0_j1_ddc1_dc1_c1.evaluateCurveAtTime, hR]; ring
  · have hl : pi.length = 11 := by simpa [degreeOf] using hl
    refine ⟨c0_dc0_ddc0_j0_x3_j1_ddc1_dc1_c1.evaluateCurveWaypointAtTime (nth pi) t,
      c0_dc0_ddc0_j0_x3_j1_ddc1_dc1_c1.evaluateCurveWaypointAtTime (fun i => R (nth pi i)) t, ?_, ?_, rfl, fun k => ?_⟩
    · simp [evaluateCurveWaypointAtTime, withPts, hl]; rfl
    · simp [evaluateCurveWaypointAtTime, withPts, hl, hn]; rfl
    · simp only [c0_dc0_ddc0_j0_x3_j1_ddc1_dc1_c1.evaluateCurveWaypointAtTime, hR]; ring
  · have hl : pi.length = 13 := by simpa [degreeOf] using hl
    refine ⟨c0_dc0_ddc0_j0_x5_j1_ddc1_dc1_c1.evaluateCurveWaypointAtTime (nth pi) t,
      c0_dc0_ddc0_j0_x5_j1_ddc1_dc1_c1.evaluateCurveWaypointAtTime (fun i => R (nth pi i)) t, ?_, ?_, rfl, fun k => ?_⟩
    · simp [evaluateCurveWaypointAtTime, withPts, hl]; rfl
    · simp [evaluateCurveWaypointAtTime, withPts, hl, hn]; rfl
    · simp only [c0_dc0_ddc0_j0_x5_j1_ddc1_dc1_c1.evaluateCurveWaypointAtTime, hR]; ring

theorem addSquare_turn (R : V3 ≃ₗ[ℝ] V3) {K : ℕ} (c : BlockCost K) {w w' : WpB K} (h : TurnedWp R w w') (p : V3) :
    addSquare (turnCost R c) w' (R p) = turnCost R (addSquare c w p) := by
  unfold addSquare turnCost
  refine Prod.ext ?_ ?_
  · simp only [h.1]; rfl
  · funext a
    simp only [h.1, show w'.second = R w.second from funext h.2, map_add, map_smul, map_sub]

theorem distanceLoop_turn (flag : Flag) (hf : flag ∈ effFlags) {R : V3 ≃ₗ[ℝ] V3} (hR : AxesToAxes R) (pi : List V3)
    (hl : pi.length = degreeOf flag + 1) (step : ℝ) (ps : List V3) (i : ℕ) (c r : BlockCost (dimVarPts flag))
    (h : distanceLoop flag pi step ps i c = .ok r) :
    distanceLoop flag (pi.map R) step (ps.map R) i (turnCost R c) = .ok (turnCost R r) := by
  induction ps generalizing i c with
  | nil =>
    simp only [distanceLoop] at h
    obtain rfl := Out.ok.inj h
    rfl
  | cons p ps ih =>
    obtain ⟨w, w', e, e', hw⟩ := curveWaypoint_turn flag hf hR pi hl ((i : ℝ) * step)
    simp only [distanceLoop, e, Out.ok_bind, asPt, dif_pos] at h
    simp only [List.map_cons, distanceLoop, e', Out.ok_bind, asPt, dif_pos]
    rw [addSquare_turn R c hw]
    exact ih _ _ h

theorem distanceCost_turn (flag : Flag) (hf : flag ∈ effFlags) (d : BC) (T : ℝ) {R : V3 ≃ₗ[ℝ] V3} (hR : AxesToAxes R) (n : ℕ)
    (path : ℝ → V3) {c} (h : computeDistanceCostFunctionPath flag d T n path = .ok c) :
    computeDistanceCostFunctionPath flag (d.rotate R) T n (fun t => R (path t)) = .ok (turnCost R c) := by
  obtain ⟨pi, hpi, hl⟩ := effPts flag hf d T
  have hs : samplePath n (fun t => R (path t)) = (samplePath n path).map R := by simp [samplePath]
  unfold computeDistanceCostFunctionPath computeDistanceCostFunction at h ⊢
  rw [hs, List.length_map, effPts_turn flag hf d T hR pi hpi]
  rw [hpi] at h
  split at h
  · rename_i hc
    rw [if_pos hc]
    rw [Out.ok_bind] at h ⊢
    obtain ⟨q, hq, h⟩ := Out.bind_eq_ok.mp h
    have z : ((0, 0) : BlockCost (dimVarPts flag)) = turnCost R (0, 0) := by
      unfold turnCost; refine Prod.ext rfl ?_; funext a; simp
    rw [z, distanceLoop_turn flag hf hR pi hl _ _ _ _ _ hq, Out.ok_bind]
    unfold divideByNorm at h ⊢
    split at h
    · cases h
    · rename_i hb
      rw [if_neg (by simpa [turnCost] using hb)]
      obtain rfl := Out.ok.inj h
      exact congrArg Out.ok (normalizeCost_turn hR q.1 q.2)
  · cases h

/-- The cost of a call, in the two systems of axes. -/
theorem endCost_turn (flag : Flag) (hf : flag ∈ effFlags) (d : BC) (T : ℝ) (hT : 0 < T) {R : V3 ≃ₗ[ℝ] V3} (hR : AxesToAxes R) (path : ℝ → V3)
    (w : ℝ) (h0 : 0 ≤ w) (h1 : w ≤ 1) (pi : List V3) (hl : pi.length = degreeOf flag + 1) {c}
    (h : computeEndEffectorCost flag d path T w pi = .ok c) :
    computeEndEffectorCost flag (d.rotate R) (fun t => R (path t)) T w (pi.map R) = .ok (turnCost R c) := by
  obtain ⟨S, hS, -⟩ := smooth_pos flag hf d T hT pi hl
  obtain ⟨D, hD, -⟩ := distance_pos flag hf d T path
  have hS' := velocityCost_turn flag hf d (d.rotate R) T hR pi hl hS
  have hD' := distanceCost_turn flag hf d T hR 50 path hD
  have ha : ∀ S, asCost (dimVarPts flag) ⟨dimVarPts flag, S⟩ = .ok S := fun S => by simp [asCost]
  unfold computeEndEffectorCost endEffectorDistanceCost at h ⊢
  rw [if_pos ⟨h0, h1⟩] at h ⊢
  rw [hS] at h
  rw [hS']
  rcases h0.eq_or_lt with rfl | hw
  · rw [if_neg (lt_irrefl _)] at h ⊢
    simp only [Out.ok_bind, ha] at h ⊢
    obtain rfl := Out.ok.inj h
    simp [turnCost, Pure.pure]
  · rw [if_pos hw] at h ⊢
    rw [hD] at h
    rw [hD']
    simp only [Out.ok_bind, ha] at h ⊢
    obtain rfl := Out.ok.inj h
    obtain ⟨s, σ, -, hR⟩ := hR.signs
    refine congrArg Out.ok (Prod.ext rfl ?_)
    funext a k
    simp only [turnCost, hR]
    ring

/-! ## The best free points are unique -/

theorem endOk_mid (flag : Flag) (d : BC) (T : ℝ) (pi : List V3) (X Y : ℕ → V3) (hx : EndOk flag d T pi X)
    (hy : EndOk flag d T pi Y) : EndOk flag d T pi fun j => (1 / 2 : ℝ) • X j + (1 / 2 : ℝ) • Y j := by
  obtain ⟨vel, acc, jerk, e1, e2, e3, k1, k2, k3, k4⟩ := hx
  obtain ⟨vel', acc', jerk', f1, f2, f3, l1, l2, l3, l4⟩ := hy
  rw [e1] at f1; rw [e2] at f2; rw [e3] at f3
  obtain rfl := Out.ok.inj f1
  obtain rfl := Out.ok.inj f2
  obtain rfl := Out.ok.inj f3
  have hat : ∀ {K : ℕ} (w : WpB K), w.at (fun j => (1 / 2 : ℝ) • X j + (1 / 2 : ℝ) • Y j) = (1 / 2 : ℝ) • w.at X + (1 / 2 : ℝ) • w.at Y := by
    intro K w
    have : ∑ j : Fin K, w.first j • ((1 / 2 : ℝ) • X j.val + (1 / 2 : ℝ) • Y j.val)
        = (1 / 2 : ℝ) • ∑ j : Fin K, w.first j • X j.val + (1 / 2 : ℝ) • ∑ j : Fin K, w.first j • Y j.val := by
      rw [smul_sum, smul_sum, ← sum_add_distrib]
      exact sum_congr rfl fun j _ => by module
    simp only [WpB.at, this]
    module
  have hw : ∀ {K : ℕ} (ws : List (WpB K)), Within ws (fun _ => 10000) (fun _ => 10000) X →
      Within ws (fun _ => 10000) (fun _ => 10000) Y →
      Within ws (fun _ => 10000) (fun _ => 10000) (fun j => (1 / 2 : ℝ) • X j + (1 / 2 : ℝ) • Y j) := by
    intro K ws h1 h2 w hm hd k
    rw [hat]
    have g1 := h1 w hm hd k
    have g2 := h2 w hm hd k
    simp only [Pi.add_apply, Pi.smul_apply, smul_eq_mul]
    constructor <;> linarith
  refine ⟨vel, acc, jerk, e1, e2, e3, hw _ k1 l1, hw _ k2 l2, hw _ k3 l3, fun j hj => ?_⟩
  have g1 := k4 j hj
  have g2 := l4 j hj
  simp only [Pi.add_apply, Pi.smul_apply, smul_eq_mul]
  linarith

theorem block_unique {K : ℕ} {c : BlockCost K} (hc : AxisPos c.1) {S : (ℕ → V3) → Prop} {X Y : ℕ → V3} (hX : S X) (hY : S Y)
    (hS : S fun j => (1 / 2 : ℝ) • X j + (1 / 2 : ℝ) • Y j) (bX : ∀ Z, S Z → blockForm c.1 c.2 X ≤ blockForm c.1 c.2 Z)
    (bY : ∀ Z, S Z → blockForm c.1 c.2 Y ≤ blockForm c.1 c.2 Z) : ∀ a < K, X a = Y a := by
  have e : blockForm c.1 c.2 X + blockForm c.1 c.2 Y
      = 2 * blockForm c.1 c.2 (fun j => (1 / 2 : ℝ) • X j + (1 / 2 : ℝ) • Y j)
        + 1 / 2 * ∑ k : Fin 3, ∑ a, ∑ b, c.1 a b * ((X a.val k - Y a.val k) * (X b.val k - Y b.val k)) := by
    simp only [blockForm_axes, mul_sum, ← sum_add_distrib]
    refine sum_congr rfl fun k _ => ?_
    refine sum_congr rfl fun a _ => ?_
    have q : ∑ b, (c.1 a b * (X a.val k * X b.val k)) + ∑ b, c.1 a b * (Y a.val k * Y b.val k)
        = ∑ b, 2 * (c.1 a b * (((1 / 2 : ℝ) • X a.val + (1 / 2 : ℝ) • Y a.val) k * ((1 / 2 : ℝ) • X b.val + (1 / 2 : ℝ) • Y b.val) k))
        + ∑ b, 1 / 2 * (c.1 a b * ((X a.val k - Y a.val k) * (X b.val k - Y b.val k))) := by
      rw [← sum_add_distrib, ← sum_add_distrib]
      refine sum_congr rfl fun b _ => ?_
      simp only [Pi.add_apply, Pi.smul_apply, smul_eq_mul]
      ring
    simp only [Pi.add_apply, Pi.smul_apply, smul_eq_mul, ← mul_sum] at q ⊢
    linarith
  have h1 := bX _ hS
  have h2 := bY _ hS
  have hn := hc.nonneg
  have h3 : ∀ k : Fin 3, 0 ≤ ∑ a, ∑ b, c.1 a b * ((X a.val k - Y a.val k) * (X b.val k - Y b.val k)) :=
    fun k => hn.2 fun a => X a.val k - Y a.val k
  have h4 : ∑ k : Fin 3, ∑ a, ∑ b, c.1 a b * ((X a.val k - Y a.val k) * (X b.val k - Y b.val k)) = 0 :=
    le_antisymm (by linarith) (sum_nonneg fun k _ => h3 k)
  rw [sum_eq_zero_iff_of_nonneg fun k _ => h3 k] at h4
  intro a ha
  funext k
  have h5 := h4 k (mem_univ k)
  by_contra hne
  have := hc.2 (fun a => X a.val k - Y a.val k) fun hz => hne (sub_eq_zero.mp (congrFun hz ⟨a, ha⟩))
  linarith

/-! ## The planner -/

/-- The motions through the turned points. -/
theorem motion_turn (flag : Flag) (hf : flag ∈ effFlags) (R : V3 ≃ₗ[ℝ] V3) (pi : List V3) {X Y : ℕ → V3}
    (h : ∀ j < dimVarPts flag, Y j = R (X j)) (T t : ℝ) :
    curve (degreeOf flag) (fillMany flag (nth (pi.map R)) Y) T t = R (curve (degreeOf flag) (fillMany flag (nth pi) X) T t) := by
  have hn := nth_map R (map_zero R) pi
  have e : fillMany flag (nth (pi.map R)) Y = fun i => R (fillMany flag (nth pi) X i) := by
    funext i
    unfold fillMany
    split
    · rename_i hm
      refine h _ ?_
      simp only [effFlags, List.mem_cons, List.not_mem_nil, or_false] at hf
      have d1 : dimVarPts 255#32 = 1 := by decide
      have d2 : dimVarPts 767#32 = 3 := by decide
      have d3 : dimVarPts 2303#32 = 5 := by decide
      rcases hf with rfl | rfl | rfl <;> simp [freeSlots] at hm ⊢ <;> omega
    · rw [hn]
  rw [e]
  unfold curve bez
  rw [map_sum]
  exact sum_congr rfl fun i _ => (map_smul R _ _).symm

/-- C122. The end effector planner after an exchange or a reversal of horizontal axes, for all three sets, all paths and all weights:
the verdict is the same and the motion is the turned motion, when the iteration limit is large. -/
theorem C122_axes (flag : Flag) (hf : flag ∈ effFlags) (d : BC) (T : ℝ) (hT : 0 < T) {R : V3 ≃ₗ[ℝ] V3} (hR : AxesToAxes R)
    (hz : ∀ v, R v 2 = v 2) : ∃ M, ∀ lib, LibOk lib → lib.eps = 0 → M ≤ lib.maxIter →
    ∀ path w init init', 0 ≤ w → w ≤ 1 → ∃ r r' N,
      (∀ fuel ≥ N, solveEndEffector lib fuel flag d path T w init = .ok r ∧
        solveEndEffector lib fuel flag (d.rotate R) (fun t => R (path t)) T w init' = .ok r') ∧
      r'.success = r.success ∧ (r.success = true → ∀ t, r'.c_of_t.eval t = R (r.c_of_t.eval t)) := by
  obtain ⟨pi, hpi, hl⟩ := effPts flag hf d T
  have hpi' := effPts_turn flag hf d T hR pi hpi
  have hl' : (pi.map R).length = degreeOf flag + 1 := by rw [List.length_map, hl]
  obtain ⟨A, b, hA, -⟩ := endOk_iff flag hf d T pi hl
  obtain ⟨A', b', hA', -⟩ := endOk_iff flag hf (d.rotate R) T (pi.map R) hl'
  refine ⟨2 ^ A.rows + 2 ^ A'.rows + 1, fun lib hL he hm path w init init' h0 h1 => ?_⟩
  obtain ⟨_, _, _, c, r, N, e1, e2, e3, hr, hok, hfail⟩ := C64_solves lib hL he flag hf d path T w hT h0 h1 init
  obtain ⟨_, _, _, c', r', N', e1', e2', e3', hr', hok', hfail'⟩ :=
    C64_solves lib hL he flag hf (d.rotate R) (fun t => R (path t)) T w hT h0 h1 init'
  rw [hpi] at e1; rw [hpi'] at e1'
  obtain rfl := Out.ok.inj e1
  obtain rfl := Out.ok.inj e1'
  rw [hA] at e2; rw [hA'] at e2'
  obtain ⟨rfl, rfl⟩ := Prod.mk.inj (Out.ok.inj e2)
  obtain ⟨rfl, rfl⟩ := Prod.mk.inj (Out.ok.inj e2')
  rw [endCost_turn flag hf d T hT hR path w h0 h1 pi hl e3] at e3'
  obtain rfl := Out.ok.inj e3'
  have hpos := Nat.pos_of_ne_zero (pow_ne_zero A.rows (two_ne_zero (α := ℕ)))
  have hpos' := Nat.pos_of_ne_zero (pow_ne_zero A'.rows (two_ne_zero (α := ℕ)))
  have adm := C122_admissible flag hf d T hR hz pi hl
  have back : ∀ Y : ℕ → V3, (fun j => R (R.symm (Y j))) = Y := fun Y => by funext j; simp
  have hs : r'.success = r.success := by
    rcases hb : r.success with _ | _
    · by_contra hb'
      obtain ⟨X', -, -, -, hX', -⟩ := hok' (by simpa using hb')
      rcases (hfail hb).2 with h | h
      · omega
      · exact h (fun j => R.symm (X' j)) ((adm _).mpr (by rw [back]; exact hX'))
    · by_contra hb'
      obtain ⟨X, -, -, -, hX, -⟩ := hok hb
      rcases (hfail' (by simpa using hb')).2 with h | h
      · omega
      · exact h _ ((adm _).mp hX)
  refine ⟨r, r', max N N', fun fuel hfu => ⟨hr fuel (le_trans (le_max_left _ _) hfu), hr' fuel (le_trans (le_max_right _ _) hfu)⟩,
    hs, fun hb t => ?_⟩
  obtain ⟨X, -, hcu, -, hX, bX⟩ := hok hb
  obtain ⟨X', -, hcu', -, hX', bX'⟩ := hok' (hs.trans hb)
  obtain ⟨c2, hc2, hcp, -⟩ := endCost_pos flag hf d path T w hT h0 h1 pi hl
  rw [e3] at hc2
  obtain rfl := Out.ok.inj hc2
  have hY : EndOk flag d T pi fun j => R.symm (X' j) := (adm _).mpr (by rw [back]; exact hX')
  have bY : ∀ Z, EndOk flag d T pi Z → blockForm c.1 c.2 (fun j => R.symm (X' j)) ≤ blockForm c.1 c.2 Z := by
    intro Z hZ
    rw [← turnCost_form hR c, ← turnCost_form hR c Z, back]
    exact bX' _ ((adm _).mp hZ)
  have hu := block_unique hcp hX hY (endOk_mid flag d T pi _ _ hX hY) bX bY
  rw [hcu, hcu']
  exact motion_turn flag hf R pi (fun j hj => by rw [hu j hj]; simp) T t

/-- The same for `computeEndEffector` of the Python module. -/
theorem C122_python (flag : Flag) (hf : flag ∈ effFlags) (d : BC) (T : ℝ) (hT : 0 < T) {R : V3 ≃ₗ[ℝ] V3} (hR : AxesToAxes R)
    (hz : ∀ v, R v 2 = v 2) : ∃ M, ∀ lib, LibOk lib → lib.eps = 0 → M ≤ lib.maxIter →
    ∀ init init', ∃ r r' N,
      (∀ fuel ≥ N, computeEndEffector lib fuel flag d T init = .ok r ∧
        computeEndEffector lib fuel flag (d.rotate R) T init' = .ok r') ∧
      r'.success = r.success ∧ (r.success = true → ∀ t, r'.c_of_t.eval t = R (r.c_of_t.eval t)) := by
  obtain ⟨M, h⟩ := C122_axes flag hf d T hT hR hz
  refine ⟨M, fun lib hL he hm init init' => ?_⟩
  obtain ⟨r, r', N, h1, h2⟩ := h lib hL he hm (fun _ => 0) 0 init init' le_rfl zero_le_one
  refine ⟨r, r', N, fun fuel hfu => ⟨(h1 fuel hfu).1, ?_⟩, h2⟩
  have := (h1 fuel hfu).2
  simpa [computeEndEffector] using this

/-- A non-trivial case of C122: the move of one metre, turned by a quarter. Both calls succeed. -/
theorem unitMove_turned : ∃ M, ∀ maxIter ≥ M, ∀ init, ∃ r r' N,
    (∀ fuel ≥ N, computeEndEffector (exactLib maxIter) fuel 255#32 unitMove 1 init = .ok r ∧
      computeEndEffector (exactLib maxIter) fuel 255#32 ⟨0, 0, 0, 0, ![0, 1, 0], 0, 0, 0⟩ 1 init = .ok r') ∧
    r.success = true ∧ r'.success = true ∧ ∀ t, r'.c_of_t.eval t = ![-(r.c_of_t.eval t 1), r.c_of_t.eval t 0, r.c_of_t.eval t 2] := by
  obtain ⟨M, h⟩ := C122_python 255#32 (by decide) unitMove 1 one_pos quarter_axes (fun v => by simp [rotZ])
  obtain ⟨M', h'⟩ := C64_unitMove
  refine ⟨max M M', fun maxIter hm init => ?_⟩
  obtain ⟨r, r', N, hr, hs, hn⟩ := h (exactLib maxIter) (exactLib_ok maxIter) rfl (le_trans (le_max_left _ _) hm) init init
  obtain ⟨r1, N1, hr1, hs1⟩ := h' maxIter (le_trans (le_max_right _ _) hm) init
  obtain rfl : r = r1 := Out.ok.inj ((hr (max N N1) (le_max_left _ _)).1.symm.trans (hr1 (max N N1) (le_max_right _ _)))
  have hd : unitMove.rotate (rotZ 0 1 (by norm_num)) = ⟨0, 0, 0, 0, ![0, 1, 0], 0, 0, 0⟩ := by
    simp [BC.rotate, unitMove, rotZ]
  rw [hd] at hr
  refine ⟨r, r', N, hr, hs1, hs.trans hs1, fun t => ?_⟩
  rw [hn hs1 t]
  simp [rotZ]

/-! ## Other changes of axes -/

/-- With a large iteration limit the planner succeeds exactly when some free points meet the requirements. -/
theorem end_verdict (flag : Flag) (hf : flag ∈ effFlags) (d : BC) (T : ℝ) (hT : 0 < T) (pi : List V3)
    (hpi : computeConstantWaypoints flag d T = .ok pi) : ∃ M, ∀ lib, LibOk lib → lib.eps = 0 → M ≤ lib.maxIter →
    ∀ path w init, 0 ≤ w → w ≤ 1 → ∃ r N, (∀ fuel ≥ N, solveEndEffector lib fuel flag d path T w init = .ok r) ∧
      (r.success = true ↔ ∃ X, EndOk flag d T pi X) := by
  obtain ⟨pi', e, hl⟩ := effPts flag hf d T
  rw [hpi] at e
  obtain rfl := Out.ok.inj e
  obtain ⟨A, b, hA, -⟩ := endOk_iff flag hf d T pi hl
  refine ⟨2 ^ A.rows + 1, fun lib hL he hm path w init h0 h1 => ?_⟩
  obtain ⟨_, _, _, c, r, N, e1, e2, e3, hr, hok, hfail⟩ := C64_solves lib hL he flag hf d path T w hT h0 h1 init
  rw [hpi] at e1
  obtain rfl := Out.ok.inj e1
  rw [hA] at e2
  obtain ⟨rfl, rfl⟩ := Prod.mk.inj (Out.ok.inj e2)
  refine ⟨r, N, hr, fun hs => ?_, fun ⟨X, hX⟩ => ?_⟩
  · obtain ⟨X, -, -, -, hX, -⟩ := hok hs
    exact ⟨X, hX⟩
  · by_contra hs
    rcases (hfail (by simpa using hs)).2 with h | h
    · omega
    · exact h X hX

/-- From rest at the origin with jerk `336 q` to rest at `v`, in one second. -/
def jerkyMove (q v : V3) : BC := ⟨0, 0, 0, fun k => 336 * q k, v, 0, 0, 0⟩

theorem jerkyMove_pts (q v : V3) : ∃ pi, computeConstantWaypoints 255#32 (jerkyMove q v) 1 = .ok pi ∧ pi.length = 9 ∧
    nth pi 0 = 0 ∧ nth pi 1 = 0 ∧ nth pi 2 = 0 ∧ nth pi 3 = q ∧ nth pi 5 = v ∧ nth pi 6 = v ∧ nth pi 7 = v ∧ nth pi 8 = v := by
  refine ⟨_, by simp [computeConstantWaypoints]; rfl, by simp [c0_dc0_ddc0_j0_j1_ddc1_dc1_c1.computeConstantWaypoints], ?_⟩
  (repeat' apply And.intro) <;> funext k <;>
    simp [nth, c0_dc0_ddc0_j0_j1_ddc1_dc1_c1.computeConstantWaypoints, jerkyMove] <;> ring

/-- The requirements of these motions, for one coordinate: those of the control points that depend on the free point. -/
theorem jerkyMove_ok (q v : V3) {pi : List V3} (h : computeConstantWaypoints 255#32 (jerkyMove q v) 1 = .ok pi) (X : ℕ → V3) :
    EndOk 255#32 (jerkyMove q v) 1 pi X ↔ (∀ k, |8 * X 0 k - 8 * q k| ≤ 10000 ∧ |8 * v k - 8 * X 0 k| ≤ 10000 ∧
      |56 * X 0 k - 112 * q k| ≤ 10000 ∧ |-112 * X 0 k + 56 * q k + 56 * v k| ≤ 10000 ∧ |56 * X 0 k - 56 * v k| ≤ 10000 ∧
      |336 * X 0 k - 1008 * q k| ≤ 10000 ∧ |-1008 * X 0 k + 1008 * q k + 336 * v k| ≤ 10000 ∧
      |1008 * X 0 k - 336 * q k - 672 * v k| ≤ 10000 ∧ |336 * v k - 336 * X 0 k| ≤ 10000) ∧ min 0 (v 2) ≤ X 0 2 := by
  obtain ⟨pi', e, hl, q0, q1, q2, q3, q5, q6, q7, q8⟩ := jerkyMove_pts q v
  rw [h] at e
  obtain rfl := Out.ok.inj e
  have hd : dimVarPts 255#32 = 1 := by decide
  have dep : ∀ (a : ℝ) (s : V3), 1 ≤ |a| → Depends (⟨![a], s⟩ : WpB 1) := fun a s ha =>
    ⟨0, lt_of_lt_of_le (b := 1) (by norm_num) (by simpa using ha)⟩
  have ndep : ∀ s : V3, ¬ Depends (⟨![0], s⟩ : WpB 1) := by
    rintro s ⟨j, hj⟩
    fin_cases j
    norm_num at hj
  have wcons : ∀ (w : WpB 1) ws, Within (w :: ws) (fun _ => 10000) (fun _ => 10000) X ↔
      (Depends w → ∀ k, |w.at X k| ≤ 10000) ∧ Within ws (fun _ => 10000) (fun _ => 10000) X := by
    intro w ws; simp [Within, abs_le]
  have wnil : Within ([] : List (WpB 1)) (fun _ => 10000) (fun _ => 10000) X := by simp [Within]
  have wdep : ∀ (a : ℝ) (s : V3), 1 ≤ |a| → ((Depends (⟨![a], s⟩ : WpB 1) → ∀ k, |(⟨![a], s⟩ : WpB 1).at X k| ≤ 10000) ↔
      ∀ k, |a * X 0 k + s k| ≤ 10000) := by
    intro a s ha
    simp [dep a s ha, WpB.at]
  have wno : ∀ s : V3, (Depends (⟨![0], s⟩ : WpB 1) → ∀ k, |(⟨![0], s⟩ : WpB 1).at X k| ≤ 10000) ↔ True :=
    fun s => iff_true_intro fun h => absurd h (ndep s)
  rw [endOk255 hl]
  simp only [c0_dc0_ddc0_j0_j1_ddc1_dc1_c1.computeVelocityWaypoints, c0_dc0_ddc0_j0_j1_ddc1_dc1_c1.computeAccelerationWaypoints,
    c0_dc0_ddc0_j0_j1_ddc1_dc1_c1.computeJerkWaypoints, wcons, wno, wnil, true_and, and_true, div_one, mul_one]
  rw [wdep _ _ (by norm_num), wdep _ _ (by norm_num), wdep _ _ (by norm_num), wdep _ _ (by norm_num), wdep _ _ (by norm_num),
    wdep _ _ (by norm_num), wdep _ _ (by norm_num), wdep _ _ (by norm_num), wdep _ _ (by norm_num)]
  simp only [q0, q1, q2, q3, q5, q6, q7, q8, Pi.zero_apply, AboveEnds, hd, jerkyMove, Nat.lt_one_iff, forall_eq]
  constructor
  · rintro ⟨⟨h1, h2⟩, ⟨h3, h4, h5⟩, ⟨h6, h7, h8, h9⟩, h10⟩
    refine ⟨fun k => ⟨?_, ?_, ?_, ?_, ?_, ?_, ?_, ?_, ?_⟩, h10⟩
    · convert h1 k using 2; ring
    · convert h2 k using 2; ring
    · convert h3 k using 2; ring
    · convert h4 k using 2; ring
    · convert h5 k using 2; ring
    · convert h6 k using 2; ring
    · convert h7 k using 2; ring
    · convert h8 k using 2; ring
    · convert h9 k using 2; ring
  · rintro ⟨h, h10⟩
    refine ⟨⟨fun k => ?_, fun k => ?_⟩, ⟨fun k => ?_, fun k => ?_, fun k => ?_⟩, ⟨fun k => ?_, fun k => ?_, fun k => ?_, fun k => ?_⟩, h10⟩ <;>
      obtain ⟨h1, h2, h3, h4, h5, h6, h7, h8, h9⟩ := h k
    · convert h1 using 2; ring
    · convert h2 using 2; ring
    · convert h3 using 2; ring
    · convert h4 using 2; ring
    · convert h5 using 2; ring
    · convert h6 using 2; ring
    · convert h7 using 2; ring
    · convert h8 using 2; ring
    · convert h9 using 2; ring

/-- C122 does not extend to other angles, even about the vertical: with one free point the move of length 70 along x in one second is
refused, and it is planned after the axes are turned by the angle whose cosine is 3/5. -/
theorem C122_angle_refuted : ∃ M, ∀ lib, LibOk lib → lib.eps = 0 → M ≤ lib.maxIter → ∀ path path' w init, 0 ≤ w → w ≤ 1 → ∃ r r' N,
    (∀ fuel ≥ N, solveEndEffector lib fuel 255#32 (jerkyMove 0 ![70, 0, 0]) path 1 w init = .ok r ∧
      solveEndEffector lib fuel 255#32 ((jerkyMove 0 ![70, 0, 0]).rotate (rotZ (3 / 5) (4 / 5) (by norm_num))) path' 1 w init = .ok r') ∧
    r.success = false ∧ r'.success = true := by
  have hd : (jerkyMove 0 ![70, 0, 0]).rotate (rotZ (3 / 5) (4 / 5) (by norm_num)) = jerkyMove 0 ![42, 56, 0] := by
    have z : (fun _ => 0 : V3) = 0 := rfl
    simp [BC.rotate, jerkyMove, rotZ, z]
    norm_num
  rw [hd]
  obtain ⟨pi, hpi, -⟩ := jerkyMove_pts 0 ![70, 0, 0]
  obtain ⟨pi', hpi', -⟩ := jerkyMove_pts 0 ![42, 56, 0]
  obtain ⟨M, h⟩ := end_verdict 255#32 (by decide) _ 1 one_pos pi hpi
  obtain ⟨M', h'⟩ := end_verdict 255#32 (by decide) _ 1 one_pos pi' hpi'
  refine ⟨max M M', fun lib hL he hm path path' w init h0 h1 => ?_⟩
  obtain ⟨r, N, hr, hv⟩ := h lib hL he (le_trans (le_max_left _ _) hm) path w init h0 h1
  obtain ⟨r', N', hr', hv'⟩ := h' lib hL he (le_trans (le_max_right _ _) hm) path' w init h0 h1
  refine ⟨r, r', max N N', fun fuel hfu => ⟨hr fuel (le_trans (le_max_left _ _) hfu), hr' fuel (le_trans (le_max_right _ _) hfu)⟩, ?_, ?_⟩
  · by_contra hs
    obtain ⟨X, hX⟩ := hv.mp (by simpa using hs)
    obtain ⟨hX, -⟩ := (jerkyMove_ok _ _ hpi X).mp hX
    obtain ⟨-, -, -, -, -, k1, -, -, k2⟩ := hX 0
    simp at k1 k2
    linarith [le_abs_self (X 0 0), (abs_le.mp k2).2]
  · refine hv'.mpr ⟨fun _ => ![21, 28, 0], (jerkyMove_ok _ _ hpi' _).mpr ⟨fun k => ?_, by simp⟩⟩
    fin_cases k <;> norm_num [abs_le]

/-- The quarter turn about the x axis, which takes the second axis to the vertical. -/
def tipX : V3 ≃ₗ[ℝ] V3 where
  toFun v := ![v 0, -v 2, v 1]
  invFun v := ![v 0, v 2, -v 1]
  map_add' u v := by ext k; fin_cases k <;> simp; ring
  map_smul' a v := by ext k; fin_cases k <;> simp
  left_inv v := by ext k; fin_cases k <;> simp
  right_inv v := by ext k; fin_cases k <;> simp

theorem tipX_axes : AxesToAxes tipX := by
  refine ⟨Equiv.swap 1 2, fun v j => ?_⟩
  fin_cases j
  · simp [tipX, Equiv.swap_apply_def]
  · simp [tipX]
  · simp [tipX]

/-- C122 does not extend to exchanges of the vertical with a horizontal axis: with one free point the motion that ends where it
starts and begins with a jerk along the second axis is planned, and it is refused when that axis is the vertical. -/
theorem C122_vertical_refuted : ∃ M, ∀ lib, LibOk lib → lib.eps = 0 → M ≤ lib.maxIter → ∀ path path' w init, 0 ≤ w → w ≤ 1 → ∃ r r' N,
    (∀ fuel ≥ N, solveEndEffector lib fuel 255#32 (jerkyMove ![0, -11, 0] 0) path 1 w init = .ok r ∧
      solveEndEffector lib fuel 255#32 ((jerkyMove ![0, -11, 0] 0).rotate tipX) path' 1 w init = .ok r') ∧
    r.success = true ∧ r'.success = false := by
  have hd : (jerkyMove ![0, -11, 0] 0).rotate tipX = jerkyMove ![0, 0, -11] 0 := by
    simp only [BC.rotate, jerkyMove, map_zero, BC.mk.injEq, true_and, and_true]
    ext k
    fin_cases k <;> simp [tipX]
  rw [hd]
  obtain ⟨pi, hpi, -⟩ := jerkyMove_pts ![0, -11, 0] 0
  obtain ⟨pi', hpi', -⟩ := jerkyMove_pts ![0, 0, -11] 0
  obtain ⟨M, h⟩ := end_verdict 255#32 (by decide) _ 1 one_pos pi hpi
  obtain ⟨M', h'⟩ := end_verdict 255#32 (by decide) _ 1 one_pos pi' hpi'
  refine ⟨max M M', fun lib hL he hm path path' w init h0 h1 => ?_⟩
  obtain ⟨r, N, hr, hv⟩ := h lib hL he (le_trans (le_max_left _ _) hm) path w init h0 h1
  obtain ⟨r', N', hr', hv'⟩ := h' lib hL he (le_trans (le_max_right _ _) hm) path' w init h0 h1
  refine ⟨r, r', max N N', fun fuel hfu => ⟨hr fuel (le_trans (le_max_left _ _) hfu), hr' fuel (le_trans (le_max_right _ _) hfu)⟩, ?_, ?_⟩
  · refine hv.mpr ⟨fun _ => ![0, -5, 0], (jerkyMove_ok _ _ hpi _).mpr ⟨fun k => ?_, by simp⟩⟩
    fin_cases k <;> norm_num [abs_le]
  · by_contra hs
    obtain ⟨X, hX⟩ := hv'.mp (by simpa using hs)
    obtain ⟨hX, hz⟩ := (jerkyMove_ok _ _ hpi' X).mp hX
    obtain ⟨-, -, -, -, -, k1, -⟩ := hX 2
    rw [third_coord, abs_le] at k1
    simp at hz
    linarith [k1.2]

end Verif
