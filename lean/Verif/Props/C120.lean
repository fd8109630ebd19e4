import Verif.Props.C85
import Verif.Props.C108

/-!
# C120: the end effector planner and the origin of the frame
-/

namespace Verif
open Finset

/-- The constant waypoints of the set with one free point move with the frame. -/
theorem onePts_translate (d : BC) (p : V3) (T : ℝ) : ∃ pi pi', computeConstantWaypoints 255#32 d T = .ok pi ∧
    computeConstantWaypoints 255#32 (d.translate p) T = .ok pi' ∧ pi.length = 9 ∧ pi'.length = 9 ∧
    ∀ i < 9, nth pi' i = if i = 4 then 0 else nth pi i + p := by
  refine ⟨_, _, by simp [computeConstantWaypoints]; rfl, by simp [computeConstantWaypoints]; rfl,
    by simp [c0_dc0_ddc0_j0_j1_ddc1_dc1_c1.computeConstantWaypoints],
    by simp [c0_dc0_ddc0_j0_j1_ddc1_dc1_c1.computeConstantWaypoints], fun i hi => ?_⟩
  interval_cases i <;> funext k <;>
    simp [nth, c0_dc0_ddc0_j0_j1_ddc1_dc1_c1.computeConstantWaypoints, BC.translate] <;> ring

/-- Two lists of control points with the same dependence and the same values have the same bounds. -/
theorem within_congr {K : ℕ} {ws ws' : List (WpB K)} {X X' lo up}
    (h : List.Forall₂ (fun w w' : WpB K => w'.first = w.first ∧ w'.at X' = w.at X) ws ws') :
    Within ws lo up X ↔ Within ws' lo up X' := by
  induction h with
  | nil => simp [Within]
  | @cons w w' ws ws' h _ ih =>
    have e : ∀ (w : WpB K) ws X, Within (w :: ws) lo up X ↔
        (Depends w → ∀ k, -lo k ≤ w.at X k ∧ w.at X k ≤ up k) ∧ Within ws lo up X := by
      intro w ws X; simp [Within]
    have ed : Depends w' ↔ Depends w := by unfold Depends; rw [h.1]
    rw [e, e, ih, ed, h.2]

/-- The requirements of the set with one free point, with its lists of control points. -/
theorem endOk255 {d : BC} {T : ℝ} {pi : List V3} (hl : pi.length = 9) (X : ℕ → V3) : EndOk 255#32 d T pi X ↔
    Within (c0_dc0_ddc0_j0_j1_ddc1_dc1_c1.computeVelocityWaypoints (nth pi) T) (fun _ => 10000) (fun _ => 10000) X ∧
    Within (c0_dc0_ddc0_j0_j1_ddc1_dc1_c1.computeAccelerationWaypoints (nth pi) T) (fun _ => 10000) (fun _ => 10000) X ∧
    Within (c0_dc0_ddc0_j0_j1_ddc1_dc1_c1.computeJerkWaypoints (nth pi) T) (fun _ => 10000) (fun _ => 10000) X ∧
    AboveEnds (dimVarPts 255#32) d.c0 d.c1 X := by
  have u1 : computeVelocityWaypoints 255#32 d T pi = .ok ⟨1, c0_dc0_ddc0_j0_j1_ddc1_dc1_c1.computeVelocityWaypoints (nth pi) T⟩ := by
    simp [computeVelocityWaypoints, hl]
  have u2 : computeAccelerationWaypoints 255#32 d T pi
      = .ok ⟨1, c0_dc0_ddc0_j0_j1_ddc1_dc1_c1.computeAccelerationWaypoints (nth pi) T⟩ := by
    simp [computeAccelerationWaypoints, hl]
  have u3 : computeJerkWaypoints 255#32 d T pi = .ok ⟨1, c0_dc0_ddc0_j0_j1_ddc1_dc1_c1.computeJerkWaypoints (nth pi) T⟩ := by
    simp [computeJerkWaypoints, hl]
  constructor
  · rintro ⟨vel, acc, jerk, e1, e2, e3, k1, k2, k3, k4⟩
    rw [u1] at e1; rw [u2] at e2; rw [u3] at e3
    obtain rfl := Out.ok.inj e1
    obtain rfl := Out.ok.inj e2
    obtain rfl := Out.ok.inj e3
    exact ⟨k1, k2, k3, k4⟩
  · rintro ⟨k1, k2, k3, k4⟩
    exact ⟨_, _, _, u1, u2, u3, k1, k2, k3, k4⟩

/-- C120: with one free point, the motions that meet the requirements are the same in both frames. -/
theorem C120_admissible (d : BC) (p : V3) (T : ℝ) {pi pi' : List V3} (h : computeConstantWaypoints 255#32 d T = .ok pi)
    (h' : computeConstantWaypoints 255#32 (d.translate p) T = .ok pi') (X : ℕ → V3) :
    EndOk 255#32 d T pi X ↔ EndOk 255#32 (d.translate p) T pi' (fun j => X j + p) := by
  obtain ⟨q, q', e, e', hl, hl', hq⟩ := onePts_translate d p T
  rw [h] at e; rw [h'] at e'
  obtain rfl := Out.ok.inj e
  obtain rfl := Out.ok.inj e'
  have q0 := hq 0 (by norm_num)
  have q1 := hq 1 (by norm_num)
  have q2 := hq 2 (by norm_num)
  have q3 := hq 3 (by norm_num)
  have q5 := hq 5 (by norm_num)
  have q6 := hq 6 (by norm_num)
  have q7 := hq 7 (by norm_num)
  have q8 := hq 8 (by norm_num)
  norm_num at q0 q1 q2 q3 q5 q6 q7 q8
  have v1 : List.Forall₂ (fun w w' : WpB 1 => w'.first = w.first ∧ w'.at (fun j => X j + p) = w.at X)
      (c0_dc0_ddc0_j0_j1_ddc1_dc1_c1.computeVelocityWaypoints (nth pi) T)
      (c0_dc0_ddc0_j0_j1_ddc1_dc1_c1.computeVelocityWaypoints (nth pi') T) := by
    unfold c0_dc0_ddc0_j0_j1_ddc1_dc1_c1.computeVelocityWaypoints
    repeat' constructor
    all_goals funext k; simp [WpB.at, q0, q1, q2, q3, q5, q6, q7, q8] <;> (try left) <;> (try ring)
  have v2 : List.Forall₂ (fun w w' : WpB 1 => w'.first = w.first ∧ w'.at (fun j => X j + p) = w.at X)
      (c0_dc0_ddc0_j0_j1_ddc1_dc1_c1.computeAccelerationWaypoints (nth pi) T)
      (c0_dc0_ddc0_j0_j1_ddc1_dc1_c1.computeAccelerationWaypoints (nth pi') T) := by
    unfold c0_dc0_ddc0_j0_j1_ddc1_dc1_c1.computeAccelerationWaypoints
    repeat' constructor
    all_goals funext k; simp [WpB.at, q0, q1, q2, q3, q5, q6, q7, q8] <;> (try left) <;> (try ring)
  have v3 : List.Forall₂ (fun w w' : WpB 1 => w'.first = w.first ∧ w'.at (fun j => X j + p) = w.at X)
      (c0_dc0_ddc0_j0_j1_ddc1_dc1_c1.computeJerkWaypoints (nth pi) T)
      (c0_dc0_ddc0_j0_j1_ddc1_dc1_c1.computeJerkWaypoints (nth pi') T) := by
    unfold c0_dc0_ddc0_j0_j1_ddc1_dc1_c1.computeJerkWaypoints
    repeat' constructor
    all_goals funext k; simp [WpB.at, q0, q1, q2, q3, q5, q6, q7, q8] <;> (try left) <;> (try ring)
  have v4 : AboveEnds (dimVarPts 255#32) d.c0 d.c1 X ↔
      AboveEnds (dimVarPts 255#32) (d.translate p).c0 (d.translate p).c1 (fun j => X j + p) := by
    unfold AboveEnds
    refine forall₂_congr fun j _ => ?_
    have : min ((d.translate p).c0 2) ((d.translate p).c1 2) = min (d.c0 2) (d.c1 2) + p 2 := by
      exact min_add_add_right _ _ _
    rw [this]
    simp
  rw [endOk255 hl, endOk255 hl', within_congr v1, within_congr v2, within_congr v3, v4]

/-- The cost of smoothness of the set with one free point: a multiple of the squared distance to a point. -/
theorem one_smooth (d : BC) {T : ℝ} (hT : 0 < T) {pi : List V3} (hl : pi.length = 9) {path : ℝ → V3} {c}
    (hc : computeEndEffectorCost 255#32 d path T 0 pi = .ok c) : ∃ m > 0, ∀ X, blockForm c.1 c.2 X
      = m * (13.05361305368214 * sq3 (X 0) + 2 * dot (fun k => -7.8321678321748 * nth pi 0 k - 7.83216783237586 * nth pi 1 k
        + 9.13752913728184 * nth pi 3 k + 9.13752913758454 * nth pi 5 k - 7.83216783216697 * nth pi 7 k
        - 7.83216783216777 * nth pi 8 k) (X 0)) := by
  obtain ⟨c', e, -, S, hS, h0, -⟩ := endCost_pos 255#32 (by decide) d path T 0 hT le_rfl zero_le_one pi hl
  rw [hc] at e
  obtain rfl := Out.ok.inj e
  have hS' : computeVelocityCost 255#32 d T pi = .ok ⟨1, normalizeCost (c0_dc0_ddc0_j0_j1_ddc1_dc1_c1.velocityCostH T)
      (c0_dc0_ddc0_j0_j1_ddc1_dc1_c1.velocityCostG (nth pi) T)⟩ := by
    simp [computeVelocityCost, withPts, hl]
  rw [hS] at hS'
  have hS'' := eq_of_heq (Sigma.mk.inj (Out.ok.inj hS')).2
  rw [h0 rfl, hS'']
  refine ⟨1 / (2 * T * blockNorm (c0_dc0_ddc0_j0_j1_ddc1_dc1_c1.velocityCostH T)), by have := velNorm8 T hT; positivity, fun X => ?_⟩
  have hn := velNorm8 T hT
  unfold normalizeCost
  generalize blockNorm (c0_dc0_ddc0_j0_j1_ddc1_dc1_c1.velocityCostH T) = N at hn ⊢
  show ∑ a : Fin 1, ∑ b : Fin 1, _ * dot (X a.val) (X b.val) + 2 * ∑ a : Fin 1, dot _ (X a.val) = _
  simp only [Fin.sum_univ_one, Fin.val_zero]
  simp [c0_dc0_ddc0_j0_j1_ddc1_dc1_c1.velocityCostH, c0_dc0_ddc0_j0_j1_ddc1_dc1_c1.velocityCostG, dot, sq3]
  field_simp
  ring

/-- Best points of nearly the same quadratic cost over the same convex set are near to each other. -/
theorem near_best {S : V3 → Prop} (hS : ∀ x y, S x → S y → ∀ a : ℝ, 0 ≤ a → a ≤ 1 → S ((1 - a) • x + a • y)) {q : ℝ} (hq : 0 < q)
    {g e x y : V3} (hx : S x) (hy : S y) (bx : ∀ z, S z → q * sq3 x + 2 * dot g x ≤ q * sq3 z + 2 * dot g z)
    (by' : ∀ z, S z → q * sq3 y + 2 * dot (g + e) y ≤ q * sq3 z + 2 * dot (g + e) z) :
    q ^ 2 * sq3 (x - y) ≤ sq3 e := by
  have limit : ∀ A B : ℝ, (∀ a : ℝ, 0 < a → a ≤ 1 → 0 ≤ a * A + a ^ 2 * B) → 0 ≤ A := by
    intro A B h
    by_contra hA
    push Not at hA
    have hB : 0 < |B| + 1 := by positivity
    set a := min 1 (-A / (2 * (|B| + 1))) with ha
    have ha0 : 0 < a := lt_min one_pos (div_pos (by linarith) (by positivity))
    have h1 := h a ha0 (min_le_left _ _)
    have h2 : a * (2 * (|B| + 1)) ≤ -A := by
      rw [← le_div_iff₀ (by positivity)]; exact min_le_right _ _
    have h3 := le_abs_self B
    nlinarith [mul_le_mul_of_nonneg_left h3 (sq_nonneg a), mul_pos ha0 ha0]
  have hx' : 0 ≤ q * dot x (y - x) + dot g (y - x) := by
    have := limit (2 * (q * dot x (y - x) + dot g (y - x))) (q * sq3 (y - x)) fun a a0 a1 => by
      have := bx _ (hS x y hx hy a a0.le a1)
      simp only [sq3, dot, Pi.add_apply, Pi.smul_apply, Pi.sub_apply, smul_eq_mul] at this ⊢
      linarith
    linarith
  have hy' : 0 ≤ q * dot y (x - y) + dot (g + e) (x - y) := by
    have := limit (2 * (q * dot y (x - y) + dot (g + e) (x - y))) (q * sq3 (x - y)) fun a a0 a1 => by
      have := by' _ (hS y x hy hx a a0.le a1)
      simp only [sq3, dot, Pi.add_apply, Pi.smul_apply, Pi.sub_apply, smul_eq_mul] at this ⊢
      linarith
    linarith
  have hk : q * sq3 (x - y) ≤ dot e (x - y) := by
    simp only [sq3, dot, Pi.add_apply, Pi.sub_apply] at hx' hy' ⊢
    linarith
  have hs : 0 ≤ sq3 (e - q • (x - y)) := by
    simp only [sq3, dot]; nlinarith [sq_nonneg ((e - q • (x - y)) 0), sq_nonneg ((e - q • (x - y)) 1), sq_nonneg ((e - q • (x - y)) 2)]
  have he : sq3 (e - q • (x - y)) = sq3 e - 2 * (q * dot e (x - y)) + q ^ 2 * sq3 (x - y) := by
    simp only [sq3, dot, Pi.sub_apply, Pi.smul_apply, smul_eq_mul]; ring
  nlinarith [mul_le_mul_of_nonneg_left hk hq.le]

/-- The requirements of the set with one free point are convex. -/
theorem endOk_convex (d : BC) (T : ℝ) (pi : List V3) (x y : V3) (hx : EndOk 255#32 d T pi fun _ => x)
    (hy : EndOk 255#32 d T pi fun _ => y) (a : ℝ) (a0 : 0 ≤ a) (a1 : a ≤ 1) : EndOk 255#32 d T pi fun _ => (1 - a) • x + a • y := by
  obtain ⟨vel, acc, jerk, e1, e2, e3, k1, k2, k3, k4⟩ := hx
  obtain ⟨vel', acc', jerk', f1, f2, f3, l1, l2, l3, l4⟩ := hy
  rw [e1] at f1; rw [e2] at f2; rw [e3] at f3
  obtain rfl := Out.ok.inj f1
  obtain rfl := Out.ok.inj f2
  obtain rfl := Out.ok.inj f3
  have hat : ∀ {K : ℕ} (w : WpB K), w.at (fun _ => (1 - a) • x + a • y) = (1 - a) • w.at (fun _ => x) + a • w.at (fun _ => y) := by
    intro K w
    simp only [WpB.at, ← sum_smul]
    module
  have hw : ∀ {K : ℕ} (ws : List (WpB K)), Within ws (fun _ => 10000) (fun _ => 10000) (fun _ => x) →
      Within ws (fun _ => 10000) (fun _ => 10000) (fun _ => y) →
      Within ws (fun _ => 10000) (fun _ => 10000) (fun _ => (1 - a) • x + a • y) := by
    intro K ws h1 h2 w hm hd k
    rw [hat]
    have g1 := h1 w hm hd k
    have g2 := h2 w hm hd k
    simp only [Pi.add_apply, Pi.smul_apply, smul_eq_mul]
    constructor <;> nlinarith
  refine ⟨vel, acc, jerk, e1, e2, e3, hw _ k1 l1, hw _ k2 l2, hw _ k3 l3, fun j hj => ?_⟩
  have g1 := k4 j hj
  have g2 := l4 j hj
  simp only [Pi.add_apply, Pi.smul_apply, smul_eq_mul]
  nlinarith

theorem endOk_one {d : BC} {T : ℝ} {pi : List V3} (hl : pi.length = 9) (X : ℕ → V3) :
    EndOk 255#32 d T pi X ↔ EndOk 255#32 d T pi fun _ => X 0 := by
  have hat : ∀ (w : WpB 1), w.at (fun _ => X 0) = w.at X := by
    intro w; simp [WpB.at]
  have hw : ∀ (ws : List (WpB 1)), Within ws (fun _ => 10000) (fun _ => 10000) (fun _ => X 0) ↔
      Within ws (fun _ => 10000) (fun _ => 10000) X := by
    intro ws
    simp only [Within, hat]
  have ha : AboveEnds (dimVarPts 255#32) d.c0 d.c1 (fun _ => X 0) ↔ AboveEnds (dimVarPts 255#32) d.c0 d.c1 X := by
    have : dimVarPts 255#32 = 1 := by decide
    rw [this]
    simp [AboveEnds]
  rw [endOk255 hl, endOk255 hl, hw, hw, hw, ha]

/-- The best free points in the two frames. -/
theorem one_near (d : BC) (p : V3) {T : ℝ} (hT : 0 < T) {pi pi' : List V3} (h : computeConstantWaypoints 255#32 d T = .ok pi)
    (h' : computeConstantWaypoints 255#32 (d.translate p) T = .ok pi') {path path' : ℝ → V3} {c c'}
    (hc : computeEndEffectorCost 255#32 d path T 0 pi = .ok c)
    (hc' : computeEndEffectorCost 255#32 (d.translate p) path' T 0 pi' = .ok c') {X X' : ℕ → V3}
    (hX : EndOk 255#32 d T pi X) (bX : ∀ Y, EndOk 255#32 d T pi Y → blockForm c.1 c.2 X ≤ blockForm c.1 c.2 Y)
    (hX' : EndOk 255#32 (d.translate p) T pi' X')
    (bX' : ∀ Y, EndOk 255#32 (d.translate p) T pi' Y → blockForm c'.1 c'.2 X' ≤ blockForm c'.1 c'.2 Y) :
    sq3 (X' 0 - (X 0 + p)) ≤ (3 / 10 ^ 11) ^ 2 * sq3 p := by
  obtain ⟨q, q', e, e', hl, hl', hq⟩ := onePts_translate d p T
  rw [h] at e; rw [h'] at e'
  obtain rfl := Out.ok.inj e
  obtain rfl := Out.ok.inj e'
  obtain ⟨m, hm, hf⟩ := one_smooth d hT hl hc
  obtain ⟨m', hm', hf'⟩ := one_smooth (d.translate p) hT hl' hc'
  have q0 := hq 0 (by norm_num)
  have q1 := hq 1 (by norm_num)
  have q3 := hq 3 (by norm_num)
  have q5 := hq 5 (by norm_num)
  have q7 := hq 7 (by norm_num)
  have q8 := hq 8 (by norm_num)
  norm_num at q0 q1 q3 q5 q7 q8
  set g : V3 := fun k => -7.8321678321748 * nth pi 0 k - 7.83216783237586 * nth pi 1 k + 9.13752913728184 * nth pi 3 k
    + 9.13752913758454 * nth pi 5 k - 7.83216783216697 * nth pi 7 k - 7.83216783216777 * nth pi 8 k with hg
  have hg' : (fun k => -7.8321678321748 * nth pi' 0 k - 7.83216783237586 * nth pi' 1 k + 9.13752913728184 * nth pi' 3 k
      + 9.13752913758454 * nth pi' 5 k - 7.83216783216697 * nth pi' 7 k - 7.83216783216777 * nth pi' 8 k)
      = fun k => g k - 13.05361305401902 * p k := by
    funext k
    simp only [hg, q0, q1, q3, q5, q7, q8, Pi.add_apply]
    ring
  have key := near_best (S := fun x => EndOk 255#32 d T pi fun _ => x) (fun x y hx hy a => endOk_convex d T pi x y hx hy a)
    (q := 13.05361305368214) (by norm_num) (g := g) (e := fun k => -0.00000000033688 * p k) (x := X 0) (y := X' 0 - p)
    ((endOk_one hl X).mp hX)
    (by
      rw [C120_admissible d p T h h']
      have := (endOk_one hl' X').mp hX'
      simpa using this)
    (fun z hz => by
      have := bX _ hz
      rw [hf, hf] at this
      exact le_of_mul_le_mul_left this hm)
    (fun z hz => by
      have := bX' _ ((C120_admissible d p T h h' _).mp hz)
      rw [hf', hf', hg'] at this
      have := le_of_mul_le_mul_left this hm'
      simp only [sq3, dot, Pi.add_apply, Pi.sub_apply] at this ⊢
      linarith)
  simp only [sq3, dot, Pi.add_apply, Pi.sub_apply] at key ⊢
  nlinarith [sq_nonneg (p 0), sq_nonneg (p 1), sq_nonneg (p 2)]

/-- The curve of the set with one free point, in the two frames. -/
theorem one_curve (d : BC) (p : V3) (T : ℝ) {pi pi' : List V3} (h : computeConstantWaypoints 255#32 d T = .ok pi)
    (h' : computeConstantWaypoints 255#32 (d.translate p) T = .ok pi') (X X' : ℕ → V3) (t : ℝ) :
    curve 8 (fillMany 255#32 (nth pi') X') T t - (curve 8 (fillMany 255#32 (nth pi) X) T t + p)
      = (70 * (t / T) ^ 4 * (1 - t / T) ^ 4) • (X' 0 - (X 0 + p)) := by
  obtain ⟨q, q', e, e', hl, hl', hq⟩ := onePts_translate d p T
  rw [h] at e; rw [h'] at e'
  obtain rfl := Out.ok.inj e
  obtain rfl := Out.ok.inj e'
  have q0 := hq 0 (by norm_num)
  have q1 := hq 1 (by norm_num)
  have q2 := hq 2 (by norm_num)
  have q3 := hq 3 (by norm_num)
  have q5 := hq 5 (by norm_num)
  have q6 := hq 6 (by norm_num)
  have q7 := hq 7 (by norm_num)
  have q8 := hq 8 (by norm_num)
  norm_num at q0 q1 q2 q3 q5 q6 q7 q8
  have hs : freeSlots 255#32 = [4] := by decide
  unfold curve
  funext k
  rw [Pi.sub_apply, Pi.add_apply, bez_apply, bez_apply, bezS8, bezS8]
  simp [fillMany, hs, q0, q1, q2, q3, q5, q6, q7, q8]
  ring

/-- C120, set with one free point: the verdict is the same in both frames, for all paths and weights; with the cost of
smoothness alone the motions differ by at most `3e-11` times the shift. -/
theorem C120_one (d : BC) (p : V3) (T : ℝ) (hT : 0 < T) : ∃ M, ∀ lib, LibOk lib → lib.eps = 0 → M ≤ lib.maxIter →
    ∀ path path' w w' init init', 0 ≤ w → w ≤ 1 → 0 ≤ w' → w' ≤ 1 → ∃ r r' N,
      (∀ fuel ≥ N, solveEndEffector lib fuel 255#32 d path T w init = .ok r ∧
        solveEndEffector lib fuel 255#32 (d.translate p) path' T w' init' = .ok r') ∧
      r'.success = r.success ∧ (r.success = true → w = 0 → w' = 0 → ∀ t, 0 ≤ t → t ≤ T →
        sq3 (r'.c_of_t.eval t - (r.c_of_t.eval t + p)) ≤ (3 / 10 ^ 11) ^ 2 * sq3 p) := by
  have hf : (255#32 : Flag) ∈ effFlags := by decide
  obtain ⟨pi, hpi, hl⟩ := effPts 255#32 hf d T
  obtain ⟨pi', hpi', hl'⟩ := effPts 255#32 hf (d.translate p) T
  obtain ⟨A, b, hA, -⟩ := endOk_iff 255#32 hf d T pi hl
  obtain ⟨A', b', hA', -⟩ := endOk_iff 255#32 hf (d.translate p) T pi' hl'
  refine ⟨2 ^ A.rows + 2 ^ A'.rows + 1, fun lib hL he hm path path' w w' init init' h0 h1 h0' h1' => ?_⟩
  obtain ⟨_, _, _, c, r, N, e1, e2, e3, hr, hok, hfail⟩ := C64_solves lib hL he 255#32 hf d path T w hT h0 h1 init
  obtain ⟨_, _, _, c', r', N', e1', e2', e3', hr', hok', hfail'⟩ :=
    C64_solves lib hL he 255#32 hf (d.translate p) path' T w' hT h0' h1' init'
  rw [hpi] at e1; rw [hpi'] at e1'
  obtain rfl := Out.ok.inj e1
  obtain rfl := Out.ok.inj e1'
  rw [hA] at e2; rw [hA'] at e2'
  obtain ⟨rfl, rfl⟩ := Prod.mk.inj (Out.ok.inj e2)
  obtain ⟨rfl, rfl⟩ := Prod.mk.inj (Out.ok.inj e2')
  have hpos := Nat.pos_of_ne_zero (pow_ne_zero A.rows (two_ne_zero (α := ℕ)))
  have hpos' := Nat.pos_of_ne_zero (pow_ne_zero A'.rows (two_ne_zero (α := ℕ)))
  have hs : r'.success = r.success := by
    rcases hb : r.success with _ | _
    · by_contra hb'
      obtain ⟨X', -, -, -, hX', -⟩ := hok' (by simpa using hb')
      rcases (hfail hb).2 with h | h
      · omega
      · refine h (fun j => X' j - p) ((C120_admissible d p T hpi hpi' _).mpr ?_)
        simpa using hX'
    · by_contra hb'
      obtain ⟨X, -, -, -, hX, -⟩ := hok hb
      rcases (hfail' (by simpa using hb')).2 with h | h
      · omega
      · exact h _ ((C120_admissible d p T hpi hpi' _).mp hX)
  refine ⟨r, r', max N N', fun fuel hfu => ⟨hr fuel (le_trans (le_max_left _ _) hfu), hr' fuel (le_trans (le_max_right _ _) hfu)⟩,
    hs, ?_⟩
  rintro hb rfl rfl t t0 t1
  obtain ⟨X, -, hcu, -, hX, bX⟩ := hok hb
  obtain ⟨X', -, hcu', -, hX', bX'⟩ := hok' (hs.trans hb)
  have hn := one_near d p hT hpi hpi' e3 e3' hX bX hX' bX'
  have hdeg : degreeOf 255#32 = 8 := by decide
  rw [hcu, hcu', hdeg, one_curve d p T hpi hpi']
  set s := t / T with hs
  have s0 : 0 ≤ s := div_nonneg t0 hT.le
  have s1 : s ≤ 1 := (div_le_one hT).mpr t1
  have hB : (70 * s ^ 4 * (1 - s) ^ 4) ^ 2 ≤ 1 := by
    have h1 : 0 ≤ s * (1 - s) := mul_nonneg s0 (by linarith)
    have h2 : s * (1 - s) ≤ 1 / 4 := by nlinarith [sq_nonneg (s - 1 / 2)]
    have h3 : (s * (1 - s)) ^ 4 ≤ (1 / 4) ^ 4 := pow_le_pow_left₀ h1 h2 4
    have h4 : 70 * s ^ 4 * (1 - s) ^ 4 = 70 * (s * (1 - s)) ^ 4 := by ring
    have h5 : 0 ≤ (s * (1 - s)) ^ 4 := by positivity
    rw [h4]
    rw [sq_le_one_iff₀ (by positivity)]
    linarith
  have hq : 0 ≤ sq3 (X' 0 - (X 0 + p)) := by
    simp only [sq3, dot]
    nlinarith [sq_nonneg ((X' 0 - (X 0 + p)) 0), sq_nonneg ((X' 0 - (X 0 + p)) 1), sq_nonneg ((X' 0 - (X 0 + p)) 2)]
  have hsm : ∀ (a : ℝ) (v : V3), sq3 (a • v) = a ^ 2 * sq3 v := by
    intro a v; simp only [sq3, dot, Pi.smul_apply, smul_eq_mul]; ring
  rw [hsm]
  exact (mul_le_of_le_one_left hq hB).trans hn

/-- A unit move is planned in every frame, at `3e-11` times the distance from the origin. -/
theorem unitMove_frames (p : V3) : ∃ M, ∀ maxIter ≥ M, ∀ init, ∃ r r' N,
    (∀ fuel ≥ N, computeEndEffector (exactLib maxIter) fuel 255#32 unitMove 1 init = .ok r ∧
      computeEndEffector (exactLib maxIter) fuel 255#32 (unitMove.translate p) 1 init = .ok r') ∧ r.success = true ∧ r'.success = true ∧
    ∀ t, 0 ≤ t → t ≤ 1 → sq3 (r'.c_of_t.eval t - (r.c_of_t.eval t + p)) ≤ (3 / 10 ^ 11) ^ 2 * sq3 p := by
  obtain ⟨M, h⟩ := C120_one unitMove p 1 one_pos
  obtain ⟨M', h'⟩ := C64_unitMove
  refine ⟨max M M', fun maxIter hm init => ?_⟩
  obtain ⟨r, r', N, hr, hs, hn⟩ := h (exactLib maxIter) (exactLib_ok maxIter) rfl (le_trans (le_max_left _ _) hm) (fun _ => 0) (fun _ => 0) 0 0
    init init le_rfl zero_le_one le_rfl zero_le_one
  obtain ⟨r1, N1, hr1, hs1⟩ := h' maxIter (le_trans (le_max_right _ _) hm) init
  obtain rfl : r = r1 := Out.ok.inj ((hr (max N N1) (le_max_left _ _)).1.symm.trans (hr1 (max N N1) (le_max_right _ _)))
  exact ⟨r, r', N, hr, hs1, hs.trans hs1, hn hs1 rfl rfl⟩

/-! ## The motions are not exactly the same -/

/-- Near to rest at `p`, not lower. -/
theorem near_rest_ok (p v : V3) (hv : ∀ k, |v k| ≤ 1) (h2 : 0 ≤ v 2) {pi : List V3}
    (h : computeConstantWaypoints 255#32 (restAt p) 1 = .ok pi) : EndOk 255#32 (restAt p) 1 pi fun _ => p + v := by
  obtain ⟨pi', h', hl, hp⟩ := restAt_pts 255#32 (by decide) p 1
  rw [h] at h'
  obtain rfl := Out.ok.inj h'
  have hl : pi.length = 9 := by simpa [degreeOf] using hl
  have q : ∀ i ≤ 8, nth pi i = if i = 4 then 0 else p := fun i hi => by
    rw [hp i (by simpa [degreeOf] using hi)]; simp [freeSlots]
  have q0 := q 0 (by norm_num)
  have q1 := q 1 (by norm_num)
  have q2 := q 2 (by norm_num)
  have q3 := q 3 (by norm_num)
  have q5 := q 5 (by norm_num)
  have q6 := q 6 (by norm_num)
  have q7 := q 7 (by norm_num)
  have q8 := q 8 (by norm_num)
  norm_num at q0 q1 q2 q3 q5 q6 q7 q8
  rw [endOk255 hl]
  refine ⟨?_, ?_, ?_, ?_⟩
  · intro w hw _ k
    obtain ⟨a, b⟩ := abs_le.mp (hv k)
    simp only [c0_dc0_ddc0_j0_j1_ddc1_dc1_c1.computeVelocityWaypoints, List.mem_cons, List.not_mem_nil, or_false] at hw
    rcases hw with rfl | rfl | rfl | rfl | rfl | rfl | rfl | rfl <;>
      simp [WpB.at, q0, q1, q2, q3, q5, q6, q7, q8] <;> constructor <;> linarith
  · intro w hw _ k
    obtain ⟨a, b⟩ := abs_le.mp (hv k)
    simp only [c0_dc0_ddc0_j0_j1_ddc1_dc1_c1.computeAccelerationWaypoints, List.mem_cons, List.not_mem_nil, or_false] at hw
    rcases hw with rfl | rfl | rfl | rfl | rfl | rfl | rfl <;>
      simp [WpB.at, q0, q1, q2, q3, q5, q6, q7, q8] <;> constructor <;> linarith
  · intro w hw _ k
    obtain ⟨a, b⟩ := abs_le.mp (hv k)
    simp only [c0_dc0_ddc0_j0_j1_ddc1_dc1_c1.computeJerkWaypoints, List.mem_cons, List.not_mem_nil, or_false] at hw
    rcases hw with rfl | rfl | rfl | rfl | rfl | rfl <;>
      simp [WpB.at, q0, q1, q2, q3, q5, q6, q7, q8] <;> constructor <;> linarith
  · intro j _
    simpa [restAt] using h2

theorem restAt_translate (p : V3) : (restAt 0).translate p = restAt p := by simp [restAt, BC.translate]

/-- C120, set with one free point: asked to stay at the origin the end effector stays, asked to stay at `(1, 0, 0)` it moves. -/
theorem C120_exact_refuted : ∃ M, ∀ lib, LibOk lib → lib.eps = 0 → M ≤ lib.maxIter → ∀ path init, ∃ r r' N,
    (∀ fuel ≥ N, solveEndEffector lib fuel 255#32 (restAt 0) path 1 0 init = .ok r ∧
      solveEndEffector lib fuel 255#32 (restAt ![1, 0, 0]) path 1 0 init = .ok r') ∧ r.success = true ∧ r'.success = true ∧
    (∀ t, r.c_of_t.eval t = 0) ∧ r'.c_of_t.eval (1 / 2) ≠ ![1, 0, 0] := by
  have hf : (255#32 : Flag) ∈ effFlags := by decide
  have hdeg : degreeOf 255#32 = 8 := by decide
  have hslot : freeSlots 255#32 = [4] := by decide
  have run : ∀ p : V3, ∃ M, ∀ lib, LibOk lib → lib.eps = 0 → M ≤ lib.maxIter → ∀ path init, ∃ r N X,
      (∀ fuel ≥ N, solveEndEffector lib fuel 255#32 (restAt p) path 1 0 init = .ok r) ∧ r.success = true ∧
      (∀ t, r.c_of_t.eval t = p + (70 * t ^ 4 * (1 - t) ^ 4) • (X - p)) ∧
      ∀ v : V3, (∀ k, |v k| ≤ 1) → 0 ≤ v 2 → 13.05361305368214 * sq3 X + 2 * dot (fun k => -13.05361305401902 * p k) X
        ≤ 13.05361305368214 * sq3 (p + v) + 2 * dot (fun k => -13.05361305401902 * p k) (p + v) := by
    intro p
    obtain ⟨pi, hpi, hl⟩ := effPts 255#32 hf (restAt p) 1
    obtain ⟨A, b, hA, -⟩ := endOk_iff 255#32 hf (restAt p) 1 pi hl
    obtain ⟨pi', h', -, hp⟩ := restAt_pts 255#32 hf p 1
    rw [hpi] at h'
    obtain rfl := Out.ok.inj h'
    have q : ∀ i ≤ 8, nth pi i = if i = 4 then 0 else p := fun i hi => by
      rw [hp i (by simpa [degreeOf] using hi)]; simp [freeSlots]
    have q0 := q 0 (by norm_num)
    have q1 := q 1 (by norm_num)
    have q2 := q 2 (by norm_num)
    have q3 := q 3 (by norm_num)
    have q5 := q 5 (by norm_num)
    have q6 := q 6 (by norm_num)
    have q7 := q 7 (by norm_num)
    have q8 := q 8 (by norm_num)
    norm_num at q0 q1 q2 q3 q5 q6 q7 q8
    refine ⟨2 ^ A.rows + 1, fun lib hL he hm path init => ?_⟩
    obtain ⟨_, _, _, c, r, N, e1, e2, e3, hr, hok, hfail⟩ :=
      C64_solves lib hL he 255#32 hf (restAt p) path 1 0 one_pos le_rfl zero_le_one init
    rw [hpi] at e1
    obtain rfl := Out.ok.inj e1
    rw [hA] at e2
    obtain ⟨rfl, rfl⟩ := Prod.mk.inj (Out.ok.inj e2)
    have hs : r.success = true := by
      by_contra hs
      rcases (hfail (by simpa using hs)).2 with h | h
      · omega
      · exact h _ (near_rest_ok p 0 (by simp) (by simp) hpi)
    obtain ⟨X, -, hcu, -, hX, bX⟩ := hok hs
    obtain ⟨m, hm, hcost⟩ := one_smooth (restAt p) one_pos hl e3
    refine ⟨r, N, X 0, hr, hs, fun t => ?_, fun v hv h2 => ?_⟩
    · rw [hcu, hdeg]
      unfold curve
      funext k
      rw [bez_apply, bezS8]
      simp [fillMany, hslot, q0, q1, q2, q3, q5, q6, q7, q8]
      ring
    · have := bX _ (near_rest_ok p v hv h2 hpi)
      rw [hcost, hcost, q0, q1, q3, q5, q7, q8] at this
      have := le_of_mul_le_mul_left this hm
      simp only [sq3, dot, Pi.add_apply] at this ⊢
      linarith
  obtain ⟨M, h0⟩ := run 0
  obtain ⟨M', h1⟩ := run ![1, 0, 0]
  refine ⟨max M M', fun lib hL he hm path init => ?_⟩
  obtain ⟨r, N, X, hr, hs, hc, hb⟩ := h0 lib hL he (le_trans (le_max_left _ _) hm) path init
  obtain ⟨r', N', X', hr', hs', hc', hb'⟩ := h1 lib hL he (le_trans (le_max_right _ _) hm) path init
  refine ⟨r, r', max N N', fun fuel hfu => ⟨hr fuel (le_trans (le_max_left _ _) hfu), hr' fuel (le_trans (le_max_right _ _) hfu)⟩,
    hs, hs', ?_, ?_⟩
  · have h := hb 0 (by simp) (by simp)
    simp [sq3, dot] at h
    have hX : X = 0 := by
      have a0 : X 0 = 0 := by nlinarith [sq_nonneg (X 0), sq_nonneg (X 1), sq_nonneg (X 2)]
      have a1 : X 1 = 0 := by nlinarith [sq_nonneg (X 0), sq_nonneg (X 1), sq_nonneg (X 2)]
      have a2 : X 2 = 0 := by nlinarith [sq_nonneg (X 0), sq_nonneg (X 1), sq_nonneg (X 2)]
      funext k; fin_cases k <;> simp [a0, a1, a2]
    intro t
    rw [hc, hX]; simp
  · intro h
    rw [hc'] at h
    have hX : X' = ![1, 0, 0] := by
      funext k
      have := congrFun h k
      simp only [Pi.add_apply, Pi.smul_apply, Pi.sub_apply, smul_eq_mul] at this
      linarith
    have := hb' ![1 / 10 ^ 11, 0, 0] (by intro k; fin_cases k <;> norm_num [abs_le]) (by simp)
    rw [hX] at this
    simp [sq3, dot] at this
    norm_num at this

/-! ## Sets with three and five free points -/

/-- C120, sets with three and five free points: the verdict depends on the origin. -/
theorem C120_verdict_refuted (flag : Flag) (hf : flag ∈ [767#32, 2303#32]) : ∃ (d : BC) (p : V3) (M : ℕ), ∀ lib, LibOk lib →
    lib.eps = 0 → M ≤ lib.maxIter → ∀ path w init, 0 ≤ w → w ≤ 1 → ∃ r r' N,
      (∀ fuel ≥ N, solveEndEffector lib fuel flag d path 1 w init = .ok r ∧
        solveEndEffector lib fuel flag (d.translate p) path 1 w init = .ok r') ∧ r.success = true ∧ r'.success = false := by
  have hlim : 0 ≤ stayLimit flag 1 ∧ stayLimit flag 1 ≤ 200 := by
    unfold stayLimit; split_ifs <;> norm_num
  obtain ⟨M, h⟩ := C85_near_partial flag hf 0 1 one_pos (by simpa using hlim.1)
  refine ⟨restAt 0, ![1000, 0, 0], M, fun lib hL he hm path w init h0 h1 => ?_⟩
  obtain ⟨r, N, hr, hs, -⟩ := h lib hL he hm path w init h0 h1
  obtain ⟨r', N', hr', hs'⟩ := C85_far flag hf ![1000, 0, 0] 1 one_pos (by norm_num) 0
    (by simp; linarith [hlim.2]) lib hL he path w h0 h1 init
  rw [restAt_translate]
  exact ⟨r, r', max N N', fun fuel hfu => ⟨hr fuel (le_trans (le_max_left _ _) hfu),
    hr' fuel (le_trans (le_max_right _ _) hfu)⟩, hs, hs'⟩

end Verif
