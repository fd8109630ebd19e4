import Verif.Props.C122

/-!
# C123: the end effector planner and slower or shorter motions

The bounds of `computeEndEffectorConstraints` (solve_end_effector.hh:372-376) are numbers without a unit. A motion that is planned is
also planned when it is made slower or smaller; the converse does not hold, so a change of units changes the verdict.
-/

namespace Verif
open Finset

/-- The same motion with lengths multiplied by `m` and times by `l`. -/
noncomputable def BC.stretch (d : BC) (m l : ℝ) : BC :=
  ⟨m • d.c0, (m / l) • d.dc0, (m / l ^ 2) • d.ddc0, (m / l ^ 3) • d.j0, m • d.c1, (m / l) • d.dc1, (m / l ^ 2) • d.ddc1, (m / l ^ 3) • d.j1⟩

theorem effPts_stretch (flag : Flag) (hf : flag ∈ effFlags) (d : BC) (T m : ℝ) {l : ℝ} (hl : l ≠ 0) (pts : List V3)
    (h : computeConstantWaypoints flag d T = .ok pts) :
    computeConstantWaypoints flag (d.stretch m l) (l * T) = .ok (pts.map (m • ·)) := by
  simp only [effFlags, List.mem_cons, List.not_mem_nil, or_false] at hf
  rcases hf with rfl | rfl | rfl
  · simp [computeConstantWaypoints] at h ⊢
    subst h
    simp [c0_dc0_ddc0_j0_j1_ddc1_dc1_c1.computeConstantWaypoints, BC.stretch]
    (repeat' apply And.intro) <;> ext k <;> simp <;> field_simp <;> try ring
  · simp [computeConstantWaypoints] at h ⊢
    subst h
    simp [c0_dc0_ddc0_j0_x3_j1_ddc1_dc1_c1.computeConstantWaypoints, BC.stretch]
    (repeat' apply And.intro) <;> ext k <;> simp <;> field_simp <;> try ring
  · simp [computeConstantWaypoints] at h ⊢
    subst h
    simp [c0_dc0_ddc0_j0_x5_j1_ddc1_dc1_c1.computeConstantWaypoints, BC.stretch]
    (repeat' apply And.intro) <;> ext k <;> simp <;> field_simp <;> try ring

/-- A control point of the stretched motion: the dependence is divided by `θ`, the value by `θ` and multiplied by `m`. -/
def StretchedWp (m θ : ℝ) {K : ℕ} (w w' : WpB K) : Prop :=
  (∀ j, w'.first j = w.first j / θ) ∧ ∀ k, w'.second k = m * w.second k / θ

theorem StretchedWp.at {m θ : ℝ} {K : ℕ} {w w' : WpB K} (h : StretchedWp m θ w w') (X : ℕ → V3) (k : Fin 3) :
    w'.at (fun j => m • X j) k = m * w.at X k / θ := by
  simp only [WpB.at, Pi.add_apply, Finset.sum_apply, Pi.smul_apply, smul_eq_mul, h.1, h.2, mul_add, add_div, mul_sum, sum_div]
  congr 1
  exact sum_congr rfl fun j _ => by ring

theorem within_stretch {m θ : ℝ} (hm : 0 ≤ m) (hm1 : m ≤ 1) (hθ : 1 ≤ θ) {K : ℕ} {ws ws' : List (WpB K)} {X : ℕ → V3} {M : ℝ}
    (h : List.Forall₂ (StretchedWp m θ) ws ws') (hw : Within ws (fun _ => M) (fun _ => M) X) :
    Within ws' (fun _ => M) (fun _ => M) (fun j => m • X j) := by
  induction h with
  | nil => simp [Within]
  | @cons w w' ws ws' h _ ih =>
    have e : ∀ (w : WpB K) ws X, Within (w :: ws) (fun _ => M) (fun _ => M) X ↔
        (Depends w → ∀ k, |w.at X k| ≤ M) ∧ Within ws (fun _ => M) (fun _ => M) X := by
      intro w ws X; simp [Within, abs_le]
    rw [e] at hw ⊢
    refine ⟨fun hd k => ?_, ih hw.2⟩
    have hd' : Depends w := by
      obtain ⟨j, hj⟩ := hd
      refine ⟨j, lt_of_lt_of_le hj ?_⟩
      rw [h.1, abs_div, abs_of_pos (by linarith : 0 < θ)]
      exact div_le_self (abs_nonneg _) hθ
    rw [h.at, abs_div, abs_mul, abs_of_pos (by linarith : 0 < θ), abs_of_nonneg hm]
    have h1 : m * |w.at X k| ≤ |w.at X k| := mul_le_of_le_one_left (abs_nonneg _) hm1
    exact (div_le_self (by positivity) hθ).trans (h1.trans (hw.1 hd' k))

theorem controls8_stretch (m : ℝ) {l T : ℝ} (hl : l ≠ 0) (hT : T ≠ 0) (P : ℕ → V3) :
    List.Forall₂ (StretchedWp m l) (c0_dc0_ddc0_j0_j1_ddc1_dc1_c1.computeVelocityWaypoints P T)
      (c0_dc0_ddc0_j0_j1_ddc1_dc1_c1.computeVelocityWaypoints (fun i => m • P i) (l * T)) ∧
    List.Forall₂ (StretchedWp m (l ^ 2)) (c0_dc0_ddc0_j0_j1_ddc1_dc1_c1.computeAccelerationWaypoints P T)
      (c0_dc0_ddc0_j0_j1_ddc1_dc1_c1.computeAccelerationWaypoints (fun i => m • P i) (l * T)) ∧
    List.Forall₂ (StretchedWp m (l ^ 3)) (c0_dc0_ddc0_j0_j1_ddc1_dc1_c1.computeJerkWaypoints P T)
      (c0_dc0_ddc0_j0_j1_ddc1_dc1_c1.computeJerkWaypoints (fun i => m • P i) (l * T)) := by
  unfold c0_dc0_ddc0_j0_j1_ddc1_dc1_c1.computeVelocityWaypoints c0_dc0_ddc0_j0_j1_ddc1_dc1_c1.computeAccelerationWaypoints
    c0_dc0_ddc0_j0_j1_ddc1_dc1_c1.computeJerkWaypoints
  refine ⟨?_, ?_, ?_⟩ <;>
    (repeat' apply List.Forall₂.cons) <;> first
      | exact List.Forall₂.nil
      | (refine ⟨fun j => ?_, fun k => ?_⟩
         · fin_cases j <;> simp <;> field_simp
         · simp only [Pi.smul_apply, smul_eq_mul, Pi.zero_apply]; field_simp; try ring)

theorem controls10_stretch (m : ℝ) {l T : ℝ} (hl : l ≠ 0) (hT : T ≠ 0) (P : ℕ → V3) :
    List.Forall₂ (StretchedWp m l) (c0_dc0_ddc0_j0_x3_j1_ddc1_dc1_c1.computeVelocityWaypoints P T)
      (c0_dc0_ddc0_j0_x3_j1_ddc1_dc1_c1.computeVelocityWaypoints (fun i => m • P i) (l * T)) ∧
    List.Forall₂ (StretchedWp m (l ^ 2)) (c0_dc0_ddc0_j0_x3_j1_ddc1_dc1_c1.computeAccelerationWaypoints P T)
      (c0_dc0_ddc0_j0_x3_j1_ddc1_dc1_c1.computeAccelerationWaypoints (fun i => m • P i) (l * T)) ∧
    List.Forall₂ (StretchedWp m (l ^ 3)) (c0_dc0_ddc0_j0_x3_j1_ddc1_dc1_c1.computeJerkWaypoints P T)
      (c0_dc0_ddc0_j0_x3_j1_ddc1_dc1_c1.computeJerkWaypoints (fun i => m • P i) (l * T)) := by
  unfold c0_dc0_ddc0_j0_x3_j1_ddc1_dc1_c1.computeVelocityWaypoints c0_dc0_ddc0_j0_x3_j1_ddc1_dc1_c1.computeAccelerationWaypoints
    c0_dc0_ddc0_j0_x3_j1_ddc1_dc1_c1.computeJerkWaypoints
  refine ⟨?_, ?_, ?_⟩ <;>
    (repeat' apply List.Forall₂.cons) <;> first
      | exact List.Forall₂.nil
      | (refine ⟨fun j => ?_, fun k => ?_⟩
         · fin_cases j <;> simp <;> field_simp
         · simp only [Pi.smul_apply, smul_eq_mul, Pi.zero_apply]; field_simp; try ring)

theorem controls12_stretch (m : ℝ) {l T : ℝ} (hl : l ≠ 0) (hT : T ≠ 0) (P : ℕ → V3) :
    List.Forall₂ (StretchedWp m l) (c0_dc0_ddc0_j0_x5_j1_ddc1_dc1_c1.computeVelocityWaypoints P T)
      (c0_dc0_ddc0_j0_x5_j1_ddc1_dc1_c1.computeVelocityWaypoints (fun i => m • P i) (l * T)) ∧
    List.Forall₂ (StretchedWp m (l ^ 2)) (c0_dc0_ddc0_j0_x5_j1_ddc1_dc1_c1.computeAccelerationWaypoints P T)
      (c0_dc0_ddc0_j0_x5_j1_ddc1_dc1_c1.computeAccelerationWaypoints (fun i => m • P i) (l * T)) ∧
    List.Forall₂ (StretchedWp m (l ^ 3)) (c0_dc0_ddc0_j0_x5_j1_ddc1_dc1_c1.computeJerkWaypoints P T)
      (c0_dc0_ddc0_j0_x5_j1_ddc1_dc1_c1.computeJerkWaypoints (fun i => m • P i) (l * T)) := by
  unfold c0_dc0_ddc0_j0_x5_j1_ddc1_dc1_c1.computeVelocityWaypoints c0_dc0_ddc0_j0_x5_j1_ddc1_dc1_c1.computeAccelerationWaypoints
    c0_dc0_ddc0_j0_x5_j1_ddc1_dc1_c1.computeJerkWaypoints
  refine ⟨?_, ?_, ?_⟩ <;>
    (repeat' apply List.Forall₂.cons) <;> first
      | exact List.Forall₂.nil
      | (refine ⟨fun j => ?_, fun k => ?_⟩
         · fin_cases j <;> simp <;> field_simp
         · simp only [Pi.smul_apply, smul_eq_mul, Pi.zero_apply]; field_simp; try ring)

theorem controls_stretch (flag : Flag) (hf : flag ∈ effFlags) (d d' : BC) (m : ℝ) {l T : ℝ} (h0 : l ≠ 0) (hT : T ≠ 0) (pi : List V3)
    (hl : pi.length = degreeOf flag + 1) : ∃ (K : ℕ) (v v' a a' j j' : List (WpB K)),
      computeVelocityWaypoints flag d T pi = .ok ⟨K, v⟩ ∧ computeVelocityWaypoints flag d' (l * T) (pi.map (m • ·)) = .ok ⟨K, v'⟩ ∧
      computeAccelerationWaypoints flag d T pi = .ok ⟨K, a⟩ ∧ computeAccelerationWaypoints flag d' (l * T) (pi.map (m • ·)) = .ok ⟨K, a'⟩ ∧
      computeJerkWaypoints flag d T pi = .ok ⟨K, j⟩ ∧ computeJerkWaypoints flag d' (l * T) (pi.map (m • ·)) = .ok ⟨K, j'⟩ ∧
      List.Forall₂ (StretchedWp m l) v v' ∧ List.Forall₂ (StretchedWp m (l ^ 2)) a a' ∧ List.Forall₂ (StretchedWp m (l ^ 3)) j j' := by
  have hn := nth_map (m • ·) (smul_zero m) pi
  simp only [effFlags, List.mem_cons, List.not_mem_nil, or_false] at hf
  rcases hf with rfl | rfl | rfl
  · have hl : pi.length = 9 := by simpa [degreeOf] using hl
    have q := controls8_stretch m h0 hT (nth pi)
    refine ⟨1, _, _, _, _, _, _, ?_, ?_, ?_, ?_, ?_, ?_, q.1, q.2.1, q.2.2⟩ <;>
      simp [computeVelocityWaypoints, computeAccelerationWaypoints, computeJerkWaypoints, hl, hn]
  · have hl : pi.length = 11 := by simpa [degreeOf] using hl
    have q := controls10_stretch m h0 hT (nth pi)
    refine ⟨3, _, _, _, _, _, _, ?_, ?_, ?_, ?_, ?_, ?_, q.1, q.2.1, q.2.2⟩ <;>
      simp [computeVelocityWaypoints, computeAccelerationWaypoints, computeJerkWaypoints, hl, hn]
  · have hl : pi.length = 13 := by simpa [degreeOf] using hl
    have q := controls12_stretch m h0 hT (nth pi)
    refine ⟨5, _, _, _, _, _, _, ?_, ?_, ?_, ?_, ?_, ?_, q.1, q.2.1, q.2.2⟩ <;>
      simp [computeVelocityWaypoints, computeAccelerationWaypoints, computeJerkWaypoints, hl, hn]

/-- C123, requirements: a slower or shorter motion meets them when the motion does. -/
theorem C123_admissible (flag : Flag) (hf : flag ∈ effFlags) (d : BC) {T m l : ℝ} (hT : T ≠ 0) (hm : 0 ≤ m) (hm1 : m ≤ 1) (hl1 : 1 ≤ l)
    (pi : List V3) (hl : pi.length = degreeOf flag + 1) (X : ℕ → V3) (h : EndOk flag d T pi X) :
    EndOk flag (d.stretch m l) (l * T) (pi.map (m • ·)) (fun j => m • X j) := by
  obtain ⟨K, v, v', a, a', j, j', e1, f1, e2, f2, e3, f3, q1, q2, q3⟩ :=
    controls_stretch flag hf d (d.stretch m l) m (by linarith : l ≠ 0) hT pi hl
  obtain ⟨_, _, _, g1, g2, g3, k1, k2, k3, k4⟩ := h
  rw [e1] at g1; rw [e2] at g2; rw [e3] at g3
  obtain rfl := Out.ok.inj g1
  obtain rfl := Out.ok.inj g2
  obtain rfl := Out.ok.inj g3
  refine ⟨_, _, _, f1, f2, f3, within_stretch hm hm1 hl1 q1 k1, within_stretch hm hm1 (one_le_pow₀ hl1) q2 k2,
    within_stretch hm hm1 (one_le_pow₀ hl1) q3 k3, fun i hi => ?_⟩
  have := k4 i hi
  show min (m * d.c0 2) (m * d.c1 2) ≤ m * X i 2
  rw [← mul_min_of_nonneg _ _ hm]
  exact mul_le_mul_of_nonneg_left this hm

/-- C123. A motion of the end effector that is planned is also planned when it is made slower (times multiplied by `l ≥ 1`) or smaller
(lengths multiplied by `m ≤ 1`), for all three sets, all paths and all weights. -/
theorem C123_slower (flag : Flag) (hf : flag ∈ effFlags) (d : BC) (T : ℝ) (hT : 0 < T) {m l : ℝ} (hm : 0 ≤ m) (hm1 : m ≤ 1) (hl1 : 1 ≤ l) :
    ∃ M, ∀ lib, LibOk lib → lib.eps = 0 → M ≤ lib.maxIter →
    ∀ path path' w w' init init', 0 ≤ w → w ≤ 1 → 0 ≤ w' → w' ≤ 1 → ∃ r r' N,
      (∀ fuel ≥ N, solveEndEffector lib fuel flag d path T w init = .ok r ∧
        solveEndEffector lib fuel flag (d.stretch m l) path' (l * T) w' init' = .ok r') ∧
      (r.success = true → r'.success = true) := by
  obtain ⟨pi, hpi, hl⟩ := effPts flag hf d T
  have hpi' := effPts_stretch flag hf d T m (by linarith : l ≠ 0) pi hpi
  obtain ⟨M, h⟩ := end_verdict flag hf d T hT pi hpi
  obtain ⟨M', h'⟩ := end_verdict flag hf (d.stretch m l) (l * T) (by positivity) _ hpi'
  refine ⟨max M M', fun lib hL he hm path path' w w' init init' h0 h1 h0' h1' => ?_⟩
  obtain ⟨r, N, hr, hv⟩ := h lib hL he (le_trans (le_max_left _ _) hm) path w init h0 h1
  obtain ⟨r', N', hr', hv'⟩ := h' lib hL he (le_trans (le_max_right _ _) hm) path' w' init' h0' h1'
  refine ⟨r, r', max N N', fun fuel hfu => ⟨hr fuel (le_trans (le_max_left _ _) hfu), hr' fuel (le_trans (le_max_right _ _) hfu)⟩, fun hs => ?_⟩
  obtain ⟨X, hX⟩ := hv.mp hs
  exact hv'.mpr ⟨_, C123_admissible flag hf d hT.ne' ‹0 ≤ m› hm1 hl1 pi hl X hX⟩

/-- A non-trivial case of C123: the move of one metre in one second, and that of half a metre in two seconds. -/
theorem unitMove_slower : ∃ M, ∀ maxIter ≥ M, ∀ init, ∃ r r' N,
    (∀ fuel ≥ N, computeEndEffector (exactLib maxIter) fuel 255#32 unitMove 1 init = .ok r ∧
      computeEndEffector (exactLib maxIter) fuel 255#32 ⟨0, 0, 0, 0, ![1 / 2, 0, 0], 0, 0, 0⟩ 2 init = .ok r') ∧
    r.success = true ∧ r'.success = true := by
  obtain ⟨M, h⟩ := C123_slower 255#32 (by decide) unitMove 1 one_pos (m := 1 / 2) (l := 2) (by norm_num) (by norm_num) (by norm_num)
  obtain ⟨M', h'⟩ := C64_unitMove
  refine ⟨max M M', fun maxIter hm init => ?_⟩
  obtain ⟨r, r', N, hr, hs⟩ := h (exactLib maxIter) (exactLib_ok maxIter) rfl (le_trans (le_max_left _ _) hm) (fun _ => 0) (fun _ => 0) 0 0
    init init le_rfl zero_le_one le_rfl zero_le_one
  obtain ⟨r1, N1, hr1, hs1⟩ := h' maxIter (le_trans (le_max_right _ _) hm) init
  obtain rfl : r = r1 := Out.ok.inj ((hr (max N N1) (le_max_left _ _)).1.symm.trans (hr1 (max N N1) (le_max_right _ _)))
  have hd : unitMove.stretch (1 / 2) 2 = ⟨0, 0, 0, 0, ![1 / 2, 0, 0], 0, 0, 0⟩ := by
    simp [BC.stretch, unitMove]
  rw [hd, mul_one] at hr
  exact ⟨r, r', N, hr, hs1, hs hs1⟩

/-- The converse fails for the unit of length: the move of length 35 in one second is planned, that of length 70 is refused. -/
theorem C123_length_refuted : ∃ M, ∀ lib, LibOk lib → lib.eps = 0 → M ≤ lib.maxIter → ∀ path path' w init, 0 ≤ w → w ≤ 1 → ∃ r r' N,
    (∀ fuel ≥ N, solveEndEffector lib fuel 255#32 (jerkyMove 0 ![70, 0, 0]) path 1 w init = .ok r ∧
      solveEndEffector lib fuel 255#32 ((jerkyMove 0 ![70, 0, 0]).stretch (1 / 2) 1) path' 1 w init = .ok r') ∧
    r.success = false ∧ r'.success = true := by
  have hd : (jerkyMove 0 ![70, 0, 0]).stretch (1 / 2) 1 = jerkyMove 0 ![35, 0, 0] := by
    have z : (fun _ => 0 : V3) = 0 := rfl
    simp [BC.stretch, jerkyMove, z]
    norm_num
  rw [hd]
  obtain ⟨pi, hpi, -⟩ := jerkyMove_pts 0 ![70, 0, 0]
  obtain ⟨pi', hpi', -⟩ := jerkyMove_pts 0 ![35, 0, 0]
  obtain ⟨M, h⟩ := end_verdict 255#32 (by decide) _ 1 one_pos pi hpi
  obtain ⟨M', h'⟩ := end_verdict 255#32 (by decide) _ 1 one_pos pi' hpi'
  refine ⟨max M M', fun lib hL he hm path path' w init h0 h1 => ?_⟩
  obtain ⟨r, N, hr, hv⟩ := h lib hL he (le_trans (le_max_left _ _) hm) path w init h0 h1
  obtain ⟨r', N', hr', hv'⟩ := h' lib hL he (le_trans (le_max_right _ _) hm) path' w init h0 h1
  refine ⟨r, r', max N N', fun fuel hfu => ⟨hr fuel (le_trans (le_max_left _ _) hfu), hr' fuel (le_trans (le_max_right _ _) hfu)⟩, ?_, ?_⟩
  · by_contra hs
    obtain ⟨X, hX⟩ := hv.mp (by simpa using hs)
    obtain ⟨hX, -⟩ := (jerkyMove_ok _ _ hpi X).mp hX
    obtain ⟨-, -, -, -, -, k1, -, -, k2⟩ := hX 0
    simp at k1 k2
    linarith [le_abs_self (X 0 0), (abs_le.mp k2).2]
  · refine hv'.mpr ⟨fun _ => ![35 / 2, 0, 0], (jerkyMove_ok _ _ hpi' _).mpr ⟨fun k => ?_, by simp⟩⟩
    fin_cases k <;> norm_num [abs_le]

/-- The converse fails for the unit of time: the move of length 1 in one second is planned, in a fifth of a second it is refused. -/
theorem C123_time_refuted : ∃ M, ∀ lib, LibOk lib → lib.eps = 0 → M ≤ lib.maxIter → ∀ path path' w init, 0 ≤ w → w ≤ 1 → ∃ r r' N,
    (∀ fuel ≥ N, solveEndEffector lib fuel 255#32 unitMove path (1 / 5) w init = .ok r ∧
      solveEndEffector lib fuel 255#32 (unitMove.stretch 1 5) path' 1 w init = .ok r') ∧
    r.success = false ∧ r'.success = true := by
  have hd : unitMove.stretch 1 5 = jerkyMove 0 ![1, 0, 0] := by
    have z : (fun _ => 0 : V3) = 0 := rfl
    simp [BC.stretch, jerkyMove, unitMove, z]
  rw [hd]
  obtain ⟨pi', hpi', -⟩ := jerkyMove_pts 0 ![1, 0, 0]
  have hpi : ∃ pi, computeConstantWaypoints 255#32 unitMove (1 / 5) = .ok pi ∧ pi.length = 9 ∧ nth pi 1 = 0 ∧ nth pi 2 = 0 ∧ nth pi 3 = 0 ∧
      nth pi 5 = ![1, 0, 0] ∧ nth pi 6 = ![1, 0, 0] ∧ nth pi 7 = ![1, 0, 0] := by
    refine ⟨_, by simp [computeConstantWaypoints]; rfl, by simp [c0_dc0_ddc0_j0_j1_ddc1_dc1_c1.computeConstantWaypoints], ?_⟩
    (repeat' apply And.intro) <;> funext k <;>
      simp [nth, c0_dc0_ddc0_j0_j1_ddc1_dc1_c1.computeConstantWaypoints, unitMove]
  obtain ⟨pi, hpi, hl, q1, q2, q3, q5, q6, q7⟩ := hpi
  obtain ⟨M, h⟩ := end_verdict 255#32 (by decide) unitMove (1 / 5) (by norm_num) pi hpi
  obtain ⟨M', h'⟩ := end_verdict 255#32 (by decide) _ 1 one_pos pi' hpi'
  refine ⟨max M M', fun lib hL he hm path path' w init h0 h1 => ?_⟩
  obtain ⟨r, N, hr, hv⟩ := h lib hL he (le_trans (le_max_left _ _) hm) path w init h0 h1
  obtain ⟨r', N', hr', hv'⟩ := h' lib hL he (le_trans (le_max_right _ _) hm) path' w init h0 h1
  refine ⟨r, r', max N N', fun fuel hfu => ⟨hr fuel (le_trans (le_max_left _ _) hfu), hr' fuel (le_trans (le_max_right _ _) hfu)⟩, ?_, ?_⟩
  · by_contra hs
    obtain ⟨X, hX⟩ := hv.mp (by simpa using hs)
    obtain ⟨-, -, k, -⟩ := (endOk255 hl X).mp hX
    unfold c0_dc0_ddc0_j0_j1_ddc1_dc1_c1.computeJerkWaypoints at k
    have k1 := (k _ (List.mem_cons_of_mem _ List.mem_cons_self) ⟨0, by norm_num⟩ 0).2
    have k2 := (k _ (List.mem_cons_of_mem _ (List.mem_cons_of_mem _ (List.mem_cons_of_mem _ (List.mem_cons_of_mem _ List.mem_cons_self))))
      ⟨0, by norm_num⟩ 0).2
    simp [WpB.at, q1, q2, q3, q5, q6, q7] at k1 k2
    linarith
  · refine hv'.mpr ⟨fun _ => ![1 / 2, 0, 0], (jerkyMove_ok _ _ hpi' _).mpr ⟨fun k => ?_, by simp⟩⟩
    fin_cases k <;> norm_num [abs_le]

end Verif
