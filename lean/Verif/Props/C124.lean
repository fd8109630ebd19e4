import Verif.Props.C123

/-!
# C124: the end effector planner and the direction of time

The velocities and jerks of the reversed motion are those of the motion, up to the sign. The list of acceleration control points is
wrong in each of the three sets (C14), and not in a symmetric way: some motions are planned in one direction only.
-/

namespace Verif
open Finset

/-- The boundary conditions of the reversed motion. -/
def BC.reverse (d : BC) : BC := ⟨d.c1, -d.dc1, d.ddc1, -d.j1, d.c0, -d.dc0, d.ddc0, -d.j0⟩

theorem effPts_reverse (flag : Flag) (hf : flag ∈ effFlags) (d : BC) (T : ℝ) (pts : List V3)
    (h : computeConstantWaypoints flag d T = .ok pts) : computeConstantWaypoints flag d.reverse T = .ok pts.reverse := by
  simp only [effFlags, List.mem_cons, List.not_mem_nil, or_false] at hf
  rcases hf with rfl | rfl | rfl
  · simp [computeConstantWaypoints] at h ⊢
    subst h
    simp [c0_dc0_ddc0_j0_j1_ddc1_dc1_c1.computeConstantWaypoints, BC.reverse]
    (repeat' apply And.intro) <;> ext k <;> simp <;> ring
  · simp [computeConstantWaypoints] at h ⊢
    subst h
    simp [c0_dc0_ddc0_j0_x3_j1_ddc1_dc1_c1.computeConstantWaypoints, BC.reverse]
    (repeat' apply And.intro) <;> ext k <;> simp <;> ring
  · simp [computeConstantWaypoints] at h ⊢
    subst h
    simp [c0_dc0_ddc0_j0_x5_j1_ddc1_dc1_c1.computeConstantWaypoints, BC.reverse]
    (repeat' apply And.intro) <;> ext k <;> simp <;> ring

theorem nth_reverse {pi : List V3} {n : ℕ} (hl : pi.length = n + 1) {i : ℕ} (hi : i ≤ n) : nth pi.reverse i = nth pi (n - i) := by
  unfold nth
  rw [List.getD_eq_getElem?_getD, List.getD_eq_getElem?_getD, List.getElem?_reverse (by omega), hl]
  rw [show n + 1 - 1 - i = n - i by omega]

/-- The free points in the opposite order. -/
def revPts (K : ℕ) (X : ℕ → V3) : ℕ → V3 := fun j => X (K - 1 - j)

/-- A control point of the reversed motion. -/
def ReversedWp (s : ℝ) {K : ℕ} (w w' : WpB K) : Prop :=
  (∀ j, w'.first j = s * w.first (Fin.rev j)) ∧ ∀ k, w'.second k = s * w.second k

theorem ReversedWp.at {s : ℝ} {K : ℕ} {w w' : WpB K} (h : ReversedWp s w w') (X : ℕ → V3) (k : Fin 3) :
    w'.at (revPts K X) k = s * w.at X k := by
  simp only [WpB.at, Pi.add_apply, Finset.sum_apply, Pi.smul_apply, smul_eq_mul, h.1, h.2, mul_add, mul_sum]
  congr 1
  rw [← Equiv.sum_comp Fin.revPerm]
  refine sum_congr rfl fun j _ => ?_
  have : K - 1 - (Fin.rev j).val = j.val := by rw [Fin.val_rev]; omega
  simp only [Fin.revPerm_apply, Fin.rev_rev, revPts, this]
  ring

theorem within_reverse {s : ℝ} (hs : |s| = 1) {K : ℕ} {ws ws' : List (WpB K)} {X : ℕ → V3} {M : ℝ}
    (h : List.Forall₂ (ReversedWp s) ws ws'.reverse) :
    Within ws (fun _ => M) (fun _ => M) X ↔ Within ws' (fun _ => M) (fun _ => M) (revPts K X) := by
  have hr : Within ws' (fun _ => M) (fun _ => M) (revPts K X) ↔ Within ws'.reverse (fun _ => M) (fun _ => M) (revPts K X) := by
    simp [Within]
  rw [hr]
  clear hr
  generalize ws'.reverse = vs at h
  induction h with
  | nil => simp [Within]
  | @cons w w' ws ws' h _ ih =>
    have e : ∀ (w : WpB K) ws X, Within (w :: ws) (fun _ => M) (fun _ => M) X ↔
        (Depends w → ∀ k, |w.at X k| ≤ M) ∧ Within ws (fun _ => M) (fun _ => M) X := by
      intro w ws X; simp [Within, abs_le]
    have ed : Depends w' ↔ Depends w := by
      constructor
      · rintro ⟨j, hj⟩
        rw [h.1, abs_mul, hs, one_mul] at hj
        exact ⟨_, hj⟩
      · rintro ⟨j, hj⟩
        refine ⟨Fin.rev j, ?_⟩
        rw [h.1, abs_mul, hs, one_mul, Fin.rev_rev]
        exact hj
    rw [e, e, ed]
    refine and_congr ?_ ih
    simp only [h.at, abs_mul, hs, one_mul]

theorem rates8_reverse (P P' : ℕ → V3) (T : ℝ) (h : ∀ i ≤ 8, P' i = P (8 - i)) :
    List.Forall₂ (ReversedWp (-1)) (c0_dc0_ddc0_j0_j1_ddc1_dc1_c1.computeVelocityWaypoints P T) (c0_dc0_ddc0_j0_j1_ddc1_dc1_c1.computeVelocityWaypoints P' T).reverse ∧
    List.Forall₂ (ReversedWp (-1)) (c0_dc0_ddc0_j0_j1_ddc1_dc1_c1.computeJerkWaypoints P T) (c0_dc0_ddc0_j0_j1_ddc1_dc1_c1.computeJerkWaypoints P' T).reverse := by
  have h0 : P' 0 = P 8 := h 0 (by norm_num)
  have h1 : P' 1 = P 7 := h 1 (by norm_num)
  have h2 : P' 2 = P 6 := h 2 (by norm_num)
  have h3 : P' 3 = P 5 := h 3 (by norm_num)
  have h5 : P' 5 = P 3 := h 5 (by norm_num)
  have h6 : P' 6 = P 2 := h 6 (by norm_num)
  have h7 : P' 7 = P 1 := h 7 (by norm_num)
  have h8 : P' 8 = P 0 := h 8 (by norm_num)
  unfold c0_dc0_ddc0_j0_j1_ddc1_dc1_c1.computeVelocityWaypoints c0_dc0_ddc0_j0_j1_ddc1_dc1_c1.computeJerkWaypoints
  simp only [List.reverse_cons, List.reverse_nil, List.nil_append, List.cons_append]
  refine ⟨?_, ?_⟩ <;>
    (repeat' apply List.Forall₂.cons) <;> first
      | exact List.Forall₂.nil
      | (refine ⟨fun j => ?_, fun k => ?_⟩
         · fin_cases j <;> simp [Fin.rev] <;> try ring
         · simp only [Pi.zero_apply, h0, h1, h2, h3, h5, h6, h7, h8]; ring)

theorem rates10_reverse (P P' : ℕ → V3) (T : ℝ) (h : ∀ i ≤ 10, P' i = P (10 - i)) :
    List.Forall₂ (ReversedWp (-1)) (c0_dc0_ddc0_j0_x3_j1_ddc1_dc1_c1.computeVelocityWaypoints P T) (c0_dc0_ddc0_j0_x3_j1_ddc1_dc1_c1.computeVelocityWaypoints P' T).reverse ∧
    List.Forall₂ (ReversedWp (-1)) (c0_dc0_ddc0_j0_x3_j1_ddc1_dc1_c1.computeJerkWaypoints P T) (c0_dc0_ddc0_j0_x3_j1_ddc1_dc1_c1.computeJerkWaypoints P' T).reverse := by
  have h0 : P' 0 = P 10 := h 0 (by norm_num)
  have h1 : P' 1 = P 9 := h 1 (by norm_num)
  have h2 : P' 2 = P 8 := h 2 (by norm_num)
  have h3 : P' 3 = P 7 := h 3 (by norm_num)
  have h7 : P' 7 = P 3 := h 7 (by norm_num)
  have h8 : P' 8 = P 2 := h 8 (by norm_num)
  have h9 : P' 9 = P 1 := h 9 (by norm_num)
  have h10 : P' 10 = P 0 := h 10 (by norm_num)
  unfold c0_dc0_ddc0_j0_x3_j1_ddc1_dc1_c1.computeVelocityWaypoints c0_dc0_ddc0_j0_x3_j1_ddc1_dc1_c1.computeJerkWaypoints
  simp only [List.reverse_cons, List.reverse_nil, List.nil_append, List.cons_append]
  refine ⟨?_, ?_⟩ <;>
    (repeat' apply List.Forall₂.cons) <;> first
      | exact List.Forall₂.nil
      | (refine ⟨fun j => ?_, fun k => ?_⟩
         · fin_cases j <;> simp [Fin.rev] <;> try ring
         · simp only [Pi.zero_apply, h0, h1, h2, h3, h7, h8, h9, h10]; ring)

theorem rates12_reverse (P P' : ℕ → V3) (T : ℝ) (h : ∀ i ≤ 12, P' i = P (12 - i)) :
    List.Forall₂ (ReversedWp (-1)) (c0_dc0_ddc0_j0_x5_j1_ddc1_dc1_c1.computeVelocityWaypoints P T) (c0_dc0_ddc0_j0_x5_j1_ddc1_dc1_c1.computeVelocityWaypoints P' T).reverse ∧
    List.Forall₂ (ReversedWp (-1)) (c0_dc0_ddc0_j0_x5_j1_ddc1_dc1_c1.computeJerkWaypoints P T) (c0_dc0_ddc0_j0_x5_j1_ddc1_dc1_c1.computeJerkWaypoints P' T).reverse := by
  have h0 : P' 0 = P 12 := h 0 (by norm_num)
  have h1 : P' 1 = P 11 := h 1 (by norm_num)
  have h2 : P' 2 = P 10 := h 2 (by norm_num)
  have h3 : P' 3 = P 9 := h 3 (by norm_num)
  have h9 : P' 9 = P 3 := h 9 (by norm_num)
  have h10 : P' 10 = P 2 := h 10 (by norm_num)
  have h11 : P' 11 = P 1 := h 11 (by norm_num)
  have h12 : P' 12 = P 0 := h 12 (by norm_num)
  unfold c0_dc0_ddc0_j0_x5_j1_ddc1_dc1_c1.computeVelocityWaypoints c0_dc0_ddc0_j0_x5_j1_ddc1_dc1_c1.computeJerkWaypoints
  simp only [List.reverse_cons, List.reverse_nil, List.nil_append, List.cons_append]
  refine ⟨?_, ?_⟩ <;>
    (repeat' apply List.Forall₂.cons) <;> first
      | exact List.Forall₂.nil
      | (refine ⟨fun j => ?_, fun k => ?_⟩
         · fin_cases j <;> simp [Fin.rev] <;> try ring
         · simp only [Pi.zero_apply, h0, h1, h2, h3, h9, h10, h11, h12]; ring)

/-- C124, velocities, jerks and heights, all three sets: they meet their requirements in one direction when they do in the other. -/
theorem C124_rates_partial (flag : Flag) (hf : flag ∈ effFlags) (d : BC) (T : ℝ) (pi : List V3)
    (hpi : computeConstantWaypoints flag d T = .ok pi) : ∃ (K : ℕ) (v v' j j' : List (WpB K)), K = dimVarPts flag ∧
      computeVelocityWaypoints flag d T pi = .ok ⟨K, v⟩ ∧ computeVelocityWaypoints flag d.reverse T pi.reverse = .ok ⟨K, v'⟩ ∧
      computeJerkWaypoints flag d T pi = .ok ⟨K, j⟩ ∧ computeJerkWaypoints flag d.reverse T pi.reverse = .ok ⟨K, j'⟩ ∧
      ∀ X M, (Within v (fun _ => M) (fun _ => M) X ↔ Within v' (fun _ => M) (fun _ => M) (revPts K X)) ∧
        (Within j (fun _ => M) (fun _ => M) X ↔ Within j' (fun _ => M) (fun _ => M) (revPts K X)) ∧
        (AboveEnds K d.c0 d.c1 X ↔ AboveEnds K d.reverse.c0 d.reverse.c1 (revPts K X)) := by
  have hab : ∀ K X, AboveEnds K d.c0 d.c1 X ↔ AboveEnds K d.reverse.c0 d.reverse.c1 (revPts K X) := by
    intro K X
    unfold AboveEnds revPts
    simp only [BC.reverse, min_comm (d.c1 2)]
    constructor
    · intro h j hj
      exact h _ (by omega)
    · intro h j hj
      have := h (K - 1 - j) (by omega)
      rwa [show K - 1 - (K - 1 - j) = j by omega] at this
  obtain ⟨pi', e, hl⟩ := effPts flag hf d T
  rw [hpi] at e
  obtain rfl := Out.ok.inj e
  have hn : ∀ i ≤ degreeOf flag, nth pi.reverse i = nth pi (degreeOf flag - i) := fun i hi => nth_reverse hl hi
  simp only [effFlags, List.mem_cons, List.not_mem_nil, or_false] at hf
  rcases hf with rfl | rfl | rfl
  · have hl : pi.length = 9 := by simpa [degreeOf] using hl
    obtain ⟨q1, q2⟩ := rates8_reverse (nth pi) (nth pi.reverse) T hn
    refine ⟨1, _, _, _, _, by decide, ?_, ?_, ?_, ?_, fun X M => ⟨within_reverse (by simp) q1, within_reverse (by simp) q2, hab _ X⟩⟩ <;>
      simp [computeVelocityWaypoints, computeJerkWaypoints, hl]
  · have hl : pi.length = 11 := by simpa [degreeOf] using hl
    obtain ⟨q1, q2⟩ := rates10_reverse (nth pi) (nth pi.reverse) T hn
    refine ⟨3, _, _, _, _, by decide, ?_, ?_, ?_, ?_, fun X M => ⟨within_reverse (by simp) q1, within_reverse (by simp) q2, hab _ X⟩⟩ <;>
      simp [computeVelocityWaypoints, computeJerkWaypoints, hl]
  · have hl : pi.length = 13 := by simpa [degreeOf] using hl
    obtain ⟨q1, q2⟩ := rates12_reverse (nth pi) (nth pi.reverse) T hn
    refine ⟨5, _, _, _, _, by decide, ?_, ?_, ?_, ?_, fun X M => ⟨within_reverse (by simp) q1, within_reverse (by simp) q2, hab _ X⟩⟩ <;>
      simp [computeVelocityWaypoints, computeJerkWaypoints, hl]

theorem acceleration8_reverse (P P' : ℕ → V3) (T : ℝ) (h : ∀ i ≤ 8, P' i = P (8 - i)) (he : P 3 + P 8 = P 5 + P 0) :
    List.Forall₂ (ReversedWp 1) (c0_dc0_ddc0_j0_j1_ddc1_dc1_c1.computeAccelerationWaypoints P T)
      (c0_dc0_ddc0_j0_j1_ddc1_dc1_c1.computeAccelerationWaypoints P' T).reverse := by
  have h0 : P' 0 = P 8 := h 0 (by norm_num)
  have h1 : P' 1 = P 7 := h 1 (by norm_num)
  have h2 : P' 2 = P 6 := h 2 (by norm_num)
  have h3 : P' 3 = P 5 := h 3 (by norm_num)
  have h5 : P' 5 = P 3 := h 5 (by norm_num)
  have h6 : P' 6 = P 2 := h 6 (by norm_num)
  have h7 : P' 7 = P 1 := h 7 (by norm_num)
  have h8 : P' 8 = P 0 := h 8 (by norm_num)
  unfold c0_dc0_ddc0_j0_j1_ddc1_dc1_c1.computeAccelerationWaypoints
  simp only [List.reverse_cons, List.reverse_nil, List.nil_append, List.cons_append]
  (repeat' apply List.Forall₂.cons) <;> first
    | exact List.Forall₂.nil
    | (refine ⟨fun j => ?_, fun k => ?_⟩
       · fin_cases j; simp
       · have q : P 3 k + P 8 k = P 5 k + P 0 k := congrFun he k
         simp only [h0, h1, h2, h3, h5, h6, h7, h8]
         first | ring1 | linear_combination (-56 * (1 / (T * T))) * q)

/-- C124, set with one free point: the verdict is the same in both directions when the third imposed control point is displaced from the
start as the third last one is from the end, in particular when the motion starts and ends at rest. -/
theorem C124_one_partial (d : BC) (T : ℝ) (hT : 0 < T) (pi : List V3) (hpi : computeConstantWaypoints 255#32 d T = .ok pi)
    (he : nth pi 3 + nth pi 8 = nth pi 5 + nth pi 0) : ∃ M, ∀ lib, LibOk lib → lib.eps = 0 → M ≤ lib.maxIter →
    ∀ path path' w w' init init', 0 ≤ w → w ≤ 1 → 0 ≤ w' → w' ≤ 1 → ∃ r r' N,
      (∀ fuel ≥ N, solveEndEffector lib fuel 255#32 d path T w init = .ok r ∧
        solveEndEffector lib fuel 255#32 d.reverse path' T w' init' = .ok r') ∧ r'.success = r.success := by
  have hf : (255#32 : Flag) ∈ effFlags := by decide
  obtain ⟨pi', e, hl⟩ := effPts 255#32 hf d T
  rw [hpi] at e
  obtain rfl := Out.ok.inj e
  have hl : pi.length = 9 := by simpa [degreeOf] using hl
  have hl' : pi.reverse.length = 9 := by rw [List.length_reverse, hl]
  have hpi' := effPts_reverse 255#32 hf d T pi hpi
  have hn : ∀ i ≤ 8, nth pi.reverse i = nth pi (8 - i) := fun i hi => nth_reverse hl hi
  have hok : ∀ X, EndOk 255#32 d T pi X ↔ EndOk 255#32 d.reverse T pi.reverse (revPts 1 X) := by
    intro X
    obtain ⟨q1, q2⟩ := rates8_reverse (nth pi) (nth pi.reverse) T hn
    have q3 := acceleration8_reverse (nth pi) (nth pi.reverse) T hn he
    have hd : dimVarPts 255#32 = 1 := by decide
    have hab : AboveEnds 1 d.c0 d.c1 X ↔ AboveEnds 1 d.reverse.c0 d.reverse.c1 (revPts 1 X) := by
      simp [AboveEnds, revPts, BC.reverse, or_comm]
    rw [endOk255 hl, endOk255 hl', hd, within_reverse (by simp) q1, within_reverse (by simp) q2, within_reverse (by simp) q3, hab]
  obtain ⟨M, h⟩ := end_verdict 255#32 hf d T hT pi hpi
  obtain ⟨M', h'⟩ := end_verdict 255#32 hf d.reverse T hT _ hpi'
  refine ⟨max M M', fun lib hL he hm path path' w w' init init' h0 h1 h0' h1' => ?_⟩
  obtain ⟨r, N, hr, hv⟩ := h lib hL he (le_trans (le_max_left _ _) hm) path w init h0 h1
  obtain ⟨r', N', hr', hv'⟩ := h' lib hL he (le_trans (le_max_right _ _) hm) path' w' init' h0' h1'
  refine ⟨r, r', max N N', fun fuel hfu => ⟨hr fuel (le_trans (le_max_left _ _) hfu), hr' fuel (le_trans (le_max_right _ _) hfu)⟩, ?_⟩
  rw [Bool.eq_iff_iff, hv, hv']
  constructor
  · rintro ⟨Y, hY⟩
    refine ⟨fun _ => Y 0, (hok _).mpr ?_⟩
    have := (endOk_one hl' Y).mp hY
    exact this
  · rintro ⟨X, hX⟩
    exact ⟨_, (hok X).mp hX⟩

/-- A non-trivial case: the move of one metre is planned in both directions. -/
theorem unitMove_reversed : ∃ M, ∀ maxIter ≥ M, ∀ init, ∃ r r' N,
    (∀ fuel ≥ N, computeEndEffector (exactLib maxIter) fuel 255#32 unitMove 1 init = .ok r ∧
      computeEndEffector (exactLib maxIter) fuel 255#32 unitMove.reverse 1 init = .ok r') ∧
    r.success = true ∧ r'.success = true := by
  obtain ⟨pi, p1, p2, p3, p4⟩ := unitMove_pts
  obtain ⟨M, h⟩ := C124_one_partial unitMove 1 one_pos pi p1
    (by rw [p3 3 (by norm_num), p3 0 (by norm_num), p4 8 (by norm_num) (by norm_num), p4 5 (by norm_num) (by norm_num)]; simp)
  obtain ⟨M', h'⟩ := C64_unitMove
  refine ⟨max M M', fun maxIter hm init => ?_⟩
  obtain ⟨r, r', N, hr, hs⟩ := h (exactLib maxIter) (exactLib_ok maxIter) rfl (le_trans (le_max_left _ _) hm) (fun _ => 0) (fun _ => 0) 0 0
    init init le_rfl zero_le_one le_rfl zero_le_one
  obtain ⟨r1, N1, hr1, hs1⟩ := h' maxIter (le_trans (le_max_right _ _) hm) init
  obtain rfl : r = r1 := Out.ok.inj ((hr (max N N1) (le_max_left _ _)).1.symm.trans (hr1 (max N N1) (le_max_right _ _)))
  exact ⟨r, r', N, hr, hs1, hs.trans hs1⟩

/-! ## Motions planned in one direction only -/

/-- The motion along x from `b` with initial velocity `v` and constant acceleration `a`, in one second. -/
noncomputable def fallMove (b v a : ℝ) : BC :=
  ⟨![b, 0, 0], ![v, 0, 0], ![a, 0, 0], 0, ![b + v + a / 2, 0, 0], ![v + a, 0, 0], ![a, 0, 0], 0⟩

theorem one_direction (flag : Flag) (hf : flag ∈ effFlags) (d : BC) (pi : List V3) (hpi : computeConstantWaypoints flag d 1 = .ok pi)
    (X : ℕ → V3) (hX : EndOk flag d 1 pi X) (hno : ∀ Y, ¬ EndOk flag d.reverse 1 pi.reverse Y) :
    ∃ M, ∀ lib, LibOk lib → lib.eps = 0 → M ≤ lib.maxIter → ∀ path path' w init, 0 ≤ w → w ≤ 1 → ∃ r r' N,
      (∀ fuel ≥ N, solveEndEffector lib fuel flag d path 1 w init = .ok r ∧
        solveEndEffector lib fuel flag d.reverse path' 1 w init = .ok r') ∧ r.success = true ∧ r'.success = false := by
  obtain ⟨M, h⟩ := end_verdict flag hf d 1 one_pos pi hpi
  obtain ⟨M', h'⟩ := end_verdict flag hf d.reverse 1 one_pos _ (effPts_reverse flag hf d 1 pi hpi)
  refine ⟨max M M', fun lib hL he hm path path' w init h0 h1 => ?_⟩
  obtain ⟨r, N, hr, hv⟩ := h lib hL he (le_trans (le_max_left _ _) hm) path w init h0 h1
  obtain ⟨r', N', hr', hv'⟩ := h' lib hL he (le_trans (le_max_right _ _) hm) path' w init h0 h1
  refine ⟨r, r', max N N', fun fuel hfu => ⟨hr fuel (le_trans (le_max_left _ _) hfu), hr' fuel (le_trans (le_max_right _ _) hfu)⟩,
    hv.mpr ⟨X, hX⟩, ?_⟩
  by_contra hs
  obtain ⟨Y, hY⟩ := hv'.mp (by simpa using hs)
  exact hno Y hY

theorem fall8_pts : ∃ pi, computeConstantWaypoints 255#32 (fallMove (0) (-3040) 3360) 1 = .ok pi ∧ pi.length = 9 ∧
    nth pi 0 = ![0, 0, 0] ∧ nth pi 1 = ![-380, 0, 0] ∧ nth pi 2 = ![-700, 0, 0] ∧ nth pi 3 = ![-960, 0, 0] ∧ nth pi 5 = ![-1300, 0, 0] ∧ nth pi 6 = ![-1380, 0, 0] ∧ nth pi 7 = ![-1400, 0, 0] ∧ nth pi 8 = ![-1360, 0, 0] := by
  refine ⟨_, by simp [computeConstantWaypoints]; rfl, by simp [c0_dc0_ddc0_j0_j1_ddc1_dc1_c1.computeConstantWaypoints], ?_⟩
  (repeat' apply And.intro) <;> funext k <;> fin_cases k <;>
    norm_num [nth, c0_dc0_ddc0_j0_j1_ddc1_dc1_c1.computeConstantWaypoints, fallMove]

theorem fall8_velocity {pi : List V3} (h : computeConstantWaypoints 255#32 (fallMove (0) (-3040) 3360) 1 = .ok pi) :
    Within (c0_dc0_ddc0_j0_j1_ddc1_dc1_c1.computeVelocityWaypoints (nth pi) 1) (fun _ => 10000) (fun _ => 10000) (fun j => ![0 + -410 * (j + 4) + 30 * (j + 4) ^ 2, 0, 0]) := by
  obtain ⟨pi', e, hl, q0, q1, q2, q3, q5, q6, q7, q8⟩ := fall8_pts
  rw [h] at e
  obtain rfl := Out.ok.inj e
  intro w hw _ k
  simp only [c0_dc0_ddc0_j0_j1_ddc1_dc1_c1.computeVelocityWaypoints, List.mem_cons, List.not_mem_nil, or_false] at hw
  rcases hw with rfl | rfl | rfl | rfl | rfl | rfl | rfl | rfl <;> fin_cases k <;>
    norm_num [WpB.at, Fin.sum_univ_succ, q0, q1, q2, q3, q5, q6, q7, q8]

theorem fall8_acceleration {pi : List V3} (h : computeConstantWaypoints 255#32 (fallMove (0) (-3040) 3360) 1 = .ok pi) :
    Within (c0_dc0_ddc0_j0_j1_ddc1_dc1_c1.computeAccelerationWaypoints (nth pi) 1) (fun _ => 10000) (fun _ => 10000) (fun j => ![0 + -410 * (j + 4) + 30 * (j + 4) ^ 2, 0, 0]) := by
  obtain ⟨pi', e, hl, q0, q1, q2, q3, q5, q6, q7, q8⟩ := fall8_pts
  rw [h] at e
  obtain rfl := Out.ok.inj e
  intro w hw _ k
  simp only [c0_dc0_ddc0_j0_j1_ddc1_dc1_c1.computeAccelerationWaypoints, List.mem_cons, List.not_mem_nil, or_false] at hw
  rcases hw with rfl | rfl | rfl | rfl | rfl | rfl | rfl <;> fin_cases k <;>
    norm_num [WpB.at, Fin.sum_univ_succ, q0, q1, q2, q3, q5, q6, q7, q8]

theorem fall8_jerk {pi : List V3} (h : computeConstantWaypoints 255#32 (fallMove (0) (-3040) 3360) 1 = .ok pi) :
    Within (c0_dc0_ddc0_j0_j1_ddc1_dc1_c1.computeJerkWaypoints (nth pi) 1) (fun _ => 10000) (fun _ => 10000) (fun j => ![0 + -410 * (j + 4) + 30 * (j + 4) ^ 2, 0, 0]) := by
  obtain ⟨pi', e, hl, q0, q1, q2, q3, q5, q6, q7, q8⟩ := fall8_pts
  rw [h] at e
  obtain rfl := Out.ok.inj e
  intro w hw _ k
  simp only [c0_dc0_ddc0_j0_j1_ddc1_dc1_c1.computeJerkWaypoints, List.mem_cons, List.not_mem_nil, or_false] at hw
  rcases hw with rfl | rfl | rfl | rfl | rfl | rfl <;> fin_cases k <;>
    norm_num [WpB.at, Fin.sum_univ_succ, q0, q1, q2, q3, q5, q6, q7, q8]

/-- C124 refuted, set with 1 free point: this motion is planned, and refused in the opposite direction. -/
theorem C124_one_refuted : ∃ M, ∀ lib, LibOk lib → lib.eps = 0 → M ≤ lib.maxIter → ∀ path path' w init, 0 ≤ w → w ≤ 1 → ∃ r r' N,
    (∀ fuel ≥ N, solveEndEffector lib fuel 255#32 (fallMove (0) (-3040) 3360) path 1 w init = .ok r ∧
      solveEndEffector lib fuel 255#32 (fallMove (0) (-3040) 3360).reverse path' 1 w init = .ok r') ∧ r.success = true ∧ r'.success = false := by
  obtain ⟨pi, hpi, hl, q0, q1, q2, q3, q5, q6, q7, q8⟩ := fall8_pts
  have hl' : pi.reverse.length = 9 := by rw [List.length_reverse, hl]
  refine one_direction 255#32 (by decide) _ pi hpi (fun j => ![0 + -410 * (j + 4) + 30 * (j + 4) ^ 2, 0, 0]) ?_ ?_
  · exact ⟨_, _, _, by simp [computeVelocityWaypoints, hl]; rfl, by simp [computeAccelerationWaypoints, hl]; rfl,
      by simp [computeJerkWaypoints, hl]; rfl, fall8_velocity hpi, fall8_acceleration hpi, fall8_jerk hpi, fun j hj => by simp [fallMove]⟩
  · rintro Y ⟨_, _, _, e1, e2, e3, k1, k2, k3, -⟩
    have r : ∀ i ≤ 8, nth pi.reverse i = nth pi (8 - i) := fun i hi => nth_reverse hl hi
    have r0 := r 0 (by norm_num)
    have r1 := r 1 (by norm_num)
    have r2 := r 2 (by norm_num)
    have r3 := r 3 (by norm_num)
    have r5 := r 5 (by norm_num)
    have r6 := r 6 (by norm_num)
    have r7 := r 7 (by norm_num)
    have r8 := r 8 (by norm_num)
    norm_num [q0, q1, q2, q3, q5, q6, q7, q8] at r0 r1 r2 r3 r5 r6 r7 r8
    simp [computeVelocityWaypoints, computeAccelerationWaypoints, computeJerkWaypoints, hl'] at e1 e2 e3
    subst e1 e2 e3
    simp only [c0_dc0_ddc0_j0_j1_ddc1_dc1_c1.computeVelocityWaypoints, c0_dc0_ddc0_j0_j1_ddc1_dc1_c1.computeAccelerationWaypoints,
      c0_dc0_ddc0_j0_j1_ddc1_dc1_c1.computeJerkWaypoints] at k1 k2 k3
    have a := k2 _ (List.mem_cons_of_mem _ (List.mem_cons_of_mem _ (List.mem_cons_of_mem _ List.mem_cons_self))) ⟨0, by norm_num⟩ 0
    have v := k1 _ (List.mem_cons_of_mem _ (List.mem_cons_of_mem _ (List.mem_cons_of_mem _ List.mem_cons_self))) ⟨0, by norm_num⟩ 0
    have j := k3 _ (List.mem_cons_of_mem _ List.mem_cons_self) ⟨0, by norm_num⟩ 0
    norm_num [WpB.at, Fin.sum_univ_succ, r0, r1, r2, r3, r5, r6, r7, r8] at a v j
    linarith [a.1, a.2, v.1, v.2, j.1, j.2]

theorem fall10_pts : ∃ pi, computeConstantWaypoints 767#32 (fallMove (-2700) (9000) 0) 1 = .ok pi ∧ pi.length = 11 ∧
    nth pi 0 = ![-2700, 0, 0] ∧ nth pi 1 = ![-1800, 0, 0] ∧ nth pi 2 = ![-900, 0, 0] ∧ nth pi 3 = ![0, 0, 0] ∧ nth pi 7 = ![3600, 0, 0] ∧ nth pi 8 = ![4500, 0, 0] ∧ nth pi 9 = ![5400, 0, 0] ∧ nth pi 10 = ![6300, 0, 0] := by
  refine ⟨_, by simp [computeConstantWaypoints]; rfl, by simp [c0_dc0_ddc0_j0_x3_j1_ddc1_dc1_c1.computeConstantWaypoints], ?_⟩
  (repeat' apply And.intro) <;> funext k <;> fin_cases k <;>
    norm_num [nth, c0_dc0_ddc0_j0_x3_j1_ddc1_dc1_c1.computeConstantWaypoints, fallMove]

theorem fall10_velocity {pi : List V3} (h : computeConstantWaypoints 767#32 (fallMove (-2700) (9000) 0) 1 = .ok pi) :
    Within (c0_dc0_ddc0_j0_x3_j1_ddc1_dc1_c1.computeVelocityWaypoints (nth pi) 1) (fun _ => 10000) (fun _ => 10000) (fun j => ![-2700 + 900 * (j + 4) + 0 * (j + 4) ^ 2, 0, 0]) := by
  obtain ⟨pi', e, hl, q0, q1, q2, q3, q7, q8, q9, q10⟩ := fall10_pts
  rw [h] at e
  obtain rfl := Out.ok.inj e
  intro w hw _ k
  simp only [c0_dc0_ddc0_j0_x3_j1_ddc1_dc1_c1.computeVelocityWaypoints, List.mem_cons, List.not_mem_nil, or_false] at hw
  rcases hw with rfl | rfl | rfl | rfl | rfl | rfl | rfl | rfl | rfl | rfl <;> fin_cases k <;>
    norm_num [WpB.at, Fin.sum_univ_succ, q0, q1, q2, q3, q7, q8, q9, q10]

theorem fall10_acceleration {pi : List V3} (h : computeConstantWaypoints 767#32 (fallMove (-2700) (9000) 0) 1 = .ok pi) :
    Within (c0_dc0_ddc0_j0_x3_j1_ddc1_dc1_c1.computeAccelerationWaypoints (nth pi) 1) (fun _ => 10000) (fun _ => 10000) (fun j => ![-2700 + 900 * (j + 4) + 0 * (j + 4) ^ 2, 0, 0]) := by
  obtain ⟨pi', e, hl, q0, q1, q2, q3, q7, q8, q9, q10⟩ := fall10_pts
  rw [h] at e
  obtain rfl := Out.ok.inj e
  intro w hw _ k
  simp only [c0_dc0_ddc0_j0_x3_j1_ddc1_dc1_c1.computeAccelerationWaypoints, List.mem_cons, List.not_mem_nil, or_false] at hw
  rcases hw with rfl | rfl | rfl | rfl | rfl | rfl | rfl | rfl | rfl | rfl <;> fin_cases k <;>
    norm_num [WpB.at, Fin.sum_univ_succ, q0, q1, q2, q3, q7, q8, q9, q10]

theorem fall10_jerk {pi : List V3} (h : computeConstantWaypoints 767#32 (fallMove (-2700) (9000) 0) 1 = .ok pi) :
    Within (c0_dc0_ddc0_j0_x3_j1_ddc1_dc1_c1.computeJerkWaypoints (nth pi) 1) (fun _ => 10000) (fun _ => 10000) (fun j => ![-2700 + 900 * (j + 4) + 0 * (j + 4) ^ 2, 0, 0]) := by
  obtain ⟨pi', e, hl, q0, q1, q2, q3, q7, q8, q9, q10⟩ := fall10_pts
  rw [h] at e
  obtain rfl := Out.ok.inj e
  intro w hw _ k
  simp only [c0_dc0_ddc0_j0_x3_j1_ddc1_dc1_c1.computeJerkWaypoints, List.mem_cons, List.not_mem_nil, or_false] at hw
  rcases hw with rfl | rfl | rfl | rfl | rfl | rfl | rfl | rfl <;> fin_cases k <;>
    norm_num [WpB.at, Fin.sum_univ_succ, q0, q1, q2, q3, q7, q8, q9, q10]

/-- C124 refuted, set with 3 free points: this motion is planned, and refused in the opposite direction. -/
theorem C124_three_refuted : ∃ M, ∀ lib, LibOk lib → lib.eps = 0 → M ≤ lib.maxIter → ∀ path path' w init, 0 ≤ w → w ≤ 1 → ∃ r r' N,
    (∀ fuel ≥ N, solveEndEffector lib fuel 767#32 (fallMove (-2700) (9000) 0) path 1 w init = .ok r ∧
      solveEndEffector lib fuel 767#32 (fallMove (-2700) (9000) 0).reverse path' 1 w init = .ok r') ∧ r.success = true ∧ r'.success = false := by
  obtain ⟨pi, hpi, hl, q0, q1, q2, q3, q7, q8, q9, q10⟩ := fall10_pts
  have hl' : pi.reverse.length = 11 := by rw [List.length_reverse, hl]
  refine one_direction 767#32 (by decide) _ pi hpi (fun j => ![-2700 + 900 * (j + 4) + 0 * (j + 4) ^ 2, 0, 0]) ?_ ?_
  · exact ⟨_, _, _, by simp [computeVelocityWaypoints, hl]; rfl, by simp [computeAccelerationWaypoints, hl]; rfl,
      by simp [computeJerkWaypoints, hl]; rfl, fall10_velocity hpi, fall10_acceleration hpi, fall10_jerk hpi, fun j hj => by simp [fallMove]⟩
  · rintro Y ⟨_, _, _, e1, e2, e3, k1, k2, k3, -⟩
    have r : ∀ i ≤ 10, nth pi.reverse i = nth pi (10 - i) := fun i hi => nth_reverse hl hi
    have r0 := r 0 (by norm_num)
    have r1 := r 1 (by norm_num)
    have r2 := r 2 (by norm_num)
    have r3 := r 3 (by norm_num)
    have r7 := r 7 (by norm_num)
    have r8 := r 8 (by norm_num)
    have r9 := r 9 (by norm_num)
    have r10 := r 10 (by norm_num)
    norm_num [q0, q1, q2, q3, q7, q8, q9, q10] at r0 r1 r2 r3 r7 r8 r9 r10
    simp [computeVelocityWaypoints, computeAccelerationWaypoints, computeJerkWaypoints, hl'] at e1 e2 e3
    subst e1 e2 e3
    simp only [c0_dc0_ddc0_j0_x3_j1_ddc1_dc1_c1.computeVelocityWaypoints, c0_dc0_ddc0_j0_x3_j1_ddc1_dc1_c1.computeAccelerationWaypoints,
      c0_dc0_ddc0_j0_x3_j1_ddc1_dc1_c1.computeJerkWaypoints] at k1 k2 k3
    have a := k2 _ (List.mem_cons_of_mem _ (List.mem_cons_of_mem _ List.mem_cons_self)) ⟨0, by norm_num⟩ 0
    have v := k1 _ (List.mem_cons_of_mem _ (List.mem_cons_of_mem _ (List.mem_cons_of_mem _ List.mem_cons_self))) ⟨0, by norm_num⟩ 0
    have j := k3 _ (List.mem_cons_of_mem _ List.mem_cons_self) ⟨0, by norm_num⟩ 0
    norm_num [WpB.at, Fin.sum_univ_succ, r0, r1, r2, r3, r7, r8, r9, r10] at a v j
    linarith [a.1, a.2, v.1, v.2, j.1, j.2]

theorem fall12_pts : ∃ pi, computeConstantWaypoints 2303#32 (fallMove (690) (-3720) 7920) 1 = .ok pi ∧ pi.length = 13 ∧
    nth pi 0 = ![690, 0, 0] ∧ nth pi 1 = ![380, 0, 0] ∧ nth pi 2 = ![130, 0, 0] ∧ nth pi 3 = ![-60, 0, 0] ∧ nth pi 9 = ![60, 0, 0] ∧ nth pi 10 = ![290, 0, 0] ∧ nth pi 11 = ![580, 0, 0] ∧ nth pi 12 = ![930, 0, 0] ∧ nth pi 7 = ![0, 0, 0] := by
  refine ⟨_, by simp [computeConstantWaypoints]; rfl, by simp [c0_dc0_ddc0_j0_x5_j1_ddc1_dc1_c1.computeConstantWaypoints], ?_⟩
  (repeat' apply And.intro) <;> funext k <;> fin_cases k <;>
    norm_num [nth, c0_dc0_ddc0_j0_x5_j1_ddc1_dc1_c1.computeConstantWaypoints, fallMove]

theorem fall12_velocity {pi : List V3} (h : computeConstantWaypoints 2303#32 (fallMove (690) (-3720) 7920) 1 = .ok pi) :
    Within (c0_dc0_ddc0_j0_x5_j1_ddc1_dc1_c1.computeVelocityWaypoints (nth pi) 1) (fun _ => 10000) (fun _ => 10000) (fun j => ![690 + -340 * (j + 4) + 30 * (j + 4) ^ 2, 0, 0]) := by
  obtain ⟨pi', e, hl, q0, q1, q2, q3, q9, q10, q11, q12, q7⟩ := fall12_pts
  rw [h] at e
  obtain rfl := Out.ok.inj e
  intro w hw _ k
  simp only [c0_dc0_ddc0_j0_x5_j1_ddc1_dc1_c1.computeVelocityWaypoints, List.mem_cons, List.not_mem_nil, or_false] at hw
  rcases hw with rfl | rfl | rfl | rfl | rfl | rfl | rfl | rfl | rfl | rfl | rfl | rfl <;> fin_cases k <;>
    norm_num [WpB.at, Fin.sum_univ_succ, q0, q1, q2, q3, q9, q10, q11, q12, q7]

theorem fall12_acceleration {pi : List V3} (h : computeConstantWaypoints 2303#32 (fallMove (690) (-3720) 7920) 1 = .ok pi) :
    Within (c0_dc0_ddc0_j0_x5_j1_ddc1_dc1_c1.computeAccelerationWaypoints (nth pi) 1) (fun _ => 10000) (fun _ => 10000) (fun j => ![690 + -340 * (j + 4) + 30 * (j + 4) ^ 2, 0, 0]) := by
  obtain ⟨pi', e, hl, q0, q1, q2, q3, q9, q10, q11, q12, q7⟩ := fall12_pts
  rw [h] at e
  obtain rfl := Out.ok.inj e
  intro w hw _ k
  simp only [c0_dc0_ddc0_j0_x5_j1_ddc1_dc1_c1.computeAccelerationWaypoints, List.mem_cons, List.not_mem_nil, or_false] at hw
  rcases hw with rfl | rfl | rfl | rfl | rfl | rfl | rfl | rfl | rfl | rfl | rfl | rfl <;> fin_cases k <;>
    norm_num [WpB.at, Fin.sum_univ_succ, q0, q1, q2, q3, q9, q10, q11, q12, q7]

theorem fall12_jerk {pi : List V3} (h : computeConstantWaypoints 2303#32 (fallMove (690) (-3720) 7920) 1 = .ok pi) :
    Within (c0_dc0_ddc0_j0_x5_j1_ddc1_dc1_c1.computeJerkWaypoints (nth pi) 1) (fun _ => 10000) (fun _ => 10000) (fun j => ![690 + -340 * (j + 4) + 30 * (j + 4) ^ 2, 0, 0]) := by
  obtain ⟨pi', e, hl, q0, q1, q2, q3, q9, q10, q11, q12, q7⟩ := fall12_pts
  rw [h] at e
  obtain rfl := Out.ok.inj e
  intro w hw _ k
  simp only [c0_dc0_ddc0_j0_x5_j1_ddc1_dc1_c1.computeJerkWaypoints, List.mem_cons, List.not_mem_nil, or_false] at hw
  rcases hw with rfl | rfl | rfl | rfl | rfl | rfl | rfl | rfl | rfl | rfl <;> fin_cases k <;>
    norm_num [WpB.at, Fin.sum_univ_succ, q0, q1, q2, q3, q9, q10, q11, q12, q7]

/-- C124 refuted, set with 5 free points: this motion is planned, and refused in the opposite direction. -/
theorem C124_five_refuted : ∃ M, ∀ lib, LibOk lib → lib.eps = 0 → M ≤ lib.maxIter → ∀ path path' w init, 0 ≤ w → w ≤ 1 → ∃ r r' N,
    (∀ fuel ≥ N, solveEndEffector lib fuel 2303#32 (fallMove (690) (-3720) 7920) path 1 w init = .ok r ∧
      solveEndEffector lib fuel 2303#32 (fallMove (690) (-3720) 7920).reverse path' 1 w init = .ok r') ∧ r.success = true ∧ r'.success = false := by
  obtain ⟨pi, hpi, hl, q0, q1, q2, q3, q9, q10, q11, q12, q7⟩ := fall12_pts
  have hl' : pi.reverse.length = 13 := by rw [List.length_reverse, hl]
  refine one_direction 2303#32 (by decide) _ pi hpi (fun j => ![690 + -340 * (j + 4) + 30 * (j + 4) ^ 2, 0, 0]) ?_ ?_
  · exact ⟨_, _, _, by simp [computeVelocityWaypoints, hl]; rfl, by simp [computeAccelerationWaypoints, hl]; rfl,
      by simp [computeJerkWaypoints, hl]; rfl, fall12_velocity hpi, fall12_acceleration hpi, fall12_jerk hpi, fun j hj => by simp [fallMove]⟩
  · rintro Y ⟨_, _, _, e1, e2, e3, k1, k2, k3, -⟩
    have r : ∀ i ≤ 12, nth pi.reverse i = nth pi (12 - i) := fun i hi => nth_reverse hl hi
    have r0 := r 0 (by norm_num)
    have r1 := r 1 (by norm_num)
    have r2 := r 2 (by norm_num)
    have r3 := r 3 (by norm_num)
    have r9 := r 9 (by norm_num)
    have r10 := r 10 (by norm_num)
    have r11 := r 11 (by norm_num)
    have r12 := r 12 (by norm_num)
    norm_num [q0, q1, q2, q3, q9, q10, q11, q12, q7] at r0 r1 r2 r3 r9 r10 r11 r12
    simp [computeVelocityWaypoints, computeAccelerationWaypoints, computeJerkWaypoints, hl'] at e1 e2 e3
    subst e1 e2 e3
    simp only [c0_dc0_ddc0_j0_x5_j1_ddc1_dc1_c1.computeVelocityWaypoints, c0_dc0_ddc0_j0_x5_j1_ddc1_dc1_c1.computeAccelerationWaypoints,
      c0_dc0_ddc0_j0_x5_j1_ddc1_dc1_c1.computeJerkWaypoints] at k1 k2 k3
    have a := k2 _ (List.mem_cons_of_mem _ (List.mem_cons_of_mem _ List.mem_cons_self)) ⟨0, by norm_num⟩ 0
    have v := k1 _ (List.mem_cons_of_mem _ (List.mem_cons_of_mem _ (List.mem_cons_of_mem _ List.mem_cons_self))) ⟨0, by norm_num⟩ 0
    have j := k3 _ (List.mem_cons_of_mem _ List.mem_cons_self) ⟨0, by norm_num⟩ 0
    norm_num [WpB.at, Fin.sum_univ_succ, r0, r1, r2, r3, r9, r10, r11, r12] at a v j
    linarith [a.1, a.2, v.1, v.2, j.1, j.2]

end Verif
