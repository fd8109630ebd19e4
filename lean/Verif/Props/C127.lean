import Verif.Props.C126

/-!
# C127: motions between two planned motions
-/

namespace Verif
open Finset

/-- The vector at the fraction `s` of the way from `p` to `q`. -/
def between (s : ℝ) (p q : V3) : V3 := (1 - s) • p + s • q

/-- The boundary conditions at the fraction `s` of the way from `d` to `d'`. -/
def BC.between (s : ℝ) (d d' : BC) : BC :=
  ⟨Verif.between s d.c0 d'.c0, Verif.between s d.dc0 d'.dc0, Verif.between s d.ddc0 d'.ddc0, Verif.between s d.j0 d'.j0,
    Verif.between s d.c1 d'.c1, Verif.between s d.dc1 d'.dc1, Verif.between s d.ddc1 d'.ddc1, Verif.between s d.j1 d'.j1⟩

theorem between_apply (s : ℝ) (p q : V3) (k : Fin 3) : between s p q k = (1 - s) * p k + s * q k := by
  simp [between]

theorem effPts_between (flag : Flag) (hf : flag ∈ effFlags) (d d' : BC) (T s : ℝ) (pi pi' : List V3)
    (h : computeConstantWaypoints flag d T = .ok pi) (h' : computeConstantWaypoints flag d' T = .ok pi') :
    computeConstantWaypoints flag (d.between s d') T = .ok (List.zipWith (between s) pi pi') := by
  simp only [effFlags, List.mem_cons, List.not_mem_nil, or_false] at hf
  rcases hf with rfl | rfl | rfl
  · simp [computeConstantWaypoints] at h h' ⊢
    subst h h'
    simp [c0_dc0_ddc0_j0_j1_ddc1_dc1_c1.computeConstantWaypoints, BC.between]
    (repeat' apply And.intro) <;> ext k <;> simp [between] <;> ring
  · simp [computeConstantWaypoints] at h h' ⊢
    subst h h'
    simp [c0_dc0_ddc0_j0_x3_j1_ddc1_dc1_c1.computeConstantWaypoints, BC.between]
    (repeat' apply And.intro) <;> ext k <;> simp [between] <;> ring
  · simp [computeConstantWaypoints] at h h' ⊢
    subst h h'
    simp [c0_dc0_ddc0_j0_x5_j1_ddc1_dc1_c1.computeConstantWaypoints, BC.between]
    (repeat' apply And.intro) <;> ext k <;> simp [between] <;> ring

theorem nth_between (s : ℝ) : ∀ (pi pi' : List V3), pi.length = pi'.length → ∀ i, nth (List.zipWith (between s) pi pi') i
    = between s (nth pi i) (nth pi' i)
  | [], [], _, i => by simp [nth, between]
  | p :: pi, q :: pi', h, 0 => by simp [nth]
  | p :: pi, q :: pi', h, i + 1 => by
    have := nth_between s pi pi' (by simpa using h) i
    simpa [nth] using this

/-- Three lists of control points, the third one between the other two. -/
inductive BetweenWps (s : ℝ) {K : ℕ} : List (WpB K) → List (WpB K) → List (WpB K) → Prop
  | nil : BetweenWps s [] [] []
  | cons {w w' w'' : WpB K} {ws ws' ws'' : List (WpB K)} (h : w'.first = w.first ∧ w''.first = w.first ∧
      ∀ k, w''.second k = (1 - s) * w.second k + s * w'.second k) (t : BetweenWps s ws ws' ws'') :
      BetweenWps s (w :: ws) (w' :: ws') (w'' :: ws'')

theorem within_between {s : ℝ} (h0 : 0 ≤ s) (h1 : s ≤ 1) {K : ℕ} {ws ws' ws'' : List (WpB K)} {X X' : ℕ → V3} {M : ℝ}
    (h : BetweenWps s ws ws' ws'') (hw : Within ws (fun _ => M) (fun _ => M) X) (hw' : Within ws' (fun _ => M) (fun _ => M) X') :
    Within ws'' (fun _ => M) (fun _ => M) (fun j => between s (X j) (X' j)) := by
  induction h with
  | nil => simp [Within]
  | @cons w w' w'' ws ws' ws'' h _ ih =>
    have e : ∀ (w : WpB K) ws X, Within (w :: ws) (fun _ => M) (fun _ => M) X ↔
        (Depends w → ∀ k, |w.at X k| ≤ M) ∧ Within ws (fun _ => M) (fun _ => M) X := by
      intro w ws X; simp [Within, abs_le]
    rw [e] at hw hw' ⊢
    refine ⟨fun hd k => ?_, ih hw.2 hw'.2⟩
    have hd1 : Depends w := by unfold Depends at hd ⊢; rwa [h.2.1] at hd
    have hd2 : Depends w' := by unfold Depends at hd1 ⊢; rwa [h.1]
    have a := abs_le.mp (hw.1 hd1 k)
    have b := abs_le.mp (hw'.1 hd2 k)
    have eq : w''.at (fun j => between s (X j) (X' j)) k = (1 - s) * w.at X k + s * w'.at X' k := by
      simp only [WpB.at, Pi.add_apply, Finset.sum_apply, Pi.smul_apply, smul_eq_mul, h.1, h.2.1, h.2.2, between_apply, mul_add, mul_sum,
        sum_add_distrib]
      have : ∀ (c : ℝ) (Y : ℕ → V3), ∑ x : Fin K, w.first x * (c * Y x k) = ∑ x : Fin K, c * (w.first x * Y x k) :=
        fun c Y => sum_congr rfl fun x _ => by ring
      rw [this, this]
      ring
    rw [eq, abs_le]
    constructor <;> nlinarith [a.1, a.2, b.1, b.2]

theorem controls8_between (P Q : ℕ → V3) (T s : ℝ) :
    BetweenWps s (c0_dc0_ddc0_j0_j1_ddc1_dc1_c1.computeVelocityWaypoints P T) (c0_dc0_ddc0_j0_j1_ddc1_dc1_c1.computeVelocityWaypoints Q T)
      (c0_dc0_ddc0_j0_j1_ddc1_dc1_c1.computeVelocityWaypoints (fun i => between s (P i) (Q i)) T) ∧
    BetweenWps s (c0_dc0_ddc0_j0_j1_ddc1_dc1_c1.computeAccelerationWaypoints P T) (c0_dc0_ddc0_j0_j1_ddc1_dc1_c1.computeAccelerationWaypoints Q T)
      (c0_dc0_ddc0_j0_j1_ddc1_dc1_c1.computeAccelerationWaypoints (fun i => between s (P i) (Q i)) T) ∧
    BetweenWps s (c0_dc0_ddc0_j0_j1_ddc1_dc1_c1.computeJerkWaypoints P T) (c0_dc0_ddc0_j0_j1_ddc1_dc1_c1.computeJerkWaypoints Q T)
      (c0_dc0_ddc0_j0_j1_ddc1_dc1_c1.computeJerkWaypoints (fun i => between s (P i) (Q i)) T) := by
  unfold c0_dc0_ddc0_j0_j1_ddc1_dc1_c1.computeVelocityWaypoints c0_dc0_ddc0_j0_j1_ddc1_dc1_c1.computeAccelerationWaypoints
    c0_dc0_ddc0_j0_j1_ddc1_dc1_c1.computeJerkWaypoints
  refine ⟨?_, ?_, ?_⟩ <;>
    (repeat' apply BetweenWps.cons) <;> first
      | exact BetweenWps.nil
      | (refine ⟨rfl, rfl, fun k => ?_⟩; simp only [between_apply]; (try simp only [Pi.zero_apply]); ring)

theorem controls10_between (P Q : ℕ → V3) (T s : ℝ) :
    BetweenWps s (c0_dc0_ddc0_j0_x3_j1_ddc1_dc1_c1.computeVelocityWaypoints P T) (c0_dc0_ddc0_j0_x3_j1_ddc1_dc1_c1.computeVelocityWaypoints Q T)
      (c0_dc0_ddc0_j0_x3_j1_ddc1_dc1_c1.computeVelocityWaypoints (fun i => between s (P i) (Q i)) T) ∧
    BetweenWps s (c0_dc0_ddc0_j0_x3_j1_ddc1_dc1_c1.computeAccelerationWaypoints P T) (c0_dc0_ddc0_j0_x3_j1_ddc1_dc1_c1.computeAccelerationWaypoints Q T)
      (c0_dc0_ddc0_j0_x3_j1_ddc1_dc1_c1.computeAccelerationWaypoints (fun i => between s (P i) (Q i)) T) ∧
    BetweenWps s (c0_dc0_ddc0_j0_x3_j1_ddc1_dc1_c1.computeJerkWaypoints P T) (c0_dc0_ddc0_j0_x3_j1_ddc1_dc1_c1.computeJerkWaypoints Q T)
      (c0_dc0_ddc0_j0_x3_j1_ddc1_dc1_c1.computeJerkWaypoints (fun i => between s (P i) (Q i)) T) := by
  unfold c0_dc0_ddc0_j0_x3_j1_ddc1_dc1_c1.computeVelocityWaypoints c0_dc0_ddc0_j0_x3_j1_ddc1_dc1_c1.computeAccelerationWaypoints
    c0_dc0_ddc0_j0_x3_j1_ddc1_dc1_c1.computeJerkWaypoints
  refine ⟨?_, ?_, ?_⟩ <;>
    (repeat' apply BetweenWps.cons) <;> first
      | exact BetweenWps.nil
      | (refine ⟨rfl, rfl, fun k => ?_⟩; simp only [between_apply]; (try simp only [Pi.zero_apply]); ring)

theorem controls12_between (P Q : ℕ → V3) (T s : ℝ) :
    BetweenWps s (c0_dc0_ddc0_j0_x5_j1_ddc1_dc1_c1.computeVelocityWaypoints P T) (c0_dc0_ddc0_j0_x5_j1_ddc1_dc1_c1.computeVelocityWaypoints Q T)
      (c0_dc0_ddc0_j0_x5_j1_ddc1_dc1_c1.computeVelocityWaypoints (fun i => between s (P i) (Q i)) T) ∧
    BetweenWps s (c0_dc0_ddc0_j0_x5_j1_ddc1_dc1_c1.computeAccelerationWaypoints P T) (c0_dc0_ddc0_j0_x5_j1_ddc1_dc1_c1.computeAccelerationWaypoints Q T)
      (c0_dc0_ddc0_j0_x5_j1_ddc1_dc1_c1.computeAccelerationWaypoints (fun i => between s (P i) (Q i)) T) ∧
    BetweenWps s (c0_dc0_ddc0_j0_x5_j1_ddc1_dc1_c1.computeJerkWaypoints P T) (c0_dc0_ddc0_j0_x5_j1_ddc1_dc1_c1.computeJerkWaypoints Q T)
      (c0_dc0_ddc0_j0_x5_j1_ddc1_dc1_c1.computeJerkWaypoints (fun i => between s (P i) (Q i)) T) := by
  unfold c0_dc0_ddc0_j0_x5_j1_ddc1_dc1_c1.computeVelocityWaypoints c0_dc0_ddc0_j0_x5_j1_ddc1_dc1_c1.computeAccelerationWaypoints
    c0_dc0_ddc0_j0_x5_j1_ddc1_dc1_c1.computeJerkWaypoints
  refine ⟨?_, ?_, ?_⟩ <;>
    (repeat' apply BetweenWps.cons) <;> first
      | exact BetweenWps.nil
      | (refine ⟨rfl, rfl, fun k => ?_⟩; simp only [between_apply]; (try simp only [Pi.zero_apply]); ring)

/-- The lists of control points of the three calls. -/
theorem controls_between (flag : Flag) (hf : flag ∈ effFlags) (d d' d'' : BC) (T s : ℝ) (pi pi' : List V3)
    (hl : pi.length = degreeOf flag + 1) (hl' : pi'.length = degreeOf flag + 1) : ∃ (K : ℕ) (v v' v'' a a' a'' j j' j'' : List (WpB K)),
      computeVelocityWaypoints flag d T pi = .ok ⟨K, v⟩ ∧ computeVelocityWaypoints flag d' T pi' = .ok ⟨K, v'⟩ ∧
      computeVelocityWaypoints flag d'' T (List.zipWith (between s) pi pi') = .ok ⟨K, v''⟩ ∧
      computeAccelerationWaypoints flag d T pi = .ok ⟨K, a⟩ ∧ computeAccelerationWaypoints flag d' T pi' = .ok ⟨K, a'⟩ ∧
      computeAccelerationWaypoints flag d'' T (List.zipWith (between s) pi pi') = .ok ⟨K, a''⟩ ∧
      computeJerkWaypoints flag d T pi = .ok ⟨K, j⟩ ∧ computeJerkWaypoints flag d' T pi' = .ok ⟨K, j'⟩ ∧
      computeJerkWaypoints flag d'' T (List.zipWith (between s) pi pi') = .ok ⟨K, j''⟩ ∧
      BetweenWps s v v' v'' ∧ BetweenWps s a a' a'' ∧ BetweenWps s j j' j'' := by
  have hn : nth (List.zipWith (between s) pi pi') = fun i => between s (nth pi i) (nth pi' i) :=
    funext (nth_between s pi pi' (hl.trans hl'.symm))
  simp only [effFlags, List.mem_cons, List.not_mem_nil, or_false] at hf
  rcases hf with rfl | rfl | rfl
  · have hl : pi.length = 9 := by simpa [degreeOf] using hl
    have hl' : pi'.length = 9 := by simpa [degreeOf] using hl'
    have q := controls8_between (nth pi) (nth pi') T s
    refine ⟨1, _, _, _, _, _, _, _, _, _, ?_, ?_, ?_, ?_, ?_, ?_, ?_, ?_, ?_, q.1, q.2.1, q.2.2⟩ <;>
      simp [computeVelocityWaypoints, computeAccelerationWaypoints, computeJerkWaypoints, hl, hl', hn]
  · have hl : pi.length = 11 := by simpa [degreeOf] using hl
    have hl' : pi'.length = 11 := by simpa [degreeOf] using hl'
    have q := controls10_between (nth pi) (nth pi') T s
    refine ⟨3, _, _, _, _, _, _, _, _, _, ?_, ?_, ?_, ?_, ?_, ?_, ?_, ?_, ?_, q.1, q.2.1, q.2.2⟩ <;>
      simp [computeVelocityWaypoints, computeAccelerationWaypoints, computeJerkWaypoints, hl, hl', hn]
  · have hl : pi.length = 13 := by simpa [degreeOf] using hl
    have hl' : pi'.length = 13 := by simpa [degreeOf] using hl'
    have q := controls12_between (nth pi) (nth pi') T s
    refine ⟨5, _, _, _, _, _, _, _, _, _, ?_, ?_, ?_, ?_, ?_, ?_, ?_, ?_, ?_, q.1, q.2.1, q.2.2⟩ <;>
      simp [computeVelocityWaypoints, computeAccelerationWaypoints, computeJerkWaypoints, hl, hl', hn]

/-- The same end is the lower one in both motions. -/
def SameLowerEnd (d d' : BC) : Prop := d.c0 2 ≤ d.c1 2 ∧ d'.c0 2 ≤ d'.c1 2 ∨ d.c1 2 ≤ d.c0 2 ∧ d'.c1 2 ≤ d'.c0 2

/-- C127, requirements: between free points that meet those of two motions there are free points that meet those of the motion
between. -/
theorem C127_admissible (flag : Flag) (hf : flag ∈ effFlags) (d d' : BC) (hlow : SameLowerEnd d d') (T s : ℝ) (h0 : 0 ≤ s) (h1 : s ≤ 1)
    (pi pi' : List V3) (hl : pi.length = degreeOf flag + 1) (hl' : pi'.length = degreeOf flag + 1) (X X' : ℕ → V3)
    (hX : EndOk flag d T pi X) (hX' : EndOk flag d' T pi' X') :
    EndOk flag (d.between s d') T (List.zipWith (between s) pi pi') (fun j => between s (X j) (X' j)) := by
  obtain ⟨K, v, v', v'', a, a', a'', j, j', j'', e1, e1', e1'', e2, e2', e2'', e3, e3', e3'', q1, q2, q3⟩ :=
    controls_between flag hf d d' (d.between s d') T s pi pi' hl hl'
  obtain ⟨_, _, _, g1, g2, g3, k1, k2, k3, k4⟩ := hX
  obtain ⟨_, _, _, g1', g2', g3', k1', k2', k3', k4'⟩ := hX'
  rw [e1] at g1; rw [e2] at g2; rw [e3] at g3
  obtain rfl := Out.ok.inj g1
  obtain rfl := Out.ok.inj g2
  obtain rfl := Out.ok.inj g3
  rw [e1'] at g1'; rw [e2'] at g2'; rw [e3'] at g3'
  obtain rfl := Out.ok.inj g1'
  obtain rfl := Out.ok.inj g2'
  obtain rfl := Out.ok.inj g3'
  refine ⟨_, _, _, e1'', e2'', e3'', within_between h0 h1 q1 k1 k1', within_between h0 h1 q2 k2 k2', within_between h0 h1 q3 k3 k3',
    fun i hi => ?_⟩
  have a := k4 i hi
  have b := k4' i hi
  show min (between s d.c0 d'.c0 2) (between s d.c1 d'.c1 2) ≤ between s (X i) (X' i) 2
  rw [between_apply, between_apply, between_apply]
  have c := mul_le_mul_of_nonneg_left a (sub_nonneg.mpr h1)
  have d := mul_le_mul_of_nonneg_left b h0
  rcases hlow with ⟨p, q⟩ | ⟨p, q⟩
  · rw [min_eq_left p] at c
    rw [min_eq_left q] at d
    exact (min_le_left _ _).trans (by linarith)
  · rw [min_eq_right p] at c
    rw [min_eq_right q] at d
    exact (min_le_right _ _).trans (by linarith)

/-- C127. If the planner plans two motions whose lower end is the same, it plans every motion between them, whatever the paths, the weights
and the solvers. -/
theorem C127_between (flag : Flag) (hf : flag ∈ effFlags) (d d' : BC) (hlow : SameLowerEnd d d') (T : ℝ) (hT : 0 < T) (s : ℝ) (h0 : 0 ≤ s)
    (h1 : s ≤ 1) : ∃ M, ∀ lib, LibOk lib → lib.eps = 0 → M ≤ lib.maxIter → ∀ path path' path'' w w' w'' init init' init'',
    0 ≤ w → w ≤ 1 → 0 ≤ w' → w' ≤ 1 → 0 ≤ w'' → w'' ≤ 1 → ∃ r r' r'' N,
      (∀ fuel ≥ N, solveEndEffector lib fuel flag d path T w init = .ok r ∧ solveEndEffector lib fuel flag d' path' T w' init' = .ok r' ∧
        solveEndEffector lib fuel flag (d.between s d') path'' T w'' init'' = .ok r'') ∧
      (r.success = true → r'.success = true → r''.success = true) := by
  obtain ⟨pi, hpi, hl⟩ := effPts flag hf d T
  obtain ⟨pi', hpi', hl'⟩ := effPts flag hf d' T
  have hpi'' := effPts_between flag hf d d' T s pi pi' hpi hpi'
  obtain ⟨M, h⟩ := end_verdict flag hf d T hT pi hpi
  obtain ⟨M', h'⟩ := end_verdict flag hf d' T hT pi' hpi'
  obtain ⟨M'', h''⟩ := end_verdict flag hf (d.between s d') T hT _ hpi''
  refine ⟨M + M' + M'', fun lib hL he hm path path' path'' w w' w'' init init' init'' a1 a2 b1 b2 c1 c2 => ?_⟩
  obtain ⟨r, N, hr, hv⟩ := h lib hL he (by omega) path w init a1 a2
  obtain ⟨r', N', hr', hv'⟩ := h' lib hL he (by omega) path' w' init' b1 b2
  obtain ⟨r'', N'', hr'', hv''⟩ := h'' lib hL he (by omega) path'' w'' init'' c1 c2
  refine ⟨r, r', r'', N + N' + N'', fun fuel hfu => ⟨hr fuel (by omega), hr' fuel (by omega), hr'' fuel (by omega)⟩, fun p q => ?_⟩
  obtain ⟨X, hX⟩ := hv.mp p
  obtain ⟨X', hX'⟩ := hv'.mp q
  exact hv''.mpr ⟨_, C127_admissible flag hf d d' hlow T s h0 h1 pi pi' hl hl' X X' hX hX'⟩

theorem jerkyMove_between (s : ℝ) (q v q' v' : V3) :
    (jerkyMove q v).between s (jerkyMove q' v') = jerkyMove (between s q q') (between s v v') := by
  have z : between s 0 0 = 0 := by funext k; simp [between]
  simp only [jerkyMove, BC.between, BC.mk.injEq, z, true_and, and_true]
  try ((repeat' apply And.intro) <;> funext k <;> simp [between] <;> ring)

/-- A non-trivial case: the motions from the origin to points between (1,0,0) and (0,1,0) are planned. -/
theorem fan_between (s : ℝ) (h0 : 0 ≤ s) (h1 : s ≤ 1) : ∃ M, ∀ lib, LibOk lib → lib.eps = 0 → M ≤ lib.maxIter → ∀ path w init, 0 ≤ w → w ≤ 1 →
    ∃ r N, (∀ fuel ≥ N, solveEndEffector lib fuel 255#32 (jerkyMove 0 ![1 - s, s, 0]) path 1 w init = .ok r) ∧ r.success = true := by
  have hf : (255#32 : Flag) ∈ effFlags := by decide
  obtain ⟨M, h⟩ := C127_between 255#32 hf (jerkyMove 0 ![1, 0, 0]) (jerkyMove 0 ![0, 1, 0]) (by simp [SameLowerEnd, jerkyMove]) 1 one_pos s h0 h1
  have e : (jerkyMove 0 ![1, 0, 0]).between s (jerkyMove 0 ![0, 1, 0]) = jerkyMove 0 ![1 - s, s, 0] := by
    rw [jerkyMove_between]
    congr 1 <;> funext k <;> fin_cases k <;> simp [between]
  rw [e] at h
  have ok : ∀ v : V3, (∀ k, |v k| ≤ 1) → v 2 = 0 → ∀ pi, computeConstantWaypoints 255#32 (jerkyMove 0 v) 1 = .ok pi →
      EndOk 255#32 (jerkyMove 0 v) 1 pi fun _ => 0 := by
    intro v hv h2 pi hpi
    rw [jerkyMove_ok _ _ hpi]
    refine ⟨fun k => ?_, by simp [h2]⟩
    have b := abs_le.mp (hv k)
    simp only [Pi.zero_apply, abs_le]
    (repeat' apply And.intro) <;> linarith [b.1, b.2]
  obtain ⟨pi, hpi, -⟩ := jerkyMove_pts 0 ![1, 0, 0]
  obtain ⟨pi', hpi', -⟩ := jerkyMove_pts 0 ![0, 1, 0]
  obtain ⟨M1, g1⟩ := end_verdict 255#32 hf _ 1 one_pos pi hpi
  obtain ⟨M2, g2⟩ := end_verdict 255#32 hf _ 1 one_pos pi' hpi'
  refine ⟨M + M1 + M2, fun lib hL he hm path w init a b => ?_⟩
  obtain ⟨r, r', r'', N, hr, hs⟩ := h lib hL he (by omega) path path path w w w init init init a b a b a b
  obtain ⟨r1, N1, hr1, hv1⟩ := g1 lib hL he (by omega) path w init a b
  obtain ⟨r2, N2, hr2, hv2⟩ := g2 lib hL he (by omega) path w init a b
  obtain rfl : r = r1 := Out.ok.inj ((hr _ (le_max_left N N1)).1.symm.trans (hr1 _ (le_max_right N N1)))
  obtain rfl : r' = r2 := Out.ok.inj ((hr _ (le_max_left N N2)).2.1.symm.trans (hr2 _ (le_max_right N N2)))
  exact ⟨r'', N, fun fuel hfu => (hr fuel hfu).2.2,
    hs (hv1.mpr ⟨_, ok _ (by intro k; fin_cases k <;> simp) (by simp) pi hpi⟩) (hv2.mpr ⟨_, ok _ (by intro k; fin_cases k <;> simp) (by simp) pi' hpi'⟩)⟩

/-- C127 needs the condition on the lower end: a motion up and a motion down are planned, the motion half way between them is refused. -/
theorem C127_ends_refuted : ∃ M, ∀ lib, LibOk lib → lib.eps = 0 → M ≤ lib.maxIter → ∀ path w init, 0 ≤ w → w ≤ 1 → ∃ r r' r'' N,
    (∀ fuel ≥ N, solveEndEffector lib fuel 255#32 (jerkyMove ![0, 0, -99 / 10] ![0, 0, 1]) path 1 w init = .ok r ∧
      solveEndEffector lib fuel 255#32 (jerkyMove ![0, 0, -10] ![0, 0, -1]) path 1 w init = .ok r' ∧
      solveEndEffector lib fuel 255#32 ((jerkyMove ![0, 0, -99 / 10] ![0, 0, 1]).between (1 / 2) (jerkyMove ![0, 0, -10] ![0, 0, -1])) path 1 w init
        = .ok r'') ∧ r.success = true ∧ r'.success = true ∧ r''.success = false := by
  have hf : (255#32 : Flag) ∈ effFlags := by decide
  have e : (jerkyMove ![0, 0, -99 / 10] ![0, 0, 1]).between (1 / 2) (jerkyMove ![0, 0, -10] ![0, 0, -1])
      = jerkyMove ![0, 0, -199 / 20] 0 := by
    rw [jerkyMove_between]
    congr 1 <;> funext k <;> fin_cases k <;> simp [between] <;> norm_num
  rw [e]
  obtain ⟨pi, hpi, -⟩ := jerkyMove_pts ![0, 0, -99 / 10] ![0, 0, 1]
  obtain ⟨pi', hpi', -⟩ := jerkyMove_pts ![0, 0, -10] ![0, 0, -1]
  obtain ⟨pi'', hpi'', -⟩ := jerkyMove_pts ![0, 0, -199 / 20] 0
  obtain ⟨M, h⟩ := end_verdict 255#32 hf _ 1 one_pos pi hpi
  obtain ⟨M', h'⟩ := end_verdict 255#32 hf _ 1 one_pos pi' hpi'
  obtain ⟨M'', h''⟩ := end_verdict 255#32 hf _ 1 one_pos pi'' hpi''
  refine ⟨M + M' + M'', fun lib hL he hm path w init a b => ?_⟩
  obtain ⟨r, N, hr, hv⟩ := h lib hL he (by omega) path w init a b
  obtain ⟨r', N', hr', hv'⟩ := h' lib hL he (by omega) path w init a b
  obtain ⟨r'', N'', hr'', hv''⟩ := h'' lib hL he (by omega) path w init a b
  refine ⟨r, r', r'', N + N' + N'', fun fuel hfu => ⟨hr fuel (by omega), hr' fuel (by omega), hr'' fuel (by omega)⟩, ?_, ?_, ?_⟩
  · refine hv.mpr ⟨fun _ => 0, ?_⟩
    rw [jerkyMove_ok _ _ hpi]
    refine ⟨fun k => ?_, by simp⟩
    fin_cases k <;> norm_num [abs_le]
  · refine hv'.mpr ⟨fun _ => ![0, 0, -1 / 2], ?_⟩
    rw [jerkyMove_ok _ _ hpi']
    refine ⟨fun k => ?_, by simp only [third_coord, Pi.zero_apply]; norm_num⟩
    fin_cases k <;> norm_num [abs_le]
  · rw [← Bool.not_eq_true, hv'']
    rintro ⟨X, hX⟩
    rw [jerkyMove_ok _ _ hpi''] at hX
    obtain ⟨h1, h2⟩ := hX
    have := (abs_le.mp (h1 2).2.2.2.2.2.1).2
    simp only [third_coord, Pi.zero_apply, min_self] at this h2
    linarith

end Verif
