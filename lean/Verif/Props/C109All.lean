import Verif.Lemmas.WaypointsFrame
import Verif.Props.C110All
import Verif.Props.C56RoundedTol

/-!
# C109, C112: all seven constraint sets

The wrench waypoints are compared term by term, so that the decimals in the coefficients of the two longest sets do not matter.
-/

namespace Verif
open Matrix

/-! ## The waypoints of a call -/

theorem nth_map (f : V3 → V3) (h0 : f 0 = 0) (l : List V3) : nth (l.map f) = fun i => f (nth l i) := by
  funext i
  unfold nth
  rw [List.getD_eq_getElem?_getD, List.getD_eq_getElem?_getD, List.getElem?_map]
  cases l[i]? <;> simp [h0]

theorem pts_rotate (flag : Flag) (hf : flag ∈ comFlags) (d : BC) (T : ℝ) (R : V3 ≃ₗ[ℝ] V3) (pts : List V3)
    (h : computeConstantWaypoints flag d T = .ok pts) :
    computeConstantWaypoints flag (d.rotate R) T = .ok (pts.map R) := by
  obtain ⟨M, hM⟩ : ∃ M : Fin 3 → Fin 3 → ℝ, ∀ v k, R v k = v 0 * M 0 k + v 1 * M 1 k + v 2 * M 2 k :=
    ⟨![R ![1, 0, 0], R ![0, 1, 0], R ![0, 0, 1]], linear_entries R⟩
  simp only [comFlags, List.mem_cons, List.not_mem_nil, or_false] at hf
  rcases hf with rfl | rfl | rfl | rfl | rfl | rfl | rfl
  · simp [computeConstantWaypoints] at h ⊢
    subst h
    simp [c0_dc0_c1.computeConstantWaypoints, BC.rotate]
    (repeat' apply And.intro) <;> ext k <;> simp [hM] <;> ring
  · by_cases hd : d.dc1 = 0 <;> simp [computeConstantWaypoints, hd, BC.rotate] at h ⊢
    subst h
    simp [c0_dc0_dc1.computeConstantWaypoints]
    (repeat' apply And.intro) <;> ext k <;> simp [hM] <;> ring
  · simp [computeConstantWaypoints] at h ⊢
    subst h
    simp [c0_dc0_dc1_c1.computeConstantWaypoints, BC.rotate]
    (repeat' apply And.intro) <;> ext k <;> simp [hM] <;> ring
  · simp [computeConstantWaypoints] at h ⊢
    subst h
    simp [c0_dc0_ddc0.computeConstantWaypoints, BC.rotate]
    (repeat' apply And.intro) <;> ext k <;> simp [hM] <;> ring
  · simp [computeConstantWaypoints] at h ⊢
    subst h
    simp [c0_dc0_ddc0_c1.computeConstantWaypoints, BC.rotate]
    (repeat' apply And.intro) <;> ext k <;> simp [hM] <;> ring
  · simp [computeConstantWaypoints] at h ⊢
    subst h
    simp [c0_dc0_ddc0_dc1_c1.computeConstantWaypoints, BC.rotate]
    (repeat' apply And.intro) <;> ext k <;> simp [hM] <;> ring
  · simp [computeConstantWaypoints] at h ⊢
    subst h
    simp [c0_dc0_ddc0_ddc1_dc1_c1.computeConstantWaypoints, BC.rotate]
    (repeat' apply And.intro) <;> ext k <;> simp [hM] <;> ring

theorem pts_units (flag : Flag) (hf : flag ∈ comFlags) (d : BC) (T : ℝ) {s k : ℝ} (hk : 0 < k) (hT : 0 < T) (pts : List V3)
    (h : computeConstantWaypoints flag d T = .ok pts) :
    computeConstantWaypoints flag (d.units s k) (k * T) = .ok (pts.map (s • ·)) := by
  simp only [comFlags, List.mem_cons, List.not_mem_nil, or_false] at hf
  rcases hf with rfl | rfl | rfl | rfl | rfl | rfl | rfl
  · simp [computeConstantWaypoints] at h ⊢
    subst h
    simp [c0_dc0_c1.computeConstantWaypoints, BC.units]
    (repeat' apply And.intro) <;> ext j <;> simp <;> field_simp
  · by_cases hd : d.dc1 = 0
    · have hd' : (d.units s k).dc1 = 0 := by simp [BC.units, hd]
      simp [computeConstantWaypoints, hd] at h
      simp [computeConstantWaypoints, hd']
      subst h
      simp [c0_dc0_dc1.computeConstantWaypoints, BC.units]
      (repeat' apply And.intro) <;> ext j <;> simp <;> field_simp
    · simp [computeConstantWaypoints, hd] at h
  · simp [computeConstantWaypoints] at h ⊢
    subst h
    simp [c0_dc0_dc1_c1.computeConstantWaypoints, BC.units]
    (repeat' apply And.intro) <;> ext j <;> simp <;> field_simp
  · simp [computeConstantWaypoints] at h ⊢
    subst h
    simp [c0_dc0_ddc0.computeConstantWaypoints, BC.units]
    (repeat' apply And.intro) <;> ext j <;> simp <;> field_simp
  · simp [computeConstantWaypoints] at h ⊢
    subst h
    simp [c0_dc0_ddc0_c1.computeConstantWaypoints, BC.units]
    (repeat' apply And.intro) <;> ext j <;> simp <;> field_simp
  · simp [computeConstantWaypoints] at h ⊢
    subst h
    simp [c0_dc0_ddc0_dc1_c1.computeConstantWaypoints, BC.units]
    (repeat' apply And.intro) <;> ext j <;> simp <;> field_simp
  · simp [computeConstantWaypoints] at h ⊢
    subst h
    simp [c0_dc0_ddc0_ddc1_dc1_c1.computeConstantWaypoints, BC.units]
    (repeat' apply And.intro) <;> ext j <;> simp <;> field_simp

/-- The wrench waypoints of a call, as a function of the gravity. -/
theorem wps_pts (flag : Flag) (hf : flag ∈ comFlags) : ∃ F : (ℕ → V3) → V3 → ℝ → List Wp6,
    (∀ P g T, F P g T ≠ []) ∧
    (∀ (R : V3 ≃ₗ[ℝ] V3), Rotation R → ∀ P g T, List.Forall₂ (WpRot R) (F P g T) (F (fun i => R (P i)) (R g) T)) ∧
    (∀ s k : ℝ, 0 < k → ∀ P g T, 0 < T → List.Forall₂ (WpUnits s k) (F P g T) (F (fun i => s • P i) ((s / k ^ 2) • g) (k * T))) ∧
    ∀ (l : List ContactData) (d : BC) (T : ℝ) (g : V3) (pts : List V3), computeConstantWaypoints flag d T = .ok pts →
      frontGravity l = .ok g → computeWwaypoints flag l d T = .ok (F (nth pts) g T) := by
  simp only [comFlags, List.mem_cons, List.not_mem_nil, or_false] at hf
  rcases hf with rfl | rfl | rfl | rfl | rfl | rfl | rfl
  · refine ⟨c0_dc0_c1.computeWwaypoints, fun P g T => by simp [c0_dc0_c1.computeWwaypoints],
      fun R hR P g T => c0_dc0_c1.rot hR P g T, fun s k hk P g T hT => c0_dc0_c1.units s k hk P g T hT, fun l d T g pts h1 h2 => ?_⟩
    simp [computeWwaypoints, h1, h2]
  · refine ⟨c0_dc0_dc1.computeWwaypoints, fun P g T => by simp [c0_dc0_dc1.computeWwaypoints],
      fun R hR P g T => c0_dc0_dc1.rot hR P g T, fun s k hk P g T hT => c0_dc0_dc1.units s k hk P g T hT, fun l d T g pts h1 h2 => ?_⟩
    simp [computeWwaypoints, h1, h2]
  · refine ⟨c0_dc0_dc1_c1.computeWwaypoints, fun P g T => by simp [c0_dc0_dc1_c1.computeWwaypoints],
      fun R hR P g T => c0_dc0_dc1_c1.rot hR P g T, fun s k hk P g T hT => c0_dc0_dc1_c1.units s k hk P g T hT,
      fun l d T g pts h1 h2 => ?_⟩
    simp [computeWwaypoints, h1, h2]
  · refine ⟨c0_dc0_ddc0.computeWwaypoints, fun P g T => by simp [c0_dc0_ddc0.computeWwaypoints],
      fun R hR P g T => c0_dc0_ddc0.rot hR P g T, fun s k hk P g T hT => c0_dc0_ddc0.units s k hk P g T hT,
      fun l d T g pts h1 h2 => ?_⟩
    simp [computeWwaypoints, h1, h2]
  · refine ⟨c0_dc0_ddc0_c1.computeWwaypoints, fun P g T => by simp [c0_dc0_ddc0_c1.computeWwaypoints],
      fun R hR P g T => c0_dc0_ddc0_c1.rot hR P g T, fun s k hk P g T hT => c0_dc0_ddc0_c1.units s k hk P g T hT,
      fun l d T g pts h1 h2 => ?_⟩
    simp [computeWwaypoints, h1, h2]
  · refine ⟨c0_dc0_ddc0_dc1_c1.computeWwaypoints, fun P g T => by simp [c0_dc0_ddc0_dc1_c1.computeWwaypoints],
      fun R hR P g T => c0_dc0_ddc0_dc1_c1.rot hR P g T, fun s k hk P g T hT => c0_dc0_ddc0_dc1_c1.units s k hk P g T hT,
      fun l d T g pts h1 h2 => ?_⟩
    simp [computeWwaypoints, h1, h2]
  · refine ⟨c0_dc0_ddc0_ddc1_dc1_c1.computeWwaypoints, fun P g T => by simp [c0_dc0_ddc0_ddc1_dc1_c1.computeWwaypoints],
      fun R hR P g T => c0_dc0_ddc0_ddc1_dc1_c1.rot hR P g T, fun s k hk P g T hT => c0_dc0_ddc0_ddc1_dc1_c1.units s k hk P g T hT,
      fun l d T g pts h1 h2 => ?_⟩
    simp [computeWwaypoints, h1, h2]

theorem curves_linear {ws ws' : List Wp6} {r : Wp6 → Wp6 → Prop} (h : List.Forall₂ r ws ws') (hne : ws ≠ []) (x x' : V3)
    (L L' : V3 →ₗ[ℝ] V3) (h1 : ∀ w w', r w w' → w'.headAt x' = L (w.headAt x)) (h2 : ∀ w w', r w w' → w'.tailAt x' = L' (w.tailAt x))
    (t : ℝ) : headCurve ws' x' t = L (headCurve ws x t) ∧ tailCurve ws' x' t = L' (tailCurve ws x t) := by
  obtain ⟨hl, H⟩ := List.forall₂_iff_get.mp h
  have hp := List.length_pos_iff.mpr hne
  have key : ∀ i ≤ ws.length - 1, r ws[i]! ws'[i]! := by
    intro i hi
    have := H i (by omega) (by omega)
    rw [getElem!_pos ws i (by omega), getElem!_pos ws' i (by omega)]
    exact this
  unfold headCurve tailCurve
  rw [← hl, bez_map, bez_map]
  exact ⟨bez_congr fun i hi => h1 _ _ (key i hi), bez_congr fun i hi => h2 _ _ (key i hi)⟩

/-! ## The plan of a system -/

/-- The cheapest solution of the system of a call is unique. -/
theorem sys_unique (d : ProblemData) (Ts : List ℝ) (g : V3) (h : Accepted d Ts g) (l : TTime) (hl : Discretisation Ts l)
    (hc : d.costFunction = DISTANCE_TRAVELED ∨ d.costFunction = ACCELERATION ∧ d.flag ≠ 63#32) (A b : Mat)
    (x c v a x' c' v' a') (hm : Motion d Ts.sum x c v a) (hm' : Motion d Ts.sum x' c' v' a')
    (s1 : Sat A b (ext3 x)) (s2 : Sat A b (ext3 x'))
    (hmin : ∀ y cy vy ay, Motion d Ts.sum y cy vy ay → Sat A b (ext3 y) → motionCost d l x a ≤ motionCost d l y ay)
    (hmin' : ∀ y cy vy ay, Motion d Ts.sum y cy vy ay → Sat A b (ext3 y) → motionCost d l x' a' ≤ motionCost d l y ay) :
    x' = x := by
  obtain ⟨k, R, hk, hsc⟩ := C56_coded_scale_exists d Ts g h l hl hc
  obtain ⟨pts, hpts⟩ := C01_answers d.flag h.flag d.bc Ts.sum h.capt
  obtain ⟨v'', a'', hm''⟩ := motion_exists d Ts.sum pts hpts h.flag h.total.ne' ((1 / 2 : ℝ) • (x + x'))
  have hmid : Sat A b (ext3 ((1 / 2 : ℝ) • (x + x'))) := by
    intro r hr
    have e : ∑ q ∈ Finset.range A.cols, A.e r q * ext3 ((1 / 2 : ℝ) • (x + x')) q
        = 1 / 2 * ∑ q ∈ Finset.range A.cols, A.e r q * ext3 x q + 1 / 2 * ∑ q ∈ Finset.range A.cols, A.e r q * ext3 x' q := by
      rw [Finset.mul_sum, Finset.mul_sum, ← Finset.sum_add_distrib]
      refine Finset.sum_congr rfl fun q _ => ?_
      unfold ext3
      split_ifs
      · simp only [Pi.smul_apply, Pi.add_apply, smul_eq_mul]; ring
      · ring
    rw [e]
    have := s1 r hr
    have := s2 r hr
    linarith
  have c1 := hmin _ _ _ _ hm'' hmid
  have c2 := hmin' _ _ _ _ hm'' hmid
  have c3 := hsc.curv _ _ _ _ _ _ _ _ _ _ _ hm hm' hm''
  have c4 : dot (x - x') (x - x') ≤ 0 := by
    by_contra hn
    push Not at hn
    nlinarith [mul_pos hk hn]
  have := dot_self_zero' _ (le_antisymm c4 (dot_self_nonneg' _))
  exact (sub_eq_zero.mp this).symm

/-! ## Other axes -/

theorem rotated_row_any {R : V3 ≃ₗ[ℝ] V3} (hR : Rotation R) (m s μ ρ k : ℝ) (hs : 0 < s) (hμ : 0 < μ) (u v f τ : V3)
    (h : WrenchRowOk m ρ ((u, v), k) (m • f) (m • τ)) :
    WrenchRowOk (s * m) ρ ((μ • R u, μ • R v), k) ((s * m) • R f) ((s * m) • R τ) := by
  unfold WrenchRowOk at h ⊢
  dsimp only at h ⊢
  simp only [dot_smul_smul, hR.dot]
  have e1 : dot u (m • f) = m * dot u f := by simpa using dot_smul_smul 1 m u f
  have e2 : dot v (m • τ) = m * dot v τ := by simpa using dot_smul_smul 1 m v τ
  rw [e1, e2] at h
  have e3 : Real.sqrt (μ * μ * dot u u + μ * μ * dot v v) = μ * Real.sqrt (dot u u + dot v v) := by
    rw [← mul_add, Real.sqrt_mul (mul_self_nonneg μ), Real.sqrt_mul_self hμ.le]
  rw [e3, abs_mul, abs_of_pos hs]
  have := mul_le_mul_of_nonneg_left h (mul_pos hμ hs).le
  linarith [this]

theorem RotatedEquilibrium.wrenchAny {R : V3 ≃ₗ[ℝ] V3} (hR : Rotation R) {e e' : Equilibrium} (h : RotatedEquilibrium R e e')
    {ρ : ℝ} {f τ : V3} (hw : WrenchOk e ρ (e.mass • f) (e.mass • τ)) : WrenchOk e' ρ (e'.mass • R f) (e'.mass • R τ) := by
  obtain ⟨s, hs, hm⟩ := h.mass
  intro r' hr'
  obtain ⟨i, hi⟩ := List.mem_iff_getElem?.mp hr'
  obtain ⟨hl, H⟩ := List.forall₂_iff_get.mp h.poly
  obtain ⟨hi', hri⟩ := List.getElem?_eq_some_iff.mp hi
  obtain ⟨h1, μ, hμ, h2⟩ := H i (by omega) hi'
  simp only [List.get_eq_getElem, hri] at h1 h2
  have := rotated_row_any hR e.mass s μ ρ _ hs hμ _ _ _ _ (hw _ (List.getElem_mem (by omega : i < e.poly.length)))
  rw [hm]
  obtain ⟨⟨u', v'⟩, k'⟩ := r'
  simp only at h1 h2
  rw [h1, h2]
  exact this

/-- The system in the other axes has the turned solutions. -/
theorem RotatedProblem.sat {R : V3 ≃ₗ[ℝ] V3} (hR : Rotation R) {d d' : ProblemData} (hm : RotatedProblem R d d') {Ts : List ℝ}
    {g : V3} (h : Accepted d Ts g) (hAcc : d.constraintAcceleration = false) {l : TTime} (hl : Discretisation Ts l)
    {A b A' b' : Mat} (hA : computeConstraintsOneStep d Ts.length Ts.sum l = .ok (A, b))
    (hA' : computeConstraintsOneStep d' Ts.length Ts.sum l = .ok (A', b')) (x : V3) (hx : Sat A b (ext3 x)) :
    Sat A' b' (ext3 (R x)) := by
  have h' := hm.accepted h
  obtain ⟨pts, ws, hpts, hws, H⟩ := C19_meaning d Ts _ h l hl A b hA
  obtain ⟨pts', ws', hpts', hws', H'⟩ := C19_meaning d' Ts _ h' l hl A' b' hA'
  obtain ⟨F, hne, hrot, -, hF⟩ := wps_pts d.flag h.flag
  have e1 := pts_rotate d.flag h.flag d.bc Ts.sum R pts hpts
  rw [hF _ _ _ _ _ hpts h.front] at hws
  cases hws
  rw [hm.flag, hm.bc] at hpts' hws'
  rw [hF _ _ _ _ _ e1 h'.front, nth_map R (map_zero R)] at hws'
  cases hws'
  obtain ⟨v, a, hv, ha, hi⟩ := H x
  obtain ⟨v', a', hv', ha', hi'⟩ := H' (R x)
  obtain ⟨m1, -⟩ := hi.mp hx
  refine hi'.mpr ⟨fun t i hti => ?_, fun q => absurd q (by rw [hm.acc, hAcc]; simp)⟩
  obtain ⟨ct, e, h1, h2, h3, h4⟩ := m1 t i hti
  obtain ⟨hlen, HH⟩ := List.forall₂_iff_get.mp hm.contacts
  obtain ⟨hi2, rfl⟩ := List.getElem?_eq_some_iff.mp h1
  have hct := HH i hi2 (by omega)
  obtain ⟨e1', e', he, he', hme⟩ := hct.phase
  simp only [List.get_eq_getElem] at he hct
  rw [h2] at he
  cases he
  refine ⟨_, e', List.getElem?_eq_getElem (by omega), he', ?_, ?_⟩
  · obtain ⟨c1, c2⟩ := curves_linear (hrot R hR (nth pts) g Ts.sum) (hne _ _ _) x (R x) R.toLinearMap R.toLinearMap
      (fun w w' q => q.headAt x) (fun w w' q => q.tailAt x) (t / Ts.sum)
    rw [c1, c2, hm.margin]
    have := hme.wrenchAny hR h3
    rw [map_sub, map_neg] at this
    exact this
  · rw [hm.flag, curve_rotate d.flag h.flag d.bc Ts.sum R x pts pts' hpts hpts' t]
    exact hct.kinOk hR h4

/-- Systems whose solutions are turned give turned plans. -/
theorem RotatedProblem.ofSat {R : V3 ≃ₗ[ℝ] V3} (hR : Rotation R) {d d' : ProblemData} (hm : RotatedProblem R d d')
    {Ts : List ℝ} {g : V3} (h : Accepted d Ts g) {l : TTime} (hl : Discretisation Ts l)
    (hc : d.costFunction = DISTANCE_TRAVELED ∨ d.costFunction = ACCELERATION ∧ d.flag ≠ 63#32)
    {A b A' b' : Mat} (forth : ∀ x, Sat A b (ext3 x) → Sat A' b' (ext3 (R x)))
    (back : ∀ x, Sat A' b' (ext3 x) → Sat A b (ext3 (R.symm x)))
    {lim lim' : Prop} (h1 : ¬ lim) (h2 : ¬ lim') {res res' : ResultDataCOMTraj} (hv : SysVerdict d Ts.sum l A b lim res)
    (hv' : SysVerdict d' Ts.sum l A' b' lim' res') : RotatedResult R res res' := by
  have ha' := hm.accepted h
  have hsucc : res'.success = res.success := by
    cases hr : res.success with
    | true =>
      by_contra hn
      rw [Bool.not_eq_true] at hn
      exact ((hv'.none hn).resolve_left h2) _ (forth _ (hv.found hr).1)
    | false =>
      by_contra hn
      rw [Bool.not_eq_false] at hn
      exact ((hv.none hr).resolve_left h1) _ (back _ (hv'.found hn).1)
  have main : res.success = true → res'.point = R res.point ∧ ∀ t, res'.c_of_t.eval t = R (res.c_of_t.eval t) := by
    intro hr
    obtain ⟨q2, v, a, q1, q3⟩ := hv.found hr
    obtain ⟨r2, v', a', r1, r3⟩ := hv'.found (hsucc.trans hr)
    have b1 := hm.inv.motion ha'.flag ha'.capt r1
    have hx : R.symm res'.point = res.point := by
      refine sys_unique d Ts g h l hl hc A b _ _ _ _ _ _ _ _ q1 b1 q2 (back _ r2) q3 fun y cy vy ay y1 y2 => ?_
      have := r3 _ _ _ _ (hm.motion h.flag h.capt y1) (forth _ y2)
      rw [hm.motionCost hR] at this
      rw [hm.inv.motionCost hR.inv]
      exact this
    refine ⟨by rw [← hx]; simp, fun t => ?_⟩
    rw [hx] at b1
    have := congrFun (motion_unique q1 b1).1 t
    rw [← this]
    simp
  exact ⟨hsucc, fun hr => (main hr).1, fun hr => (main hr).2⟩

theorem RotatedProblem.sysVerdict {R : V3 ≃ₗ[ℝ] V3} (hR : Rotation R) {d d' : ProblemData} (hm : RotatedProblem R d d')
    {Ts : List ℝ} {g : V3} (h : Accepted d Ts g) (hAcc : d.constraintAcceleration = false) {l : TTime} (hl : Discretisation Ts l)
    (hc : d.costFunction = DISTANCE_TRAVELED ∨ d.costFunction = ACCELERATION ∧ d.flag ≠ 63#32)
    {A b A' b' : Mat} (hA : computeConstraintsOneStep d Ts.length Ts.sum l = .ok (A, b))
    (hA' : computeConstraintsOneStep d' Ts.length Ts.sum l = .ok (A', b'))
    {lim lim' : Prop} (h1 : ¬ lim) (h2 : ¬ lim') {res res' : ResultDataCOMTraj} (hv : SysVerdict d Ts.sum l A b lim res)
    (hv' : SysVerdict d' Ts.sum l A' b' lim' res') : RotatedResult R res res' :=
  hm.ofSat hR h hl hc (hm.sat hR h hAcc hl hA hA')
    (hm.inv.sat hR.inv (hm.accepted h) (hm.acc.trans hAcc) hl hA' hA) h1 h2 hv hv'

/-- C109, `computeCOMTrajFixedSize`, all seven constraint sets. In exact arithmetic and without a bound on the acceleration the
plan does not depend on the axes of the frame, on the mass, or on the scale of the rows, whatever the margin. -/
theorem C109_all_fixedSize (lib : Lib) (hL : LibOk lib) (he : lib.eps = 0) (R : V3 ≃ₗ[ℝ] V3) (hR : Rotation R)
    (d d' : ProblemData) (hm : RotatedProblem R d d') (Ts : List ℝ) (g : V3) (h : Accepted d Ts g)
    (hr : d.representation = DOUBLE_DESCRIPTION) (hAcc : d.constraintAcceleration = false) (n : ℕ) (hn : 0 < n)
    (hc : d.costFunction = DISTANCE_TRAVELED ∨ d.costFunction = ACCELERATION ∧ d.flag ≠ 63#32)
    (hlim : ∀ q ∈ [d, d'], ∀ A b, computeConstraintsOneStep q Ts.length Ts.sum (computeDiscretizedTimeFixed Ts n) = .ok (A, b) →
      2 ^ A.rows < lib.maxIter) :
    ∃ res res' N, (∀ fuel ≥ N, computeCOMTrajFixedSize lib fuel d Ts n = .ok res) ∧
      (∀ fuel ≥ N, computeCOMTrajFixedSize lib fuel d' Ts n = .ok res') ∧ RotatedResult R res res' := by
  have h' := hm.accepted h
  obtain ⟨A, b, res, N, hA, hrun, hv⟩ := fixed_sys lib hL he d Ts g h hr n hn hc
  obtain ⟨A', b', res', N', hA', hrun', hv'⟩ := fixed_sys lib hL he d' Ts _ h' (hm.repr.trans hr) n hn
    (by rw [hm.cost, hm.flag]; exact hc)
  exact ⟨res, res', max N N', fun fuel hfuel => hrun fuel (le_trans (le_max_left _ _) hfuel),
    fun fuel hfuel => hrun' fuel (le_trans (le_max_right _ _) hfuel),
    hm.sysVerdict hR h hAcc (Or.inl ⟨n, hn, rfl⟩) hc hA hA' (not_le.mpr (hlim d (by simp) A b hA))
      (not_le.mpr (hlim d' (by simp) A' b' hA')) hv hv'⟩

/-- C109, `computeCOMTraj` with a time step at most half of every phase, all seven constraint sets. -/
theorem C109_all_timeStep (κ : ℝ) (lib : Lib) (hL : LibOk lib) (he : lib.eps = 0) (R : V3 ≃ₗ[ℝ] V3) (hR : Rotation R)
    (d d' : ProblemData) (hm : RotatedProblem R d d') (Ts : List ℝ) (g : V3) (h : Accepted d Ts g)
    (hr : d.representation = DOUBLE_DESCRIPTION) (hAcc : d.constraintAcceleration = false) (step : ℝ) (hstep : 0 < step)
    (hshort : ∀ T ∈ Ts, step * 2 ≤ T)
    (hc : d.costFunction = DISTANCE_TRAVELED ∨ d.costFunction = ACCELERATION ∧ d.flag ≠ 63#32)
    (hlim : ∀ q ∈ [d, d'], ∀ A b, computeConstraintsOneStep q Ts.length Ts.sum (allSamples step Ts 0 0) = .ok (A, b) →
      2 ^ A.rows < lib.maxIter) :
    ∃ res res' N, (∀ fuel ≥ N, computeCOMTraj κ lib fuel d Ts step SOLVER_QUADPROG = .ok res) ∧
      (∀ fuel ≥ N, computeCOMTraj κ lib fuel d' Ts step SOLVER_QUADPROG = .ok res') ∧ RotatedResult R res res' := by
  have h' := hm.accepted h
  obtain ⟨A, b, res, N, hl, hA, hrun, hv⟩ := step_sys κ lib hL he d Ts g h hr step hstep hshort hc
  obtain ⟨A', b', res', N', -, hA', hrun', hv'⟩ := step_sys κ lib hL he d' Ts _ h' (hm.repr.trans hr) step hstep hshort
    (by rw [hm.cost, hm.flag]; exact hc)
  exact ⟨res, res', max N N', fun fuel hfuel => hrun fuel (le_trans (le_max_left _ _) hfuel),
    fun fuel hfuel => hrun' fuel (le_trans (le_max_right _ _) hfuel),
    hm.sysVerdict hR h hAcc hl hc hA hA' (not_le.mpr (hlim d (by simp) A b hA))
      (not_le.mpr (hlim d' (by simp) A' b' hA')) hv hv'⟩

/-! ## Other units -/

theorem units_row_any {s k ρ ρ' m μ : ℝ} {u v f τ : V3} {b b' : ℝ} (hs : 0 < s) (hk : 0 < k) (hμ : 0 < μ)
    (he : (b' - max ρ' 0) * rowNorm (μ • s • u, μ • v) = μ * (s ^ 2 / k ^ 2) * ((b - max ρ 0) * rowNorm (u, v)))
    (h : WrenchRowOk m ρ ((u, v), b) (m • f) (m • τ)) :
    WrenchRowOk m ρ' ((μ • s • u, μ • v), b') (m • (s / k ^ 2) • f) (m • (s ^ 2 / k ^ 2) • τ) := by
  unfold WrenchRowOk at h ⊢
  unfold rowNorm at he
  dsimp only at h he ⊢
  have e1 : dot (μ • s • u) (m • (s / k ^ 2) • f) = μ * (s ^ 2 / k ^ 2) * dot u (m • f) := by
    simp [dot]
    ring
  have e2 : dot (μ • v) (m • (s ^ 2 / k ^ 2) • τ) = μ * (s ^ 2 / k ^ 2) * dot v (m • τ) := by
    simp [dot]
    ring
  rw [e1, e2]
  have h3 := mul_le_mul_of_nonneg_left h (by positivity : 0 ≤ μ * (s ^ 2 / k ^ 2))
  have h4 : (b' - max ρ' 0) * (|m| * Real.sqrt (dot (μ • s • u) (μ • s • u) + dot (μ • v) (μ • v)))
      = μ * (s ^ 2 / k ^ 2) * ((b - max ρ 0) * (|m| * Real.sqrt (dot u u + dot v v))) := by
    linear_combination |m| * he
  rw [h4]
  linarith

theorem UnitsEquilibrium.wrenchAny {s k ρ ρ' : ℝ} (hs : 0 < s) (hk : 0 < k) {e e' : Equilibrium}
    (h : UnitsEquilibrium s k ρ ρ' e e') {f τ : V3} (hw : WrenchOk e ρ (e.mass • f) (e.mass • τ)) :
    WrenchOk e' ρ' (e'.mass • (s / k ^ 2) • f) (e'.mass • (s ^ 2 / k ^ 2) • τ) := by
  intro r' hr'
  obtain ⟨i, hi⟩ := List.mem_iff_getElem?.mp hr'
  obtain ⟨hl, H⟩ := List.forall₂_iff_get.mp h.poly
  obtain ⟨hi', hri⟩ := List.getElem?_eq_some_iff.mp hi
  obtain ⟨μ, hμ, h1, h2⟩ := H i (by omega) hi'
  simp only [List.get_eq_getElem, hri] at h1 h2
  rw [h.mass]
  obtain ⟨⟨u', v'⟩, b'⟩ := r'
  simp only at h1 h2
  rw [h1] at h2 ⊢
  exact units_row_any hs hk hμ h2 (hw _ (List.getElem_mem (by omega : i < e.poly.length)))

/-- The system in the other units has the converted solutions. -/
theorem UnitsProblem.sat {s k : ℝ} (hs : 0 < s) (hk : 0 < k) {d d' : ProblemData} (hm : UnitsProblem s k d d') {Ts : List ℝ}
    {g : V3} (h : Accepted d Ts g) {l : TTime} (hl : Discretisation Ts l)
    (hl' : Discretisation (Ts.map (k * ·)) (TTime.units k l)) {A b A' b' : Mat}
    (hA : computeConstraintsOneStep d Ts.length Ts.sum l = .ok (A, b))
    (hA' : computeConstraintsOneStep d' (Ts.map (k * ·)).length (Ts.map (k * ·)).sum (TTime.units k l) = .ok (A', b'))
    (x : V3) (hx : Sat A b (ext3 x)) : Sat A' b' (ext3 (s • x)) := by
  have h' := hm.accepted hs hk h
  obtain ⟨pts, ws, hpts, hws, H⟩ := C19_meaning d Ts _ h l hl A b hA
  obtain ⟨pts', ws', hpts', hws', H'⟩ := C19_meaning d' _ _ h' _ hl' A' b' hA'
  rw [units_sum] at hpts' hws' H'
  obtain ⟨F, hne, -, hun, hF⟩ := wps_pts d.flag h.flag
  have e1 := pts_units d.flag h.flag d.bc Ts.sum (s := s) hk h.total pts hpts
  rw [hF _ _ _ _ _ hpts h.front] at hws
  cases hws
  rw [hm.flag, hm.bc] at hws'
  rw [hF _ _ _ _ _ e1 h'.front, nth_map (s • ·) (smul_zero s)] at hws'
  cases hws'
  obtain ⟨v, a, hv, ha, hi⟩ := H x
  obtain ⟨v', a', hv', ha', hi'⟩ := H' (s • x)
  obtain ⟨m1, m2⟩ := hi.mp hx
  obtain ⟨u1, u2, u3⟩ := motion_unique (pData := d') ⟨pts', hpts', rfl, hv', ha'⟩
    (hm.motion hk h.flag h.capt ⟨pts, hpts, rfl, hv, ha⟩)
  refine hi'.mpr ⟨fun t i hti => ?_, fun hAc q' hq' j => ?_⟩
  · obtain ⟨ct, e, h1, h2, h3, h4⟩ := m1 (t / k) i ((constrained_units hk l t i).mp hti)
    obtain ⟨hlen, HH⟩ := List.forall₂_iff_get.mp hm.contacts
    obtain ⟨hi2, rfl⟩ := List.getElem?_eq_some_iff.mp h1
    have hct := HH i hi2 (by omega)
    obtain ⟨e1', e', he, he', hme⟩ := hct.phase
    simp only [List.get_eq_getElem] at he hct
    rw [h2] at he
    cases he
    refine ⟨_, e', List.getElem?_eq_getElem (by omega), he', ?_, ?_⟩
    · obtain ⟨c1, c2⟩ := curves_linear (hun s k hk (nth pts) g Ts.sum h.total) (hne _ _ _) x (s • x)
        ((s / k ^ 2) • LinearMap.id) ((s ^ 2 / k ^ 2) • LinearMap.id)
        (fun w w' q => by simpa using q.headAt x) (fun w w' q => by simpa using q.tailAt x) (t / k / Ts.sum)
      have e2 : t / (k * Ts.sum) = t / k / Ts.sum := by rw [div_div]
      rw [e2, c1, c2]
      have := hme.wrenchAny hs hk h3
      rw [smul_sub, smul_neg] at this
      simpa using this
    · have := hct.kinOk hs h4
      rw [← u1]
      exact this
  · obtain ⟨q, hq, rfl⟩ := List.mem_map.mp hq'
    have := m2 (hm.acc ▸ hAc) q hq j
    have hp : 0 < s / k ^ 2 := by positivity
    rw [← u3]
    simp only [Pi.smul_apply, smul_eq_mul, mul_div_cancel_left₀ _ hk.ne']
    rw [abs_mul, abs_of_pos hp, hm.maxAcc]
    exact mul_le_mul_of_nonneg_left this hp.le

/-- Systems whose solutions are converted give converted plans. -/
theorem UnitsProblem.ofSat {s k : ℝ} (hs : 0 < s) (hk : 0 < k) {d d' : ProblemData} (hm : UnitsProblem s k d d')
    {Ts : List ℝ} {g : V3} (h : Accepted d Ts g) {l : TTime} (hl : Discretisation Ts l)
    (hc : d.costFunction = DISTANCE_TRAVELED ∨ d.costFunction = ACCELERATION ∧ d.flag ≠ 63#32)
    {A b A' b' : Mat} (forth : ∀ x, Sat A b (ext3 x) → Sat A' b' (ext3 (s • x)))
    (back : ∀ y, Sat A' b' (ext3 y) → Sat A b (ext3 (s⁻¹ • y)))
    {lim lim' : Prop} (h1 : ¬ lim) (h2 : ¬ lim') {res res' : ResultDataCOMTraj} (hv : SysVerdict d Ts.sum l A b lim res)
    (hv' : SysVerdict d' (Ts.map (k * ·)).sum (TTime.units k l) A' b' lim' res') : UnitsResult s k res res' := by
  have ha' := hm.accepted hs hk h
  have hsi := inv_pos.mpr hs
  have hki := inv_pos.mpr hk
  rw [units_sum] at hv'
  have backM : ∀ y cy vy ay, Motion d' (k * Ts.sum) y cy vy ay →
      Motion d Ts.sum (s⁻¹ • y) (fun t => s⁻¹ • cy (t / k⁻¹)) (fun t => (s⁻¹ / k⁻¹) • vy (t / k⁻¹))
        (fun t => (s⁻¹ / k⁻¹ ^ 2) • ay (t / k⁻¹)) := by
    intro y cy vy ay y1
    have q1 := (hm.inv hs hk).motion hki ha'.flag ha'.capt y1
    rwa [inv_mul_cancel_left₀ hk.ne'] at q1
  have hsucc : res'.success = res.success := by
    cases hr : res.success with
    | true =>
      by_contra hn
      rw [Bool.not_eq_true] at hn
      exact ((hv'.none hn).resolve_left h2) _ (forth _ (hv.found hr).1)
    | false =>
      by_contra hn
      rw [Bool.not_eq_false] at hn
      exact ((hv.none hr).resolve_left h1) _ (back _ (hv'.found hn).1)
  have main : res.success = true → res'.point = s • res.point ∧ ∀ t, res'.c_of_t.eval (k * t) = s • res.c_of_t.eval t := by
    intro hr
    obtain ⟨q2, v, a, q1, q3⟩ := hv.found hr
    obtain ⟨r2, v', a', r1, r3⟩ := hv'.found (hsucc.trans hr)
    have b1 := backM _ _ _ _ r1
    obtain ⟨w', hw', hcost'⟩ := (hm.inv hs hk).motionCost hsi hki
    have hx : s⁻¹ • res'.point = res.point := by
      refine sys_unique d Ts g h l hl hc A b _ _ _ _ _ _ _ _ q1 b1 q2 (back _ r2) q3 fun y cy vy ay y1 y2 => ?_
      have m1 := r3 _ _ _ _ (hm.motion hk h.flag h.capt y1) (forth _ y2)
      have m2 := hcost' (TTime.units k l) res'.point a'
      have m3 := hcost' (TTime.units k l) (s • y) (fun t => (s / k ^ 2) • ay (t / k))
      rw [units_units hk] at m2 m3
      rw [m2]
      have e : (fun t => (s⁻¹ / k⁻¹ ^ 2) • (s / k ^ 2) • ay (t / k⁻¹ / k)) = ay := by
        funext t
        have e1 : s⁻¹ / k⁻¹ ^ 2 * (s / k ^ 2) = 1 := by field_simp
        have e2 : t / k⁻¹ / k = t := by field_simp
        rw [smul_smul, e1, e2, one_smul]
      have e' : s⁻¹ • s • y = y := by rw [smul_smul, inv_mul_cancel₀ hs.ne', one_smul]
      rw [e, e'] at m3
      rw [m3]
      exact mul_le_mul_of_nonneg_left m1 hw'.le
    refine ⟨by rw [← hx, smul_smul, mul_inv_cancel₀ hs.ne', one_smul], fun t => ?_⟩
    rw [hx] at b1
    have := congrFun (motion_unique q1 b1).1 t
    rw [← this, smul_smul, mul_inv_cancel₀ hs.ne', one_smul]
    congr 1
    field_simp
  exact ⟨hsucc, fun hr => (main hr).1, fun hr => (main hr).2⟩

theorem units_times {k : ℝ} (hk : 0 < k) (Ts : List ℝ) : (Ts.map (k * ·)).map (k⁻¹ * ·) = Ts := by
  rw [List.map_map]
  conv_rhs => rw [← List.map_id Ts]
  refine List.map_congr_left fun q _ => ?_
  simp [hk.ne']

theorem UnitsProblem.sysVerdict {s k : ℝ} (hs : 0 < s) (hk : 0 < k) {d d' : ProblemData} (hm : UnitsProblem s k d d')
    {Ts : List ℝ} {g : V3} (h : Accepted d Ts g) {l : TTime} (hl : Discretisation Ts l)
    (hl' : Discretisation (Ts.map (k * ·)) (TTime.units k l))
    (hc : d.costFunction = DISTANCE_TRAVELED ∨ d.costFunction = ACCELERATION ∧ d.flag ≠ 63#32)
    {A b A' b' : Mat} (hA : computeConstraintsOneStep d Ts.length Ts.sum l = .ok (A, b))
    (hA' : computeConstraintsOneStep d' (Ts.map (k * ·)).length (Ts.map (k * ·)).sum (TTime.units k l) = .ok (A', b'))
    {lim lim' : Prop} (h1 : ¬ lim) (h2 : ¬ lim') {res res' : ResultDataCOMTraj} (hv : SysVerdict d Ts.sum l A b lim res)
    (hv' : SysVerdict d' (Ts.map (k * ·)).sum (TTime.units k l) A' b' lim' res') : UnitsResult s k res res' := by
  refine hm.ofSat hs hk h hl hc (hm.sat hs hk h hl hl' hA hA') (fun y hy => ?_) h1 h2 hv hv'
  refine (hm.inv hs hk).sat (inv_pos.mpr hs) (inv_pos.mpr hk) (hm.accepted hs hk h) hl' ?_ hA' ?_ y hy
  · rw [units_times hk, units_units hk]
    exact hl
  · rw [units_times hk, units_units hk]
    exact hA

/-- C112, `computeCOMTrajFixedSize`, all seven constraint sets. The plan does not depend on the units of length and time. -/
theorem C112_all_fixedSize (lib : Lib) (hL : LibOk lib) (he : lib.eps = 0) (s k : ℝ) (hs : 0 < s) (hk : 0 < k)
    (d d' : ProblemData) (hm : UnitsProblem s k d d') (Ts : List ℝ) (g : V3) (h : Accepted d Ts g)
    (hr : d.representation = DOUBLE_DESCRIPTION) (n : ℕ) (hn : 0 < n)
    (hc : d.costFunction = DISTANCE_TRAVELED ∨ d.costFunction = ACCELERATION ∧ d.flag ≠ 63#32)
    (hlim : ∀ q ∈ [(d, Ts), (d', Ts.map (k * ·))], ∀ A b,
      computeConstraintsOneStep q.1 q.2.length q.2.sum (computeDiscretizedTimeFixed q.2 n) = .ok (A, b) → 2 ^ A.rows < lib.maxIter) :
    ∃ res res' N, (∀ fuel ≥ N, computeCOMTrajFixedSize lib fuel d Ts n = .ok res) ∧
      (∀ fuel ≥ N, computeCOMTrajFixedSize lib fuel d' (Ts.map (k * ·)) n = .ok res') ∧ UnitsResult s k res res' := by
  have h' := hm.accepted hs hk h
  obtain ⟨A, b, res, N, hA, hrun, hv⟩ := fixed_sys lib hL he d Ts g h hr n hn hc
  obtain ⟨A', b', res', N', hA', hrun', hv'⟩ := fixed_sys lib hL he d' _ _ h' (hm.repr.trans hr) n hn
    (by rw [hm.cost, hm.flag]; exact hc)
  have n1 := hlim (d, Ts) (by simp) A b hA
  have n2 := hlim (d', Ts.map (k * ·)) (by simp) A' b' hA'
  have hl' : Discretisation (Ts.map (k * ·)) (computeDiscretizedTimeFixed (Ts.map (k * ·)) n) := Or.inl ⟨n, hn, rfl⟩
  rw [fixed_units] at hv' hA' hl'
  exact ⟨res, res', max N N', fun fuel hfuel => hrun fuel (le_trans (le_max_left _ _) hfuel),
    fun fuel hfuel => hrun' fuel (le_trans (le_max_right _ _) hfuel),
    hm.sysVerdict hs hk h (Or.inl ⟨n, hn, rfl⟩) hl' hc hA hA' (not_le.mpr n1) (not_le.mpr n2) hv hv'⟩

/-- C112, `computeCOMTraj` with a time step at most half of every phase, all seven constraint sets. -/
theorem C112_all_timeStep (κ κ' : ℝ) (lib : Lib) (hL : LibOk lib) (he : lib.eps = 0) (s k : ℝ) (hs : 0 < s) (hk : 0 < k)
    (d d' : ProblemData) (hm : UnitsProblem s k d d') (Ts : List ℝ) (g : V3) (h : Accepted d Ts g)
    (hr : d.representation = DOUBLE_DESCRIPTION) (step : ℝ) (hstep : 0 < step) (hshort : ∀ T ∈ Ts, step * 2 ≤ T)
    (hc : d.costFunction = DISTANCE_TRAVELED ∨ d.costFunction = ACCELERATION ∧ d.flag ≠ 63#32)
    (hlim : ∀ q ∈ [(d, Ts, step), (d', Ts.map (k * ·), k * step)], ∀ A b,
      computeConstraintsOneStep q.1 q.2.1.length q.2.1.sum (allSamples q.2.2 q.2.1 0 0) = .ok (A, b) → 2 ^ A.rows < lib.maxIter) :
    ∃ res res' N, (∀ fuel ≥ N, computeCOMTraj κ lib fuel d Ts step SOLVER_QUADPROG = .ok res) ∧
      (∀ fuel ≥ N, computeCOMTraj κ' lib fuel d' (Ts.map (k * ·)) (k * step) SOLVER_QUADPROG = .ok res') ∧
      UnitsResult s k res res' := by
  have h' := hm.accepted hs hk h
  obtain ⟨A, b, res, N, hl, hA, hrun, hv⟩ := step_sys κ lib hL he d Ts g h hr step hstep hshort hc
  obtain ⟨A', b', res', N', hl', hA', hrun', hv'⟩ := step_sys κ' lib hL he d' _ _ h' (hm.repr.trans hr) (k * step)
    (mul_pos hk hstep) (by
      intro T' hT'
      obtain ⟨T, hT, rfl⟩ := List.mem_map.mp hT'
      have := mul_le_mul_of_nonneg_left (hshort T hT) hk.le
      linarith) (by rw [hm.cost, hm.flag]; exact hc)
  have n1 := hlim (d, Ts, step) (by simp) A b hA
  have n2 := hlim (d', Ts.map (k * ·), k * step) (by simp) A' b' hA'
  have e := allSamples_units hk step Ts 0 0
  rw [mul_zero] at e
  rw [e] at hv' hA' hl'
  exact ⟨res, res', max N N', fun fuel hfuel => hrun fuel (le_trans (le_max_left _ _) hfuel),
    fun fuel hfuel => hrun' fuel (le_trans (le_max_right _ _) hfuel),
    hm.sysVerdict hs hk h hl hl' hc hA hA' (not_le.mpr n1) (not_le.mpr n2) hv hv'⟩

/-! ## Examples with six conditions -/

/-- A non-trivial case of C112 with the set `c0_dc0_ddc0_ddc1_dc1_c1`: both calls succeed, in any units and for any margin of
the second problem. -/
theorem sixPhases_units (s k ρ' : ℝ) (hs : 0 < s) (hk : 0 < k) (n : ℕ) (hn : 0 < n) : ∃ M, ∀ maxIter > M, ∃ res res' N,
    (∀ fuel ≥ N, computeCOMTrajFixedSize (exactLib maxIter) fuel sixPhases [1, 2] n = .ok res) ∧
    (∀ fuel ≥ N, computeCOMTrajFixedSize (exactLib maxIter) fuel (sixPhases.units s k ρ') [k * 1, k * 2] n = .ok res') ∧
    res.success = true ∧ res'.success = true ∧ res'.point = s • res.point := by
  obtain ⟨M, hM⟩ := sixPhases_succeeds n hn
  have hu := ProblemData.inUnits sixPhases s k ρ' hs [1, 2] _ sixPhases_accepted
  have h' := hu.accepted hs hk sixPhases_accepted
  obtain ⟨A, b, hA, -⟩ := C18_in_bounds_and_complete _ _ _ sixPhases_accepted _ (Or.inl ⟨n, hn, rfl⟩)
  obtain ⟨A', b', hA', -⟩ := C18_in_bounds_and_complete _ _ _ h' _ (Or.inl ⟨n, hn, rfl⟩)
  refine ⟨max M (max (2 ^ A.rows) (2 ^ A'.rows)), fun maxIter hmax => ?_⟩
  obtain ⟨m1, m2⟩ := max_lt_iff.mp hmax
  obtain ⟨m2, m3⟩ := max_lt_iff.mp m2
  obtain ⟨r, N0, hr0, hss⟩ := hM maxIter m1
  obtain ⟨res, res', N, h1, h2, h3⟩ := C112_all_fixedSize (exactLib maxIter) (exactLib_ok _) rfl s k hs hk _ _ hu [1, 2] _
    sixPhases_accepted rfl n hn (Or.inl rfl) (by
      intro q hq A2 b2 hA2
      simp only [List.mem_cons, List.not_mem_nil, or_false] at hq
      rcases hq with rfl | rfl
      · rw [hA] at hA2
        cases hA2
        exact m2
      · rw [hA'] at hA2
        cases hA2
        exact m3)
  have e := h1 (max N N0) (le_max_left _ _)
  rw [hr0 (max N N0) (le_max_right _ _)] at e
  cases e
  exact ⟨r, res', N, h1, h2, hss, h3.success.trans hss, h3.point hss⟩

/-- A non-trivial case of C109 with the set `c0_dc0_ddc0_ddc1_dc1_c1`: both calls succeed, in any axes. -/
theorem sixPhases_turned (R : V3 ≃ₗ[ℝ] V3) (hR : Rotation R) (n : ℕ) (hn : 0 < n) : ∃ M, ∀ maxIter > M, ∃ res res' N,
    (∀ fuel ≥ N, computeCOMTrajFixedSize (exactLib maxIter) fuel
      { sixPhases with reduce_h := 0, constraintAcceleration := false } [1, 2] n = .ok res) ∧
    (∀ fuel ≥ N, computeCOMTrajFixedSize (exactLib maxIter) fuel
      (ProblemData.rotate { sixPhases with reduce_h := 0, constraintAcceleration := false } R) [1, 2] n = .ok res') ∧
    res.success = true ∧ res'.success = true ∧ res'.point = R res.point := by
  obtain ⟨M, hM⟩ := sixPhases_still n 1 hn one_pos
  have h : Accepted { sixPhases with reduce_h := 0, constraintAcceleration := false } [1, 2] ![0, 0, -9.81] := by
    obtain ⟨h1, h2, h3, h4, h5, h6⟩ := sixPhases_accepted
    exact ⟨h1, h2, h3, h4, h5, h6⟩
  have hu := ProblemData.rotated { sixPhases with reduce_h := 0, constraintAcceleration := false } R fun ct hct he => by
    obtain ⟨e, hg, -⟩ := h.good ct hct
    rw [hg.1] at he
    cases he
  have h' := hu.accepted h
  obtain ⟨A, b, hA, -⟩ := C18_in_bounds_and_complete _ _ _ h _ (Or.inl ⟨n, hn, rfl⟩)
  obtain ⟨A', b', hA', -⟩ := C18_in_bounds_and_complete _ _ _ h' _ (Or.inl ⟨n, hn, rfl⟩)
  refine ⟨max M (max (2 ^ A.rows) (2 ^ A'.rows)), fun maxIter hmax => ?_⟩
  obtain ⟨m1, m2⟩ := max_lt_iff.mp hmax
  obtain ⟨m2, m3⟩ := max_lt_iff.mp m2
  obtain ⟨-, r, N0, -, hr0, -, hss⟩ := hM maxIter m1
  obtain ⟨res, res', N, h1, h2, h3⟩ := C109_all_fixedSize (exactLib maxIter) (exactLib_ok _) rfl R hR _ _ hu [1, 2] _
    h rfl rfl n hn (Or.inl rfl) (by
      intro q hq A2 b2 hA2
      simp only [List.mem_cons, List.not_mem_nil, or_false] at hq
      rcases hq with rfl | rfl
      · rw [hA] at hA2
        cases hA2
        exact m2
      · rw [hA'] at hA2
        cases hA2
        exact m3)
  have e := h1 (max N N0) (le_max_left _ _)
  rw [hr0 (max N N0) (le_max_right _ _)] at e
  cases e
  exact ⟨r, res', N, h1, h2, hss, h3.success.trans hss, h3.point hss⟩

end Verif
