import Verif.Props.C56Rounded
import Verif.Props.C56ContTol

/-!
# C56 for the two sets with rounded coefficients and the threshold of the solver

The error of the decimals and the tolerance of the solver add up; both are explicit.
-/

namespace Verif
open Matrix

/-! ## Specification -/

/-- The requirements of a phase: the wrench up to `δw` in the unit of a row of unit length and up to `E` in the unit of the
row, the position up to `δ`. -/
def PhaseUpTo (ct : ContactData) (e : Equilibrium) (ρ : ℝ) (E : Equilibrium → (V3 × V3) × ℝ → ℝ) (δw δ : ℝ) (c a : V3) :
    Prop :=
  KinOkTol ct δ c ∧ ∀ r ∈ e.poly,
    dot r.1.1 (e.mass • (e.gravity - a)) + dot r.1.2 (e.mass • cr c (e.gravity - a))
      ≤ (r.2 - max ρ 0 + δw) * (|e.mass| * Real.sqrt (dot r.1.1 r.1.1 + dot r.1.2 r.1.2)) + E e r

/-- `MeetsSamplesUpTo` with the tolerances of a solver. -/
def MeetsSamplesUpToTol (pData : ProblemData) (l : TTime) (E : Equilibrium → (V3 × V3) × ℝ → ℝ) (δw δ : ℝ)
    (c a : ℝ → V3) : Prop :=
  (∀ t p, Constrained l t p → AtPhase pData.contacts p fun ct e => PhaseUpTo ct e pData.reduce_h E δw δ (c t) (a t)) ∧
  (pData.constraintAcceleration = true → ∀ q ∈ l, ∀ k, |a q.1 k| ≤ pData.maxAcceleration + δ)

/-- The size of the data: `R` bounds the norms of the kinematic rows, how fast the curve on the wrench waypoints changes
with the free point at the samples, and how fast the acceleration does; `k` is the curvature of the cost. -/
structure CodedScale (pData : ProblemData) (T : ℝ) (l : TTime) (k R : ℝ) : Prop where
  one : 1 ≤ R
  kin : ∀ ct ∈ pData.contacts, ∀ K ∈ ct.Kin, dot K K ≤ R ^ 2
  wrench : ∀ ws, computeWwaypoints pData.flag pData.contacts pData.bc T = .ok ws → ∀ q ∈ l, ∀ x x' : V3,
    dot (headCurve ws x (q.1 / T) - headCurve ws x' (q.1 / T)) (headCurve ws x (q.1 / T) - headCurve ws x' (q.1 / T))
      + dot (tailCurve ws x (q.1 / T) - tailCurve ws x' (q.1 / T)) (tailCurve ws x (q.1 / T) - tailCurve ws x' (q.1 / T))
      ≤ R ^ 2 * dot (x - x') (x - x')
  acc : ∀ x c v a x' c' v' a', Motion pData T x c v a → Motion pData T x' c' v' a' → ∀ q ∈ l,
    dot (a q.1 - a' q.1) (a q.1 - a' q.1) ≤ R ^ 2 * dot (x - x') (x - x')
  curv : ∀ x c v a x' c' v' a' c'' v'' a'', Motion pData T x c v a → Motion pData T x' c' v' a' →
    Motion pData T ((1 / 2 : ℝ) • (x + x')) c'' v'' a'' →
    motionCost pData l x a + motionCost pData l x' a' - 2 * motionCost pData l ((1 / 2 : ℝ) • (x + x')) a''
      = k / 2 * dot (x - x') (x - x')

/-! ## The planners on samples -/

/-- The system and the cost given to the solver, as `planSamples_rows`. -/
theorem planCoded_rows (pData : ProblemData) (Ts : List ℝ) (g : V3) (h : Accepted pData Ts g)
    (hf : pData.flag ∈ [31#32, 63#32])
    (l : TTime) (hl : Discretisation Ts l) (hc : GoodCost pData Ts.sum l) {k R : ℝ}
    (hs : CodedScale pData Ts.sum l k R) :
    ∃ A b w K pts, computeConstantWaypoints pData.flag pData.bc Ts.sum = .ok pts ∧
      computeConstraintsOneStep pData Ts.length Ts.sum l = .ok (A, b) ∧ 0 < k ∧
      genCostFunction pData Ts Ts.sum l 3 = .ok (costH 0 k, costG 0 w) ∧
      (∀ x c v a, Motion pData Ts.sum x c v a → k * dot x x + 2 * dot w x = motionCost pData l x a - K) ∧
      A.cols = 3 ∧ Fits A b (Mat.noRows A.cols) (Mat.noRows 1) (costH 0 k) (costG 0 w) ∧
      (∀ r < A.rows, ∑ c ∈ Finset.range 3, A.e r c ^ 2 ≤ R ^ 2) ∧
      ∀ x c v a M G, Motion pData Ts.sum x c v a → Sizes pData Ts.sum g x M G →
        (∀ δ, 0 ≤ δ → SatTol A b δ (ext3 x) → MeetsSamplesUpToTol pData l (roundErr M G Ts.sum) (R * δ) δ c a) ∧
        (∀ m, 0 ≤ m → MeetsSamplesUpToTol pData l (fun e r => -roundErr M G Ts.sum e r) (-(R * m)) (-m) c a →
          SatTol A b (-m) (ext3 x)) := by
  obtain ⟨pts, hpts⟩ := C01_answers pData.flag h.flag pData.bc Ts.sum h.capt
  have hpl := (C01_boundary_conditions pData.flag h.flag pData.bc Ts.sum h.total.ne' pts hpts 0).1
  obtain ⟨ht, hb⟩ := hl.tags h.ne h.pos
  obtain ⟨hk, w, K, hgen, hcost⟩ := curv_hess hs.curv h.total (fun q hq => (hb q hq).2) h.flag hc pts hpts
  obtain ⟨ws, A, b, L, F, CO, AO, hws, hA, hcols, hbr, hbc, hAr, hrow, hF, hCO, hAO, hall⟩ :=
    oneStep_core pData Ts.length Ts.sum h.total l ht (fun q hq => (hb q hq).2) g h.phase h.flag pts hpts hpl
  obtain ⟨ct0, e0, hc0, hg0, hgr⟩ := h.phase 0 (List.length_pos_iff.mpr h.ne)
  have hmot : ∀ x c v a, Motion pData Ts.sum x c v a → ∀ t,
      (CO (t / Ts.sum)).first • x + (CO (t / Ts.sum)).second = c t ∧
      (AO (t / Ts.sum)).first • x + (AO (t / Ts.sum)).second = a t := by
    rintro x c v a ⟨pts', hpts', rfl, hv, ha⟩ t
    rw [hpts] at hpts'
    cases hpts'
    obtain ⟨v2, a2, hv2, ha2, hacc⟩ := hAO x
    have e1 := deriv_unique hv hv2
    subst e1
    have e2 := deriv_unique ha ha2
    subst e2
    exact ⟨hCO t x, hacc t⟩
  have hex : ∀ x, ∃ c v a, Motion pData Ts.sum x c v a := fun x => by
    obtain ⟨v, a, h⟩ := motion_exists pData Ts.sum pts hpts h.flag h.total.ne' x
    exact ⟨_, v, a, h⟩
  have hR0 : 0 ≤ R := zero_le_one.trans hs.one
  have hlip : ∀ q ∈ l, (F (q.1 / Ts.sum)).Lip R := by
    intro q hq y
    have e := hs.wrench ws hws q hq y 0
    rw [← (hF _ y).1, ← (hF _ y).2, ← (hF _ 0).1, ← (hF _ 0).2] at e
    simp only [Wp6.headAt, Wp6.tailAt, mulVec_zero, zero_add, add_sub_cancel_right, sub_zero] at e
    simpa only [dot_eq] using e
  have haco : ∀ q ∈ l, |(AO (q.1 / Ts.sum)).first| ≤ R := by
    intro q hq
    obtain ⟨c, v, a, hm⟩ := hex ![1, 0, 0]
    obtain ⟨c', v', a', hm'⟩ := hex 0
    have e := hs.acc _ _ _ _ _ _ _ _ hm hm' q hq
    have d : a q.1 - a' q.1 = (AO (q.1 / Ts.sum)).first • ![1, 0, 0] := by
      rw [← (hmot _ _ _ _ hm q.1).2, ← (hmot _ _ _ _ hm' q.1).2]; simp
    apply abs_le_of_sq_le_sq _ hR0
    rw [d] at e
    simp [dot] at e
    nlinarith
  have hcw : ∀ q ∈ l, |(CO (q.1 / Ts.sum)).first| ≤ 1 := by
    intro q hq
    exact weight_le (div_nonneg (hb q hq).1 h.total.le) ((div_le_one h.total).mpr (hb q hq).2) (hCO q.1)
  have hmax : max 1 R = R := max_eq_right hs.one
  have hnorm : ∀ r ∈ L, eNorm r.1 ≤ R := by
    rw [hall fun r => eNorm r.1 ≤ R]
    refine ⟨fun t p hcon => ?_, fun _ q hq r hr => by rw [acc_rows_norm _ _ r hr]; exact haco q hq⟩
    obtain ⟨i, hi⟩ := hcon.mem
    obtain ⟨ct, e, hct, hg, -⟩ := h.phase p (hcon.lt ht).1
    refine ⟨ct, e, hct, hg.1, hg, _, updateH_ok hg, fun r hr => ?_, fun r hr => ?_⟩
    · have := stab_rows_norm hg (updateH_ok hg) g _ hR0 (hlip _ hi) r hr
      rwa [hmax] at this
    · obtain ⟨K, hK, hle⟩ := kin_rows_norm _ (hcw _ hi) r hr
      refine hle.trans ?_
      unfold eNorm
      rw [Real.sqrt_le_left hR0, dot_eq]
      exact hs.kin ct (List.mem_of_getElem? hct) K hK
  have hfits : Fits A b (Mat.noRows A.cols) (Mat.noRows 1) (costH 0 k) (costG 0 w) :=
    ⟨⟨rfl, rfl⟩, ⟨hbr, hbc, hcols⟩, ⟨rfl, hcols⟩⟩
  have hRow : ∀ r < A.rows, ∑ c ∈ Finset.range 3, A.e r c ^ 2 ≤ R ^ 2 := by
    intro r hr
    have hr' : r < L.length := hAr ▸ hr
    have hget := List.getElem?_eq_getElem hr'
    obtain ⟨q1, -⟩ := hrow r _ hget
    have hn := hnorm _ (List.getElem_mem hr')
    have hn2 := pow_le_pow_left₀ (eNorm_nonneg _) hn 2
    rw [eNorm_sq, dot_eq] at hn2
    refine le_trans (le_of_eq ?_) hn2
    simp only [Finset.sum_range_succ, Finset.sum_range_zero, zero_add]
    rw [q1 0 (by norm_num), q1 1 (by norm_num), q1 2 (by norm_num)]
    simp [V3.get, dot, sq]
  refine ⟨A, b, w, K, pts, hpts, hA, hk, hgen, hcost, hcols, hfits, hRow, fun x c v a M G hm hsz => ?_⟩
  have key : ∀ t p, Constrained l t p → ∀ (e : Equilibrium) (r : (V3 × V3) × ℝ),
      |(dot r.1.1 (e.mass • (g - a t)) + dot r.1.2 (e.mass • cr (c t) (g - a t)))
        - (dot r.1.1 (e.mass • (g - (F (t / Ts.sum)).headAt x))
          + dot r.1.2 (e.mass • (-(F (t / Ts.sum)).tailAt x)))| ≤ roundErr M G Ts.sum e r := by
    intro t p hc e r
    obtain ⟨_, i, hi⟩ := hc.lt ht
    obtain ⟨t0, t1⟩ := hb _ hi
    rw [(hF _ x).1, (hF _ x).2]
    exact round_key pData Ts.sum h.total g hf hc0 hg0.1 hgr hws hm hsz t t0 t1 e r
  refine ⟨fun δ hδ0 hsat => ?_, fun m hm0 hmeet => ?_⟩
  · rw [rows_satTol hAr hcols hrow, hall fun r => r.1 ⬝ᵥ x ≤ r.2 + δ] at hsat
    refine ⟨fun t p hcon => ?_, fun hacc q hq k => ?_⟩
    · obtain ⟨i, hi⟩ := hcon.mem
      obtain ⟨ct, e, hct, hcp, hg, H, hH, hstab, hkin⟩ := hsat.1 t p hcon
      obtain ⟨ct', e', hct', hg', hge⟩ := h.phase p (hcon.lt ht).1
      rw [hct] at hct'
      cases hct'
      rw [hg'.1] at hcp
      cases hcp
      refine ⟨ct, e, hct, hg.1, ?_, fun r hr => ?_⟩
      · have := kin_rows_tol _ δ _ hkin
        rwa [(hmot _ _ _ _ hm t).1] at this
      · have h1 := stab_rows_tol hg hH g _ hR0 (hlip _ hi) hδ0 _ hstab r hr
        rw [hmax, mul_comm δ R] at h1
        unfold WrenchRowOkTol at h1
        have h2 := (abs_le.mp (key t p hcon e r)).2
        rw [hge]
        linarith
    · have := acc_rows_tol _ _ δ _ (hsat.2 hacc q hq) k
      rwa [(hmot _ _ _ _ hm q.1).2] at this
  · rw [rows_satTol hAr hcols hrow, hall fun r => r.1 ⬝ᵥ x ≤ r.2 + -m]
    refine ⟨fun t p hcon => ?_, fun hacc q hq => ?_⟩
    · obtain ⟨i, hi⟩ := hcon.mem
      obtain ⟨ct, e, hct, hcp, hkin, hw⟩ := hmeet.1 t p hcon
      obtain ⟨ct', e', hct', hg', hge⟩ := h.phase p (hcon.lt ht).1
      rw [hct] at hct'
      cases hct'
      rw [hg'.1] at hcp
      cases hcp
      refine ⟨ct, e, hct, hg'.1, hg', _, updateH_ok hg', ?_, ?_⟩
      · refine stab_rows_margin hg' (updateH_ok hg') g _ hs.one (hlip _ hi) hm0 x fun r hr => ?_
        have h1 := hw r hr
        rw [hge] at h1
        unfold WrenchRowOkTol
        have h2 := (abs_le.mp (key t p hcon e r)).1
        linarith
      · apply kin_rows_tol_of
        rw [(hmot _ _ _ _ hm t).1]; exact hkin
    · apply acc_rows_tol_of
      rw [(hmot _ _ _ _ hm q.1).2]
      exact hmeet.2 hacc q hq

theorem planCoded_tol (lib : Lib) (hL : LibOk lib) (he : 0 ≤ lib.eps) (pData : ProblemData) (Ts : List ℝ) (g : V3)
    (h : Accepted pData Ts g) (hf : pData.flag ∈ [31#32, 63#32])
    (l : TTime) (hl : Discretisation Ts l) (hc : GoodCost pData Ts.sum l) {k R : ℝ}
    (hs : CodedScale pData Ts.sum l k R) (h1 : lib.eps ≤ k) (h2 : lib.eps * R ^ 2 ≤ k ^ 2) :
    ∃ A b res N, computeConstraintsOneStep pData Ts.length Ts.sum l = .ok (A, b) ∧
      (∀ fuel ≥ N, planSamples lib fuel pData Ts l = .ok res) ∧
      (res.success = true → ∃ v a, Motion pData Ts.sum res.point res.c_of_t.eval v a ∧
        ∀ M G, Sizes pData Ts.sum g res.point M G → MeetsSamplesUpToTol pData l (roundErr M G Ts.sum)
          (R * solverTol lib.eps k A.rows) (solverTol lib.eps k A.rows) res.c_of_t.eval a) := by
  obtain ⟨A, b, w, K, pts, hpts, hA, hk, hgen, -, hcols, hfits, hRow, hmeet⟩ := planCoded_rows pData Ts g h hf l hl hc hs
  obtain ⟨q, N, hrun, hxl, hsucc⟩ := solve_tol lib hL he hk w hfits rfl (List.replicate 3 0) hRow h1 h2
  obtain ⟨res, hres, hss, hgood⟩ := genTraj_total q pData Ts.sum h.total pts hpts h.flag (by omega)
  refine ⟨A, b, res, N, hA, fun fuel hfuel => ?_, fun hrs => ?_⟩
  · unfold planSamples
    rw [hA, Out.ok_bind, hgen, Out.ok_bind]
    dsimp only
    rw [hrun fuel hfuel, Out.ok_bind, hres]
  · rw [hss] at hrs
    obtain ⟨hp, -, hcurve⟩ := hgood hrs
    have hsat := hsucc hrs
    have hδ0 : 0 ≤ solverTol lib.eps k A.rows := by unfold solverTol; positivity
    obtain ⟨v, a, hm⟩ := motion_exists pData Ts.sum pts hpts h.flag h.total.ne' res.point
    rw [← hcurve] at hm
    refine ⟨v, a, hm, fun M G hsz => (hmeet _ _ _ _ M G hm hsz).1 _ hδ0 ?_⟩
    rw [hp, satTol_first3 hcols]
    exact hsat

/-- C56, the scale of the data for the two sets with rounded coefficients: it exists for every accepted problem, with a
positive curvature. -/
theorem C56_coded_scale_exists (pData : ProblemData) (Ts : List ℝ) (g : V3) (h : Accepted pData Ts g)
    (l : TTime) (hl : Discretisation Ts l)
    (hc : pData.costFunction = DISTANCE_TRAVELED ∨ pData.costFunction = ACCELERATION ∧ pData.flag ≠ 63#32) :
    ∃ k R, 0 < k ∧ CodedScale pData Ts.sum l k R := by
  have hgc := goodCost pData Ts h.total h.ne h.flag h.capt l hl hc
  obtain ⟨pts, hpts⟩ := C01_answers pData.flag h.flag pData.bc Ts.sum h.capt
  have hpl := (C01_boundary_conditions pData.flag h.flag pData.bc Ts.sum h.total.ne' pts hpts 0).1
  obtain ⟨ht, hb⟩ := hl.tags h.ne h.pos
  obtain ⟨k, w, K, hk, -, hcost⟩ := cost_hess pData Ts h.total l
    (fun q hq => (hb q hq).2) h.flag hgc pts hpts 0
  rw [Nat.add_zero] at hcost
  have hq : ∀ x c v a, Motion pData Ts.sum x c v a → k * dot x x + 2 * dot w x = motionCost pData l x a - K := by
    intro x c v a h
    have := hcost (ext3 x) c v a (by rw [first3_ext3]; exact h)
    rw [quadForm_head 0, first3_ext3] at this
    simpa using this
  obtain ⟨ws, A, b, L, F, CO, AO, hws, hA, hcols, hbr, hbc, hAr, hrow, hF, hCO, hAO, hall⟩ :=
    oneStep_core pData Ts.length Ts.sum h.total l ht (fun q hq => (hb q hq).2) g h.phase h.flag pts hpts hpl
  choose L hL using fun t => (F (t / Ts.sum)).lip_exists
  obtain ⟨B1, h1, hB1⟩ := list_bound (fun q : ℝ × ℤ => |L q.1|) l
  obtain ⟨B2, h2, hB2⟩ := list_bound (fun K : V3 => dot K K) (pData.contacts.flatMap fun ct => ct.Kin)
  obtain ⟨B3, h3, hB3⟩ := list_bound (fun q : ℝ × ℤ => |(AO (q.1 / Ts.sum)).first|) l
  have m1 : B1 ≤ max (max B1 B2) B3 := (le_max_left _ _).trans (le_max_left _ _)
  have m2 : B2 ≤ max (max B1 B2) B3 := (le_max_right _ _).trans (le_max_left _ _)
  have m3 : B3 ≤ max (max B1 B2) B3 := le_max_right _ _
  have nn : ∀ u : V3, 0 ≤ dot u u := fun u => by
    simp only [dot]; nlinarith [mul_self_nonneg (u 0), mul_self_nonneg (u 1), mul_self_nonneg (u 2)]
  refine ⟨k, max (max B1 B2) B3, hk, h1.trans m1, ?_, ?_, ?_, ?_⟩
  · intro ct hct K hK
    have := hB2 K (List.mem_flatMap.mpr ⟨ct, hct, hK⟩)
    nlinarith
  · intro ws' hws' q hq x x'
    rw [hws] at hws'
    cases hws'
    have e := hL q.1 (x - x')
    rw [mulVec_sub, mulVec_sub, dot_eq, dot_eq, dot_eq] at e
    rw [← (hF _ x).1, ← (hF _ x).2, ← (hF _ x').1, ← (hF _ x').2]
    simp only [Wp6.headAt, Wp6.tailAt, add_sub_add_right_eq_sub]
    refine e.trans (mul_le_mul_of_nonneg_right ?_ (nn _))
    rw [← sq_abs]
    exact pow_le_pow_left₀ (abs_nonneg _) ((hB1 q hq).trans m1) 2
  · rintro x c v a x' c' v' a' ⟨p, hp, rfl, hv, ha⟩ ⟨p', hp', rfl, hv', ha'⟩ q hq
    rw [hpts] at hp hp'
    cases hp
    cases hp'
    obtain ⟨v2, a2, hv2, ha2, hacc⟩ := hAO x
    have e1 := deriv_unique hv hv2
    subst e1
    have e2 := deriv_unique ha ha2
    subst e2
    obtain ⟨v2, a2, hv2, ha2, hacc'⟩ := hAO x'
    have e1 := deriv_unique hv' hv2
    subst e1
    have e2 := deriv_unique ha' ha2
    subst e2
    have : a q.1 - a' q.1 = (AO (q.1 / Ts.sum)).first • (x - x') := by
      rw [← hacc, ← hacc', smul_sub]; abel
    rw [this]
    have e : dot ((AO (q.1 / Ts.sum)).first • (x - x')) ((AO (q.1 / Ts.sum)).first • (x - x'))
        = (AO (q.1 / Ts.sum)).first ^ 2 * dot (x - x') (x - x') := by
      simp only [dot, Pi.smul_apply, smul_eq_mul]; ring
    rw [e]
    refine mul_le_mul_of_nonneg_right ?_ (nn _)
    rw [← sq_abs]
    exact pow_le_pow_left₀ (abs_nonneg _) ((hB3 q hq).trans m3) 2
  · intro x c v a x' c' v' a' c'' v'' a'' hm hm' hm''
    have e1 := hq _ _ _ _ hm
    have e2 := hq _ _ _ _ hm'
    have e3 := hq _ _ _ _ hm''
    simp only [dot, Pi.add_apply, Pi.smul_apply, Pi.sub_apply, smul_eq_mul] at e1 e2 e3 ⊢
    linarith

/-! ## The planners -/

/-- C56, `computeCOMTrajFixedSize` with the threshold of the solver, the two sets with rounded coefficients: the call
returns; a curve returned with `success_` meets the boundary conditions exactly and the requirements at all samples up
to the error of the coefficients and the tolerance of the solver. -/
theorem C56_fixedSize_rounded_tolerance_partial (lib : Lib) (hL : LibOk lib) (he : 0 ≤ lib.eps) (pData : ProblemData)
    (Ts : List ℝ) (g : V3) (h : Accepted pData Ts g) (hr : pData.representation = DOUBLE_DESCRIPTION)
    (hf : pData.flag ∈ [31#32, 63#32]) (n : ℕ) (hn : 0 < n)
    (hc : pData.costFunction = DISTANCE_TRAVELED ∨ pData.costFunction = ACCELERATION ∧ pData.flag ≠ 63#32) {k R : ℝ}
    (hs : CodedScale pData Ts.sum (computeDiscretizedTimeFixed Ts n) k R) (h1 : lib.eps ≤ k)
    (h2 : lib.eps * R ^ 2 ≤ k ^ 2) :
    ∃ A b res N, computeConstraintsOneStep pData Ts.length Ts.sum (computeDiscretizedTimeFixed Ts n) = .ok (A, b) ∧
      (∀ fuel ≥ N, computeCOMTrajFixedSize lib fuel pData Ts n = .ok res) ∧
      (res.success = true → MeetsBoundary pData.flag pData.bc res.c_of_t.eval Ts.sum ∧
        ∃ v a, Motion pData Ts.sum res.point res.c_of_t.eval v a ∧
          ∀ M G, Sizes pData Ts.sum g res.point M G →
            MeetsSamplesUpToTol pData (computeDiscretizedTimeFixed Ts n) (roundErr M G Ts.sum)
              (R * solverTol lib.eps k A.rows) (solverTol lib.eps k A.rows) res.c_of_t.eval a) := by
  have hD : Discretisation Ts (computeDiscretizedTimeFixed Ts n) := Or.inl ⟨n, hn, rfl⟩
  obtain ⟨A, b, res, N, hA, hrun, hv⟩ := planCoded_tol lib hL he pData Ts g h hf _ hD
    (goodCost pData Ts h.total h.ne h.flag h.capt _ hD hc) hs h1 h2
  have hrun' : ∀ fuel ≥ N, computeCOMTrajFixedSize lib fuel pData Ts n = .ok res := by
    intro fuel hfuel
    have := hrun fuel hfuel
    unfold planSamples at this
    unfold computeCOMTrajFixedSize
    rw [if_pos hr, if_neg (not_not.mpr h.size)]
    exact this
  refine ⟨A, b, res, N, hA, hrun', fun hs => ⟨?_, hv hs⟩⟩
  obtain ⟨q, hq⟩ := (C29_planned pData Ts res).1 _ _ _ (hrun' N le_rfl)
  exact (C07_boundary_partial pData Ts q res hq hs h.flag).2.2

/-- C56, `computeCOMTraj` with a time step and the threshold of the solver, the two sets with rounded coefficients. -/
theorem C56_timeStep_rounded_tolerance_partial (κ : ℝ) (lib : Lib) (hL : LibOk lib) (he : 0 ≤ lib.eps)
    (pData : ProblemData) (Ts : List ℝ) (g : V3) (h : Accepted pData Ts g)
    (hr : pData.representation = DOUBLE_DESCRIPTION) (hf : pData.flag ∈ [31#32, 63#32]) (step : ℝ) (hstep : 0 < step)
    (hshort : ∀ T ∈ Ts, step * 2 ≤ T)
    (hc : pData.costFunction = DISTANCE_TRAVELED ∨ pData.costFunction = ACCELERATION ∧ pData.flag ≠ 63#32) {k R : ℝ}
    (hs : ∀ fuel l, computeDiscretizedTime Ts step fuel = .ok l → CodedScale pData Ts.sum l k R) (h1 : lib.eps ≤ k)
    (h2 : lib.eps * R ^ 2 ≤ k ^ 2) :
    ∃ l A b res N, Discretisation Ts l ∧
      (∀ fuel ≥ N, computeDiscretizedTime Ts step fuel = .ok l) ∧
      computeConstraintsOneStep pData Ts.length Ts.sum l = .ok (A, b) ∧
      (∀ fuel ≥ N, computeCOMTraj κ lib fuel pData Ts step SOLVER_QUADPROG = .ok res) ∧
      (res.success = true → MeetsBoundary pData.flag pData.bc res.c_of_t.eval Ts.sum ∧
        ∃ v a, Motion pData Ts.sum res.point res.c_of_t.eval v a ∧
          ∀ M G, Sizes pData Ts.sum g res.point M G → MeetsSamplesUpToTol pData l (roundErr M G Ts.sum)
            (R * solverTol lib.eps k A.rows) (solverTol lib.eps k A.rows) res.c_of_t.eval a) := by
  obtain ⟨N0, hN0⟩ := C16_discretized_time Ts step hstep hshort
  obtain ⟨l, hl, -⟩ := hN0 N0 le_rfl
  have hdet : ∀ fuel ≥ N0, computeDiscretizedTime Ts step fuel = .ok l := by
    intro fuel hfuel
    obtain ⟨l', hl', -⟩ := hN0 fuel hfuel
    rw [hl', (disc_eq Ts step hstep _ _ hl').2, (disc_eq Ts step hstep _ _ hl).2]
  have hD : Discretisation Ts l := Or.inr ⟨step, hstep, N0, hl⟩
  obtain ⟨A, b, res, N, hA, hrun, hv⟩ := planCoded_tol lib hL he pData Ts g h hf l hD
    (goodCost pData Ts h.total h.ne h.flag h.capt l hD hc) (hs _ _ hl) h1 h2
  obtain ⟨A', b', hA', hcols, -⟩ := C18_in_bounds_and_complete pData Ts g h l hD
  rw [hA] at hA'
  cases hA'
  have hrun' : ∀ fuel ≥ max N0 N, computeCOMTraj κ lib fuel pData Ts step SOLVER_QUADPROG = .ok res := by
    intro fuel hfuel
    have := hrun fuel (le_trans (le_max_right _ _) hfuel)
    unfold planSamples at this
    rw [hA, Out.ok_bind] at this
    unfold computeCOMTraj comSystem
    rw [if_neg (not_not.mpr h.size), if_pos hstep, if_pos hr, hdet fuel (le_trans (le_max_left _ _) hfuel), Out.ok_bind,
      hA, Out.ok_bind]
    simp only [Out.pure_eq, Out.ok_bind, hcols] at this ⊢
    exact this
  refine ⟨l, A, b, res, max N0 N, hD, fun fuel hfuel => hdet fuel (le_trans (le_max_left _ _) hfuel), hA, hrun',
    fun hs => ⟨?_, hv hs⟩⟩
  obtain ⟨q, hq⟩ := (C29_planned pData Ts res).2 _ _ _ _ _ (hrun' _ le_rfl)
  exact (C07_boundary_partial pData Ts q res hq hs h.flag).2.2

theorem inPhase_bounds {Ts : List ℝ} (hpos : ∀ T ∈ Ts, 0 < T) {p : ℕ} {t : ℝ} (h : InPhase Ts p t) :
    0 ≤ t ∧ t ≤ Ts.sum := by
  obtain ⟨-, h1, h2⟩ := h
  have a : 0 ≤ (Ts.take p).sum := List.sum_nonneg fun T hT => (hpos T (List.mem_of_mem_take hT)).le
  have b : 0 ≤ (Ts.drop (p + 1)).sum := List.sum_nonneg fun T hT => (hpos T (List.mem_of_mem_drop hT)).le
  have e : (Ts.take (p + 1)).sum + (Ts.drop (p + 1)).sum = Ts.sum := by rw [← List.sum_append, List.take_append_drop]
  constructor <;> linarith

/-- What a point that meets the rows up to `δ` means for the curve, for the two sets with rounded coefficients. -/
theorem cont_meets_coded {κ : ℝ} {pData : ProblemData} {Ts : List ℝ} {g : V3} (h : AcceptedC pData Ts g) (hr : pData.representation = DOUBLE_DESCRIPTION)
    (hf : pData.flag ∈ [31#32, 63#32]) {ct : ℕ → ContactData} {e : ℕ → Equilibrium} {pts : List V3} {ws : List Wp6} {S : ContSystem}
    (Raw : ContRaw κ pData Ts g ct e pts ws S) (hz : ∀ i < pts.length, i ∉ freeSlots pData.flag → ∃ k, 1e-12 < |nth pts i k|) {R δ : ℝ}
    (hR1 : 1 ≤ R) (hlip : ∀ w ∈ ws, w.Lip R) (hδ0 : 0 ≤ δ) (x : V3) (hsat : SatTol S.A S.b δ (ext3 x)) {c : ℝ → V3}
    (hcurve : c = curve (degreeOf pData.flag) (fill pData.flag (nth pts) x) Ts.sum) :
    ∃ v a, Motion pData Ts.sum x c v a ∧
      (∀ M G, Sizes pData Ts.sum g x M G → ∀ p t, InPhase Ts p t → AtPhase pData.contacts p fun ct e =>
        PhaseUpTo ct e pData.reduce_h (roundErr M G Ts.sum) (R * δ) δ (c t) (a t)) ∧
      ∀ p t, InPhase Ts p t → ∀ j, |κ * Ts.sum ^ 2 * a t j| ≤ pData.maxAcceleration + δ := by
  have hpts := Raw.hpts
  have hcols := (Raw.ddcols hr).1
  obtain ⟨L, H, hAr, hrow, hgood, hall⟩ := Raw.rows hr
  have hR0 : 0 ≤ R := zero_le_one.trans hR1
  have hmax : max 1 R = R := max_eq_right hR1
  rw [rows_satTol hAr hcols hrow, hall fun r => r.1 ⬝ᵥ x ≤ r.2 + δ] at hsat
  obtain ⟨v, a, hv, ha, hacc⟩ := acc_along κ h.pos h.total h.flag pts hpts Raw.hlen hz x
    (pData.maxAcceleration + δ) fun p hp co hco => acc_rows_tol _ co δ _ ((hsat p hp).2.2 co hco)
  rw [← hcurve] at hv
  have hm : Motion pData Ts.sum x c v a := ⟨pts, hpts, hcurve, hv, ha⟩
  refine ⟨v, a, hm, fun M G hsz p t hpt => ⟨ct p, e p, Raw.hct p hpt.1, Raw.he p hpt.1, fun q hq => ?_, fun r hr => ?_⟩,
    hacc⟩
  · rw [hcurve]
    exact half_along h.pos h.total h.flag pts hpts Raw.hlen hz _ (q.1, q.2 + δ) hpt fun co hco =>
      kin_rows_tol co δ _ ((hsat p hpt.1).1 co hco) q hq
  · have hw := wrench_along h.pos h.total Raw.hw2
      { e p with poly := (e p).poly.map fun r => (r.1, r.2 + R * δ) } pData.reduce_h g x hpt (fun v hv => by
        rw [← wrenchTol_shift]
        have := stab_rows_tol (hgood p).1 (hgood p).2 g v hR0 (sub_lip h.pos hpt.1 ws R hlip v hv) hδ0 x
          ((hsat p hpt.1).2.1 v hv)
        rwa [hmax, mul_comm] at this)
    rw [← wrenchTol_shift] at hw
    have h0 : 0 < Ts.length := List.length_pos_iff.mpr h.ne
    have hw := hw r hr
    unfold WrenchRowOkTol at hw
    obtain ⟨t0, t1⟩ := inPhase_bounds h.pos hpt
    have := (abs_le.mp (round_key pData Ts.sum h.total g hf (Raw.hct 0 h0) (Raw.he 0 h0) (Raw.hg 0 h0) Raw.hws hm hsz t
      t0 t1 (e p) r)).2
    rw [Raw.hg p hpt.1]
    linarith

/-- C56, continuous formulation in double description with the threshold of the solver, the two sets with rounded
coefficients, no constant waypoint at the origin: a curve returned with `success_` meets the boundary conditions exactly
and the requirements of its phase at every instant, up to the error of the coefficients and the tolerance. With threshold
zero this is the exact arithmetic of `C56_continuous_partial`. -/
theorem C56_continuous_rounded_tolerance_partial (κ : ℝ) (lib : Lib) (hL : LibOk lib) (he : 0 ≤ lib.eps)
    (pData : ProblemData) (Ts : List ℝ) (g : V3) (h : AcceptedC pData Ts g)
    (hr : pData.representation = DOUBLE_DESCRIPTION) (hf : pData.flag ∈ [31#32, 63#32]) (step : ℝ) (hstep : step ≤ 0)
    (hc : pData.costFunction = DISTANCE_TRAVELED ∨ pData.costFunction = ACCELERATION ∧ pData.flag ≠ 63#32)
    (pts : List V3) (hpts : computeConstantWaypoints pData.flag pData.bc Ts.sum = .ok pts)
    (hz : ∀ i < pts.length, i ∉ freeSlots pData.flag → ∃ k, 1e-12 < |nth pts i k|) {k R : ℝ}
    (hs : ContScale κ pData Ts.sum (computeDiscretizedTimeFixed Ts 7) k R) (h1 : lib.eps ≤ k)
    (h2 : lib.eps * R ^ 2 ≤ k ^ 2) :
    ∃ S res N, computeConstraintsContinuous κ pData Ts = .ok S ∧
      (∀ fuel ≥ N, computeCOMTraj κ lib fuel pData Ts step SOLVER_QUADPROG = .ok res) ∧
      (res.success = true → MeetsBoundary pData.flag pData.bc res.c_of_t.eval Ts.sum ∧
        ∃ v a, Motion pData Ts.sum res.point res.c_of_t.eval v a ∧
          (∀ M G, Sizes pData Ts.sum g res.point M G → ∀ p t, InPhase Ts p t → AtPhase pData.contacts p fun ct e =>
            PhaseUpTo ct e pData.reduce_h (roundErr M G Ts.sum) (R * solverTol lib.eps k S.A.rows)
              (solverTol lib.eps k S.A.rows) (res.c_of_t.eval t) (a t)) ∧
          ∀ p t, InPhase Ts p t → ∀ j,
            |κ * Ts.sum ^ 2 * a t j| ≤ pData.maxAcceleration + solverTol lib.eps k S.A.rows) := by
  obtain ⟨ct, e, pts', ws, S, w, -, Raw, hlip, hk, hgen, -, hmin, hcols, hDr, hfits, hRow⟩ :=
    cont_system κ pData Ts g h hr hc hs
  have hpp := Raw.hpts
  rw [hpts] at hpp
  cases hpp
  obtain ⟨q, N, hrun, hxl, hsucc⟩ := solve_tol lib hL he hk w hfits hDr (List.replicate 3 0) hRow h1 h2
  obtain ⟨res, hres, hss, hgood'⟩ := genTraj_total q pData Ts.sum h.total pts hpts h.flag (by omega)
  have hrun' : ∀ fuel ≥ N, computeCOMTraj κ lib fuel pData Ts step SOLVER_QUADPROG = .ok res := by
    intro fuel hfuel
    unfold computeCOMTraj comSystem
    rw [if_neg (not_not.mpr h.size), if_neg (not_lt.mpr hstep), Raw.hS, Out.ok_bind, Out.pure_eq, Out.ok_bind]
    dsimp only
    rw [hcols, hgen, Out.ok_bind]
    dsimp only
    rw [hmin, hrun fuel hfuel, Out.ok_bind, hres]
  refine ⟨S, res, N, Raw.hS, hrun', fun hrs => ⟨?_, ?_⟩⟩
  · obtain ⟨q, hq⟩ := (C29_planned pData Ts res).2 _ _ _ _ _ (hrun' _ le_rfl)
    exact (C07_boundary_partial pData Ts q res hq hrs h.flag).2.2
  · rw [hss] at hrs
    obtain ⟨hp, -, hcurve⟩ := hgood' hrs
    have hsat := hsucc hrs
    set δ := solverTol lib.eps k S.A.rows with hδ
    have hδ0 : 0 ≤ δ := by rw [hδ]; unfold solverTol; positivity
    have hsat' : SatTol S.A S.b δ (ext3 res.point) := by
      rw [hp, satTol_first3 hcols]
      exact hsat
    exact cont_meets_coded h hr hf Raw hz hs.one hlip hδ0 res.point hsat' hcurve

/-! ## Non-vacuity -/

/-- `sixPhases` has a scale, for every threshold that is small enough. -/
theorem sixPhases_tolerance (n : ℕ) (hn : 0 < n) : ∃ k R ε, 0 < ε ∧
    CodedScale sixPhases ([1, 2] : List ℝ).sum (computeDiscretizedTimeFixed [1, 2] n) k R ∧
    ∀ eps ≤ ε, eps ≤ k ∧ eps * R ^ 2 ≤ k ^ 2 := by
  obtain ⟨k, R, hk, hs⟩ := C56_coded_scale_exists sixPhases [1, 2] _ sixPhases_accepted
    (computeDiscretizedTimeFixed [1, 2] n) (Or.inl ⟨n, hn, rfl⟩) (Or.inl rfl)
  have hR : 0 < R := lt_of_lt_of_le zero_lt_one hs.one
  refine ⟨k, R, min k (k ^ 2 / R ^ 2), by positivity, hs, fun eps he => ⟨he.trans (min_le_left _ _), ?_⟩⟩
  have := he.trans (min_le_right _ _)
  rwa [le_div_iff₀ (by positivity)] at this

/-- The standing robot with conditions on position, velocity and acceleration at both ends. -/
def standProblem63 : ProblemData := { standProblem DOUBLE_DESCRIPTION with flag := 63#32, costFunction := DISTANCE_TRAVELED }

theorem standProblem63_points (T : ℝ) (pts : List V3)
    (h : computeConstantWaypoints standProblem63.flag standProblem63.bc T = .ok pts) :
    pts = [![1, 0, 1], ![1, 0, 1], ![1, 0, 1], 0, ![1, 0, 1], ![1, 0, 1], ![1, 0, 1]] := by
  simp [computeConstantWaypoints, standProblem63, standProblem] at h
  rw [← h]
  simp [c0_dc0_ddc0_ddc1_dc1_c1.computeConstantWaypoints]
  try (refine ⟨?_, ?_⟩)
  all_goals first | rfl | (funext k; fin_cases k <;> simp)

/-- The hypotheses of `C56_continuous_rounded_tolerance_partial` are met by it, for every positive threshold that is small
enough. -/
theorem standProblem63_tolerance (κ : ℝ) : ∃ k R ε, 0 < ε ∧
    ContScale κ standProblem63 ([1, 2] : List ℝ).sum (computeDiscretizedTimeFixed [1, 2] 7) k R ∧
    AcceptedC standProblem63 [1, 2] ![0, 0, -10] ∧ standProblem63.representation = DOUBLE_DESCRIPTION ∧
    (∃ pts, computeConstantWaypoints standProblem63.flag standProblem63.bc ([1, 2] : List ℝ).sum = .ok pts ∧
      ∀ i < pts.length, i ∉ freeSlots standProblem63.flag → ∃ j, 1e-12 < |nth pts i j|) ∧
    ∀ eps ≤ ε, eps ≤ k ∧ eps * R ^ 2 ≤ k ^ 2 := by
  have hacc : AcceptedC standProblem63 [1, 2] ![0, 0, -10] := by
    obtain ⟨a1, a2, a3, a4, a5, a6⟩ := standProblem_accepted DOUBLE_DESCRIPTION
    exact ⟨a1, a2, a3, by simp [standProblem63, comFlags], by simp [standProblem63], a6⟩
  obtain ⟨k, R, hk, hs⟩ := C56_continuous_scale_exists κ _ _ _ hacc (Or.inl rfl)
  obtain ⟨pts, hpts⟩ := C01_answers standProblem63.flag hacc.flag standProblem63.bc ([1, 2] : List ℝ).sum hacc.capt
  have hR : 0 < R := lt_of_lt_of_le zero_lt_one hs.one
  refine ⟨k, R, min k (k ^ 2 / R ^ 2), by positivity, hs, hacc, rfl, ⟨pts, hpts, ?_⟩,
    fun eps he => ⟨he.trans (min_le_left _ _), ?_⟩⟩
  · rw [standProblem63_points _ _ hpts]
    intro i hi hf
    have hi7 : i < 7 := hi
    have hf3 : i ≠ 3 := by
      intro h; apply hf; rw [h]; simp [standProblem63, freeSlots]
    have : i = 0 ∨ i = 1 ∨ i = 2 ∨ i = 4 ∨ i = 5 ∨ i = 6 := by omega
    rcases this with rfl | rfl | rfl | rfl | rfl | rfl <;> exact ⟨0, by norm_num [nth]⟩
  have := he.trans (min_le_right _ _)
  rwa [le_div_iff₀ (by positivity)] at this

end Verif
