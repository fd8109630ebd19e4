import Verif.Props.C56Tol
import Verif.Props.C23Ex

/-!
# C56: the continuous formulation with the threshold of the solver
-/

namespace Verif
open Matrix

/-! ## Specification -/

/-- The size of the data for the continuous formulation: `R` bounds the norms of the kinematic rows, how fast the wrench
waypoints change with the free point, and the weight of the free point in the second derivative; `k` is the curvature
of the cost. -/
structure ContScale (κ : ℝ) (pData : ProblemData) (T : ℝ) (l : TTime) (k R : ℝ) : Prop where
  one : 1 ≤ R
  kin : ∀ ct ∈ pData.contacts, ∀ K ∈ ct.Kin, dot K K ≤ R ^ 2
  wrench : ∀ ws, computeWwaypoints pData.flag pData.contacts pData.bc T = .ok ws → ∀ w ∈ ws, ∀ x x' : V3,
    dot (w.headAt x - w.headAt x') (w.headAt x - w.headAt x') + dot (w.tailAt x - w.tailAt x') (w.tailAt x - w.tailAt x')
      ≤ R ^ 2 * dot (x - x') (x - x')
  acc : 2 * degreeOf pData.flag ^ 2 * |κ| ≤ R
  curv : ∀ x c v a x' c' v' a' c'' v'' a'', Motion pData T x c v a → Motion pData T x' c' v' a' →
    Motion pData T ((1 / 2 : ℝ) • (x + x')) c'' v'' a'' →
    motionCost pData l x a + motionCost pData l x' a' - 2 * motionCost pData l ((1 / 2 : ℝ) • (x + x')) a''
      = k / 2 * dot (x - x') (x - x')

/-! ## Control points of sub-curves -/

theorem bez_convex {E : Type} [AddCommGroup E] [Module ℝ E] {s : Set E} (hs : Convex ℝ s) (n : ℕ) (u : ℝ) (h0 : 0 ≤ u)
    (h1 : u ≤ 1) : ∀ p : ℕ → E, (∀ i ≤ n, p i ∈ s) → bez n p u ∈ s := by
  induction n with
  | zero => intro p hp; rw [bez_zero]; exact hp 0 le_rfl
  | succ n ih =>
    intro p hp
    rw [bez_succ]
    exact hs (ih p fun i hi => hp i (by omega)) (ih _ fun i hi => hp (i + 1) (by omega)) (by linarith) h0 (by ring)

theorem extractCtrl_convex {E : Type} [AddCommGroup E] [Module ℝ E] {s : Set E} (hs : Convex ℝ s) (P : List E) (a b : ℝ)
    (a0 : 0 ≤ a) (a1 : a ≤ 1) (b0 : 0 ≤ b) (b1 : b ≤ 1) (hP : ∀ p ∈ P, p ∈ s) : ∀ p ∈ extractCtrl P a b, p ∈ s := by
  intro p hp
  obtain ⟨k, hk, rfl⟩ := List.mem_map.mp hp
  have hk := List.mem_range.mp hk
  refine bez_convex hs _ _ b0 b1 _ fun j hj => bez_convex hs _ _ a0 a1 _ fun i hi => ?_
  have : j + i < P.length := by omega
  simp only [List.getD, List.getElem?_eq_getElem this, Option.getD_some]
  exact hP _ (List.getElem_mem this)

theorem lip_convex (L : ℝ) : Convex ℝ {w : M3 × M3 × V3 × V3 | (Wp6.ofProd w).Lip L} := by
  intro w hw w' hw' a b ha hb hab
  intro y
  have h1 := hw y
  have h2 := hw' y
  simp only [Wp6.ofProd] at h1 h2 ⊢
  simp only [Prod.fst_add, Prod.smul_fst, Prod.snd_add, Prod.smul_snd, add_mulVec, smul_mulVec]
  set p := w.1 *ᵥ y
  set p' := w'.1 *ᵥ y
  set q := w.2.1 *ᵥ y
  set q' := w'.2.1 *ᵥ y
  have key : ∀ u u' : V3, (a • u + b • u') ⬝ᵥ (a • u + b • u') ≤ a * (u ⬝ᵥ u) + b * (u' ⬝ᵥ u') := by
    intro u u'
    obtain rfl : b = 1 - a := by linarith
    have : a * (u ⬝ᵥ u) + (1 - a) * (u' ⬝ᵥ u') - (a • u + (1 - a) • u') ⬝ᵥ (a • u + (1 - a) • u')
        = a * (1 - a) * ((u - u') ⬝ᵥ (u - u')) := by
      simp only [dot_eq, dot, Pi.add_apply, Pi.smul_apply, Pi.sub_apply, smul_eq_mul]; ring
    have h3 : 0 ≤ (u - u') ⬝ᵥ (u - u') := by rw [← eNorm_sq]; positivity
    have := mul_nonneg (mul_nonneg ha hb) h3
    linarith
  have k1 := key p p'
  have k2 := key q q'
  have e1 := mul_le_mul_of_nonneg_left h1 ha
  have e2 := mul_le_mul_of_nonneg_left h2 hb
  have e3 : a * (L ^ 2 * (y ⬝ᵥ y)) + b * (L ^ 2 * (y ⬝ᵥ y)) = L ^ 2 * (y ⬝ᵥ y) := by rw [← add_mul, hab, one_mul]
  linarith

theorem first_convex (B : ℝ) : Convex ℝ {w : ℝ × V3 | |w.1| ≤ B} := by
  intro w hw w' hw' a b ha hb hab
  simp only [Set.mem_setOf_eq, Prod.fst_add, Prod.smul_fst, smul_eq_mul] at *
  refine (abs_add_le _ _).trans ?_
  rw [abs_mul, abs_mul, abs_of_nonneg ha, abs_of_nonneg hb]
  have e3 : a * B + b * B = B := by rw [← add_mul, hab, one_mul]
  have e1 := mul_le_mul_of_nonneg_left hw ha
  have e2 := mul_le_mul_of_nonneg_left hw' hb
  linarith

/-- The two parameters at which a phase is cut out of the curve. -/
theorem phase_params {Ts : List ℝ} (hpos : ∀ T ∈ Ts, 0 < T) {p : ℕ} (hp : p < Ts.length) :
    0 ≤ (Ts.take p).sum / Ts.sum ∧ (Ts.take p).sum / Ts.sum ≤ 1 ∧
    0 ≤ ((Ts.getD p 0 + (Ts.take p).sum) / Ts.sum - (Ts.take p).sum / Ts.sum) / (1 - (Ts.take p).sum / Ts.sum) ∧
    ((Ts.getD p 0 + (Ts.take p).sum) / Ts.sum - (Ts.take p).sum / Ts.sum) / (1 - (Ts.take p).sum / Ts.sum) ≤ 1 := by
  have h3 : Ts.sum = (Ts.take p).sum + (Ts.drop p).sum := by
    rw [← List.sum_append, List.take_append_drop]
  have h4 : Ts.drop p = Ts[p] :: Ts.drop (p + 1) := by rw [List.getElem_cons_drop]
  have h5 : 0 ≤ (Ts.drop (p + 1)).sum :=
    List.sum_nonneg fun T hT => (hpos T (List.mem_of_mem_drop hT)).le
  have h6 : 0 ≤ (Ts.take p).sum := List.sum_nonneg fun T hT => (hpos T (List.mem_of_mem_take hT)).le
  have e : Ts.getD p 0 = Ts[p] := by simp [List.getD, hp]
  have h7 := hpos _ (List.getElem_mem hp)
  rw [h4, List.sum_cons, ← e] at h3
  rw [← e] at h7
  set t := (Ts.take p).sum
  set D := Ts.getD p 0
  set r := (Ts.drop (p + 1)).sum
  have hT : 0 < Ts.sum := by linarith
  have h8 : 0 < 1 - t / Ts.sum := by rw [sub_pos, div_lt_one hT]; linarith
  refine ⟨by positivity, by linarith, div_nonneg ?_ h8.le, ?_⟩
  · rw [← sub_div]; apply div_nonneg <;> linarith
  · rw [div_le_one h8, sub_le_sub_iff_right, div_le_one hT]; linarith

theorem sub_lip {Ts : List ℝ} (hpos : ∀ T ∈ Ts, 0 < T) {p : ℕ} (hp : p < Ts.length) (ws : List Wp6) (L : ℝ)
    (h : ∀ w ∈ ws, w.Lip L) : ∀ w ∈ subWp6 ws Ts.sum (Ts.take p).sum (Ts.getD p 0), w.Lip L := by
  obtain ⟨a0, a1, b0, b1⟩ := phase_params hpos hp
  intro w hw
  obtain ⟨q, hq, rfl⟩ := List.mem_map.mp hw
  refine extractCtrl_convex (lip_convex L) _ _ _ a0 a1 b0 b1 ?_ q hq
  intro w' hw'
  obtain ⟨w'', h', rfl⟩ := List.mem_map.mp hw'
  exact h _ h'

theorem sub_first {Ts : List ℝ} (hpos : ∀ T ∈ Ts, 0 < T) {p : ℕ} (hp : p < Ts.length) (P : List Coefs) (B : ℝ)
    (h : ∀ w ∈ P, |w.first| ≤ B) : ∀ w ∈ subCoefs P Ts.sum (Ts.take p).sum (Ts.getD p 0), |w.first| ≤ B := by
  obtain ⟨a0, a1, b0, b1⟩ := phase_params hpos hp
  intro w hw
  obtain ⟨q, hq, rfl⟩ := List.mem_map.mp hw
  refine extractCtrl_convex (first_convex B) _ _ _ a0 a1 b0 b1 ?_ q hq
  intro w' hw'
  obtain ⟨w'', h', rfl⟩ := List.mem_map.mp hw'
  exact h _ h'

theorem symCoefs_first (pts : List V3) : ∀ w ∈ symCoefs pts, 0 ≤ w.first ∧ w.first ≤ 1 := by
  intro w hw
  obtain ⟨q, -, rfl⟩ := List.mem_map.mp hw
  unfold symbolicOf WpB.toCoefs
  split_ifs <;> simp

theorem deriv_first (P : List (ℝ × V3)) (lo hi : ℝ) (h : ∀ w ∈ P, lo ≤ w.1 ∧ w.1 ≤ hi) :
    ∀ w ∈ derivCtrl P, |w.1| ≤ (P.length - 1 : ℕ) * (hi - lo) := by
  intro w hw
  obtain ⟨i, hi', rfl⟩ := List.mem_iff_getElem.mp hw
  rw [derivCtrl_length] at hi'
  simp only [derivCtrl, List.getElem_zipWith, List.getElem_tail, Prod.smul_fst, Prod.fst_sub, smul_eq_mul]
  rw [abs_mul, Nat.abs_cast]
  refine mul_le_mul_of_nonneg_left ?_ (Nat.cast_nonneg _)
  have h1 := h _ (List.getElem_mem (show i + 1 < P.length by omega))
  have h2 := h _ (List.getElem_mem (show i < P.length by omega))
  rw [abs_le]
  constructor <;> linarith [h1.1, h1.2, h2.1, h2.2]

theorem secondDeriv_first (κ : ℝ) (pts : List V3) : ∀ w ∈ secondDeriv κ (symCoefs pts),
    |w.first| ≤ 2 * ((pts.length - 1 : ℕ) : ℝ) ^ 2 * |κ| := by
  intro w hw
  obtain ⟨q, hq, rfl⟩ := List.mem_map.mp hw
  set P := (symCoefs pts).map Coefs.toProd
  have hlen : P.length = pts.length := by simp [P, symCoefs]
  have h1 := deriv_first P 0 1 (by
    intro w hw
    obtain ⟨w', h', rfl⟩ := List.mem_map.mp hw
    exact symCoefs_first pts w' h')
  rw [hlen, sub_zero, mul_one] at h1
  have h2 := deriv_first (derivCtrl P) (-((pts.length - 1 : ℕ) : ℝ)) ((pts.length - 1 : ℕ) : ℝ)
    (fun w hw => abs_le.mp (h1 w hw)) q hq
  rw [derivCtrl_length, hlen] at h2
  simp only [Coefs.ofProd, Prod.smul_fst, smul_eq_mul, abs_mul]
  have h3 : ((pts.length - 1 - 1 : ℕ) : ℝ) ≤ ((pts.length - 1 : ℕ) : ℝ) := by exact_mod_cast Nat.sub_le _ _
  have h4 : (0 : ℝ) ≤ ((pts.length - 1 : ℕ) : ℝ) := Nat.cast_nonneg _
  have h5 : |q.1| ≤ 2 * ((pts.length - 1 : ℕ) : ℝ) ^ 2 := by
    refine h2.trans ?_
    nlinarith
  have := mul_le_mul_of_nonneg_left h5 (abs_nonneg κ)
  linarith

/-! ## The planner -/

theorem wrenchTol_shift (e : Equilibrium) (ρ δ : ℝ) (f τ : V3) :
    WrenchOkTol e ρ δ f τ ↔ WrenchOk { e with poly := e.poly.map fun r => (r.1, r.2 + δ) } ρ f τ := by
  unfold WrenchOkTol WrenchOk
  simp only [List.forall_mem_map, WrenchRowOkTol, WrenchRowOk]
  refine forall₂_congr fun r _ => ?_
  rw [show r.2 + δ - max ρ 0 = r.2 - max ρ 0 + δ by ring]

/-- The system and the cost given to the solver by the continuous formulation: sizes and norms of the rows. -/
theorem cont_system (κ : ℝ) (pData : ProblemData) (Ts : List ℝ) (g : V3) (h : AcceptedC pData Ts g)
    (hr : pData.representation = DOUBLE_DESCRIPTION)
    (hc : pData.costFunction = DISTANCE_TRAVELED ∨ pData.costFunction = ACCELERATION ∧ pData.flag ≠ 63#32) {k R : ℝ}
    (hs : ContScale κ pData Ts.sum (computeDiscretizedTimeFixed Ts 7) k R) :
    ∃ ct e pts ws S w K, ContRaw κ pData Ts g ct e pts ws S ∧ (∀ w ∈ ws, w.Lip R) ∧ 0 < k ∧
      genCostFunction pData Ts Ts.sum (computeDiscretizedTimeFixed Ts 7) 3 = .ok (costH 0 k, costG 0 w) ∧
      (∀ x c v a, Motion pData Ts.sum x c v a →
        k * dot x x + 2 * dot w x = motionCost pData (computeDiscretizedTimeFixed Ts 7) x a - K) ∧
      S.minBounds = [] ∧ S.A.cols = 3 ∧ S.D.rows = 0 ∧ Fits S.A S.b S.D S.d (costH 0 k) (costG 0 w) ∧
      ∀ r < S.A.rows, ∑ c ∈ Finset.range 3, S.A.e r c ^ 2 ≤ R ^ 2 := by
  obtain ⟨ct, e, pts, ws, S, Raw⟩ := cont_raw κ pData Ts g h
  have hpts := Raw.hpts
  obtain ⟨L, H, hAr, hrow, hgood, hall⟩ := Raw.rows hr
  obtain ⟨hcols, hDr⟩ := Raw.ddcols hr
  have hmin : S.minBounds = [] := by rw [Raw.min, if_pos hr]
  have hl : Discretisation Ts (computeDiscretizedTimeFixed Ts 7) := Or.inl ⟨7, by norm_num, rfl⟩
  obtain ⟨hk, w, K, hgen, hcost⟩ := curv_hess hs.curv h.total (C26_samples Ts h.ne h.pos _ hl) h.flag
    (goodCost pData Ts h.total h.ne h.flag h.capt _ hl hc) pts hpts
  have hR0 : 0 ≤ R := zero_le_one.trans hs.one
  have hmax : max 1 R = R := max_eq_right hs.one
  have hlip : ∀ w ∈ ws, w.Lip R := by
    intro w hw y
    have := hs.wrench ws Raw.hws w hw y 0
    simp only [Wp6.headAt, Wp6.tailAt, mulVec_zero, zero_add, add_sub_cancel_right, sub_zero] at this
    simpa only [dot_eq] using this
  have hnorm : ∀ r ∈ L, eNorm r.1 ≤ R := by
    rw [hall fun r => eNorm r.1 ≤ R]
    intro p hp
    refine ⟨fun co hco r hr => ?_, fun v hv r hr => ?_, fun co hco r hr => ?_⟩
    · obtain ⟨K, hK, hle⟩ := kin_rows_norm co (sub_first h.pos hp _ 1 (fun w hw => by
        obtain ⟨a0, a1⟩ := symCoefs_first pts w hw
        rw [abs_of_nonneg a0]; exact a1) co hco) r hr
      refine hle.trans ?_
      unfold eNorm
      rw [Real.sqrt_le_left hR0, dot_eq]
      exact hs.kin (ct p) (List.mem_of_getElem? (Raw.hct p hp)) K hK
    · have := stab_rows_norm (hgood p).1 (hgood p).2 g v hR0 (sub_lip h.pos hp ws R hlip v hv) r hr
      rwa [hmax] at this
    · rw [acc_rows_norm _ _ r hr]
      refine (sub_first h.pos hp _ _ (secondDeriv_first κ pts) co hco).trans (le_trans (le_of_eq ?_) hs.acc)
      rw [Raw.hlen, Nat.add_sub_cancel]
  have hfits : Fits S.A S.b S.D S.d (costH 0 k) (costG 0 w) :=
    ⟨⟨rfl, rfl⟩, ⟨Raw.arows, Raw.bcols, hcols⟩, ⟨Raw.drows, by rw [Raw.cols]; exact hcols⟩⟩
  have hRow : ∀ r < S.A.rows, ∑ c ∈ Finset.range 3, S.A.e r c ^ 2 ≤ R ^ 2 := by
    intro r hr
    have hr' : r < L.length := hAr ▸ hr
    have hget := List.getElem?_eq_getElem hr'
    obtain ⟨q1, -⟩ := hrow r _ hget
    have hn := hnorm _ (List.getElem_mem hr')
    have hn2 := pow_le_pow_left₀ (eNorm_nonneg _) hn 2
    rw [eNorm_sq, dot_eq] at hn2
    refine le_trans (le_of_eq ?_) hn2
    simp only [Finset.sum_range_succ, Finset.sum_range_zero, zero_add]
    rw [q1 0 (by norm_num), q1 1 (by norm_num), q1 2 (by norm_num)]
    simp [V3.get, dot, sq]
  exact ⟨ct, e, pts, ws, S, w, K, Raw, hlip, hk, hgen, hcost, hmin, hcols, hDr, hfits, hRow⟩

/-- What a point that meets the rows up to `δ` means for the curve. -/
theorem cont_meets {κ : ℝ} {pData : ProblemData} {Ts : List ℝ} {g : V3} (h : AcceptedC pData Ts g) (hr : pData.representation = DOUBLE_DESCRIPTION)
    (hf : pData.flag ∈ [11#32, 19#32, 27#32, 7#32, 15#32]) {ct : ℕ → ContactData} {e : ℕ → Equilibrium} {pts : List V3} {ws : List Wp6} {S : ContSystem}
    (Raw : ContRaw κ pData Ts g ct e pts ws S) (hz : ∀ i < pts.length, i ∉ freeSlots pData.flag → ∃ k, 1e-12 < |nth pts i k|) {R δ : ℝ}
    (hR1 : 1 ≤ R) (hlip : ∀ w ∈ ws, w.Lip R) (hδ0 : 0 ≤ δ) (x : V3) (hsat : SatTol S.A S.b δ (ext3 x)) {c : ℝ → V3}
    (hcurve : c = curve (degreeOf pData.flag) (fill pData.flag (nth pts) x) Ts.sum) :
    ∃ v a, IsDeriv c v ∧ IsDeriv v a ∧
      (∀ p t, InPhase Ts p t → AtPhase pData.contacts p fun ct e => PhaseOkTol ct e pData.reduce_h (R * δ) δ (c t) (a t)) ∧
      ∀ p t, InPhase Ts p t → ∀ j, |κ * Ts.sum ^ 2 * a t j| ≤ pData.maxAcceleration + δ := by
  have hpts := Raw.hpts
  have hcols := (Raw.ddcols hr).1
  obtain ⟨L, H, hAr, hrow, hgood, hall⟩ := Raw.rows hr
  have hR0 : 0 ≤ R := zero_le_one.trans hR1
  have hmax : max 1 R = R := max_eq_right hR1
  rw [rows_satTol hAr hcols hrow, hall fun r => r.1 ⬝ᵥ x ≤ r.2 + δ] at hsat
  obtain ⟨v, a, hv, ha, hacc⟩ := acc_along κ h.pos h.total h.flag pts hpts Raw.hlen hz x
    (pData.maxAcceleration + δ) fun p hp co hco => acc_rows_tol _ co δ _ ((hsat p hp).2.2 co hco)
  rw [← hcurve] at hv
  refine ⟨v, a, hv, ha, fun p t hpt => ⟨ct p, e p, Raw.hct p hpt.1, Raw.he p hpt.1, ?_, fun q hq => ?_⟩, hacc⟩
  · have hw := wrench_along h.pos h.total Raw.hw2
      { e p with poly := (e p).poly.map fun r => (r.1, r.2 + R * δ) } pData.reduce_h g x hpt (fun v hv => by
        rw [← wrenchTol_shift]
        have := stab_rows_tol (hgood p).1 (hgood p).2 g v hR0 (sub_lip h.pos hpt.1 ws R hlip v hv) hδ0 x
          ((hsat p hpt.1).2.1 v hv)
        rwa [hmax, mul_comm] at this)
    rw [← wrenchTol_shift] at hw
    have h0 : 0 < Ts.length := List.length_pos_iff.mpr h.ne
    obtain ⟨rest, hrest⟩ : ∃ rest, pData.contacts = ct 0 :: rest := by
      have := Raw.hct 0 h0
      cases hcs : pData.contacts with
      | nil => rw [hcs] at this; simp at this
      | cons a r => rw [hcs] at this; simp at this; exact ⟨r, by rw [this]⟩
    obtain ⟨ws', hw', hx'⟩ := C04_wrench_waypoints_partial pData.flag hf (ct 0) rest (e 0) (Raw.he 0 h0) pData.bc
      Ts.sum h.total.ne' pts hpts
    rw [← hrest, Raw.hws] at hw'
    cases hw'
    obtain ⟨v', a', hv', ha', hst⟩ := hx' x
    rw [← hcurve] at hv' hst
    have e1 := deriv_unique hv hv'
    subst e1
    have e2 := deriv_unique ha ha'
    subst e2
    rw [(hst t).1, (hst t).2, Raw.hg 0 h0, neg_wrenchTail] at hw
    rw [Raw.hg p hpt.1]
    exact hw
  · rw [hcurve]
    exact half_along h.pos h.total h.flag pts hpts Raw.hlen hz _ (q.1, q.2 + δ) hpt fun co hco =>
      kin_rows_tol co δ _ ((hsat p hpt.1).1 co hco) q hq

/-- C56, continuous formulation in double description with the threshold of the solver, the five exact sets, no
constant waypoint at the origin: the call returns; a curve returned with `success_` meets the boundary conditions
exactly and the requirements of its phase at every instant, up to the tolerance. -/
theorem C56_continuous_tolerance_partial (κ : ℝ) (lib : Lib) (hL : LibOk lib) (he : 0 ≤ lib.eps) (pData : ProblemData)
    (Ts : List ℝ) (g : V3) (h : AcceptedC pData Ts g) (hr : pData.representation = DOUBLE_DESCRIPTION)
    (hf : pData.flag ∈ [11#32, 19#32, 27#32, 7#32, 15#32]) (step : ℝ) (hstep : step ≤ 0)
    (hc : pData.costFunction = DISTANCE_TRAVELED ∨ pData.costFunction = ACCELERATION)
    (pts : List V3) (hpts : computeConstantWaypoints pData.flag pData.bc Ts.sum = .ok pts)
    (hz : ∀ i < pts.length, i ∉ freeSlots pData.flag → ∃ k, 1e-12 < |nth pts i k|) {k R : ℝ}
    (hs : ContScale κ pData Ts.sum (computeDiscretizedTimeFixed Ts 7) k R) (h1 : lib.eps ≤ k)
    (h2 : lib.eps * R ^ 2 ≤ k ^ 2) :
    ∃ S res N, computeConstraintsContinuous κ pData Ts = .ok S ∧
      (∀ fuel ≥ N, computeCOMTraj κ lib fuel pData Ts step SOLVER_QUADPROG = .ok res) ∧
      (res.success = true → MeetsBoundary pData.flag pData.bc res.c_of_t.eval Ts.sum ∧
        ∃ v a, IsDeriv res.c_of_t.eval v ∧ IsDeriv v a ∧
          (∀ p t, InPhase Ts p t → AtPhase pData.contacts p fun ct e =>
            PhaseOkTol ct e pData.reduce_h (R * solverTol lib.eps k S.A.rows) (solverTol lib.eps k S.A.rows)
              (res.c_of_t.eval t) (a t)) ∧
          ∀ p t, InPhase Ts p t → ∀ j,
            |κ * Ts.sum ^ 2 * a t j| ≤ pData.maxAcceleration + solverTol lib.eps k S.A.rows) := by
  obtain ⟨ct, e, pts', ws, S, w, -, Raw, hlip, hk, hgen, -, hmin, hcols, hDr, hfits, hRow⟩ :=
    cont_system κ pData Ts g h hr (hc.imp_right fun hc => ⟨hc, fun e => by rw [e] at hf; simp at hf⟩) hs
  have hpp := Raw.hpts
  rw [hpts] at hpp
  cases hpp
  obtain ⟨q, N, hrun, hxl, hsucc⟩ := solve_tol lib hL he hk w hfits hDr (List.replicate 3 0) hRow h1 h2
  obtain ⟨res, hres, hss, hgood'⟩ := genTraj_total q pData Ts.sum h.total pts hpts h.flag (by omega)
  have hrun' : ∀ fuel ≥ N, computeCOMTraj κ lib fuel pData Ts step SOLVER_QUADPROG = .ok res := by
    intro fuel hfuel
    unfold computeCOMTraj comSystem
    rw [if_neg (not_not.mpr h.size), if_neg (not_lt.mpr hstep), Raw.hS, Out.ok_bind, Out.pure_eq, Out.ok_bind]
    dsimp only
    rw [hcols, hgen, Out.ok_bind]
    dsimp only
    rw [hmin, hrun fuel hfuel, Out.ok_bind, hres]
  refine ⟨S, res, N, Raw.hS, hrun', fun hrs => ⟨?_, ?_⟩⟩
  · obtain ⟨q, hq⟩ := (C29_planned pData Ts res).2 _ _ _ _ _ (hrun' _ le_rfl)
    exact (C07_boundary_partial pData Ts q res hq hrs h.flag).2.2
  · rw [hss] at hrs
    obtain ⟨hp, -, hcurve⟩ := hgood' hrs
    have hsat := hsucc hrs
    set δ := solverTol lib.eps k S.A.rows with hδ
    have hδ0 : 0 ≤ δ := by rw [hδ]; unfold solverTol; positivity
    have hsat' : SatTol S.A S.b δ (ext3 res.point) := by
      rw [hp]
      intro r hr
      have := hsat r hr
      rw [hcols] at this ⊢
      rw [Finset.sum_congr rfl fun c hc => ?_]
      · exact this
      · have := Finset.mem_range.mp hc
        simp only [ext3, dif_pos this, first3]
    exact cont_meets h hr hf Raw hz hs.one hlip hδ0 res.point hsat' hcurve

/-- C56, the scale of the data for the continuous formulation: it exists for every accepted problem, with a positive
curvature. -/
theorem C56_continuous_scale_exists (κ : ℝ) (pData : ProblemData) (Ts : List ℝ) (g : V3) (h : AcceptedC pData Ts g)
    (hc : pData.costFunction = DISTANCE_TRAVELED ∨ pData.costFunction = ACCELERATION ∧ pData.flag ≠ 63#32) :
    ∃ k R, 0 < k ∧ ContScale κ pData Ts.sum (computeDiscretizedTimeFixed Ts 7) k R := by
  have hl : Discretisation Ts (computeDiscretizedTimeFixed Ts 7) := Or.inl ⟨7, by norm_num, rfl⟩
  have hgc := goodCost pData Ts h.total h.ne h.flag h.capt _ hl hc
  obtain ⟨pts, hpts⟩ := C01_answers pData.flag h.flag pData.bc Ts.sum h.capt
  obtain ⟨k, w, K, hk, -, hcost⟩ := cost_hess pData Ts h.total _ (C26_samples Ts h.ne h.pos _ hl) h.flag hgc pts hpts 0
  rw [Nat.add_zero] at hcost
  have hq : ∀ x c v a, Motion pData Ts.sum x c v a →
      k * dot x x + 2 * dot w x = motionCost pData (computeDiscretizedTimeFixed Ts 7) x a - K := by
    intro x c v a h
    have := hcost (ext3 x) c v a (by rw [first3_ext3]; exact h)
    rw [quadForm_head 0, first3_ext3] at this
    simpa using this
  obtain ⟨ct, e, pts', ws, S, Raw⟩ := cont_raw κ pData Ts g h
  choose L hL using fun w : Wp6 => w.lip_exists
  obtain ⟨B1, h1, hB1⟩ := list_bound (fun w => |L w|) ws
  obtain ⟨B2, h2, hB2⟩ := list_bound (fun K : V3 => dot K K) (pData.contacts.flatMap fun ct => ct.Kin)
  refine ⟨k, max (max B1 B2) (2 * degreeOf pData.flag ^ 2 * |κ|), hk, h1.trans ((le_max_left _ _).trans (le_max_left _ _)),
    ?_, ?_, le_max_right _ _, ?_⟩
  · intro ct hct K hK
    have := hB2 K (List.mem_flatMap.mpr ⟨ct, hct, hK⟩)
    have h3 : B2 ≤ max (max B1 B2) (2 * degreeOf pData.flag ^ 2 * |κ|) := (le_max_right _ _).trans (le_max_left _ _)
    nlinarith
  · intro ws' hws' w hw x x'
    rw [Raw.hws] at hws'
    cases hws'
    have e := hL w (x - x')
    rw [mulVec_sub, mulVec_sub, dot_eq, dot_eq, dot_eq] at e
    simp only [Wp6.headAt, Wp6.tailAt, add_sub_add_right_eq_sub]
    refine e.trans (mul_le_mul_of_nonneg_right ?_ ?_)
    · rw [← sq_abs]
      exact pow_le_pow_left₀ (abs_nonneg _) ((hB1 w hw).trans ((le_max_left _ _).trans (le_max_left _ _))) 2
    · simp only [dot]
      nlinarith [mul_self_nonneg ((x - x') 0), mul_self_nonneg ((x - x') 1), mul_self_nonneg ((x - x') 2)]
  · intro x c v a x' c' v' a' c'' v'' a'' hm hm' hm''
    have e1 := hq _ _ _ _ hm
    have e2 := hq _ _ _ _ hm'
    have e3 := hq _ _ _ _ hm''
    simp only [dot, Pi.add_apply, Pi.smul_apply, Pi.sub_apply, smul_eq_mul] at e1 e2 e3 ⊢
    linarith

/-- The hypotheses of `C56_continuous_tolerance_partial` are met by the standing robot, for every positive threshold
that is small enough. -/
theorem standProblem_tolerance (κ : ℝ) : ∃ k R ε, 0 < ε ∧
    ContScale κ (standProblem 1) ([1, 2] : List ℝ).sum (computeDiscretizedTimeFixed [1, 2] 7) k R ∧
    AcceptedC (standProblem 1) [1, 2] ![0, 0, -10] ∧
    (∃ pts, computeConstantWaypoints (standProblem 1).flag (standProblem 1).bc ([1, 2] : List ℝ).sum = .ok pts ∧
      ∀ i < pts.length, i ∉ freeSlots (standProblem 1).flag → ∃ j, 1e-12 < |nth pts i j|) ∧
    ∀ eps ≤ ε, eps ≤ k ∧ eps * R ^ 2 ≤ k ^ 2 := by
  have hacc := standProblem_accepted 1
  obtain ⟨k, R, hk, hs⟩ := C56_continuous_scale_exists κ _ _ _ hacc (by
    simp [standProblem, DISTANCE_TRAVELED, ACCELERATION])
  obtain ⟨pts, hpts⟩ := C01_answers (standProblem 1).flag hacc.flag (standProblem 1).bc ([1, 2] : List ℝ).sum hacc.capt
  have hR : 0 < R := lt_of_lt_of_le zero_lt_one hs.one
  refine ⟨k, R, min k (k ^ 2 / R ^ 2), by positivity, hs, hacc, ⟨pts, hpts, standProblem_hz 1 _ pts hpts⟩,
    fun eps he => ⟨he.trans (min_le_left _ _), ?_⟩⟩
  have := he.trans (min_le_right _ _)
  rwa [le_div_iff₀ (by positivity)] at this

end Verif
