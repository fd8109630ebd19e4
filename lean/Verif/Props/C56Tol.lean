import Verif.Props.C56
import Verif.Lemmas.SolveTol

/-!
# C56: the planner with the threshold of the solver

The threshold of the code is `std::numeric_limits<double>::epsilon()`; here it is any `eps` that is small compared to
the data. What the answer then satisfies is given with explicit tolerances.
-/

namespace Verif
open Matrix

/-! ## Specification -/

/-- `MeetsSamples` up to `δw` for the wrench and `δ` for position and acceleration. -/
def MeetsSamplesTol (pData : ProblemData) (l : TTime) (δw δ : ℝ) (c a : ℝ → V3) : Prop :=
  (∀ t p, Constrained l t p → AtPhase pData.contacts p fun ct e => PhaseOkTol ct e pData.reduce_h δw δ (c t) (a t)) ∧
  (pData.constraintAcceleration = true → ∀ q ∈ l, ∀ k, |a q.1 k| ≤ pData.maxAcceleration + δ)

/-- The size of the data: `R` bounds the norms of the kinematic rows and how fast the wrench per unit of mass changes
with the free point at the samples; `k` is the curvature of the cost. -/
structure DataScale (pData : ProblemData) (T : ℝ) (l : TTime) (g : V3) (k R : ℝ) : Prop where
  one : 1 ≤ R
  kin : ∀ ct ∈ pData.contacts, ∀ K ∈ ct.Kin, dot K K ≤ R ^ 2
  lip : ∀ x c v a x' c' v' a', Motion pData T x c v a → Motion pData T x' c' v' a' → ∀ q ∈ l,
    dot (a q.1 - a' q.1) (a q.1 - a' q.1)
      + dot (cr (c q.1) (g - a q.1) - cr (c' q.1) (g - a' q.1)) (cr (c q.1) (g - a q.1) - cr (c' q.1) (g - a' q.1))
      ≤ R ^ 2 * dot (x - x') (x - x')
  curv : ∀ x c v a x' c' v' a' c'' v'' a'', Motion pData T x c v a → Motion pData T x' c' v' a' →
    Motion pData T ((1 / 2 : ℝ) • (x + x')) c'' v'' a'' →
    motionCost pData l x a + motionCost pData l x' a' - 2 * motionCost pData l ((1 / 2 : ℝ) • (x + x')) a''
      = k / 2 * dot (x - x') (x - x')

/-! ## Weights -/

/-- The weight of the free point in a position of the curve is between zero and one. -/
theorem weight_le {n : ℕ} {flag : Flag} {p : ℕ → V3} {T t : ℝ} {co : Coefs} (h0 : 0 ≤ t / T) (h1 : t / T ≤ 1)
    (h : ∀ x, co.first • x + co.second = curve n (fill flag p x) T t) : |co.first| ≤ 1 := by
  have e : co.first = bez n (fun i => if i ∈ freeSlots flag then (1 : ℝ) else 0) (t / T) := by
    have a := congrFun (h fun _ => 1) 0
    have b := congrFun (h 0) 0
    simp only [Pi.add_apply, Pi.smul_apply, smul_eq_mul, mul_one, Pi.zero_apply, mul_zero, zero_add] at a b
    have : co.first = curve n (fill flag p fun _ => 1) T t 0 - curve n (fill flag p 0) T t 0 := by linarith
    rw [this]
    unfold curve
    rw [bez_apply, bez_apply, ← bez_sub]
    refine bez_congr fun i _ => ?_
    unfold fill
    by_cases hi : i ∈ freeSlots flag
    · simp [hi]
    · simp [hi]
  rw [abs_le]
  constructor
  · have : bez n (fun i => -(if i ∈ freeSlots flag then (1 : ℝ) else 0)) (t / T) ≤ 1 :=
      bez_le h0 h1 fun i _ => by split_ifs <;> norm_num
    have e2 := bez_smul n (-1) (fun i => if i ∈ freeSlots flag then (1 : ℝ) else 0) (t / T)
    simp only [smul_eq_mul, neg_mul, one_mul] at e2
    rw [e2, ← e] at this
    linarith
  · rw [e]
    exact bez_le h0 h1 fun i _ => by split_ifs <;> norm_num

theorem Constrained.mem {l : TTime} {t : ℝ} {p : ℕ} (h : Constrained l t p) : ∃ i, (t, i) ∈ l := by
  rcases h with h | ⟨l₁, i, t', l₂, rfl, -⟩
  · exact ⟨_, h⟩
  · exact ⟨i, by simp⟩

theorem motion_unique {pData : ProblemData} {T : ℝ} {x : V3} {c v a c' v' a' : ℝ → V3}
    (h : Motion pData T x c v a) (h' : Motion pData T x c' v' a') : c' = c ∧ v' = v ∧ a' = a := by
  obtain ⟨p, hp, rfl, hv, ha⟩ := h
  obtain ⟨p', hp', rfl, hv', ha'⟩ := h'
  rw [hp] at hp'
  cases hp'
  have e1 := deriv_unique hv hv'
  subst e1
  exact ⟨rfl, rfl, (deriv_unique ha ha').symm⟩

/-- The curvature of the cost is the factor of the Hessian. -/
theorem curv_hess {pData : ProblemData} {Ts : List ℝ} {l : TTime} {k : ℝ}
    (hs : ∀ x c v a x' c' v' a' c'' v'' a'', Motion pData Ts.sum x c v a → Motion pData Ts.sum x' c' v' a' →
      Motion pData Ts.sum ((1 / 2 : ℝ) • (x + x')) c'' v'' a'' →
      motionCost pData l x a + motionCost pData l x' a' - 2 * motionCost pData l ((1 / 2 : ℝ) • (x + x')) a''
        = k / 2 * dot (x - x') (x - x')) (hT : 0 < Ts.sum) (hle : ∀ q ∈ l, q.1 ≤ Ts.sum)
    (hf : pData.flag ∈ comFlags) (hc : GoodCost pData Ts.sum l) (pts : List V3)
    (hpts : computeConstantWaypoints pData.flag pData.bc Ts.sum = .ok pts) :
    0 < k ∧ ∃ w K, genCostFunction pData Ts Ts.sum l 3 = .ok (costH 0 k, costG 0 w) ∧
      ∀ x c v a, Motion pData Ts.sum x c v a → k * dot x x + 2 * dot w x = motionCost pData l x a - K := by
  obtain ⟨k', w, K, hk', hgen, hcost⟩ := cost_hess pData Ts hT l hle hf hc pts hpts 0
  rw [Nat.add_zero] at hgen hcost
  have hm : ∀ x, ∃ c v a, Motion pData Ts.sum x c v a := fun x => by
    obtain ⟨v, a, h⟩ := motion_exists pData Ts.sum pts hpts hf hT.ne' x
    exact ⟨_, v, a, h⟩
  have hq : ∀ x c v a, Motion pData Ts.sum x c v a → k' * dot x x + 2 * dot w x = motionCost pData l x a - K := by
    intro x c v a h
    have := hcost (ext3 x) c v a (by rw [first3_ext3]; exact h)
    rw [quadForm_head 0, first3_ext3] at this
    simpa using this
  obtain ⟨c, v, a, h1⟩ := hm fun _ => 1
  obtain ⟨c', v', a', h2⟩ := hm 0
  obtain ⟨c'', v'', a'', h3⟩ := hm ((1 / 2 : ℝ) • ((fun _ => 1) + (0 : V3)))
  have e := hs _ _ _ _ _ _ _ _ _ _ _ h1 h2 h3
  have e1 := hq _ _ _ _ h1
  have e2 := hq _ _ _ _ h2
  have e3 := hq _ _ _ _ h3
  have : k = k' := by
    simp only [dot, Pi.add_apply, Pi.smul_apply, Pi.zero_apply, Pi.sub_apply, smul_eq_mul] at e e1 e2 e3
    linarith
  subst this
  exact ⟨hk', w, K, hgen, hq⟩

theorem DataScale.hess {pData : ProblemData} {Ts : List ℝ} {l : TTime} {g : V3} {k R : ℝ}
    (hs : DataScale pData Ts.sum l g k R) (hT : 0 < Ts.sum) (hle : ∀ q ∈ l, q.1 ≤ Ts.sum)
    (hf : pData.flag ∈ comFlags) (hc : GoodCost pData Ts.sum l) (pts : List V3)
    (hpts : computeConstantWaypoints pData.flag pData.bc Ts.sum = .ok pts) :
    0 < k ∧ ∃ w K, genCostFunction pData Ts Ts.sum l 3 = .ok (costH 0 k, costG 0 w) ∧
      ∀ x c v a, Motion pData Ts.sum x c v a → k * dot x x + 2 * dot w x = motionCost pData l x a - K :=
  curv_hess hs.curv hT hle hf hc pts hpts

/-! ## The planners on samples -/

/-- The system and the cost given to the solver: their sizes, the norms of the rows, and what it means for a motion that
its free point satisfies the rows up to a tolerance or with a margin. -/
theorem planSamples_rows (pData : ProblemData) (Ts : List ℝ) (g : V3) (h : Accepted pData Ts g)
    (hf : pData.flag ∈ [11#32, 19#32, 27#32, 7#32, 15#32])
    (l : TTime) (hl : Discretisation Ts l) (hc : GoodCost pData Ts.sum l) {k R : ℝ}
    (hs : DataScale pData Ts.sum l g k R) :
    ∃ A b w K pts, computeConstantWaypoints pData.flag pData.bc Ts.sum = .ok pts ∧
      computeConstraintsOneStep pData Ts.length Ts.sum l = .ok (A, b) ∧ 0 < k ∧
      genCostFunction pData Ts Ts.sum l 3 = .ok (costH 0 k, costG 0 w) ∧
      (∀ x c v a, Motion pData Ts.sum x c v a → k * dot x x + 2 * dot w x = motionCost pData l x a - K) ∧
      A.cols = 3 ∧ Fits A b (Mat.noRows A.cols) (Mat.noRows 1) (costH 0 k) (costG 0 w) ∧
      (∀ r < A.rows, ∑ c ∈ Finset.range 3, A.e r c ^ 2 ≤ R ^ 2) ∧
      ∀ x c v a, Motion pData Ts.sum x c v a →
        (∀ δ, 0 ≤ δ → SatTol A b δ (ext3 x) → MeetsSamplesTol pData l (R * δ) δ c a) ∧
        (∀ m, 0 ≤ m → MeetsSamplesTol pData l (-(R * m)) (-m) c a → SatTol A b (-m) (ext3 x)) := by
  obtain ⟨pts, hpts⟩ := C01_answers pData.flag h.flag pData.bc Ts.sum h.capt
  have hpl := (C01_boundary_conditions pData.flag h.flag pData.bc Ts.sum h.total.ne' pts hpts 0).1
  obtain ⟨ht, hb⟩ := hl.tags h.ne h.pos
  obtain ⟨hk, w, K, hgen, hcost⟩ := hs.hess h.total (fun q hq => (hb q hq).2) h.flag hc pts hpts
  obtain ⟨ws, A, b, L, F, CO, AO, hws, hA, hcols, hbr, hbc, hAr, hrow, hF, hCO, hAO, hall⟩ :=
    oneStep_core pData Ts.length Ts.sum h.total l ht (fun q hq => (hb q hq).2) g h.phase h.flag pts hpts hpl
  -- the wrench is affine in the free point
  obtain ⟨ct0, e0, hc0, hg0, hgr⟩ := h.phase 0 (List.length_pos_iff.mpr h.ne)
  obtain ⟨rest, hrest⟩ : ∃ rest, pData.contacts = ct0 :: rest := by
    cases hcs : pData.contacts with
    | nil => rw [hcs] at hc0; simp at hc0
    | cons a r => rw [hcs] at hc0; simp at hc0; exact ⟨r, by rw [hc0]⟩
  obtain ⟨ws', hw', hx'⟩ := C04_wrench_waypoints_partial pData.flag hf ct0 rest e0 hg0.1 pData.bc
    Ts.sum h.total.ne' pts hpts
  rw [← hrest, hws] at hw'
  cases hw'
  have hmot : ∀ x c v a, Motion pData Ts.sum x c v a → ∀ t, (F (t / Ts.sum)).headAt x = a t ∧
      (F (t / Ts.sum)).tailAt x = -cr (c t) (g - a t) ∧ (CO (t / Ts.sum)).first • x + (CO (t / Ts.sum)).second = c t ∧
      (AO (t / Ts.sum)).first • x + (AO (t / Ts.sum)).second = a t := by
    rintro x c v a ⟨pts', hpts', rfl, hv, ha⟩ t
    rw [hpts] at hpts'
    cases hpts'
    obtain ⟨v', a', hv', ha', hst⟩ := hx' x
    obtain ⟨v2, a2, hv2, ha2, hacc⟩ := hAO x
    have e1 := deriv_unique hv hv'
    subst e1
    have e2 := deriv_unique ha ha'
    subst e2
    have e1 := deriv_unique hv hv2
    subst e1
    have e2 := deriv_unique ha ha2
    subst e2
    refine ⟨by rw [(hF _ x).1, (hst t).1], ?_, hCO t x, hacc t⟩
    rw [(hF _ x).2, (hst t).2, hgr, ← neg_wrenchTail, neg_neg]
  have hex : ∀ x, ∃ c v a, Motion pData Ts.sum x c v a := fun x => by
    obtain ⟨v, a, h⟩ := motion_exists pData Ts.sum pts hpts h.flag h.total.ne' x
    exact ⟨_, v, a, h⟩
  have hR0 : 0 ≤ R := zero_le_one.trans hs.one
  have hlip : ∀ q ∈ l, (F (q.1 / Ts.sum)).Lip R := by
    intro q hq y
    obtain ⟨c, v, a, hm⟩ := hex y
    obtain ⟨c', v', a', hm'⟩ := hex 0
    have e := hs.lip _ _ _ _ _ _ _ _ hm hm' q hq
    obtain ⟨p1, p2, -, -⟩ := hmot _ _ _ _ hm q.1
    obtain ⟨q1, q2, -, -⟩ := hmot _ _ _ _ hm' q.1
    have d1 : (F (q.1 / Ts.sum)).top *ᵥ y = a q.1 - a' q.1 := by
      rw [← p1, ← q1]; simp [Wp6.headAt]
    have d2 : (F (q.1 / Ts.sum)).bot *ᵥ y = -(cr (c q.1) (g - a q.1) - cr (c' q.1) (g - a' q.1)) := by
      have : (F (q.1 / Ts.sum)).bot *ᵥ y = (F (q.1 / Ts.sum)).tailAt y - (F (q.1 / Ts.sum)).tailAt 0 := by
        simp [Wp6.tailAt]
      rw [this, p2, q2]; abel
    rw [d1, d2, neg_dotProduct_neg, dot_eq, dot_eq, dot_eq]
    rw [sub_zero] at e
    exact e
  have haco : ∀ q ∈ l, |(AO (q.1 / Ts.sum)).first| ≤ R := by
    intro q hq
    obtain ⟨c, v, a, hm⟩ := hex ![1, 0, 0]
    obtain ⟨c', v', a', hm'⟩ := hex 0
    have e := hs.lip _ _ _ _ _ _ _ _ hm hm' q hq
    obtain ⟨-, -, -, p4⟩ := hmot _ _ _ _ hm q.1
    obtain ⟨-, -, -, q4⟩ := hmot _ _ _ _ hm' q.1
    have d : a q.1 - a' q.1 = (AO (q.1 / Ts.sum)).first • ![1, 0, 0] := by rw [← p4, ← q4]; simp
    apply abs_le_of_sq_le_sq _ hR0
    have nn : ∀ u : V3, 0 ≤ dot u u := fun u => by simp only [dot]; nlinarith [mul_self_nonneg (u 0), mul_self_nonneg (u 1), mul_self_nonneg (u 2)]
    have := nn (cr (c q.1) (g - a q.1) - cr (c' q.1) (g - a' q.1))
    rw [d] at e
    simp [dot] at e this
    nlinarith
  have hcw : ∀ q ∈ l, |(CO (q.1 / Ts.sum)).first| ≤ 1 := by
    intro q hq
    exact weight_le (div_nonneg (hb q hq).1 h.total.le) ((div_le_one h.total).mpr (hb q hq).2) (hCO q.1)
  have hmax : max 1 R = R := max_eq_right hs.one
  have hnorm : ∀ r ∈ L, eNorm r.1 ≤ R := by
    rw [hall fun r => eNorm r.1 ≤ R]
    refine ⟨fun t p hcon => ?_, fun _ q hq r hr => by rw [acc_rows_norm _ _ r hr]; exact haco q hq⟩
    obtain ⟨i, hi⟩ := hcon.mem
    obtain ⟨ct, e, hct, hg, -⟩ := h.phase p (hcon.lt ht).1
    refine ⟨ct, e, hct, hg.1, hg, _, updateH_ok hg, fun r hr => ?_, fun r hr => ?_⟩
    · have := stab_rows_norm hg (updateH_ok hg) g _ hR0 (hlip _ hi) r hr
      rwa [hmax] at this
    · obtain ⟨K, hK, hle⟩ := kin_rows_norm _ (hcw _ hi) r hr
      refine hle.trans ?_
      unfold eNorm
      rw [Real.sqrt_le_left hR0, dot_eq]
      exact hs.kin ct (List.mem_of_getElem? hct) K hK
  have hfits : Fits A b (Mat.noRows A.cols) (Mat.noRows 1) (costH 0 k) (costG 0 w) :=
    ⟨⟨rfl, rfl⟩, ⟨hbr, hbc, hcols⟩, ⟨rfl, hcols⟩⟩
  have hRow : ∀ r < A.rows, ∑ c ∈ Finset.range 3, A.e r c ^ 2 ≤ R ^ 2 := by
    intro r hr
    have hr' : r < L.length := hAr ▸ hr
    have hget := List.getElem?_eq_getElem hr'
    obtain ⟨q1, -⟩ := hrow r _ hget
    have hn := hnorm _ (List.getElem_mem hr')
    have hn2 := pow_le_pow_left₀ (eNorm_nonneg _) hn 2
    rw [eNorm_sq, dot_eq] at hn2
    refine le_trans (le_of_eq ?_) hn2
    simp only [Finset.sum_range_succ, Finset.sum_range_zero, zero_add]
    rw [q1 0 (by norm_num), q1 1 (by norm_num), q1 2 (by norm_num)]
    simp [V3.get, dot, sq]
  refine ⟨A, b, w, K, pts, hpts, hA, hk, hgen, hcost, hcols, hfits, hRow, fun x c v a hm => ⟨fun δ hδ0 hsat => ?_, fun m hm0 hmeet => ?_⟩⟩
  · rw [rows_satTol hAr hcols hrow, hall fun r => r.1 ⬝ᵥ x ≤ r.2 + δ] at hsat
    refine ⟨fun t p hcon => ?_, fun hacc q hq k => ?_⟩
    · obtain ⟨i, hi⟩ := hcon.mem
      obtain ⟨ct, e, hct, hcp, hg, H, hH, hstab, hkin⟩ := hsat.1 t p hcon
      obtain ⟨ct', e', hct', hg', hge⟩ := h.phase p (hcon.lt ht).1
      rw [hct] at hct'
      cases hct'
      rw [hg'.1] at hcp
      cases hcp
      obtain ⟨p1, p2, p3, -⟩ := hmot _ _ _ _ hm t
      refine ⟨ct, e, hct, hg.1, ?_, ?_⟩
      · have := stab_rows_tol hg hH g _ hR0 (hlip _ hi) hδ0 _ hstab
        rw [hmax, p1, p2, neg_neg, mul_comm] at this
        rw [hge]
        exact this
      · have := kin_rows_tol _ δ _ hkin
        rwa [p3] at this
    · have := acc_rows_tol _ _ δ _ (hsat.2 hacc q hq) k
      rwa [(hmot _ _ _ _ hm q.1).2.2.2] at this
  · rw [rows_satTol hAr hcols hrow, hall fun r => r.1 ⬝ᵥ x ≤ r.2 + -m]
    refine ⟨fun t p hcon => ?_, fun hacc q hq => ?_⟩
    · obtain ⟨i, hi⟩ := hcon.mem
      obtain ⟨ct, e, hct, hcp, hw, hkin⟩ := hmeet.1 t p hcon
      obtain ⟨ct', e', hct', hg', hge⟩ := h.phase p (hcon.lt ht).1
      rw [hct] at hct'
      cases hct'
      rw [hg'.1] at hcp
      cases hcp
      obtain ⟨p1, p2, p3, -⟩ := hmot _ _ _ _ hm t
      refine ⟨ct, e, hct, hg'.1, hg', _, updateH_ok hg', ?_, ?_⟩
      · refine stab_rows_margin hg' (updateH_ok hg') g _ hs.one (hlip _ hi) hm0 x ?_
        rw [p1, p2, neg_neg, ← hge]
        exact hw
      · apply kin_rows_tol_of
        rw [p3]; exact hkin
    · apply acc_rows_tol_of
      rw [(hmot _ _ _ _ hm q.1).2.2.2]
      exact hmeet.2 hacc q hq

/-- The part of a list of unknowns that is read. -/
theorem satTol_first3 {A b : Mat} {δ : ℝ} (hcols : A.cols = 3) (y : ℕ → ℝ) : SatTol A b δ (ext3 (first3 y)) ↔ SatTol A b δ y := by
  unfold SatTol
  refine forall₂_congr fun r hr => ?_
  rw [hcols, Finset.sum_congr rfl fun c hc => ?_]
  have := Finset.mem_range.mp hc
  simp only [ext3, dif_pos this, first3]

theorem planSamples_tol (lib : Lib) (hL : LibOk lib) (he : 0 ≤ lib.eps) (pData : ProblemData) (Ts : List ℝ) (g : V3)
    (h : Accepted pData Ts g) (hf : pData.flag ∈ [11#32, 19#32, 27#32, 7#32, 15#32])
    (l : TTime) (hl : Discretisation Ts l) (hc : GoodCost pData Ts.sum l) {k R : ℝ}
    (hs : DataScale pData Ts.sum l g k R) (h1 : lib.eps ≤ k) (h2 : lib.eps * R ^ 2 ≤ k ^ 2) :
    ∃ A b res N, computeConstraintsOneStep pData Ts.length Ts.sum l = .ok (A, b) ∧
      (∀ fuel ≥ N, planSamples lib fuel pData Ts l = .ok res) ∧
      (res.success = true → ∃ v a, Motion pData Ts.sum res.point res.c_of_t.eval v a ∧
        MeetsSamplesTol pData l (R * solverTol lib.eps k A.rows) (solverTol lib.eps k A.rows) res.c_of_t.eval a) := by
  obtain ⟨A, b, w, K, pts, hpts, hA, hk, hgen, -, hcols, hfits, hRow, hmeet⟩ := planSamples_rows pData Ts g h hf l hl hc hs
  obtain ⟨q, N, hrun, hxl, hsucc⟩ := solve_tol lib hL he hk w hfits rfl (List.replicate 3 0) hRow h1 h2
  obtain ⟨res, hres, hss, hgood⟩ := genTraj_total q pData Ts.sum h.total pts hpts h.flag (by omega)
  refine ⟨A, b, res, N, hA, fun fuel hfuel => ?_, fun hrs => ?_⟩
  · unfold planSamples
    rw [hA, Out.ok_bind, hgen, Out.ok_bind]
    dsimp only
    rw [hrun fuel hfuel, Out.ok_bind, hres]
  · rw [hss] at hrs
    obtain ⟨hp, -, hcurve⟩ := hgood hrs
    have hsat := hsucc hrs
    have hδ0 : 0 ≤ solverTol lib.eps k A.rows := by unfold solverTol; positivity
    obtain ⟨v, a, hm⟩ := motion_exists pData Ts.sum pts hpts h.flag h.total.ne' res.point
    rw [← hcurve] at hm
    refine ⟨v, a, hm, (hmeet _ _ _ _ hm).1 _ hδ0 ?_⟩
    rw [hp, satTol_first3 hcols]
    exact hsat

/-! ## Every problem has a scale -/

theorem Wp6.lip_exists (w : Wp6) : ∃ L, w.Lip L := by
  have key : ∀ (M : M3), ∃ C, 0 ≤ C ∧ ∀ y : V3, (M *ᵥ y) ⬝ᵥ (M *ᵥ y) ≤ C * (y ⬝ᵥ y) := by
    intro M
    refine ⟨∑ i, ∑ j, M i j ^ 2, by positivity, fun y => ?_⟩
    rw [dotProduct, Finset.sum_mul]
    refine Finset.sum_le_sum fun i _ => ?_
    have := Finset.sum_mul_sq_le_sq_mul_sq Finset.univ (M i) y
    rw [mulVec, ← sq, dotProduct]
    simp only [dotProduct, ← sq]
    exact this
  obtain ⟨C, hC, h1⟩ := key w.top
  obtain ⟨D, hD, h2⟩ := key w.bot
  refine ⟨Real.sqrt (C + D), fun y => ?_⟩
  rw [Real.sq_sqrt (by positivity), add_mul]
  exact add_le_add (h1 y) (h2 y)

theorem list_bound {α : Type} (f : α → ℝ) (l : List α) : ∃ B, 1 ≤ B ∧ ∀ a ∈ l, f a ≤ B := by
  induction l with
  | nil => exact ⟨1, le_rfl, by simp⟩
  | cons a l ih =>
    obtain ⟨B, h1, h2⟩ := ih
    refine ⟨max (f a) B, h1.trans (le_max_right _ _), ?_⟩
    intro b hb
    rcases List.mem_cons.mp hb with rfl | hb
    · exact le_max_left _ _
    · exact (h2 b hb).trans (le_max_right _ _)

/-- The wrench per unit of mass is an affine function of the free point. -/
theorem motion_wrench (pData : ProblemData) (Ts : List ℝ) (g : V3) (h : Accepted pData Ts g)
    (hf : pData.flag ∈ [11#32, 19#32, 27#32, 7#32, 15#32]) (l : TTime) (hl : Discretisation Ts l) :
    ∃ F : ℝ → Wp6, ∀ x c v a, Motion pData Ts.sum x c v a → ∀ t, (F t).headAt x = a t ∧
      (F t).tailAt x = -cr (c t) (g - a t) := by
  obtain ⟨pts, hpts⟩ := C01_answers pData.flag h.flag pData.bc Ts.sum h.capt
  have hpl := (C01_boundary_conditions pData.flag h.flag pData.bc Ts.sum h.total.ne' pts hpts 0).1
  obtain ⟨ht, hb⟩ := hl.tags h.ne h.pos
  obtain ⟨ws, A, b, L, F, CO, AO, hws, hA, hcols, hbr, hbc, hAr, hrow, hF, hCO, hAO, hall⟩ :=
    oneStep_core pData Ts.length Ts.sum h.total l ht (fun q hq => (hb q hq).2) g h.phase h.flag pts hpts hpl
  obtain ⟨ct0, e0, hc0, hg0, hgr⟩ := h.phase 0 (List.length_pos_iff.mpr h.ne)
  obtain ⟨rest, hrest⟩ : ∃ rest, pData.contacts = ct0 :: rest := by
    cases hcs : pData.contacts with
    | nil => rw [hcs] at hc0; simp at hc0
    | cons a r => rw [hcs] at hc0; simp at hc0; exact ⟨r, by rw [hc0]⟩
  obtain ⟨ws', hw', hx'⟩ := C04_wrench_waypoints_partial pData.flag hf ct0 rest e0 hg0.1 pData.bc
    Ts.sum h.total.ne' pts hpts
  rw [← hrest, hws] at hw'
  cases hw'
  refine ⟨fun t => F (t / Ts.sum), ?_⟩
  rintro x c v a ⟨pts', hpts', rfl, hv, ha⟩ t
  rw [hpts] at hpts'
  cases hpts'
  obtain ⟨v', a', hv', ha', hst⟩ := hx' x
  have e1 := deriv_unique hv hv'
  subst e1
  have e2 := deriv_unique ha ha'
  subst e2
  refine ⟨by rw [(hF _ x).1, (hst t).1], ?_⟩
  rw [(hF _ x).2, (hst t).2, hgr, ← neg_wrenchTail, neg_neg]

/-- C56, the scale of the data: it exists for every accepted problem, with a positive curvature. -/
theorem C56_scale_exists (pData : ProblemData) (Ts : List ℝ) (g : V3) (h : Accepted pData Ts g)
    (hf : pData.flag ∈ [11#32, 19#32, 27#32, 7#32, 15#32]) (l : TTime) (hl : Discretisation Ts l)
    (hc : pData.costFunction = DISTANCE_TRAVELED ∨ pData.costFunction = ACCELERATION) :
    ∃ k R, 0 < k ∧ DataScale pData Ts.sum l g k R := by
  have hgc := goodCost pData Ts h.total h.ne h.flag h.capt l hl
    (hc.imp_right fun hc => ⟨hc, fun e => by rw [e] at hf; simp at hf⟩)
  obtain ⟨pts, hpts⟩ := C01_answers pData.flag h.flag pData.bc Ts.sum h.capt
  obtain ⟨k, w, K, hk, -, hcost⟩ := cost_hess pData Ts h.total l
    (fun q hq => ((hl.tags h.ne h.pos).2 q hq).2) h.flag hgc pts hpts 0
  rw [Nat.add_zero] at hcost
  have hq : ∀ x c v a, Motion pData Ts.sum x c v a → k * dot x x + 2 * dot w x = motionCost pData l x a - K := by
    intro x c v a h
    have := hcost (ext3 x) c v a (by rw [first3_ext3]; exact h)
    rw [quadForm_head 0, first3_ext3] at this
    simpa using this
  obtain ⟨F, hF⟩ := motion_wrench pData Ts g h hf l hl
  choose L hL using fun t => (F t).lip_exists
  obtain ⟨B1, h1, hB1⟩ := list_bound (fun q : ℝ × ℤ => |L q.1|) l
  obtain ⟨B2, h2, hB2⟩ := list_bound (fun K : V3 => dot K K) (pData.contacts.flatMap fun ct => ct.Kin)
  refine ⟨k, max B1 B2, hk, h1.trans (le_max_left _ _), ?_, ?_, ?_⟩
  · intro ct hct K hK
    have := hB2 K (List.mem_flatMap.mpr ⟨ct, hct, hK⟩)
    have h3 : B2 ≤ max B1 B2 := le_max_right _ _
    nlinarith
  · intro x c v a x' c' v' a' hm hm' q hq
    obtain ⟨p1, p2⟩ := hF _ _ _ _ hm q.1
    obtain ⟨q1, q2⟩ := hF _ _ _ _ hm' q.1
    have e := hL q.1 (x - x')
    have d1 : (F q.1).top *ᵥ (x - x') = a q.1 - a' q.1 := by
      rw [← p1, ← q1, mulVec_sub]; simp [Wp6.headAt]
    have d2 : (F q.1).bot *ᵥ (x - x') = -(cr (c q.1) (g - a q.1) - cr (c' q.1) (g - a' q.1)) := by
      have : (F q.1).bot *ᵥ (x - x') = (F q.1).tailAt x - (F q.1).tailAt x' := by
        rw [mulVec_sub]; simp [Wp6.tailAt]
      rw [this, p2, q2]; abel
    rw [d1, d2, neg_dotProduct_neg, dot_eq, dot_eq, dot_eq] at e
    refine e.trans (mul_le_mul_of_nonneg_right ?_ ?_)
    · rw [← sq_abs]
      exact pow_le_pow_left₀ (abs_nonneg _) ((hB1 q hq).trans (le_max_left _ _)) 2
    · simp only [dot]
      nlinarith [mul_self_nonneg ((x - x') 0), mul_self_nonneg ((x - x') 1), mul_self_nonneg ((x - x') 2)]
  · intro x c v a x' c' v' a' c'' v'' a'' hm hm' hm''
    have e1 := hq _ _ _ _ hm
    have e2 := hq _ _ _ _ hm'
    have e3 := hq _ _ _ _ hm''
    simp only [dot, Pi.add_apply, Pi.smul_apply, Pi.sub_apply, smul_eq_mul] at e1 e2 e3 ⊢
    linarith

/-! ## The planners -/

/-- C56, `computeCOMTrajFixedSize` with the threshold of the solver: for every accepted problem with one of the five
exact constraint sets the call returns; a curve returned with `success_` meets the boundary conditions exactly and the
requirements at all samples up to the tolerance. -/
theorem C56_fixedSize_tolerance_partial (lib : Lib) (hL : LibOk lib) (he : 0 ≤ lib.eps) (pData : ProblemData)
    (Ts : List ℝ) (g : V3) (h : Accepted pData Ts g) (hr : pData.representation = DOUBLE_DESCRIPTION)
    (hf : pData.flag ∈ [11#32, 19#32, 27#32, 7#32, 15#32]) (n : ℕ) (hn : 0 < n)
    (hc : pData.costFunction = DISTANCE_TRAVELED ∨ pData.costFunction = ACCELERATION) {k R : ℝ}
    (hs : DataScale pData Ts.sum (computeDiscretizedTimeFixed Ts n) g k R) (h1 : lib.eps ≤ k)
    (h2 : lib.eps * R ^ 2 ≤ k ^ 2) :
    ∃ A b res N, computeConstraintsOneStep pData Ts.length Ts.sum (computeDiscretizedTimeFixed Ts n) = .ok (A, b) ∧
      (∀ fuel ≥ N, computeCOMTrajFixedSize lib fuel pData Ts n = .ok res) ∧
      (res.success = true → MeetsBoundary pData.flag pData.bc res.c_of_t.eval Ts.sum ∧
        ∃ v a, Motion pData Ts.sum res.point res.c_of_t.eval v a ∧
          MeetsSamplesTol pData (computeDiscretizedTimeFixed Ts n) (R * solverTol lib.eps k A.rows)
            (solverTol lib.eps k A.rows) res.c_of_t.eval a) := by
  have hD : Discretisation Ts (computeDiscretizedTimeFixed Ts n) := Or.inl ⟨n, hn, rfl⟩
  obtain ⟨A, b, res, N, hA, hrun, hv⟩ := planSamples_tol lib hL he pData Ts g h hf _ hD
    (goodCost pData Ts h.total h.ne h.flag h.capt _ hD
      (hc.imp_right fun hc => ⟨hc, fun e => by rw [e] at hf; simp at hf⟩)) hs h1 h2
  have hrun' : ∀ fuel ≥ N, computeCOMTrajFixedSize lib fuel pData Ts n = .ok res := by
    intro fuel hfuel
    have := hrun fuel hfuel
    unfold planSamples at this
    unfold computeCOMTrajFixedSize
    rw [if_pos hr, if_neg (not_not.mpr h.size)]
    exact this
  refine ⟨A, b, res, N, hA, hrun', fun hs => ⟨?_, hv hs⟩⟩
  obtain ⟨q, hq⟩ := (C29_planned pData Ts res).1 _ _ _ (hrun' N le_rfl)
  exact (C07_boundary_partial pData Ts q res hq hs h.flag).2.2

/-- C56, `computeCOMTraj` with a time step, with the threshold of the solver. -/
theorem C56_timeStep_tolerance_partial (κ : ℝ) (lib : Lib) (hL : LibOk lib) (he : 0 ≤ lib.eps) (pData : ProblemData)
    (Ts : List ℝ) (g : V3) (h : Accepted pData Ts g) (hr : pData.representation = DOUBLE_DESCRIPTION)
    (hf : pData.flag ∈ [11#32, 19#32, 27#32, 7#32, 15#32]) (step : ℝ) (hstep : 0 < step)
    (hshort : ∀ T ∈ Ts, step * 2 ≤ T)
    (hc : pData.costFunction = DISTANCE_TRAVELED ∨ pData.costFunction = ACCELERATION) {k R : ℝ}
    (hs : ∀ fuel l, computeDiscretizedTime Ts step fuel = .ok l → DataScale pData Ts.sum l g k R) (h1 : lib.eps ≤ k)
    (h2 : lib.eps * R ^ 2 ≤ k ^ 2) :
    ∃ l A b res N, Discretisation Ts l ∧
      (∀ fuel ≥ N, computeDiscretizedTime Ts step fuel = .ok l) ∧
      computeConstraintsOneStep pData Ts.length Ts.sum l = .ok (A, b) ∧
      (∀ fuel ≥ N, computeCOMTraj κ lib fuel pData Ts step SOLVER_QUADPROG = .ok res) ∧
      (res.success = true → MeetsBoundary pData.flag pData.bc res.c_of_t.eval Ts.sum ∧
        ∃ v a, Motion pData Ts.sum res.point res.c_of_t.eval v a ∧
          MeetsSamplesTol pData l (R * solverTol lib.eps k A.rows) (solverTol lib.eps k A.rows)
            res.c_of_t.eval a) := by
  obtain ⟨N0, hN0⟩ := C16_discretized_time Ts step hstep hshort
  obtain ⟨l, hl, -⟩ := hN0 N0 le_rfl
  have hdet : ∀ fuel ≥ N0, computeDiscretizedTime Ts step fuel = .ok l := by
    intro fuel hfuel
    obtain ⟨l', hl', -⟩ := hN0 fuel hfuel
    rw [hl', (disc_eq Ts step hstep _ _ hl').2, (disc_eq Ts step hstep _ _ hl).2]
  have hD : Discretisation Ts l := Or.inr ⟨step, hstep, N0, hl⟩
  obtain ⟨A, b, res, N, hA, hrun, hv⟩ := planSamples_tol lib hL he pData Ts g h hf l hD
    (goodCost pData Ts h.total h.ne h.flag h.capt l hD
      (hc.imp_right fun hc => ⟨hc, fun e => by rw [e] at hf; simp at hf⟩)) (hs _ _ hl) h1 h2
  obtain ⟨A', b', hA', hcols, -⟩ := C18_in_bounds_and_complete pData Ts g h l hD
  rw [hA] at hA'
  cases hA'
  have hrun' : ∀ fuel ≥ max N0 N, computeCOMTraj κ lib fuel pData Ts step SOLVER_QUADPROG = .ok res := by
    intro fuel hfuel
    have := hrun fuel (le_trans (le_max_right _ _) hfuel)
    unfold planSamples at this
    rw [hA, Out.ok_bind] at this
    unfold computeCOMTraj comSystem
    rw [if_neg (not_not.mpr h.size), if_pos hstep, if_pos hr, hdet fuel (le_trans (le_max_left _ _) hfuel), Out.ok_bind,
      hA, Out.ok_bind]
    simp only [Out.pure_eq, Out.ok_bind, hcols] at this ⊢
    exact this
  refine ⟨l, A, b, res, max N0 N, hD, fun fuel hfuel => hdet fuel (le_trans (le_max_left _ _) hfuel), hA, hrun',
    fun hs => ⟨?_, hv hs⟩⟩
  obtain ⟨q, hq⟩ := (C29_planned pData Ts res).2 _ _ _ _ _ (hrun' _ le_rfl)
  exact (C07_boundary_partial pData Ts q res hq hs h.flag).2.2

end Verif
