import Verif.Lemmas.FpRows
import Verif.Lemmas.FpAssembly
import Verif.Props.C56Tol

/-!
# Meaning of the constraints computed with rounding
-/

namespace Verif
open FExp Matrix

/-! ## Sizes -/

theorem normalizeFp_length {u : ℝ} {rows out : List (V3 × ℝ)} (h : NormalizeFp u rows out) : out.length = rows.length := by
  obtain ⟨hp, -⟩ := removeZeroRows_spec rows
  unfold NormalizeFp at h
  generalize hq : removeZeroRows rows = q at *
  obtain ⟨l, o⟩ := q
  rw [← hp.length_eq]
  cases o with
  | none => exact congrArg List.length h
  | some k =>
    obtain ⟨t, ht, rfl⟩ := h
    dsimp only at *
    rw [List.length_append, ← ht.length_eq, ← List.length_append, List.take_append_drop]

theorem RowFns.Rounded.lengths {F : RowFns} {u : ℝ} {pData : ProblemData} {g : V3} {T : ℝ} (h : F.Rounded u pData g T) : F.Lengths := by
  refine ⟨fun H g w => ?_, fun ct co => ?_, fun co => ?_⟩
  · obtain ⟨raw, h1, h2⟩ := h.stab H g w
    rw [normalizeFp_length h2, h1.length_eq]
  · rw [← (h.kin ct co).length_eq, List.length_zip]
  · obtain ⟨p, q, -, -, e⟩ := h.acc co
    rw [e]
    simp

theorem wrenchOk_mono {e : Equilibrium} {ρ δ δ' : ℝ} {f τ : V3} (h : WrenchOkTol e ρ δ f τ) (hle : δ ≤ δ') : WrenchOkTol e ρ δ' f τ :=
  fun r hr => wrenchRow_mono (h r hr) hle

theorem kinOk_mono {ct : ContactData} {δ δ' : ℝ} {c : V3} (h : KinOkTol ct δ c) (hle : δ ≤ δ') : KinOkTol ct δ' c :=
  fun q hq => (h q hq).trans (by linarith)

/-! ## Samples -/

/-- The wrenches that may be computed at the sample `t`. -/
def WrenchFp (pData : ProblemData) (g : V3) (T t u : ℝ) (w : Wp6) : Prop :=
  ∃ pts ws s, ConstantWaypointsFp u pData.flag pData.bc T pts ∧ WwaypointsFp u pData.flag pts g T ws ∧ TimeFp u t T s ∧ WSumFp u ws s w

/-- The coefficients of the position that may be computed at the sample `t`. -/
def PositionFp (pData : ProblemData) (T t u : ℝ) (co : Coefs) : Prop :=
  ∃ pts s, ConstantWaypointsFp u pData.flag pData.bc T pts ∧ TimeFp u t T s ∧ EvaluateCurveFp u pData.flag pts s co

/-- The coefficients of the acceleration that may be computed at the sample `t`. -/
def AccelerationFp (pData : ProblemData) (T t u : ℝ) (co : Coefs) : Prop :=
  ∃ pts s, ConstantWaypointsFp u pData.flag pData.bc T pts ∧ TimeFp u t T s ∧ EvaluateAccelerationFp u pData.flag pts T s co

/-- How fast the wrench per unit of mass changes with the free point at the samples: the part of `DataScale` that concerns the rows. -/
structure WrenchScale (pData : ProblemData) (T : ℝ) (l : TTime) (g : V3) (R : ℝ) : Prop where
  one : 1 ≤ R
  lip : ∀ x c v a x' c' v' a', Motion pData T x c v a → Motion pData T x' c' v' a' → ∀ q ∈ l,
    dot (a q.1 - a' q.1) (a q.1 - a' q.1)
      + dot (cr (c q.1) (g - a q.1) - cr (c' q.1) (g - a' q.1)) (cr (c q.1) (g - a q.1) - cr (c' q.1) (g - a' q.1))
      ≤ R ^ 2 * dot (x - x') (x - x')

theorem DataScale.wrench {pData : ProblemData} {T : ℝ} {l : TTime} {g : V3} {k R : ℝ} (h : DataScale pData T l g k R) : WrenchScale pData T l g R :=
  ⟨h.one, h.lip⟩

/-- The exact coefficients at the samples, how the computed ones differ, and what they mean for a motion. -/
theorem sample_data (pData : ProblemData) (Ts : List ℝ) (g : V3) (h : Accepted pData Ts g) (hf : pData.flag ∈ [11#32, 19#32, 27#32, 7#32, 15#32])
    (l : TTime) (hl : Discretisation Ts l) :
    ∃ (W : ℝ → Wp6) (CO AO : ℝ → Coefs), (∀ R, WrenchScale pData Ts.sum l g R → ∀ q ∈ l, (W q.1).Lip R) ∧
      (∀ q ∈ l, Ev fun u ε => ∀ w, WrenchFp pData g Ts.sum q.1 u w → WClose ε w (W q.1)) ∧
      (∀ q ∈ l, Ev fun u ε => ∀ co, PositionFp pData Ts.sum q.1 u co → CoClose ε co (CO q.1)) ∧
      (∀ q ∈ l, Ev fun u ε => ∀ co, AccelerationFp pData Ts.sum q.1 u co → CoClose ε co (AO q.1)) ∧
      ∀ x c v a, Motion pData Ts.sum x c v a → ∀ t, (W t).headAt x = a t ∧ (W t).tailAt x = -cr (c t) (g - a t) ∧
        (CO t).first • x + (CO t).second = c t ∧ (AO t).first • x + (AO t).second = a t := by
  have hT := h.total
  obtain ⟨pts, hpts⟩ := C01_answers pData.flag h.flag pData.bc Ts.sum h.capt
  have hpl := (C01_boundary_conditions pData.flag h.flag pData.bc Ts.sum hT.ne' pts hpts 0).1
  obtain ⟨ht, hb⟩ := hl.tags h.ne h.pos
  obtain ⟨ct0, e0, hc0, hg0, hgr⟩ := h.phase 0 (List.length_pos_iff.mpr h.ne)
  obtain ⟨rest, hrest⟩ : ∃ rest, pData.contacts = ct0 :: rest := by
    cases hcs : pData.contacts with
    | nil => rw [hcs] at hc0; simp at hc0
    | cons a r => rw [hcs] at hc0; simp at hc0; exact ⟨r, by rw [hc0]⟩
  obtain ⟨ws, hws, hwne, hwl⟩ := wwaypoints_ok pData.flag h.flag ct0 rest e0 hg0.1 pData.bc Ts.sum pts hpts
  obtain ⟨ws', hw', hx'⟩ := C04_wrench_waypoints_partial pData.flag hf ct0 rest e0 hg0.1 pData.bc Ts.sum hT.ne' pts hpts
  rw [hws] at hw'
  cases hw'
  obtain ⟨bs, hbs, F, hF⟩ := wSample ws hwne hwl
  rw [bern_list _ (by omega)] at hbs
  cases hbs
  have hC2 := fun t => C02_position_coefs_partial pData.flag h.flag pts hpl t
  choose CO hCO hCOx using hC2
  have hC3 := fun x => C03_acceleration_coefs_partial pData.flag h.flag pts hpl Ts.sum hT.ne' x
  obtain ⟨_, _, _, _, hA0⟩ := hC3 0
  choose AO hAO _ using hA0
  have hmot : ∀ x c v a, Motion pData Ts.sum x c v a → ∀ t, (F (t / Ts.sum)).headAt x = a t ∧
      (F (t / Ts.sum)).tailAt x = -cr (c t) (g - a t) ∧ (CO (t / Ts.sum)).first • x + (CO (t / Ts.sum)).second = c t ∧
      (AO (t / Ts.sum)).first • x + (AO (t / Ts.sum)).second = a t := by
    rintro x c v a ⟨pts', hpts', rfl, hv, ha⟩ t
    rw [hpts] at hpts'
    cases hpts'
    obtain ⟨v', a', hv', ha', hst⟩ := hx' x
    obtain ⟨v2, a2, hv2, ha2, hacc⟩ := hC3 x
    have e1 := deriv_unique hv hv'
    subst e1
    have e2 := deriv_unique ha ha'
    subst e2
    have e1 := deriv_unique hv hv2
    subst e1
    have e2 := deriv_unique ha ha2
    subst e2
    refine ⟨by rw [((hF _).2 x).1, (hst t).1], ?_, hCOx _ x, ?_⟩
    · rw [((hF _).2 x).2, (hst t).2, hgr, ← neg_wrenchTail, neg_neg]
    · obtain ⟨co, hco, hx⟩ := hacc (t / Ts.sum)
      rw [hAO] at hco
      cases hco
      rw [hx, div_mul_cancel₀ _ hT.ne']
  have hex : ∀ x, ∃ c v a, Motion pData Ts.sum x c v a := fun x => by
    obtain ⟨v, a, h⟩ := motion_exists pData Ts.sum pts hpts h.flag hT.ne' x
    exact ⟨_, v, a, h⟩
  have h1 : ∀ q ∈ l, q.1 / Ts.sum ≤ 1 := fun q hq => (div_le_one hT).mpr (hb q hq).2
  refine ⟨fun t => F (t / Ts.sum), fun t => CO (t / Ts.sum), fun t => AO (t / Ts.sum), ?_, ?_, ?_, ?_, hmot⟩
  · intro R hs q hq y
    obtain ⟨c, v, a, hm⟩ := hex y
    obtain ⟨c', v', a', hm'⟩ := hex 0
    have e := hs.lip _ _ _ _ _ _ _ _ hm hm' q hq
    obtain ⟨p1, p2, -, -⟩ := hmot _ _ _ _ hm q.1
    obtain ⟨q1, q2, -, -⟩ := hmot _ _ _ _ hm' q.1
    have d1 : (F (q.1 / Ts.sum)).top *ᵥ y = a q.1 - a' q.1 := by
      rw [← p1, ← q1]; simp [Wp6.headAt]
    have d2 : (F (q.1 / Ts.sum)).bot *ᵥ y = -(cr (c q.1) (g - a q.1) - cr (c' q.1) (g - a' q.1)) := by
      have : (F (q.1 / Ts.sum)).bot *ᵥ y = (F (q.1 / Ts.sum)).tailAt y - (F (q.1 / Ts.sum)).tailAt 0 := by
        simp [Wp6.tailAt]
      rw [this, p2, q2]; abel
    dsimp only
    rw [d1, d2, neg_dotProduct_neg, dot_eq, dot_eq, dot_eq]
    rw [sub_zero] at e
    exact e
  · intro q hq
    refine (wrench_near h.flag hT.ne' hpts (h1 q hq) hg0.1 hws hwne (hF _).1).imp 1 zero_le_one ?_
    rintro u ε - - H w ⟨pts', ws', s, k1, k2, k3, k4⟩
    rw [one_mul]
    exact H pts' ws' s w k1 (by rw [hgr]; exact k2) k3 k4
  · intro q hq
    refine (curve_near h.flag hT.ne' hpts (h1 q hq) (hCO _)).imp 1 zero_le_one ?_
    rintro u ε - - H co ⟨pts', s, k1, k2, k3⟩
    rw [one_mul]
    exact H pts' s co k1 k2 k3
  · intro q hq
    refine (acc_near h.flag hT.ne' hpts (h1 q hq) (hAO _)).imp 1 zero_le_one ?_
    rintro u ε - - H co ⟨pts', s, k1, k2, k3⟩
    rw [one_mul]
    exact H pts' s co k1 k2 k3

/-- What a point that satisfies the computed rows means for the motion with this free point. -/
theorem fp_samples (pData : ProblemData) (Ts : List ℝ) (g : V3) (h : Accepted pData Ts g) (hf : pData.flag ∈ [11#32, 19#32, 27#32, 7#32, 15#32])
    (l : TTime) (hl : Discretisation Ts l) {R : ℝ} (hs : WrenchScale pData Ts.sum l g R) :
    Ev fun u ε => ∀ F : RowFns, F.Rounded u pData g Ts.sum → ∃ A b, F.computeConstraintsOneStep pData Ts.length l = .ok (A, b) ∧ A.cols = 3 ∧
      b.rows = A.rows ∧ b.cols = 1 ∧ ∀ x c v a, Motion pData Ts.sum x c v a → ∀ δ, 0 ≤ δ → SatTol A b δ (ext3 x) →
        MeetsSamplesTol pData l ((R + ε) * δ + ε * (1 + ∑ k, |x k|)) (δ + ε * (1 + ∑ k, |x k|)) c a := by
  obtain ⟨W, CO, AO, hlip, hW, hCO, hAO, hmot⟩ := sample_data pData Ts g h hf l hl
  replace hlip := hlip R hs
  obtain ⟨ht, hb⟩ := hl.tags h.ne h.pos
  have hR0 : 0 ≤ R := zero_le_one.trans hs.one
  have hmax : max 1 R = R := max_eq_right hs.one
  have hX : ∀ x : V3, 0 ≤ ∑ k, |x k| := fun x => Finset.sum_nonneg fun k _ => abs_nonneg _
  -- one sample and one phase
  have hqp : ∀ q ∈ l, ∀ p < Ts.length, Ev fun u ε => ∀ ct e, pData.contacts[p]? = some ct → GoodContact ct e →
      (∀ H w' out, List.Forall₂ (UpdateHRowFp u e.mass pData.reduce_h) e.poly H → WrenchFp pData g Ts.sum q.1 u w' → StabFp u H g w' out →
        ∀ (x : V3) (δ : ℝ), 0 ≤ δ → (∀ r ∈ out, r.1 ⬝ᵥ x ≤ r.2 + δ) →
        WrenchOkTol e pData.reduce_h ((max 1 R + ε) * δ + ε * (1 + ∑ k, |x k|)) (e.mass • (g - (W q.1).headAt x)) (e.mass • (-(W q.1).tailAt x))) ∧
      ∀ co' out, PositionFp pData Ts.sum q.1 u co' → List.Forall₂ (KinRowFp u co') (List.zip ct.Kin ct.kin) out → ∀ (x : V3) (δ : ℝ),
        (∀ r ∈ out, r.1 ⬝ᵥ x ≤ r.2 + δ) → KinOkTol ct (δ + ε * (1 + ∑ k, |x k|)) ((CO q.1).first • x + (CO q.1).second) := by
    intro q hq p hp
    obtain ⟨ct, e, hct, hg, -⟩ := h.phase p hp
    refine (Ev.and (stab_fp hg pData.reduce_h g hR0 (hlip q hq) (hW q hq)) (kin_fp ct (hCO q hq)) ?_ ?_).imp 1 zero_le_one ?_
    · intro u ε ε' h hle H w' out h1 h2 h3 x δ hδ hx
      have := hX x
      exact wrenchOk_mono (h H w' out h1 h2 h3 x δ hδ hx) (by gcongr)
    · intro u ε ε' h hle co' out h1 h2 x δ hx
      have := hX x
      exact kinOk_mono (h co' out h1 h2 x δ hx) (by gcongr)
    · intro u ε _ _ H ct' e' hct' hg'
      rw [hct] at hct'
      cases hct'
      have he := hg.1
      rw [hg'.1] at he
      cases he
      rw [one_mul]
      exact H
  have hall := Ev.forall_list l (fun q hq => Ev.forall_lt (fun p hp => hqp q hq p hp) (by
      intro p hp u ε ε' H hle ct e hct hg
      obtain ⟨H1, H2⟩ := H ct e hct hg
      refine ⟨fun H w' out h1 h2 h3 x δ hδ hx => ?_, fun co' out h1 h2 x δ hx => ?_⟩
      · have := hX x
        exact wrenchOk_mono (H1 H w' out h1 h2 h3 x δ hδ hx) (by gcongr)
      · have := hX x
        exact kinOk_mono (H2 co' out h1 h2 x δ hx) (by gcongr))) (by
      intro q hq u ε ε' H hle p hp ct e hct hg
      obtain ⟨H1, H2⟩ := H p hp ct e hct hg
      refine ⟨fun H w' out h1 h2 h3 x δ hδ hx => ?_, fun co' out h1 h2 x δ hx => ?_⟩
      · have := hX x
        exact wrenchOk_mono (H1 H w' out h1 h2 h3 x δ hδ hx) (by gcongr)
      · have := hX x
        exact kinOk_mono (H2 co' out h1 h2 x δ hx) (by gcongr))
  have hacc := Ev.forall_list l (fun q hq => acc_fp pData.maxAcceleration (hAO q hq)) (by
      intro q hq u ε ε' H hle co' out h1 h2 x δ hx k
      have := hX x
      refine (H co' out h1 h2 x δ hx k).trans ?_
      gcongr)
  refine (Ev.and hall hacc ?_ ?_).imp 1 zero_le_one ?_
  · intro u ε ε' H hle q hq p hp ct e hct hg
    obtain ⟨H1, H2⟩ := H q hq p hp ct e hct hg
    refine ⟨fun H w' out h1 h2 h3 x δ hδ hx => ?_, fun co' out h1 h2 x δ hx => ?_⟩
    · have := hX x
      exact wrenchOk_mono (H1 H w' out h1 h2 h3 x δ hδ hx) (by gcongr)
    · have := hX x
      exact kinOk_mono (H2 co' out h1 h2 x δ hx) (by gcongr)
  · intro u ε ε' H hle q hq co' out h1 h2 x δ hx k
    have := hX x
    refine (H q hq co' out h1 h2 x δ hx k).trans ?_
    gcongr
  rintro u ε hu0 hε0 ⟨H1, H2⟩ F hF
  rw [one_mul]
  obtain ⟨ptw, ws, w1, w2, w3⟩ := hF.w
  obtain ⟨ptc, c1, c2⟩ := hF.co
  obtain ⟨pta, a1, a2⟩ := hF.ac
  choose sw W' w4 w5 w6 using w3
  choose sc CO' c3 c4 c5 using c2
  choose sa AO' a3 a4 a5 using a2
  have hupd : ∀ ct e, GoodContact ct e → ∃ H, List.Forall₂ (UpdateHRowFp u e.mass pData.reduce_h) e.poly H ∧ F.updH ct = .ok H :=
    fun ct e hg => hF.updH ct e hg.1 hg.2.1 hg.2.2.1 hg.2.2.2.1
  obtain ⟨A, b, L, hA, hcols, hbr, hbc, hAr, hrow, hrows⟩ := F.oneStep_rows hF.lengths pData Ts.length l ht g h.phase
    (fun ct e hg => by
      obtain ⟨H, k1, k2⟩ := hupd ct e hg
      exact ⟨H, k2, k1.length_eq.symm⟩) W' CO' AO' w6 c5 a5
  refine ⟨A, b, hA, hcols, hbr, hbc, fun x c v a hm δ hδ hsat => ?_⟩
  rw [rows_satTol hAr hcols hrow, hrows fun r => r.1 ⬝ᵥ x ≤ r.2 + δ] at hsat
  refine ⟨fun t p hcon => ?_, fun hac q hq k => ?_⟩
  · obtain ⟨i, hi⟩ := hcon.mem
    have hp := (hcon.lt ht).1
    obtain ⟨ct, e, hct, hcp, hg, H, hH, hstab, hkin⟩ := hsat.1 t p hcon
    obtain ⟨ct', e', hct', hg', hge⟩ := h.phase p hp
    rw [hct] at hct'
    cases hct'
    rw [hg'.1] at hcp
    cases hcp
    obtain ⟨H', k1, k2⟩ := hupd ct e hg
    rw [hH] at k2
    cases k2
    obtain ⟨p1, p2, p3, -⟩ := hmot _ _ _ _ hm t
    obtain ⟨G1, G2⟩ := H1 (t, i) hi p hp ct e hct hg
    refine ⟨ct, e, hct, hg.1, ?_, ?_⟩
    · have := G1 H (W' t) _ k1 ⟨ptw, ws, _, w1, w2, w4 t, w5 t⟩ (hF.stab H g (W' t)) x δ hδ hstab
      dsimp only at this
      rw [hmax, p1, p2, neg_neg] at this
      rw [hge]
      exact this
    · have hk : ∀ r ∈ F.kin ct (CO' t), r.1 ⬝ᵥ x ≤ r.2 + δ := by
        intro r hr
        apply hkin r
        unfold RowFns.kinRows
        split_ifs with h0
        · exact hr
        · have : (F.kin ct (CO' t)).length = 0 := by rw [hF.lengths.kin]; omega
          rw [List.length_eq_zero_iff.mp this] at hr
          simp at hr
      have := G2 (CO' t) _ ⟨ptc, _, c1, c3 t, c4 t⟩ (hF.kin ct (CO' t)) x δ hk
      dsimp only at this
      rw [p3] at this
      exact this
  · have := H2 q hq (AO' q.1) _ ⟨pta, _, a1, a3 q.1, a4 q.1⟩ (hF.acc _) x δ (hsat.2 hac q hq) k
    rw [(hmot _ _ _ _ hm q.1).2.2.2] at this
    exact this

end Verif
