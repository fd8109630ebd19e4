import Verif.Lemmas.FpMargin
import Verif.Props.C94Fl
import Verif.Props.C80Ex

/-!
# C95: the constraints computed with rounding keep every motion that has a margin
-/

namespace Verif
open FExp Matrix

/-- C95: for accepted data with one of the five sets whose wrench is exact there are `C` and `u₀`, which depend on the data only, such that whatever the
roundings of at most `u ≤ u₀` in `computeConstraintsOneStep`, the assembly returns a system, and the free point of every motion that meets all
requirements at the samples with a margin of `C u (1 + |x|)` satisfies all its rows. -/
theorem C95_rows (pData : ProblemData) (Ts : List ℝ) (g : V3) (h : Accepted pData Ts g) (hf : pData.flag ∈ [11#32, 19#32, 27#32, 7#32, 15#32])
    (l : TTime) (hl : Discretisation Ts l) :
    ∃ C u0 : ℝ, 0 ≤ C ∧ 0 < u0 ∧ ∀ u, 0 ≤ u → u ≤ u0 → ∀ F : RowFns, F.Rounded u pData g Ts.sum →
      ∃ A b, F.computeConstraintsOneStep pData Ts.length l = .ok (A, b) ∧ ∀ x c v a, Motion pData Ts.sum x c v a →
        MeetsSamplesTol pData l (-(C * u * (1 + ∑ k, |x k|))) (-(C * u * (1 + ∑ k, |x k|))) c a → SatTol A b 0 (ext3 x) := by
  obtain ⟨W, CO, AO, -, hW, hCO, hAO, hmot⟩ := sample_data pData Ts g h hf l hl
  obtain ⟨ht, hb⟩ := hl.tags h.ne h.pos
  have hX : ∀ x : V3, 0 ≤ ∑ k, |x k| := fun x => Finset.sum_nonneg fun k _ => abs_nonneg _
  have hneg : ∀ (x : V3) {ε ε' : ℝ}, ε ≤ ε' → -(ε' * (1 + ∑ k, |x k|)) ≤ -(ε * (1 + ∑ k, |x k|)) := by
    intro x ε ε' hle
    have := hX x
    gcongr
  have hqp : ∀ q ∈ l, ∀ p < Ts.length, Ev fun u ε => ∀ ct e, pData.contacts[p]? = some ct → GoodContact ct e →
      (∀ H w' out, List.Forall₂ (UpdateHRowFp u e.mass pData.reduce_h) e.poly H → WrenchFp pData g Ts.sum q.1 u w' → StabFp u H g w' out →
        ∀ x : V3, WrenchOkTol e pData.reduce_h (-(ε * (1 + ∑ k, |x k|))) (e.mass • (g - (W q.1).headAt x)) (e.mass • (-(W q.1).tailAt x)) →
        ∀ r ∈ out, r.1 ⬝ᵥ x ≤ r.2) ∧
      ∀ co' out, PositionFp pData Ts.sum q.1 u co' → List.Forall₂ (KinRowFp u co') (List.zip ct.Kin ct.kin) out → ∀ x : V3,
        KinOkTol ct (-(ε * (1 + ∑ k, |x k|))) ((CO q.1).first • x + (CO q.1).second) → ∀ r ∈ out, r.1 ⬝ᵥ x ≤ r.2 := by
    intro q hq p hp
    obtain ⟨ct, e, hct, hg, -⟩ := h.phase p hp
    refine (Ev.and (stab_margin hg pData.reduce_h g (hW q hq)) (kin_margin ct (hCO q hq)) ?_ ?_).imp 1 zero_le_one ?_
    · intro u ε ε' h hle H w' out h1 h2 h3 x hx
      exact h H w' out h1 h2 h3 x (wrenchOk_mono hx (hneg x hle))
    · intro u ε ε' h hle co' out h1 h2 x hx
      exact h co' out h1 h2 x (kinOk_mono hx (hneg x hle))
    · intro u ε _ _ H ct' e' hct' hg'
      rw [hct] at hct'
      cases hct'
      have he := hg.1
      rw [hg'.1] at he
      cases he
      rw [one_mul]
      exact H
  have hall := Ev.forall_list l (fun q hq => Ev.forall_lt (fun p hp => hqp q hq p hp) (by
      intro p hp u ε ε' H hle ct e hct hg
      obtain ⟨H1, H2⟩ := H ct e hct hg
      exact ⟨fun H w' out h1 h2 h3 x hx => H1 H w' out h1 h2 h3 x (wrenchOk_mono hx (hneg x hle)),
        fun co' out h1 h2 x hx => H2 co' out h1 h2 x (kinOk_mono hx (hneg x hle))⟩)) (by
      intro q hq u ε ε' H hle p hp ct e hct hg
      obtain ⟨H1, H2⟩ := H p hp ct e hct hg
      exact ⟨fun H w' out h1 h2 h3 x hx => H1 H w' out h1 h2 h3 x (wrenchOk_mono hx (hneg x hle)),
        fun co' out h1 h2 x hx => H2 co' out h1 h2 x (kinOk_mono hx (hneg x hle))⟩)
  have hacc := Ev.forall_list l (fun q hq => acc_margin pData.maxAcceleration (hAO q hq)) (by
      intro q hq u ε ε' H hle co' out h1 h2 x hx
      exact H co' out h1 h2 x fun k => (hx k).trans (by linarith [hneg x hle]))
  refine (Ev.and hall hacc ?_ ?_).imp 1 zero_le_one (Q := fun u ε => ∀ F : RowFns, F.Rounded u pData g Ts.sum →
      ∃ A b, F.computeConstraintsOneStep pData Ts.length l = .ok (A, b) ∧ ∀ x c v a, Motion pData Ts.sum x c v a →
        MeetsSamplesTol pData l (-(ε * (1 + ∑ k, |x k|))) (-(ε * (1 + ∑ k, |x k|))) c a → SatTol A b 0 (ext3 x)) ?_
  · intro u ε ε' H hle q hq p hp ct e hct hg
    obtain ⟨H1, H2⟩ := H q hq p hp ct e hct hg
    exact ⟨fun H w' out h1 h2 h3 x hx => H1 H w' out h1 h2 h3 x (wrenchOk_mono hx (hneg x hle)),
      fun co' out h1 h2 x hx => H2 co' out h1 h2 x (kinOk_mono hx (hneg x hle))⟩
  · intro u ε ε' H hle q hq co' out h1 h2 x hx
    exact H q hq co' out h1 h2 x fun k => (hx k).trans (by linarith [hneg x hle])
  rintro u ε hu0 hε0 ⟨H1, H2⟩ F hF
  rw [one_mul]
  obtain ⟨ptw, ws, w1, w2, w3⟩ := hF.w
  obtain ⟨ptc, c1, c2⟩ := hF.co
  obtain ⟨pta, a1, a2⟩ := hF.ac
  choose sw W' w4 w5 w6 using w3
  choose sc CO' c3 c4 c5 using c2
  choose sa AO' a3 a4 a5 using a2
  have hupd : ∀ ct e, GoodContact ct e → ∃ H, List.Forall₂ (UpdateHRowFp u e.mass pData.reduce_h) e.poly H ∧ F.updH ct = .ok H :=
    fun ct e hg => hF.updH ct e hg.1 hg.2.1 hg.2.2.1 hg.2.2.2.1
  obtain ⟨A, b, L, hA, hcols, hbr, hbc, hAr, hrow, hrows⟩ := F.oneStep_rows hF.lengths pData Ts.length l ht g h.phase
    (fun ct e hg => by
      obtain ⟨H, k1, k2⟩ := hupd ct e hg
      exact ⟨H, k2, k1.length_eq.symm⟩) W' CO' AO' w6 c5 a5
  refine ⟨A, b, hA, fun x c v a hm hsat => ?_⟩
  rw [rows_satTol hAr hcols hrow, hrows fun r => r.1 ⬝ᵥ x ≤ r.2 + 0]
  simp only [add_zero]
  refine ⟨fun t p hcon => ?_, fun hac q hq => ?_⟩
  · obtain ⟨i, hi⟩ := hcon.mem
    have hp := (hcon.lt ht).1
    obtain ⟨ct, e, hct, hcp, hwr, hki⟩ := hsat.1 t p hcon
    obtain ⟨ct', e', hct', hg, hge⟩ := h.phase p hp
    rw [hct] at hct'
    cases hct'
    rw [hg.1] at hcp
    cases hcp
    obtain ⟨H, k1, k2⟩ := hupd ct e hg
    obtain ⟨p1, p2, p3, -⟩ := hmot _ _ _ _ hm t
    obtain ⟨G1, G2⟩ := H1 (t, i) hi p hp ct e hct hg
    refine ⟨ct, e, hct, hg.1, hg, H, k2, ?_, ?_⟩
    · refine G1 H (W' t) _ k1 ⟨ptw, ws, _, w1, w2, w4 t, w5 t⟩ (hF.stab H g (W' t)) x ?_
      dsimp only
      rw [p1, p2, neg_neg]
      rw [hge] at hwr
      exact hwr
    · intro r hr
      unfold RowFns.kinRows at hr
      split_ifs at hr with h0
      · refine G2 (CO' t) _ ⟨ptc, _, c1, c3 t, c4 t⟩ (hF.kin ct (CO' t)) x ?_ r hr
        dsimp only
        rw [p3]
        exact hki
      · simp at hr
  · refine H2 q hq (AO' q.1) _ ⟨pta, _, a1, a3 q.1, a4 q.1⟩ (hF.acc _) x fun k => ?_
    rw [(hmot _ _ _ _ hm q.1).2.2.2]
    exact hsat.2 hac q hq k

/-- A non-trivial case: the example of C56, for every rounding function precise enough. -/
theorem restPhases_fl_keeps (n : ℕ) (hn : 0 < n) : ∃ u0 : ℝ, 0 < u0 ∧ ∀ u, 0 ≤ u → u ≤ u0 → ∀ fl : ℝ → ℝ, Rounding fl u →
    ∃ A b, (RowFns.ofFl fl restPhases ![0, 0, -9.81] ([1, 2] : List ℝ).sum).computeConstraintsOneStep restPhases 2 (computeDiscretizedTimeFixed [1, 2] n) = .ok (A, b) ∧
      SatTol A b 0 (ext3 ![1 / 10, 0, 0]) := by
  have hD : Discretisation [1, 2] (computeDiscretizedTimeFixed [1, 2] n) := Or.inl ⟨n, hn, rfl⟩
  have hf : restPhases.flag ∈ [11#32, 19#32, 27#32, 7#32, 15#32] := by simp [restPhases, twoPhases]
  obtain ⟨c, v, a, hmot, hmeet, -⟩ := restPhases_slack n hn
  obtain ⟨C, u0, hC, hu0, hall⟩ := C95_rows restPhases [1, 2] _ restPhases_accepted hf _ hD
  refine ⟨min u0 (1 / (4 * (C + 1))), lt_min hu0 (by positivity), fun u hu hu1 fl hfl => ?_⟩
  obtain ⟨A, b, k1, k2⟩ := hall u hu (hu1.trans (min_le_left _ _)) _ (C94_rounding hu hfl restPhases [1, 2] _ restPhases_accepted)
  refine ⟨A, b, k1, k2 _ _ _ _ hmot ?_⟩
  have h1 : C * u * (1 + ∑ k, |(![1 / 10, 0, 0] : V3) k|) ≤ 1 / 2 := by
    have h2 : u ≤ 1 / (4 * (C + 1)) := hu1.trans (min_le_right _ _)
    rw [le_div_iff₀ (by positivity)] at h2
    rw [Fin.sum_univ_three]
    simp
    nlinarith [abs_of_pos (show (0 : ℝ) < 1 / 10 by norm_num)]
  refine ⟨fun t p hcon => ?_, fun hac q hq k => (hmeet.2 hac q hq k).trans (by linarith)⟩
  obtain ⟨ct, e, k1, k2, k3, k4⟩ := hmeet.1 t p hcon
  exact ⟨ct, e, k1, k2, wrenchOk_mono k3 (by linarith), kinOk_mono k4 (by linarith)⟩

end Verif
