import Verif.Lemmas.QuadRun

/-!
Memory safety and termination of the QP solver without exactness of the tests: it is enough that no
constraint is rejected in the main loop, which follows from a condition on the data.
-/

namespace Verif
open Matrix

variable {n : ℕ}

/-- A condition on the data: the Hessian is at least `lam` times the identity, `e' Hess^-1 e ≤ B` for every
row `e` of the constraints, and `eps B ≤ lam`. -/
structure Conditioned (eps lam B : ℝ) (P : QP n) (J0 : ℕ → VecN n) : Prop where
  eps0 : 0 ≤ eps
  B1 : 1 ≤ B
  hess : ∀ v : VecN n, lam * (v ⬝ᵥ v) ≤ v ⬝ᵥ P.G *ᵥ v
  eqs : ∀ e ∈ P.CE, e.1 ⬝ᵥ jj J0 e.1 ≤ B
  ineqs : ∀ e ∈ P.CI, e.1 ⬝ᵥ jj J0 e.1 ≤ B
  prod : eps * B ≤ lam

/-- The factors, the active set and the norm estimate. Active inequalities hold with equality at the current
point, and so do the equalities if `S`. -/
structure SBase (P : QP n) (B : ℝ) (S : Prop) (ne : ℕ) (st : QState n) : Prop where
  fac : Factors P.G st.J st.R (nrm P st.A) st.iq
  ne_le : ne ≤ st.iq
  ne_len : ne ≤ P.CE.length
  eqs : ∀ k, k < ne → st.A k = -(k : ℤ) - 1
  rng : ∀ k, ne ≤ k → k < st.iq → 0 ≤ st.A k ∧ st.A k < P.CI.length
  inj : ∀ k k', ne ≤ k → k < st.iq → ne ≤ k' → k' < st.iq → st.A k = st.A k' → k = k'
  act : ∀ k, (k < ne → S) → k < st.iq → (conOf P (st.A k)).1 ⬝ᵥ st.x + (conOf P (st.A k)).2 = 0
  rn0 : 0 ≤ st.Rnorm
  rnB : st.Rnorm ^ 2 ≤ B

structure SInv1 (P : QP n) (B : ℝ) (S : Prop) (st : QState n) : Prop where
  base : SBase P B S P.CE.length st
  iai : ∀ j, j < P.CI.length → st.iai j = -1 → ∃ k, P.CE.length ≤ k ∧ k < st.iq ∧ st.A k = j

structure SInv2 (P : QP n) (B : ℝ) (S : Prop) (st : QState n) : Prop where
  base : SBase P B S P.CE.length st
  iai : IaiOk P st
  excl : ∀ j, st.iaexcl j = true
  slack : ∀ j, j < P.CI.length → st.s j = P.slack st.x j
  ss : st.ss = 0

structure SMoved (P : QP n) (B : ℝ) (S : Prop) (st : QState n) : Prop where
  base : SBase P B S P.CE.length st
  iai : IaiOk P st
  ip_lt : st.ip < P.CI.length
  ip_A : st.A st.iq = st.ip
  ip_new : ∀ k, P.CE.length ≤ k → k < st.iq → st.A k ≠ st.ip

structure SInvA (P : QP n) (B : ℝ) (S : Prop) (st : QState n) : Prop where
  mv : SMoved P B S st
  slack : st.s st.ip = P.slack st.x st.ip

theorem SMoved.room {P : QP n} {B : ℝ} {S : Prop} {st : QState n} (h : SMoved P B S st) : st.iq < P.CE.length + P.CI.length := by
  have hb := h.base
  have hm : ∀ k ∈ Finset.Ico P.CE.length (st.iq + 1), (st.A k).toNat ∈ Finset.range P.CI.length := by
    intro k hk
    obtain ⟨h1, h2⟩ := Finset.mem_Ico.mp hk
    rw [Finset.mem_range]
    by_cases he : k = st.iq
    · subst he; rw [h.ip_A]; simpa using h.ip_lt
    · have := hb.rng k h1 (by omega); omega
  have hi : Set.InjOn (fun k => (st.A k).toNat) (Finset.Ico P.CE.length (st.iq + 1) : Set ℕ) := by
    intro a ha b hb' hab
    obtain ⟨a1, a2⟩ := Finset.mem_Ico.mp (Finset.mem_coe.mp ha)
    obtain ⟨b1, b2⟩ := Finset.mem_Ico.mp (Finset.mem_coe.mp hb')
    simp only at hab
    by_cases ea : a = st.iq
    · by_cases eb : b = st.iq
      · rw [ea, eb]
      · have r := hb.rng b b1 (by omega)
        have := h.ip_new b b1 (by omega)
        rw [ea, h.ip_A] at hab
        exfalso; apply this; omega
    · have ra := hb.rng a a1 (by omega)
      by_cases eb : b = st.iq
      · have := h.ip_new a a1 (by omega)
        rw [eb, h.ip_A] at hab
        exfalso; apply this; omega
      · have rb := hb.rng b b1 (by omega)
        exact hb.inj a b a1 (by omega) b1 (by omega) (by omega)
  have := Finset.card_le_card_of_injOn _ hm hi
  have hne := hb.ne_le
  simp at this
  omega

theorem SMoved.drop {P : QP n} {B : ℝ} {S : Prop} {st : QState n} (h : SMoved P B S st) {kk : ℕ} (h1 : P.CE.length ≤ kk)
    (h2 : kk < st.iq) :
    ∃ st', dropActive P st (st.A kk) = .ok st' ∧ SMoved P B S st' ∧ st'.iq + 1 = st.iq ∧ st'.iter = st.iter ∧
      st'.x = st.x ∧ st'.s = st.s ∧ st'.ip = st.ip := by
  have hb := h.base
  have hr := hb.rng kk h1 h2
  obtain ⟨a, ha, hA, _, hF⟩ := hb.fac.delete (u := st.u) h.room h1 h2 rfl
    (fun i hi hi' he => by
      have := hb.inj i kk hi (by omega) h1 h2 he
      omega)
  unfold dropActive
  rw [if_pos hr, ha]
  refine ⟨_, rfl, ?_, by simp only; omega, rfl, rfl, rfl, rfl⟩
  have hA1 : ∀ k, k < st.iq - 1 → a.A k = st.A (if k < kk then k else k + 1) := by
    intro k hk
    rw [hA]
    by_cases hk' : k < kk
    · simp only [hk', if_true]
      rw [if_neg (by omega), if_neg (by omega)]
    · simp only [hk', if_false]
      rw [if_pos (by omega)]
  have hA2 : a.A (st.iq - 1) = st.A st.iq := by
    rw [hA]; simp only
    rw [if_pos (by omega), Nat.sub_add_cancel (by omega)]
  have hdel : ∀ k, k < st.iq - 1 → (if k < kk then k else k + 1) < st.iq ∧ (P.CE.length ≤ k → P.CE.length ≤ if k < kk then k else k + 1) := by
    intro k hk; split_ifs <;> constructor <;> intros <;> omega
  refine ⟨⟨?_, ?_, hb.ne_len, ?_, ?_, ?_, ?_, hb.rn0, hb.rnB⟩, ?_, h.ip_lt, ?_, ?_⟩
  · apply hF.congr
    intro k hk
    simp only [nrm]
    rw [hA1 k hk]
    split_ifs <;> rfl
  · simp only; omega
  · intro k hk
    simp only
    rw [hA1 k (by omega), if_pos (by omega)]
    exact hb.eqs k hk
  · intro k hk hk'
    simp only at hk' ⊢
    rw [hA1 k hk']
    exact hb.rng _ ((hdel k hk').2 hk) (hdel k hk').1
  · intro k k' hk hk1 hk' hk1' he
    simp only at he hk1 hk1'
    rw [hA1 k hk1, hA1 k' hk1'] at he
    have := hb.inj _ _ ((hdel k hk1).2 hk) (hdel k hk1).1 ((hdel k' hk1').2 hk') (hdel k' hk1').1 he
    split_ifs at this <;> omega
  · intro k hS hk
    simp only at hk ⊢
    rw [hA1 k hk]
    refine hb.act _ (fun h' => hS ?_) (hdel k hk).1
    split_ifs at h' <;> omega
  · intro j hj
    simp only
    by_cases hjl : j = (st.A kk).toNat
    · subst hjl
      rw [Function.update_self]
      constructor
      · intro h0; omega
      · rintro ⟨k, hk1, hk2, hk3⟩
        exfalso
        rw [hA1 k hk2] at hk3
        have := hb.inj _ kk ((hdel k hk2).2 hk1) (hdel k hk2).1 h1 h2 (by omega)
        split_ifs at this <;> omega
    · rw [Function.update_of_ne hjl, h.iai j hj]
      constructor
      · rintro ⟨k, hk1, hk2, hk3⟩
        have hkk : k ≠ kk := by rintro rfl; omega
        by_cases hlt : k < kk
        · exact ⟨k, hk1, by omega, by rw [hA1 k (by omega), if_pos hlt]; exact hk3⟩
        · refine ⟨k - 1, by omega, by omega, ?_⟩
          rw [hA1 (k - 1) (by omega), if_neg (by omega), Nat.sub_add_cancel (by omega)]
          exact hk3
      · rintro ⟨k, hk1, hk2, hk3⟩
        rw [hA1 k hk2] at hk3
        exact ⟨_, (hdel k hk2).2 hk1, (hdel k hk2).1, hk3⟩
  · simp only; rw [hA2]; exact h.ip_A
  · intro k hk hk'
    simp only at hk' ⊢
    rw [hA1 k hk']
    exact h.ip_new _ ((hdel k hk').2 hk) (hdel k hk').1

theorem jj_unique {G : Matrix (Fin n) (Fin n) ℝ} {J J' : ℕ → VecN n} (h : Factor G J) (h' : Factor G J') (v : VecN n) :
    jj J v = jj J' v := by
  have e : G *ᵥ jj J' v = v := h' v
  rw [← h.left (jj J' v), e]

/-- The new diagonal entry is bounded. -/
theorem last_le {G : Matrix (Fin n) (Fin n) ℝ} {J J0 : ℕ → VecN n} (h : Factor G J) (h0 : Factor G J0) {iq : ℕ}
    (hq : iq ≤ n) (np : VecN n) : updateZ J (computeD J np) iq ⬝ᵥ np ≤ np ⬝ᵥ jj J0 np := by
  rw [← jj_unique h h0, jj_dot, z_np, ← Finset.sum_range_add_sum_Ico _ hq]
  have : 0 ≤ ∑ k ∈ Finset.range iq, (J k ⬝ᵥ np) * (J k ⬝ᵥ np) := Finset.sum_nonneg fun _ _ => mul_self_nonneg _
  have e : ∑ j ∈ Finset.Ico iq n, computeD J np j ^ 2 = ∑ k ∈ Finset.Ico iq n, (J k ⬝ᵥ np) * (J k ⬝ᵥ np) :=
    Finset.sum_congr rfl fun _ _ => by rw [computeD, sq]
  linarith

theorem rnorm_step {B Rn last : ℝ} (h0 : 0 ≤ Rn) (h1 : Rn ^ 2 ≤ B) (h2 : last ^ 2 ≤ B) :
    0 ≤ max Rn |last| ∧ max Rn |last| ^ 2 ≤ B := by
  refine ⟨h0.trans (le_max_left _ _), ?_⟩
  rcases le_total Rn |last| with h | h
  · rw [max_eq_right h, sq_abs]; exact h2
  · rw [max_eq_left h]; exact h1

/-- What a step from `l2a` leads to. -/
def SPostA (P : QP n) (B : ℝ) (S : Prop) (st : QState n) : QNext n → Prop
  | .ret .unbounded _ => True
  | .l1 s => SInv1 P B S s ∧ s.iter = st.iter
  | .l2a s => SInvA P B S s ∧ s.iter = st.iter ∧ s.iq + 1 = st.iq
  | _ => False

theorem SMoved.congr {P : QP n} {B : ℝ} {S : Prop} {st st' : QState n} (h : SMoved P B S st) (e1 : st'.J = st.J)
    (e2 : st'.R = st.R) (e3 : st'.A = st.A) (e4 : st'.iq = st.iq) (e5 : st'.iai = st.iai) (e6 : st'.ip = st.ip)
    (e7 : st'.Rnorm = st.Rnorm) (e8 : st'.x = st.x) : SMoved P B S st' := by
  obtain ⟨⟨a1, a2, a3, a4, a5, a6, a7, a8, a9⟩, b, c, d, e⟩ := h
  refine ⟨⟨?_, ?_, a3, ?_, ?_, ?_, ?_, ?_, ?_⟩, ?_, ?_, ?_, ?_⟩
  all_goals simp only [IaiOk, e1, e2, e3, e4, e5, e6, e7, e8]
  all_goals assumption

theorem SMoved.move {P : QP n} {B : ℝ} {S : Prop} {st : QState n} (h : SMoved P B S st) (t : ℝ) :
    SMoved P B S (moved P st t) := by
  have hb := h.base
  refine ⟨⟨hb.fac, hb.ne_le, hb.ne_len, hb.eqs, hb.rng, hb.inj, ?_, hb.rn0, hb.rnB⟩, h.iai, h.ip_lt, h.ip_A, h.ip_new⟩
  intro k hS hk
  change k < st.iq at hk
  have hx : (moved P st t).x = st.x + t • updateZ st.J (computeD st.J (P.row st.ip).1) st.iq := rfl
  have hA : (moved P st t).A = st.A := rfl
  have := hb.fac.z_normal (computeD st.J (P.row st.ip).1) hk
  unfold nrm at this
  rw [hx, hA, dotProduct_add, dotProduct_smul, this, smul_zero, add_zero]
  exact hb.act k hS hk

/-- A constraint is only rejected when the direction is short. -/
theorem accepted {eps lam B : ℝ} {P : QP n} {J0 : ℕ → VecN n} (hC : Conditioned eps lam B P J0) {st : QState n}
    {N : ℕ → VecN n} (hf : Factors P.G st.J st.R N st.iq) (h0 : 0 ≤ st.Rnorm) (hB : st.Rnorm ^ 2 ≤ B) {np : VecN n}
    (hz : eps < updateZ st.J (computeD st.J np) st.iq ⬝ᵥ updateZ st.J (computeD st.J np) st.iq) {last : ℝ}
    (hl : last ^ 2 = updateZ st.J (computeD st.J np) st.iq ⬝ᵥ np) : eps * st.Rnorm < |last| := by
  apply lt_of_pow_lt_pow_left₀ 2 (abs_nonneg _)
  rw [sq_abs, hl]
  set z := updateZ st.J (computeD st.J np) st.iq with hzd
  have hz0 : z ≠ 0 := dot_self_pos.mp (lt_of_le_of_lt hC.eps0 hz)
  have e1 := hf.zGz np
  have e2 := hC.hess z
  rw [← hzd] at e1
  rw [e1] at e2
  have e3 : eps * B * (z ⬝ᵥ z) ≤ lam * (z ⬝ᵥ z) := mul_le_mul_of_nonneg_right hC.prod (hC.eps0.trans hz.le)
  have h0' := hC.eps0
  have hB' := hC.B1
  rcases h0'.lt_or_eq with he | he
  · have e4 : eps * B * eps < eps * B * (z ⬝ᵥ z) := by
      apply mul_lt_mul_of_pos_left hz; positivity
    have e5 : (eps * st.Rnorm) ^ 2 ≤ eps * B * eps := by
      have := mul_le_mul_of_nonneg_left hB (mul_nonneg h0' h0')
      nlinarith
    linarith
  · rw [← he]; simp only [zero_mul]
    have := z_np_pos hz0
    rw [← hzd] at this
    simpa using this

theorem SstepL2a_ok {eps lam B : ℝ} {S : Prop} {P : QP n} {J0 : ℕ → VecN n} (hF : Factor P.G J0)
    (hC : Conditioned eps lam B P J0) {st : QState n} (h' : SInvA P B S st) :
    ∃ q, stepL2a eps P st = .ok q ∧ SPostA P B S st q := by
  have h := h'.mv
  have hb := h.base
  unfold stepL2a
  rw [if_pos ⟨hb.fac.le, h.room, h.ip_lt⟩]
  set np := (P.row st.ip).1 with hnp
  set d := computeD st.J np with hd
  set z := updateZ st.J d st.iq with hz
  set r := updateR st.R d st.iq with hr
  set p := partialLen r st.u st.A (List.range' P.CE.length (st.iq - P.CE.length)) (none, 0) with hp
  have hzz : |z ⬝ᵥ z| = z ⬝ᵥ z := abs_of_nonneg (by
    unfold dotProduct; exact Finset.sum_nonneg fun i _ => mul_self_nonneg _)
  have hmv : ∀ t, { st with x := st.x + t • z, f := st.f + t * (z ⬝ᵥ np) * (1 / 2 * t + st.u st.iq),
                            u := moveU st.u r st.iq t } = moved P st t := fun t => rfl
  have hM : ∀ t, SMoved P B S (moved P st t) := fun t => h.move t
  simp only [← hd, ← hz, ← hr, ← hp, hzz]
  by_cases hc : z ⬝ᵥ z > eps
  · rw [if_pos hc]
    have hz0 : z ≠ 0 := dot_self_pos.mp (lt_of_le_of_lt hC.eps0 hc)
    simp only [hmv]
    set t2 := -st.s st.ip / (z ⬝ᵥ np) with ht2
    by_cases hcl : (chooseLen p.1 t2).2
    · rw [if_pos hcl]
      have hlt : st.iq < n := by
        by_contra hc'
        apply hz0
        rw [hz, updateZ, Finset.Ico_eq_empty (by omega), Finset.sum_empty]
      obtain ⟨a, ha, hok, hfac, hiff, hl2, hRn⟩ := hb.fac.add eps st.Rnorm np hlt
      have hl2' : a.last ^ 2 ≤ B := by
        rw [hl2]
        exact (last_le hb.fac.fac hF hb.fac.le np).trans (hC.ineqs _ (row_mem h.ip_lt))
      have haok : a.ok := hok.mpr (accepted hC hb.fac hb.rn0 hb.rnB hc hl2)
      have hlast : a.last ≠ 0 := hiff.mp hz0
      unfold fullStep
      have ha2 : ∀ t, addConstraint eps (moved P st t).J (moved P st t).R d (moved P st t).iq (moved P st t).Rnorm = .ok a := fun _ => ha
      rw [ha2]
      simp only [haok, if_true]
      rw [if_pos haok] at hRn
      obtain ⟨r1, r2⟩ := rnorm_step hb.rn0 hb.rnB hl2'
      refine ⟨_, rfl, ?_, rfl⟩
      refine ⟨⟨?_, ?_, hb.ne_len, hb.eqs, ?_, ?_, ?_, ?_, ?_⟩, ?_⟩
      · apply (hfac hlast).congr
        intro k hk
        by_cases hk' : k = st.iq
        · subst hk'
          rw [Function.update_self, nrm]
          change (conOf P (st.A st.iq)).1 = np
          rw [h.ip_A, conOf_nat]
        · rw [Function.update_of_ne hk']
          rfl
      · have := hb.ne_le
        change P.CE.length ≤ st.iq + 1
        omega
      · intro k hk hk'
        change k < st.iq + 1 at hk'
        by_cases hk2 : k = st.iq
        · subst hk2
          change 0 ≤ st.A st.iq ∧ st.A st.iq < P.CI.length
          rw [h.ip_A]
          have := h.ip_lt
          omega
        · exact hb.rng k hk (by omega)
      · intro k k' hk hk1 hk' hk1' he
        change k < st.iq + 1 at hk1
        change k' < st.iq + 1 at hk1'
        change st.A k = st.A k' at he
        by_cases e1 : k = st.iq
        · by_cases e2 : k' = st.iq
          · rw [e1, e2]
          · rw [e1, h.ip_A] at he
            exact absurd he.symm (h.ip_new k' hk' (by omega))
        · by_cases e2 : k' = st.iq
          · rw [e2, h.ip_A] at he
            exact absurd he (h.ip_new k hk (by omega))
          · exact hb.inj k k' hk (by omega) hk' (by omega) he
      · intro k hS hk
        change k < st.iq + 1 at hk
        by_cases hk' : k = st.iq
        · subst hk'
          have hcl' : (chooseLen p.1 t2).1 = t2 := by
            rcases hp1 : p.1 with _ | t1
            · rfl
            · rw [hp1] at hcl; exact hcl
          change (conOf P (st.A st.iq)).1 ⬝ᵥ (st.x + (chooseLen p.1 t2).1 • z) + (conOf P (st.A st.iq)).2 = 0
          rw [h.ip_A, conOf_nat, hcl', dotProduct_add, dotProduct_smul, smul_eq_mul, ht2, h'.slack, QP.slack,
            dotProduct_comm _ z, ← hnp]
          have hpos := z_np_pos hz0
          rw [← hd, ← hz] at hpos
          field_simp
          ring
        · exact (hM (chooseLen p.1 t2).1).base.act k hS (by change k < st.iq; omega)
      · change 0 ≤ a.Rnorm
        rw [hRn]; exact r1
      · change a.Rnorm ^ 2 ≤ B
        rw [hRn]; exact r2
      · intro j hj hj'
        change Function.update st.iai st.ip (-1) j = -1 at hj'
        by_cases hji : j = st.ip
        · exact ⟨st.iq, hb.ne_le, by change st.iq < st.iq + 1; omega, by rw [hji]; exact h.ip_A⟩
        · rw [Function.update_of_ne hji] at hj'
          obtain ⟨k, k1, k2, k3⟩ := (h.iai j hj).mp hj'
          exact ⟨k, k1, by change k < st.iq + 1; omega, k3⟩
    · rw [if_neg hcl]
      rcases hp1 : p.1 with _ | t1
      · rw [hp1] at hcl
        exact absurd trivial hcl
      · obtain ⟨hle, kk, k1, k2, k3, k4, k5⟩ := partialLen_some hp1
        obtain ⟨st', e, hM', hiq, hit, hx, hs, hip⟩ := (hM (chooseLen (some t1) t2).1).drop (kk := kk) k1 k2
        have hk5 : p.2 = (moved P st (chooseLen (some t1) t2).1).A kk := k5
        rw [hk5, e]
        refine ⟨_, rfl, ⟨hM'.congr rfl rfl rfl rfl rfl rfl rfl rfl, ?_⟩, hit, hiq⟩
        simp only [Function.update_self]
  · rw [if_neg hc]
    rcases hp1 : p.1 with _ | t1
    · exact ⟨_, rfl, trivial⟩
    · obtain ⟨hle, kk, k1, k2, k3, k4, k5⟩ := partialLen_some hp1
      have hM2 : SMoved P B S { st with u := moveU st.u r st.iq t1 } := h.congr rfl rfl rfl rfl rfl rfl rfl rfl
      obtain ⟨st', e, hM', hiq, hit, hx, hs, hip⟩ := hM2.drop (kk := kk) k1 k2
      have hk5 : p.2 = st.A kk := k5
      simp only
      rw [hk5, e]
      refine ⟨_, rfl, ⟨hM', ?_⟩, hit, hiq⟩
      rw [hx, hs, hip]; exact h'.slack

/-- What a step from `l2` leads to. -/
def SPost2 (P : QP n) (B : ℝ) (S : Prop) (st : QState n) : QNext n → Prop
  | .ret .optimal s => SBase P B S P.CE.length s ∧ violation P s.x ≤ 0
  | .l2a s => SInvA P B S s ∧ s.iter = st.iter ∧ s.iq = st.iq
  | _ => False

theorem SstepL2_ok {P : QP n} {B : ℝ} {S : Prop} {st : QState n} (h : SInv2 P B S st) :
    ∃ q, stepL2 P st = .ok q ∧ SPost2 P B S st q := by
  have hb := h.base
  obtain ⟨h1, h2, h3⟩ := chooseViolated_spec st.s st.iai st.iaexcl (List.range P.CI.length) (st.ss, st.ip)
  unfold stepL2
  set b := chooseViolated st.s st.iai st.iaexcl (List.range P.CI.length) (st.ss, st.ip) with hbd
  by_cases hneg' : b.1 ≥ 0
  · rw [if_pos hneg']
    refine ⟨_, rfl, ⟨hb.fac, hb.ne_le, hb.ne_len, hb.eqs, hb.rng, hb.inj, hb.act, hb.rn0, hb.rnB⟩, ?_⟩
    have hall : ∀ j, j < P.CI.length → 0 ≤ P.slack st.x j := by
      intro j hj
      by_cases hia : st.iai j = -1
      · obtain ⟨k, k1, k2, k3⟩ := (h.iai j hj).mp hia
        have := hb.act k (fun hk => absurd hk (not_lt.mpr k1)) k2
        rw [k3, conOf_nat] at this
        exact this.ge
      · have := h2 j (by simpa using hj) hia (h.excl j)
        rw [h.slack j hj] at this
        linarith
    have := psi_eq P st.x
    rw [Finset.sum_eq_zero fun j hj => min_eq_left (hall j (Finset.mem_range.mp hj))] at this
    change violation P st.x ≤ 0
    linarith
  rw [if_neg hneg']
  have hneg : b.1 < 0 := not_le.mp hneg'
  rcases h3 with h3 | ⟨i, hi, h3, h4, h5⟩
  · rw [h3, h.ss] at hneg; simp at hneg
  · have hi' : i < P.CI.length := by simpa using hi
    have hbi : b.2 = i := by rw [h3]
    have hnew : ∀ k, P.CE.length ≤ k → k < st.iq → st.A k ≠ i := fun k k1 k2 k3 => h4 ((h.iai i hi').mpr ⟨k, k1, k2, k3⟩)
    have key : SInvA P B S { st with ss := b.1, ip := b.2, u := Function.update st.u st.iq 0, A := Function.update st.A st.iq b.2 } := by
      have hA : ∀ k, k < st.iq → Function.update st.A st.iq (b.2 : ℤ) k = st.A k := fun k hk =>
        Function.update_of_ne (by omega) _ _
      refine ⟨⟨⟨?_, hb.ne_le, hb.ne_len, ?_, ?_, ?_, ?_, hb.rn0, hb.rnB⟩, ?_, ?_, ?_, ?_⟩, ?_⟩
      · apply hb.fac.congr
        intro k hk
        simp only [nrm]; rw [hA k hk]
      · intro k hk
        simp only
        rw [hA k (lt_of_lt_of_le hk hb.ne_le)]; exact hb.eqs k hk
      · intro k hk hk'
        simp only at hk' ⊢
        rw [hA k hk']; exact hb.rng k hk hk'
      · intro k k' hk hk1 hk' hk1' he
        simp only at he hk1 hk1'
        rw [hA k hk1, hA k' hk1'] at he
        exact hb.inj k k' hk hk1 hk' hk1' he
      · intro k hS hk
        simp only at hk ⊢
        rw [hA k hk]; exact hb.act k hS hk
      · intro j hj
        simp only
        rw [h.iai j hj]
        constructor
        · rintro ⟨k, k1, k2, k3⟩; exact ⟨k, k1, k2, by rw [hA k k2]; exact k3⟩
        · rintro ⟨k, k1, k2, k3⟩; rw [hA k k2] at k3; exact ⟨k, k1, k2, k3⟩
      · simp only; rw [hbi]; exact hi'
      · simp only [Function.update_self]
      · intro k k1 k2
        simp only at k2 ⊢
        rw [hA k k2, hbi]; exact hnew k k1 k2
      · simp only; rw [hbi]; exact h.slack i hi'
    have hroom := key.mv.room
    rw [if_pos ⟨by simp only; rw [hbi]; exact hi', hroom⟩]
    exact ⟨_, rfl, key, rfl, rfl⟩

/-- What a step from `l1` leads to. -/
def SPost1 (maxIter : ℕ) (tol : ℝ) (P : QP n) (B : ℝ) (S : Prop) (st : QState n) : QNext n → Prop
  | .ret .maxIterReached _ => True
  | .ret .optimal s => SBase P B S P.CE.length s ∧ violation P s.x ≤ tol
  | .l2 s => SInv2 P B S s ∧ s.iter = st.iter + 1 ∧ s.iter < maxIter ∧ s.iq = st.iq
  | _ => False

theorem SstepL1_ok {eps : ℝ} {maxIter : ℕ} {P : QP n} {B : ℝ} {S : Prop} {J0 : ℕ → VecN n} {st : QState n} (h : SInv1 P B S st) :
    ∃ q, stepL1 eps maxIter P J0 st = .ok q ∧ SPost1 maxIter (qpTol eps P J0) P B S st q := by
  have hb := h.base
  unfold stepL1
  by_cases hm : st.iter + 1 ≥ maxIter
  · rw [if_pos hm]
    exact ⟨_, rfl, trivial⟩
  · rw [if_neg hm]
    have hroom : st.iq ≤ P.CE.length + P.CI.length := by
      have hm : ∀ k ∈ Finset.Ico P.CE.length st.iq, (st.A k).toNat ∈ Finset.range P.CI.length := by
        intro k hk
        obtain ⟨h1, h2⟩ := Finset.mem_Ico.mp hk
        rw [Finset.mem_range]
        have := hb.rng k h1 h2; omega
      have hi : Set.InjOn (fun k => (st.A k).toNat) (Finset.Ico P.CE.length st.iq : Set ℕ) := by
        intro a ha b hb' hab
        obtain ⟨a1, a2⟩ := Finset.mem_Ico.mp (Finset.mem_coe.mp ha)
        obtain ⟨b1, b2⟩ := Finset.mem_Ico.mp (Finset.mem_coe.mp hb')
        simp only at hab
        have ra := hb.rng a a1 a2
        have rb := hb.rng b b1 b2
        exact hb.inj a b a1 a2 b1 b2 (by omega)
      have := Finset.card_le_card_of_injOn _ hm hi
      simp at this
      omega
    rw [if_pos ⟨hroom, fun i h1 h2 => hb.rng i h1 h2⟩]
    simp only [psi_eq, abs_neg, abs_of_nonneg (violation_nonneg P st.x)]
    split_ifs with hv
    · exact ⟨_, rfl, ⟨hb.fac, hb.ne_le, hb.ne_len, hb.eqs, hb.rng, hb.inj, hb.act, hb.rn0, hb.rnB⟩, hv⟩
    · refine ⟨_, rfl, ⟨⟨hb.fac, hb.ne_le, hb.ne_len, hb.eqs, hb.rng, hb.inj, hb.act, hb.rn0, hb.rnB⟩, ?_, fun _ => rfl,
        fun _ _ => rfl, rfl⟩, rfl, ?_, rfl⟩
      · intro j hj
        change markActive st.A P.CE.length st.iq st.iai j = -1 ↔ ∃ k, P.CE.length ≤ k ∧ k < st.iq ∧ st.A k = j
        unfold markActive
        by_cases hc : ∃ i, P.CE.length ≤ i ∧ i < st.iq ∧ st.A i = j
        · rw [if_pos hc]; simp [hc]
        · rw [if_neg hc]
          exact ⟨fun h' => h.iai j hj h', fun h' => absurd h' hc⟩
      · change st.iter + 1 < maxIter; omega

/-- `Lam` bounds `|Hess v|² / |v|²`. -/
def HessLe (P : QP n) (Lam : ℝ) : Prop :=
  0 ≤ Lam ∧ ∀ v : VecN n, P.G *ᵥ v ⬝ᵥ P.G *ᵥ v ≤ Lam * (v ⬝ᵥ v)

/-- Equality normal `i` minus a combination of the ones before it. -/
noncomputable def eqRest (P : QP n) (i : ℕ) (c : ℕ → ℝ) : VecN n :=
  (P.CE.getD i (0, 0)).1 - ∑ k ∈ Finset.range i, c k • (P.CE.getD k (0, 0)).1

/-- The equality normals are independent by a margin. -/
def EqSep (eps : ℝ) (P : QP n) : Prop :=
  ∃ Lam, HessLe P Lam ∧ ∀ i, i < P.CE.length → ∀ c, eps * Lam < eqRest P i c ⬝ᵥ eqRest P i c

/-- Some equality normal is close to a combination of the ones before it. -/
def EqClose (eps : ℝ) (P : QP n) : Prop :=
  ∃ i, i < P.CE.length ∧ ∃ c, ∀ Lam, HessLe P Lam → eqRest P i c ⬝ᵥ eqRest P i c ≤ eps * Lam

theorem EqSep.not_close {eps : ℝ} {P : QP n} (h : EqSep eps P) : ¬ EqClose eps P := by
  rintro ⟨i, hi, c, hc⟩
  obtain ⟨Lam, h1, h2⟩ := h
  exact absurd (hc Lam h1) (not_le.mpr (h2 i hi c))

/-- Structural invariant of the loop over the equalities. -/
structure SInvE (P : QP n) (B : ℝ) (S : Prop) (i : ℕ) (st : QState n) : Prop where
  base : SBase P B S i st
  iq : st.iq = i
  iter : st.iter = 0

/-- What a step of the loop over the equalities leads to. -/
def SPostE (eps : ℝ) (P : QP n) (B : ℝ) (S : Prop) (i : ℕ) : QNext n → Prop
  | .ret .redundantEqualities _ => EqClose eps P
  | .eq j s => j = i + 1 ∧ SInvE P B S (i + 1) s
  | _ => False

theorem SstepEq_ok {eps lam B : ℝ} {S : Prop} {P : QP n} {J0 : ℕ → VecN n} (hF : Factor P.G J0) (hS : S → EqSep eps P)
    (hC : Conditioned eps lam B P J0) {i : ℕ} {st : QState n} (h : SInvE P B S i st)
    (hi : i < P.CE.length) (hn : i < n) : ∃ q, stepEq eps P i st = .ok q ∧ SPostE eps P B S i q := by
  have hb := h.base
  have hiq := h.iq
  unfold stepEq
  rw [if_pos hi]
  simp only
  rw [if_pos ⟨by omega, by omega⟩]
  set np := (P.CE.getD i (0, 0)).1 with hnp
  obtain ⟨a, ha, hok, hfac, hiff, hl2, hRn⟩ := hb.fac.add eps st.Rnorm np (by omega)
  have hrest : P.G *ᵥ updateZ st.J (computeD st.J np) st.iq =
      eqRest P i (updateR st.R (computeD st.J np) st.iq) := by
    rw [hb.fac.Gz, eqRest, hiq]
    congr 1
    apply Finset.sum_congr rfl
    intro k hk
    rw [nrm, hb.eqs k (Finset.mem_range.mp hk), conOf_neg]
  rw [ha]
  simp only
  by_cases haok : a.ok
  · rw [if_pos haok] at hRn ⊢
    have hlast : a.last ≠ 0 := by
      intro h0
      rw [hok, h0, abs_zero] at haok
      exact absurd (mul_nonneg hC.eps0 hb.rn0) (not_le.mpr haok)
    have hl2' : a.last ^ 2 ≤ B := by
      rw [hl2]
      refine (last_le hb.fac.fac hF hb.fac.le np).trans (hC.eqs _ ?_)
      rw [List.getD_eq_getElem?_getD, List.getElem?_eq_getElem hi]
      exact List.getElem_mem hi
    obtain ⟨r1, r2⟩ := rnorm_step hb.rn0 hb.rnB hl2'
    refine ⟨_, rfl, rfl, ?_⟩
    have hA : ∀ k, k < i → Function.update st.A i (-(i : ℤ) - 1) k = st.A k := fun k hk =>
      Function.update_of_ne (by omega) _ _
    have hAi : Function.update st.A i (-(i : ℤ) - 1) i = -(i : ℤ) - 1 := Function.update_self _ _ _
    refine ⟨⟨?_, ?_, hi, ?_, ?_, ?_, ?_, ?_, ?_⟩, ?_, h.iter⟩
    · apply (hfac hlast).congr
      intro k hk
      by_cases hk' : k = st.iq
      · subst hk'
        rw [Function.update_self, nrm]
        simp only
        rw [hiq, hAi, conOf_neg]
      · rw [Function.update_of_ne hk', nrm, nrm]
        simp only
        rw [hA k (by omega)]
    · simp only; omega
    · intro k hk
      simp only
      by_cases hk' : k = i
      · subst hk'; exact hAi
      · rw [hA k (by omega)]; exact hb.eqs k (by omega)
    · intro k hk hk'
      simp only at hk'; omega
    · intro k k' hk hk1 _ _ _
      simp only at hk1; omega
    · intro k hk1 hk
      simp only at hk ⊢
      have hS' : S := hk1 (by omega)
      obtain ⟨Lam, hL, hsep⟩ := hS hS'
      have hzz : eps < updateZ st.J (computeD st.J np) st.iq ⬝ᵥ updateZ st.J (computeD st.J np) st.iq := by
        by_contra hc
        have e1 := hL.2 (updateZ st.J (computeD st.J np) st.iq)
        have e2 := hsep i hi (updateR st.R (computeD st.J np) st.iq)
        rw [← hrest] at e2
        have := mul_le_mul_of_nonneg_left (not_lt.mp hc) hL.1
        linarith
      have habs : |updateZ st.J (computeD st.J np) st.iq ⬝ᵥ updateZ st.J (computeD st.J np) st.iq| > eps :=
        lt_of_lt_of_le hzz (le_abs_self _)
      by_cases hk' : k = i
      · subst hk'
        rw [hAi, conOf_neg, eqLen, if_pos habs, dotProduct_add, dotProduct_smul, smul_eq_mul, dotProduct_comm _ (updateZ _ _ _),
          ← hnp]
        have hpos := z_np_pos (hiff.mpr hlast)
        field_simp
        ring
      · rw [hA k (by omega), dotProduct_add, dotProduct_smul]
        have := hb.fac.z_normal (computeD st.J np) (k := k) (by omega)
        unfold nrm at this
        rw [this, smul_zero, add_zero]
        exact hb.act k (fun _ => hS') (by omega)
    · simp only; rw [hRn]; exact r1
    · simp only; rw [hRn]; exact r2
    · simp only; omega
  · rw [if_neg haok]
    refine ⟨_, rfl, i, hi, updateR st.R (computeD st.J np) st.iq, fun Lam hL => ?_⟩
    rw [← hrest]
    have hzz : updateZ st.J (computeD st.J np) st.iq ⬝ᵥ updateZ st.J (computeD st.J np) st.iq ≤ eps := by
      by_contra hc
      exact haok (hok.mpr (accepted hC hb.fac hb.rn0 hb.rnB (not_le.mp hc) hl2))
    have e1 := hL.2 (updateZ st.J (computeD st.J np) st.iq)
    have := mul_le_mul_of_nonneg_left hzz hL.1
    linarith

/-- The structural invariant of the machine, and what its verdicts mean. -/
def SInvN (eps : ℝ) (maxIter : ℕ) (tol B : ℝ) (S : Prop) (P : QP n) : QNext n → Prop
  | .eq i s => SInvE P B S i s
  | .l1 s => SInv1 P B S s ∧ (s.iter < maxIter ∨ maxIter = 0)
  | .l2 s => SInv2 P B S s ∧ s.iter < maxIter
  | .l2a s => SInvA P B S s ∧ s.iter < maxIter
  | .ret .optimal s => SBase P B S P.CE.length s ∧ violation P s.x ≤ max 0 tol
  | .ret .unbounded _ => True
  | .ret .redundantEqualities _ => EqClose eps P
  | .ret .maxIterReached _ => True
  | .ret .infeasible _ => False

theorem SqpStep_ok {eps lam B : ℝ} {S : Prop} {maxIter : ℕ} {P : QP n} {J0 : ℕ → VecN n} (hF : Factor P.G J0) (hS : S → EqSep eps P)
    (hC : Conditioned eps lam B P J0) (hE : P.CE.length ≤ n) {q : QNext n} (hI : SInvN eps maxIter (qpTol eps P J0) B S P q) :
    ∃ q', qpStep eps maxIter P J0 q = .ok q' ∧ SInvN eps maxIter (qpTol eps P J0) B S P q' ∧
      (stepsLeft maxIter P q' < stepsLeft maxIter P q ∨ ∃ r s, q = .ret r s ∧ q' = q) := by
  cases q with
  | ret r s => exact ⟨_, rfl, hI, Or.inr ⟨r, s, rfl, rfl⟩⟩
  | eq i s =>
    have hI : SInvE P B S i s := hI
    by_cases hi : i < P.CE.length
    · obtain ⟨q', h1, h2⟩ := SstepEq_ok hF hS hC hI hi (by omega)
      refine ⟨q', h1, ?_, Or.inl ?_⟩
      · cases q' with
        | ret r s' => cases r <;> first | exact h2 | exact h2.elim
        | eq j s' => obtain ⟨rfl, h⟩ := h2; exact h
        | l1 s' => exact h2.elim
        | l2 s' => exact h2.elim
        | l2a s' => exact h2.elim
      · cases q' with
        | ret r s' => simp only [stepsLeft]; omega
        | eq j s' => obtain ⟨rfl, h⟩ := h2; simp only [stepsLeft]; omega
        | l1 s' => exact h2.elim
        | l2 s' => exact h2.elim
        | l2a s' => exact h2.elim
    · have hiE : i = P.CE.length := le_antisymm hI.base.ne_len (not_lt.mp hi)
      subst hiE
      have hit := hI.iter
      refine ⟨.l1 { s with iai := fun i => (i : ℤ) }, ?_, ⟨?_, ?_⟩, Or.inl ?_⟩
      · simp [qpStep, stepEq]
      · have hb := hI.base
        refine ⟨⟨hb.fac, hb.ne_le, hb.ne_len, hb.eqs, hb.rng, hb.inj, hb.act, hb.rn0, hb.rnB⟩, ?_⟩
        intro j _ hj
        simp only at hj
        omega
      · simp only; omega
      · simp only [stepsLeft, hit, Nat.sub_zero]; omega
  | l1 s =>
    obtain ⟨h, hit⟩ := hI
    obtain ⟨q', h1, h2⟩ := SstepL1_ok (eps := eps) (maxIter := maxIter) (J0 := J0) h
    refine ⟨q', h1, ?_, Or.inl ?_⟩
    · cases q' with
      | ret r s' =>
        cases r <;> first
          | exact trivial
          | exact ⟨h2.1, h2.2.trans (le_max_right _ _)⟩
          | exact ⟨h2.1, h2.2.trans (le_max_left _ _)⟩
          | exact h2.elim
      | eq j s' => exact h2.elim
      | l1 s' => exact h2.elim
      | l2 s' => obtain ⟨a, b, c, d⟩ := h2; exact ⟨a, c⟩
      | l2a s' => exact h2.elim
    · cases q' with
      | ret r s' => simp only [stepsLeft]; omega
      | eq j s' => exact h2.elim
      | l1 s' => exact h2.elim
      | l2 s' =>
        obtain ⟨a, b, c, d⟩ := h2
        simp only [stepsLeft]
        obtain ⟨m, hm⟩ : ∃ m, maxIter - s.iter = m + 1 := ⟨maxIter - s.iter - 1, by omega⟩
        have : maxIter - s'.iter = m := by omega
        rw [hm, this, Nat.add_mul]; omega
      | l2a s' => exact h2.elim
  | l2 s =>
    obtain ⟨h, hit⟩ := hI
    obtain ⟨q', h1, h2⟩ := SstepL2_ok h
    refine ⟨q', h1, ?_, Or.inl ?_⟩
    · cases q' with
      | ret r s' =>
        cases r <;> first
          | exact trivial
          | exact ⟨h2.1, h2.2.trans (le_max_right _ _)⟩
          | exact ⟨h2.1, h2.2.trans (le_max_left _ _)⟩
          | exact h2.elim
      | eq j s' => exact h2.elim
      | l1 s' => exact h2.elim
      | l2 s' => exact h2.elim
      | l2a s' => obtain ⟨a, b, c⟩ := h2; exact ⟨a, by rw [b]; exact hit⟩
    · cases q' with
      | ret r s' => simp only [stepsLeft]; omega
      | eq j s' => exact h2.elim
      | l1 s' => exact h2.elim
      | l2 s' => exact h2.elim
      | l2a s' =>
        obtain ⟨a, b, c⟩ := h2
        have := a.mv.base.fac.le
        simp only [stepsLeft, b]; omega
  | l2a s =>
    obtain ⟨h, hit⟩ := hI
    obtain ⟨q', h1, h2⟩ := SstepL2a_ok hF hC h
    refine ⟨q', h1, ?_, Or.inl ?_⟩
    · cases q' with
      | ret r s' =>
        cases r <;> first
          | exact trivial
          | exact ⟨h2.1, h2.2.trans (le_max_right _ _)⟩
          | exact ⟨h2.1, h2.2.trans (le_max_left _ _)⟩
          | exact h2.elim
      | eq j s' => exact h2.elim
      | l1 s' => obtain ⟨a, b⟩ := h2; exact ⟨a, Or.inl (by rw [b]; exact hit)⟩
      | l2 s' => exact h2.elim
      | l2a s' => obtain ⟨a, b, c⟩ := h2; exact ⟨a, by rw [b]; exact hit⟩
    · cases q' with
      | ret r s' => simp only [stepsLeft]; omega
      | eq j s' => exact h2.elim
      | l1 s' => obtain ⟨a, b⟩ := h2; simp only [stepsLeft, b]; omega
      | l2 s' => exact h2.elim
      | l2a s' => obtain ⟨a, b, c⟩ := h2; simp only [stepsLeft, b]; omega

theorem SqpRun_ok {eps lam B : ℝ} {S : Prop} {maxIter : ℕ} {P : QP n} {J0 : ℕ → VecN n} (hF : Factor P.G J0)
    (hS : S → EqSep eps P) (hC : Conditioned eps lam B P J0) (hE : P.CE.length ≤ n) :
    ∀ (N : ℕ) (q : QNext n), stepsLeft maxIter P q ≤ N → SInvN eps maxIter (qpTol eps P J0) B S P q →
      ∃ r s, (∀ fuel, N ≤ fuel → qpRun eps maxIter P J0 fuel q = .ok (r, s)) ∧
        SInvN eps maxIter (qpTol eps P J0) B S P (.ret r s) := by
  intro N
  induction N with
  | zero =>
    intro q hq hI
    cases q with
    | ret r s => exact ⟨r, s, fun fuel _ => by cases fuel <;> rfl, hI⟩
    | eq i s => simp only [stepsLeft] at hq; omega
    | l1 s => simp only [stepsLeft] at hq; omega
    | l2 s => simp only [stepsLeft] at hq; omega
    | l2a s => simp only [stepsLeft] at hq; omega
  | succ N ih =>
    intro q hq hI
    obtain ⟨q', h1, h2, h3⟩ := SqpStep_ok hF hS hC hE hI
    rcases h3 with h3 | ⟨r, s, rfl, rfl⟩
    · obtain ⟨r, s, hr, hv⟩ := ih q' (by omega) h2
      refine ⟨r, s, ?_, hv⟩
      intro fuel hf
      obtain ⟨k, rfl⟩ : ∃ k, fuel = k + 1 := ⟨fuel - 1, by omega⟩
      have hnr : ∀ r s, q ≠ .ret r s := by
        rintro r s rfl
        simp [stepsLeft] at h3
      rw [qpRun_succ k hnr, h1]; exact hr k (by omega)
    · exact ⟨r, s, fun fuel _ => by cases fuel <;> rfl, hI⟩

theorem SInvE.init {eps lam B : ℝ} {S : Prop} {P : QP n} {J0 : ℕ → VecN n} (hF : Factor P.G J0) (w : Work n)
    (hC : Conditioned eps lam B P J0) : SInvE P B S 0 (qpInit P J0 w) := by
  refine ⟨⟨(InvE.init hF w).base.fac, by simp, by simp, fun k hk => absurd hk (by omega),
    fun k _ hk => ?_, fun k k' _ hk => ?_, fun k _ hk => ?_, by simp [qpInit], ?_⟩, rfl, rfl⟩
  · simp [qpInit] at hk
  · simp [qpInit] at hk
  · simp [qpInit] at hk
  · simp only [qpInit, one_pow]; exact hC.B1

/-- The solver on conditioned data, with the threshold tests as they are. -/
theorem Sqp_ok {eps lam B : ℝ} {S : Prop} (maxIter : ℕ) {P : QP n} {J0 : ℕ → VecN n} (w : Work n)
    (hF : Factor P.G J0) (hS : S → EqSep eps P) (hC : Conditioned eps lam B P J0) (hE : P.CE.length ≤ n) :
    ∃ r s, (∀ fuel, P.CE.length + 2 + maxIter * (n + 3) ≤ fuel →
      solveQuadprog eps maxIter P J0 w fuel = .ok (r, s)) ∧
      SInvN eps maxIter (qpTol eps P J0) B S P (.ret r s) :=
  SqpRun_ok hF hS hC hE _ _ (by simp [stepsLeft]) (SInvE.init hF w hC)

theorem Sqp_sound {eps lam B : ℝ} {S : Prop} {maxIter : ℕ} {P : QP n} {J0 : ℕ → VecN n} {w : Work n}
    (hF : Factor P.G J0) (hS : S → EqSep eps P) (hC : Conditioned eps lam B P J0) (hE : P.CE.length ≤ n)
    {fuel : ℕ} {r : QPStatus} {s : QState n} (h : solveQuadprog eps maxIter P J0 w fuel = .ok (r, s)) :
    SInvN eps maxIter (qpTol eps P J0) B S P (.ret r s) := by
  obtain ⟨r', s', h1, h2⟩ := Sqp_ok maxIter w hF hS hC hE
  have h3 := h1 (max fuel (P.CE.length + 2 + maxIter * (n + 3))) (le_max_right _ _)
  have h4 := qpRun_mono _ _ _ h (max fuel (P.CE.length + 2 + maxIter * (n + 3))) (le_max_left _ _)
  unfold solveQuadprog at h3
  rw [h4] at h3
  cases h3
  exact h2

theorem dot_sq_le (u v : VecN n) : (u ⬝ᵥ v) ^ 2 ≤ (u ⬝ᵥ u) * (v ⬝ᵥ v) := by
  have h := fun t : ℝ => (show 0 ≤ (u - t • v) ⬝ᵥ (u - t • v) by
    unfold dotProduct; exact Finset.sum_nonneg fun i _ => mul_self_nonneg _)
  have e : ∀ t : ℝ, (u - t • v) ⬝ᵥ (u - t • v) = u ⬝ᵥ u - 2 * t * (u ⬝ᵥ v) + t ^ 2 * (v ⬝ᵥ v) := by
    intro t
    simp only [sub_dotProduct, dotProduct_sub, smul_dotProduct, dotProduct_smul, smul_eq_mul, dotProduct_comm v u]
    ring
  by_cases hv : v = 0
  · subst hv; simp
  · have hp := dot_self_pos.mpr hv
    have := h ((u ⬝ᵥ v) / (v ⬝ᵥ v))
    rw [e] at this
    have : 0 ≤ (u ⬝ᵥ u) * (v ⬝ᵥ v) - (u ⬝ᵥ v) ^ 2 := by
      have h2 := mul_nonneg this hp.le
      have : (u ⬝ᵥ u - 2 * ((u ⬝ᵥ v) / (v ⬝ᵥ v)) * (u ⬝ᵥ v) + ((u ⬝ᵥ v) / (v ⬝ᵥ v)) ^ 2 * (v ⬝ᵥ v)) * (v ⬝ᵥ v) =
          (u ⬝ᵥ u) * (v ⬝ᵥ v) - (u ⬝ᵥ v) ^ 2 := by
        field_simp; ring
      linarith
    linarith

/-- Rows of norm at most `rho` and a Hessian at least `lam` times the identity: it is enough that
`eps ≤ lam` and `eps rho² ≤ lam²`. -/
theorem conditioned_of_norms {eps lam rho : ℝ} {P : QP n} {J0 : ℕ → VecN n} (hF : Factor P.G J0) (h0 : 0 ≤ eps)
    (hl : 0 < lam) (hess : ∀ v : VecN n, lam * (v ⬝ᵥ v) ≤ v ⬝ᵥ P.G *ᵥ v)
    (hE : ∀ e ∈ P.CE, e.1 ⬝ᵥ e.1 ≤ rho ^ 2) (hI : ∀ e ∈ P.CI, e.1 ⬝ᵥ e.1 ≤ rho ^ 2) (h1 : eps ≤ lam)
    (h2 : eps * rho ^ 2 ≤ lam ^ 2) : Conditioned eps lam (max 1 (rho ^ 2 / lam)) P J0 := by
  have key : ∀ v : VecN n, v ⬝ᵥ v ≤ rho ^ 2 → v ⬝ᵥ jj J0 v ≤ max 1 (rho ^ 2 / lam) := by
    intro v hv
    apply le_trans _ (le_max_right _ _)
    set y := jj J0 v with hy
    have e1 : P.G *ᵥ y = v := hF v
    have e2 := hess y
    rw [e1, dotProduct_comm y v] at e2
    have e3 := dot_sq_le v y
    rw [le_div_iff₀ hl]
    rcases le_or_gt (v ⬝ᵥ y) 0 with hneg | hpos
    · nlinarith [sq_nonneg rho]
    · have e4 : (v ⬝ᵥ y) * ((v ⬝ᵥ y) * lam) ≤ (v ⬝ᵥ y) * (v ⬝ᵥ v) := by
        have : 0 ≤ v ⬝ᵥ v := by unfold dotProduct; exact Finset.sum_nonneg fun i _ => mul_self_nonneg _
        nlinarith
      have := le_of_mul_le_mul_left e4 hpos
      linarith
  refine ⟨h0, le_max_left _ _, hess, fun e he => key _ (hE e he), fun e he => key _ (hI e he), ?_⟩
  rcases le_total 1 (rho ^ 2 / lam) with h | h
  · rw [max_eq_right h, mul_div_assoc', div_le_iff₀ hl, ← sq]; exact h2
  · rw [max_eq_left h, mul_one]; exact h1

end Verif
