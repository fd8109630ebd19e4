import Verif.Lemmas.QuadInv

/-! Each step of the QP solver keeps the invariant, provided its threshold tests are exact. -/

namespace Verif
open Matrix

variable {n : ℕ}

/-- The threshold tests made with the normal `np` in the state `st` agree with the tests for zero: a
direction is taken for zero only if it is zero, and a constraint is rejected as degenerate only if its
direction is zero. -/
def Sharp (eps : ℝ) (st : QState n) (np : VecN n) : Prop :=
  let d := computeD st.J np
  let z := updateZ st.J d st.iq
  (z ⬝ᵥ z ≤ eps → z = 0) ∧ (z ≠ 0 → ∀ a, addConstraint eps st.J st.R d st.iq st.Rnorm = .ok a → a.ok)

theorem row_mem {P : QP n} {i : ℕ} (h : i < P.CI.length) : P.row i ∈ P.CI := by
  unfold QP.row
  rw [List.getD_eq_getElem?_getD, List.getElem?_eq_getElem h]
  exact List.getElem_mem h

theorem QBase.eq_at {P : QP n} {ne : ℕ} {st : QState n} (h : QBase P ne st) {y : VecN n} (hy : EqHolds P y) {k : ℕ}
    (hk : k < ne) : (conOf P (st.A k)).1 ⬝ᵥ y + (conOf P (st.A k)).2 = 0 := by
  rw [h.eqs k hk, conOf_neg]
  have hl : k < P.CE.length := lt_of_lt_of_le hk h.ne_len
  rw [List.getD_eq_getElem?_getD, List.getElem?_eq_getElem hl]
  exact hy _ (List.getElem_mem hl)

theorem QBase.ineq_at {P : QP n} {ne : ℕ} {st : QState n} (h : QBase P ne st) {y : VecN n}
    (hy : ∀ e ∈ P.CI, 0 ≤ e.1 ⬝ᵥ y + e.2) {k : ℕ} (hk : ne ≤ k) (hk' : k < st.iq) :
    0 ≤ (conOf P (st.A k)).1 ⬝ᵥ y + (conOf P (st.A k)).2 := by
  obtain ⟨h1, h2⟩ := h.rng k hk hk'
  obtain ⟨i, hi⟩ := Int.eq_ofNat_of_zero_le h1
  rw [hi, conOf_nat]
  exact hy _ (row_mem (by omega))

/-- The products of an admissible displacement with the active normals. -/
theorem QBase.disp {P : QP n} {ne : ℕ} {st : QState n} (h : QBase P ne st) {y : VecN n} (hy : QPFeasible P y) {k : ℕ}
    (hk : k < st.iq) : (k < ne → nrm P st.A k ⬝ᵥ (y - st.x) = 0) ∧ 0 ≤ nrm P st.A k ⬝ᵥ (y - st.x) := by
  have ha := h.act k hk
  unfold nrm
  rw [dotProduct_sub]
  refine ⟨fun hn => ?_, ?_⟩
  · have := h.eq_at hy.1 hn; linarith
  · by_cases hn : k < ne
    · have := h.eq_at hy.1 hn; linarith
    · have := h.ineq_at hy.2 (not_lt.mp hn) hk; linarith

/-- At the point reached the objective is at most that of every feasible point. -/
theorem QBase.optimal {P : QP n} {st : QState n} (h : QBase P P.CE.length st) (hs : Stat P st) {y : VecN n}
    (hy : QPFeasible P y) : qpObj P st.x ≤ qpObj P y := by
  apply qpObj_le h.fac.fac
  rw [hs, sum_dotProduct]
  apply Finset.sum_nonneg
  intro k hk
  have hk := Finset.mem_range.mp hk
  rw [smul_dotProduct, smul_eq_mul]
  obtain ⟨h1, h2⟩ := h.disp hy hk
  by_cases hn : k < P.CE.length
  · rw [h1 hn, mul_zero]
  · exact mul_nonneg (h.pos k (not_lt.mp hn) hk) h2

/-- What a step from `l2a` leads to. -/
def PostA (P : QP n) (st : QState n) : QNext n → Prop
  | .ret r _ => r = .unbounded ∧ ∀ y, ¬ QPFeasible P y
  | .l1 s => Inv1 P s ∧ s.iter = st.iter ∧ st.f < s.f
  | .l2a s => InvA P s ∧ s.iter = st.iter ∧ s.iq + 1 = st.iq ∧ st.f ≤ s.f
  | _ => False

theorem moved_zero {P : QP n} {st : QState n} {t : ℝ}
    (hz : updateZ st.J (computeD st.J (P.row st.ip).1) st.iq = 0) :
    moved P st t =
      { st with u := moveU st.u (updateR st.R (computeD st.J (P.row st.ip).1) st.iq) st.iq t } := by
  unfold moved
  simp [hz]

theorem slack_move (P : QP n) (x z : VecN n) (t : ℝ) (i : ℕ) :
    P.slack (x + t • z) i = P.slack x i + t * (z ⬝ᵥ (P.row i).1) := by
  unfold QP.slack
  rw [dotProduct_add, dotProduct_smul, smul_eq_mul, dotProduct_comm z]
  ring

theorem stepL2a_ok {eps : ℝ} (heps : 0 ≤ eps) {P : QP n} {st : QState n} (h : InvA P st)
    (hs : Sharp eps st (P.row st.ip).1) : ∃ q, stepL2a eps P st = .ok q ∧ PostA P st q := by
  have hb := h.base
  unfold stepL2a
  rw [if_pos ⟨hb.fac.le, h.toMoved.room, h.ip_lt⟩]
  unfold Sharp at hs
  set np := (P.row st.ip).1 with hnp
  set d := computeD st.J np with hd
  set z := updateZ st.J d st.iq with hz
  set r := updateR st.R d st.iq with hr
  set p := partialLen r st.u st.A (List.range' P.CE.length (st.iq - P.CE.length)) (none, 0) with hp
  simp only at hs
  obtain ⟨hs1, hs2⟩ := hs
  have hzz : |z ⬝ᵥ z| = z ⬝ᵥ z := abs_of_nonneg (by
    unfold dotProduct; exact Finset.sum_nonneg fun i _ => mul_self_nonneg _)
  have hmv : ∀ t, { st with x := st.x + t • z, f := st.f + t * (z ⬝ᵥ np) * (1 / 2 * t + st.u st.iq),
                            u := moveU st.u r st.iq t } = moved P st t := fun t => rfl
  -- a constraint whose multiplier becomes zero
  have hzero : ∀ k t, k < st.iq → 0 < r k → t = st.u k / r k → (moved P st t).u k = 0 := by
    intro k t hk hrk ht
    change moveU st.u r st.iq t k = 0
    rw [moveU, if_neg (by omega), if_pos hk, ht]
    field_simp; ring
  have hupos : ∀ k, P.CE.length ≤ k → k < st.iq → 0 ≤ st.u k := hb.pos
  simp only [← hd, ← hz, ← hr, ← hp, hzz]
  by_cases hc : z ⬝ᵥ z > eps
  · rw [if_pos hc]
    have hz0 : z ≠ 0 := dot_self_pos.mp (lt_of_le_of_lt heps hc)
    have hznp : 0 < z ⬝ᵥ np := z_np_pos hz0
    have hsneg : st.s st.ip < 0 := by rw [h.slack]; exact h.neg
    set t2 := -st.s st.ip / (z ⬝ᵥ np) with ht2
    have ht2p : 0 < t2 := div_pos (by linarith) hznp
    have ht2e : t2 * (z ⬝ᵥ np) = -st.s st.ip := by rw [ht2]; field_simp
    simp only [hmv]
    have hfinc : ∀ t, 0 ≤ t → st.f ≤ (moved P st t).f ∧ (0 < t → st.f < (moved P st t).f) := by
      intro t ht
      change st.f ≤ st.f + t * (z ⬝ᵥ np) * (1 / 2 * t + st.u st.iq) ∧
        (0 < t → st.f < st.f + t * (z ⬝ᵥ np) * (1 / 2 * t + st.u st.iq))
      have := h.u_pos
      refine ⟨?_, fun ht' => ?_⟩
      · have : 0 ≤ t * (z ⬝ᵥ np) * (1 / 2 * t + st.u st.iq) := by positivity
        linarith
      · have : 0 < t * (z ⬝ᵥ np) * (1 / 2 * t + st.u st.iq) := by positivity
        linarith
    -- the full step
    have hfull : (∀ k, P.CE.length ≤ k → k < st.iq → 0 < r k → t2 ≤ st.u k / r k) →
        ∃ q, fullStep eps P d (moved P st t2) = .ok q ∧ PostA P st q := by
      intro hle
      have hM := h.move ht2p.le hle
      have hlt : st.iq < n := by
        by_contra hc'
        apply hz0
        rw [hz, updateZ, Finset.Ico_eq_empty (by omega), Finset.sum_empty]
      obtain ⟨a, ha, hok, hfac, _, _, _⟩ := hb.fac.add eps st.Rnorm np hlt
      have haok := hs2 hz0 a ha
      have hlast : a.last ≠ 0 := by
        intro h0
        obtain ⟨a', ha', _, _, hiff, _, _⟩ := hb.fac.add eps st.Rnorm np hlt
        rw [ha] at ha'
        cases ha'
        exact hiff.mp hz0 h0
      unfold fullStep
      have ha2 : addConstraint eps (moved P st t2).J (moved P st t2).R d (moved P st t2).iq (moved P st t2).Rnorm = .ok a := ha
      rw [ha2]
      simp only [haok, if_true]
      refine ⟨_, rfl, ?_, rfl, (hfinc t2 ht2p.le).2 ht2p⟩
      have hMb := hM.base
      refine ⟨⟨?_, ?_, hMb.ne_len, hMb.eqs, ?_, ?_, ?_, hMb.obj, ?_⟩, ?_, ?_⟩
      · apply (hfac hlast).congr
        intro k hk
        by_cases hk' : k = st.iq
        · subst hk'
          rw [Function.update_self, nrm]
          change (conOf P (st.A st.iq)).1 = np
          rw [h.ip_A, conOf_nat]
        · rw [Function.update_of_ne hk']
          rfl
      · have := hMb.ne_le
        change P.CE.length ≤ st.iq at this
        change P.CE.length ≤ st.iq + 1
        omega
      · intro k hk hk'
        change k < st.iq + 1 at hk'
        by_cases hk2 : k = st.iq
        · subst hk2
          change 0 ≤ st.A st.iq ∧ st.A st.iq < P.CI.length
          rw [h.ip_A]
          have := h.ip_lt
          omega
        · exact hMb.rng k hk (by change k < st.iq; omega)
      · intro k k' hk hk1 hk' hk1' he
        change k < st.iq + 1 at hk1
        change k' < st.iq + 1 at hk1'
        change st.A k = st.A k' at he
        by_cases e1 : k = st.iq
        · by_cases e2 : k' = st.iq
          · rw [e1, e2]
          · rw [e1, h.ip_A] at he
            exact absurd he.symm (h.ip_new k' hk' (by omega))
        · by_cases e2 : k' = st.iq
          · rw [e2, h.ip_A] at he
            exact absurd he (h.ip_new k hk (by omega))
          · exact hb.inj k k' hk (by omega) hk' (by omega) he
      · intro k hk
        change k < st.iq + 1 at hk
        by_cases hk2 : k = st.iq
        · subst hk2
          change (conOf P (st.A st.iq)).1 ⬝ᵥ (st.x + t2 • z) + (conOf P (st.A st.iq)).2 = 0
          rw [h.ip_A, conOf_nat]
          have := slack_move P st.x z t2 st.ip
          rw [← hnp, ht2e, h.slack, add_neg_cancel] at this
          exact this
        · exact hMb.act k (by change k < st.iq; omega)
      · intro k hk hk'
        change k < st.iq + 1 at hk'
        by_cases hk2 : k = st.iq
        · subst hk2; exact hM.u_pos
        · exact hMb.pos k hk (by change k < st.iq; omega)
      · have := hM.stat
        unfold Stat
        change P.G *ᵥ (moved P st t2).x + P.g = ∑ k ∈ Finset.range (st.iq + 1), (moved P st t2).u k • nrm P st.A k
        rw [this, Finset.sum_range_succ]
        congr 2
        rw [nrm, h.ip_A, conOf_nat]
        rfl
      · intro j hj hj'
        change Function.update st.iai st.ip (-1) j = -1 at hj'
        by_cases hji : j = st.ip
        · exact ⟨st.iq, hb.ne_le, by change st.iq < st.iq + 1; omega, by rw [hji]; exact h.ip_A⟩
        · rw [Function.update_of_ne hji] at hj'
          obtain ⟨k, k1, k2, k3⟩ := (h.iai j hj).mp hj'
          exact ⟨k, k1, by change k < st.iq + 1; omega, k3⟩
    have hcl : ((chooseLen p.1 t2).2 ∧ (chooseLen p.1 t2).1 = t2 ∧
          ∀ k, P.CE.length ≤ k → k < st.iq → 0 < r k → t2 ≤ st.u k / r k) ∨
        (¬ (chooseLen p.1 t2).2 ∧ ∃ t1, p.1 = some t1 ∧ t1 < t2 ∧ (chooseLen p.1 t2).1 = t1) := by
      rcases hp1 : p.1 with _ | t1
      · have hn := partialLen_none hp1
        exact Or.inl ⟨trivial, rfl, fun k h1 h2 h3 => absurd (hn k h1 h2) (not_le.mpr h3)⟩
      · obtain ⟨hle, _⟩ := partialLen_some hp1
        simp only [chooseLen]
        by_cases hmin : min t1 t2 = t2
        · exact Or.inl ⟨hmin, hmin, fun k h1 h2 h3 => (min_eq_right_iff.mp hmin).trans (hle k h1 h2 h3)⟩
        · have hlt : t1 < t2 := by
            by_contra hc'
            exact hmin (min_eq_right (not_lt.mp hc'))
          exact Or.inr ⟨hmin, t1, rfl, hlt, min_eq_left hlt.le⟩
    rcases hcl with ⟨hc2, hc1, hle⟩ | ⟨hc2, t1, hp1, hlt, hc1⟩
    · rw [if_pos hc2, hc1]
      exact hfull hle
    · rw [if_neg hc2, hc1]
      obtain ⟨hle, kk, k1, k2, k3, k4, k5⟩ := partialLen_some hp1
      · have ht1 : 0 ≤ t1 := by rw [k4]; exact div_nonneg (hupos kk k1 k2) k3.le
        have hM := h.move ht1 hle
        obtain ⟨st', e, hM', hiq, hx, hf, hip, hit, hss⟩ := hM.drop (kk := kk) k1 k2 (hzero kk t1 k2 k3 k4)
        have hk5 : p.2 = (moved P st t1).A kk := k5
        rw [hk5, e]
        refine ⟨_, rfl, ?_, hit, ?_, ?_⟩
        · refine ⟨⟨hM'.base.fac, hM'.base.ne_le, hM'.base.ne_len, hM'.base.eqs, hM'.base.rng, hM'.base.inj, hM'.base.act, hM'.base.obj,
            hM'.base.pos⟩, hM'.stat, hM'.iai, hM'.ip_lt, hM'.ip_A, hM'.ip_new, hM'.u_pos, ?_, ?_⟩
          · simp
          · change P.slack st'.x st'.ip < 0
            rw [hx, hip]
            change P.slack (st.x + t1 • z) st.ip < 0
            rw [slack_move, ← hnp, ← h.slack]
            have := mul_lt_mul_of_pos_right hlt hznp
            rw [ht2e] at this
            linarith
        · change st'.iq + 1 = st.iq
          rw [hiq]
          change st.iq - 1 + 1 = st.iq
          omega
        · change st.f ≤ st'.f
          rw [hf]; exact (hfinc t1 ht1).1
  · rw [if_neg hc]
    have hz0 : z = 0 := hs1 (not_lt.mp hc)
    rcases hp1 : p.1 with _ | t1
    · have hn := partialLen_none hp1
      refine ⟨_, rfl, rfl, fun y hy => ?_⟩
      have hGz := hb.fac.Gz np
      rw [← hd, ← hz, ← hr, hz0, Matrix.mulVec_zero] at hGz
      have hnp2 : np = ∑ k ∈ Finset.range st.iq, r k • nrm P st.A k := (sub_eq_zero.mp hGz.symm)
      have hle : np ⬝ᵥ (y - st.x) ≤ 0 := by
        rw [hnp2, sum_dotProduct]
        apply Finset.sum_nonpos
        intro k hk
        have hk := Finset.mem_range.mp hk
        rw [smul_dotProduct, smul_eq_mul]
        obtain ⟨h1, h2⟩ := hb.disp hy hk
        by_cases hne : k < P.CE.length
        · rw [h1 hne, mul_zero]
        · exact mul_nonpos_of_nonpos_of_nonneg (hn k (not_lt.mp hne) hk) h2
      have h1 := hy.2 _ (row_mem h.ip_lt)
      have h2 := h.neg
      unfold QP.slack at h2
      rw [dotProduct_sub] at hle
      linarith
    · obtain ⟨hle, kk, k1, k2, k3, k4, k5⟩ := partialLen_some hp1
      have ht1 : 0 ≤ t1 := by rw [k4]; exact div_nonneg (hupos kk k1 k2) k3.le
      have hM := h.move ht1 hle
      have hmz := moved_zero (P := P) (st := st) (t := t1) hz0
      obtain ⟨st', e, hM', hiq, hx, hf, hip, hit, hss⟩ := hM.drop (kk := kk) k1 k2 (hzero kk t1 k2 k3 k4)
      have hk5 : p.2 = (moved P st t1).A kk := k5
      simp only
      rw [← hmz, hk5, e]
      have hx' : (moved P st t1).x = st.x := by rw [hmz]
      refine ⟨_, rfl, ?_, hit, ?_, ?_⟩
      · refine ⟨hM'.base, hM'.stat, hM'.iai, hM'.ip_lt, hM'.ip_A, hM'.ip_new, hM'.u_pos, ?_, ?_⟩
        · rw [hss, hip, hx, hx']; exact h.slack
        · rw [hx, hip, hx']; exact h.neg
      · rw [hiq]
        change st.iq - 1 + 1 = st.iq
        omega
      · rw [hf, hmz]

/-! ### Labels `l2` and `l1` -/

theorem chooseViolated_spec (s : ℕ → ℝ) (iai : ℕ → ℤ) (e : ℕ → Bool) : ∀ (L : List ℕ) (b : ℝ × ℕ),
    (chooseViolated s iai e L b).1 ≤ b.1 ∧
    (∀ i ∈ L, iai i ≠ -1 → e i = true → (chooseViolated s iai e L b).1 ≤ s i) ∧
    (chooseViolated s iai e L b = b ∨ ∃ i ∈ L, chooseViolated s iai e L b = (s i, i) ∧ iai i ≠ -1 ∧ e i = true)
  | [], b => ⟨le_rfl, by simp, Or.inl rfl⟩
  | k :: L, b => by
    rw [chooseViolated]
    obtain ⟨h1, h2, h3⟩ := chooseViolated_spec s iai e L
      (open Classical in if s k < b.1 ∧ iai k ≠ -1 ∧ e k = true then (s k, k) else b)
    by_cases hc : s k < b.1 ∧ iai k ≠ -1 ∧ e k = true
    · rw [if_pos hc] at h1 h2 h3 ⊢
      refine ⟨h1.trans hc.1.le, ?_, Or.inr ?_⟩
      · intro i hi
        rcases List.mem_cons.mp hi with rfl | hi
        · exact fun _ _ => h1
        · exact h2 i hi
      · rcases h3 with h3 | ⟨i, hi, h⟩
        · exact ⟨k, by simp, h3, hc.2⟩
        · exact ⟨i, by simp [hi], h⟩
    · rw [if_neg hc] at h1 h2 h3 ⊢
      refine ⟨h1, ?_, ?_⟩
      · intro i hi a1 a2
        rcases List.mem_cons.mp hi with rfl | hi
        · have : ¬ s i < b.1 := fun h => hc ⟨h, a1, a2⟩
          exact h1.trans (not_lt.mp this)
        · exact h2 i hi a1 a2
      · rcases h3 with h3 | ⟨i, hi, h⟩
        · exact Or.inl h3
        · exact Or.inr ⟨i, by simp [hi], h⟩

theorem psi_eq (P : QP n) (x : VecN n) : ∑ i ∈ Finset.range P.CI.length, min 0 (P.slack x i) = -violation P x := by
  have key : ∀ l : List (VecN n × ℝ), ∑ i ∈ Finset.range l.length, min 0 ((l.getD i (0, 0)).1 ⬝ᵥ x + (l.getD i (0, 0)).2) =
      -(l.map fun e => max 0 (-(e.1 ⬝ᵥ x + e.2))).sum := by
    intro l
    induction l with
    | nil => simp
    | cons e l ih =>
      rw [List.length_cons, Finset.sum_range_succ']
      simp only [List.getD_cons_succ, List.getD_cons_zero, List.map_cons, List.sum_cons]
      rw [ih, neg_add]
      rcases le_total 0 (e.1 ⬝ᵥ x + e.2) with h | h
      · rw [min_eq_left h, max_eq_left (by linarith)]; ring
      · rw [min_eq_right h, max_eq_right (by linarith)]; ring
  exact key P.CI

theorem violation_nonneg (P : QP n) (x : VecN n) : 0 ≤ violation P x := by
  unfold violation
  apply List.sum_nonneg
  intro a ha
  obtain ⟨e, _, rfl⟩ := List.mem_map.mp ha
  exact le_max_left _ _

/-- What a step from `l2` leads to. -/
def Post2 (P : QP n) (st : QState n) : QNext n → Prop
  | .ret .optimal s => QBase P P.CE.length s ∧ Stat P s ∧ violation P s.x = 0 ∧ s.iter = st.iter
  | .l2a s => InvA P s ∧ s.iter = st.iter ∧ s.iq = st.iq ∧ s.f = st.f
  | _ => False

theorem stepL2_ok {P : QP n} {st : QState n} (h : Inv2 P st) : ∃ q, stepL2 P st = .ok q ∧ Post2 P st q := by
  have hb := h.base
  obtain ⟨h1, h2, h3⟩ := chooseViolated_spec st.s st.iai st.iaexcl (List.range P.CI.length) (st.ss, st.ip)
  unfold stepL2
  set b := chooseViolated st.s st.iai st.iaexcl (List.range P.CI.length) (st.ss, st.ip) with hbd
  by_cases hneg' : b.1 ≥ 0
  · rw [if_pos hneg']
    refine ⟨_, rfl, ⟨hb.fac, hb.ne_le, hb.ne_len, hb.eqs, hb.rng, hb.inj, hb.act, hb.obj, hb.pos⟩, h.stat, ?_, rfl⟩
    have := psi_eq P st.x
    rw [Finset.sum_eq_zero] at this
    · change violation P st.x = 0
      linarith
    · intro j hj
      have hj := Finset.mem_range.mp hj
      apply min_eq_left
      by_cases hja : st.iai j = -1
      · obtain ⟨k, k1, k2, k3⟩ := (h.iai j hj).mp hja
        have := hb.act k k2
        rw [k3, conOf_nat] at this
        unfold QP.slack
        exact this.ge
      · have := h2 j (by simpa using hj) hja (h.excl j)
        rw [h.slack j hj] at this
        linarith
  rw [if_neg hneg']
  have hneg : b.1 < 0 := not_le.mp hneg'
  rcases h3 with h3 | ⟨i, hi, h3, h4, h5⟩
  · rw [h3, h.ss] at hneg; simp at hneg
  · have hi' : i < P.CI.length := by simpa using hi
    have hbi : b.2 = i := by rw [h3]
    have hnew : ∀ k, P.CE.length ≤ k → k < st.iq → st.A k ≠ i := fun k k1 k2 k3 => h4 ((h.iai i hi').mpr ⟨k, k1, k2, k3⟩)
    have hs1 : b.1 = P.slack st.x i := by rw [h3]; exact h.slack i hi'
    have key : InvA P { st with ss := b.1, ip := b.2, u := Function.update st.u st.iq 0, A := Function.update st.A st.iq b.2 } := by
      have hA : ∀ k, k < st.iq → Function.update st.A st.iq (b.2 : ℤ) k = st.A k := fun k hk =>
        Function.update_of_ne (by omega) _ _
      have hU : ∀ k, k < st.iq → Function.update st.u st.iq 0 k = st.u k := fun k hk =>
        Function.update_of_ne (by omega) _ _
      refine ⟨⟨?_, hb.ne_le, hb.ne_len, ?_, ?_, ?_, ?_, hb.obj, ?_⟩, ?_, ?_, ?_, ?_, ?_, ?_, ?_, ?_⟩
      · apply hb.fac.congr
        intro k hk
        simp only [nrm]; rw [hA k hk]
      · intro k hk
        simp only
        rw [hA k (lt_of_lt_of_le hk hb.ne_le)]; exact hb.eqs k hk
      · intro k hk hk'
        simp only at hk' ⊢
        rw [hA k hk']; exact hb.rng k hk hk'
      · intro k k' hk hk1 hk' hk1' he
        simp only at he hk1 hk1'
        rw [hA k hk1, hA k' hk1'] at he
        exact hb.inj k k' hk hk1 hk' hk1' he
      · intro k hk
        simp only at hk ⊢
        rw [hA k hk]; exact hb.act k hk
      · intro k hk hk'
        simp only at hk' ⊢
        rw [hU k hk']; exact hb.pos k hk hk'
      · simp only [Function.update_self, zero_smul, add_zero]
        have := h.stat
        unfold Stat at this
        rw [this]
        apply Finset.sum_congr rfl
        intro k hk
        have hk := Finset.mem_range.mp hk
        rw [hU k hk, nrm, nrm, hA k hk]
      · intro j hj
        simp only
        rw [h.iai j hj]
        constructor
        · rintro ⟨k, k1, k2, k3⟩; exact ⟨k, k1, k2, by rw [hA k k2]; exact k3⟩
        · rintro ⟨k, k1, k2, k3⟩; rw [hA k k2] at k3; exact ⟨k, k1, k2, k3⟩
      · simp only; rw [hbi]; exact hi'
      · simp only [Function.update_self]
      · intro k k1 k2
        simp only at k2 ⊢
        rw [hA k k2, hbi]; exact hnew k k1 k2
      · simp only [Function.update_self]; exact le_rfl
      · simp only; rw [hbi]; exact h.slack i hi'
      · simp only; rw [hbi, ← hs1]; exact hneg
    have hroom := key.toMoved.room
    rw [if_pos ⟨by simp only; rw [hbi]; exact hi', hroom⟩]
    exact ⟨_, rfl, key, rfl, rfl, rfl⟩

/-- What a step from `l1` leads to. -/
def Post1 (maxIter : ℕ) (tol : ℝ) (P : QP n) (st : QState n) : QNext n → Prop
  | .ret .maxIterReached s => s.iter = maxIter ∨ maxIter = 0
  | .ret .optimal s => QBase P P.CE.length s ∧ Stat P s ∧ violation P s.x ≤ tol ∧ s.iter = st.iter + 1
  | .l2 s => Inv2 P s ∧ s.iter = st.iter + 1 ∧ s.iter < maxIter ∧ s.iq = st.iq ∧ s.f = st.f ∧ s.x = st.x
  | _ => False

theorem stepL1_ok {eps : ℝ} {maxIter : ℕ} {P : QP n} {J0 : ℕ → VecN n} {st : QState n} (h : Inv1 P st)
    (hit : st.iter + 1 ≤ maxIter ∨ maxIter = 0) :
    ∃ q, stepL1 eps maxIter P J0 st = .ok q ∧ Post1 maxIter (qpTol eps P J0) P st q := by
  have hb := h.base
  unfold stepL1
  by_cases hm : st.iter + 1 ≥ maxIter
  · rw [if_pos hm]
    refine ⟨_, rfl, ?_⟩
    change st.iter + 1 = maxIter ∨ maxIter = 0
    omega
  · rw [if_neg hm]
    have hroom : st.iq ≤ P.CE.length + P.CI.length := by
      have hm : ∀ k ∈ Finset.Ico P.CE.length st.iq, (st.A k).toNat ∈ Finset.range P.CI.length := by
        intro k hk
        obtain ⟨h1, h2⟩ := Finset.mem_Ico.mp hk
        rw [Finset.mem_range]
        have := hb.rng k h1 h2; omega
      have hi : Set.InjOn (fun k => (st.A k).toNat) (Finset.Ico P.CE.length st.iq : Set ℕ) := by
        intro a ha b hb' hab
        obtain ⟨a1, a2⟩ := Finset.mem_Ico.mp (Finset.mem_coe.mp ha)
        obtain ⟨b1, b2⟩ := Finset.mem_Ico.mp (Finset.mem_coe.mp hb')
        simp only at hab
        have ra := hb.rng a a1 a2
        have rb := hb.rng b b1 b2
        exact hb.inj a b a1 a2 b1 b2 (by omega)
      have := Finset.card_le_card_of_injOn _ hm hi
      simp at this
      omega
    rw [if_pos ⟨hroom, fun i h1 h2 => hb.rng i h1 h2⟩]
    simp only [psi_eq, abs_neg, abs_of_nonneg (violation_nonneg P st.x)]
    by_cases hv : violation P st.x ≤ qpTol eps P J0
    · rw [if_pos hv]
      exact ⟨_, rfl, ⟨hb.fac, hb.ne_le, hb.ne_len, hb.eqs, hb.rng, hb.inj, hb.act, hb.obj, hb.pos⟩, h.stat, hv, rfl⟩
    · rw [if_neg hv]
      refine ⟨_, rfl, ?_, rfl, ?_, rfl, rfl, rfl⟩
      · refine ⟨⟨hb.fac, hb.ne_le, hb.ne_len, hb.eqs, hb.rng, hb.inj, hb.act, hb.obj, hb.pos⟩, h.stat, ?_, fun _ => rfl,
          fun _ _ => rfl, rfl⟩
        · intro j hj
          change markActive st.A P.CE.length st.iq st.iai j = -1 ↔ ∃ k, P.CE.length ≤ k ∧ k < st.iq ∧ st.A k = j
          unfold markActive
          by_cases hc : ∃ i, P.CE.length ≤ i ∧ i < st.iq ∧ st.A i = j
          · rw [if_pos hc]; simp [hc]
          · rw [if_neg hc]
            exact ⟨fun h' => h.iai j hj h', fun h' => absurd h' hc⟩
      · change st.iter + 1 < maxIter; omega

/-! ### The equalities -/

/-- Invariant of the loop over the equalities. -/
structure InvE (P : QP n) (i : ℕ) (st : QState n) : Prop where
  base : QBase P i st
  iq : st.iq = i
  stat : Stat P st
  rnorm : 0 ≤ st.Rnorm
  iter : st.iter = 0

/-- Equality `i` is a combination of the equalities before it. -/
def EqDependent (P : QP n) (i : ℕ) : Prop :=
  ∃ c : ℕ → ℝ, (P.CE.getD i (0, 0)).1 = ∑ k ∈ Finset.range i, c k • (P.CE.getD k (0, 0)).1

/-- What a step of the loop over the equalities leads to. -/
def PostE (P : QP n) (i : ℕ) : QNext n → Prop
  | .ret r _ => r = .redundantEqualities ∧ EqDependent P i
  | .eq j s => j = i + 1 ∧ InvE P (i + 1) s
  | _ => False

theorem stepEq_ok {eps : ℝ} (heps : 0 ≤ eps) {P : QP n} {i : ℕ} {st : QState n} (h : InvE P i st)
    (hi : i < P.CE.length) (hn : i < n) (hs : Sharp eps st (P.CE.getD i (0, 0)).1) :
    ∃ q, stepEq eps P i st = .ok q ∧ PostE P i q := by
  have hb := h.base
  have hiq := h.iq
  unfold stepEq
  rw [if_pos hi]
  simp only
  rw [if_pos ⟨by omega, by omega⟩]
  set np := (P.CE.getD i (0, 0)).1 with hnp
  set c := (P.CE.getD i (0, 0)).2 with hc
  unfold Sharp at hs
  set d := computeD st.J np with hd
  set z := updateZ st.J d st.iq with hz
  set r := updateR st.R d st.iq with hr
  simp only at hs
  obtain ⟨hs1, hs2⟩ := hs
  obtain ⟨a, ha, hok, hfac, hiff, _, hRn⟩ := hb.fac.add eps st.Rnorm np (by omega)
  rw [← hd] at ha
  rw [ha]
  simp only
  by_cases hz0 : z = 0
  · have hl : a.last = 0 := by
      by_contra hc
      exact hiff.mpr hc hz0
    have hnok : ¬ a.ok := by
      rw [hok, hl, abs_zero, not_lt]
      exact mul_nonneg heps h.rnorm
    rw [if_neg hnok]
    refine ⟨_, rfl, rfl, r, ?_⟩
    have hGz := hb.fac.Gz np
    rw [← hd, ← hz, ← hr, hz0, Matrix.mulVec_zero] at hGz
    rw [← hnp, sub_eq_zero.mp hGz.symm, hiq]
    apply Finset.sum_congr rfl
    intro k hk
    rw [nrm, hb.eqs k (Finset.mem_range.mp hk), conOf_neg]
  · have haok := hs2 hz0 a ha
    rw [if_pos haok]
    have hzz : |z ⬝ᵥ z| > eps := by
      rw [abs_of_nonneg (dot_self_pos.mpr hz0).le]
      by_contra hc
      exact hz0 (hs1 (not_lt.mp hc))
    have hznp : 0 < z ⬝ᵥ np := z_np_pos hz0
    set t2 := eqLen eps z np st.x c with ht2
    have ht2e : t2 * (z ⬝ᵥ np) = -(np ⬝ᵥ st.x) - c := by
      rw [ht2, eqLen, if_pos hzz]; field_simp
    refine ⟨_, rfl, rfl, ?_⟩
    have hA : ∀ k, k < i → Function.update st.A i (-(i : ℤ) - 1) k = st.A k := fun k hk =>
      Function.update_of_ne (by omega) _ _
    have hAi : Function.update st.A i (-(i : ℤ) - 1) i = -(i : ℤ) - 1 := Function.update_self _ _ _
    refine ⟨⟨?_, ?_, hi, ?_, ?_, ?_, ?_, ?_, ?_⟩, ?_, ?_, ?_, h.iter⟩
    · apply (hfac (hiff.mp hz0)).congr
      intro k hk
      by_cases hk' : k = st.iq
      · subst hk'
        rw [Function.update_self, nrm]
        simp only
        rw [hiq, hAi, conOf_neg]
      · rw [Function.update_of_ne hk', nrm, nrm]
        simp only
        rw [hA k (by omega)]
    · simp only; omega
    · intro k hk
      simp only
      by_cases hk' : k = i
      · subst hk'; exact hAi
      · rw [hA k (by omega)]; exact hb.eqs k (by omega)
    · intro k hk hk'
      simp only at hk'; omega
    · intro k k' hk hk1 _ _ _
      simp only at hk1; omega
    · intro k hk
      simp only at hk ⊢
      by_cases hk' : k = i
      · subst hk'
        rw [hAi, conOf_neg, ← hnp, ← hc, dotProduct_add, dotProduct_smul, smul_eq_mul, dotProduct_comm np z, ht2e]
        ring
      · rw [hA k (by omega), dotProduct_add, dotProduct_smul]
        have := hb.fac.z_normal d (k := k) (by omega)
        unfold nrm at this
        rw [← hz] at this
        rw [this, smul_zero, add_zero]
        exact hb.act k (by omega)
    · simp only
      rw [qpObj_add hb.fac.fac, hb.obj, h.stat, sum_dotProduct, Finset.sum_eq_zero]
      · rw [Matrix.mulVec_smul]
        simp only [smul_dotProduct, dotProduct_smul, smul_eq_mul]
        have := hb.fac.zGz np
        rw [← hd, ← hz] at this
        rw [this]
        ring
      · intro k hk
        rw [smul_dotProduct, dotProduct_smul]
        have := hb.fac.z_normal d (Finset.mem_range.mp hk)
        rw [← hz] at this
        rw [this]; simp
    · intro k hk hk'
      simp only at hk'; omega
    · simp only; omega
    · unfold Stat
      simp only
      rw [Finset.sum_range_succ]
      have e1 : ∑ k ∈ Finset.range st.iq,
            (if k = st.iq then t2 else if k < st.iq then st.u k - t2 * r k else st.u k) •
              nrm P (Function.update st.A i (-(i : ℤ) - 1)) k =
          ∑ k ∈ Finset.range st.iq, st.u k • nrm P st.A k - t2 • ∑ k ∈ Finset.range st.iq, r k • nrm P st.A k := by
        rw [Finset.smul_sum, ← Finset.sum_sub_distrib]
        apply Finset.sum_congr rfl
        intro k hk
        have hk := Finset.mem_range.mp hk
        rw [if_neg (by omega), if_pos hk, sub_smul, smul_smul, nrm, hA k (by omega), nrm]
      have e2 : nrm P (Function.update st.A i (-(i : ℤ) - 1)) st.iq = np := by
        rw [nrm, hiq, hAi, conOf_neg]
      have hGz := hb.fac.Gz np
      rw [← hd, ← hz, ← hr] at hGz
      have hst := h.stat
      unfold Stat at hst
      rw [e1, e2, if_pos rfl, Matrix.mulVec_add, Matrix.mulVec_smul, hGz, add_right_comm, hst, smul_sub]
      abel
    · simp only
      rw [hRn, if_pos haok]
      exact h.rnorm.trans (le_max_left _ _)

theorem InvE.init {P : QP n} {J0 : ℕ → VecN n} (hF : Factor P.G J0) (w : Work n) : InvE P 0 (qpInit P J0 w) := by
  have hx : P.G *ᵥ (-∑ j ∈ Finset.range n, (J0 j ⬝ᵥ P.g) • J0 j) = -P.g := by
    rw [Matrix.mulVec_neg, hF P.g]
  refine ⟨⟨⟨hF, by simp [qpInit], ?_⟩, by simp, by simp, ?_, ?_, ?_, ?_, ?_, ?_⟩, rfl, ?_, ?_, rfl⟩
  all_goals try (intro k hk; simp [qpInit] at hk; done)
  · intro k _ hk; simp [qpInit] at hk
  · intro k _ _ hk; simp [qpInit] at hk
  · unfold qpObj
    simp only [qpInit]
    rw [hx]
    generalize (∑ j ∈ Finset.range n, (J0 j ⬝ᵥ P.g) • J0 j) = y
    simp only [dotProduct_neg, neg_dotProduct, dotProduct_comm y]
    ring
  · intro k _ hk; simp [qpInit] at hk
  · unfold Stat
    simp only [qpInit]
    rw [hx]; simp
  · simp [qpInit]

theorem InvE.done {P : QP n} {st : QState n} (h : InvE P P.CE.length st) :
    Inv1 P { st with iai := fun i => (i : ℤ) } := by
  have hb := h.base
  refine ⟨⟨hb.fac, hb.ne_le, hb.ne_len, hb.eqs, hb.rng, hb.inj, hb.act, hb.obj, hb.pos⟩, h.stat, ?_⟩
  intro j _ hj
  simp only at hj
  omega

end Verif
