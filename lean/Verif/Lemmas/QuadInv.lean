import Verif.Lemmas.QuadAlg
import Mathlib.Data.Finset.Card

/-! The invariant of the QP solver. -/

namespace Verif
open Matrix

variable {n : ℕ}

/-- The constraint with number `a` in the active set: `-i-1` is equality `i`, `i ≥ 0` is inequality `i`. -/
def conOf (P : QP n) (a : ℤ) : VecN n × ℝ := if a < 0 then P.CE.getD (-a - 1).toNat (0, 0) else P.row a.toNat

/-- Normal of the active constraint number `k`. -/
def nrm (P : QP n) (A : ℕ → ℤ) (k : ℕ) : VecN n := (conOf P (A k)).1

theorem conOf_nat (P : QP n) (i : ℕ) : conOf P i = P.row i := by
  unfold conOf
  rw [if_neg (by omega)]; simp

theorem conOf_neg (P : QP n) (i : ℕ) : conOf P (-(i : ℤ) - 1) = P.CE.getD i (0, 0) := by
  unfold conOf
  rw [if_pos (by omega)]
  congr 1
  omega

theorem Factors.congr {G : Matrix (Fin n) (Fin n) ℝ} {J : ℕ → VecN n} {R : ℕ → ℕ → ℝ} {N N' : ℕ → VecN n} {iq : ℕ}
    (h : Factors G J R N iq) (hN : ∀ k, k < iq → N' k = N k) : Factors G J R N' iq :=
  ⟨h.fac, h.le, fun k hk => by rw [hN k hk]; exact h.tri k hk⟩

theorem findActive_eq {A : ℕ → ℤ} {nE iq qq : ℕ} {l : ℤ} (h1 : nE ≤ qq) (h2 : qq < iq) (h3 : A qq = l)
    (h4 : ∀ i, nE ≤ i → i < qq → A i ≠ l) : findActive A nE iq l = qq := by
  unfold findActive
  have : (List.range' nE (iq - nE)).find? (fun i => A i == l) = some qq := by
    rw [List.find?_range'_eq_some]
    refine ⟨by simp [h3], by simp; omega, fun j hj hj' => ?_⟩
    simp; exact h4 j (by simpa using hj) hj'
  rw [this]; rfl

theorem Factors.delete {G : Matrix (Fin n) (Fin n) ℝ} {J : ℕ → VecN n} {R : ℕ → ℕ → ℝ} {N : ℕ → VecN n} {iq : ℕ}
    (h : Factors G J R N iq) {m nE qq : ℕ} {A : ℕ → ℤ} {u : ℕ → ℝ} {l : ℤ} (hm : iq < m) (h1 : nE ≤ qq) (h2 : qq < iq)
    (h3 : A qq = l) (h4 : ∀ i, nE ≤ i → i < qq → A i ≠ l) :
    ∃ a, deleteConstraint m nE J R A u iq l = .ok a ∧
      a.A = (fun i => if qq ≤ i ∧ i < iq then A (i + 1) else if i = iq then 0 else A i) ∧
      a.u = (fun i => if qq ≤ i ∧ i < iq then u (i + 1) else if i = iq then 0 else u i) ∧
      Factors G a.J a.R (fun k => if k < qq then N k else N (k + 1)) (iq - 1) := by
  have hle := h.le
  unfold deleteConstraint
  rw [if_pos ⟨by omega, hm, hle⟩, findActive_eq h1 h2 h3 h4]
  refine ⟨_, rfl, rfl, rfl, ?_⟩
  obtain ⟨a, b⟩ := delLoop_spec (n := n) (iq := iq - 1) (N := fun k => if k < qq then N k else N (k + 1)) (by omega)
    (iq - 1 - qq) qq
    (J, fun i k => if k = iq - 1 ∧ i < iq then 0 else if qq ≤ k ∧ k < iq - 1 then R i (k + 1) else R i k) (by omega)
    (by
      intro k hk
      obtain ⟨a, b, c⟩ := h.tri k (by omega)
      have e1 : ¬ k = iq - 1 := by omega
      have e2 : ¬ (qq ≤ k ∧ k < iq - 1) := by omega
      simp only [hk, if_true]
      refine ⟨fun i hi hn => ?_, b, ?_⟩
      · simp only [e1, false_and, if_false, e2]; exact a i hi hn
      · simp only [e1, false_and, if_false, e2]; exact c)
    (by
      intro k hk hk'
      obtain ⟨a, b, c⟩ := h.tri (k + 1) (by omega)
      have e1 : ¬ k = iq - 1 := by omega
      have e2 : (qq ≤ k ∧ k < iq - 1) := by omega
      have e3 : ¬ k < qq := by omega
      simp only [e3, if_false]
      refine ⟨fun i hi hn => ?_, fun i hi hn => b i (by omega) hn, ?_⟩
      · simp only [e1, false_and, if_false, e2, and_self, if_true]; exact a i hi hn
      · simp only [e1, false_and, if_false, e2, and_self, if_true]; exact c)
  refine ⟨fun v => ?_, by omega, b⟩
  have := a v
  unfold jj at this
  rw [this]; exact h.fac v

theorem sum_delete {M : Type*} [AddCommMonoid M] (F : ℕ → M) : ∀ (q kk : ℕ), kk ≤ q →
    ∑ k ∈ Finset.range (q + 1), F k = F kk + ∑ k ∈ Finset.range q, F (if k < kk then k else k + 1)
  | 0, kk, h => by
    have : kk = 0 := by omega
    subst this; simp
  | q + 1, kk, h => by
    by_cases hk : kk = q + 1
    · subst hk
      rw [Finset.sum_range_succ, add_comm]
      congr 1
      apply Finset.sum_congr rfl
      intro k hk
      rw [if_pos (Finset.mem_range.mp hk)]
    · rw [Finset.sum_range_succ, sum_delete F q kk (by omega), Finset.sum_range_succ _ q, if_neg (by omega), add_assoc]

/-- What holds at every label; `ne` equalities are in the active set, the first ones. -/
structure QBase (P : QP n) (ne : ℕ) (st : QState n) : Prop where
  fac : Factors P.G st.J st.R (nrm P st.A) st.iq
  ne_le : ne ≤ st.iq
  ne_len : ne ≤ P.CE.length
  eqs : ∀ k, k < ne → st.A k = -(k : ℤ) - 1
  rng : ∀ k, ne ≤ k → k < st.iq → 0 ≤ st.A k ∧ st.A k < P.CI.length
  inj : ∀ k k', ne ≤ k → k < st.iq → ne ≤ k' → k' < st.iq → st.A k = st.A k' → k = k'
  act : ∀ k, k < st.iq → (conOf P (st.A k)).1 ⬝ᵥ st.x + (conOf P (st.A k)).2 = 0
  obj : st.f = qpObj P st.x
  pos : ∀ k, ne ≤ k → k < st.iq → 0 ≤ st.u k

/-- The gradient is a combination of the active normals. -/
def Stat (P : QP n) (st : QState n) : Prop :=
  P.G *ᵥ st.x + P.g = ∑ k ∈ Finset.range st.iq, st.u k • nrm P st.A k

/-- `iai` marks exactly the active inequalities. -/
def IaiOk (P : QP n) (st : QState n) : Prop :=
  ∀ j, j < P.CI.length → (st.iai j = -1 ↔ ∃ k, P.CE.length ≤ k ∧ k < st.iq ∧ st.A k = j)

/-- Invariant at `l1`. -/
structure Inv1 (P : QP n) (st : QState n) : Prop where
  base : QBase P P.CE.length st
  stat : Stat P st
  iai : ∀ j, j < P.CI.length → st.iai j = -1 → ∃ k, P.CE.length ≤ k ∧ k < st.iq ∧ st.A k = j

/-- Invariant at `l2`. -/
structure Inv2 (P : QP n) (st : QState n) : Prop where
  base : QBase P P.CE.length st
  stat : Stat P st
  iai : IaiOk P st
  excl : ∀ j, st.iaexcl j = true
  slack : ∀ j, j < P.CI.length → st.s j = P.slack st.x j
  ss : st.ss = 0

/-- Invariant at `l2a`. -/
structure InvA (P : QP n) (st : QState n) : Prop where
  base : QBase P P.CE.length st
  stat : P.G *ᵥ st.x + P.g = ∑ k ∈ Finset.range st.iq, st.u k • nrm P st.A k + st.u st.iq • (P.row st.ip).1
  iai : IaiOk P st
  ip_lt : st.ip < P.CI.length
  ip_A : st.A st.iq = st.ip
  ip_new : ∀ k, P.CE.length ≤ k → k < st.iq → st.A k ≠ st.ip
  u_pos : 0 ≤ st.u st.iq
  slack : st.s st.ip = P.slack st.x st.ip
  neg : P.slack st.x st.ip < 0

/-- Everything that holds after a move, before the active set changes. -/
structure Moved (P : QP n) (st : QState n) : Prop where
  base : QBase P P.CE.length st
  stat : P.G *ᵥ st.x + P.g = ∑ k ∈ Finset.range st.iq, st.u k • nrm P st.A k + st.u st.iq • (P.row st.ip).1
  iai : IaiOk P st
  ip_lt : st.ip < P.CI.length
  ip_A : st.A st.iq = st.ip
  ip_new : ∀ k, P.CE.length ≤ k → k < st.iq → st.A k ≠ st.ip
  u_pos : 0 ≤ st.u st.iq

/-- There is room for one more constraint. -/
theorem Moved.room {P : QP n} {st : QState n} (h : Moved P st) : st.iq < P.CE.length + P.CI.length := by
  have hb := h.base
  have hm : ∀ k ∈ Finset.Ico P.CE.length (st.iq + 1), (st.A k).toNat ∈ Finset.range P.CI.length := by
    intro k hk
    obtain ⟨h1, h2⟩ := Finset.mem_Ico.mp hk
    rw [Finset.mem_range]
    by_cases he : k = st.iq
    · subst he; rw [h.ip_A]; simpa using h.ip_lt
    · have := hb.rng k h1 (by omega); omega
  have hi : Set.InjOn (fun k => (st.A k).toNat) (Finset.Ico P.CE.length (st.iq + 1) : Set ℕ) := by
    intro a ha b hb' hab
    obtain ⟨a1, a2⟩ := Finset.mem_Ico.mp (Finset.mem_coe.mp ha)
    obtain ⟨b1, b2⟩ := Finset.mem_Ico.mp (Finset.mem_coe.mp hb')
    simp only at hab
    by_cases ea : a = st.iq
    · by_cases eb : b = st.iq
      · rw [ea, eb]
      · have r := hb.rng b b1 (by omega)
        have := h.ip_new b b1 (by omega)
        rw [ea, h.ip_A] at hab
        exfalso; apply this; omega
    · have ra := hb.rng a a1 (by omega)
      by_cases eb : b = st.iq
      · have := h.ip_new a a1 (by omega)
        rw [eb, h.ip_A] at hab
        exfalso; apply this; omega
      · have rb := hb.rng b b1 (by omega)
        exact hb.inj a b a1 (by omega) b1 (by omega) (by omega)
  have := Finset.card_le_card_of_injOn _ hm hi
  have hne := hb.ne_le
  simp at this
  omega

theorem InvA.toMoved {P : QP n} {st : QState n} (h : InvA P st) : Moved P st :=
  ⟨h.base, h.stat, h.iai, h.ip_lt, h.ip_A, h.ip_new, h.u_pos⟩

/-! ### Moving along the direction -/

/-- The state after a move of length `t`. -/
noncomputable def moved (P : QP n) (st : QState n) (t : ℝ) : QState n :=
  let np := (P.row st.ip).1
  let d := computeD st.J np
  let z := updateZ st.J d st.iq
  let r := updateR st.R d st.iq
  { st with x := st.x + t • z, f := st.f + t * (z ⬝ᵥ np) * (1 / 2 * t + st.u st.iq), u := moveU st.u r st.iq t }

theorem InvA.move {P : QP n} {st : QState n} (h : InvA P st) {t : ℝ} (ht : 0 ≤ t)
    (hu : ∀ k, P.CE.length ≤ k → k < st.iq → 0 < updateR st.R (computeD st.J (P.row st.ip).1) st.iq k →
      t ≤ st.u k / updateR st.R (computeD st.J (P.row st.ip).1) st.iq k) :
    Moved P (moved P st t) := by
  have hb := h.base
  set np := (P.row st.ip).1 with hnp
  set d := computeD st.J np with hd
  set z := updateZ st.J d st.iq with hz
  set r := updateR st.R d st.iq with hr
  have hx : (moved P st t).x = st.x + t • z := rfl
  have hupos : ∀ k, P.CE.length ≤ k → k < st.iq → 0 ≤ st.u k - t * r k := by
    intro k h1 h2
    by_cases hrk : 0 < r k
    · have := (le_div_iff₀ hrk).mp (hu k h1 h2 hrk)
      linarith
    · have := hb.pos k h1 h2
      nlinarith [mul_nonneg ht (neg_nonneg.mpr (not_lt.mp hrk))]
  have hstat : P.G *ᵥ (st.x + t • z) + P.g =
      ∑ k ∈ Finset.range st.iq, moveU st.u r st.iq t k • nrm P st.A k + moveU st.u r st.iq t st.iq • np := by
    have e1 : ∑ k ∈ Finset.range st.iq, moveU st.u r st.iq t k • nrm P st.A k =
        ∑ k ∈ Finset.range st.iq, st.u k • nrm P st.A k - t • ∑ k ∈ Finset.range st.iq, r k • nrm P st.A k := by
      rw [Finset.smul_sum, ← Finset.sum_sub_distrib]
      apply Finset.sum_congr rfl
      intro k hk
      have hk := Finset.mem_range.mp hk
      rw [moveU, if_neg (by omega), if_pos hk, sub_smul, smul_smul]
    have e2 : moveU st.u r st.iq t st.iq = st.u st.iq + t := by simp [moveU]
    have hGz := hb.fac.Gz np
    rw [← hd, ← hz, ← hr] at hGz
    rw [e1, e2, Matrix.mulVec_add, Matrix.mulVec_smul, hGz, add_right_comm, h.stat, ← hnp, smul_sub, add_smul]
    abel
  refine ⟨⟨hb.fac, hb.ne_le, hb.ne_len, hb.eqs, hb.rng, hb.inj, ?_, ?_, ?_⟩, hstat, h.iai, h.ip_lt, h.ip_A, h.ip_new, ?_⟩
  · intro k hk
    rw [hx, dotProduct_add, dotProduct_smul]
    change k < st.iq at hk
    have := hb.fac.z_normal d hk
    unfold nrm at this
    change (conOf P (st.A k)).1 ⬝ᵥ st.x + t • ((conOf P (st.A k)).1 ⬝ᵥ z) + (conOf P (st.A k)).2 = 0
    rw [this, smul_zero, add_zero]
    exact hb.act k hk
  · change st.f + t * (z ⬝ᵥ np) * (1 / 2 * t + st.u st.iq) = qpObj P (st.x + t • z)
    rw [qpObj_add hb.fac.fac, hb.obj, h.stat, add_dotProduct, sum_dotProduct, Finset.sum_eq_zero]
    · rw [Matrix.mulVec_smul]
      simp only [smul_dotProduct, dotProduct_smul, smul_eq_mul]
      have := hb.fac.zGz np
      rw [← hd, ← hz] at this
      rw [this, ← hnp, dotProduct_comm np z]
      ring
    · intro k hk
      rw [smul_dotProduct, dotProduct_smul]
      have := hb.fac.z_normal d (Finset.mem_range.mp hk)
      rw [← hz] at this
      rw [this]; simp
  · intro k h1 h2
    change k < st.iq at h2
    change 0 ≤ moveU st.u r st.iq t k
    rw [moveU, if_neg (by omega), if_pos h2]
    exact hupos k h1 h2
  · change 0 ≤ moveU st.u r st.iq t st.iq
    rw [moveU, if_pos rfl]
    have := h.u_pos
    linarith

/-! ### Dropping a constraint -/

theorem Moved.drop {P : QP n} {st : QState n} (h : Moved P st) {kk : ℕ} (h1 : P.CE.length ≤ kk) (h2 : kk < st.iq)
    (hu : st.u kk = 0) :
    ∃ st', dropActive P st (st.A kk) = .ok st' ∧ Moved P st' ∧ st'.iq = st.iq - 1 ∧ st'.x = st.x ∧ st'.f = st.f ∧
      st'.ip = st.ip ∧ st'.iter = st.iter ∧ st'.s = st.s := by
  have hb := h.base
  have hr := hb.rng kk h1 h2
  obtain ⟨a, ha, hA, hU, hF⟩ := hb.fac.delete (u := st.u) h.room h1 h2 rfl
    (fun i hi hi' he => by
      have := hb.inj i kk hi (by omega) h1 h2 he
      omega)
  unfold dropActive
  rw [if_pos hr, ha]
  refine ⟨_, rfl, ?_, rfl, rfl, rfl, rfl, rfl, rfl⟩
  have hA1 : ∀ k, k < st.iq - 1 → a.A k = st.A (if k < kk then k else k + 1) := by
    intro k hk
    rw [hA]
    by_cases hk' : k < kk
    · simp only [hk', if_true]
      rw [if_neg (by omega), if_neg (by omega)]
    · simp only [hk', if_false]
      rw [if_pos (by omega)]
  have hU1 : ∀ k, k < st.iq - 1 → a.u k = st.u (if k < kk then k else k + 1) := by
    intro k hk
    rw [hU]
    by_cases hk' : k < kk
    · simp only [hk', if_true]
      rw [if_neg (by omega), if_neg (by omega)]
    · simp only [hk', if_false]
      rw [if_pos (by omega)]
  have hA2 : a.A (st.iq - 1) = st.A st.iq := by
    rw [hA]; simp only
    rw [if_pos (by omega), Nat.sub_add_cancel (by omega)]
  have hU2 : a.u (st.iq - 1) = st.u st.iq := by
    rw [hU]; simp only
    rw [if_pos (by omega), Nat.sub_add_cancel (by omega)]
  have hdel : ∀ k, k < st.iq - 1 → (if k < kk then k else k + 1) < st.iq ∧ (P.CE.length ≤ k → P.CE.length ≤ if k < kk then k else k + 1) := by
    intro k hk; split_ifs <;> constructor <;> intros <;> omega
  refine ⟨⟨?_, ?_, hb.ne_len, ?_, ?_, ?_, ?_, hb.obj, ?_⟩, ?_, ?_, h.ip_lt, ?_, ?_, ?_⟩
  · apply hF.congr
    intro k hk
    simp only [nrm]
    rw [hA1 k hk]
    split_ifs <;> rfl
  · simp only; omega
  · intro k hk
    simp only
    rw [hA1 k (by omega), if_pos (by omega)]
    exact hb.eqs k hk
  · intro k hk hk'
    simp only at hk' ⊢
    rw [hA1 k hk']
    exact hb.rng _ ((hdel k hk').2 hk) (hdel k hk').1
  · intro k k' hk hk1 hk' hk1' he
    simp only at he hk1 hk1'
    rw [hA1 k hk1, hA1 k' hk1'] at he
    have := hb.inj _ _ ((hdel k hk1).2 hk) (hdel k hk1).1 ((hdel k' hk1').2 hk') (hdel k' hk1').1 he
    split_ifs at this <;> omega
  · intro k hk
    simp only at hk ⊢
    rw [hA1 k hk]
    exact hb.act _ (hdel k hk).1
  · intro k hk hk'
    simp only at hk' ⊢
    rw [hU1 k hk']
    exact hb.pos _ ((hdel k hk').2 hk) (hdel k hk').1
  · simp only
    rw [h.stat, hU2]
    congr 1
    obtain ⟨q, hq⟩ : ∃ q, st.iq = q + 1 := ⟨st.iq - 1, by omega⟩
    rw [hq, sum_delete _ q kk (by omega), hu, zero_smul, zero_add]
    apply Finset.sum_congr (by simp)
    intro k hk
    have hk := Finset.mem_range.mp hk
    rw [hU1 k (by omega), nrm, nrm, hA1 k (by omega)]
  · intro j hj
    simp only
    by_cases hjl : j = (st.A kk).toNat
    · subst hjl
      rw [Function.update_self]
      constructor
      · intro h0; omega
      · rintro ⟨k, hk1, hk2, hk3⟩
        exfalso
        rw [hA1 k hk2] at hk3
        have := hb.inj _ kk ((hdel k hk2).2 hk1) (hdel k hk2).1 h1 h2 (by omega)
        split_ifs at this <;> omega
    · rw [Function.update_of_ne hjl, h.iai j hj]
      constructor
      · rintro ⟨k, hk1, hk2, hk3⟩
        have hkk : k ≠ kk := by rintro rfl; omega
        by_cases hlt : k < kk
        · exact ⟨k, hk1, by omega, by rw [hA1 k (by omega), if_pos hlt]; exact hk3⟩
        · refine ⟨k - 1, by omega, by omega, ?_⟩
          rw [hA1 (k - 1) (by omega), if_neg (by omega), Nat.sub_add_cancel (by omega)]
          exact hk3
      · rintro ⟨k, hk1, hk2, hk3⟩
        rw [hA1 k hk2] at hk3
        exact ⟨_, (hdel k hk2).2 hk1, (hdel k hk2).1, hk3⟩
  · simp only; rw [hA2]; exact h.ip_A
  · intro k hk hk'
    simp only at hk' ⊢
    rw [hA1 k hk']
    exact h.ip_new _ ((hdel k hk').2 hk) (hdel k hk').1
  · simp only; rw [hU2]; exact h.u_pos

/-! ### Step lengths -/

theorem partialLen_spec (r u : ℕ → ℝ) (A : ℕ → ℤ) : ∀ (L : List ℕ) (b : Len × ℤ),
    (∀ t, (partialLen r u A L b).1 = some t → (∀ k ∈ L, 0 < r k → t ≤ u k / r k) ∧ (∀ t', b.1 = some t' → t ≤ t') ∧
      (partialLen r u A L b = b ∨ ∃ k ∈ L, 0 < r k ∧ t = u k / r k ∧ (partialLen r u A L b).2 = A k)) ∧
    ((partialLen r u A L b).1 = none → b.1 = none ∧ ∀ k ∈ L, ¬ 0 < r k)
  | [], b => by
    refine ⟨fun t ht => ⟨by simp, fun t' ht' => ?_, Or.inl rfl⟩, fun h => ⟨h, by simp⟩⟩
    simp only [partialLen] at ht
    rw [ht] at ht'
    simp at ht'
    exact ht'.le
  | k :: L, b => by
    rw [partialLen]
    obtain ⟨h1, h2⟩ := partialLen_spec r u A L
      (open Classical in if 0 < r k ∧ (∀ t, b.1 = some t → u k / r k < t) then (some (u k / r k), A k) else b)
    refine ⟨fun t ht => ?_, fun hn => ?_⟩
    · obtain ⟨a1, a2, a3⟩ := h1 t ht
      by_cases hc : 0 < r k ∧ (∀ t, b.1 = some t → u k / r k < t)
      · rw [if_pos hc] at a2 a3 ⊢
        have hk := a2 _ rfl
        refine ⟨?_, fun t' ht' => hk.trans (hc.2 t' ht').le, Or.inr ?_⟩
        · intro i hi
          rcases List.mem_cons.mp hi with rfl | hi
          · exact fun _ => hk
          · exact a1 i hi
        · rcases a3 with a3 | ⟨i, hi, a, b, c⟩
          · refine ⟨k, by simp, hc.1, ?_, by rw [a3]⟩
            rw [if_pos hc, a3] at ht
            simpa using ht.symm
          · exact ⟨i, by simp [hi], a, b, c⟩
      · rw [if_neg hc] at a2 a3 ⊢
        refine ⟨?_, a2, ?_⟩
        · intro i hi hri
          rcases List.mem_cons.mp hi with rfl | hi
          · have : ¬ ∀ t, b.1 = some t → u i / r i < t := fun h => hc ⟨hri, h⟩
            push_neg at this
            obtain ⟨t', ht', hle⟩ := this
            exact (a2 t' ht').trans hle
          · exact a1 i hi hri
        · rcases a3 with a3 | ⟨i, hi, a, b, c⟩
          · exact Or.inl a3
          · exact Or.inr ⟨i, by simp [hi], a, b, c⟩
    · obtain ⟨a1, a2⟩ := h2 hn
      by_cases hc : 0 < r k ∧ (∀ t, b.1 = some t → u k / r k < t)
      · rw [if_pos hc] at a1; simp at a1
      · rw [if_neg hc] at a1
        refine ⟨a1, ?_⟩
        intro i hi
        rcases List.mem_cons.mp hi with rfl | hi
        · intro hri
          exact hc ⟨hri, fun t ht => by rw [a1] at ht; simp at ht⟩
        · exact a2 i hi

theorem partialLen_some {r u : ℕ → ℝ} {A : ℕ → ℤ} {lo hi : ℕ} {t : ℝ}
    (h : (partialLen r u A (List.range' lo (hi - lo)) (none, 0)).1 = some t) :
    (∀ k, lo ≤ k → k < hi → 0 < r k → t ≤ u k / r k) ∧ ∃ k, lo ≤ k ∧ k < hi ∧ 0 < r k ∧ t = u k / r k ∧
      (partialLen r u A (List.range' lo (hi - lo)) (none, 0)).2 = A k := by
  obtain ⟨h1, h2, h3⟩ := (partialLen_spec r u A _ (none, 0)).1 t h
  refine ⟨fun k a b => h1 k (by rw [List.mem_range'_1]; omega), ?_⟩
  rcases h3 with h3 | ⟨k, hk, a, b, c⟩
  · rw [h3] at h; simp at h
  · rw [List.mem_range'_1] at hk
    exact ⟨k, by omega, by omega, a, b, c⟩

theorem partialLen_none {r u : ℕ → ℝ} {A : ℕ → ℤ} {lo hi : ℕ}
    (h : (partialLen r u A (List.range' lo (hi - lo)) (none, 0)).1 = none) :
    ∀ k, lo ≤ k → k < hi → r k ≤ 0 := by
  intro k a b
  exact not_lt.mp (((partialLen_spec r u A _ (none, 0)).2 h).2 k (by rw [List.mem_range'_1]; omega))

end Verif
