import Verif.Model.QuadprogFp
import Verif.Lemmas.QuadInv

/-! Control flow of the QP solver over an arbitrary arithmetic. -/

namespace Verif

variable {F : Type} {n : ℕ}

namespace Arith

/-- The states that the solver passes through. -/
inductive Reach (o : Arith F n) (maxIter : ℕ) (P : FQP F n) (J0 : ℕ → Fin n → F) (a : FNext F n) : FNext F n → Prop
  | refl : Reach o maxIter P J0 a a
  | tail {b c : FNext F n} : Reach o maxIter P J0 a b → o.step maxIter P J0 b = .ok c → Reach o maxIter P J0 a c

/-- In a state with label `l2a`, a candidate with `|z.z| > eps` would be accepted by `add_constraint`. -/
def Accepts (o : Arith F n) (P : FQP F n) (st : FState F n) : Prop :=
  ∀ a, o.far (o.updateZ st.J (o.gemvT st.J (o.row P st.ip).1) st.iq) →
    o.addConstraint st.J st.R (o.gemvT st.J (o.row P st.ip).1) st.iq st.Rnorm = .ok a → a.ok

/-- What is needed of the comparisons: the zero vector is not far from zero, zero is at most zero, and a number that is smaller than `+inf` is equal to
itself. -/
structure Sane (o : Arith F n) : Prop where
  zero : ¬ o.far fun _ => o.zero
  le : o.le o.zero o.zero
  refl : ∀ a, o.ltInf a → o.eq a a

/-- The active set. -/
structure ActOk (P : FQP F n) (st : FState F n) : Prop where
  ne_le : P.CE.length ≤ st.iq
  le_n : st.iq ≤ n
  rng : ∀ k, P.CE.length ≤ k → k < st.iq → 0 ≤ st.A k ∧ st.A k < P.CI.length
  inj : ∀ k k', P.CE.length ≤ k → k < st.iq → P.CE.length ≤ k' → k' < st.iq → st.A k = st.A k' → k = k'
  mark : ∀ j : ℕ, st.iai j = -1 → ∃ k, P.CE.length ≤ k ∧ k < st.iq ∧ st.A k = j

/-- The invariant. -/
def Good (o : Arith F n) (P : FQP F n) : FNext F n → Prop
  | .ret _ _ => True
  | .eq i st => st.iq = i ∧ i ≤ P.CE.length ∧ P.CE.length ≤ n ∧ st.iter = 0
  | .l1 st => ActOk P st
  | .l2 st => ActOk P st ∧ st.ss = o.zero ∧ (∀ k, P.CE.length ≤ k → k < st.iq → st.iai (st.A k).toNat = -1) ∧
      (∀ j, st.iaexcl j = true) ∧ st.s = o.slacks P.CI st.x
  | .l2a st => ActOk P st ∧ st.ip < P.CI.length ∧ st.A st.iq = st.ip ∧ ∀ k, P.CE.length ≤ k → k < st.iq → st.A k ≠ st.ip

/-- The state. -/
def st : FNext F n → FState F n
  | .ret _ s => s
  | .eq _ s => s
  | .l1 s => s
  | .l2 s => s
  | .l2a s => s

/-- A property of `m_J` and `R_norm` that one step of the machine carries from `T` to `T'`. -/
structure Carries (o : Arith F n) (P : FQP F n) (T T' : (ℕ → Fin n → F) → F → Prop) : Prop where
  same : ∀ J r, T J r → T' J r
  add : ∀ J R r iq np a, T J r → iq < n → ((∃ e ∈ P.CE, e.1 = np) ∨ ∃ e ∈ P.CI, e.1 = np) →
    o.addConstraint J R (o.gemvT J np) iq r = .ok a → T' a.J a.Rnorm
  del : ∀ J R r m nE A u iq l b, T J r → iq ≤ n → o.deleteConstraint m nE J R A u iq l = .ok b → T' b.J r

/-- A bound on the number of steps that remain. -/
def cost (maxIter : ℕ) (P : FQP F n) : FNext F n → ℕ
  | .ret _ _ => 0
  | .eq i _ => P.CE.length - i + 2 + maxIter * (n + 3)
  | .l1 st => 1 + (maxIter - st.iter) * (n + 3)
  | .l2 st => (st.iq - P.CE.length) + 3 + (maxIter - st.iter) * (n + 3)
  | .l2a st => (st.iq - P.CE.length) + 2 + (maxIter - st.iter) * (n + 3)

theorem ActOk.room {P : FQP F n} {st : FState F n} (h : ActOk P st) {ip : ℕ} (hip : ip < P.CI.length)
    (hn : ∀ k, P.CE.length ≤ k → k < st.iq → st.A k ≠ ip) : st.iq < P.CE.length + P.CI.length := by
  have hmap : Set.MapsTo (fun k => (st.A k).toNat) (Finset.Ico P.CE.length st.iq : Finset ℕ)
      ((Finset.range P.CI.length).erase ip : Finset ℕ) := by
    intro k hk
    have hk := Finset.mem_Ico.mp (Finset.mem_coe.mp hk)
    obtain ⟨h1, h2⟩ := h.rng k hk.1 hk.2
    have h3 := hn k hk.1 hk.2
    refine Finset.mem_coe.mpr (Finset.mem_erase.mpr ⟨?_, Finset.mem_range.mpr ?_⟩) <;> dsimp only <;> omega
  have hinj : Set.InjOn (fun k => (st.A k).toNat) (Finset.Ico P.CE.length st.iq : Finset ℕ) := by
    intro k hk k' hk' e
    have hk := Finset.mem_Ico.mp (Finset.mem_coe.mp hk)
    have hk' := Finset.mem_Ico.mp (Finset.mem_coe.mp hk')
    have h1 := h.rng k hk.1 hk.2
    have h2 := h.rng k' hk'.1 hk'.2
    have e' : (st.A k).toNat = (st.A k').toNat := e
    exact h.inj k k' hk.1 hk.2 hk'.1 hk'.2 (by omega)
  have hc := Finset.card_le_card_of_injOn _ hmap hinj
  rw [Nat.card_Ico, Finset.card_erase_of_mem (Finset.mem_range.mpr hip), Finset.card_range] at hc
  have := h.ne_le
  omega

theorem ActOk.le {P : FQP F n} {st : FState F n} (h : ActOk P st) : st.iq ≤ P.CE.length + P.CI.length := by
  have hmap : Set.MapsTo (fun k => (st.A k).toNat) (Finset.Ico P.CE.length st.iq : Finset ℕ)
      (Finset.range P.CI.length : Finset ℕ) := by
    intro k hk
    have hk := Finset.mem_Ico.mp (Finset.mem_coe.mp hk)
    obtain ⟨h1, h2⟩ := h.rng k hk.1 hk.2
    refine Finset.mem_coe.mpr (Finset.mem_range.mpr ?_)
    dsimp only
    omega
  have hinj : Set.InjOn (fun k => (st.A k).toNat) (Finset.Ico P.CE.length st.iq : Finset ℕ) := by
    intro k hk k' hk' e
    have hk := Finset.mem_Ico.mp (Finset.mem_coe.mp hk)
    have hk' := Finset.mem_Ico.mp (Finset.mem_coe.mp hk')
    have h1 := h.rng k hk.1 hk.2
    have h2 := h.rng k' hk'.1 hk'.2
    have e' : (st.A k).toNat = (st.A k').toNat := e
    exact h.inj k k' hk.1 hk.2 hk'.1 hk'.2 (by omega)
  have hc := Finset.card_le_card_of_injOn _ hmap hinj
  rw [Nat.card_Ico, Finset.card_range] at hc
  have := h.ne_le
  omega

variable (o : Arith F n)

theorem chooseViolated_spec (s : ℕ → F) (iai : ℕ → ℤ) (iaexcl : ℕ → Bool) : ∀ (l : List ℕ) (b : F × ℕ),
    o.chooseViolated s iai iaexcl l b = b ∨
      ((o.chooseViolated s iai iaexcl l b).2 ∈ l ∧ iai (o.chooseViolated s iai iaexcl l b).2 ≠ -1)
  | [], b => Or.inl rfl
  | i :: l, b => by
    unfold chooseViolated
    split_ifs with h
    · rcases chooseViolated_spec s iai iaexcl l (s i, i) with h' | ⟨h1, h2⟩
      · right; rw [h']; exact ⟨List.mem_cons_self, h.2.1⟩
      · exact Or.inr ⟨List.mem_cons_of_mem _ h1, h2⟩
    · rcases chooseViolated_spec s iai iaexcl l b with h' | ⟨h1, h2⟩
      · exact Or.inl h'
      · exact Or.inr ⟨List.mem_cons_of_mem _ h1, h2⟩

theorem partialLen_spec (r u : ℕ → F) (A : ℕ → ℤ) : ∀ (l : List ℕ) (b : FLen F × ℤ),
    o.partialLen r u A l b = b ∨ ∃ k ∈ l, ∃ t, o.partialLen r u A l b = (some t, A k)
  | [], b => Or.inl rfl
  | k :: l, b => by
    unfold partialLen
    split_ifs with h
    · rcases partialLen_spec r u A l (some (o.div (u k) (r k)), A k) with h' | ⟨j, hj, t, h'⟩
      · exact Or.inr ⟨k, List.mem_cons_self, _, h'⟩
      · exact Or.inr ⟨j, List.mem_cons_of_mem _ hj, t, h'⟩
    · rcases partialLen_spec r u A l b with h' | ⟨j, hj, t, h'⟩
      · exact Or.inl h'
      · exact Or.inr ⟨j, List.mem_cons_of_mem _ hj, t, h'⟩

theorem addConstraint_ok {J : ℕ → Fin n → F} {R : ℕ → ℕ → F} {d : ℕ → F} {iq : ℕ} {Rnorm : F} (h : iq < n) :
    ∃ a, o.addConstraint J R d iq Rnorm = .ok a := by
  unfold addConstraint
  simp only [h, if_true]
  exact ⟨_, rfl⟩

theorem deleteConstraint_ok {m nE : ℕ} {J : ℕ → Fin n → F} {R : ℕ → ℕ → F} {A : ℕ → ℤ} {u : ℕ → F} {iq : ℕ} {l : ℤ}
    (h : 1 ≤ iq ∧ iq < m ∧ iq ≤ n) :
    ∃ b, o.deleteConstraint m nE J R A u iq l = .ok b ∧ ∀ i, b.A i =
      if findActive A nE iq l ≤ i ∧ i < iq then A (i + 1) else if i = iq then 0 else A i := by
  unfold deleteConstraint
  rw [if_pos h]
  exact ⟨_, rfl, fun _ => rfl⟩

/-- `dropActive` on a member of the active set. -/
theorem dropActive_good {P : FQP F n} {st : FState F n} (h : ActOk P st) (hip : st.ip < P.CI.length)
    (hA : st.A st.iq = st.ip) (hf : ∀ k, P.CE.length ≤ k → k < st.iq → st.A k ≠ st.ip) {k : ℕ} (hk : P.CE.length ≤ k)
    (hk' : k < st.iq) :
    ∃ st', o.dropActive P st (st.A k) = .ok st' ∧ st'.iq = st.iq - 1 ∧ st'.iter = st.iter ∧ st'.ip = st.ip ∧
      (ActOk P st' ∧ st'.A st'.iq = st'.ip ∧ ∀ k, P.CE.length ≤ k → k < st'.iq → st'.A k ≠ st'.ip) ∧
      ∃ m nE l b, o.deleteConstraint m nE st.J st.R st.A st.u st.iq l = .ok b ∧ st'.J = b.J ∧ st'.Rnorm = st.Rnorm := by
  have hroom := h.room hip hf
  have hle := h.le_n
  have hr := h.rng k hk hk'
  have hq : findActive st.A P.CE.length st.iq (st.A k) = k :=
    findActive_eq hk hk' rfl fun i h1 h2 e => by
      have := h.inj i k h1 (by omega) hk hk' e
      omega
  obtain ⟨b, hb, hbA⟩ := o.deleteConstraint_ok (m := P.CE.length + P.CI.length) (nE := P.CE.length) (J := st.J) (R := st.R)
    (A := st.A) (u := st.u) (l := st.A k) (⟨by omega, hroom, hle⟩ : 1 ≤ st.iq ∧ st.iq < P.CE.length + P.CI.length ∧ st.iq ≤ n)
  rw [hq] at hbA
  refine ⟨{ st with J := b.J, R := b.R, A := b.A, u := b.u, iq := st.iq - 1,
                    iai := Function.update st.iai (st.A k).toNat (st.A k) },
    by unfold dropActive; rw [if_pos hr, hb], rfl, rfl, rfl, ⟨?_, ?_, ?_⟩, _, _, _, b, hb, rfl, rfl⟩
  · refine ⟨?_, ?_, ?_, ?_, ?_⟩ <;> dsimp only
    · omega
    · omega
    · intro i h1 h2
      rw [hbA]
      by_cases hi : k ≤ i
      · rw [if_pos ⟨hi, by omega⟩]; exact h.rng _ (by omega) (by omega)
      · rw [if_neg (by omega), if_neg (by omega)]; exact h.rng _ h1 (by omega)
    · intro i j h1 h2 h3 h4 e
      rw [hbA, hbA] at e
      by_cases hi : k ≤ i <;> by_cases hj : k ≤ j
      · rw [if_pos ⟨hi, by omega⟩, if_pos ⟨hj, by omega⟩] at e
        have := h.inj _ _ (by omega) (by omega) (by omega) (by omega) e
        omega
      · rw [if_pos ⟨hi, by omega⟩, if_neg (by omega), if_neg (by omega)] at e
        have := h.inj _ _ (by omega) (by omega) (by omega) (by omega) e
        omega
      · rw [if_neg (by omega), if_neg (by omega), if_pos ⟨hj, by omega⟩] at e
        have := h.inj _ _ (by omega) (by omega) (by omega) (by omega) e
        omega
      · rw [if_neg (by omega), if_neg (by omega), if_neg (by omega), if_neg (by omega)] at e
        exact h.inj _ _ h1 (by omega) h3 (by omega) e
    · intro j hj
      have hne : j ≠ (st.A k).toNat := by
        rintro rfl
        rw [Function.update_self] at hj
        omega
      rw [Function.update_of_ne hne] at hj
      obtain ⟨i, h1, h2, h3⟩ := h.mark j hj
      by_cases hi : i < k
      · exact ⟨i, h1, by omega, by rw [hbA, if_neg (by omega), if_neg (by omega)]; exact h3⟩
      · have : i ≠ k := by rintro rfl; omega
        exact ⟨i - 1, by omega, by omega, by
          rw [hbA, if_pos ⟨by omega, by omega⟩, show i - 1 + 1 = i by omega]; exact h3⟩
  · dsimp only
    rw [hbA, if_pos ⟨by omega, by omega⟩, show st.iq - 1 + 1 = st.iq by omega, hA]
  · dsimp only
    intro i h1 h2
    rw [hbA]
    by_cases hi : k ≤ i
    · rw [if_pos ⟨hi, by omega⟩]; exact hf _ (by omega) (by omega)
    · rw [if_neg (by omega), if_neg (by omega)]; exact hf _ h1 (by omega)

/-- The invariant at `l2a`. -/
abbrev Good2a (P : FQP F n) (st : FState F n) : Prop :=
  ActOk P st ∧ st.ip < P.CI.length ∧ st.A st.iq = st.ip ∧ ∀ k, P.CE.length ≤ k → k < st.iq → st.A k ≠ st.ip

theorem dualStep_good {maxIter : ℕ} {P : FQP F n} {T T' : (ℕ → Fin n → F) → F → Prop} (hT : o.Carries P T T')
    {st : FState F n} (hs : T st.J st.Rnorm) (h : Good2a P st) {k : ℕ} (hk : P.CE.length ≤ k)
    (hk' : k < st.iq) (r : ℕ → F) (t : F) :
    ∃ q', o.dualStep P r (st.A k) t st = .ok q' ∧ Good o P q' ∧ cost maxIter P q' < cost maxIter P (.l2a st) ∧
      T' (Arith.st q').J (Arith.st q').Rnorm := by
  obtain ⟨st', h1, h2, h3, h4, ⟨h5, h6, h7⟩, m, nE, l, b, h8, h9, h10⟩ := o.dropActive_good (P := P) (st := { st with u := o.moveU st.u r st.iq t })
    ⟨h.1.ne_le, h.1.le_n, h.1.rng, h.1.inj, h.1.mark⟩ h.2.1 h.2.2.1 h.2.2.2 hk hk'
  refine ⟨.l2a st', ?_, ⟨h5, by rw [h4]; exact h.2.1, h6, h7⟩, ?_, ?_⟩
  · unfold dualStep
    rw [h1]
  · have := h.1.ne_le
    simp only [cost, h2, h3]
    omega
  · show T' st'.J st'.Rnorm
    rw [h9, h10]
    exact hT.del _ _ _ _ _ _ _ _ _ _ hs h.1.le_n h8

theorem moveStep_good {maxIter : ℕ} {P : FQP F n} {T T' : (ℕ → Fin n → F) → F → Prop} (hT : o.Carries P T T')
    {st : FState F n} (hs : T st.J st.Rnorm) (h : Good2a P st) {z : Fin n → F} {d : ℕ → F} {t t2 : F}
    {np np' : Fin n → F} {l : ℤ} (hnp : ∃ e ∈ P.CI, e.1 = np') (hd : d = o.gemvT st.J np')
    (hacc : o.eq t t2 → st.iq < n ∧ ∀ a, o.addConstraint st.J st.R d st.iq st.Rnorm = .ok a → a.ok)
    (hl : ¬ o.eq t t2 → ∃ k, P.CE.length ≤ k ∧ k < st.iq ∧ l = st.A k) (r : ℕ → F) :
    ∃ q', o.moveStep P np d z r l t t2 st = .ok q' ∧ Good o P q' ∧ cost maxIter P q' < cost maxIter P (.l2a st) ∧
      T' (Arith.st q').J (Arith.st q').Rnorm := by
  classical
  unfold moveStep
  dsimp only
  split_ifs with he
  · obtain ⟨hn, hok⟩ := hacc he
    obtain ⟨a, ha⟩ := o.addConstraint_ok (J := st.J) (R := st.R) (d := d) (Rnorm := st.Rnorm) hn
    unfold fullStep
    dsimp only
    rw [ha]
    dsimp only
    rw [if_pos (hok a ha)]
    refine ⟨_, rfl, ⟨?_, ?_, ?_, ?_, ?_⟩, ?_, hT.add _ _ _ _ _ _ hs hn (Or.inr hnp) (hd ▸ ha)⟩
    · have := h.1.ne_le; dsimp only; omega
    · dsimp only; omega
    · intro k hk hk'
      dsimp only at hk' ⊢
      rcases Nat.lt_succ_iff_lt_or_eq.mp hk' with hlt | rfl
      · exact h.1.rng k hk hlt
      · rw [h.2.2.1]; have := h.2.1; omega
    · intro k k' hk hk' hj hj' e
      dsimp only at hk' hj' e
      rcases Nat.lt_succ_iff_lt_or_eq.mp hk' with hlt | rfl <;> rcases Nat.lt_succ_iff_lt_or_eq.mp hj' with hlt' | rfl
      · exact h.1.inj k k' hk hlt hj hlt' e
      · exact absurd (e.trans h.2.2.1) (h.2.2.2 k hk hlt)
      · exact absurd (e.symm.trans h.2.2.1) (h.2.2.2 k' hj hlt')
      · rfl
    · intro j hj
      dsimp only at hj ⊢
      by_cases he : j = st.ip
      · exact ⟨st.iq, h.1.ne_le, by omega, by rw [he]; exact h.2.2.1⟩
      · rw [Function.update_of_ne he] at hj
        obtain ⟨i, h1, h2, h3⟩ := h.1.mark j hj
        exact ⟨i, h1, by omega, h3⟩
    · simp only [cost]
      omega
  · obtain ⟨k, hk, hk', rfl⟩ := hl he
    obtain ⟨st', h1, h2, h3, h4, ⟨h5, h6, h7⟩, m, nE, l, b, h8, h9, h10⟩ := o.dropActive_good (P := P)
      (st := { st with x := fun k => o.mulAdd t (z k) (st.x k),
                       f := o.mulAdd (o.mul t (o.dot z np)) (o.mulAdd o.half t (st.u st.iq)) st.f,
                       u := o.moveU st.u r st.iq t })
      ⟨h.1.ne_le, h.1.le_n, h.1.rng, h.1.inj, h.1.mark⟩ h.2.1 h.2.2.1 h.2.2.2 hk hk'
    dsimp only at h1
    rw [h1]
    refine ⟨_, rfl, ⟨⟨h5.ne_le, h5.le_n, h5.rng, h5.inj, h5.mark⟩, by dsimp only; rw [h4]; exact h.2.1, h6, h7⟩, ?_, ?_⟩
    · have := h.1.ne_le
      simp only [cost, h2, h3]
      omega
    · show T' st'.J st'.Rnorm
      rw [h9, h10]
      exact hT.del _ _ _ _ _ _ _ _ _ _ hs h.1.le_n h8

theorem step_good {o : Arith F n} (ho : o.Sane) {maxIter : ℕ} {P : FQP F n} {J0 : ℕ → Fin n → F}
    {T T' : (ℕ → Fin n → F) → F → Prop} (hT : o.Carries P T T') {q : FNext F n} (hs : T (Arith.st q).J (Arith.st q).Rnorm)
    (hq : Good o P q) (hr : ∀ r s, q ≠ .ret r s) (hacc : ∀ st, q = .l2a st → o.Accepts P st) :
    ∃ q', o.step maxIter P J0 q = .ok q' ∧ Good o P q' ∧ cost maxIter P q' < cost maxIter P q ∧
      T' (Arith.st q').J (Arith.st q').Rnorm := by
  classical
  cases q with
  | ret r s => exact absurd rfl (hr r s)
  | eq i st =>
    obtain ⟨h1, h2, h3, h4⟩ := hq
    show ∃ q', o.stepEq P i st = .ok q' ∧ _
    unfold stepEq
    by_cases hi : i < P.CE.length
    · rw [if_pos hi, if_pos ⟨by omega, by omega⟩]
      obtain ⟨a, ha⟩ := o.addConstraint_ok (J := st.J) (R := st.R) (d := o.gemvT st.J (P.CE.getD i (fun _ => o.zero, o.zero)).1)
        (Rnorm := st.Rnorm) (show st.iq < n by omega)
      dsimp only
      rw [ha]
      dsimp only
      have hadd := hT.add _ _ _ _ _ _ hs (show st.iq < n by omega) (Or.inl ⟨P.CE[i], List.getElem_mem hi, by
        rw [List.getD_eq_getElem?_getD, List.getElem?_eq_getElem hi]; rfl⟩) ha
      split_ifs
      · refine ⟨_, rfl, ⟨by dsimp only; omega, by omega, h3, h4⟩, ?_, hadd⟩
        simp only [cost]
        omega
      · refine ⟨_, rfl, trivial, ?_, hadd⟩
        simp only [cost]
        omega
    · rw [if_neg hi]
      refine ⟨_, rfl, ⟨by dsimp only; omega, by dsimp only; omega, ?_, ?_, ?_⟩, ?_, hT.same _ _ hs⟩
      · intro k hk hk'; dsimp only at hk'; omega
      · intro k k' hk hk'; dsimp only at hk'; omega
      · intro j hj; dsimp only at hj; omega
      · simp only [cost, h4, Nat.sub_zero]
        omega
  | l1 st =>
    have h : ActOk P st := hq
    show ∃ q', o.stepL1 maxIter P J0 st = .ok q' ∧ _
    unfold stepL1
    dsimp only
    by_cases hm : st.iter + 1 ≥ maxIter
    · rw [if_pos hm]
      exact ⟨_, rfl, trivial, by simp only [cost]; omega, hT.same _ _ hs⟩
    · rw [if_neg hm, if_pos ⟨h.le, fun k => h.rng k⟩]
      have hc : (maxIter - st.iter) * (n + 3) = (maxIter - (st.iter + 1)) * (n + 3) + (n + 3) := by
        rw [← Nat.succ_mul]; congr 1; omega
      split_ifs
      · exact ⟨_, rfl, trivial, by simp only [cost]; omega, hT.same _ _ hs⟩
      · refine ⟨_, rfl, ⟨⟨h.ne_le, h.le_n, h.rng, h.inj, ?_⟩, rfl, ?_, fun _ => rfl, rfl⟩, ?_, hT.same _ _ hs⟩
        · intro j hj
          dsimp only [markActive] at hj
          split_ifs at hj with hex
          · exact hex
          · exact h.mark j hj
        · intro k h1 h2
          dsimp only [markActive]
          rw [if_pos ⟨k, h1, h2, (Int.toNat_of_nonneg (h.rng k h1 h2).1).symm⟩]
        · have := h.le_n
          simp only [cost]
          omega
  | l2 st =>
    obtain ⟨h, h0, h1, -, -⟩ := hq
    show ∃ q', o.stepL2 P st = .ok q' ∧ _
    unfold stepL2
    dsimp only
    split_ifs with hz hg
    · exact ⟨_, rfl, trivial, by simp only [cost]; omega, hT.same _ _ hs⟩
    · refine ⟨_, rfl, ⟨⟨h.ne_le, h.le_n, ?_, ?_, ?_⟩, hg.1, Function.update_self .., ?_⟩, ?_, hT.same _ _ hs⟩
      · intro k hk hk'
        dsimp only at hk' ⊢
        rw [Function.update_of_ne (by omega)]
        exact h.rng k hk hk'
      · intro k k' hk hk' hj hj' e
        dsimp only at hk' hj' e
        rw [Function.update_of_ne (by omega), Function.update_of_ne (by omega)] at e
        exact h.inj k k' hk hk' hj hj' e
      · intro j hj
        obtain ⟨i, a1, a2, a3⟩ := h.mark j hj
        exact ⟨i, a1, a2, by dsimp only; rw [Function.update_of_ne (by omega)]; exact a3⟩
      · intro k hk hk' e
        dsimp only at hk' e
        rw [Function.update_of_ne (by omega)] at e
        rcases o.chooseViolated_spec st.s st.iai st.iaexcl (List.range P.CI.length) (st.ss, st.ip) with hc | hc
        · rw [hc] at hz; exact hz (h0 ▸ ho.le)
        · refine hc.2 ?_
          have := h1 k hk hk'
          rw [e] at this
          simpa using this
      · simp only [cost]
        omega
    · exfalso
      rcases o.chooseViolated_spec st.s st.iai st.iaexcl (List.range P.CI.length) (st.ss, st.ip) with hc | hc
      · rw [hc] at hz; exact hz (h0 ▸ ho.le)
      · have hlt := List.mem_range.mp hc.1
        refine hg ⟨hlt, h.room hlt fun k hk hk' e => hc.2 ?_⟩
        have := h1 k hk hk'
        rw [e] at this
        simpa using this
  | l2a st =>
    obtain ⟨h, h1, h2, h3⟩ := hq
    have hroom := h.room h1 h3
    have hA := hacc st rfl
    show ∃ q', o.stepL2a P st = .ok q' ∧ _
    unfold stepL2a
    dsimp only
    rw [if_pos ⟨h.le_n, hroom, h1⟩]
    have hret : ∃ q', (Out.ok (.ret .unbounded st) : Out (FNext F n)) = .ok q' ∧ Good o P q' ∧
        cost maxIter P q' < cost maxIter P (.l2a st) ∧ T' (Arith.st q').J (Arith.st q').Rnorm :=
      ⟨_, rfl, trivial, by simp only [cost]; omega, hT.same _ _ hs⟩
    have hnp : ∃ e ∈ P.CI, e.1 = (o.row P st.ip).1 := ⟨P.CI[st.ip], List.getElem_mem h1, by
      unfold row
      rw [List.getD_eq_getElem?_getD, List.getElem?_eq_getElem h1]; rfl⟩
    have hsp := o.partialLen_spec (o.triSolve st.R (o.gemvT st.J (o.row P st.ip).1) st.iq) st.u st.A
      (List.range' P.CE.length (st.iq - P.CE.length)) (none, 0)
    generalize o.partialLen (o.triSolve st.R (o.gemvT st.J (o.row P st.ip).1) st.iq) st.u st.A
      (List.range' P.CE.length (st.iq - P.CE.length)) (none, 0) = p at hsp ⊢
    have hsp : p = (none, 0) ∨ ∃ k, P.CE.length ≤ k ∧ k < st.iq ∧ ∃ t, p = (some t, st.A k) := by
      rcases hsp with hp | ⟨k, hk, t, hp⟩
      · exact Or.inl hp
      · have := List.mem_range'_1.mp hk
        exact Or.inr ⟨k, this.1, by have := h.ne_le; omega, t, hp⟩
    by_cases hfar : o.far (o.updateZ st.J (o.gemvT st.J (o.row P st.ip).1) st.iq)
    · have hlt : st.iq < n := by
        by_contra hn
        unfold updateZ at hfar
        rw [if_neg hn] at hfar
        exact ho.zero hfar
      rw [if_pos hfar]
      generalize o.div (o.neg (st.s st.ip)) _ = T2
      rcases hsp with rfl | ⟨k, hk, hk', t1, rfl⟩
      · by_cases hi : o.ltInf T2
        · rw [if_pos (show o.lenLt (some T2) none from hi)]
          dsimp only
          split_ifs with hg
          · exact hret
          · exact o.moveStep_good hT hs ⟨h, h1, h2, h3⟩ hnp rfl (fun _ => ⟨hlt, fun a => hA a hfar⟩) (fun hne => absurd (ho.refl _ hi) hne) _
        · rw [if_neg (show ¬ o.lenLt (some T2) none from hi)]
          exact hret
      · have key : ∀ t, ∃ q', (if o.geInf t then Out.ok (FNext.ret QPStatus.unbounded st) else
            if o.geInf T2 then o.dualStep P (o.triSolve st.R (o.gemvT st.J (o.row P st.ip).1) st.iq) (st.A k) t st
            else o.moveStep P (o.row P st.ip).1 (o.gemvT st.J (o.row P st.ip).1)
              (o.updateZ st.J (o.gemvT st.J (o.row P st.ip).1) st.iq)
              (o.triSolve st.R (o.gemvT st.J (o.row P st.ip).1) st.iq) (st.A k) t T2 st) = .ok q' ∧ Good o P q' ∧
            cost maxIter P q' < cost maxIter P (.l2a st) ∧ T' (Arith.st q').J (Arith.st q').Rnorm := by
          intro t
          split_ifs
          · exact hret
          · exact o.dualStep_good hT hs ⟨h, h1, h2, h3⟩ hk hk' _ _
          · exact o.moveStep_good hT hs ⟨h, h1, h2, h3⟩ hnp rfl (fun _ => ⟨hlt, fun a => hA a hfar⟩) (fun _ => ⟨k, hk, hk', rfl⟩) _
        by_cases hi : o.lt T2 t1
        · rw [if_pos (show o.lenLt (some T2) (some t1) from hi)]; exact key T2
        · rw [if_neg (show ¬ o.lenLt (some T2) (some t1) from hi)]; exact key t1
    · rw [if_neg hfar]
      rw [if_neg (show ¬ o.lenLt none p.1 from id)]
      rcases hsp with rfl | ⟨k, hk, hk', t1, rfl⟩
      · exact hret
      · dsimp only
        split_ifs
        · exact hret
        · exact o.dualStep_good hT hs ⟨h, h1, h2, h3⟩ hk hk' _ _

/-- Without rejections the solver stays in bounds and returns. -/
theorem run_good {o : Arith F n} (ho : o.Sane) {maxIter : ℕ} {P : FQP F n} {J0 : ℕ → Fin n → F} {a : FNext F n}
    (hacc : ∀ st, o.Reach maxIter P J0 a (.l2a st) → o.Accepts P st) : ∀ (c : ℕ) (q : FNext F n),
    cost maxIter P q ≤ c → Good o P q → o.Reach maxIter P J0 a q →
      ∃ r s, (∀ fuel, cost maxIter P q ≤ fuel → o.run maxIter P J0 fuel q = .ok (r, s)) ∧ o.Reach maxIter P J0 a (.ret r s) := by
  intro c
  induction c with
  | zero =>
    intro q hc hq hr
    cases q with
    | ret r s => exact ⟨r, s, fun fuel _ => by cases fuel <;> rfl, hr⟩
    | _ => simp only [cost] at hc; omega
  | succ c ih =>
    intro q hc hq hr
    by_cases h : ∃ r s, q = .ret r s
    · obtain ⟨r, s, rfl⟩ := h
      exact ⟨r, s, fun fuel _ => by cases fuel <;> rfl, hr⟩
    · obtain ⟨q', h1, h2, h3, -⟩ := step_good ho (maxIter := maxIter) (J0 := J0) (T := fun _ _ => True) (T' := fun _ _ => True)
        ⟨fun _ _ _ => trivial, fun _ _ _ _ _ _ _ _ _ _ => trivial, fun _ _ _ _ _ _ _ _ _ _ _ _ _ => trivial⟩ trivial hq (fun r s e => h ⟨r, s, e⟩)
        (fun st e => hacc st (e ▸ hr))
      obtain ⟨r, s, h4, h5⟩ := ih q' (by omega) h2 (hr.tail h1)
      refine ⟨r, s, fun fuel hf => ?_, h5⟩
      cases fuel with
      | zero => omega
      | succ fuel =>
        have : o.run maxIter P J0 (fuel + 1) q = (o.step maxIter P J0 q >>= o.run maxIter P J0 fuel) := by
          cases q with
          | ret r s => exact absurd ⟨r, s, rfl⟩ h
          | _ => rfl
        rw [this, h1]
        exact h4 fuel (by omega)

end Arith

end Verif
