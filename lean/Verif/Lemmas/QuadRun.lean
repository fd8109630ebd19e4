import Verif.Lemmas.QuadStep
import Mathlib.Data.Finset.Powerset

/-! Whole runs of the QP solver. -/

namespace Verif
open Matrix

variable {n : ℕ}

/-! ### The number of active sets bounds the number of iterations -/

/-- `v` is the least objective among the points satisfying the equalities and the inequalities in `S` as
equalities. -/
def LeastOn (P : QP n) (S : Finset ℕ) (v : ℝ) : Prop :=
  ∃ x, EqHolds P x ∧ (∀ i ∈ S, P.slack x i = 0) ∧ qpObj P x = v ∧
    ∀ y, EqHolds P y → (∀ i ∈ S, P.slack y i = 0) → v ≤ qpObj P y

theorem LeastOn.unique {P : QP n} {S : Finset ℕ} {v w : ℝ} (h : LeastOn P S v) (h' : LeastOn P S w) : v = w := by
  obtain ⟨x, a1, a2, a3, a4⟩ := h
  obtain ⟨y, b1, b2, b3, b4⟩ := h'
  have := a4 y b1 b2
  have := b4 x a1 a2
  linarith

/-- Number of sets of inequalities whose least value is above `f`. -/
noncomputable def above (P : QP n) (f : ℝ) : ℕ :=
  open Classical in
  ((Finset.range P.CI.length).powerset.filter fun S => ∃ v, LeastOn P S v ∧ f < v).card

theorem above_mono {P : QP n} {f f' : ℝ} (h : f ≤ f') : above P f' ≤ above P f := by
  unfold above
  apply Finset.card_le_card
  intro S hS
  simp only [Finset.mem_filter] at hS ⊢
  obtain ⟨h1, v, h2, h3⟩ := hS
  exact ⟨h1, v, h2, lt_of_le_of_lt h h3⟩

theorem above_lt {P : QP n} {f f' : ℝ} (h : f < f') {S : Finset ℕ} (hS : S ⊆ Finset.range P.CI.length)
    (hv : LeastOn P S f') : above P f' < above P f := by
  unfold above
  apply Finset.card_lt_card
  rw [Finset.ssubset_iff_of_subset]
  · refine ⟨S, ?_, ?_⟩
    · simp only [Finset.mem_filter, Finset.mem_powerset]
      exact ⟨hS, f', hv, h⟩
    · simp only [Finset.mem_filter, not_and, not_exists]
      intro _ v hv' hlt
      rw [hv.unique hv'] at hlt
      exact lt_irrefl _ hlt
  · intro S hS
    simp only [Finset.mem_filter] at hS ⊢
    obtain ⟨h1, v, h2, h3⟩ := hS
    exact ⟨h1, v, h2, h.trans h3⟩

theorem above_init {P : QP n} {f : ℝ} {S : Finset ℕ} (hS : S ⊆ Finset.range P.CI.length) (hv : LeastOn P S f) :
    above P f < 2 ^ P.CI.length := by
  have h2 : (Finset.range P.CI.length).powerset.card = 2 ^ P.CI.length := by
    rw [Finset.card_powerset, Finset.card_range]
  rw [← h2]
  unfold above
  classical
  apply Finset.card_lt_card
  rw [Finset.ssubset_iff_of_subset (Finset.filter_subset _ _)]
  refine ⟨S, by simpa using hS, ?_⟩
  simp only [Finset.mem_filter, not_and, not_exists]
  intro _ v hv' hlt
  rw [hv.unique hv'] at hlt
  exact lt_irrefl _ hlt

/-- Equalities and active inequalities hold at the current point. -/
theorem QBase.eqHolds {P : QP n} {st : QState n} (h : QBase P P.CE.length st) : EqHolds P st.x := by
  intro e he
  obtain ⟨k, hk, rfl⟩ := List.getElem_of_mem he
  have h1 := h.act k (lt_of_lt_of_le hk h.ne_le)
  rw [h.eqs k hk, conOf_neg, List.getD_eq_getElem?_getD, List.getElem?_eq_getElem hk] at h1
  exact h1

/-- The set of active inequalities. -/
noncomputable def activeSet (P : QP n) (st : QState n) : Finset ℕ :=
  (Finset.Ico P.CE.length st.iq).image fun k => (st.A k).toNat

theorem QBase.activeSet_sub {P : QP n} {st : QState n} (h : QBase P P.CE.length st) :
    activeSet P st ⊆ Finset.range P.CI.length := by
  intro i hi
  obtain ⟨k, hk, rfl⟩ := Finset.mem_image.mp hi
  obtain ⟨k1, k2⟩ := Finset.mem_Ico.mp hk
  have := h.rng k k1 k2
  rw [Finset.mem_range]; omega

theorem QBase.con_ineq {P : QP n} {st : QState n} (h : QBase P P.CE.length st) {k : ℕ} (k1 : P.CE.length ≤ k)
    (k2 : k < st.iq) (y : VecN n) :
    (conOf P (st.A k)).1 ⬝ᵥ y + (conOf P (st.A k)).2 = P.slack y (st.A k).toNat := by
  have hr := h.rng k k1 k2
  obtain ⟨i, hi⟩ := Int.eq_ofNat_of_zero_le hr.1
  rw [hi, conOf_nat]; rfl

theorem QBase.leastOn {P : QP n} {st : QState n} (h : QBase P P.CE.length st) (hs : Stat P st) :
    LeastOn P (activeSet P st) st.f := by
  refine ⟨st.x, h.eqHolds, ?_, h.obj.symm, ?_⟩
  · intro i hi
    obtain ⟨k, hk, rfl⟩ := Finset.mem_image.mp hi
    obtain ⟨k1, k2⟩ := Finset.mem_Ico.mp hk
    rw [← h.con_ineq k1 k2]; exact h.act k k2
  · intro y hy1 hy2
    rw [h.obj]
    apply qpObj_le h.fac.fac
    rw [hs, sum_dotProduct]
    apply le_of_eq
    symm
    apply Finset.sum_eq_zero
    intro k hk
    have hk := Finset.mem_range.mp hk
    rw [smul_dotProduct, nrm, dotProduct_sub]
    have ha := h.act k hk
    by_cases hne : k < P.CE.length
    · have := h.eq_at hy1 hne
      rw [show (conOf P (st.A k)).1 ⬝ᵥ y - (conOf P (st.A k)).1 ⬝ᵥ st.x = 0 by linarith, smul_zero]
    · have := hy2 (st.A k).toNat (Finset.mem_image.mpr ⟨k, Finset.mem_Ico.mpr ⟨not_lt.mp hne, hk⟩, rfl⟩)
      rw [← h.con_ineq (not_lt.mp hne) hk] at this
      rw [show (conOf P (st.A k)).1 ⬝ᵥ y - (conOf P (st.A k)).1 ⬝ᵥ st.x = 0 by linarith, smul_zero]

/-! ### The invariant of the machine -/

/-- The invariant at each label, and what each verdict means. -/
def InvN (maxIter : ℕ) (tol : ℝ) (P : QP n) : QNext n → Prop
  | .eq i s => InvE P i s
  | .l1 s => Inv1 P s ∧ (s.iter + 1 ≤ maxIter ∨ maxIter = 0) ∧ s.iter + above P s.f < 2 ^ P.CI.length
  | .l2 s => Inv2 P s ∧ s.iter < maxIter ∧ s.iter + above P s.f ≤ 2 ^ P.CI.length
  | .l2a s => InvA P s ∧ s.iter < maxIter ∧ s.iter + above P s.f ≤ 2 ^ P.CI.length
  | .ret .optimal s => QBase P P.CE.length s ∧ Stat P s ∧ violation P s.x ≤ max 0 tol ∧ s.iter < maxIter
  | .ret .unbounded _ => ∀ y, ¬ QPFeasible P y
  | .ret .redundantEqualities _ => ∃ i, i < P.CE.length ∧ EqDependent P i
  | .ret .maxIterReached _ => maxIter ≤ 2 ^ P.CI.length
  | .ret .infeasible _ => False

/-- The tests made in the next step are exact. -/
def SharpN (eps : ℝ) (P : QP n) : QNext n → Prop
  | .eq i s => i < P.CE.length → Sharp eps s (P.CE.getD i (0, 0)).1
  | .l2a s => Sharp eps s (P.row s.ip).1
  | _ => True

/-- Bound on the number of steps left. -/
def stepsLeft (maxIter : ℕ) (P : QP n) : QNext n → ℕ
  | .ret _ _ => 0
  | .eq i _ => P.CE.length - i + 2 + maxIter * (n + 3)
  | .l1 s => 1 + (maxIter - s.iter) * (n + 3)
  | .l2 s => 1 + (maxIter - s.iter) * (n + 3) + (n + 2)
  | .l2a s => 1 + (maxIter - s.iter) * (n + 3) + (s.iq + 1)

theorem qpStep_ok {eps : ℝ} (heps : 0 ≤ eps) {maxIter : ℕ} {P : QP n} {J0 : ℕ → VecN n} (hE : P.CE.length ≤ n)
    {q : QNext n} (hI : InvN maxIter (qpTol eps P J0) P q) (hS : SharpN eps P q) :
    ∃ q', qpStep eps maxIter P J0 q = .ok q' ∧ InvN maxIter (qpTol eps P J0) P q' ∧
      (stepsLeft maxIter P q' < stepsLeft maxIter P q ∨ ∃ r s, q = .ret r s ∧ q' = q) := by
  cases q with
  | ret r s => exact ⟨_, rfl, hI, Or.inr ⟨r, s, rfl, rfl⟩⟩
  | eq i s =>
    have hI : InvE P i s := hI
    by_cases hi : i < P.CE.length
    · obtain ⟨q', h1, h2⟩ := stepEq_ok heps hI hi (by omega) (hS hi)
      refine ⟨q', h1, ?_, Or.inl ?_⟩
      · cases q' with
        | ret r s' => obtain ⟨rfl, h⟩ := h2; exact ⟨i, hi, h⟩
        | eq j s' => obtain ⟨rfl, h⟩ := h2; exact h
        | l1 s' => exact h2.elim
        | l2 s' => exact h2.elim
        | l2a s' => exact h2.elim
      · cases q' with
        | ret r s' => simp only [stepsLeft]; omega
        | eq j s' => obtain ⟨rfl, h⟩ := h2; simp only [stepsLeft]; omega
        | l1 s' => exact h2.elim
        | l2 s' => exact h2.elim
        | l2a s' => exact h2.elim
    · have hiE : i = P.CE.length := le_antisymm hI.base.ne_len (not_lt.mp hi)
      subst hiE
      refine ⟨.l1 { s with iai := fun i => (i : ℤ) }, ?_, ⟨hI.done, ?_, ?_⟩, Or.inl ?_⟩
      · simp [qpStep, stepEq]
      · have := hI.iter
        simp only; omega
      · have := hI.iter
        simp only [this, zero_add]
        exact above_init hI.base.activeSet_sub (hI.base.leastOn hI.stat)
      · have := hI.iter
        simp only [stepsLeft, this, Nat.sub_zero]; omega
  | l1 s =>
    obtain ⟨h, hit, hab⟩ := hI
    obtain ⟨q', h1, h2⟩ := stepL1_ok (eps := eps) (J0 := J0) h hit
    refine ⟨q', h1, ?_, Or.inl ?_⟩
    · cases q' with
      | ret r s' =>
        cases r with
        | optimal =>
          obtain ⟨a, b, c, d⟩ := h2
          refine ⟨a, b, c.trans (le_max_right _ _), ?_⟩
          rw [d]
          by_contra hc
          have : qpStep eps maxIter P J0 (.l1 s) = .ok (.ret .maxIterReached { s with iter := s.iter + 1 }) := by
            change stepL1 eps maxIter P J0 s = _
            unfold stepL1
            rw [if_pos (by omega)]
          change stepL1 eps maxIter P J0 s = _ at this
          rw [this] at h1
          cases h1
        | maxIterReached =>
          change maxIter ≤ 2 ^ P.CI.length
          rcases hit with hit | hit
          · by_cases hm : s.iter + 1 ≥ maxIter
            · omega
            · exfalso
              unfold stepL1 at h1
              rw [if_neg hm] at h1
              simp only at h1
              split_ifs at h1 <;> cases h1
          · omega
        | infeasible => exact h2.elim
        | unbounded => exact h2.elim
        | redundantEqualities => exact h2.elim
      | eq j s' => exact h2.elim
      | l1 s' => exact h2.elim
      | l2 s' =>
        obtain ⟨a, b, c, d, e, f⟩ := h2
        refine ⟨a, c, ?_⟩
        rw [e, b]; omega
      | l2a s' => exact h2.elim
    · cases q' with
      | ret r s' => simp only [stepsLeft]; omega
      | eq j s' => exact h2.elim
      | l1 s' => exact h2.elim
      | l2 s' =>
        obtain ⟨a, b, c, d, e, f⟩ := h2
        simp only [stepsLeft]
        obtain ⟨m, hm⟩ : ∃ m, maxIter - s.iter = m + 1 := ⟨maxIter - s.iter - 1, by omega⟩
        have : maxIter - s'.iter = m := by omega
        rw [hm, this, Nat.add_mul]; omega
      | l2a s' => exact h2.elim
  | l2 s =>
    obtain ⟨h, hit, hab⟩ := hI
    obtain ⟨q', h1, h2⟩ := stepL2_ok h
    refine ⟨q', h1, ?_, Or.inl ?_⟩
    · cases q' with
      | ret r s' =>
        cases r with
        | optimal =>
          obtain ⟨a, b, c, d⟩ := h2
          exact ⟨a, b, c.le.trans (le_max_left _ _), by rw [d]; exact hit⟩
        | maxIterReached => exact h2.elim
        | infeasible => exact h2.elim
        | unbounded => exact h2.elim
        | redundantEqualities => exact h2.elim
      | eq j s' => exact h2.elim
      | l1 s' => exact h2.elim
      | l2 s' => exact h2.elim
      | l2a s' =>
        obtain ⟨a, b, c, d⟩ := h2
        exact ⟨a, by rw [b]; exact hit, by rw [b, d]; exact hab⟩
    · cases q' with
      | ret r s' => simp only [stepsLeft]; omega
      | eq j s' => exact h2.elim
      | l1 s' => exact h2.elim
      | l2 s' => exact h2.elim
      | l2a s' =>
        obtain ⟨a, b, c, d⟩ := h2
        have := a.base.fac.le
        simp only [stepsLeft, b]; omega
  | l2a s =>
    obtain ⟨h, hit, hab⟩ := hI
    obtain ⟨q', h1, h2⟩ := stepL2a_ok heps h hS
    refine ⟨q', h1, ?_, Or.inl ?_⟩
    · cases q' with
      | ret r s' => obtain ⟨rfl, h⟩ := h2; exact h
      | eq j s' => exact h2.elim
      | l1 s' =>
        obtain ⟨a, b, c⟩ := h2
        refine ⟨a, ?_, ?_⟩
        · rw [b]; omega
        · have := above_lt c a.base.activeSet_sub (a.base.leastOn a.stat)
          rw [b]; omega
      | l2 s' => exact h2.elim
      | l2a s' =>
        obtain ⟨a, b, c, d⟩ := h2
        have := above_mono (P := P) d
        exact ⟨a, by rw [b]; exact hit, by rw [b]; omega⟩
    · cases q' with
      | ret r s' => simp only [stepsLeft]; omega
      | eq j s' => exact h2.elim
      | l1 s' =>
        obtain ⟨a, b, c⟩ := h2
        simp only [stepsLeft, b]; omega
      | l2 s' => exact h2.elim
      | l2a s' =>
        obtain ⟨a, b, c, d⟩ := h2
        simp only [stepsLeft, b]; omega

/-- The states reached by the machine. -/
inductive QReach (eps : ℝ) (maxIter : ℕ) (P : QP n) (J0 : ℕ → VecN n) (q0 : QNext n) : QNext n → Prop
  | refl : QReach eps maxIter P J0 q0 q0
  | step {q q' : QNext n} : QReach eps maxIter P J0 q0 q → qpStep eps maxIter P J0 q = .ok q' →
      QReach eps maxIter P J0 q0 q'

theorem QReach.head {eps : ℝ} {maxIter : ℕ} {P : QP n} {J0 : ℕ → VecN n} {q0 q1 q : QNext n}
    (h : qpStep eps maxIter P J0 q0 = .ok q1) (h' : QReach eps maxIter P J0 q1 q) :
    QReach eps maxIter P J0 q0 q := by
  induction h' with
  | refl => exact QReach.step QReach.refl h
  | step _ hs ih => exact QReach.step ih hs

/-- In the run of the solver on this problem every threshold test is exact. -/
def ExactRun (eps : ℝ) (maxIter : ℕ) (P : QP n) (J0 : ℕ → VecN n) (w : Work n) : Prop :=
  ∀ q, QReach eps maxIter P J0 (.eq 0 (qpInit P J0 w)) q → SharpN eps P q

theorem qpRun_succ {eps : ℝ} {maxIter : ℕ} {P : QP n} {J0 : ℕ → VecN n} (k : ℕ) {q : QNext n}
    (h : ∀ r s, q ≠ .ret r s) :
    qpRun eps maxIter P J0 (k + 1) q = qpStep eps maxIter P J0 q >>= qpRun eps maxIter P J0 k := by
  cases q with
  | ret r s => exact absurd rfl (h r s)
  | _ => rfl

theorem qpRun_ok {eps : ℝ} (heps : 0 ≤ eps) {maxIter : ℕ} {P : QP n} {J0 : ℕ → VecN n} (hE : P.CE.length ≤ n) :
    ∀ (N : ℕ) (q : QNext n), stepsLeft maxIter P q ≤ N → InvN maxIter (qpTol eps P J0) P q →
      (∀ q', QReach eps maxIter P J0 q q' → SharpN eps P q') →
      ∃ r s, (∀ fuel, N ≤ fuel → qpRun eps maxIter P J0 fuel q = .ok (r, s)) ∧
        InvN maxIter (qpTol eps P J0) P (.ret r s) := by
  intro N
  induction N with
  | zero =>
    intro q hq hI hS
    cases q with
    | ret r s => exact ⟨r, s, fun fuel _ => by cases fuel <;> rfl, hI⟩
    | eq i s => simp only [stepsLeft] at hq; omega
    | l1 s => simp only [stepsLeft] at hq; omega
    | l2 s => simp only [stepsLeft] at hq; omega
    | l2a s => simp only [stepsLeft] at hq; omega
  | succ N ih =>
    intro q hq hI hS
    obtain ⟨q', h1, h2, h3⟩ := qpStep_ok heps hE hI (hS q QReach.refl)
    rcases h3 with h3 | ⟨r, s, rfl, rfl⟩
    · obtain ⟨r, s, hr, hrI⟩ := ih q' (by omega) h2 (fun q'' hq'' => hS q'' (hq''.head h1))
      refine ⟨r, s, ?_, hrI⟩
      intro fuel hf
      obtain ⟨k, rfl⟩ : ∃ k, fuel = k + 1 := ⟨fuel - 1, by omega⟩
      cases q with
      | ret r s => simp [stepsLeft] at h3
      | eq i s => rw [qpRun_succ k (by simp), h1]; exact hr k (by omega)
      | l1 s => rw [qpRun_succ k (by simp), h1]; exact hr k (by omega)
      | l2 s => rw [qpRun_succ k (by simp), h1]; exact hr k (by omega)
      | l2a s => rw [qpRun_succ k (by simp), h1]; exact hr k (by omega)
    · exact ⟨r, s, fun fuel _ => by cases fuel <;> rfl, hI⟩

/-- Whole runs: the solver returns and its verdict means what it should. -/
theorem solveQuadprog_ok {eps : ℝ} (heps : 0 ≤ eps) {maxIter : ℕ} {P : QP n} {J0 : ℕ → VecN n} {w : Work n}
    (hF : Factor P.G J0) (hE : P.CE.length ≤ n) (hX : ExactRun eps maxIter P J0 w) :
    ∃ r s, (∀ fuel, P.CE.length + 2 + maxIter * (n + 3) ≤ fuel →
        solveQuadprog eps maxIter P J0 w fuel = .ok (r, s)) ∧ InvN maxIter (qpTol eps P J0) P (.ret r s) := by
  have := qpRun_ok heps hE (P.CE.length + 2 + maxIter * (n + 3)) (.eq 0 (qpInit P J0 w)) (by simp [stepsLeft])
    (InvE.init hF w) hX
  exact this

/-- More fuel does not change the answer. -/
theorem qpRun_mono {eps : ℝ} {maxIter : ℕ} {P : QP n} {J0 : ℕ → VecN n} : ∀ (k : ℕ) (q : QNext n)
    (a : QPStatus × QState n), qpRun eps maxIter P J0 k q = .ok a → ∀ k', k ≤ k' → qpRun eps maxIter P J0 k' q = .ok a
  | 0, q, a, h, k', _ => by
    cases q with
    | ret r s => rw [qpRun] at h; cases k' <;> rw [qpRun] <;> exact h
    | eq i s => simp [qpRun] at h
    | l1 s => simp [qpRun] at h
    | l2 s => simp [qpRun] at h
    | l2a s => simp [qpRun] at h
  | k + 1, q, a, h, k', hk => by
    obtain ⟨j, rfl⟩ : ∃ j, k' = j + 1 := ⟨k' - 1, by omega⟩
    cases q with
    | ret r s => rw [qpRun] at h ⊢; exact h
    | eq i s =>
      rw [qpRun_succ _ (by simp), Out.bind_eq_ok] at h ⊢
      obtain ⟨q', h1, h2⟩ := h
      exact ⟨q', h1, qpRun_mono k q' a h2 j (by omega)⟩
    | l1 s =>
      rw [qpRun_succ _ (by simp), Out.bind_eq_ok] at h ⊢
      obtain ⟨q', h1, h2⟩ := h
      exact ⟨q', h1, qpRun_mono k q' a h2 j (by omega)⟩
    | l2 s =>
      rw [qpRun_succ _ (by simp), Out.bind_eq_ok] at h ⊢
      obtain ⟨q', h1, h2⟩ := h
      exact ⟨q', h1, qpRun_mono k q' a h2 j (by omega)⟩
    | l2a s =>
      rw [qpRun_succ _ (by simp), Out.bind_eq_ok] at h ⊢
      obtain ⟨q', h1, h2⟩ := h
      exact ⟨q', h1, qpRun_mono k q' a h2 j (by omega)⟩

/-- Any answer of an exact run has the right meaning. -/
theorem solveQuadprog_sound {eps : ℝ} (heps : 0 ≤ eps) {maxIter : ℕ} {P : QP n} {J0 : ℕ → VecN n} {w : Work n}
    (hF : Factor P.G J0) (hE : P.CE.length ≤ n) (hX : ExactRun eps maxIter P J0 w) {fuel : ℕ} {r : QPStatus}
    {s : QState n} (h : solveQuadprog eps maxIter P J0 w fuel = .ok (r, s)) :
    InvN maxIter (qpTol eps P J0) P (.ret r s) := by
  obtain ⟨r', s', h1, h2⟩ := solveQuadprog_ok heps hF hE hX
  have h3 := h1 (max fuel (P.CE.length + 2 + maxIter * (n + 3))) (le_max_right _ _)
  have h4 := qpRun_mono _ _ _ h (max fuel (P.CE.length + 2 + maxIter * (n + 3))) (le_max_left _ _)
  unfold solveQuadprog at h3
  rw [h4] at h3
  cases h3
  exact h2

/-! ### Exact arithmetic: the tests are exact -/

theorem Factors.sharp_zero {G : Matrix (Fin n) (Fin n) ℝ} {N : ℕ → VecN n} {st : QState n}
    (h : Factors G st.J st.R N st.iq) (np : VecN n) : Sharp 0 st np := by
  unfold Sharp
  refine ⟨fun hz => ?_, fun hz a ha => ?_⟩
  · by_contra hc
    exact absurd (dot_self_pos.mpr hc) (not_lt.mpr hz)
  · have hlt : st.iq < n := by
      by_contra hc'
      apply hz
      rw [updateZ, Finset.Ico_eq_empty (by omega), Finset.sum_empty]
    obtain ⟨a', ha', hok, _, hiff, _, _⟩ := h.add 0 st.Rnorm np hlt
    rw [ha] at ha'
    cases ha'
    rw [hok, zero_mul]
    exact abs_pos.mpr (hiff.mp hz)

theorem InvN.sharp_zero {maxIter : ℕ} {tol : ℝ} {P : QP n} {q : QNext n} (h : InvN maxIter tol P q) : SharpN 0 P q := by
  cases q with
  | ret r s => trivial
  | eq i s =>
    have h : InvE P i s := h
    exact fun _ => h.base.fac.sharp_zero _
  | l1 s => trivial
  | l2 s => trivial
  | l2a s => exact h.1.base.fac.sharp_zero _

theorem exactRun_zero {maxIter : ℕ} {P : QP n} {J0 : ℕ → VecN n} (w : Work n) (hF : Factor P.G J0)
    (hE : P.CE.length ≤ n) : ExactRun 0 maxIter P J0 w := by
  intro q hq
  have : InvN maxIter (qpTol 0 P J0) P q := by
    induction hq with
    | refl => exact InvE.init hF w
    | step _ hs ih =>
      obtain ⟨q', h1, h2, _⟩ := qpStep_ok (le_refl 0) (J0 := J0) hE ih ih.sharp_zero
      rw [hs] at h1
      cases h1
      exact h2
  exact this.sharp_zero

end Verif
