import Verif.Model.Quadprog

/-!
# C45: earlier calls do not influence the answer

`reset` leaves the work arrays uninitialised, and does nothing when the sizes are unchanged. The arrays hold
arbitrary values when `solve_quadprog` starts; the answer is the same for all of them.
-/

namespace Verif
open Matrix

variable {n : ℕ}

/-- The same below `k`. -/
def Agree {α : Type*} (k : ℕ) (f g : ℕ → α) : Prop := ∀ i, i < k → f i = g i

/-- The same answer: point, value, size of the active set, active set and multipliers. -/
structure SameAnswer (s s' : QState n) : Prop where
  x : s.x = s'.x
  f : s.f = s'.f
  iq : s.iq = s'.iq
  A : Agree s.iq s.A s'.A
  u : Agree s.iq s.u s'.u

structure Same0 (m : ℕ) (s s' : QState n) : Prop where
  J : s.J = s'.J
  R : s.R = s'.R
  Rnorm : s.Rnorm = s'.Rnorm
  x : s.x = s'.x
  f : s.f = s'.f
  iq : s.iq = s'.iq
  iter : s.iter = s'.iter
  A : Agree m s.A s'.A
  u : Agree m s.u s'.u

structure Same2 (a b : QState n) : Prop where
  iai : a.iai = b.iai
  iaexcl : a.iaexcl = b.iaexcl
  s : a.s = b.s
  ss : a.ss = b.ss
  ip : a.ip = b.ip
  xOld : a.xOld = b.xOld
  AOld : Agree a.iq a.AOld b.AOld
  uOld : Agree a.iq a.uOld b.uOld

/-- States that differ only in entries that will not be read. -/
inductive Same : QNext n → QNext n → Prop
  | ret {r : QPStatus} {s s' : QState n} : SameAnswer s s' → Same (.ret r s) (.ret r s')
  | eq {i : ℕ} {s s' : QState n} : s.iq = i → Same0 s.iq s s' → Same (.eq i s) (.eq i s')
  | l1 {s s' : QState n} : Same0 s.iq s s' → s.iai = s'.iai → Same (.l1 s) (.l1 s')
  | l2 {s s' : QState n} : Same0 s.iq s s' → Same2 s s' → Same (.l2 s) (.l2 s')
  | l2a {s s' : QState n} : Same0 (s.iq + 1) s s' → Same2 s s' → Same (.l2a s) (.l2a s')

/-- The same outcome up to `r`. -/
inductive SameOut {α : Type} (r : α → α → Prop) : Out α → Out α → Prop
  | ok {a b : α} : r a b → SameOut r (.ok a) (.ok b)
  | throw {e : String} : SameOut r (.throw e) (.throw e)
  | assertFail : SameOut r .assertFail .assertFail
  | ub : SameOut r .ub .ub
  | diverge : SameOut r .diverge .diverge

theorem Same0.answer {s s' : QState n} (h : Same0 s.iq s s') : SameAnswer s s' := ⟨h.x, h.f, h.iq, h.A, h.u⟩

theorem Agree.mono {α : Type*} {k k' : ℕ} {f g : ℕ → α} (h : Agree k f g) (hk : k' ≤ k) : Agree k' f g :=
  fun i hi => h i (by omega)

theorem Agree.update {α : Type*} {k : ℕ} {f g : ℕ → α} (h : Agree k f g) (a : α) :
    Agree (k + 1) (Function.update f k a) (Function.update g k a) := by
  intro i hi
  by_cases he : i = k
  · subst he; simp
  · rw [Function.update_of_ne he, Function.update_of_ne he]; exact h i (by omega)

theorem activeValid_congr {A B : ℕ → ℤ} {lo hi nI : ℕ} (h : Agree hi A B) : activeValid A lo hi nI ↔ activeValid B lo hi nI := by
  constructor
  · intro H i h1 h2; rw [← h i h2]; exact H i h1 h2
  · intro H i h1 h2; rw [h i h2]; exact H i h1 h2

theorem markActive_congr {A B : ℕ → ℤ} {lo hi : ℕ} (h : Agree hi A B) (iai : ℕ → ℤ) :
    markActive A lo hi iai = markActive B lo hi iai := by
  funext j
  unfold markActive
  have : (∃ i, lo ≤ i ∧ i < hi ∧ A i = j) ↔ ∃ i, lo ≤ i ∧ i < hi ∧ B i = j := by
    constructor
    · rintro ⟨i, h1, h2, h3⟩; exact ⟨i, h1, h2, by rw [← h i h2]; exact h3⟩
    · rintro ⟨i, h1, h2, h3⟩; exact ⟨i, h1, h2, by rw [h i h2]; exact h3⟩
  by_cases hc : ∃ i, lo ≤ i ∧ i < hi ∧ A i = j
  · rw [if_pos hc, if_pos (this.mp hc)]
  · rw [if_neg hc, if_neg (fun h => hc (this.mpr h))]

theorem partialLen_congr {r u v : ℕ → ℝ} {A B : ℕ → ℤ} : ∀ (L : List ℕ) (b : Len × ℤ), (∀ k ∈ L, u k = v k ∧ A k = B k) →
    partialLen r u A L b = partialLen r v B L b
  | [], _, _ => rfl
  | k :: L, b, h => by
    obtain ⟨h1, h2⟩ := h k (by simp)
    rw [partialLen, partialLen, h1, h2]
    exact partialLen_congr L _ fun j hj => h j (by simp [hj])

theorem findActive_congr {A B : ℕ → ℤ} {nE iq : ℕ} (l : ℤ) (h : Agree iq A B) : findActive A nE iq l = findActive B nE iq l := by
  unfold findActive
  congr 1
  have key : ∀ L : List ℕ, (∀ i ∈ L, A i = B i) → L.find? (fun i => A i == l) = L.find? (fun i => B i == l) := by
    intro L hL
    induction L with
    | nil => rfl
    | cons a L ih =>
      rw [List.find?_cons, List.find?_cons, hL a (by simp), ih fun i hi => hL i (by simp [hi])]
  apply key
  intro i hi
  have := List.mem_range'.mp hi
  obtain ⟨j, h1, h2⟩ := this
  exact h i (by omega)

/-- What `delete_constraint` leaves agrees where it will be read. -/
theorem deleteConstraint_congr {m nE iq : ℕ} (J : ℕ → VecN n) (R : ℕ → ℕ → ℝ) {A B : ℕ → ℤ} {u v : ℕ → ℝ} (l : ℤ)
    (hA : Agree iq A B) :
    SameOut (fun a b : DelRes n => a.J = b.J ∧ a.R = b.R ∧
        (Agree (iq + 1) A B → Agree iq a.A b.A) ∧ (Agree (iq + 1) u v → Agree iq a.u b.u))
      (deleteConstraint m nE J R A u iq l) (deleteConstraint m nE J R B v iq l) := by
  unfold deleteConstraint
  rw [findActive_congr l hA]
  split_ifs
  · refine .ok ⟨rfl, rfl, fun h i hi => ?_, fun h i hi => ?_⟩
    · simp only
      split_ifs
      · exact h _ (by omega)
      · rfl
      · exact h _ (by omega)
    · simp only
      split_ifs
      · exact h _ (by omega)
      · rfl
      · exact h _ (by omega)
  · exact .ub

theorem moveU_congr {u v r : ℕ → ℝ} {iq : ℕ} {t : ℝ} (h : Agree (iq + 1) u v) :
    Agree (iq + 1) (moveU u r iq t) (moveU v r iq t) := by
  intro i hi
  unfold moveU
  rw [h i hi]

theorem stepEq_same {eps : ℝ} {P : QP n} {i : ℕ} {s s' : QState n} (hi : s.iq = i) (h : Same0 s.iq s s') :
    SameOut Same (stepEq eps P i s) (stepEq eps P i s') := by
  subst hi
  obtain ⟨J, R, Rn, x, f, u, A, iq, iai, iaexcl, sl, ss, ip, uOld, AOld, xOld, iter⟩ := s
  obtain ⟨J', R', Rn', x', f', u', A', iq', iai', iaexcl', sl', ss', ip', uOld', AOld', xOld', iter'⟩ := s'
  obtain ⟨h1, h2, h3, h4, h5, h6, h7, hA, hu⟩ := h
  simp only at h1 h2 h3 h4 h5 h6 h7 hA hu
  subst h1 h2 h3 h4 h5 h6 h7
  unfold stepEq
  simp only
  split_ifs with c1 c2
  · cases addConstraint eps J R (computeD J (P.CE.getD iq (0, 0)).1) iq Rn with
    | ok a =>
      have hu' : ∀ t : ℝ, ∀ r : ℕ → ℝ, Agree (iq + 1) (fun k => if k = iq then t else if k < iq then u k - t * r k else u k)
          (fun k => if k = iq then t else if k < iq then u' k - t * r k else u' k) := by
        intro t r k hk
        simp only
        by_cases hc : k = iq
        · rw [if_pos hc, if_pos hc]
        · rw [if_neg hc, if_neg hc, hu k (by omega)]
      simp only
      by_cases hok : a.ok
      · rw [if_pos hok, if_pos hok]
        exact .ok (.eq rfl ⟨rfl, rfl, rfl, rfl, rfl, rfl, rfl, hA.update _, hu' _ _⟩)
      · rw [if_neg hok, if_neg hok]
        exact .ok (.ret ⟨rfl, rfl, rfl, hA.update _, hu' _ _⟩)
    | throw e => exact .throw
    | assertFail => exact .assertFail
    | ub => exact .ub
    | diverge => exact .diverge
  · exact .ub
  · exact .ok (.l1 ⟨rfl, rfl, rfl, rfl, rfl, rfl, rfl, hA, hu⟩ rfl)

theorem agree_ite {α : Type*} {iq : ℕ} {f g f' g' : ℕ → α} (h : Agree iq f g) :
    Agree iq (fun k => if k < iq then f k else f' k) (fun k => if k < iq then g k else g' k) := by
  intro i hi
  simp only [if_pos hi]
  exact h i hi

theorem stepL1_same {eps : ℝ} {maxIter : ℕ} {P : QP n} {J0 : ℕ → VecN n} {s s' : QState n} (h : Same0 s.iq s s')
    (hi : s.iai = s'.iai) : SameOut Same (stepL1 eps maxIter P J0 s) (stepL1 eps maxIter P J0 s') := by
  obtain ⟨J, R, Rn, x, f, u, A, iq, iai, iaexcl, sl, ss, ip, uOld, AOld, xOld, iter⟩ := s
  obtain ⟨J', R', Rn', x', f', u', A', iq', iai', iaexcl', sl', ss', ip', uOld', AOld', xOld', iter'⟩ := s'
  obtain ⟨h1, h2, h3, h4, h5, h6, h7, hA, hu⟩ := h
  simp only at h1 h2 h3 h4 h5 h6 h7 hA hu hi
  subst h1 h2 h3 h4 h5 h6 h7 hi
  unfold stepL1
  simp only
  by_cases c1 : iter + 1 ≥ maxIter
  · rw [if_pos c1, if_pos c1]
    exact .ok (.ret ⟨rfl, rfl, rfl, hA, hu⟩)
  · rw [if_neg c1, if_neg c1]
    by_cases c2 : iq ≤ P.CE.length + P.CI.length ∧ activeValid A P.CE.length iq P.CI.length
    · have c2' : iq ≤ P.CE.length + P.CI.length ∧ activeValid A' P.CE.length iq P.CI.length :=
        ⟨c2.1, (activeValid_congr hA).mp c2.2⟩
      rw [if_pos c2, if_pos c2']
      by_cases c3 : |∑ i ∈ Finset.range P.CI.length, min 0 (P.slack x i)| ≤ qpTol eps P J0
      · rw [if_pos c3, if_pos c3]
        exact .ok (.ret ⟨rfl, rfl, rfl, hA, hu⟩)
      · rw [if_neg c3, if_neg c3]
        refine .ok (.l2 ⟨rfl, rfl, rfl, rfl, rfl, rfl, rfl, hA, hu⟩ ⟨?_, rfl, rfl, rfl, rfl, rfl, ?_, ?_⟩)
        · exact markActive_congr hA _
        · exact agree_ite hA
        · exact agree_ite hu
    · rw [if_neg c2, if_neg (fun h => c2 ⟨h.1, (activeValid_congr hA).mpr h.2⟩)]
      exact .ub

theorem stepL2_same {P : QP n} {s s' : QState n} (h : Same0 s.iq s s') (h' : Same2 s s') :
    SameOut Same (stepL2 P s) (stepL2 P s') := by
  obtain ⟨J, R, Rn, x, f, u, A, iq, iai, iaexcl, sl, ss, ip, uOld, AOld, xOld, iter⟩ := s
  obtain ⟨J', R', Rn', x', f', u', A', iq', iai', iaexcl', sl', ss', ip', uOld', AOld', xOld', iter'⟩ := s'
  obtain ⟨h1, h2, h3, h4, h5, h6, h7, hA, hu⟩ := h
  obtain ⟨g1, g2, g3, g4, g5, g6, gA, gu⟩ := h'
  simp only at h1 h2 h3 h4 h5 h6 h7 hA hu g1 g2 g3 g4 g5 g6 gA gu
  subst h1 h2 h3 h4 h5 h6 h7 g1 g2 g3 g4 g5 g6
  unfold stepL2
  simp only
  split_ifs
  · exact .ok (.ret ⟨rfl, rfl, rfl, hA, hu⟩)
  · exact .ok (.l2a ⟨rfl, rfl, rfl, rfl, rfl, rfl, rfl, hA.update _, hu.update _⟩ ⟨rfl, rfl, rfl, rfl, rfl, rfl, gA, gu⟩)
  · exact .ub

theorem dropActive_same {P : QP n} {s s' : QState n} (l : ℤ) (h : Same0 (s.iq + 1) s s') (h' : Same2 s s') :
    SameOut (fun a b => Same0 (a.iq + 1) a b ∧ Same2 a b) (dropActive P s l) (dropActive P s' l) := by
  obtain ⟨J, R, Rn, x, f, u, A, iq, iai, iaexcl, sl, ss, ip, uOld, AOld, xOld, iter⟩ := s
  obtain ⟨J', R', Rn', x', f', u', A', iq', iai', iaexcl', sl', ss', ip', uOld', AOld', xOld', iter'⟩ := s'
  obtain ⟨h1, h2, h3, h4, h5, h6, h7, hA, hu⟩ := h
  obtain ⟨g1, g2, g3, g4, g5, g6, gA, gu⟩ := h'
  simp only at h1 h2 h3 h4 h5 h6 h7 hA hu g1 g2 g3 g4 g5 g6 gA gu
  subst h1 h2 h3 h4 h5 h6 h7 g1 g2 g3 g4 g5 g6
  unfold dropActive
  simp only
  split_ifs
  · have hd := deleteConstraint_congr (m := P.CE.length + P.CI.length) (nE := P.CE.length) J R (u := u) (v := u') l (hA.mono (Nat.le_succ _))
    have hpos : ∀ a, deleteConstraint (P.CE.length + P.CI.length) P.CE.length J R A u iq l = .ok a → 1 ≤ iq := by
      intro a ha
      unfold deleteConstraint at ha
      split_ifs at ha with hc
      exact hc.1
    generalize hX : deleteConstraint (P.CE.length + P.CI.length) P.CE.length J R A u iq l = X at hd ⊢
    generalize deleteConstraint (P.CE.length + P.CI.length) P.CE.length J R A' u' iq l = Y at hd ⊢
    cases hd with
    | @ok a b hab =>
      obtain ⟨e1, e2, e3, e4⟩ := hab
      have := hpos a hX
      refine .ok ⟨⟨e1, e2, rfl, rfl, rfl, rfl, rfl, ?_, ?_⟩, ⟨rfl, rfl, rfl, rfl, rfl, rfl, gA.mono (by simp), gu.mono (by simp)⟩⟩
      · simp only; rw [Nat.sub_add_cancel this]; exact e3 hA
      · simp only; rw [Nat.sub_add_cancel this]; exact e4 hu
    | throw => exact .throw
    | assertFail => exact .assertFail
    | ub => exact .ub
    | diverge => exact .diverge
  · exact .ub

theorem fullStep_same {eps : ℝ} {P : QP n} {d : ℕ → ℝ} {s s' : QState n} (h : Same0 (s.iq + 1) s s') (h' : Same2 s s') :
    SameOut Same (fullStep eps P d s) (fullStep eps P d s') := by
  obtain ⟨J, R, Rn, x, f, u, A, iq, iai, iaexcl, sl, ss, ip, uOld, AOld, xOld, iter⟩ := s
  obtain ⟨J', R', Rn', x', f', u', A', iq', iai', iaexcl', sl', ss', ip', uOld', AOld', xOld', iter'⟩ := s'
  obtain ⟨h1, h2, h3, h4, h5, h6, h7, hA, hu⟩ := h
  obtain ⟨g1, g2, g3, g4, g5, g6, gA, gu⟩ := h'
  simp only at h1 h2 h3 h4 h5 h6 h7 hA hu g1 g2 g3 g4 g5 g6 gA gu
  subst h1 h2 h3 h4 h5 h6 h7 g1 g2 g3 g4 g5 g6
  unfold fullStep
  simp only
  cases addConstraint eps J R d iq Rn with
  | ok a =>
    simp only
    by_cases hok : a.ok
    · rw [if_pos hok, if_pos hok]
      exact .ok (.l1 ⟨rfl, rfl, rfl, rfl, rfl, rfl, rfl, hA, hu⟩ rfl)
    · rw [if_neg hok, if_neg hok]
      have hd := deleteConstraint_congr (m := P.CE.length + P.CI.length) (nE := P.CE.length) a.J a.R (u := u) (v := u') (ip : ℤ) hA
      generalize deleteConstraint (P.CE.length + P.CI.length) P.CE.length a.J a.R A u (iq + 1) ip = X at hd ⊢
      generalize deleteConstraint (P.CE.length + P.CI.length) P.CE.length a.J a.R A' u' (iq + 1) ip = Y at hd ⊢
      cases hd with
      | @ok b b' hab =>
        obtain ⟨e1, e2, e3, e4⟩ := hab
        simp only
        have gA' : Agree (iq + 1 - 1) AOld AOld' := gA
        by_cases hv : activeValid AOld 0 (iq + 1 - 1) P.CI.length
        · rw [if_pos hv, if_pos ((activeValid_congr gA').mp hv)]
          refine .ok (.l2 ⟨e1, e2, rfl, rfl, rfl, rfl, rfl, ?_, ?_⟩ ⟨?_, rfl, rfl, rfl, rfl, rfl, gA, gu⟩)
          · exact agree_ite gA'
          · exact agree_ite (show Agree (iq + 1 - 1) uOld uOld' from gu)
          · exact markActive_congr gA' _
        · rw [if_neg hv, if_neg (fun h => hv ((activeValid_congr gA').mpr h))]
          exact .ub
      | throw => exact .throw
      | assertFail => exact .assertFail
      | ub => exact .ub
      | diverge => exact .diverge
  | throw e => exact .throw
  | assertFail => exact .assertFail
  | ub => exact .ub
  | diverge => exact .diverge

theorem stepL2a_same {eps : ℝ} {P : QP n} {s s' : QState n} (h : Same0 (s.iq + 1) s s') (h' : Same2 s s') :
    SameOut Same (stepL2a eps P s) (stepL2a eps P s') := by
  obtain ⟨J, R, Rn, x, f, u, A, iq, iai, iaexcl, sl, ss, ip, uOld, AOld, xOld, iter⟩ := s
  obtain ⟨J', R', Rn', x', f', u', A', iq', iai', iaexcl', sl', ss', ip', uOld', AOld', xOld', iter'⟩ := s'
  obtain ⟨h1, h2, h3, h4, h5, h6, h7, hA, hu⟩ := h
  obtain ⟨g1, g2, g3, g4, g5, g6, gA, gu⟩ := h'
  simp only at h1 h2 h3 h4 h5 h6 h7 hA hu g1 g2 g3 g4 g5 g6 gA gu
  subst h1 h2 h3 h4 h5 h6 h7 g1 g2 g3 g4 g5 g6
  unfold stepL2a
  by_cases c1 : iq ≤ n ∧ iq < P.CE.length + P.CI.length ∧ ip < P.CI.length
  · rw [if_pos c1, if_pos c1]
    simp only
    have hp : partialLen (updateR R (computeD J (P.row ip).1) iq) u A (List.range' P.CE.length (iq - P.CE.length)) (none, 0) =
        partialLen (updateR R (computeD J (P.row ip).1) iq) u' A' (List.range' P.CE.length (iq - P.CE.length)) (none, 0) := by
      apply partialLen_congr
      intro k hk
      obtain ⟨j, j1, j2⟩ := List.mem_range'.mp hk
      exact ⟨hu k (by omega), hA k (by omega)⟩
    rw [← hp]
    generalize partialLen (updateR R (computeD J (P.row ip).1) iq) u A (List.range' P.CE.length (iq - P.CE.length)) (none, 0) = p
    have huq : u iq = u' iq := hu iq (by omega)
    by_cases c2 : |updateZ J (computeD J (P.row ip).1) iq ⬝ᵥ updateZ J (computeD J (P.row ip).1) iq| > eps
    · rw [if_pos c2, if_pos c2]
      generalize chooseLen p.1 (-sl ip / updateZ J (computeD J (P.row ip).1) iq ⬝ᵥ (P.row ip).1) = c
      rw [← huq]
      by_cases c3 : c.2
      · rw [if_pos c3, if_pos c3]
        exact fullStep_same ⟨rfl, rfl, rfl, rfl, rfl, rfl, rfl, hA, moveU_congr hu⟩ ⟨rfl, rfl, rfl, rfl, rfl, rfl, gA, gu⟩
      · rw [if_neg c3, if_neg c3]
        generalize f + c.1 * updateZ J (computeD J (P.row ip).1) iq ⬝ᵥ (P.row ip).1 * (1 / 2 * c.1 + u iq) = f1
        have hd := dropActive_same (P := P) p.2
          (s := ⟨J, R, Rn, x + c.1 • updateZ J (computeD J (P.row ip).1) iq, f1, moveU u (updateR R (computeD J (P.row ip).1) iq) iq c.1, A, iq, iai, iaexcl, sl, ss, ip, uOld, AOld, xOld, iter⟩)
          (s' := ⟨J, R, Rn, x + c.1 • updateZ J (computeD J (P.row ip).1) iq, f1, moveU u' (updateR R (computeD J (P.row ip).1) iq) iq c.1, A', iq, iai, iaexcl, sl, ss, ip, uOld', AOld', xOld, iter⟩)
          ⟨rfl, rfl, rfl, rfl, rfl, rfl, rfl, hA, moveU_congr hu⟩ ⟨rfl, rfl, rfl, rfl, rfl, rfl, gA, gu⟩
        generalize dropActive P ⟨J, R, Rn, x + c.1 • updateZ J (computeD J (P.row ip).1) iq, f1, moveU u (updateR R (computeD J (P.row ip).1) iq) iq c.1, A, iq, iai, iaexcl, sl, ss, ip, uOld, AOld, xOld, iter⟩ p.2 = X at hd ⊢
        generalize dropActive P ⟨J, R, Rn, x + c.1 • updateZ J (computeD J (P.row ip).1) iq, f1, moveU u' (updateR R (computeD J (P.row ip).1) iq) iq c.1, A', iq, iai, iaexcl, sl, ss, ip, uOld', AOld', xOld, iter⟩ p.2 = Y at hd ⊢
        cases hd with
        | @ok a b hab =>
          obtain ⟨e1, e2⟩ := hab
          refine .ok (.l2a ⟨e1.J, e1.R, e1.Rnorm, e1.x, e1.f, e1.iq, e1.iter, e1.A, e1.u⟩
            ⟨e2.iai, e2.iaexcl, ?_, e2.ss, e2.ip, e2.xOld, e2.AOld, e2.uOld⟩)
          simp only
          rw [e2.s, e2.ip, e1.x]
        | throw => exact .throw
        | assertFail => exact .assertFail
        | ub => exact .ub
        | diverge => exact .diverge
    · rw [if_neg c2, if_neg c2]
      rcases p.1 with _ | t
      · exact .ok (.ret ⟨rfl, rfl, rfl, hA.mono (Nat.le_succ _), hu.mono (Nat.le_succ _)⟩)
      · simp only
        have hd := dropActive_same (P := P) p.2
          (s := ⟨J, R, Rn, x, f, moveU u (updateR R (computeD J (P.row ip).1) iq) iq t, A, iq, iai, iaexcl, sl, ss, ip, uOld, AOld, xOld, iter⟩)
          (s' := ⟨J, R, Rn, x, f, moveU u' (updateR R (computeD J (P.row ip).1) iq) iq t, A', iq, iai, iaexcl, sl, ss, ip, uOld', AOld', xOld, iter⟩)
          ⟨rfl, rfl, rfl, rfl, rfl, rfl, rfl, hA, moveU_congr hu⟩ ⟨rfl, rfl, rfl, rfl, rfl, rfl, gA, gu⟩
        generalize dropActive P ⟨J, R, Rn, x, f, moveU u (updateR R (computeD J (P.row ip).1) iq) iq t, A, iq, iai, iaexcl, sl, ss, ip, uOld, AOld, xOld, iter⟩ p.2 = X at hd ⊢
        generalize dropActive P ⟨J, R, Rn, x, f, moveU u' (updateR R (computeD J (P.row ip).1) iq) iq t, A', iq, iai, iaexcl, sl, ss, ip, uOld', AOld', xOld, iter⟩ p.2 = Y at hd ⊢
        cases hd with
        | @ok a b hab => exact .ok (.l2a hab.1 hab.2)
        | throw => exact .throw
        | assertFail => exact .assertFail
        | ub => exact .ub
        | diverge => exact .diverge
  · rw [if_neg c1, if_neg c1]
    exact .ub

/-- The same verdict and answer. -/
def SameRes (a b : QPStatus × QState n) : Prop := a.1 = b.1 ∧ SameAnswer a.2 b.2

theorem qpRun_same {eps : ℝ} {maxIter : ℕ} {P : QP n} {J0 : ℕ → VecN n} : ∀ (k : ℕ) {q q' : QNext n}, Same q q' →
    SameOut SameRes (qpRun eps maxIter P J0 k q) (qpRun eps maxIter P J0 k q')
  | k, _, _, .ret h => by cases k <;> exact .ok ⟨rfl, h⟩
  | 0, _, _, .eq _ _ => .diverge
  | 0, _, _, .l1 _ _ => .diverge
  | 0, _, _, .l2 _ _ => .diverge
  | 0, _, _, .l2a _ _ => .diverge
  | k + 1, _, _, .eq hi h => qpRun_bind k (stepEq_same hi h)
  | k + 1, _, _, .l1 h hi => qpRun_bind k (stepL1_same h hi)
  | k + 1, _, _, .l2 h h' => qpRun_bind k (stepL2_same h h')
  | k + 1, _, _, .l2a h h' => qpRun_bind k (stepL2a_same h h')
where
  qpRun_bind (k : ℕ) {X Y : Out (QNext n)} (h : SameOut Same X Y) :
      SameOut SameRes (X >>= qpRun eps maxIter P J0 k) (Y >>= qpRun eps maxIter P J0 k) := by
    cases h with
    | ok h => exact qpRun_same k h
    | throw => exact .throw
    | assertFail => exact .assertFail
    | ub => exact .ub
    | diverge => exact .diverge

/-- C45. Whatever the work arrays contain, `solve_quadprog` behaves in the same way: it gives the same verdict,
point, value, active set and multipliers, or fails in the same way. -/
theorem C45_reuse (eps : ℝ) (maxIter : ℕ) (P : QP n) (J0 : ℕ → VecN n) (w w' : Work n) (fuel : ℕ) :
    SameOut SameRes (solveQuadprog eps maxIter P J0 w fuel) (solveQuadprog eps maxIter P J0 w' fuel) :=
  qpRun_same fuel (.eq rfl ⟨rfl, rfl, rfl, rfl, rfl, rfl, rfl, fun i hi => absurd hi (by simp [qpInit]),
    fun i hi => absurd hi (by simp [qpInit])⟩)

end Verif
