import Verif.Model.QuadprogFp

/-! With exact operations on real numbers, the machine of `Verif.Model.QuadprogFp` is that of `Verif.Model.Quadprog`. -/

namespace Verif
open Matrix

variable {n : ℕ}

/-- Exact arithmetic on real numbers, with the given machine epsilon. -/
noncomputable def exactArith (eps : ℝ) (n : ℕ) : Arith ℝ n where
  zero := 0
  one := 1
  two := 2
  half := 1 / 2
  hundred := 100
  eps := eps
  ofNat k := k
  neg a := -a
  abs a := |a|
  sqrt := Real.sqrt
  add a b := a + b
  sub a b := a - b
  mul a b := a * b
  div a b := a / b
  mulAdd a b c := a * b + c
  mulSub a b c := a * b - c
  subMul a b c := a - b * c
  lin2 a b c d := a * b + c * d
  dot a b := a ⬝ᵥ b
  gemvT := computeD
  gemv := updateZ
  triSolve := updateR
  slacks CI x i := (CI.getD i (0, 0)).1 ⬝ᵥ x + (CI.getD i (0, 0)).2
  sumNeg s k := ∑ i ∈ Finset.range k, min 0 (s i)
  trace d := ∑ i, d i
  lt a b := a < b
  le a b := a ≤ b
  eq a b := a = b
  ltInf _ := True
  geInf _ := False

/-- The same data. -/
def QP.toF (P : QP n) : FQP ℝ n := { G := P.G, g := P.g, CE := P.CE, CI := P.CI }

/-- The same state. -/
def QState.toF (s : QState n) : FState ℝ n :=
  { J := s.J, R := s.R, Rnorm := s.Rnorm, x := s.x, f := s.f, u := s.u, A := s.A, iq := s.iq, iai := s.iai,
    iaexcl := s.iaexcl, s := s.s, ss := s.ss, ip := s.ip, uOld := s.uOld, AOld := s.AOld, xOld := s.xOld, iter := s.iter }

/-- The same arrays. -/
def Work.toF (w : Work n) : FWork ℝ n :=
  { u := w.u, A := w.A, iai := w.iai, iaexcl := w.iaexcl, s := w.s, uOld := w.uOld, AOld := w.AOld, xOld := w.xOld }

def QNext.toF : QNext n → FNext ℝ n
  | .ret r s => .ret r s.toF
  | .eq i s => .eq i s.toF
  | .l1 s => .l1 s.toF
  | .l2 s => .l2 s.toF
  | .l2a s => .l2a s.toF

variable (eps : ℝ)

theorem ite_iff' {α : Sort*} {p q : Prop} {dp : Decidable p} {dq : Decidable q} {a b a' b' : α} (h : p ↔ q) (ha : a = a') (hb : b = b') :
    @ite α p dp a b = @ite α q dq a' b' := by
  by_cases hp : p
  · rw [if_pos hp, if_pos (h.mp hp), ha]
  · rw [if_neg hp, if_neg (fun hq => hp (h.mpr hq)), hb]

theorem ite_bind' {α β : Type} {p : Prop} {dp : Decidable p} {a b : Out α} {f : α → Out β} :
    (@ite _ p dp a b >>= f) = @ite _ p dp (a >>= f) (b >>= f) := by
  by_cases hp : p
  · rw [if_pos hp, if_pos hp]
  · rw [if_neg hp, if_neg hp]

theorem exact_dist (a b : ℝ) : (exactArith eps n).dist a b = hypotDist a b := by
  unfold Arith.dist hypotDist
  refine ite_iff' Iff.rfl ?_ (ite_iff' Iff.rfl ?_ rfl)
  · rw [add_comm (1 : ℝ)]; rfl
  · rw [add_comm (1 : ℝ)]; rfl

theorem exact_givens (c s : ℝ) : (exactArith eps n).givens c s = givensCS c s := by
  unfold Arith.givens givensCS
  rw [exact_dist]
  exact ite_iff' Iff.rfl rfl rfl

theorem exact_rotFst (cc ss : ℝ) (t1 t2 : VecN n) :
    (fun k => (exactArith eps n).rotFst cc ss (t1 k) (t2 k)) = rotFst cc ss t1 t2 := by
  funext k
  simp only [Arith.rotFst, rotFst, exactArith, Pi.add_apply, Pi.smul_apply, smul_eq_mul]
  ring

theorem exact_rotSnd (cc ss : ℝ) (t1 t2 : VecN n) :
    (fun k => (exactArith eps n).rotSnd cc ss (t1 k) (t2 k)) = rotSnd cc ss t1 t2 := by
  funext k
  simp only [Arith.rotSnd, Arith.rotFst, rotSnd, rotFst, exactArith, Pi.add_apply, Pi.sub_apply, Pi.smul_apply, smul_eq_mul]
  ring

theorem exact_rotSnd' (cc ss : ℝ) (t1 t2 : VecN n) :
    (fun k => (exactArith eps n).rotSnd' cc ss (t1 k) (t2 k)) = rotSnd cc ss t1 t2 := by
  funext k
  simp only [Arith.rotSnd', Arith.rotFst, rotSnd, rotFst, exactArith, Pi.add_apply, Pi.sub_apply, Pi.smul_apply, smul_eq_mul]
  ring

theorem exact_addGivens (q : (ℕ → VecN n) × (ℕ → ℝ)) (j : ℕ) : (exactArith eps n).addGivens q j = addGivens q j := by
  unfold Arith.addGivens addGivens
  dsimp only
  rw [exact_givens, exact_rotFst, exact_rotSnd, exact_dist]
  exact ite_iff' Iff.rfl rfl rfl

theorem exact_addLoop (iq : ℕ) : ∀ (k : ℕ) (q : (ℕ → VecN n) × (ℕ → ℝ)),
    (exactArith eps n).addLoop iq k q = addLoop iq k q
  | 0, _ => rfl
  | k + 1, q => by unfold Arith.addLoop addLoop; rw [exact_addGivens, exact_addLoop]

theorem exact_addConstraint (J : ℕ → VecN n) (R : ℕ → ℕ → ℝ) (d : ℕ → ℝ) (iq : ℕ) (Rnorm : ℝ) :
    (exactArith eps n).addConstraint J R d iq Rnorm =
      addConstraint eps J R d iq Rnorm >>= fun a => .ok { ok := a.ok, J := a.J, R := a.R, Rnorm := a.Rnorm } := by
  unfold Arith.addConstraint addConstraint
  dsimp only
  rw [exact_addLoop]
  by_cases h : iq < n
  · rw [if_pos h, if_pos h, Out.ok_bind]
    congr 2
    generalize (addLoop iq (n - 1 - iq) (J, d)).2 iq = a
    refine ite_iff' Iff.rfl rfl ?_
    rw [max_def_lt]
    exact ite_iff' Iff.rfl rfl rfl
  · rw [if_neg h, if_neg h]; rfl

theorem exact_delGivens (iq : ℕ) (q : (ℕ → VecN n) × (ℕ → ℕ → ℝ)) (j : ℕ) :
    (exactArith eps n).delGivens iq q j = delGivens iq q j := by
  unfold Arith.delGivens delGivens
  dsimp only
  rw [exact_givens, exact_rotFst, exact_rotSnd', exact_dist]
  exact ite_iff' Iff.rfl rfl rfl

theorem exact_delLoop (iq : ℕ) : ∀ (j k : ℕ) (q : (ℕ → VecN n) × (ℕ → ℕ → ℝ)),
    (exactArith eps n).delLoop iq j k q = delLoop iq j k q
  | _, 0, _ => rfl
  | j, k + 1, q => by unfold Arith.delLoop delLoop; rw [exact_delGivens, exact_delLoop]

theorem exact_deleteConstraint (m nE : ℕ) (J : ℕ → VecN n) (R : ℕ → ℕ → ℝ) (A : ℕ → ℤ) (u : ℕ → ℝ) (iq : ℕ) (l : ℤ) :
    (exactArith eps n).deleteConstraint m nE J R A u iq l =
      deleteConstraint m nE J R A u iq l >>= fun a => .ok { J := a.J, R := a.R, A := a.A, u := a.u } := by
  unfold Arith.deleteConstraint deleteConstraint
  dsimp only
  rw [exact_delLoop]
  by_cases h : 1 ≤ iq ∧ iq < m ∧ iq ≤ n
  · rw [if_pos h, if_pos h]; rfl
  · rw [if_neg h, if_neg h]; rfl

theorem exact_updateZ (J : ℕ → VecN n) (d : ℕ → ℝ) (iq : ℕ) : (exactArith eps n).updateZ J d iq = updateZ J d iq := by
  unfold Arith.updateZ
  split_ifs with h
  · rfl
  · unfold updateZ
    rw [Finset.Ico_eq_empty (by omega), Finset.sum_empty]; rfl

theorem exact_eqLen (z np x : VecN n) (c : ℝ) : (exactArith eps n).eqLen z np x c = eqLen eps z np x c := by
  unfold Arith.eqLen eqLen
  exact ite_iff' Iff.rfl rfl rfl

theorem exact_stepEq (P : QP n) (i : ℕ) (st : QState n) :
    (exactArith eps n).stepEq P.toF i st.toF = stepEq eps P i st >>= fun q => .ok q.toF := by
  unfold Arith.stepEq stepEq
  dsimp only
  rw [ite_bind', ite_bind']
  refine ite_iff' Iff.rfl (ite_iff' Iff.rfl ?_ rfl) rfl
  rw [exact_updateZ, exact_eqLen, exact_addConstraint]
  have e0 : P.toF.CE.getD i (fun _ => (exactArith eps n).zero, (exactArith eps n).zero) = P.CE.getD i (0, 0) := rfl
  have e1 : (exactArith eps n).gemvT = computeD := rfl
  have e2 : (addConstraint eps st.toF.J st.toF.R (computeD st.toF.J (P.CE.getD i (0, 0)).1) st.toF.iq st.toF.Rnorm) =
    addConstraint eps st.J st.R (computeD st.J (P.CE.getD i (0, 0)).1) st.iq st.Rnorm := rfl
  rw [e0, e1, e2]
  cases addConstraint eps st.J st.R (computeD st.J (P.CE.getD i (0, 0)).1) st.iq st.Rnorm with
  | ok a =>
    dsimp only [Out.ok_bind]
    rw [ite_bind']
    have key : ∀ z : VecN n, ∀ t : ℝ, (fun k => (exactArith eps n).mulAdd t (z k) (st.toF.x k)) = st.x + t • z := by
      intro z t; funext k
      simp only [exactArith, QState.toF, Pi.add_apply, Pi.smul_apply, smul_eq_mul]; ring
    have kf : ∀ a b : ℝ, (exactArith eps n).mulAdd a b st.toF.f = st.f + a * b := fun a b => by
      simp only [exactArith, QState.toF]; ring
    rw [key, kf]
    exact ite_iff' Iff.rfl rfl rfl
  | throw e => rfl
  | assertFail => rfl
  | ub => rfl
  | diverge => rfl

theorem exact_stepL1 (maxIter : ℕ) (P : QP n) (J0 : ℕ → VecN n) (st : QState n) :
    (exactArith eps n).stepL1 maxIter P.toF J0 st.toF = stepL1 eps maxIter P J0 st >>= fun q => .ok q.toF := by
  unfold Arith.stepL1 stepL1
  dsimp only
  rw [ite_bind', ite_bind', ite_bind']
  exact ite_iff' Iff.rfl rfl (ite_iff' Iff.rfl (ite_iff' Iff.rfl rfl rfl) rfl)

theorem exact_chooseViolated (s : ℕ → ℝ) (iai : ℕ → ℤ) (iaexcl : ℕ → Bool) : ∀ (l : List ℕ) (b : ℝ × ℕ),
    (exactArith eps n).chooseViolated s iai iaexcl l b = chooseViolated s iai iaexcl l b
  | [], _ => rfl
  | i :: l, b => by
    unfold Arith.chooseViolated chooseViolated
    rw [exact_chooseViolated]
    exact congrArg _ (ite_iff' Iff.rfl rfl rfl)

theorem exact_stepL2 (P : QP n) (st : QState n) :
    (exactArith eps n).stepL2 P.toF st.toF = stepL2 P st >>= fun q => .ok q.toF := by
  unfold Arith.stepL2 stepL2
  dsimp only
  rw [exact_chooseViolated, ite_bind', ite_bind']
  exact ite_iff' Iff.rfl rfl (ite_iff' Iff.rfl rfl rfl)

theorem exact_partialLen (r u : ℕ → ℝ) (A : ℕ → ℤ) : ∀ (l : List ℕ) (b : Len × ℤ),
    (exactArith eps n).partialLen r u A l b = partialLen r u A l b
  | [], _ => rfl
  | k :: l, b => by
    unfold Arith.partialLen partialLen
    rw [exact_partialLen]
    refine congrArg _ (ite_iff' (and_congr Iff.rfl ?_) rfl rfl)
    rcases b with ⟨_ | t, l'⟩
    · exact ⟨fun _ t h => by simp at h, fun _ => trivial⟩
    · exact ⟨fun h t' e => by cases e; exact h, fun h => h t rfl⟩

theorem exact_dropActive (P : QP n) (st : QState n) (l : ℤ) :
    (exactArith eps n).dropActive P.toF st.toF l = dropActive P st l >>= fun q => .ok q.toF := by
  unfold Arith.dropActive dropActive
  rw [ite_bind', exact_deleteConstraint]
  refine ite_iff' Iff.rfl ?_ rfl
  have e2 : deleteConstraint (P.toF.CE.length + P.toF.CI.length) P.toF.CE.length st.toF.J st.toF.R st.toF.A st.toF.u st.toF.iq l =
    deleteConstraint (P.CE.length + P.CI.length) P.CE.length st.J st.R st.A st.u st.iq l := rfl
  rw [e2]
  cases deleteConstraint (P.CE.length + P.CI.length) P.CE.length st.J st.R st.A st.u st.iq l <;> rfl

theorem exact_fullStep (P : QP n) (d : ℕ → ℝ) (st : QState n) :
    (exactArith eps n).fullStep P.toF d st.toF = fullStep eps P d st >>= fun q => .ok q.toF := by
  unfold Arith.fullStep fullStep
  rw [exact_addConstraint]
  dsimp only
  have e2 : addConstraint eps st.toF.J st.toF.R d st.toF.iq st.toF.Rnorm = addConstraint eps st.J st.R d st.iq st.Rnorm := rfl
  rw [e2]
  cases addConstraint eps st.J st.R d st.iq st.Rnorm with
  | ok a =>
    dsimp only [Out.ok_bind]
    rw [ite_bind', exact_deleteConstraint]
    refine ite_iff' Iff.rfl rfl ?_
    have e3 : deleteConstraint (P.toF.CE.length + P.toF.CI.length) P.toF.CE.length a.J a.R st.toF.A st.toF.u (st.toF.iq + 1)
      st.toF.ip = deleteConstraint (P.CE.length + P.CI.length) P.CE.length a.J a.R st.A st.u (st.iq + 1) st.ip := rfl
    rw [e3]
    cases deleteConstraint (P.CE.length + P.CI.length) P.CE.length a.J a.R st.A st.u (st.iq + 1) st.ip with
    | ok b =>
      dsimp only [Out.ok_bind]
      rw [ite_bind']
      exact ite_iff' Iff.rfl rfl rfl
    | throw e => rfl
    | assertFail => rfl
    | ub => rfl
    | diverge => rfl
  | throw e => rfl
  | assertFail => rfl
  | ub => rfl
  | diverge => rfl

theorem exact_moveU (u r : ℕ → ℝ) (iq : ℕ) (t : ℝ) : (exactArith eps n).moveU u r iq t = moveU u r iq t := rfl

theorem exact_dualStep (P : QP n) (r : ℕ → ℝ) (l : ℤ) (t : ℝ) (st : QState n) :
    (exactArith eps n).dualStep P.toF r l t st.toF =
      (match dropActive P { st with u := moveU st.u r st.iq t } l with
        | .ok st => .ok (.l2a st)
        | .throw e => .throw e
        | .assertFail => .assertFail
        | .ub => .ub
        | .diverge => .diverge : Out (QNext n)) >>= fun q => .ok q.toF := by
  unfold Arith.dualStep
  have e : (exactArith eps n).dropActive P.toF { st.toF with u := (exactArith eps n).moveU st.toF.u r st.toF.iq t } l = _ :=
    exact_dropActive eps P { st with u := moveU st.u r st.iq t } l
  rw [e]
  cases dropActive P { st with u := moveU st.u r st.iq t } l <;> rfl

theorem exact_moveStep (P : QP n) (np : VecN n) (d : ℕ → ℝ) (z : VecN n) (r : ℕ → ℝ) (l : ℤ) (t t2 : ℝ) (st : QState n)
    {c : Prop} (hc : c ↔ t = t2) :
    (exactArith eps n).moveStep P.toF np d z r l t t2 st.toF =
      (open Classical in
        if c then
          fullStep eps P d { st with x := st.x + t • z, f := st.f + t * (z ⬝ᵥ np) * (1 / 2 * t + st.u st.iq),
                                     u := moveU st.u r st.iq t }
        else
          match dropActive P { st with x := st.x + t • z, f := st.f + t * (z ⬝ᵥ np) * (1 / 2 * t + st.u st.iq),
                                       u := moveU st.u r st.iq t } l with
          | .ok st => .ok (.l2a { st with s := Function.update st.s st.ip (P.slack st.x st.ip) })
          | .throw e => .throw e
          | .assertFail => .assertFail
          | .ub => .ub
          | .diverge => .diverge : Out (QNext n)) >>= fun q => .ok q.toF := by
  unfold Arith.moveStep
  dsimp only
  have kx : (fun k => (exactArith eps n).mulAdd t (z k) (st.toF.x k)) = st.x + t • z := by
    funext k
    simp only [exactArith, QState.toF, Pi.add_apply, Pi.smul_apply, smul_eq_mul]; ring
  have kf : (exactArith eps n).mulAdd ((exactArith eps n).mul t ((exactArith eps n).dot z np))
      ((exactArith eps n).mulAdd (exactArith eps n).half t (st.toF.u st.toF.iq)) st.toF.f =
      st.f + t * (z ⬝ᵥ np) * (1 / 2 * t + st.u st.iq) := by
    simp only [exactArith, QState.toF]; ring
  rw [kx, kf, exact_moveU, ite_bind']
  have e1 := exact_fullStep eps P d { st with x := st.x + t • z, f := st.f + t * (z ⬝ᵥ np) * (1 / 2 * t + st.u st.iq),
                                              u := moveU st.u r st.iq t }
  have e2 := exact_dropActive eps P { st with x := st.x + t • z, f := st.f + t * (z ⬝ᵥ np) * (1 / 2 * t + st.u st.iq),
                                              u := moveU st.u r st.iq t } l
  refine ite_iff' hc.symm e1 ?_
  unfold QState.toF at e2 ⊢
  dsimp only at e2 ⊢
  rw [e2]
  cases dropActive P { st with x := st.x + t • z, f := st.f + t * (z ⬝ᵥ np) * (1 / 2 * t + st.u st.iq),
                               u := moveU st.u r st.iq t } l <;> rfl

theorem exact_stepL2a (P : QP n) (st : QState n) :
    (exactArith eps n).stepL2a P.toF st.toF = stepL2a eps P st >>= fun q => .ok q.toF := by
  classical
  unfold Arith.stepL2a stepL2a
  dsimp only
  rw [ite_bind', exact_partialLen, exact_updateZ]
  refine ite_iff' Iff.rfl ?_ rfl
  have e0 : ((exactArith eps n).row P.toF st.toF.ip) = P.row st.ip := rfl
  have e1 : (exactArith eps n).gemvT = computeD := rfl
  have e2 : (exactArith eps n).triSolve = updateR := rfl
  rw [e0, e1, e2]
  change _ = (@ite _ _ _ _ _ : Out (QNext n)) >>= _
  generalize hp : partialLen (updateR st.R (computeD st.J (P.row st.ip).1) st.iq) st.u st.A
    (List.range' P.CE.length (st.iq - P.CE.length)) (none, 0) = p
  have hp' : partialLen (updateR st.toF.R (computeD st.toF.J (P.row st.ip).1) st.toF.iq) st.toF.u st.toF.A
    (List.range' P.toF.CE.length (st.toF.iq - P.toF.CE.length)) (none, 0) = p := hp
  rw [hp', ite_bind']
  by_cases hz : |updateZ st.J (computeD st.J (P.row st.ip).1) st.iq ⬝ᵥ updateZ st.J (computeD st.J (P.row st.ip).1) st.iq| > eps
  · rw [if_pos hz, if_pos (show (exactArith eps n).far (updateZ st.toF.J (computeD st.toF.J (P.row st.ip).1) st.toF.iq) from hz)]
    rcases p with ⟨_ | t1, l⟩
    · rw [if_pos (show (exactArith eps n).lenLt (some _) none from trivial)]
      dsimp only [chooseLen]
      rw [if_neg (show ¬ (exactArith eps n).geInf _ from id), if_neg (show ¬ (exactArith eps n).geInf _ from id)]
      exact exact_moveStep eps P _ _ _ _ _ _ _ st (by simp)
    · dsimp only
      generalize hT : -st.s st.ip / (updateZ st.J (computeD st.J (P.row st.ip).1) st.iq ⬝ᵥ (P.row st.ip).1) = T2
      have hT' : (exactArith eps n).div ((exactArith eps n).neg (st.toF.s st.toF.ip))
        ((exactArith eps n).dot (updateZ st.toF.J (computeD st.toF.J (P.row st.ip).1) st.toF.iq) (P.row st.ip).1) = T2 := hT
      rw [hT']
      by_cases hlt : T2 < t1
      · rw [if_pos (show (exactArith eps n).lenLt (some T2) (some t1) from hlt)]
        dsimp only
        rw [if_neg (show ¬ (exactArith eps n).geInf _ from id), if_neg (show ¬ (exactArith eps n).geInf _ from id)]
        have h1 : (chooseLen (some t1) T2).1 = T2 := min_eq_right hlt.le
        have h2 : (chooseLen (some t1) T2).2 ↔ (chooseLen (some t1) T2).1 = T2 := Iff.rfl
        generalize chooseLen (some t1) T2 = c at h1 h2 ⊢
        obtain ⟨c1, c2⟩ := c
        dsimp only at h1
        subst h1
        exact exact_moveStep eps P _ _ _ _ _ _ _ st h2
      · rw [if_neg (show ¬ (exactArith eps n).lenLt (some T2) (some t1) from hlt)]
        dsimp only
        rw [if_neg (show ¬ (exactArith eps n).geInf _ from id), if_neg (show ¬ (exactArith eps n).geInf _ from id)]
        have h1 : (chooseLen (some t1) T2).1 = t1 := min_eq_left (not_lt.mp hlt)
        have h2 : (chooseLen (some t1) T2).2 ↔ (chooseLen (some t1) T2).1 = T2 := Iff.rfl
        generalize chooseLen (some t1) T2 = c at h1 h2 ⊢
        obtain ⟨c1, c2⟩ := c
        dsimp only at h1
        subst h1
        exact exact_moveStep eps P _ _ _ _ _ _ _ st h2
  · rw [if_neg hz, if_neg (show ¬ (exactArith eps n).far (updateZ st.toF.J (computeD st.toF.J (P.row st.ip).1) st.toF.iq) from hz),
      if_neg (show ¬ (exactArith eps n).lenLt none _ from id)]
    rcases p with ⟨_ | t1, l⟩
    · rfl
    · dsimp only
      rw [if_neg (show ¬ (exactArith eps n).geInf _ from id)]
      exact exact_dualStep eps P _ _ _ st

theorem exact_step (maxIter : ℕ) (P : QP n) (J0 : ℕ → VecN n) (q : QNext n) :
    (exactArith eps n).step maxIter P.toF J0 q.toF = qpStep eps maxIter P J0 q >>= fun q => .ok q.toF := by
  cases q with
  | ret r s => rfl
  | eq i s => exact exact_stepEq eps P i s
  | l1 s => exact exact_stepL1 eps maxIter P J0 s
  | l2 s => exact exact_stepL2 eps P s
  | l2a s => exact exact_stepL2a eps P s

theorem exact_run (maxIter : ℕ) (P : QP n) (J0 : ℕ → VecN n) : ∀ (k : ℕ) (q : QNext n),
    (exactArith eps n).run maxIter P.toF J0 k q.toF = qpRun eps maxIter P J0 k q >>= fun r => .ok (r.1, r.2.toF)
  | 0, q => by cases q <;> rfl
  | k + 1, q => by
    by_cases h : ∃ r s, q = .ret r s
    · obtain ⟨r, s, rfl⟩ := h; rfl
    · have e1 : (exactArith eps n).run maxIter P.toF J0 (k + 1) q.toF =
          (exactArith eps n).step maxIter P.toF J0 q.toF >>= (exactArith eps n).run maxIter P.toF J0 k := by
        cases q with
        | ret r s => exact absurd ⟨r, s, rfl⟩ h
        | _ => rfl
      have e2 : qpRun eps maxIter P J0 (k + 1) q = qpStep eps maxIter P J0 q >>= qpRun eps maxIter P J0 k := by
        cases q with
        | ret r s => exact absurd ⟨r, s, rfl⟩ h
        | _ => rfl
      rw [e1, e2, exact_step]
      cases qpStep eps maxIter P J0 q with
      | ok q' => exact exact_run maxIter P J0 k q'
      | throw e => rfl
      | assertFail => rfl
      | ub => rfl
      | diverge => rfl

/-- With exact operations the solver is that of `Verif.Model.Quadprog`. -/
theorem solveQuadprogF_exact (maxIter : ℕ) (P : QP n) (J0 : ℕ → VecN n) (w : Work n) (fuel : ℕ) :
    (exactArith eps n).solve maxIter P.toF J0 (-∑ j ∈ Finset.range n, (J0 j ⬝ᵥ P.g) • J0 j) w.toF fuel =
      solveQuadprog eps maxIter P J0 w fuel >>= fun r => .ok (r.1, r.2.toF) :=
  exact_run eps maxIter P J0 fuel (.eq 0 (qpInit P J0 w))

end Verif
