import Verif.Lemmas.QuadShift

/-!
# The machine of the QP solver under a translation of the variable

The constraints are used through their values at the current point, so the machine commutes with a translation.
-/

namespace Verif
open Matrix

variable {n : ℕ}

/-- A constraint `r·x + c` written for the variable `x + p`. -/
def rowMove (p : VecN n) (r : VecN n × ℝ) : VecN n × ℝ := (r.1, r.2 - r.1 ⬝ᵥ p)

/-- The state with the point moved by `p` and `δ` added to the objective. -/
abbrev QState.mv (p : VecN n) (δ : ℝ) (s : QState n) : QState n :=
  { s with x := s.x + p, xOld := s.xOld + p, f := s.f + δ }

/-- The same for a machine state. -/
def QNext.mv (p : VecN n) (δ : ℝ) : QNext n → QNext n
  | .ret r s => .ret r (s.mv p δ)
  | .eq i s => .eq i (s.mv p δ)
  | .l1 s => .l1 (s.mv p δ)
  | .l2 s => .l2 (s.mv p δ)
  | .l2a s => .l2a (s.mv p δ)

theorem getD_rowMove (p : VecN n) (l : List (VecN n × ℝ)) (i : ℕ) :
    (l.map (rowMove p)).getD i (0, 0) = rowMove p (l.getD i (0, 0)) := by
  have h0 : ((0, 0) : VecN n × ℝ) = rowMove p (0, 0) := by simp [rowMove]
  rw [List.getD_eq_getElem?_getD, List.getD_eq_getElem?_getD, List.getElem?_map]
  cases l[i]? with
  | none => exact h0
  | some r => rfl

/-- The constraints of `P'` are those of `P` for the translated variable. -/
structure MovedRows (p : VecN n) (P P' : QP n) : Prop where
  CE : P'.CE = P.CE.map (rowMove p)
  CI : P'.CI = P.CI.map (rowMove p)

namespace MovedRows
variable {p : VecN n} {P P' : QP n}

theorem lenE (h : MovedRows p P P') : P'.CE.length = P.CE.length := by rw [h.CE, List.length_map]
theorem lenI (h : MovedRows p P P') : P'.CI.length = P.CI.length := by rw [h.CI, List.length_map]

theorem row (h : MovedRows p P P') (i : ℕ) : P'.row i = rowMove p (P.row i) := by
  unfold QP.row
  rw [h.CI, getD_rowMove]

theorem row1 (h : MovedRows p P P') (i : ℕ) : (P'.row i).1 = (P.row i).1 := by rw [h.row]; rfl

theorem slack (h : MovedRows p P P') (x : VecN n) (i : ℕ) : P'.slack (x + p) i = P.slack x i := by
  unfold QP.slack
  rw [h.row]
  simp only [rowMove, dotProduct_add]
  ring

end MovedRows

theorem eqLen_mv (eps : ℝ) (z np x p : VecN n) (c : ℝ) : eqLen eps z np (x + p) (c - np ⬝ᵥ p) = eqLen eps z np x c := by
  unfold eqLen
  rw [dotProduct_add]
  congr 2
  ring

variable {p : VecN n} {P P' : QP n}

theorem stepEq_mv {eps : ℝ} (h : MovedRows p P P') (δ : ℝ) (i : ℕ) (s : QState n) :
    stepEq eps P' i (s.mv p δ) = (stepEq eps P i s).mapOk (QNext.mv p δ) := by
  unfold stepEq
  rw [h.lenE, h.lenI, h.CE, getD_rowMove]
  dsimp only [QState.mv, rowMove]
  rw [eqLen_mv]
  by_cases h1 : i < P.CE.length
  · simp only [if_pos h1]
    by_cases h2 : s.iq < P.CE.length + P.CI.length ∧ s.iq ≤ n
    · simp only [if_pos h2]
      cases addConstraint eps s.J s.R (computeD s.J (P.CE.getD i (0, 0)).1) s.iq s.Rnorm with
      | ok a =>
        dsimp only
        by_cases h3 : a.ok
        · simp only [if_pos h3, Out.mapOk, QNext.mv, QState.mv]
          congr 3
          · rw [add_right_comm]
          · ring
        · simp only [if_neg h3, Out.mapOk, QNext.mv, QState.mv]
          congr 3
          · rw [add_right_comm]
          · ring
      | _ => rfl
    · simp only [if_neg h2]; rfl
  · simp only [if_neg h1]; rfl

theorem stepL1_mv {eps : ℝ} {maxIter : ℕ} {J0 : ℕ → VecN n} (h : MovedRows p P P')
    (ht : qpTol eps P' J0 = qpTol eps P J0) (δ : ℝ) (s : QState n) :
    stepL1 eps maxIter P' J0 (s.mv p δ) = (stepL1 eps maxIter P J0 s).mapOk (QNext.mv p δ) := by
  have hs : (fun i => P'.slack (s.x + p) i) = fun i => P.slack s.x i := funext fun i => h.slack s.x i
  unfold stepL1
  dsimp only [QState.mv]
  rw [h.lenE, h.lenI, ht]
  simp only [h.slack]
  split_ifs <;> rfl

theorem stepL2_mv (h : MovedRows p P P') (δ : ℝ) (s : QState n) :
    stepL2 P' (s.mv p δ) = (stepL2 P s).mapOk (QNext.mv p δ) := by
  unfold stepL2
  rw [h.lenE, h.lenI]
  dsimp only [QState.mv]
  split_ifs <;> rfl

theorem dropActive_mv (h : MovedRows p P P') (δ : ℝ) (s : QState n) (l : ℤ) :
    dropActive P' (s.mv p δ) l = (dropActive P s l).mapOk (QState.mv p δ) := by
  unfold dropActive
  rw [h.lenE, h.lenI]
  dsimp only [QState.mv]
  split_ifs
  · cases deleteConstraint (P.CE.length + P.CI.length) P.CE.length s.J s.R s.A s.u s.iq l <;> rfl
  · rfl

theorem fullStep_mv {eps : ℝ} (h : MovedRows p P P') (δ : ℝ) (d : ℕ → ℝ) (s : QState n) :
    fullStep eps P' d (s.mv p δ) = (fullStep eps P d s).mapOk (QNext.mv p δ) := by
  unfold fullStep
  rw [h.lenE, h.lenI]
  dsimp only [QState.mv]
  cases addConstraint eps s.J s.R d s.iq s.Rnorm with
  | ok a =>
    dsimp only
    by_cases h1 : a.ok
    · simp only [if_pos h1]; rfl
    · simp only [if_neg h1]
      cases deleteConstraint (P.CE.length + P.CI.length) P.CE.length a.J a.R s.A s.u (s.iq + 1) s.ip with
      | ok b =>
        dsimp only
        by_cases h2 : activeValid s.AOld 0 (s.iq + 1 - 1) P.CI.length
        · simp only [if_pos h2]; rfl
        · simp only [if_neg h2]; rfl
      | _ => rfl
  | _ => rfl

theorem stepL2a_mv {eps : ℝ} (h : MovedRows p P P') (δ : ℝ) (s : QState n) :
    stepL2a eps P' (s.mv p δ) = (stepL2a eps P s).mapOk (QNext.mv p δ) := by
  unfold stepL2a
  rw [h.lenE, h.lenI]
  dsimp only [QState.mv]
  rw [h.row1]
  by_cases h1 : s.iq ≤ n ∧ s.iq < P.CE.length + P.CI.length ∧ s.ip < P.CI.length
  · simp only [if_pos h1]
    set d := computeD s.J (P.row s.ip).1 with hd
    set z := updateZ s.J d s.iq with hz
    set r := updateR s.R d s.iq with hr
    set q := partialLen r s.u s.A (List.range' P.CE.length (s.iq - P.CE.length)) (none, 0) with hq
    by_cases h2 : |z ⬝ᵥ z| > eps
    · simp only [if_pos h2]
      set c := chooseLen q.1 (-s.s s.ip / (z ⬝ᵥ (P.row s.ip).1)) with hc
      have e : s.f + δ + c.1 * (z ⬝ᵥ (P.row s.ip).1) * (1 / 2 * c.1 + s.u s.iq)
          = s.f + c.1 * (z ⬝ᵥ (P.row s.ip).1) * (1 / 2 * c.1 + s.u s.iq) + δ := by ring
      have ex : s.x + p + c.1 • z = s.x + c.1 • z + p := add_right_comm _ _ _
      rw [e, ex]
      by_cases h3 : c.2
      · simp only [if_pos h3]
        exact fullStep_mv h δ d { s with x := s.x + c.1 • z, f := s.f + c.1 * (z ⬝ᵥ (P.row s.ip).1) * (1 / 2 * c.1 + s.u s.iq), u := moveU s.u r s.iq c.1 }
      · simp only [if_neg h3]
        have := dropActive_mv h δ { s with x := s.x + c.1 • z, f := s.f + c.1 * (z ⬝ᵥ (P.row s.ip).1) * (1 / 2 * c.1 + s.u s.iq), u := moveU s.u r s.iq c.1 } q.2
        dsimp only [QState.mv] at this
        rw [this]
        cases dropActive P { s with x := s.x + c.1 • z, f := s.f + c.1 * (z ⬝ᵥ (P.row s.ip).1) * (1 / 2 * c.1 + s.u s.iq), u := moveU s.u r s.iq c.1 } q.2 with
        | ok a =>
          dsimp only [Out.mapOk, QState.mv, QNext.mv]
          rw [h.slack]
        | _ => rfl
    · simp only [if_neg h2]
      cases q.1 with
      | none => rfl
      | some t =>
        dsimp only
        have := dropActive_mv h δ { s with u := moveU s.u r s.iq t } q.2
        dsimp only [QState.mv] at this
        rw [this]
        cases dropActive P { s with u := moveU s.u r s.iq t } q.2 <;> rfl
  · simp only [if_neg h1]; rfl

theorem qpStep_mv {eps : ℝ} {maxIter : ℕ} {J0 : ℕ → VecN n} (h : MovedRows p P P')
    (ht : qpTol eps P' J0 = qpTol eps P J0) (δ : ℝ) (q : QNext n) :
    qpStep eps maxIter P' J0 (q.mv p δ) = (qpStep eps maxIter P J0 q).mapOk (QNext.mv p δ) := by
  cases q with
  | ret r s => rfl
  | eq i s => exact stepEq_mv h δ i s
  | l1 s => exact stepL1_mv h ht δ s
  | l2 s => exact stepL2_mv h δ s
  | l2a s => exact stepL2a_mv h δ s

theorem qpRun_mv {eps : ℝ} {maxIter : ℕ} {J0 : ℕ → VecN n} (h : MovedRows p P P')
    (ht : qpTol eps P' J0 = qpTol eps P J0) (δ : ℝ) :
    ∀ (fuel : ℕ) (q : QNext n), qpRun eps maxIter P' J0 fuel (q.mv p δ)
      = (qpRun eps maxIter P J0 fuel q).mapOk fun r => (r.1, r.2.mv p δ)
  | 0, q => by cases q <;> rfl
  | k + 1, q => by
    cases q with
    | ret r s => rfl
    | eq i s =>
      show (qpStep eps maxIter P' J0 ((QNext.eq i s).mv p δ) >>= _) = Out.mapOk _ (qpStep eps maxIter P J0 (.eq i s) >>= _)
      rw [qpStep_mv h ht]
      cases qpStep eps maxIter P J0 (.eq i s) with
      | ok q' => exact qpRun_mv h ht δ k q'
      | _ => rfl
    | l1 s =>
      show (qpStep eps maxIter P' J0 ((QNext.l1 s).mv p δ) >>= _) = Out.mapOk _ (qpStep eps maxIter P J0 (.l1 s) >>= _)
      rw [qpStep_mv h ht]
      cases qpStep eps maxIter P J0 (.l1 s) with
      | ok q' => exact qpRun_mv h ht δ k q'
      | _ => rfl
    | l2 s =>
      show (qpStep eps maxIter P' J0 ((QNext.l2 s).mv p δ) >>= _) = Out.mapOk _ (qpStep eps maxIter P J0 (.l2 s) >>= _)
      rw [qpStep_mv h ht]
      cases qpStep eps maxIter P J0 (.l2 s) with
      | ok q' => exact qpRun_mv h ht δ k q'
      | _ => rfl
    | l2a s =>
      show (qpStep eps maxIter P' J0 ((QNext.l2a s).mv p δ) >>= _) = Out.mapOk _ (qpStep eps maxIter P J0 (.l2a s) >>= _)
      rw [qpStep_mv h ht]
      cases qpStep eps maxIter P J0 (.l2a s) with
      | ok q' => exact qpRun_mv h ht δ k q'
      | _ => rfl

end Verif
