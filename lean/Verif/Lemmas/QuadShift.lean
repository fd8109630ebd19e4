import Verif.Model.QuadprogMore

/-!
# The machine of the QP solver only uses the constraints and the start

The Hessian and the linear term are used by `qpInit` and in the tolerance; the value `f` is only accumulated.
-/

namespace Verif
open Matrix

variable {n : ℕ}

/-- The state with `δ` added to the objective. -/
abbrev QState.sh (δ : ℝ) (s : QState n) : QState n := { s with f := s.f + δ }

/-- The same for a machine state. -/
def QNext.sh (δ : ℝ) : QNext n → QNext n
  | .ret r s => .ret r (s.sh δ)
  | .eq i s => .eq i (s.sh δ)
  | .l1 s => .l1 (s.sh δ)
  | .l2 s => .l2 (s.sh δ)
  | .l2a s => .l2a (s.sh δ)

/-- Applies a function to the value of an outcome. -/
def Out.mapOk {α β : Type} (f : α → β) : Out α → Out β
  | .ok a => .ok (f a)
  | .throw e => .throw e
  | .assertFail => .assertFail
  | .ub => .ub
  | .diverge => .diverge

theorem stepEq_sh {eps : ℝ} {P P' : QP n} (hE : P'.CE = P.CE) (hI : P'.CI = P.CI) (δ : ℝ) (i : ℕ) (s : QState n) :
    stepEq eps P' i (s.sh δ) = (stepEq eps P i s).mapOk (QNext.sh δ) := by
  unfold stepEq
  rw [hE, hI]
  dsimp only [QState.sh]
  by_cases h1 : i < P.CE.length
  · simp only [if_pos h1]
    by_cases h2 : s.iq < P.CE.length + P.CI.length ∧ s.iq ≤ n
    · simp only [if_pos h2]
      cases addConstraint eps s.J s.R (computeD s.J (P.CE.getD i (0, 0)).1) s.iq s.Rnorm with
      | ok a =>
        dsimp only
        by_cases h3 : a.ok
        · simp only [if_pos h3, Out.mapOk, QNext.sh, QState.sh]
          congr 3
          ring
        · simp only [if_neg h3, Out.mapOk, QNext.sh, QState.sh]
          congr 3
          ring
      | _ => rfl
    · simp only [if_neg h2]; rfl
  · simp only [if_neg h1]; rfl

theorem stepL1_sh {eps : ℝ} {maxIter : ℕ} {P P' : QP n} {J0 : ℕ → VecN n} (hE : P'.CE = P.CE) (hI : P'.CI = P.CI)
    (ht : qpTol eps P' J0 = qpTol eps P J0) (δ : ℝ) (s : QState n) :
    stepL1 eps maxIter P' J0 (s.sh δ) = (stepL1 eps maxIter P J0 s).mapOk (QNext.sh δ) := by
  unfold stepL1 QP.slack QP.row
  rw [hE, hI, ht]
  dsimp only [QState.sh]
  split_ifs <;> rfl

theorem stepL2_sh {P P' : QP n} (hE : P'.CE = P.CE) (hI : P'.CI = P.CI) (δ : ℝ) (s : QState n) :
    stepL2 P' (s.sh δ) = (stepL2 P s).mapOk (QNext.sh δ) := by
  unfold stepL2
  rw [hE, hI]
  dsimp only [QState.sh]
  split_ifs <;> rfl

theorem dropActive_sh {P P' : QP n} (hE : P'.CE = P.CE) (hI : P'.CI = P.CI) (δ : ℝ) (s : QState n) (l : ℤ) :
    dropActive P' (s.sh δ) l = (dropActive P s l).mapOk (QState.sh δ) := by
  unfold dropActive
  rw [hE, hI]
  dsimp only [QState.sh]
  split_ifs
  · cases deleteConstraint (P.CE.length + P.CI.length) P.CE.length s.J s.R s.A s.u s.iq l <;> rfl
  · rfl

theorem fullStep_sh {eps : ℝ} {P P' : QP n} (hE : P'.CE = P.CE) (hI : P'.CI = P.CI) (δ : ℝ) (d : ℕ → ℝ) (s : QState n) :
    fullStep eps P' d (s.sh δ) = (fullStep eps P d s).mapOk (QNext.sh δ) := by
  unfold fullStep
  rw [hE, hI]
  dsimp only [QState.sh]
  cases addConstraint eps s.J s.R d s.iq s.Rnorm with
  | ok a =>
    dsimp only
    by_cases h1 : a.ok
    · simp only [if_pos h1]; rfl
    · simp only [if_neg h1]
      cases deleteConstraint (P.CE.length + P.CI.length) P.CE.length a.J a.R s.A s.u (s.iq + 1) s.ip with
      | ok b =>
        dsimp only
        by_cases h2 : activeValid s.AOld 0 (s.iq + 1 - 1) P.CI.length
        · simp only [if_pos h2]; rfl
        · simp only [if_neg h2]; rfl
      | _ => rfl
  | _ => rfl

theorem stepL2a_sh {eps : ℝ} {P P' : QP n} (hE : P'.CE = P.CE) (hI : P'.CI = P.CI) (δ : ℝ) (s : QState n) :
    stepL2a eps P' (s.sh δ) = (stepL2a eps P s).mapOk (QNext.sh δ) := by
  have hrow : P'.row = P.row := by unfold QP.row; rw [hI]
  have hsl : P'.slack = P.slack := by unfold QP.slack; rw [hrow]
  unfold stepL2a
  rw [hE, hI, hrow, hsl]
  dsimp only [QState.sh]
  by_cases h1 : s.iq ≤ n ∧ s.iq < P.CE.length + P.CI.length ∧ s.ip < P.CI.length
  · simp only [if_pos h1]
    set d := computeD s.J (P.row s.ip).1 with hd
    set z := updateZ s.J d s.iq with hz
    set r := updateR s.R d s.iq with hr
    set p := partialLen r s.u s.A (List.range' P.CE.length (s.iq - P.CE.length)) (none, 0) with hp
    by_cases h2 : |z ⬝ᵥ z| > eps
    · simp only [if_pos h2]
      set c := chooseLen p.1 (-s.s s.ip / (z ⬝ᵥ (P.row s.ip).1)) with hc
      have e : s.f + δ + c.1 * (z ⬝ᵥ (P.row s.ip).1) * (1 / 2 * c.1 + s.u s.iq)
          = s.f + c.1 * (z ⬝ᵥ (P.row s.ip).1) * (1 / 2 * c.1 + s.u s.iq) + δ := by ring
      rw [e]
      by_cases h3 : c.2
      · simp only [if_pos h3]
        exact fullStep_sh hE hI δ d { s with x := s.x + c.1 • z, f := s.f + c.1 * (z ⬝ᵥ (P.row s.ip).1) * (1 / 2 * c.1 + s.u s.iq), u := moveU s.u r s.iq c.1 }
      · simp only [if_neg h3]
        have := dropActive_sh hE hI δ { s with x := s.x + c.1 • z, f := s.f + c.1 * (z ⬝ᵥ (P.row s.ip).1) * (1 / 2 * c.1 + s.u s.iq), u := moveU s.u r s.iq c.1 } p.2
        dsimp only [QState.sh] at this
        rw [this]
        cases dropActive P { s with x := s.x + c.1 • z, f := s.f + c.1 * (z ⬝ᵥ (P.row s.ip).1) * (1 / 2 * c.1 + s.u s.iq), u := moveU s.u r s.iq c.1 } p.2 <;> rfl
    · simp only [if_neg h2]
      cases p.1 with
      | none => rfl
      | some t =>
        dsimp only
        have := dropActive_sh hE hI δ { s with u := moveU s.u r s.iq t } p.2
        dsimp only [QState.sh] at this
        rw [this]
        cases dropActive P { s with u := moveU s.u r s.iq t } p.2 <;> rfl
  · simp only [if_neg h1]; rfl

theorem qpStep_sh {eps : ℝ} {maxIter : ℕ} {P P' : QP n} {J0 : ℕ → VecN n} (hE : P'.CE = P.CE) (hI : P'.CI = P.CI)
    (ht : qpTol eps P' J0 = qpTol eps P J0) (δ : ℝ) (q : QNext n) :
    qpStep eps maxIter P' J0 (q.sh δ) = (qpStep eps maxIter P J0 q).mapOk (QNext.sh δ) := by
  cases q with
  | ret r s => rfl
  | eq i s => exact stepEq_sh hE hI δ i s
  | l1 s => exact stepL1_sh hE hI ht δ s
  | l2 s => exact stepL2_sh hE hI δ s
  | l2a s => exact stepL2a_sh hE hI δ s

/-- Two problems with the same constraints and the same tolerance, started at the same point: the runs differ by the
initial value of the objective only. -/
theorem qpRun_sh {eps : ℝ} {maxIter : ℕ} {P P' : QP n} {J0 : ℕ → VecN n} (hE : P'.CE = P.CE) (hI : P'.CI = P.CI)
    (ht : qpTol eps P' J0 = qpTol eps P J0) (δ : ℝ) :
    ∀ (fuel : ℕ) (q : QNext n), qpRun eps maxIter P' J0 fuel (q.sh δ)
      = (qpRun eps maxIter P J0 fuel q).mapOk fun r => (r.1, r.2.sh δ)
  | 0, q => by cases q <;> rfl
  | k + 1, q => by
    cases q with
    | ret r s => rfl
    | eq i s =>
      show (qpStep eps maxIter P' J0 ((QNext.eq i s).sh δ) >>= _) = Out.mapOk _ (qpStep eps maxIter P J0 (.eq i s) >>= _)
      rw [qpStep_sh hE hI ht]
      cases qpStep eps maxIter P J0 (.eq i s) with
      | ok q' => exact qpRun_sh hE hI ht δ k q'
      | _ => rfl
    | l1 s =>
      show (qpStep eps maxIter P' J0 ((QNext.l1 s).sh δ) >>= _) = Out.mapOk _ (qpStep eps maxIter P J0 (.l1 s) >>= _)
      rw [qpStep_sh hE hI ht]
      cases qpStep eps maxIter P J0 (.l1 s) with
      | ok q' => exact qpRun_sh hE hI ht δ k q'
      | _ => rfl
    | l2 s =>
      show (qpStep eps maxIter P' J0 ((QNext.l2 s).sh δ) >>= _) = Out.mapOk _ (qpStep eps maxIter P J0 (.l2 s) >>= _)
      rw [qpStep_sh hE hI ht]
      cases qpStep eps maxIter P J0 (.l2 s) with
      | ok q' => exact qpRun_sh hE hI ht δ k q'
      | _ => rfl
    | l2a s =>
      show (qpStep eps maxIter P' J0 ((QNext.l2a s).sh δ) >>= _) = Out.mapOk _ (qpStep eps maxIter P J0 (.l2a s) >>= _)
      rw [qpStep_sh hE hI ht]
      cases qpStep eps maxIter P J0 (.l2a s) with
      | ok q' => exact qpRun_sh hE hI ht δ k q'
      | _ => rfl

end Verif
