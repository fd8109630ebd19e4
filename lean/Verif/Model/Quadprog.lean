import Verif.Model.Basic
import Mathlib.Data.Matrix.Mul
import Mathlib.Analysis.Real.Sqrt

/-!
# The QP solver

Model of src/eiquadprog-fast.cpp:24-647 (`EiquadprogFast::solve_quadprog`) and of the inline members of
include/hpp/bezier-com-traj/solver/eiquadprog-fast.hpp.

* The number of variables `n` is a parameter; vectors of that size are `Fin n → ℝ`, the columns of `m_J`
  are `J 0 … J (n-1)`. Work arrays are functions on `ℕ`; an access outside the allocated size is
  `Out.ub`. The contents of the arrays before the call are arbitrary (`Work`): `reset` does not
  initialise them and is skipped when the sizes do not change.
* `std::numeric_limits<double>::epsilon()` is the parameter `eps`; arithmetic is exact.
* The Cholesky factorisation of Eigen is not modelled: its result `m_J` is the parameter `J0`. The case
  `is_inverse_provided_` and the sparse variant are in `Verif.Model.QuadprogMore`.
* The members `d`, `z`, `r`, `np` are recomputed before every use, so they are local values here.
* The loop over the equalities and the `goto` labels `l1`, `l2`, `l2a` are the states of a small machine,
  run with fuel.
-/

namespace Verif
open Matrix

/-- A vector of `n` variables. -/
abbrev VecN (n : ℕ) := Fin n → ℝ

/-- The data of a problem: Hessian, linear term, rows of `CE` with `ce0`, rows of `CI` with `ci0`. -/
structure QP (n : ℕ) where
  G : Matrix (Fin n) (Fin n) ℝ
  g : VecN n
  CE : List (VecN n × ℝ)
  CI : List (VecN n × ℝ)

/-- `EiquadprogFast_status`, eiquadprog-fast.hpp:69-75. -/
inductive QPStatus where
  | optimal
  | infeasible
  | unbounded
  | maxIterReached
  | redundantEqualities
  deriving DecidableEq

/-- `distance`, eiquadprog-fast.cpp:24-38. -/
noncomputable def hypotDist (a b : ℝ) : ℝ :=
  if |a| > |b| then |a| * Real.sqrt (1 + |b| / |a| * (|b| / |a|))
  else if |b| > |a| then |b| * Real.sqrt (1 + |a| / |b| * (|a| / |b|))
  else |a| * Real.sqrt 2

/-- The rotation coefficients `cc`, `ss` and the new leading entry, eiquadprog-fast.cpp:102-114 and
191-203. -/
noncomputable def givensCS (c s : ℝ) : ℝ × ℝ × ℝ :=
  let h := hypotDist c s
  if c / h < 0 then (-(c / h), -(s / h), -h) else (c / h, s / h, h)

/-- First column after the rotation, eiquadprog-fast.cpp:130. -/
noncomputable def rotFst {n : ℕ} (cc ss : ℝ) (t1 t2 : VecN n) : VecN n := cc • t1 + ss • t2
/-- Second column after the rotation, eiquadprog-fast.cpp:115, 131. -/
noncomputable def rotSnd {n : ℕ} (cc ss : ℝ) (t1 t2 : VecN n) : VecN n :=
  (ss / (1 + cc)) • (t1 + rotFst cc ss t1 t2) - t2

/-- One pass of the loop of `add_constraint`, eiquadprog-fast.cpp:94-134: rotates columns `j`, `j+1`
(`j-1`, `j` in the code) so that entry `j+1` of `d` becomes zero. -/
noncomputable def addGivens {n : ℕ} (q : (ℕ → VecN n) × (ℕ → ℝ)) (j : ℕ) : (ℕ → VecN n) × (ℕ → ℝ) :=
  let J := q.1
  let d := q.2
  if hypotDist (d j) (d (j + 1)) = 0 then q
  else
    let g := givensCS (d j) (d (j + 1))
    (Function.update (Function.update J j (rotFst g.1 g.2.1 (J j) (J (j + 1)))) (j + 1)
        (rotSnd g.1 g.2.1 (J j) (J (j + 1))),
     Function.update (Function.update d (j + 1) 0) j g.2.2)

/-- The loop of `add_constraint`: columns `iq + k - 1, …, iq`. -/
noncomputable def addLoop {n : ℕ} (iq : ℕ) : ℕ → (ℕ → VecN n) × (ℕ → ℝ) → (ℕ → VecN n) × (ℕ → ℝ)
  | 0, q => q
  | k + 1, q => addLoop iq k (addGivens q (iq + k))

/-- Result of `add_constraint`: the returned value and the modified arguments; `last` is `d(iq-1)`. -/
structure AddRes (n : ℕ) where
  ok : Prop
  J : ℕ → VecN n
  R : ℕ → ℕ → ℝ
  Rnorm : ℝ
  last : ℝ

/-- `add_constraint`, eiquadprog-fast.cpp:77-150. `iq` is incremented by the caller. Column `iq` of `R`
must exist. -/
noncomputable def addConstraint {n : ℕ} (eps : ℝ) (J : ℕ → VecN n) (R : ℕ → ℕ → ℝ) (d : ℕ → ℝ) (iq : ℕ)
    (Rnorm : ℝ) : Out (AddRes n) :=
  let q := addLoop iq (n - 1 - iq) (J, d)
  if iq < n then
    .ok { ok := ¬ |q.2 iq| ≤ eps * Rnorm, J := q.1,
          R := fun i k => if k = iq ∧ i ≤ iq then q.2 i else R i k,
          Rnorm := open Classical in if |q.2 iq| ≤ eps * Rnorm then Rnorm else max Rnorm |q.2 iq|,
          last := q.2 iq }
  else .ub

/-- One pass of the rotation loop of `delete_constraint`, eiquadprog-fast.cpp:190-218. -/
noncomputable def delGivens {n : ℕ} (iq : ℕ) (q : (ℕ → VecN n) × (ℕ → ℕ → ℝ)) (j : ℕ) :
    (ℕ → VecN n) × (ℕ → ℕ → ℝ) :=
  let J := q.1
  let R := q.2
  if hypotDist (R j j) (R (j + 1) j) = 0 then q
  else
    let g := givensCS (R j j) (R (j + 1) j)
    let top := fun k => R j k * g.1 + R (j + 1) k * g.2.1
    (Function.update (Function.update J j (rotFst g.1 g.2.1 (J j) (J (j + 1)))) (j + 1)
        (rotSnd g.1 g.2.1 (J j) (J (j + 1))),
     fun i k =>
      if k = j then (if i = j then g.2.2 else if i = j + 1 then 0 else R i k)
      else if j < k ∧ k < iq then
        (if i = j then top k
         else if i = j + 1 then g.2.1 / (1 + g.1) * (R j k + top k) - R (j + 1) k
         else R i k)
      else R i k)

/-- The rotation loop: `j = qq, …, qq + k - 1`. -/
noncomputable def delLoop {n : ℕ} (iq : ℕ) : ℕ → ℕ → (ℕ → VecN n) × (ℕ → ℕ → ℝ) → (ℕ → VecN n) × (ℕ → ℕ → ℝ)
  | _, 0, q => q
  | j, k + 1, q => delLoop iq (j + 1) k (delGivens iq q j)

/-- Result of `delete_constraint`. -/
structure DelRes (n : ℕ) where
  J : ℕ → VecN n
  R : ℕ → ℕ → ℝ
  A : ℕ → ℤ
  u : ℕ → ℝ

/-- Position of constraint `l` in the active set, zero if there is none, eiquadprog-fast.cpp:160-168. -/
def findActive (A : ℕ → ℤ) (nE iq : ℕ) (l : ℤ) : ℕ :=
  ((List.range' nE (iq - nE)).find? fun i => A i == l).getD 0

/-- `delete_constraint`, eiquadprog-fast.cpp:152-219; `m` is the size of `A` and `u`. `iq` is decremented
by the caller. -/
noncomputable def deleteConstraint {n : ℕ} (m nE : ℕ) (J : ℕ → VecN n) (R : ℕ → ℕ → ℝ) (A : ℕ → ℤ)
    (u : ℕ → ℝ) (iq : ℕ) (l : ℤ) : Out (DelRes n) :=
  if 1 ≤ iq ∧ iq < m ∧ iq ≤ n then
    let qq := findActive A nE iq l
    let R1 : ℕ → ℕ → ℝ := fun i k =>
      if k = iq - 1 ∧ i < iq then 0 else if qq ≤ k ∧ k < iq - 1 then R i (k + 1) else R i k
    let q := delLoop (iq - 1) qq (iq - 1 - qq) (J, R1)
    .ok { J := q.1, R := q.2,
          A := fun i => if qq ≤ i ∧ i < iq then A (i + 1) else if i = iq then 0 else A i,
          u := fun i => if qq ≤ i ∧ i < iq then u (i + 1) else if i = iq then 0 else u i }
  else .ub

/-- `compute_d`, eiquadprog-fast.hpp:224-230. -/
def computeD {n : ℕ} (J : ℕ → VecN n) (np : VecN n) (j : ℕ) : ℝ := J j ⬝ᵥ np

/-- `update_z`, eiquadprog-fast.hpp:232-239 (zero when `iq` is `n`, cf. eiquadprog-fast.cpp:507-512). -/
noncomputable def updateZ {n : ℕ} (J : ℕ → VecN n) (d : ℕ → ℝ) (iq : ℕ) : VecN n :=
  ∑ j ∈ Finset.Ico iq n, d j • J j

/-- Back substitution with the upper triangle of `R`: entries `k-1, …, 0` of the solution, given the
entries from `k` on. -/
noncomputable def backSub (R : ℕ → ℕ → ℝ) (d : ℕ → ℝ) (iq : ℕ) : ℕ → (ℕ → ℝ) → ℕ → ℝ
  | 0, r => r
  | k + 1, r =>
    backSub R d iq k (Function.update r k ((d k - ∑ j ∈ Finset.Ico (k + 1) iq, R k j * r j) / R k k))

/-- `update_r`, eiquadprog-fast.hpp:241-246 (contract of Eigen's triangular solver). Entries from `iq` on
are not used. -/
noncomputable def updateR (R : ℕ → ℕ → ℝ) (d : ℕ → ℝ) (iq : ℕ) : ℕ → ℝ := backSub R d iq iq fun _ => 0

/-- The state of `solve_quadprog`. -/
structure QState (n : ℕ) where
  J : ℕ → VecN n
  R : ℕ → ℕ → ℝ
  Rnorm : ℝ
  x : VecN n
  f : ℝ
  u : ℕ → ℝ
  A : ℕ → ℤ
  iq : ℕ
  iai : ℕ → ℤ
  iaexcl : ℕ → Bool
  s : ℕ → ℝ
  ss : ℝ
  ip : ℕ
  uOld : ℕ → ℝ
  AOld : ℕ → ℤ
  xOld : VecN n
  iter : ℕ

/-- Contents of the work arrays when the function is called. -/
structure Work (n : ℕ) where
  u : ℕ → ℝ
  A : ℕ → ℤ
  iai : ℕ → ℤ
  iaexcl : ℕ → Bool
  s : ℕ → ℝ
  uOld : ℕ → ℝ
  AOld : ℕ → ℤ
  xOld : VecN n

/-- What a step does next. -/
inductive QNext (n : ℕ) where
  | ret (st : QPStatus) (s : QState n)
  | eq (i : ℕ) (s : QState n)
  | l1 (s : QState n)
  | l2 (s : QState n)
  | l2a (s : QState n)

/-- A step length: `none` is `+inf`. -/
abbrev Len := Option ℝ

/-- Before the equality loop, eiquadprog-fast.cpp:260-329. `x = -Hess^-1 g0` with
`Hess^-1 = J J'`. -/
noncomputable def qpInit {n : ℕ} (P : QP n) (J0 : ℕ → VecN n) (w : Work n) : QState n :=
  let x := -∑ j ∈ Finset.range n, (J0 j ⬝ᵥ P.g) • J0 j
  { J := J0, R := fun _ _ => 0, Rnorm := 1, x := x, f := 1 / 2 * (P.g ⬝ᵥ x), u := w.u, A := w.A, iq := 0,
    iai := w.iai, iaexcl := w.iaexcl, s := w.s, ss := 0, ip := 0, uOld := w.uOld, AOld := w.AOld,
    xOld := w.xOld, iter := 0 }

/-- Step length for an equality, eiquadprog-fast.cpp:346-349. -/
noncomputable def eqLen {n : ℕ} (eps : ℝ) (z np x : VecN n) (c : ℝ) : ℝ :=
  open Classical in if |z ⬝ᵥ z| > eps then (-(np ⬝ᵥ x) - c) / (z ⬝ᵥ np) else 0

/-- One pass of the loop over the equalities, eiquadprog-fast.cpp:330-368, and line 372 after the last.
`A` and `u` have size `nEqCon + nIneqCon`. -/
noncomputable def stepEq {n : ℕ} (eps : ℝ) (P : QP n) (i : ℕ) (st : QState n) : Out (QNext n) :=
  let m := P.CE.length + P.CI.length
  if i < P.CE.length then
    if st.iq < m ∧ st.iq ≤ n then
      let e := P.CE.getD i (0, 0)
      let np := e.1
      let d := computeD st.J np
      let z := updateZ st.J d st.iq
      let r := updateR st.R d st.iq
      let t2 := eqLen eps z np st.x e.2
      match addConstraint eps st.J st.R d st.iq st.Rnorm with
      | .ok a =>
        let st' : QState n :=
          { st with
            J := a.J, R := a.R, Rnorm := a.Rnorm,
            x := st.x + t2 • z,
            u := fun k => if k = st.iq then t2 else if k < st.iq then st.u k - t2 * r k else st.u k,
            f := st.f + 1 / 2 * (t2 * t2) * (z ⬝ᵥ np),
            A := Function.update st.A i (-(i : ℤ) - 1),
            iq := st.iq + 1 }
        open Classical in
        if a.ok then .ok (.eq (i + 1) st') else .ok (.ret .redundantEqualities st')
      | .throw e => .throw e
      | .assertFail => .assertFail
      | .ub => .ub
      | .diverge => .diverge
    else .ub
  else .ok (.l1 { st with iai := fun i => (i : ℤ) })

/-- `CI.row(i)` and `ci0(i)`. -/
def QP.row {n : ℕ} (P : QP n) (i : ℕ) : VecN n × ℝ := P.CI.getD i (0, 0)

/-- `CI.row(i).dot(x) + ci0(i)`. -/
def QP.slack {n : ℕ} (P : QP n) (x : VecN n) (i : ℕ) : ℝ := (P.row i).1 ⬝ᵥ x + (P.row i).2

/-- All active inequalities have valid indices. -/
def activeValid (A : ℕ → ℤ) (lo hi nI : ℕ) : Prop := ∀ i, lo ≤ i → i < hi → 0 ≤ A i ∧ A i < nI

/-- Marks the active inequalities, eiquadprog-fast.cpp:426-429. -/
noncomputable def markActive (A : ℕ → ℤ) (lo hi : ℕ) (iai : ℕ → ℤ) : ℕ → ℤ :=
  open Classical in fun j => if ∃ i, lo ≤ i ∧ i < hi ∧ A i = j then -1 else iai j

/-- The tolerance on the sum of violations, eiquadprog-fast.cpp:456-457: `c1` is the trace of the Hessian,
`c2` the trace of the initial `m_J`. -/
noncomputable def qpTol {n : ℕ} (eps : ℝ) (P : QP n) (J0 : ℕ → VecN n) : ℝ :=
  P.CI.length * eps * (∑ i : Fin n, P.G i i) * (∑ i : Fin n, J0 i.val i) * 100

/-- Label `l1`, eiquadprog-fast.cpp:413-468. The violation sum is over all inequalities. -/
noncomputable def stepL1 {n : ℕ} (eps : ℝ) (maxIter : ℕ) (P : QP n) (J0 : ℕ → VecN n) (st : QState n) :
    Out (QNext n) :=
  open Classical in
  let nE := P.CE.length
  let nI := P.CI.length
  let iter := st.iter + 1
  if iter ≥ maxIter then .ok (.ret .maxIterReached { st with iter := iter })
  else if st.iq ≤ nE + nI ∧ activeValid st.A nE st.iq nI then
    let s := fun i => P.slack st.x i
    let psi := ∑ i ∈ Finset.range nI, min 0 (s i)
    let st : QState n :=
      { st with iter := iter, iai := markActive st.A nE st.iq st.iai, ss := 0, ip := 0, s := s,
                iaexcl := fun _ => true }
    if |psi| ≤ qpTol eps P J0 then .ok (.ret .optimal st)
    else .ok (.l2 { st with
      uOld := fun k => if k < st.iq then st.u k else st.uOld k,
      AOld := fun k => if k < st.iq then st.A k else st.AOld k,
      xOld := st.x })
  else .ub

/-- The most violated admissible inequality, eiquadprog-fast.cpp:474-479. -/
noncomputable def chooseViolated (s : ℕ → ℝ) (iai : ℕ → ℤ) (iaexcl : ℕ → Bool) :
    List ℕ → ℝ × ℕ → ℝ × ℕ
  | [], b => b
  | i :: l, b =>
    open Classical in
    chooseViolated s iai iaexcl l (if s i < b.1 ∧ iai i ≠ -1 ∧ iaexcl i = true then (s i, i) else b)

/-- Label `l2`, eiquadprog-fast.cpp:470-491. -/
noncomputable def stepL2 {n : ℕ} (P : QP n) (st : QState n) : Out (QNext n) :=
  open Classical in
  let nI := P.CI.length
  let b := chooseViolated st.s st.iai st.iaexcl (List.range nI) (st.ss, st.ip)
  let st := { st with ss := b.1, ip := b.2 }
  if st.ss ≥ 0 then .ok (.ret .optimal st)
  else if st.ip < nI ∧ st.iq < P.CE.length + nI then
    .ok (.l2a { st with u := Function.update st.u st.iq 0, A := Function.update st.A st.iq st.ip })
  else .ub

/-- The partial step length `t1` and the constraint `l`, eiquadprog-fast.cpp:528-540. -/
noncomputable def partialLen (r u : ℕ → ℝ) (A : ℕ → ℤ) : List ℕ → Len × ℤ → Len × ℤ
  | [], b => b
  | k :: l, b =>
    open Classical in
    partialLen r u A l
      (if 0 < r k ∧ (∀ t, b.1 = some t → u k / r k < t) then (some (u k / r k), A k) else b)

/-- Update of the multipliers, eiquadprog-fast.cpp:569-570 and 588-589. -/
noncomputable def moveU (u r : ℕ → ℝ) (iq : ℕ) (t : ℝ) : ℕ → ℝ := fun k =>
  if k = iq then u k + t else if k < iq then u k - t * r k else u k

/-- `iai(l) = l` and `delete_constraint`, eiquadprog-fast.cpp:571-572 and 633-634. -/
noncomputable def dropActive {n : ℕ} (P : QP n) (st : QState n) (l : ℤ) : Out (QState n) :=
  if 0 ≤ l ∧ l < P.CI.length then
    match deleteConstraint (P.CE.length + P.CI.length) P.CE.length st.J st.R st.A st.u st.iq l with
    | .ok a => .ok { st with J := a.J, R := a.R, A := a.A, u := a.u, iq := st.iq - 1,
                             iai := Function.update st.iai l.toNat l }
    | .throw e => .throw e
    | .assertFail => .assertFail
    | .ub => .ub
    | .diverge => .diverge
  else .ub

/-- After a full step: `add_constraint` and what follows, eiquadprog-fast.cpp:604-629. -/
noncomputable def fullStep {n : ℕ} (eps : ℝ) (P : QP n) (d : ℕ → ℝ) (st : QState n) : Out (QNext n) :=
  let nE := P.CE.length
  let nI := P.CI.length
  match addConstraint eps st.J st.R d st.iq st.Rnorm with
  | .ok a =>
    let st := { st with J := a.J, R := a.R, Rnorm := a.Rnorm, iq := st.iq + 1 }
    open Classical in
    if a.ok then .ok (.l1 { st with iai := Function.update st.iai st.ip (-1) })
    else
      match deleteConstraint (nE + nI) nE st.J st.R st.A st.u st.iq st.ip with
      | .ok b =>
        let iq := st.iq - 1
        open Classical in
        if activeValid st.AOld 0 iq nI then
          .ok (.l2 { st with
            J := b.J, R := b.R, iq := iq, iaexcl := Function.update st.iaexcl st.ip false,
            A := fun i => if i < iq then st.AOld i else b.A i,
            u := fun i => if i < iq then st.uOld i else b.u i,
            iai := markActive st.AOld 0 iq fun i => (i : ℤ),
            x := st.xOld })
        else .ub
      | .throw e => .throw e
      | .assertFail => .assertFail
      | .ub => .ub
      | .diverge => .diverge
  | .throw e => .throw e
  | .assertFail => .assertFail
  | .ub => .ub
  | .diverge => .diverge

/-- `t = min(t1, t2)` and whether it is `t2` (`t == t2`), for finite `t2`. -/
noncomputable def chooseLen (t1 : Len) (t2 : ℝ) : ℝ × Prop :=
  match t1 with
  | none => (t2, True)
  | some t1 => (min t1 t2, min t1 t2 = t2)

/-- Label `l2a`, eiquadprog-fast.cpp:501-646. -/
noncomputable def stepL2a {n : ℕ} (eps : ℝ) (P : QP n) (st : QState n) : Out (QNext n) :=
  open Classical in
  let nE := P.CE.length
  let nI := P.CI.length
  if st.iq ≤ n ∧ st.iq < nE + nI ∧ st.ip < nI then
    let np := (P.row st.ip).1
    let d := computeD st.J np
    let z := updateZ st.J d st.iq
    let r := updateR st.R d st.iq
    let p := partialLen r st.u st.A (List.range' nE (st.iq - nE)) (none, 0)
    if |z ⬝ᵥ z| > eps then
      let t2 := -st.s st.ip / (z ⬝ᵥ np)
      let c := chooseLen p.1 t2
      let t := c.1
      let st : QState n :=
        { st with x := st.x + t • z, f := st.f + t * (z ⬝ᵥ np) * (1 / 2 * t + st.u st.iq),
                  u := moveU st.u r st.iq t }
      if c.2 then fullStep eps P d st
      else
        match dropActive P st p.2 with
        | .ok st => .ok (.l2a { st with s := Function.update st.s st.ip (P.slack st.x st.ip) })
        | .throw e => .throw e
        | .assertFail => .assertFail
        | .ub => .ub
        | .diverge => .diverge
    else
      match p.1 with
      | none => .ok (.ret .unbounded st)
      | some t =>
        match dropActive P { st with u := moveU st.u r st.iq t } p.2 with
        | .ok st => .ok (.l2a st)
        | .throw e => .throw e
        | .assertFail => .assertFail
        | .ub => .ub
        | .diverge => .diverge
  else .ub

/-- One step of the machine. -/
noncomputable def qpStep {n : ℕ} (eps : ℝ) (maxIter : ℕ) (P : QP n) (J0 : ℕ → VecN n) :
    QNext n → Out (QNext n)
  | .ret r s => .ok (.ret r s)
  | .eq i s => stepEq eps P i s
  | .l1 s => stepL1 eps maxIter P J0 s
  | .l2 s => stepL2 P s
  | .l2a s => stepL2a eps P s

/-- The machine with fuel. -/
noncomputable def qpRun {n : ℕ} (eps : ℝ) (maxIter : ℕ) (P : QP n) (J0 : ℕ → VecN n) :
    ℕ → QNext n → Out (QPStatus × QState n)
  | _, .ret r s => .ok (r, s)
  | 0, _ => .diverge
  | k + 1, q => qpStep eps maxIter P J0 q >>= qpRun eps maxIter P J0 k

/-- `solve_quadprog`, eiquadprog-fast.cpp:230-647: the status and the final state (`x` is the solution,
`f` what `getObjValue` returns, `u`, `A` and `iq` the multipliers and the active set). The size assertions
hold by construction (see `Verif.Model.Solver`). -/
noncomputable def solveQuadprog {n : ℕ} (eps : ℝ) (maxIter : ℕ) (P : QP n) (J0 : ℕ → VecN n) (w : Work n)
    (fuel : ℕ) : Out (QPStatus × QState n) :=
  qpRun eps maxIter P J0 fuel (.eq 0 (qpInit P J0 w))

end Verif
