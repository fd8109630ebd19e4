import Verif.Model.Quadprog

/-!
# The QP solver over an arbitrary arithmetic

The functions of `Verif.Model.Quadprog` (src/eiquadprog-fast.cpp:24-647) again, statement by statement, over a type `F` of numbers
and operations that are parameters (`Arith`). Nothing is assumed of the operations: they may round, overflow, underflow, or give
`NaN`. Expressions that a compiler may contract (`a * b + c`) and the vector operations of Eigen, whose order of evaluation is
not fixed, are operations of their own. With exact operations on real numbers (`exactArith`) the machine is that of
`Verif.Model.Quadprog` (`solveQuadprogF_exact`).

As there, the result of the factorisation is a parameter: `J0` is `m_J` after line 292, `x0` is `x` after line 311. The integer
arrays and the functions on them (`findActive`, `activeValid`, `markActive`) are shared.
-/

namespace Verif

/-- The operations of the solver on numbers of type `F`, for `n` variables. -/
structure Arith (F : Type) (n : ℕ) where
  zero : F
  one : F
  two : F
  half : F
  hundred : F
  /-- `std::numeric_limits<double>::epsilon()`. -/
  eps : F
  /-- Conversion of an integer. -/
  ofNat : ℕ → F
  neg : F → F
  abs : F → F
  sqrt : F → F
  add : F → F → F
  sub : F → F → F
  mul : F → F → F
  div : F → F → F
  /-- `a * b + c`. -/
  mulAdd : F → F → F → F
  /-- `a * b - c`. -/
  mulSub : F → F → F → F
  /-- `a - b * c`. -/
  subMul : F → F → F → F
  /-- `a * b + c * d`. -/
  lin2 : F → F → F → F → F
  /-- `a.dot(b)`. -/
  dot : (Fin n → F) → (Fin n → F) → F
  /-- Entry `j` of `J.adjoint() * np`, eiquadprog-fast.hpp:226. -/
  gemvT : (ℕ → Fin n → F) → (Fin n → F) → ℕ → F
  /-- `J.rightCols(n - iq) * d.tail(n - iq)`, eiquadprog-fast.hpp:235. -/
  gemv : (ℕ → Fin n → F) → (ℕ → F) → ℕ → Fin n → F
  /-- The triangular solver, eiquadprog-fast.hpp:243-245. -/
  triSolve : (ℕ → ℕ → F) → (ℕ → F) → ℕ → ℕ → F
  /-- `s = ci0; s.noalias() += CI * x`, eiquadprog-fast.cpp:437-438. -/
  slacks : List ((Fin n → F) × F) → (Fin n → F) → ℕ → F
  /-- `s.cwiseMin(0).sum()` over the first entries, eiquadprog-fast.cpp:440. -/
  sumNeg : (ℕ → F) → ℕ → F
  /-- The sum of a diagonal, `trace()`. -/
  trace : (Fin n → F) → F
  lt : F → F → Prop
  le : F → F → Prop
  /-- `a == b`. -/
  eq : F → F → Prop
  /-- `a < +inf`. -/
  ltInf : F → Prop
  /-- `a >= +inf`. -/
  geInf : F → Prop

variable {F : Type} {n : ℕ}

/-- The data of a problem. -/
structure FQP (F : Type) (n : ℕ) where
  G : Matrix (Fin n) (Fin n) F
  g : Fin n → F
  CE : List ((Fin n → F) × F)
  CI : List ((Fin n → F) × F)

/-- The state of `solve_quadprog`. -/
structure FState (F : Type) (n : ℕ) where
  J : ℕ → Fin n → F
  R : ℕ → ℕ → F
  Rnorm : F
  x : Fin n → F
  f : F
  u : ℕ → F
  A : ℕ → ℤ
  iq : ℕ
  iai : ℕ → ℤ
  iaexcl : ℕ → Bool
  s : ℕ → F
  ss : F
  ip : ℕ
  uOld : ℕ → F
  AOld : ℕ → ℤ
  xOld : Fin n → F
  iter : ℕ

/-- Contents of the work arrays when the function is called. -/
structure FWork (F : Type) (n : ℕ) where
  u : ℕ → F
  A : ℕ → ℤ
  iai : ℕ → ℤ
  iaexcl : ℕ → Bool
  s : ℕ → F
  uOld : ℕ → F
  AOld : ℕ → ℤ
  xOld : Fin n → F

/-- What a step does next. -/
inductive FNext (F : Type) (n : ℕ) where
  | ret (st : QPStatus) (s : FState F n)
  | eq (i : ℕ) (s : FState F n)
  | l1 (s : FState F n)
  | l2 (s : FState F n)
  | l2a (s : FState F n)

namespace Arith

variable (o : Arith F n)

/-- `distance`, eiquadprog-fast.cpp:24-38. -/
noncomputable def dist (a b : F) : F :=
  let a1 := o.abs a
  let b1 := o.abs b
  open Classical in
  if o.lt b1 a1 then
    let t := o.div b1 a1
    o.mul a1 (o.sqrt (o.mulAdd t t o.one))
  else if o.lt a1 b1 then
    let t := o.div a1 b1
    o.mul b1 (o.sqrt (o.mulAdd t t o.one))
  else o.mul a1 (o.sqrt o.two)

/-- The rotation coefficients `cc`, `ss` and the new leading entry, eiquadprog-fast.cpp:102-114 and 191-203. -/
noncomputable def givens (c s : F) : F × F × F :=
  let h := o.dist c s
  open Classical in
  if o.lt (o.div c h) o.zero then (o.neg (o.div c h), o.neg (o.div s h), o.neg h) else (o.div c h, o.div s h, h)

/-- First entry after the rotation, eiquadprog-fast.cpp:130, 208, 214. -/
def rotFst (cc ss t1 t2 : F) : F := o.lin2 t1 cc t2 ss
/-- Second entry after the rotation, eiquadprog-fast.cpp:115 and 131, 209. -/
def rotSnd (cc ss t1 t2 : F) : F :=
  o.mulSub (o.div ss (o.add o.one cc)) (o.add t1 (o.rotFst cc ss t1 t2)) t2
/-- The same with the terms of the sum exchanged, eiquadprog-fast.cpp:215. -/
def rotSnd' (cc ss t1 t2 : F) : F :=
  o.mulSub (o.div ss (o.add o.one cc)) (o.add (o.rotFst cc ss t1 t2) t1) t2

/-- One pass of the loop of `add_constraint`, eiquadprog-fast.cpp:94-134. -/
noncomputable def addGivens (q : (ℕ → Fin n → F) × (ℕ → F)) (j : ℕ) : (ℕ → Fin n → F) × (ℕ → F) :=
  let J := q.1
  let d := q.2
  open Classical in
  if o.eq (o.dist (d j) (d (j + 1))) o.zero then q
  else
    let g := o.givens (d j) (d (j + 1))
    (Function.update (Function.update J j fun k => o.rotFst g.1 g.2.1 (J j k) (J (j + 1) k)) (j + 1) fun k =>
        o.rotSnd g.1 g.2.1 (J j k) (J (j + 1) k),
     Function.update (Function.update d (j + 1) o.zero) j g.2.2)

/-- The loop of `add_constraint`: columns `iq + k - 1, …, iq`. -/
noncomputable def addLoop (iq : ℕ) : ℕ → (ℕ → Fin n → F) × (ℕ → F) → (ℕ → Fin n → F) × (ℕ → F)
  | 0, q => q
  | k + 1, q => addLoop iq k (o.addGivens q (iq + k))

/-- Result of `add_constraint`: the returned value and the modified arguments. -/
structure AddRes (F : Type) (n : ℕ) where
  ok : Prop
  J : ℕ → Fin n → F
  R : ℕ → ℕ → F
  Rnorm : F

/-- `add_constraint`, eiquadprog-fast.cpp:77-150. `iq` is incremented by the caller. Column `iq` of `R` must exist. -/
noncomputable def addConstraint (J : ℕ → Fin n → F) (R : ℕ → ℕ → F) (d : ℕ → F) (iq : ℕ) (Rnorm : F) :
    Out (AddRes F n) :=
  let q := o.addLoop iq (n - 1 - iq) (J, d)
  let a := o.abs (q.2 iq)
  open Classical in
  if iq < n then
    .ok { ok := ¬ o.le a (o.mul o.eps Rnorm), J := q.1,
          R := fun i k => if k = iq ∧ i ≤ iq then q.2 i else R i k,
          Rnorm := if o.le a (o.mul o.eps Rnorm) then Rnorm else if o.lt Rnorm a then a else Rnorm }
  else .ub

/-- One pass of the rotation loop of `delete_constraint`, eiquadprog-fast.cpp:190-218. -/
noncomputable def delGivens (iq : ℕ) (q : (ℕ → Fin n → F) × (ℕ → ℕ → F)) (j : ℕ) :
    (ℕ → Fin n → F) × (ℕ → ℕ → F) :=
  let J := q.1
  let R := q.2
  open Classical in
  if o.eq (o.dist (R j j) (R (j + 1) j)) o.zero then q
  else
    let g := o.givens (R j j) (R (j + 1) j)
    (Function.update (Function.update J j fun k => o.rotFst g.1 g.2.1 (J j k) (J (j + 1) k)) (j + 1) fun k =>
        o.rotSnd' g.1 g.2.1 (J j k) (J (j + 1) k),
     fun i k =>
      if k = j then (if i = j then g.2.2 else if i = j + 1 then o.zero else R i k)
      else if j < k ∧ k < iq then
        (if i = j then o.rotFst g.1 g.2.1 (R j k) (R (j + 1) k)
         else if i = j + 1 then o.rotSnd g.1 g.2.1 (R j k) (R (j + 1) k)
         else R i k)
      else R i k)

/-- The rotation loop: `j = qq, …, qq + k - 1`. -/
noncomputable def delLoop (iq : ℕ) : ℕ → ℕ → (ℕ → Fin n → F) × (ℕ → ℕ → F) → (ℕ → Fin n → F) × (ℕ → ℕ → F)
  | _, 0, q => q
  | j, k + 1, q => delLoop iq (j + 1) k (o.delGivens iq q j)

/-- Result of `delete_constraint`. -/
structure DelRes (F : Type) (n : ℕ) where
  J : ℕ → Fin n → F
  R : ℕ → ℕ → F
  A : ℕ → ℤ
  u : ℕ → F

/-- `delete_constraint`, eiquadprog-fast.cpp:152-219; `m` is the size of `A` and `u`. `iq` is decremented by the caller. -/
noncomputable def deleteConstraint (m nE : ℕ) (J : ℕ → Fin n → F) (R : ℕ → ℕ → F) (A : ℕ → ℤ) (u : ℕ → F) (iq : ℕ)
    (l : ℤ) : Out (DelRes F n) :=
  if 1 ≤ iq ∧ iq < m ∧ iq ≤ n then
    let qq := findActive A nE iq l
    let R1 : ℕ → ℕ → F := fun i k =>
      if k = iq - 1 ∧ i < iq then o.zero else if qq ≤ k ∧ k < iq - 1 then R i (k + 1) else R i k
    let q := o.delLoop (iq - 1) qq (iq - 1 - qq) (J, R1)
    .ok { J := q.1, R := q.2,
          A := fun i => if qq ≤ i ∧ i < iq then A (i + 1) else if i = iq then 0 else A i,
          u := fun i => if qq ≤ i ∧ i < iq then u (i + 1) else if i = iq then o.zero else u i }
  else .ub

/-- `update_z`, eiquadprog-fast.hpp:232-239 (zero when `iq` is `n`, cf. eiquadprog-fast.cpp:507-512). -/
noncomputable def updateZ (J : ℕ → Fin n → F) (d : ℕ → F) (iq : ℕ) : Fin n → F :=
  if iq < n then o.gemv J d iq else fun _ => o.zero

/-- Before the equality loop, eiquadprog-fast.cpp:260-329. -/
def init (P : FQP F n) (J0 : ℕ → Fin n → F) (x0 : Fin n → F) (w : FWork F n) : FState F n :=
  { J := J0, R := fun _ _ => o.zero, Rnorm := o.one, x := x0, f := o.mul o.half (o.dot P.g x0), u := w.u, A := w.A,
    iq := 0, iai := w.iai, iaexcl := w.iaexcl, s := w.s, ss := o.zero, ip := 0, uOld := w.uOld, AOld := w.AOld,
    xOld := w.xOld, iter := 0 }

/-- `std::abs(z.dot(z)) > epsilon`. -/
def far (z : Fin n → F) : Prop := o.lt o.eps (o.abs (o.dot z z))

/-- Step length for an equality, eiquadprog-fast.cpp:346-349. -/
noncomputable def eqLen (z np x : Fin n → F) (c : F) : F :=
  open Classical in
  if o.far z then o.div (o.sub (o.neg (o.dot np x)) c) (o.dot z np) else o.zero

/-- One pass of the loop over the equalities, eiquadprog-fast.cpp:330-368, and line 372 after the last. -/
noncomputable def stepEq (P : FQP F n) (i : ℕ) (st : FState F n) : Out (FNext F n) :=
  let m := P.CE.length + P.CI.length
  if i < P.CE.length then
    if st.iq < m ∧ st.iq ≤ n then
      let e := P.CE.getD i (fun _ => o.zero, o.zero)
      let np := e.1
      let d := o.gemvT st.J np
      let z := o.updateZ st.J d st.iq
      let r := o.triSolve st.R d st.iq
      let t2 := o.eqLen z np st.x e.2
      match o.addConstraint st.J st.R d st.iq st.Rnorm with
      | .ok a =>
        let st' : FState F n :=
          { st with
            J := a.J, R := a.R, Rnorm := a.Rnorm,
            x := fun k => o.mulAdd t2 (z k) (st.x k),
            u := fun k => if k = st.iq then t2 else if k < st.iq then o.subMul (st.u k) t2 (r k) else st.u k,
            f := o.mulAdd (o.mul o.half (o.mul t2 t2)) (o.dot z np) st.f,
            A := Function.update st.A i (-(i : ℤ) - 1),
            iq := st.iq + 1 }
        open Classical in
        if a.ok then .ok (.eq (i + 1) st') else .ok (.ret .redundantEqualities st')
      | .throw e => .throw e
      | .assertFail => .assertFail
      | .ub => .ub
      | .diverge => .diverge
    else .ub
  else .ok (.l1 { st with iai := fun i => (i : ℤ) })

/-- `CI.row(i)` and `ci0(i)`. -/
def row (P : FQP F n) (i : ℕ) : (Fin n → F) × F := P.CI.getD i (fun _ => o.zero, o.zero)

/-- `CI.row(i).dot(x) + ci0(i)`, eiquadprog-fast.cpp:635. -/
def slack (P : FQP F n) (x : Fin n → F) (i : ℕ) : F := o.add (o.dot (o.row P i).1 x) (o.row P i).2

/-- The tolerance on the sum of violations, eiquadprog-fast.cpp:456-457: `c1` is the trace of the Hessian, `c2` the trace of the
initial `m_J`. -/
def tol (P : FQP F n) (J0 : ℕ → Fin n → F) : F :=
  o.mul (o.mul (o.mul (o.mul (o.ofNat P.CI.length) o.eps) (o.trace fun i => P.G i i)) (o.trace fun i => J0 i.val i)) o.hundred

/-- Label `l1`, eiquadprog-fast.cpp:413-468. -/
noncomputable def stepL1 (maxIter : ℕ) (P : FQP F n) (J0 : ℕ → Fin n → F) (st : FState F n) : Out (FNext F n) :=
  open Classical in
  let nE := P.CE.length
  let nI := P.CI.length
  let iter := st.iter + 1
  if iter ≥ maxIter then .ok (.ret .maxIterReached { st with iter := iter })
  else if st.iq ≤ nE + nI ∧ activeValid st.A nE st.iq nI then
    let s := o.slacks P.CI st.x
    let psi := o.sumNeg s nI
    let st : FState F n :=
      { st with iter := iter, iai := markActive st.A nE st.iq st.iai, ss := o.zero, ip := 0, s := s,
                iaexcl := fun _ => true }
    if o.le (o.abs psi) (o.tol P J0) then .ok (.ret .optimal st)
    else .ok (.l2 { st with
      uOld := fun k => if k < st.iq then st.u k else st.uOld k,
      AOld := fun k => if k < st.iq then st.A k else st.AOld k,
      xOld := st.x })
  else .ub

/-- The most violated admissible inequality, eiquadprog-fast.cpp:474-479. -/
noncomputable def chooseViolated (s : ℕ → F) (iai : ℕ → ℤ) (iaexcl : ℕ → Bool) : List ℕ → F × ℕ → F × ℕ
  | [], b => b
  | i :: l, b =>
    open Classical in
    chooseViolated s iai iaexcl l (if o.lt (s i) b.1 ∧ iai i ≠ -1 ∧ iaexcl i = true then (s i, i) else b)

/-- Label `l2`, eiquadprog-fast.cpp:470-491. -/
noncomputable def stepL2 (P : FQP F n) (st : FState F n) : Out (FNext F n) :=
  open Classical in
  let nI := P.CI.length
  let b := o.chooseViolated st.s st.iai st.iaexcl (List.range nI) (st.ss, st.ip)
  let st := { st with ss := b.1, ip := b.2 }
  if o.le o.zero st.ss then .ok (.ret .optimal st)
  else if st.ip < nI ∧ st.iq < P.CE.length + nI then
    .ok (.l2a { st with u := Function.update st.u st.iq o.zero, A := Function.update st.A st.iq st.ip })
  else .ub

/-- A step length: `none` is `+inf` as assigned at lines 530 and 547. -/
abbrev FLen (F : Type) := Option F

/-- `a < b` for step lengths. -/
def lenLt : FLen F → FLen F → Prop
  | some a, some b => o.lt a b
  | some a, none => o.ltInf a
  | none, _ => False

/-- `a >= +inf`. -/
def lenInf : FLen F → Prop
  | some a => o.geInf a
  | none => True

/-- The partial step length `t1` and the constraint `l`, eiquadprog-fast.cpp:528-540. -/
noncomputable def partialLen (r u : ℕ → F) (A : ℕ → ℤ) : List ℕ → FLen F × ℤ → FLen F × ℤ
  | [], b => b
  | k :: l, b =>
    open Classical in
    partialLen r u A l
      (if o.lt o.zero (r k) ∧ o.lenLt (some (o.div (u k) (r k))) b.1 then (some (o.div (u k) (r k)), A k) else b)

/-- Update of the multipliers, eiquadprog-fast.cpp:569-570 and 588-589. -/
noncomputable def moveU (u r : ℕ → F) (iq : ℕ) (t : F) : ℕ → F := fun k =>
  if k = iq then o.add (u k) t else if k < iq then o.subMul (u k) t (r k) else u k

/-- `iai(l) = l` and `delete_constraint`, eiquadprog-fast.cpp:571-572 and 633-634. -/
noncomputable def dropActive (P : FQP F n) (st : FState F n) (l : ℤ) : Out (FState F n) :=
  if 0 ≤ l ∧ l < P.CI.length then
    match o.deleteConstraint (P.CE.length + P.CI.length) P.CE.length st.J st.R st.A st.u st.iq l with
    | .ok a => .ok { st with J := a.J, R := a.R, A := a.A, u := a.u, iq := st.iq - 1,
                             iai := Function.update st.iai l.toNat l }
    | .throw e => .throw e
    | .assertFail => .assertFail
    | .ub => .ub
    | .diverge => .diverge
  else .ub

/-- After a full step: `add_constraint` and what follows, eiquadprog-fast.cpp:604-629. -/
noncomputable def fullStep (P : FQP F n) (d : ℕ → F) (st : FState F n) : Out (FNext F n) :=
  let nE := P.CE.length
  let nI := P.CI.length
  match o.addConstraint st.J st.R d st.iq st.Rnorm with
  | .ok a =>
    let st := { st with J := a.J, R := a.R, Rnorm := a.Rnorm, iq := st.iq + 1 }
    open Classical in
    if a.ok then .ok (.l1 { st with iai := Function.update st.iai st.ip (-1) })
    else
      match o.deleteConstraint (nE + nI) nE st.J st.R st.A st.u st.iq st.ip with
      | .ok b =>
        let iq := st.iq - 1
        open Classical in
        if activeValid st.AOld 0 iq nI then
          .ok (.l2 { st with
            J := b.J, R := b.R, iq := iq, iaexcl := Function.update st.iaexcl st.ip false,
            A := fun i => if i < iq then st.AOld i else b.A i,
            u := fun i => if i < iq then st.uOld i else b.u i,
            iai := markActive st.AOld 0 iq fun i => (i : ℤ),
            x := st.xOld })
        else .ub
      | .throw e => .throw e
      | .assertFail => .assertFail
      | .ub => .ub
      | .diverge => .diverge
  | .throw e => .throw e
  | .assertFail => .assertFail
  | .ub => .ub
  | .diverge => .diverge

/-- A step in primal and dual space, eiquadprog-fast.cpp:583-645, with `t = min(t1, t2)` finite or `NaN`. -/
noncomputable def moveStep (P : FQP F n) (np : Fin n → F) (d : ℕ → F) (z : Fin n → F) (r : ℕ → F) (l : ℤ) (t t2 : F)
    (st : FState F n) : Out (FNext F n) :=
  open Classical in
  let st : FState F n :=
    { st with x := fun k => o.mulAdd t (z k) (st.x k),
              f := o.mulAdd (o.mul t (o.dot z np)) (o.mulAdd o.half t (st.u st.iq)) st.f,
              u := o.moveU st.u r st.iq t }
  if o.eq t t2 then o.fullStep P d st
  else
    match o.dropActive P st l with
    | .ok st => .ok (.l2a { st with s := Function.update st.s st.ip (o.slack P st.x st.ip) })
    | .throw e => .throw e
    | .assertFail => .assertFail
    | .ub => .ub
    | .diverge => .diverge

/-- A step in dual space, eiquadprog-fast.cpp:567-580. -/
noncomputable def dualStep (P : FQP F n) (r : ℕ → F) (l : ℤ) (t : F) (st : FState F n) : Out (FNext F n) :=
  match o.dropActive P { st with u := o.moveU st.u r st.iq t } l with
  | .ok st => .ok (.l2a st)
  | .throw e => .throw e
  | .assertFail => .assertFail
  | .ub => .ub
  | .diverge => .diverge

/-- Label `l2a`, eiquadprog-fast.cpp:501-646. `std::min(t1, t2)` is `t2` if `t2 < t1`, otherwise `t1`. -/
noncomputable def stepL2a (P : FQP F n) (st : FState F n) : Out (FNext F n) :=
  open Classical in
  let nE := P.CE.length
  let nI := P.CI.length
  if st.iq ≤ n ∧ st.iq < nE + nI ∧ st.ip < nI then
    let np := (o.row P st.ip).1
    let d := o.gemvT st.J np
    let z := o.updateZ st.J d st.iq
    let r := o.triSolve st.R d st.iq
    let p := o.partialLen r st.u st.A (List.range' nE (st.iq - nE)) (none, 0)
    let t2 : FLen F := if o.far z then some (o.div (o.neg (st.s st.ip)) (o.dot z np)) else none
    let t : FLen F := if o.lenLt t2 p.1 then t2 else p.1
    match t, t2 with
    | none, _ => .ok (.ret .unbounded st)
    | some t, none => if o.geInf t then .ok (.ret .unbounded st) else o.dualStep P r p.2 t st
    | some t, some t2 =>
      if o.geInf t then .ok (.ret .unbounded st)
      else if o.geInf t2 then o.dualStep P r p.2 t st
      else o.moveStep P np d z r p.2 t t2 st
  else .ub

/-- One step of the machine. -/
noncomputable def step (maxIter : ℕ) (P : FQP F n) (J0 : ℕ → Fin n → F) : FNext F n → Out (FNext F n)
  | .ret r s => .ok (.ret r s)
  | .eq i s => o.stepEq P i s
  | .l1 s => o.stepL1 maxIter P J0 s
  | .l2 s => o.stepL2 P s
  | .l2a s => o.stepL2a P s

/-- The machine with fuel. -/
noncomputable def run (maxIter : ℕ) (P : FQP F n) (J0 : ℕ → Fin n → F) : ℕ → FNext F n → Out (QPStatus × FState F n)
  | _, .ret r s => .ok (r, s)
  | 0, _ => .diverge
  | k + 1, q => o.step maxIter P J0 q >>= run maxIter P J0 k

/-- `solve_quadprog`, eiquadprog-fast.cpp:230-647: the status and the final state. -/
noncomputable def solve (maxIter : ℕ) (P : FQP F n) (J0 : ℕ → Fin n → F) (x0 : Fin n → F) (w : FWork F n) (fuel : ℕ) :
    Out (QPStatus × FState F n) :=
  o.run maxIter P J0 fuel (.eq 0 (o.init P J0 x0 w))

end Arith

end Verif
