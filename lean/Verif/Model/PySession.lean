import Verif.Model.Python
import Verif.Model.Com

/-!
# `ProblemData` and `Constraints` objects in a Python session

Model of the accessors of python/bezier_com_traj.cpp:159-245 and of the life of the objects they act on
(python/bezier_com_traj.cpp:377-402). `constraints_` is exported with `reference_existing_object`: the variable that receives it
points into the `ProblemData`. Equilibrium and contact objects are those of `PyState`.

Simplified: one Python variable per object; `ConstraintFlag` stores any 32 bits (`flags.hh` has no enumerator above
0x1000, storing more in the enum is left to the compiler); values of `CostFunction` and `GIWCRepresentation` are numbers.
-/

namespace Verif

/-- `Constraints` as it is in memory, data.hh:80-83. -/
structure CConstraints where
  flag : Flag
  constraintAcceleration : Bool
  maxAcceleration : ℝ
  reduce_h : ℝ

/-- Default constructor, data.hh:65-69. -/
noncomputable def CConstraints.new : CConstraints where
  flag := INIT_POS ||| INIT_VEL ||| END_VEL ||| END_POS
  constraintAcceleration := false
  maxAcceleration := 10
  reduce_h := 1e-3

/-- `ProblemData` as it is in memory, data.hh:107-113, without `l0_`, which no constructor initialises and which has no
accessor. -/
structure CProblem where
  contacts : List CContact
  bc : BC
  useAngularMomentum : Bool
  constraints : CConstraints
  costFunction : CostFunction
  representation : Representation

/-- Default constructor, data.hh:95-105. -/
noncomputable def CProblem.new : CProblem where
  contacts := []
  bc := ⟨0, 0, 0, 0, 0, 0, 0, 0⟩
  useAngularMomentum := false
  constraints := CConstraints.new
  costFunction := ACCELERATION
  representation := DOUBLE_DESCRIPTION

/-- The points with an accessor, python/bezier_com_traj.cpp:378-383: not `j0_`, `j1_`, `l0_`. -/
inductive PyPoint where
  | c0 | dc0 | ddc0 | c1 | dc1 | ddc1
deriving DecidableEq

/-- `get_c0_`, ..., `get_ddc1_`, python/bezier_com_traj.cpp:183-192. -/
def getPoint_ (res : CProblem) : PyPoint → V3
  | .c0 => res.bc.c0
  | .dc0 => res.bc.dc0
  | .ddc0 => res.bc.ddc0
  | .c1 => res.bc.c1
  | .dc1 => res.bc.dc1
  | .ddc1 => res.bc.ddc1

/-- `set_c0_`, ..., `set_ddc1_`, python/bezier_com_traj.cpp:194-204. -/
def setPoint_ (res : CProblem) (val : V3) : PyPoint → CProblem
  | .c0 => { res with bc := { res.bc with c0 := val } }
  | .dc0 => { res with bc := { res.bc with dc0 := val } }
  | .ddc0 => { res with bc := { res.bc with ddc0 := val } }
  | .c1 => { res with bc := { res.bc with c1 := val } }
  | .dc1 => { res with bc := { res.bc with dc1 := val } }
  | .ddc1 => { res with bc := { res.bc with ddc1 := val } }

/-- `get_Flag`, python/bezier_com_traj.cpp:160: an `int`. -/
def get_Flag (res : CConstraints) : ℤ := res.flag.toInt

/-- `set_Flag`, python/bezier_com_traj.cpp:167-169. -/
def set_Flag (res : CConstraints) (val : ℤ) : CConstraints := { res with flag := BitVec.ofInt 32 val }

/-- The numbers that boost converts to an `int`; it refuses the others before the call. -/
def IsInt (val : ℤ) : Prop := -2 ^ 31 ≤ val ∧ val < 2 ^ 31

instance (val : ℤ) : Decidable (IsInt val) := inferInstanceAs (Decidable (_ ∧ _))

/-- Where a `Constraints` object is: on its own, or the member of a `ProblemData`. -/
inductive ConsAddr where
  | own (i : ℕ)
  | member (p : ℕ)
deriving DecidableEq

/-- A session: `mem` has the equilibrium and contact objects (its `problem` is not used); `problems` and `cons` are the
objects (`none`: destroyed), `refs` the variables that hold a `Constraints`. -/
structure PySession where
  mem : PyState
  problems : List (Option CProblem)
  cons : List (Option CConstraints)
  refs : List (Option ConsAddr)

/-- Before the first command. -/
def PySession.init : PySession := { mem := PyState.init, problems := [], cons := [], refs := [] }

/-- What a command returns. -/
inductive PyVal where
  | none
  | point (v : V3)
  | int (k : ℤ)
  | bool (b : Bool)
  | real (r : ℝ)
  | enum (k : ℕ)

/-- What Python can do to these objects, python/bezier_com_traj.cpp:377-402. -/
inductive PyOp where
  /-- the commands on equilibrium and contact objects -/
  | mem (c : PyCmd)
  /-- `p = ProblemData()` -/
  | newProblem
  /-- `del p` -/
  | delProblem (p : ℕ)
  /-- `p.c0_` and so on -/
  | getPoint (p : ℕ) (f : PyPoint)
  /-- `p.c0_ = val` and so on -/
  | setPoint (p : ℕ) (f : PyPoint) (val : V3)
  /-- `p.useAngularMomentum_` -/
  | getUseAng (p : ℕ)
  /-- `p.useAngularMomentum_ = val` -/
  | setUseAng (p : ℕ) (val : Bool)
  /-- `p.costFunction_` -/
  | getCost (p : ℕ)
  /-- `p.costFunction_ = val` -/
  | setCost (p : ℕ) (val : CostFunction)
  /-- `p.GIWCrepresentation_` -/
  | getRep (p : ℕ)
  /-- `p.GIWCrepresentation_ = val` -/
  | setRep (p : ℕ) (val : Representation)
  /-- `v = p.constraints_` -/
  | getConstraints (p : ℕ)
  /-- `p.constraints_ = v` -/
  | setConstraints (p : ℕ) (v : ℕ)
  /-- `p.addContact(c)` -/
  | addContact (p : ℕ) (i : ℕ)
  /-- `p.clearContacts()` -/
  | clearContacts (p : ℕ)
  /-- `v = Constraints()` -/
  | newConstraints
  /-- `del v` -/
  | delConstraints (v : ℕ)
  /-- `v.flag_` -/
  | getFlag (v : ℕ)
  /-- `v.flag_ = val` -/
  | setFlag (v : ℕ) (val : ℤ)
  /-- `v.constrainAcceleration_` -/
  | getConAcc (v : ℕ)
  /-- `v.constrainAcceleration_ = val` -/
  | setConAcc (v : ℕ) (val : Bool)
  /-- `v.maxAcceleration_` -/
  | getMaxAcc (v : ℕ)
  /-- `v.maxAcceleration_ = val` -/
  | setMaxAcc (v : ℕ) (val : ℝ)
  /-- `v.reduce_h_` -/
  | getReduceH (v : ℕ)
  /-- `v.reduce_h_ = val` -/
  | setReduceH (v : ℕ) (val : ℝ)

/-- A `ProblemData` variable. -/
def PySession.prob (st : PySession) (p : ℕ) : Out CProblem :=
  match st.problems[p]? with
  | some (some q) => .ok q
  | _ => .throw "NameError"

/-- Storing a `ProblemData`. -/
def PySession.setProb (st : PySession) (p : ℕ) (q : CProblem) : PySession := { st with problems := st.problems.set p (some q) }

/-- The address a `Constraints` variable holds. -/
def PySession.ref (st : PySession) (v : ℕ) : Out ConsAddr :=
  match st.refs[v]? with
  | some (some w) => .ok w
  | _ => .throw "NameError"

/-- Reading a `Constraints` object: a destroyed one is a dangling reference. -/
def PySession.load (st : PySession) : ConsAddr → Out CConstraints
  | .own i => match st.cons[i]? with
    | some (some c) => .ok c
    | _ => .ub
  | .member p => match st.problems[p]? with
    | some (some q) => .ok q.constraints
    | _ => .ub

/-- Writing a `Constraints` object. -/
def PySession.store (st : PySession) (c : CConstraints) : ConsAddr → Out PySession
  | .own i => match st.cons[i]? with
    | some (some _) => .ok { st with cons := st.cons.set i (some c) }
    | _ => .ub
  | .member p => match st.problems[p]? with
    | some (some q) => .ok (st.setProb p { q with constraints := c })
    | _ => .ub

/-- A getter of `Constraints`. -/
def PySession.getCons (st : PySession) (v : ℕ) (f : CConstraints → PyVal) : Out (PySession × PyVal) := do
  let w ← st.ref v
  let c ← st.load w
  return (st, f c)

/-- A setter of `Constraints`. -/
def PySession.setCons (st : PySession) (v : ℕ) (f : CConstraints → CConstraints) : Out (PySession × PyVal) := do
  let w ← st.ref v
  let c ← st.load w
  let st' ← st.store (f c) w
  return (st', .none)

/-- One command. -/
noncomputable def PySession.step (grows : ℕ → Bool) (st : PySession) : PyOp → Out (PySession × PyVal)
  | .mem (.addContact _) => .throw "NameError"
  | .mem .clearContacts => .throw "NameError"
  | .mem c => do
    let m ← st.mem.step grows c
    return ({ st with mem := m }, .none)
  | .newProblem => .ok ({ st with problems := st.problems ++ [some CProblem.new] }, .none)
  | .delProblem p => do
    let _ ← st.prob p
    return ({ st with problems := st.problems.set p none }, .none)
  | .getPoint p f => do
    let q ← st.prob p
    return (st, .point (getPoint_ q f))
  | .setPoint p f val => do
    let q ← st.prob p
    return (st.setProb p (setPoint_ q val f), .none)
  | .getUseAng p => do
    let q ← st.prob p
    return (st, .bool q.useAngularMomentum)
  | .setUseAng p val => do
    let q ← st.prob p
    return (st.setProb p { q with useAngularMomentum := val }, .none)
  | .getCost p => do
    let q ← st.prob p
    return (st, .enum q.costFunction)
  | .setCost p val => do
    let q ← st.prob p
    return (st.setProb p { q with costFunction := val }, .none)
  | .getRep p => do
    let q ← st.prob p
    return (st, .enum q.representation)
  | .setRep p val => do
    let q ← st.prob p
    return (st.setProb p { q with representation := val }, .none)
  | .getConstraints p => do
    let _ ← st.prob p
    return ({ st with refs := st.refs ++ [some (.member p)] }, .none)
  | .setConstraints p v => do
    let q ← st.prob p
    let w ← st.ref v
    let c ← st.load w
    return (st.setProb p { q with constraints := c }, .none)
  | .addContact p i => do
    let q ← st.prob p
    let c ← st.mem.contact i
    let r ← Verif.addContact grows st.mem.heap q.contacts c.data
    return ({ st with mem := { st.mem with heap := r.1 }, problems := st.problems.set p (some { q with contacts := r.2 }) }, .none)
  | .clearContacts p => do
    let q ← st.prob p
    return (st.setProb p { q with contacts := [] }, .none)
  | .newConstraints => .ok ({ st with cons := st.cons ++ [some CConstraints.new], refs := st.refs ++ [some (.own st.cons.length)] }, .none)
  | .delConstraints v => do
    let w ← st.ref v
    match w with
    | .own i => return ({ st with cons := st.cons.set i none, refs := st.refs.set v none }, .none)
    | .member _ => return ({ st with refs := st.refs.set v none }, .none)
  | .getFlag v => st.getCons v fun c => .int (get_Flag c)
  | .setFlag v val =>
    if IsInt val then st.setCons v fun c => set_Flag c val
    else do
      let _ ← st.ref v
      .throw "OverflowError"
  | .getConAcc v => st.getCons v fun c => .bool c.constraintAcceleration
  | .setConAcc v val => st.setCons v fun c => { c with constraintAcceleration := val }
  | .getMaxAcc v => st.getCons v fun c => .real c.maxAcceleration
  | .setMaxAcc v val => st.setCons v fun c => { c with maxAcceleration := val }
  | .getReduceH v => st.getCons v fun c => .real c.reduce_h
  | .setReduceH v val => st.setCons v fun c => { c with reduce_h := val }

/-- A session; an exception is caught and the session goes on. -/
noncomputable def PySession.run (grows : ℕ → Bool) (st : PySession) : List PyOp → Out PySession
  | [] => .ok st
  | c :: cs => match st.step grows c with
    | .ok r => r.1.run grows cs
    | .throw _ => st.run grows cs
    | .assertFail => .assertFail
    | .ub => .ub
    | .diverge => .diverge

/-- The phases of contacts in memory; a null pointer stays null, a dangling one is undefined. -/
def resolve (h : Heap) : List CContact → Out (List ContactData)
  | [] => .ok []
  | c :: cs => do
    let e ← match c.phase with
      | none => (.ok none : Out (Option Equilibrium))
      | some a => match h.obj a with
        | none => .ub
        | some e => .ok (some e)
    let r ← resolve h cs
    return { contactPhase := e, Kin := c.Kin, kin := c.kin, Ang := c.Ang, ang := c.ang } :: r

/-- What a function that takes a `ProblemData` finds; `l0` is what the memory of `l0_` happens to hold. -/
def PySession.problemData (st : PySession) (p : ℕ) (l0 : V3) : Out ProblemData := do
  let q ← st.prob p
  let cts ← resolve st.mem.heap q.contacts
  return { contacts := cts, bc := q.bc, l0 := l0, useAngularMomentum := q.useAngularMomentum, flag := q.constraints.flag,
           constraintAcceleration := q.constraints.constraintAcceleration, maxAcceleration := q.constraints.maxAcceleration,
           reduce_h := q.constraints.reduce_h, costFunction := q.costFunction, representation := q.representation }

/-- `computeCOMTrajPointerChooseSolver`, python/bezier_com_traj.cpp:256-261; `computeCOMTrajPointer` (249-254) is the one with
`SOLVER_QUADPROG` (solve.hh:64). -/
noncomputable def PySession.computeCOMTrajPointer (κ : ℝ) (lib : Lib) (fuel : ℕ) (st : PySession) (p : ℕ) (l0 : V3) (Ts : List ℝ)
    (timeStep : ℝ) (solver : SolverType) : Out ResultDataCOMTraj := do
  let pData ← st.problemData p l0
  Verif.computeCOMTraj κ lib fuel pData Ts timeStep solver

/-- `computeEndEffector` on a problem of the session, python/bezier_com_traj.cpp:279-284. -/
noncomputable def PySession.computeEndEffector (lib : Lib) (fuel : ℕ) (st : PySession) (p : ℕ) (time : ℝ) (init : List ℝ) : Out ResultDataCOMTraj := do
  let q ← st.prob p
  Verif.computeEndEffector lib fuel q.constraints.flag q.bc time init

end Verif
