import Verif.Model.ZeroStep
import Verif.Model.EndEffector

/-!
# Python bindings, and the memory behind `ContactData`

Model of python/bezier_com_traj.cpp and of the copy constructor of `ContactData` (data.hh:36-42). Elsewhere in the
model a `ContactData` is a value; here `contactPhase_` is an address, and objects of type `Equilibrium` live in a heap.
The other fields of `ProblemData`, and sessions with several problems, are in `Model/PySession`. Not modelled: the messages
printed before an exception.
-/

namespace Verif

/-! ## Accessors -/

/-- `get_xD` and `get_x`, python/bezier_com_traj.cpp:83-87 and 101-105. -/
def get_x (x : List ℝ) : Out (List ℝ) :=
  if x.length > 0 then .ok x else .throw "attributes not accessible for false resData"

/-- What `contact_data_exception` says, python/bezier_com_traj.cpp:74. -/
def contactMsg : String := "attribute not defined yet for ContactData"

/-- `ContactData` as it is in memory, data.hh:52-56. `Kin_` and `Ang_` are lists of rows. -/
structure CContact where
  phase : Option ℕ
  Kin : List V3
  kin : List ℝ
  Ang : List V3
  ang : List ℝ

/-- Constructor from a pointer, data.hh:44-49; the default constructor (29-34) is the one from a null pointer. -/
def CContact.new (p : Option ℕ) : CContact := { phase := p, Kin := [0, 0, 0], kin := [], Ang := [0, 0, 0], ang := [] }

/-- `getContactPhase_`, python/bezier_com_traj.cpp:112-116. -/
def getContactPhase_ (c : CContact) : Out ℕ :=
  match c.phase with
  | some a => .ok a
  | none => .throw contactMsg

/-- `get_Ang`, python/bezier_com_traj.cpp:122-128. -/
def get_Ang (c : CContact) : Out (List V3 × List ℝ) :=
  if c.ang.length = 0 then .throw contactMsg else .ok (c.Ang, c.ang)

/-- `get_Kin`, python/bezier_com_traj.cpp:130-136. -/
def get_Kin (c : CContact) : Out (List V3 × List ℝ) :=
  if c.kin.length = 0 then .throw contactMsg else .ok (c.Kin, c.kin)

/-- `set_Kin`, python/bezier_com_traj.cpp:138-146. -/
def set_Kin (c : CContact) (val : List V3) (val2 : List ℝ) : Out CContact :=
  if val2.length ≠ val.length then .throw contactMsg else .ok { c with Kin := val, kin := val2 }

/-- `set_Ang`, python/bezier_com_traj.cpp:148-155. -/
def set_Ang (c : CContact) (val : List V3) (val2 : List ℝ) : Out CContact :=
  if val2.length ≠ val.length then .throw contactMsg else .ok { c with Ang := val, ang := val2 }

/-! ## Memory -/

/-- Objects by address (`none`: no object, or destroyed), and the next free address. -/
structure Heap where
  obj : ℕ → Option Equilibrium
  next : ℕ

/-- `new Equilibrium(e)`. -/
def Heap.alloc (h : Heap) (e : Equilibrium) : Heap :=
  { obj := fun a => if a = h.next then some e else h.obj a, next := h.next + 1 }

/-- Replacing (or destroying) the object at an address. -/
def Heap.set (h : Heap) (a : ℕ) (o : Option Equilibrium) : Heap :=
  { h with obj := fun b => if b = a then o else h.obj b }

/-- Copy constructor of `ContactData`, data.hh:36-42: the object pointed to is copied, a null or dangling pointer is
dereferenced. -/
def copyContact (h : Heap) (c : CContact) : Out (Heap × CContact) :=
  match c.phase with
  | none => .ub
  | some a => match h.obj a with
    | none => .ub
    | some e => .ok (h.alloc e, { c with phase := some h.next })

/-- Copy assignment of `ContactData`: none is declared in data.hh:28-57, the implicit one copies the members. -/
def assignContact (_ src : CContact) : CContact := src

/-- Copies of the elements of a vector, one after the other. -/
def copyContacts : Heap → List CContact → Out (Heap × List CContact)
  | h, [] => .ok (h, [])
  | h, c :: cs => do
    let r ← copyContact h c
    let q ← copyContacts r.1 cs
    return (q.1, r.2 :: q.2)

/-- `addContact`, python/bezier_com_traj.cpp:239-241. `ContactData` has a user-declared copy constructor and destructor,
hence no move constructor: `push_back` copies the temporary, and when the vector has to grow (`grows n` for a vector of
`n` elements) it copies its elements. The destructor frees nothing (data.hh:50). -/
def addContact (grows : ℕ → Bool) (h : Heap) (contacts : List CContact) (val : CContact) : Out (Heap × List CContact) := do
  let tmp ← copyContact h val
  let new ← copyContact tmp.1 tmp.2
  if grows contacts.length then do
    let old ← copyContacts new.1 contacts
    return (old.1, old.2 ++ [new.2])
  else return (new.1, contacts ++ [new.2])

/-! ## A Python session -/

/-- A Python object of class `ContactData`; `ward` is the object its constructor keeps alive
(`with_custodian_and_ward<1, 2>`, python/bezier_com_traj.cpp:363-366): the Python object of the argument, hence the `Equilibrium`
when that object owns it, and nothing otherwise. -/
structure PyContact where
  data : CContact
  ward : Option ℕ

/-- A session with one `ProblemData`. A variable that holds an `Equilibrium` holds its address, and says whether it
owns it (`contactPhase_` returns a reference to an existing object, python/bezier_com_traj.cpp:367-371). Several variables may hold
the same `Equilibrium`; there is one variable per `ContactData`, `none` once it is deleted. -/
structure PyState where
  heap : Heap
  eqs : List (Option (ℕ × Bool))
  contacts : List (Option PyContact)
  problem : List CContact

/-- Before the first command. -/
def PyState.init : PyState := { heap := ⟨fun _ => none, 0⟩, eqs := [], contacts := [], problem := [] }

/-- What can be done to these objects from Python (python/bezier_com_traj.cpp:363-395). `contacts_` is not exposed. -/
inductive PyCmd where
  /-- `eq = Equilibrium(…)` -/
  | newEq (e : Equilibrium)
  /-- any change made to the object of variable `v` -/
  | setEq (v : ℕ) (e : Equilibrium)
  /-- `eq2 = eq` -/
  | aliasEq (v : ℕ)
  /-- `del eq` -/
  | delEq (v : ℕ)
  /-- `c = ContactData(eq)`, or `ContactData(None)` -/
  | newContact (v : Option ℕ)
  /-- `del c` -/
  | delContact (i : ℕ)
  /-- `eq = c.contactPhase_` -/
  | getPhase (i : ℕ)
  /-- `c.contactPhase_ = eq` -/
  | setPhase (i : ℕ) (v : Option ℕ)
  /-- `c.setKinematicConstraints(Kin, kin)` -/
  | setKin (i : ℕ) (Kin : List V3) (kin : List ℝ)
  /-- `c.setAngularConstraints(Ang, ang)` -/
  | setAng (i : ℕ) (Ang : List V3) (ang : List ℝ)
  /-- `pData.addContact(c)` -/
  | addContact (i : ℕ)
  /-- `pData.clearContacts()` -/
  | clearContacts

/-- The object a variable refers to. -/
def PyState.var (st : PyState) (v : ℕ) : Out (ℕ × Bool) :=
  match st.eqs[v]? with
  | some (some h) => .ok h
  | _ => .throw "NameError"

/-- A pointer argument: `None` is the null pointer. -/
def PyState.ptr (st : PyState) : Option ℕ → Out (Option ℕ)
  | none => .ok none
  | some v => do
    let h ← st.var v
    return some h.1

/-- A `ContactData` variable. -/
def PyState.contact (st : PyState) (i : ℕ) : Out PyContact :=
  match st.contacts[i]? with
  | some (some c) => .ok c
  | _ => .throw "NameError"

/-- Something keeps the `Equilibrium` at address `a` alive: a variable that owns it, or a `ContactData`. -/
def PyState.Kept (st : PyState) (a : ℕ) : Prop := some (a, true) ∈ st.eqs ∨ ∃ c, some c ∈ st.contacts ∧ c.ward = some a

open Classical in
/-- Destruction of the `Equilibrium` at address `a` when nothing keeps it alive any more. -/
noncomputable def PyState.release (st : PyState) (a : ℕ) : PyState :=
  if st.Kept a then st else { st with heap := st.heap.set a none }

/-- One command. -/
noncomputable def PyState.step (grows : ℕ → Bool) (st : PyState) : PyCmd → Out PyState
  | .newEq e => .ok { st with heap := st.heap.alloc e, eqs := st.eqs ++ [some (st.heap.next, true)] }
  | .setEq v e => do
    let h ← st.var v
    match st.heap.obj h.1 with
    | none => .ub
    | some _ => return { st with heap := st.heap.set h.1 (some e) }
  | .aliasEq v => do
    let h ← st.var v
    return { st with eqs := st.eqs ++ [some h] }
  | .delEq v => do
    let h ← st.var v
    let st' : PyState := { st with eqs := st.eqs.set v none }
    return if h.2 then st'.release h.1 else st'
  | .newContact none => .ok { st with contacts := st.contacts ++ [some ⟨CContact.new none, none⟩] }
  | .newContact (some v) => do
    let h ← st.var v
    return { st with contacts := st.contacts ++ [some ⟨CContact.new (some h.1), if h.2 then some h.1 else none⟩] }
  | .delContact i => do
    let c ← st.contact i
    let st' : PyState := { st with contacts := st.contacts.set i none }
    match c.ward with
    | none => return st'
    | some a => return st'.release a
  | .getPhase i => do
    let c ← st.contact i
    let a ← getContactPhase_ c.data
    return { st with eqs := st.eqs ++ [some (a, false)] }
  | .setPhase i v => do
    let c ← st.contact i
    let p ← st.ptr v
    return { st with contacts := st.contacts.set i (some { c with data := { c.data with phase := p } }) }
  | .setKin i K k => do
    let c ← st.contact i
    let d ← set_Kin c.data K k
    return { st with contacts := st.contacts.set i (some { c with data := d }) }
  | .setAng i K k => do
    let c ← st.contact i
    let d ← set_Ang c.data K k
    return { st with contacts := st.contacts.set i (some { c with data := d }) }
  | .addContact i => do
    let c ← st.contact i
    let r ← Verif.addContact grows st.heap st.problem c.data
    return { st with heap := r.1, problem := r.2 }
  | .clearContacts => .ok { st with problem := [] }

/-- A session; an exception is caught and the session goes on. -/
noncomputable def PyState.run (grows : ℕ → Bool) (st : PyState) : List PyCmd → Out PyState
  | [] => .ok st
  | c :: cs => match st.step grows c with
    | .ok st' => st'.run grows cs
    | .throw _ => st.run grows cs
    | .assertFail => .assertFail
    | .ub => .ub
    | .diverge => .diverge

/-! ## Functions -/

/-- A matrix argument used as rows of three coefficients: `MatrixX3 = MatrixXX` asserts three columns. -/
def asRows3 (M : Mat) : Out (List V3) :=
  if M.cols = 3 then .ok ((List.range M.rows).map fun r k => M.e r k) else .assertFail

/-- `VectorX = MatrixXX` asserts one column. -/
def asVector (M : Mat) : Out (List ℝ) :=
  if M.cols = 1 then .ok ((List.range M.rows).map fun r => M.e r 0) else .assertFail

/-- The `ProblemData` of lines 28-34 and 50-56: everything else is as the constructor leaves it (data.hh:92-103 and
65-69); `flag_` is INIT_POS | INIT_VEL | END_VEL | END_POS. -/
noncomputable def zeroStepProblem (data : ContactData) (com dCom l0 : V3) (useAng : Bool) : ProblemData where
  contacts := [data]
  bc := ⟨com, dCom, 0, 0, 0, 0, 0, 0⟩
  l0 := l0
  useAngularMomentum := useAng
  flag := INIT_POS ||| INIT_VEL ||| END_VEL ||| END_POS
  constraintAcceleration := false
  maxAcceleration := 10
  reduce_h := 1e-3
  costFunction := ACCELERATION
  representation := DOUBLE_DESCRIPTION

/-- `zeroStepCapturability`, python/bezier_com_traj.cpp:20-38; copying `data` into the vector dereferences `eq`. -/
noncomputable def zeroStepCapturability (lib : Lib) (fuel : ℕ) (eq : Option Equilibrium) (com dCom l0 : V3) (useAng : Bool)
    (timeDuration timeStep : ℝ) : Out ResultDataCOMTraj :=
  match eq with
  | none => .ub
  | some e => solve0step lib fuel (zeroStepProblem { ContactData.default with contactPhase := some e } com dCom l0 useAng)
      [timeDuration] timeStep

/-- `zeroStepCapturabilityWithKinConstraints`, python/bezier_com_traj.cpp:40-60. -/
noncomputable def zeroStepCapturabilityWithKinConstraints (lib : Lib) (fuel : ℕ) (eq : Option Equilibrium) (com dCom l0 : V3)
    (useAng : Bool) (timeDuration timeStep : ℝ) (Kin kin : Mat) : Out ResultDataCOMTraj := do
  let K ← asRows3 Kin
  let k ← asVector kin
  match eq with
  | none => .ub
  | some e =>
    solve0step lib fuel (zeroStepProblem { ContactData.default with contactPhase := some e, Kin := K, kin := k } com dCom l0 useAng)
      [timeDuration] timeStep

/-- `computeEndEffector`, python/bezier_com_traj.cpp:266-268 and 279-284: the path is constant and has no weight. -/
noncomputable def computeEndEffector (lib : Lib) (fuel : ℕ) (flag : Flag) (d : BC) (time : ℝ) (init : List ℝ) :
    Out ResultDataCOMTraj :=
  solveEndEffector lib fuel flag d (fun _ => 0) time 0 init

/-- `computeEndEffectorConstraintsPython`, python/bezier_com_traj.cpp:286-292. -/
noncomputable def computeEndEffectorConstraintsPython (flag : Flag) (d : BC) (time : ℝ) : Out (Mat × Mat) := do
  let pi ← computeConstantWaypoints flag d time
  computeEndEffectorConstraints flag d time pi

/-- `computeEndEffectorVelocityCostPython`, python/bezier_com_traj.cpp:294-300. -/
noncomputable def computeEndEffectorVelocityCostPython (flag : Flag) (d : BC) (time : ℝ) :
    Out (Σ K : ℕ, Matrix (Fin K) (Fin K) ℝ × (Fin K → V3)) := do
  let pi ← computeConstantWaypoints flag d time
  computeVelocityCost flag d time pi

/-- `computeEndEffectorDistanceCostPython`, python/bezier_com_traj.cpp:302-315; the points are the columns of a matrix with
three rows, a list here. -/
noncomputable def computeEndEffectorDistanceCostPython (flag : Flag) (d : BC) (time : ℝ) (numPoints : ℕ) (pts_l : List V3) :
    Out (BlockCost (dimVarPts flag)) := do
  let _ ← computeConstantWaypoints flag d time
  computeDistanceCostFunction flag d time numPoints pts_l

/-- `computeEndEffectorConstantWaypoints`, python/bezier_com_traj.cpp:317-327: one column per waypoint. -/
noncomputable def computeEndEffectorConstantWaypoints (flag : Flag) (d : BC) (time : ℝ) : Out Mat := do
  let pi ← computeConstantWaypoints flag d time
  return { rows := 3, cols := pi.length, e := fun r c => V3.get (pi.getD c 0) r }

end Verif
