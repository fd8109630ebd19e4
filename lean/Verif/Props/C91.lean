import Verif.Model.ZeroStep

/-!
# C91: fields that are not selected have no influence
-/

namespace Verif
open Matrix

/-! ## Specification -/

/-- Two sets of boundary values agree on the values that a set of constraints selects. -/
structure SameSelected (f : Flag) (d d' : BC) : Prop where
  c0 : f.has INIT_POS → d.c0 = d'.c0
  dc0 : f.has INIT_VEL → d.dc0 = d'.dc0
  ddc0 : f.has INIT_ACC → d.ddc0 = d'.ddc0
  j0 : f.has INIT_JERK → d.j0 = d'.j0
  c1 : f.has END_POS → d.c1 = d'.c1
  dc1 : f.has END_VEL → d.dc1 = d'.dc1
  ddc1 : f.has END_ACC → d.ddc1 = d'.ddc1
  j1 : f.has END_JERK → d.j1 = d'.j1

/-- Two contacts have the same mass, gravity, and the same description of the admissible wrenches: the inequalities
with the double description, the generators with forces. -/
structure SameWrench (r : Representation) (e e' : Equilibrium) : Prop where
  mass : e.mass = e'.mass
  gravity : e.gravity = e'.gravity
  poly : r = DOUBLE_DESCRIPTION → e.poly = e'.poly ∧ e.polyOk = e'.polyOk
  gens : r ≠ DOUBLE_DESCRIPTION → e.gens = e'.gens

/-- Two phases agree on the contact and on the kinematic constraints. -/
structure SamePhase (r : Representation) (ct ct' : ContactData) : Prop where
  phase : Option.Rel (SameWrench r) ct.contactPhase ct'.contactPhase
  Kin : ct.Kin = ct'.Kin
  kin : ct.kin = ct'.kin

/-- Two problems agree on what the planner of the centre of mass may look at. -/
structure SameCom (p p' : ProblemData) : Prop where
  contacts : List.Forall₂ (SamePhase p.representation) p.contacts p'.contacts
  flag : p.flag = p'.flag
  bc : SameSelected p.flag p.bc p'.bc
  mid : p.costFunction = DISTANCE_TRAVELED → p.bc.c0 = p'.bc.c0 ∧ p.bc.c1 = p'.bc.c1
  constraintAcceleration : p.constraintAcceleration = p'.constraintAcceleration
  maxAcceleration : p.maxAcceleration = p'.maxAcceleration
  reduce_h : p.reduce_h = p'.reduce_h
  costFunction : p.costFunction = p'.costFunction
  representation : p.representation = p'.representation

namespace Select

/-! ## A problem with everything else erased -/

open Classical in
/-- Boundary values that are not selected are replaced by zero. -/
noncomputable def selectBC (f : Flag) (mid : Prop) (d : BC) : BC :=
  { c0 := if f.has INIT_POS ∨ mid then d.c0 else 0
    dc0 := if f.has INIT_VEL then d.dc0 else 0
    ddc0 := if f.has INIT_ACC then d.ddc0 else 0
    j0 := if f.has INIT_JERK then d.j0 else 0
    c1 := if f.has END_POS ∨ mid then d.c1 else 0
    dc1 := if f.has END_VEL then d.dc1 else 0
    ddc1 := if f.has END_ACC then d.ddc1 else 0
    j1 := if f.has END_JERK then d.j1 else 0 }

open Classical in
/-- The description that is not used is erased. -/
noncomputable def stripE (r : Representation) (e : Equilibrium) : Equilibrium :=
  { mass := e.mass, gravity := e.gravity, isPP := false
    poly := if r = DOUBLE_DESCRIPTION then e.poly else []
    polyOk := if r = DOUBLE_DESCRIPTION then e.polyOk else false
    gens := if r = DOUBLE_DESCRIPTION then [] else e.gens }

/-- The constraints on the angular momentum are erased. -/
noncomputable def stripC (r : Representation) (ct : ContactData) : ContactData :=
  { contactPhase := ct.contactPhase.map (stripE r), Kin := ct.Kin, kin := ct.kin, Ang := [], ang := [] }

/-- The problem with everything the planner does not look at erased. -/
noncomputable def strip (p : ProblemData) : ProblemData :=
  { p with
    contacts := p.contacts.map (stripC p.representation)
    bc := selectBC p.flag (p.costFunction = DISTANCE_TRAVELED) p.bc
    l0 := 0
    useAngularMomentum := false }

variable {f : Flag} {mid : Prop} {d : BC} {r : Representation} {p p' : ProblemData}

theorem const_select (f : Flag) (mid : Prop) (d : BC) (T : ℝ) :
    computeConstantWaypoints f (selectBC f mid d) T = computeConstantWaypoints f d T := by
  unfold computeConstantWaypoints
  refine ite_congr rfl (fun h => ?_) fun _ => ?_
  · subst h
    simp [selectBC, Flag.has, c0_dc0_c1.flag, INIT_POS, INIT_VEL, END_POS, c0_dc0_c1.computeConstantWaypoints]
  refine ite_congr rfl (fun h => ?_) fun _ => ?_
  · subst h
    simp [selectBC, Flag.has, c0_dc0_dc1.flag, INIT_POS, INIT_VEL, END_VEL, c0_dc0_dc1.computeConstantWaypoints]
  refine ite_congr rfl (fun h => ?_) fun _ => ?_
  · subst h
    simp [selectBC, Flag.has, c0_dc0_dc1_c1.flag, INIT_POS, INIT_VEL, END_POS, END_VEL,
      c0_dc0_dc1_c1.computeConstantWaypoints]
  refine ite_congr rfl (fun h => ?_) fun _ => ?_
  · subst h
    simp [selectBC, Flag.has, c0_dc0_ddc0.flag, INIT_POS, INIT_VEL, INIT_ACC, c0_dc0_ddc0.computeConstantWaypoints]
  refine ite_congr rfl (fun h => ?_) fun _ => ?_
  · subst h
    simp [selectBC, Flag.has, c0_dc0_ddc0_c1.flag, INIT_POS, INIT_VEL, INIT_ACC, END_POS,
      c0_dc0_ddc0_c1.computeConstantWaypoints]
  refine ite_congr rfl (fun h => ?_) fun _ => ?_
  · subst h
    simp [selectBC, Flag.has, c0_dc0_ddc0_dc1_c1.flag, INIT_POS, INIT_VEL, INIT_ACC, END_POS, END_VEL,
      c0_dc0_ddc0_dc1_c1.computeConstantWaypoints]
  refine ite_congr rfl (fun h => ?_) fun _ => ?_
  · subst h
    simp [selectBC, Flag.has, c0_dc0_ddc0_ddc1_dc1_c1.flag, INIT_POS, INIT_VEL, INIT_ACC, END_POS, END_VEL, END_ACC,
      c0_dc0_ddc0_ddc1_dc1_c1.computeConstantWaypoints]
  refine ite_congr rfl (fun h => ?_) fun _ => ?_
  · subst h
    simp [selectBC, Flag.has, c0_dc0_ddc0_j0_j1_ddc1_dc1_c1.flag, INIT_POS, INIT_VEL, INIT_ACC, INIT_JERK, END_POS,
      END_VEL, END_ACC, END_JERK, c0_dc0_ddc0_j0_j1_ddc1_dc1_c1.computeConstantWaypoints]
  refine ite_congr rfl (fun h => ?_) fun _ => ?_
  · subst h
    simp [selectBC, Flag.has, c0_dc0_ddc0_j0_x3_j1_ddc1_dc1_c1.flag, INIT_POS, INIT_VEL, INIT_ACC, INIT_JERK, END_POS,
      END_VEL, END_ACC, END_JERK, c0_dc0_ddc0_j0_x3_j1_ddc1_dc1_c1.computeConstantWaypoints, THREE_FREE_VAR]
  refine ite_congr rfl (fun h => ?_) fun _ => rfl
  · subst h
    simp [selectBC, Flag.has, c0_dc0_ddc0_j0_x5_j1_ddc1_dc1_c1.flag, INIT_POS, INIT_VEL, INIT_ACC, INIT_JERK, END_POS,
      END_VEL, END_ACC, END_JERK, c0_dc0_ddc0_j0_x5_j1_ddc1_dc1_c1.computeConstantWaypoints, FIVE_FREE_VAR]

theorem frontGravity_strip (r : Representation) (cs : List ContactData) :
    frontGravity (cs.map (stripC r)) = frontGravity cs := by
  cases cs with
  | nil => rfl
  | cons ct l =>
    obtain ⟨o, _, _, _, _⟩ := ct
    cases o <;> rfl

theorem wrench_select (f : Flag) (mid : Prop) (d : BC) (T : ℝ) (r : Representation) (cs : List ContactData) :
    computeWwaypoints f (cs.map (stripC r)) (selectBC f mid d) T = computeWwaypoints f cs d T := by
  unfold computeWwaypoints
  simp only [frontGravity_strip]
  repeat' first
    | rfl
    | (refine ite_congr rfl (fun h => ?_) (fun _ => ?_))
  all_goals
    subst h
    rw [const_select]

theorem getElem_strip (p : ProblemData) (i : ℕ) :
    (strip p).contacts[i]? = p.contacts[i]?.map (stripC p.representation) := by
  simp [strip]

/-! ## The discretised formulation -/

theorem updateH_strip (hr : r = DOUBLE_DESCRIPTION) (h : ℝ) (ct : ContactData) :
    updateH h (stripC r ct) = updateH h ct := by
  obtain ⟨o, _, _, _, _⟩ := ct
  cases o with
  | none => rfl
  | some e => simp [updateH, stripC, stripE, hr]

theorem numIneqLoop_strip (hr : r = DOUBLE_DESCRIPTION) (cs : List ContactData) (ps : List ℕ) (n i : ℕ) (a b : ℤ) :
    numIneqLoop (cs.map (stripC r)) ps n i a b = numIneqLoop cs ps n i a b := by
  induction n generalizing i a b with
  | zero => rfl
  | succ n ih =>
    unfold numIneqLoop
    rw [List.getElem?_map]
    cases cs[i]? with
    | none => rfl
    | some ct =>
      obtain ⟨o, _, _, _, _⟩ := ct
      cases ps[i]? with
      | none => rfl
      | some q =>
        cases o with
        | none => rfl
        | some e =>
          simp only [Option.map_some, stripC, ih]
          simp [stripE, hr]

theorem switchLoop_strip (hr : p.representation = DOUBLE_DESCRIPTION) (k : ℕ) (w : Wp6) (l : List ℕ)
    (s : ℕ × HRows × Asm) : switchLoop (strip p) k w l s = switchLoop p k w l s := by
  induction l generalizing s with
  | nil => rfl
  | cons i l ih =>
    obtain ⟨q, mH, st⟩ := s
    unfold switchLoop
    refine ite_congr rfl (fun _ => ?_) fun _ => ih _
    rw [getElem_strip]
    cases p.contacts[q + 1]? with
    | none => rfl
    | some ct =>
      have hu := updateH_strip hr p.reduce_h ct
      obtain ⟨o, _, _, _, _⟩ := ct
      cases o with
      | none => rfl
      | some e =>
        simp only [Option.map_some, ih]
        change (updateH p.reduce_h (stripC p.representation _)).bind _ = _
        rw [hu]
        rfl

theorem stabLoop_strip (hr : p.representation = DOUBLE_DESCRIPTION) (g : V3) (ids : List ℕ) (ws : List Wp6)
    (k q : ℕ) (mH : HRows) (st : Asm) :
    stabLoop (strip p) g ids ws k q mH st = stabLoop p g ids ws k q mH st := by
  induction ws generalizing k q mH st with
  | nil => rfl
  | cons w ws ih =>
    unfold stabLoop
    simp only [switchLoop_strip hr, ih]

theorem stab_strip (hr : p.representation = DOUBLE_DESCRIPTION) (st : Asm) (ta : TTime) (T : ℝ) (ids : List ℕ) :
    assignStabilityConstraints (strip p) st ta T ids = assignStabilityConstraints p st ta T ids := by
  unfold assignStabilityConstraints computeDiscretizedWwaypoints
  rw [getElem_strip]
  have h1 : computeWwaypoints (strip p).flag (strip p).contacts (strip p).bc T =
      computeWwaypoints p.flag p.contacts p.bc T := wrench_select _ _ _ _ _ _
  rw [h1]
  cases p.contacts[0]? with
  | none => rfl
  | some ct =>
    have hu := updateH_strip hr p.reduce_h ct
    obtain ⟨o, _, _, _, _⟩ := ct
    cases o with
    | none => rfl
    | some e =>
      simp only [Option.map_some, stabLoop_strip hr]
      change (_ >>= fun _ => (updateH p.reduce_h (stripC p.representation _)).bind _) = _
      rw [hu]
      rfl

theorem assignKin_strip (st : Asm) (q : ℕ) (co : Coefs) : assignKin (strip p) st q co = assignKin p st q co := by
  unfold assignKin
  rw [getElem_strip]
  cases p.contacts[q]? <;> rfl

theorem kinSwitchLoop_strip (k : ℕ) (co : Coefs) (l : List ℕ) (i : ℕ) (s : ℕ × Asm) :
    kinSwitchLoop (strip p) k co l i s = kinSwitchLoop p k co l i s := by
  induction l generalizing i s with
  | nil => rfl
  | cons a l ih =>
    obtain ⟨q, st⟩ := s
    unfold kinSwitchLoop
    simp only [assignKin_strip, ih]

theorem kinLoop_strip (ids : List ℕ) (cs : List Coefs) (k q : ℕ) (st : Asm) :
    kinLoop (strip p) ids cs k q st = kinLoop p ids cs k q st := by
  induction cs generalizing k q st with
  | nil => rfl
  | cons a l ih =>
    unfold kinLoop
    simp only [assignKin_strip, kinSwitchLoop_strip, ih]

theorem const_strip (p : ProblemData) (T : ℝ) :
    computeConstantWaypoints (strip p).flag (strip p).bc T = computeConstantWaypoints p.flag p.bc T :=
  const_select _ _ _ _

theorem accWaypoints_strip (p : ProblemData) (T : ℝ) (ta : TTime) :
    computeDiscretizedAccelerationWaypoints (strip p) T ta = computeDiscretizedAccelerationWaypoints p T ta := by
  unfold computeDiscretizedAccelerationWaypoints
  rw [const_strip]
  rfl

theorem oneStep_strip (hr : p.representation = DOUBLE_DESCRIPTION) (n : ℕ) (T : ℝ) (ta : TTime) :
    computeConstraintsOneStep (strip p) n T ta = computeConstraintsOneStep p n T ta := by
  have h1 : ∀ ps, computeNumIneq (strip p) n ps = computeNumIneq p n ps := by
    intro ps
    unfold computeNumIneq
    have := fun q => numIneqLoop_strip hr p.contacts ps n 0 0 q
    cases ps.getLast? with
    | none => rfl
    | some b =>
      change (numIneqLoop (p.contacts.map (stripC p.representation)) ps n 0 0 0).bind _ = _
      rw [this]
      rfl
  have h2 : ∀ st ids, assignKinematicConstraints (strip p) st ta T ids = assignKinematicConstraints p st ta T ids := by
    intro st ids
    unfold assignKinematicConstraints computeDiscretizedWaypoints
    rw [const_strip]
    simp only [kinLoop_strip]
    rfl
  have h3 : ∀ st, assignAccelerationConstraints (strip p) st ta T = assignAccelerationConstraints p st ta T := by
    intro st
    unfold assignAccelerationConstraints
    rw [accWaypoints_strip]
    rfl
  unfold computeConstraintsOneStep
  simp only [h1, h2, h3, stab_strip hr]

/-! ## The continuous formulation -/

theorem numIneqContLoop_strip (r : Representation) (a b : ℤ) (cs : List ContactData) :
    numIneqContLoop a b (r == DOUBLE_DESCRIPTION) (cs.map (stripC r)) =
      numIneqContLoop a b (r == DOUBLE_DESCRIPTION) cs := by
  induction cs with
  | nil => rfl
  | cons ct l ih =>
    obtain ⟨o, _, _, _, _⟩ := ct
    rw [List.map_cons]
    unfold numIneqContLoop
    rw [ih]
    by_cases hr : r = DOUBLE_DESCRIPTION
    · cases o <;> simp [stripC, stripE, hr]
    · simp [stripC, hr]

theorem numEqLoop_strip (hr : r ≠ DOUBLE_DESCRIPTION) (a : ℤ) (cs : List ContactData) (n : ℕ) :
    numEqLoop a (cs.map (stripC r)) n = numEqLoop a cs n := by
  induction cs generalizing n with
  | nil => rfl
  | cons ct l ih =>
    obtain ⟨o, _, _, _, _⟩ := ct
    rw [List.map_cons]
    unfold numEqLoop
    cases o with
    | none => rfl
    | some e =>
      simp only [ih, stripC, Option.map_some, stripE, if_neg hr]
      cases l with
      | nil => rfl
      | cons ct2 l2 =>
        obtain ⟨o2, _, _, _, _⟩ := ct2
        cases o2 with
        | none => rfl
        | some e2 => simp [stripC, stripE, hr]

theorem gensOf_strip (hr : p.representation ≠ DOUBLE_DESCRIPTION) (i : ℕ) :
    gensOf (strip p).contacts i = gensOf p.contacts i := by
  unfold gensOf
  rw [getElem_strip]
  cases p.contacts[i]? with
  | none => rfl
  | some ct =>
    obtain ⟨o, _, _, _, _⟩ := ct
    cases o with
    | none => rfl
    | some e => simp [stripC, stripE, hr]

theorem kinContLoop_strip (ct : ContactData) (cs : List Coefs) (st : Asm) :
    kinContLoop (stripC r ct) cs st = kinContLoop ct cs st := by
  induction cs generalizing st with
  | nil => rfl
  | cons a l ih =>
    unfold kinContLoop
    simp only [ih]
    rfl

theorem forceLoop_strip (hr : r ≠ DOUBLE_DESCRIPTION) (e : Equilibrium) (ws : List Wp6) (s : AsmF) :
    forceLoop (stripE r e) ws s = forceLoop e ws s := by
  induction ws generalizing s with
  | nil => rfl
  | cons a l ih =>
    unfold forceLoop
    simp only [ih]
    simp only [assignForce, stripE, if_neg hr]

theorem contPhase_strip (p : ProblemData) (i : ℕ) (more : Bool) (cs ddcs : List Coefs) (ws : List Wp6) (n : ℕ)
    (st : Asm) (sf : AsmF) :
    contPhase (strip p) (p.representation == DOUBLE_DESCRIPTION) i more cs ddcs ws n st sf =
      contPhase p (p.representation == DOUBLE_DESCRIPTION) i more cs ddcs ws n st sf := by
  unfold contPhase
  rw [getElem_strip]
  cases p.contacts[i]? with
  | none => rfl
  | some ct =>
    simp only [Option.map_some, kinContLoop_strip]
    by_cases hr : p.representation = DOUBLE_DESCRIPTION
    · have hu : updateH (strip p).reduce_h (stripC p.representation ct) = updateH p.reduce_h ct :=
        updateH_strip hr p.reduce_h ct
      simp only [hr, beq_self_eq_true, if_true] at hu ⊢
      simp only [hu]
      obtain ⟨o, _, _, _, _⟩ := ct
      cases o <;> rfl
    · have hb : (p.representation == DOUBLE_DESCRIPTION) = false := by simpa using hr
      simp only [hb, Bool.false_eq_true, if_false]
      obtain ⟨o, _, _, _, _⟩ := ct
      cases o with
      | none => rfl
      | some e =>
        have hn : nextGensOf (strip p).contacts i more = nextGensOf p.contacts i more := by
          unfold nextGensOf
          rw [gensOf_strip hr]
        have hg : (stripE p.representation e).gens = e.gens := by simp [stripE, hr]
        simp only [stripC, Option.map_some, hn, forceLoop_strip hr, hg]
        rfl

theorem contLoop_strip (p : ProblemData) (T : ℝ) (c ddc : List Coefs) (w : List Wp6) (Ts : List ℝ) (i : ℕ) (t : ℝ)
    (n : ℕ) (st : Asm) (sf : AsmF) :
    contLoop (strip p) (p.representation == DOUBLE_DESCRIPTION) T c ddc w Ts i t n st sf =
      contLoop p (p.representation == DOUBLE_DESCRIPTION) T c ddc w Ts i t n st sf := by
  induction Ts generalizing i t n st sf with
  | nil => rfl
  | cons D l ih =>
    unfold contLoop
    simp only [contPhase_strip, ih]

theorem continuous_strip (κ : ℝ) (p : ProblemData) (Ts : List ℝ) :
    computeConstraintsContinuous κ (strip p) Ts = computeConstraintsContinuous κ p Ts := by
  have h1 : computeConstantWaypointsSymbolic (strip p).flag (strip p).bc Ts.sum =
      computeConstantWaypointsSymbolic p.flag p.bc Ts.sum := by
    unfold computeConstantWaypointsSymbolic
    rw [const_strip]
    rfl
  have h2 : computeWwaypoints (strip p).flag (strip p).contacts (strip p).bc Ts.sum =
      computeWwaypoints p.flag p.contacts p.bc Ts.sum := wrench_select _ _ _ _ _ _
  have h3 : ∀ c w, contBody κ (strip p) Ts c w = contBody κ p Ts c w := by
    intro c w
    have hi : ∀ a b : ℤ, computeNumIneqContinuous (strip p).contacts Ts.length a b
        (p.representation == DOUBLE_DESCRIPTION) = computeNumIneqContinuous p.contacts Ts.length a b
        (p.representation == DOUBLE_DESCRIPTION) := by
      intro a b
      unfold computeNumIneqContinuous
      have := numIneqContLoop_strip p.representation a b p.contacts
      simp only [strip]
      rw [this]
    have he : ∀ a : ℤ, computeNumEqContinuous (strip p).contacts a (!(p.representation == DOUBLE_DESCRIPTION)) =
        computeNumEqContinuous p.contacts a (!(p.representation == DOUBLE_DESCRIPTION)) := by
      intro a
      unfold computeNumEqContinuous
      by_cases hr : p.representation = DOUBLE_DESCRIPTION
      · simp [hr]
      · have := numEqLoop_strip hr a p.contacts 0
        simp [strip, this]
    have hrep : (strip p).representation = p.representation := rfl
    unfold contBody
    simp only [hrep, hi, he, contLoop_strip]
  unfold computeConstraintsContinuous
  simp only [h1, h2, h3]

/-! ## The planner -/

theorem cost_strip (p : ProblemData) (Ts : List ℝ) (T : ℝ) (ta : TTime) (dim : ℕ) :
    genCostFunction (strip p) Ts T ta dim = genCostFunction p Ts T ta dim := by
  unfold genCostFunction costGenCostFunction
  have hc : (strip p).costFunction = p.costFunction := rfl
  rw [hc]
  refine ite_congr rfl (fun _ => ?_) fun _ => ite_congr rfl (fun h => ?_) fun _ => ite_congr rfl (fun _ => ?_) fun _ => rfl
  · unfold computeCostMinAcceleration
    rw [accWaypoints_strip]
  · simp [computeCostMidPoint, strip, selectBC, h]
  · unfold computeCostEndVelocity
    have hf : (strip p).flag = p.flag := rfl
    rw [hf]
    refine ite_congr rfl (fun _ => rfl) fun h => ?_
    have h0 : p.flag = 0#32 := by
      by_contra hne
      exact h ⟨hne, by decide⟩
    have : ∀ d : BC, computeFinalVelocityPoint p.flag d T = .throw notImplemented := by
      intro d
      rw [h0]
      unfold computeFinalVelocityPoint
      repeat rw [if_neg (by decide)]
    unfold endVelocityBody
    rw [this, this]
    rfl

theorem genTraj_strip (res : ResultData) (p : ProblemData) (T : ℝ) : genTraj res (strip p) T = genTraj res p T := by
  unfold genTraj
  rw [const_strip]
  rfl

theorem length_strip (p : ProblemData) : (strip p).contacts.length = p.contacts.length := by simp [strip]

theorem com_strip (κ : ℝ) (lib : Lib) (fuel : ℕ) (p : ProblemData) (Ts : List ℝ) (step : ℝ) (solver : SolverType) :
    computeCOMTraj κ lib fuel (strip p) Ts step solver = computeCOMTraj κ lib fuel p Ts step solver := by
  have hs : comSystem κ fuel (strip p) Ts step = comSystem κ fuel p Ts step := by
    unfold comSystem
    rw [continuous_strip]
    refine ite_congr rfl (fun _ => ite_congr rfl (fun hr => ?_) fun _ => rfl) fun _ => rfl
    simp only [oneStep_strip hr]
  unfold computeCOMTraj
  simp only [hs, cost_strip, genTraj_strip, length_strip]

theorem fixed_strip (lib : Lib) (fuel : ℕ) (p : ProblemData) (Ts : List ℝ) (n : ℕ) :
    computeCOMTrajFixedSize lib fuel (strip p) Ts n = computeCOMTrajFixedSize lib fuel p Ts n := by
  unfold computeCOMTrajFixedSize
  refine ite_congr rfl (fun hr => ?_) fun _ => rfl
  have hr' : p.representation = DOUBLE_DESCRIPTION := hr
  simp only [oneStep_strip hr', cost_strip, genTraj_strip, length_strip]

theorem stripC_eq {ct ct' : ContactData} (h : SamePhase r ct ct') : stripC r ct = stripC r ct' := by
  obtain ⟨o, K, k, _, _⟩ := ct
  obtain ⟨o', K', k', _, _⟩ := ct'
  obtain ⟨ho, hK, hk⟩ := h
  dsimp only at ho hK hk
  subst hK hk
  unfold stripC
  congr 1
  cases ho with
  | none => rfl
  | some he =>
    obtain ⟨hm, hg, hp, hn⟩ := he
    simp only [Option.map_some, stripE, hm, hg]
    congr 2
    · exact ite_congr rfl (fun h => (hp h).1) fun _ => rfl
    · exact ite_congr rfl (fun h => (hp h).2) fun _ => rfl
    · exact ite_congr rfl (fun _ => rfl) fun h => hn h

theorem strip_eq (h : SameCom p p') : strip p = strip p' := by
  obtain ⟨cs, d, l, u, f, ca, ma, rh, cf, r⟩ := p
  obtain ⟨cs', d', l', u', f', ca', ma', rh', cf', r'⟩ := p'
  obtain ⟨h1, h2, h3, h4, h5, h6, h7, h8, h9⟩ := h
  dsimp only at *
  subst h2 h5 h6 h7 h8 h9
  have hb : selectBC f (cf = DISTANCE_TRAVELED) d = selectBC f (cf = DISTANCE_TRAVELED) d' := by
    unfold selectBC
    congr 1
    · split_ifs with h
      · exact h.elim h3.c0 fun h => (h4 h).1
      · rfl
    · exact ite_congr rfl h3.dc0 fun _ => rfl
    · exact ite_congr rfl h3.ddc0 fun _ => rfl
    · exact ite_congr rfl h3.j0 fun _ => rfl
    · split_ifs with h
      · exact h.elim h3.c1 fun h => (h4 h).2
      · rfl
    · exact ite_congr rfl h3.dc1 fun _ => rfl
    · exact ite_congr rfl h3.ddc1 fun _ => rfl
    · exact ite_congr rfl h3.j1 fun _ => rfl
  have hc : cs.map (stripC r) = cs'.map (stripC r) := by
    clear hb h3 h4
    induction h1 with
    | nil => rfl
    | cons ha _ ih =>
      rw [List.map_cons, List.map_cons, ih]
      congr 1
      exact stripC_eq ha
  simp only [strip, hb, hc]

end Select

/-- C91: two problems that agree on the values selected by the flags, on the used description of the contacts, on the
kinematic constraints and on the options have the same outcome, whatever the rest. -/
theorem C91_com (κ : ℝ) (lib : Lib) (fuel : ℕ) {p p' : ProblemData} (h : SameCom p p') (Ts : List ℝ) (step : ℝ)
    (solver : SolverType) :
    computeCOMTraj κ lib fuel p Ts step solver = computeCOMTraj κ lib fuel p' Ts step solver := by
  rw [← Select.com_strip, Select.strip_eq h, Select.com_strip]

/-- C91 for `computeCOMTrajFixedSize`. -/
theorem C91_fixedSize (lib : Lib) (fuel : ℕ) {p p' : ProblemData} (h : SameCom p p') (Ts : List ℝ) (n : ℕ) :
    computeCOMTrajFixedSize lib fuel p Ts n = computeCOMTrajFixedSize lib fuel p' Ts n := by
  rw [← Select.fixed_strip, Select.strip_eq h, Select.fixed_strip]

/-! ## The zero step problem -/

/-- Two phases agree on what the zero step problem may look at: mass, gravity, the rows of the inequalities (not their
right-hand sides), the kinematic constraints, and with the angular momentum the number of constraints on it. -/
structure SameZeroPhase (ang : Bool) (ct ct' : ContactData) : Prop where
  phase : Option.Rel (fun e e' : Equilibrium => e.mass = e'.mass ∧ e.gravity = e'.gravity ∧ e.isPP = e'.isPP ∧
    e.polyOk = e'.polyOk ∧ e.poly.map (·.1) = e'.poly.map (·.1)) ct.contactPhase ct'.contactPhase
  Kin : ct.Kin = ct'.Kin
  kin : ct.kin = ct'.kin
  ang : ang → ct.ang.length = ct'.ang.length

/-- Two problems agree on what the zero step problem may look at. -/
structure SameZero (p p' : ProblemData) : Prop where
  contacts : List.Forall₂ (SameZeroPhase p.useAngularMomentum) p.contacts p'.contacts
  c0 : p.bc.c0 = p'.bc.c0
  dc0 : p.bc.dc0 = p'.bc.dc0
  ang : p.useAngularMomentum = p'.useAngularMomentum
  l0 : p.useAngularMomentum → p.l0 = p'.l0
  representation : p.representation = p'.representation

namespace Select

theorem ineq6d_same {u : Bool} {ct ct' : ContactData} (h : SameZeroPhase u ct ct') (w wl : List Wp6) :
    compute6dControlPointInequalities ct w wl u = compute6dControlPointInequalities ct' w wl u := by
  obtain ⟨o, K, k, _, a⟩ := ct
  obtain ⟨o', K', k', _, a'⟩ := ct'
  obtain ⟨ho, hK, hk, ha⟩ := h
  dsimp only at ho hK hk ha
  subst hK hk
  have hd : (if u then a.length else 0) = if u then a'.length else 0 := ite_congr rfl ha fun _ => rfl
  unfold compute6dControlPointInequalities
  cases ho with
  | none => rfl
  | @some e e' he =>
    obtain ⟨hm, hg, hp, hq, hr⟩ := he
    have hH : ∀ φ : V3 × V3 → V3 × V3, (e.poly.map fun r => φ r.1) = e'.poly.map fun r => φ r.1 := by
      intro φ
      have := congrArg (List.map φ) hr
      rwa [List.map_map, List.map_map] at this
    have hall : (∀ r ∈ e.poly, r.1 ≠ 0) ↔ ∀ r ∈ e'.poly, r.1 ≠ 0 := by
      have hx : ∀ l : List ((V3 × V3) × ℝ), (∀ r ∈ l, r.1 ≠ 0) ↔ ∀ q ∈ l.map (·.1), q ≠ 0 := by simp
      rw [hx, hx, hr]
    have hH' := hH fun r => (-((norm6 r)⁻¹ • r.1), -((norm6 r)⁻¹ • r.2))
    dsimp only at hH' ⊢
    simp only [hm, hg, hp, hq, hall, hH', hd]
    rfl

theorem quadprog_same (lib : Lib) (fuel : ℕ) (H CE ce CI ci : Mat) {g g' : Mat} (hr : g.rows = g'.rows)
    (he : ∀ i < g.rows, g.e i 0 = g'.e i 0) :
    callQuadprog lib fuel H g CE ce CI ci = callQuadprog lib fuel H g' CE ce CI ci := by
  obtain ⟨n, m, e⟩ := g
  obtain ⟨n', m', e'⟩ := g'
  dsimp only at hr he
  subst hr
  have : qpOf n H ⟨n, m, e⟩ CE ce CI ci = qpOf n H ⟨n, m', e'⟩ CE ce CI ci := by
    unfold qpOf
    congr 1
    funext i
    exact he i i.2
  unfold callQuadprog
  dsimp only
  rw [this]

end Select

/-- C91 for `solve0step`: besides the contact, the result depends on the position and the velocity at the start, and
on the initial angular momentum only when the angular momentum is used. -/
theorem C91_zero (lib : Lib) (fuel : ℕ) {p p' : ProblemData} (h : SameZero p p') (Ts : List ℝ) (step : ℝ) :
    solve0step lib fuel p Ts step = solve0step lib fuel p' Ts step := by
  obtain ⟨cs, d, l, u, f, ca, ma, rh, cf, r⟩ := p
  obtain ⟨cs', d', l', u', f', ca', ma', rh', cf', r'⟩ := p'
  obtain ⟨h1, h2, h3, h4, h5, h6⟩ := h
  dsimp only at *
  subst h4 h6
  unfold solve0step
  refine ite_congr rfl (fun _ => ?_) fun _ => rfl
  dsimp only
  cases h1 with
  | nil => rfl
  | @cons ct ct' l1 l1' ha ht =>
    cases ht with
    | cons _ _ => rfl
    | nil =>
      match Ts with
      | [] => rfl
      | _ :: _ :: _ => rfl
      | [T] =>
        have hi : zeroStepInequalities ct d.c0 d.dc0 l u T step = zeroStepInequalities ct' d'.c0 d'.dc0 l' u T step := by
          unfold zeroStepInequalities
          have hw : angularWaypoints u l T step = angularWaypoints u l' T step := by
            unfold angularWaypoints
            exact ite_congr rfl (fun h => by rw [h5 h]) fun _ => rfl
          simp only [h2, h3, hw, Select.ineq6d_same ha]
          have ho := ha.phase
          revert ho
          generalize ct.contactPhase = o
          generalize ct'.contactPhase = o'
          intro ho
          cases ho with
          | none => rfl
          | some he => simp only [he.2.1]
        have hz : zeroStepResult ⟨ct :: [], d, l, u, f, ca, ma, rh, cf, r⟩ T =
            zeroStepResult ⟨ct' :: [], d', l', u, f', ca', ma', rh', cf', r⟩ T := by
          funext res
          unfold zeroStepResult computeRealCost zeroStepCurve computedL_of_T
          cases u with
          | true => simp only [h2, h3, h5 rfl]
          | false => simp only [h2, h3, Bool.false_eq_true, if_false]
        have hs : ∀ A b init init', solversSolve lib fuel A b (Mat.noRows A.cols) (Mat.noRows 1)
            (zeroStepCost d.c0 l u).1 (zeroStepCost d.c0 l u).2 init [] [] SOLVER_QUADPROG =
            solversSolve lib fuel A b (Mat.noRows A.cols) (Mat.noRows 1)
            (zeroStepCost d'.c0 l' u).1 (zeroStepCost d'.c0 l' u).2 init' [] [] SOLVER_QUADPROG := by
          intro A b init init'
          have hH : (zeroStepCost d.c0 l u).1 = (zeroStepCost d'.c0 l' u).1 := rfl
          unfold solversSolve
          rw [if_pos rfl, if_pos rfl, hH]
          have := fun CI ci => Select.quadprog_same lib fuel (zeroStepCost d'.c0 l' u).1 (Mat.noRows A.cols)
            (Mat.noRows 1).neg CI ci (g := (zeroStepCost d.c0 l u).2) (g' := (zeroStepCost d'.c0 l' u).2) rfl (by
              intro i hi
              unfold zeroStepCost
              dsimp only
              rw [h2]
              refine ite_congr rfl (fun _ => rfl) fun h => ?_
              cases u with
              | true => rw [h5 rfl]
              | false => exact absurd hi h)
          simp only [this]
        dsimp only
        rw [hi, hz]
        congr 1
        funext Ab
        rw [hs]

end Verif
