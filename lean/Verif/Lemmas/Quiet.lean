import Verif.Model.Com

/-!
# Which calls can throw the exception about the number of phases

`Quiet o`: the outcome `o` is not that exception. Everything called after the test of the sizes is quiet.
-/

namespace Verif
open Matrix

/-- The outcome is not the exception about the number of phases. -/
def Quiet {α : Type} (o : Out α) : Prop := o ≠ .throw sizeMsg

theorem Quiet.bind {α β : Type} {o : Out α} {f : α → Out β} (h1 : Quiet o) (h2 : ∀ a, Quiet (f a)) : Quiet (o >>= f) := by
  cases o with
  | ok a => exact h2 a
  | throw m =>
    intro h
    exact h1 (by simpa using h)
  | assertFail => intro h; simp at h
  | ub => intro h; simp at h
  | diverge => intro h; simp at h

theorem Quiet.ok {α : Type} (a : α) : Quiet (Out.ok a) := by intro h; cases h
theorem Quiet.pure {α : Type} (a : α) : Quiet (pure a : Out α) := by intro h; cases h
theorem Quiet.assertFail {α : Type} : Quiet (Out.assertFail : Out α) := by intro h; cases h
theorem Quiet.ub {α : Type} : Quiet (Out.ub : Out α) := by intro h; cases h
theorem Quiet.diverge {α : Type} : Quiet (Out.diverge : Out α) := by intro h; cases h
theorem Quiet.throw {α : Type} {m : String} (h : m ≠ sizeMsg) : Quiet (Out.throw m : Out α) := by
  intro h'; cases h'; exact h rfl

theorem Quiet.rethrow {α β : Type} {o : Out α} {m : String} (h : Quiet o) (he : o = .throw m) :
    Quiet (Out.throw m : Out β) := by
  apply Quiet.throw
  rintro rfl
  exact h he

theorem Quiet.ne {α : Type} {o : Out α} (h : Quiet o) : o ≠ .throw sizeMsg := h

attribute [irreducible] Quiet

/-- One step of the search for a proof of `Quiet`; lemmas are added by `macro_rules`. -/
syntax "quiet_step" : tactic
macro_rules | `(tactic| quiet_step) => `(tactic| dsimp only)
macro_rules | `(tactic| quiet_step) => `(tactic| split)
macro_rules | `(tactic| quiet_step) => `(tactic| (with_reducible intro))
macro_rules | `(tactic| quiet_step) => `(tactic| (with_reducible apply Quiet.bind))
macro_rules | `(tactic| quiet_step) => `(tactic| with_reducible exact Quiet.throw (by decide))
macro_rules | `(tactic| quiet_step) => `(tactic| with_reducible exact Quiet.diverge)
macro_rules | `(tactic| quiet_step) => `(tactic| with_reducible exact Quiet.ub)
macro_rules | `(tactic| quiet_step) => `(tactic| with_reducible exact Quiet.assertFail)
macro_rules | `(tactic| quiet_step) => `(tactic| with_reducible exact Quiet.pure _)
macro_rules | `(tactic| quiet_step) => `(tactic| with_reducible exact Quiet.ok _)
macro_rules | `(tactic| quiet_step) => `(tactic| with_reducible assumption)

/-- Search for a proof of `Quiet`. -/
macro "quiet" : tactic => `(tactic| repeat' quiet_step)

section
variable {α : Type}

theorem quiet_mapList {β : Type} (f : α → Out β) (hf : ∀ a, Quiet (f a)) (l : List α) : Quiet (Out.mapList f l) := by
  induction l with
  | nil => unfold Out.mapList; quiet
  | cons a l ih =>
    unfold Out.mapList
    exact Quiet.bind (hf a) fun b => Quiet.bind ih fun r => Quiet.ok _
end

macro_rules | `(tactic| quiet_step) => `(tactic| (with_reducible apply quiet_mapList))

theorem quiet_write (A : Buf) (i j nr nc : ℕ) (f : ℕ → ℕ → ℝ) : Quiet (A.write i j nr nc f) := by
  unfold Buf.write; quiet
macro_rules | `(tactic| quiet_step) => `(tactic| with_reducible exact quiet_write ..)

theorem quiet_value (A : Buf) : Quiet A.value := by unfold Buf.value; quiet
macro_rules | `(tactic| quiet_step) => `(tactic| with_reducible exact quiet_value ..)

theorem quiet_writeRows (A : Buf) (i j : ℕ) (M : List V3) : Quiet (A.writeRows i j M) := by
  unfold Buf.writeRows; quiet
macro_rules | `(tactic| quiet_step) => `(tactic| with_reducible exact quiet_writeRows ..)

theorem quiet_writeSeg (A : Buf) (i : ℕ) (M : List ℝ) : Quiet (A.writeSeg i M) := by
  unfold Buf.writeSeg; quiet
macro_rules | `(tactic| quiet_step) => `(tactic| with_reducible exact quiet_writeSeg ..)

theorem quiet_put (st : Asm) (M : List (V3 × ℝ)) (n : ℕ) : Quiet (st.put M n) := by
  unfold Asm.put; quiet
macro_rules | `(tactic| quiet_step) => `(tactic| with_reducible exact quiet_put ..)

theorem quiet_rd (pi : List V3) (i : ℕ) : Quiet (rd pi i) := by unfold rd; quiet
macro_rules | `(tactic| quiet_step) => `(tactic| with_reducible exact quiet_rd ..)

theorem quiet_withPts {α : Type} (n : ℕ) (pi : List V3) (f : (ℕ → V3) → α) : Quiet (withPts n pi f) := by
  unfold withPts; quiet
macro_rules | `(tactic| quiet_step) => `(tactic| with_reducible exact quiet_withPts ..)

/-! ## Dispatch -/

theorem quiet_evaluateCurveAtTime (flag : Flag) (pi : List V3) (t : ℝ) : Quiet (evaluateCurveAtTime flag pi t) := by
  unfold evaluateCurveAtTime; quiet
macro_rules | `(tactic| quiet_step) => `(tactic| with_reducible exact quiet_evaluateCurveAtTime ..)

theorem quiet_evaluateAccelerationCurveAtTime (flag : Flag) (pi : List V3) (T t : ℝ) :
    Quiet (evaluateAccelerationCurveAtTime flag pi T t) := by
  unfold evaluateAccelerationCurveAtTime; quiet
macro_rules | `(tactic| quiet_step) => `(tactic| with_reducible exact quiet_evaluateAccelerationCurveAtTime ..)

theorem quiet_computeConstantWaypoints (flag : Flag) (d : BC) (T : ℝ) : Quiet (computeConstantWaypoints flag d T) := by
  unfold computeConstantWaypoints; quiet
macro_rules | `(tactic| quiet_step) => `(tactic| with_reducible exact quiet_computeConstantWaypoints ..)

theorem quiet_computeConstantWaypointsSymbolic (flag : Flag) (d : BC) (T : ℝ) :
    Quiet (computeConstantWaypointsSymbolic flag d T) := by
  unfold computeConstantWaypointsSymbolic; quiet
macro_rules | `(tactic| quiet_step) => `(tactic| with_reducible exact quiet_computeConstantWaypointsSymbolic ..)

theorem quiet_frontGravity (l : List ContactData) : Quiet (frontGravity l) := by unfold frontGravity; quiet
macro_rules | `(tactic| quiet_step) => `(tactic| with_reducible exact quiet_frontGravity ..)

theorem quiet_computeWwaypoints (flag : Flag) (l : List ContactData) (d : BC) (T : ℝ) :
    Quiet (computeWwaypoints flag l d T) := by
  unfold computeWwaypoints; quiet
macro_rules | `(tactic| quiet_step) => `(tactic| with_reducible exact quiet_computeWwaypoints ..)

theorem quiet_computeFinalVelocityPoint (flag : Flag) (d : BC) (T : ℝ) :
    Quiet (computeFinalVelocityPoint flag d T) := by
  unfold computeFinalVelocityPoint; quiet
macro_rules | `(tactic| quiet_step) => `(tactic| with_reducible exact quiet_computeFinalVelocityPoint ..)

theorem quiet_bernLoop (degree : BitVec 32) (fuel : ℕ) : ∀ i res, Quiet (bernLoop degree fuel i res) := by
  induction fuel with
  | zero => intro i res; unfold bernLoop; quiet
  | succ n ih => intro i res; unfold bernLoop; split; exacts [ih _ _, Quiet.ok _]

theorem quiet_ComputeBersteinPolynoms (degree : BitVec 32) (fuel : ℕ) :
    Quiet (ComputeBersteinPolynoms degree fuel) := quiet_bernLoop ..
macro_rules | `(tactic| quiet_step) => `(tactic| with_reducible exact quiet_ComputeBersteinPolynoms ..)

theorem quiet_discWhile (timeStep c : ℝ) (i : ℤ) (fuel : ℕ) : ∀ t acc, Quiet (discWhile timeStep c i fuel t acc) := by
  induction fuel with
  | zero => intro t acc; unfold discWhile; quiet
  | succ n ih => intro t acc; unfold discWhile; split; exacts [ih _ _, Quiet.ok _]
macro_rules | `(tactic| quiet_step) => `(tactic| with_reducible exact quiet_discWhile ..)

theorem quiet_discFor (timeStep : ℝ) (fuel : ℕ) (Ts : List ℝ) : ∀ i c acc, Quiet (discFor timeStep fuel Ts i c acc) := by
  induction Ts with
  | nil => intro i c acc; unfold discFor; quiet
  | cons T Ts ih =>
    intro i c acc; unfold discFor; split
    · exact Quiet.bind (quiet_discWhile ..) fun _ => ih ..
    · quiet

theorem quiet_computeDiscretizedTime (Ts : List ℝ) (timeStep : ℝ) (fuel : ℕ) :
    Quiet (computeDiscretizedTime Ts timeStep fuel) := quiet_discFor ..
macro_rules | `(tactic| quiet_step) => `(tactic| with_reducible exact quiet_computeDiscretizedTime ..)

/-! ## One step -/

theorem quiet_wSum (ps : List Wp6) : ∀ bs t w, Quiet (wSum ps bs t w) := by
  induction ps with
  | nil => intro bs t w; unfold wSum; quiet
  | cons p ps ih =>
    intro bs t w
    cases bs with
    | nil => unfold wSum; quiet
    | cons b bs => unfold wSum; exact ih ..
macro_rules | `(tactic| quiet_step) => `(tactic| with_reducible exact quiet_wSum ..)

theorem quiet_computeDiscretizedWwaypoints (pData : ProblemData) (T : ℝ) (l : TTime) :
    Quiet (computeDiscretizedWwaypoints pData T l) := by
  unfold computeDiscretizedWwaypoints; quiet
macro_rules | `(tactic| quiet_step) => `(tactic| with_reducible exact quiet_computeDiscretizedWwaypoints ..)

theorem quiet_computeDiscretizedWaypoints (pData : ProblemData) (T : ℝ) (l : TTime) :
    Quiet (computeDiscretizedWaypoints pData T l) := by
  unfold computeDiscretizedWaypoints; quiet
macro_rules | `(tactic| quiet_step) => `(tactic| with_reducible exact quiet_computeDiscretizedWaypoints ..)

theorem quiet_computeDiscretizedAccelerationWaypoints (pData : ProblemData) (T : ℝ) (l : TTime) :
    Quiet (computeDiscretizedAccelerationWaypoints pData T l) := by
  unfold computeDiscretizedAccelerationWaypoints; quiet
macro_rules | `(tactic| quiet_step) => `(tactic| with_reducible exact quiet_computeDiscretizedAccelerationWaypoints ..)

theorem quiet_updateH (ρ : ℝ) (ct : ContactData) : Quiet (updateH ρ ct) := by
  unfold updateH
  split
  · quiet
  · dsimp only; quiet
macro_rules | `(tactic| quiet_step) => `(tactic| with_reducible exact quiet_updateH ..)

theorem quiet_stepIdPerPhase (l : TTime) : Quiet (stepIdPerPhase l) := by unfold stepIdPerPhase; quiet
macro_rules | `(tactic| quiet_step) => `(tactic| with_reducible exact quiet_stepIdPerPhase ..)

theorem quiet_numIneqLoop (cts : List ContactData) (ps : List ℕ) (n : ℕ) :
    ∀ i c acc, Quiet (numIneqLoop cts ps n i c acc) := by
  induction n with
  | zero => intro i c acc; unfold numIneqLoop; quiet
  | succ n ih =>
    intro i c acc; unfold numIneqLoop; split
    · split
      · quiet
      · exact ih ..
    · quiet
macro_rules | `(tactic| quiet_step) => `(tactic| with_reducible exact quiet_numIneqLoop ..)

theorem quiet_computeNumIneq (pData : ProblemData) (n : ℕ) (ps : List ℕ) : Quiet (computeNumIneq pData n ps) := by
  unfold computeNumIneq; quiet
macro_rules | `(tactic| quiet_step) => `(tactic| with_reducible exact quiet_computeNumIneq ..)

theorem quiet_assignStabilityConstraintsForTimeStep (st : Asm) (mH : HRows) (g : V3) (w : Wp6) :
    Quiet (assignStabilityConstraintsForTimeStep st mH g w) := quiet_put ..
macro_rules | `(tactic| quiet_step) => `(tactic| with_reducible exact quiet_assignStabilityConstraintsForTimeStep ..)

theorem quiet_switchLoop (pData : ProblemData) (k : ℕ) (w : Wp6) (l : List ℕ) :
    ∀ s, Quiet (switchLoop pData k w l s) := by
  induction l with
  | nil => intro s; unfold switchLoop; quiet
  | cons i l ih =>
    rintro ⟨p, mH, st⟩
    unfold switchLoop
    split
    · split
      · quiet
      · split
        · quiet
        · exact Quiet.bind (quiet_updateH ..) fun _ => Quiet.bind (quiet_put ..) fun _ => ih _
    · exact ih _
macro_rules | `(tactic| quiet_step) => `(tactic| with_reducible exact quiet_switchLoop ..)

theorem quiet_stabLoop (pData : ProblemData) (g : V3) (s : List ℕ) (ws : List Wp6) :
    ∀ k p mH st, Quiet (stabLoop pData g s ws k p mH st) := by
  induction ws with
  | nil => intro k p mH st; unfold stabLoop; quiet
  | cons w ws ih =>
    intro k p mH st; unfold stabLoop
    exact Quiet.bind (quiet_put ..) fun _ => Quiet.bind (quiet_switchLoop ..) fun _ => ih ..
macro_rules | `(tactic| quiet_step) => `(tactic| with_reducible exact quiet_stabLoop ..)

theorem quiet_assignStabilityConstraints (pData : ProblemData) (st : Asm) (l : TTime) (T : ℝ) (s : List ℕ) :
    Quiet (assignStabilityConstraints pData st l T s) := by
  unfold assignStabilityConstraints; quiet
macro_rules | `(tactic| quiet_step) => `(tactic| with_reducible exact quiet_assignStabilityConstraints ..)

theorem quiet_assignKin (pData : ProblemData) (st : Asm) (p : ℕ) (co : Coefs) : Quiet (assignKin pData st p co) := by
  unfold assignKin; quiet
macro_rules | `(tactic| quiet_step) => `(tactic| with_reducible exact quiet_assignKin ..)

theorem quiet_kinSwitchLoop (pData : ProblemData) (k : ℕ) (co : Coefs) (l : List ℕ) :
    ∀ i s, Quiet (kinSwitchLoop pData k co l i s) := by
  induction l with
  | nil => intro i s; unfold kinSwitchLoop; quiet
  | cons a l ih =>
    rintro i ⟨p, st⟩
    unfold kinSwitchLoop
    split
    · exact Quiet.bind (quiet_assignKin ..) fun _ => ih ..
    · exact ih ..
macro_rules | `(tactic| quiet_step) => `(tactic| with_reducible exact quiet_kinSwitchLoop ..)

theorem quiet_kinLoop (pData : ProblemData) (s : List ℕ) (cs : List Coefs) :
    ∀ k p st, Quiet (kinLoop pData s cs k p st) := by
  induction cs with
  | nil => intro k p st; unfold kinLoop; quiet
  | cons w ws ih =>
    intro k p st; unfold kinLoop
    exact Quiet.bind (quiet_assignKin ..) fun _ => Quiet.bind (quiet_kinSwitchLoop ..) fun _ => ih ..
macro_rules | `(tactic| quiet_step) => `(tactic| with_reducible exact quiet_kinLoop ..)

theorem quiet_assignKinematicConstraints (pData : ProblemData) (st : Asm) (l : TTime) (T : ℝ) (s : List ℕ) :
    Quiet (assignKinematicConstraints pData st l T s) := by
  unfold assignKinematicConstraints; quiet
macro_rules | `(tactic| quiet_step) => `(tactic| with_reducible exact quiet_assignKinematicConstraints ..)

theorem quiet_accLoop (b : ℝ) (cs : List Coefs) : ∀ st, Quiet (accLoop b cs st) := by
  induction cs with
  | nil => intro st; unfold accLoop; quiet
  | cons c cs ih => intro st; unfold accLoop; exact Quiet.bind (quiet_put ..) fun _ => ih _
macro_rules | `(tactic| quiet_step) => `(tactic| with_reducible exact quiet_accLoop ..)

theorem quiet_assignAccelerationConstraints (pData : ProblemData) (st : Asm) (l : TTime) (T : ℝ) :
    Quiet (assignAccelerationConstraints pData st l T) := by
  unfold assignAccelerationConstraints; quiet
macro_rules | `(tactic| quiet_step) => `(tactic| with_reducible exact quiet_assignAccelerationConstraints ..)

theorem quiet_computeConstraintsOneStep (pData : ProblemData) (n : ℕ) (T : ℝ) (l : TTime) :
    Quiet (computeConstraintsOneStep pData n T l) := by
  unfold computeConstraintsOneStep; quiet
macro_rules | `(tactic| quiet_step) => `(tactic| with_reducible exact quiet_computeConstraintsOneStep ..)

/-! ## Continuous -/

theorem quiet_extract {E : Type} [AddCommGroup E] [Module ℝ E] (P : List E) (T t1 t2 : ℝ) :
    Quiet (extract P T t1 t2) := by
  unfold extract; quiet
macro_rules | `(tactic| quiet_step) => `(tactic| with_reducible exact quiet_extract ..)

theorem quiet_extractCoefs (P : List Coefs) (T t1 t2 : ℝ) : Quiet (extractCoefs P T t1 t2) := by
  unfold extractCoefs; quiet
macro_rules | `(tactic| quiet_step) => `(tactic| with_reducible exact quiet_extractCoefs ..)

theorem quiet_extractWp6 (P : List Wp6) (T t1 t2 : ℝ) : Quiet (extractWp6 P T t1 t2) := by
  unfold extractWp6; quiet
macro_rules | `(tactic| quiet_step) => `(tactic| with_reducible exact quiet_extractWp6 ..)

theorem quiet_numIneqContLoop (a b : ℤ) (u : Bool) (l : List ContactData) : Quiet (numIneqContLoop a b u l) := by
  induction l with
  | nil => unfold numIneqContLoop; quiet
  | cons c l ih => unfold numIneqContLoop; quiet
macro_rules | `(tactic| quiet_step) => `(tactic| with_reducible exact quiet_numIneqContLoop ..)

theorem quiet_computeNumIneqContinuous (l : List ContactData) (n : ℕ) (a b : ℤ) (u : Bool) :
    Quiet (computeNumIneqContinuous l n a b u) := by
  unfold computeNumIneqContinuous; quiet
macro_rules | `(tactic| quiet_step) => `(tactic| with_reducible exact quiet_computeNumIneqContinuous ..)

theorem quiet_numEqLoop (a : ℤ) (l : List ContactData) : ∀ c, Quiet (numEqLoop a l c) := by
  induction l with
  | nil => intro c; unfold numEqLoop; quiet
  | cons c l ih =>
    intro k; unfold numEqLoop
    split
    · quiet
    · repeat' first | exact ih _ | quiet_step
macro_rules | `(tactic| quiet_step) => `(tactic| with_reducible exact quiet_numEqLoop ..)

theorem quiet_computeNumEqContinuous (l : List ContactData) (a : ℤ) (u : Bool) :
    Quiet (computeNumEqContinuous l a u) := by
  unfold computeNumEqContinuous; quiet
macro_rules | `(tactic| quiet_step) => `(tactic| with_reducible exact quiet_computeNumEqContinuous ..)

theorem quiet_assignForce (w : Wp6) (e : Equilibrium) (s : AsmF) : Quiet (assignForce w e s) := by
  unfold assignForce; quiet
macro_rules | `(tactic| quiet_step) => `(tactic| with_reducible exact quiet_assignForce ..)

theorem quiet_forceLoop (e : Equilibrium) (ws : List Wp6) : ∀ s, Quiet (forceLoop e ws s) := by
  induction ws with
  | nil => intro s; unfold forceLoop; quiet
  | cons w ws ih => intro s; unfold forceLoop; exact Quiet.bind (quiet_assignForce ..) fun _ => ih _
macro_rules | `(tactic| quiet_step) => `(tactic| with_reducible exact quiet_forceLoop ..)

theorem quiet_kinContLoop (ct : ContactData) (cs : List Coefs) : ∀ s, Quiet (kinContLoop ct cs s) := by
  induction cs with
  | nil => intro s; unfold kinContLoop; quiet
  | cons w ws ih =>
    intro s; unfold kinContLoop
    split
    · exact Quiet.bind (quiet_put ..) fun _ => ih _
    · quiet
macro_rules | `(tactic| quiet_step) => `(tactic| with_reducible exact quiet_kinContLoop ..)

theorem quiet_stabContLoop (mH : HRows) (g : V3) (ws : List Wp6) : ∀ s, Quiet (stabContLoop mH g ws s) := by
  induction ws with
  | nil => intro s; unfold stabContLoop; quiet
  | cons w ws ih => intro s; unfold stabContLoop; exact Quiet.bind (quiet_put ..) fun _ => ih _
macro_rules | `(tactic| quiet_step) => `(tactic| with_reducible exact quiet_stabContLoop ..)

theorem quiet_gensOf (cts : List ContactData) (i : ℕ) : Quiet (gensOf cts i) := by unfold gensOf; quiet
macro_rules | `(tactic| quiet_step) => `(tactic| with_reducible exact quiet_gensOf ..)

theorem quiet_nextGensOf (cts : List ContactData) (i : ℕ) (m : Bool) : Quiet (nextGensOf cts i m) := by
  unfold nextGensOf; quiet
macro_rules | `(tactic| quiet_step) => `(tactic| with_reducible exact quiet_nextGensOf ..)

theorem quiet_contPhase (pData : ProblemData) (u : Bool) (i : ℕ) (m : Bool) (cs ddcs : List Coefs) (ws : List Wp6)
    (c : ℕ) (st : Asm) (sf : AsmF) : Quiet (contPhase pData u i m cs ddcs ws c st sf) := by
  unfold contPhase; quiet
macro_rules | `(tactic| quiet_step) => `(tactic| with_reducible exact quiet_contPhase ..)

theorem quiet_contLoop (pData : ProblemData) (u : Bool) (T : ℝ) (c ddc : List Coefs) (w : List Wp6) (Ts : List ℝ) :
    ∀ i t k st sf, Quiet (contLoop pData u T c ddc w Ts i t k st sf) := by
  induction Ts with
  | nil => intro i t k st sf; unfold contLoop; quiet
  | cons D Ts ih =>
    intro i t k st sf; unfold contLoop
    exact Quiet.bind (quiet_extractCoefs ..) fun _ => Quiet.bind (quiet_extractCoefs ..) fun _ =>
      Quiet.bind (quiet_extractWp6 ..) fun _ => Quiet.bind (quiet_contPhase ..) fun _ => ih ..
macro_rules | `(tactic| quiet_step) => `(tactic| with_reducible exact quiet_contLoop ..)

theorem quiet_contBody (κ : ℝ) (pData : ProblemData) (Ts : List ℝ) (c : List Coefs) (w : List Wp6) :
    Quiet (contBody κ pData Ts c w) := by
  unfold contBody; quiet
macro_rules | `(tactic| quiet_step) => `(tactic| with_reducible exact quiet_contBody ..)

theorem quiet_computeConstraintsContinuous (κ : ℝ) (pData : ProblemData) (Ts : List ℝ) :
    Quiet (computeConstraintsContinuous κ pData Ts) := by
  unfold computeConstraintsContinuous; quiet
macro_rules | `(tactic| quiet_step) => `(tactic| with_reducible exact quiet_computeConstraintsContinuous ..)

theorem quiet_comSystem (κ : ℝ) (fuel : ℕ) (pData : ProblemData) (Ts : List ℝ) (s : ℝ) :
    Quiet (comSystem κ fuel pData Ts s) := by
  unfold comSystem; quiet
macro_rules | `(tactic| quiet_step) => `(tactic| with_reducible exact quiet_comSystem ..)

/-! ## Costs -/

theorem quiet_setBlock33 (H : Mat) (k : ℝ) : Quiet (setBlock33 H k) := by unfold setBlock33; quiet
macro_rules | `(tactic| quiet_step) => `(tactic| with_reducible exact quiet_setBlock33 ..)

theorem quiet_setHead3 (H : Mat) (v : V3) : Quiet (setHead3 H v) := by unfold setHead3; quiet
macro_rules | `(tactic| quiet_step) => `(tactic| with_reducible exact quiet_setHead3 ..)

theorem quiet_genCostFunction (pData : ProblemData) (Ts : List ℝ) (T : ℝ) (l : TTime) (n : ℕ) :
    Quiet (genCostFunction pData Ts T l n) := by
  unfold genCostFunction costGenCostFunction computeCostMinAcceleration computeCostMidPoint computeCostEndVelocity
    endVelocityBody
  quiet
macro_rules | `(tactic| quiet_step) => `(tactic| with_reducible exact quiet_genCostFunction ..)

/-! ## The QP solver never throws -/

theorem quiet_addConstraint {n : ℕ} (eps : ℝ) (J : ℕ → VecN n) (R : ℕ → ℕ → ℝ) (d : ℕ → ℝ) (iq : ℕ) (Rn : ℝ) :
    Quiet (addConstraint eps J R d iq Rn) := by
  unfold addConstraint; dsimp only; split <;> quiet

theorem quiet_deleteConstraint {n : ℕ} (m nE : ℕ) (J : ℕ → VecN n) (R : ℕ → ℕ → ℝ) (A : ℕ → ℤ) (u : ℕ → ℝ) (iq : ℕ)
    (l : ℤ) : Quiet (deleteConstraint m nE J R A u iq l) := by
  unfold deleteConstraint; dsimp only; split <;> quiet

theorem quiet_dropActive {n : ℕ} (P : QP n) (st : QState n) (l : ℤ) : Quiet (dropActive P st l) := by
  unfold dropActive
  split
  · split <;> first | quiet | skip
    rename_i h
    exact (quiet_deleteConstraint ..).rethrow h
  · quiet

theorem quiet_fullStep {n : ℕ} (eps : ℝ) (P : QP n) (d : ℕ → ℝ) (st : QState n) : Quiet (fullStep eps P d st) := by
  unfold fullStep
  dsimp only
  split
  · split
    · quiet
    · split
      · split <;> quiet
      · rename_i h; exact (quiet_deleteConstraint ..).rethrow h
      all_goals quiet
  · rename_i h; exact (quiet_addConstraint ..).rethrow h
  all_goals quiet

theorem quiet_qpStep {n : ℕ} (eps : ℝ) (maxIter : ℕ) (P : QP n) (J0 : ℕ → VecN n) (q : QNext n) :
    Quiet (qpStep eps maxIter P J0 q) := by
  unfold qpStep
  cases q with
  | ret r s => quiet
  | eq i s =>
    dsimp only
    unfold stepEq
    dsimp only
    split
    · split
      · split
        · split <;> quiet
        · rename_i h; exact (quiet_addConstraint ..).rethrow h
        all_goals quiet
      · quiet
    · quiet
  | l1 s =>
    dsimp only
    unfold stepL1
    dsimp only
    split
    · quiet
    · split
      · split <;> quiet
      · quiet
  | l2 s =>
    dsimp only
    unfold stepL2
    dsimp only
    split
    · quiet
    · split <;> quiet
  | l2a s =>
    dsimp only
    unfold stepL2a
    dsimp only
    split
    · split
      · split
        · exact quiet_fullStep ..
        · split
          · quiet
          · rename_i h; exact (quiet_dropActive ..).rethrow h
          all_goals quiet
      · split
        · quiet
        · split
          · quiet
          · rename_i h; exact (quiet_dropActive ..).rethrow h
          all_goals quiet
    · quiet

theorem quiet_qpRun {n : ℕ} (eps : ℝ) (maxIter : ℕ) (P : QP n) (J0 : ℕ → VecN n) (k : ℕ) :
    ∀ q, Quiet (qpRun eps maxIter P J0 k q) := by
  induction k with
  | zero => intro q; cases q <;> unfold qpRun <;> quiet
  | succ k ih =>
    intro q
    cases q <;> unfold qpRun
    · quiet
    all_goals exact Quiet.bind (quiet_qpStep ..) ih

theorem quiet_solveQuadprog {n : ℕ} (eps : ℝ) (maxIter : ℕ) (P : QP n) (J0 : ℕ → VecN n) (w : Work n) (k : ℕ) :
    Quiet (solveQuadprog eps maxIter P J0 w k) := quiet_qpRun ..
macro_rules | `(tactic| quiet_step) => `(tactic| with_reducible exact quiet_solveQuadprog ..)

/-! ## The front end -/

theorem quiet_loadCols (M : Mat) (i r n : ℕ) : ∀ j acc, Quiet (loadCols M i r n j acc) := by
  induction n with
  | zero => intro j acc; unfold loadCols; quiet
  | succ n ih =>
    intro j acc; unfold loadCols
    split
    · split
      · refine Quiet.bind ?_ fun _ => ih ..
        unfold pushEntry; quiet
      · exact ih ..
    · quiet
macro_rules | `(tactic| quiet_step) => `(tactic| with_reducible exact quiet_loadCols ..)

theorem quiet_loadRows (M v : Mat) (x : ℕ) (mk : ℝ → LPBnd) (n : ℕ) : ∀ i r st, Quiet (loadRows M v x mk n i r st) := by
  induction n with
  | zero => intro i r st; unfold loadRows; quiet
  | succ n ih =>
    intro i r st; unfold loadRows
    split
    · exact Quiet.bind (quiet_loadCols ..) fun _ => ih ..
    · quiet
macro_rules | `(tactic| quiet_step) => `(tactic| with_reducible exact quiet_loadRows ..)

theorem quiet_loadBounds (g : Mat) (a b : List ℝ) (n : ℕ) : ∀ i st, Quiet (loadBounds g a b n i st) := by
  induction n with
  | zero => intro i st; unfold loadBounds; quiet
  | succ n ih =>
    intro i st; unfold loadBounds
    split
    · split
      · exact ih ..
      · quiet
    · quiet
macro_rules | `(tactic| quiet_step) => `(tactic| with_reducible exact quiet_loadBounds ..)

theorem quiet_solversSolve (lib : Lib) (fuel : ℕ) (A b D d H g : Mat) (i mi ma : List ℝ) (s : SolverType) :
    Quiet (solversSolve lib fuel A b D d H g i mi ma s) := by
  unfold solversSolve addBoundaryConstraintsQuadProg addConstraintMinBoundQuadProg addConstraintMaxBoundQuadProg
    callQuadprog glpkProblem
  quiet
macro_rules | `(tactic| quiet_step) => `(tactic| with_reducible exact quiet_solversSolve ..)

theorem quiet_computeBezierCurve (flag : Flag) (T : ℝ) (pi : List V3) (x : V3) :
    Quiet (computeBezierCurve flag T pi x) := by
  unfold computeBezierCurve bezierInit bezierEnd mkBezier
  quiet
macro_rules | `(tactic| quiet_step) => `(tactic| with_reducible exact quiet_computeBezierCurve ..)

theorem quiet_genTraj (r : ResultData) (pData : ProblemData) (T : ℝ) : Quiet (genTraj r pData T) := by
  unfold genTraj head3; quiet
macro_rules | `(tactic| quiet_step) => `(tactic| with_reducible exact quiet_genTraj ..)

end Verif
