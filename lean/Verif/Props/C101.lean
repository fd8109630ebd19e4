import Verif.Model.PySession
import Verif.Props.C51
import Verif.Props.C91

/-!
# C101: `ProblemData` and `Constraints` objects in a Python session
-/

namespace Verif

/-! ## Specification -/

/-- The values that Python can read. -/
inductive PyLoc where
  | point (p : ℕ) (f : PyPoint)
  | useAng (p : ℕ)
  | cost (p : ℕ)
  | rep (p : ℕ)
  | flag (w : ConsAddr)
  | conAcc (w : ConsAddr)
  | maxAcc (w : ConsAddr)
  | reduceH (w : ConsAddr)

/-- A live problem. -/
def PySession.Live (st : PySession) (p : ℕ) (q : CProblem) : Prop := st.problems[p]? = some (some q)

/-- A live `Constraints` object. -/
def PySession.LiveC (st : PySession) : ConsAddr → CConstraints → Prop
  | .own i, c => st.cons[i]? = some (some c)
  | .member p, c => ∃ q, st.Live p q ∧ q.constraints = c

/-- The value at a place. -/
def PySession.Has (st : PySession) : PyLoc → PyVal → Prop
  | .point p .c0, x => ∃ q, st.Live p q ∧ x = .point q.bc.c0
  | .point p .dc0, x => ∃ q, st.Live p q ∧ x = .point q.bc.dc0
  | .point p .ddc0, x => ∃ q, st.Live p q ∧ x = .point q.bc.ddc0
  | .point p .c1, x => ∃ q, st.Live p q ∧ x = .point q.bc.c1
  | .point p .dc1, x => ∃ q, st.Live p q ∧ x = .point q.bc.dc1
  | .point p .ddc1, x => ∃ q, st.Live p q ∧ x = .point q.bc.ddc1
  | .useAng p, x => ∃ q, st.Live p q ∧ x = .bool q.useAngularMomentum
  | .cost p, x => ∃ q, st.Live p q ∧ x = .enum q.costFunction
  | .rep p, x => ∃ q, st.Live p q ∧ x = .enum q.representation
  | .flag w, x => ∃ c, st.LiveC w c ∧ x = .int c.flag.toInt
  | .conAcc w, x => ∃ c, st.LiveC w c ∧ x = .bool c.constraintAcceleration
  | .maxAcc w, x => ∃ c, st.LiveC w c ∧ x = .real c.maxAcceleration
  | .reduceH w, x => ∃ c, st.LiveC w c ∧ x = .real c.reduce_h

/-- The variable `v` refers to the object `w`. -/
def PySession.Refers (st : PySession) (v : ℕ) (w : ConsAddr) : Prop := st.refs[v]? = some (some w)

/-- The command writes `x` at the place. -/
def PySession.Writes (st : PySession) : PyOp → PyLoc → PyVal → Prop
  | .setPoint p f v, .point p' f', x => p = p' ∧ f = f' ∧ x = .point v
  | .setUseAng p b, .useAng p', x => p = p' ∧ x = .bool b
  | .setCost p k, .cost p', x => p = p' ∧ x = .enum k
  | .setRep p k, .rep p', x => p = p' ∧ x = .enum k
  | .setFlag v k, .flag w, x => st.Refers v w ∧ x = .int k
  | .setConAcc v b, .conAcc w, x => st.Refers v w ∧ x = .bool b
  | .setMaxAcc v r, .maxAcc w, x => st.Refers v w ∧ x = .real r
  | .setReduceH v r, .reduceH w, x => st.Refers v w ∧ x = .real r
  | .setConstraints p v, .flag (.member p'), x => p = p' ∧ ∃ w, st.Refers v w ∧ st.Has (.flag w) x
  | .setConstraints p v, .conAcc (.member p'), x => p = p' ∧ ∃ w, st.Refers v w ∧ st.Has (.conAcc w) x
  | .setConstraints p v, .maxAcc (.member p'), x => p = p' ∧ ∃ w, st.Refers v w ∧ st.Has (.maxAcc w) x
  | .setConstraints p v, .reduceH (.member p'), x => p = p' ∧ ∃ w, st.Refers v w ∧ st.Has (.reduceH w) x
  | _, _, _ => False

/-- The problem, or the `Constraints` object, a place belongs to. -/
def PyLoc.owner : PyLoc → ConsAddr
  | .point p _ => .member p
  | .useAng p => .member p
  | .cost p => .member p
  | .rep p => .member p
  | .flag w => w
  | .conAcc w => w
  | .maxAcc w => w
  | .reduceH w => w

/-- The command destroys the object. -/
def PySession.Destroys (st : PySession) : PyOp → ConsAddr → Prop
  | .delProblem p, .member p' => p = p'
  | .delConstraints v, .own i => st.Refers v (.own i)
  | _, _ => False

/-- The place a command reads. -/
def PySession.Reads (st : PySession) : PyOp → PyLoc → Prop
  | .getPoint p f, .point p' f' => p = p' ∧ f = f'
  | .getUseAng p, .useAng p' => p = p'
  | .getCost p, .cost p' => p = p'
  | .getRep p, .rep p' => p = p'
  | .getFlag v, .flag w => st.Refers v w
  | .getConAcc v, .conAcc w => st.Refers v w
  | .getMaxAcc v, .maxAcc w => st.Refers v w
  | .getReduceH v, .reduceH w => st.Refers v w
  | _, _ => False

/-- The session can be in this state. -/
def PySReach (grows : ℕ → Bool) (st : PySession) : Prop := ∃ cs, PySession.init.run grows cs = .ok st

/-! ## Proofs -/

theorem prob_live {st : PySession} {p : ℕ} {q : CProblem} (h : st.prob p = .ok q) : st.Live p q := by
  unfold PySession.prob at h
  split at h
  · rename_i r hr; cases h; exact hr
  · cases h

theorem Live.prob {st : PySession} {p : ℕ} {q : CProblem} (h : st.Live p q) : st.prob p = .ok q := by
  unfold PySession.prob; rw [h]

theorem ref_refers {st : PySession} {v : ℕ} {w : ConsAddr} (h : st.ref v = .ok w) : st.Refers v w := by
  unfold PySession.ref at h
  split at h
  · rename_i r hr; cases h; exact hr
  · cases h

theorem Refers.ref {st : PySession} {v : ℕ} {w : ConsAddr} (h : st.Refers v w) : st.ref v = .ok w := by
  unfold PySession.ref; rw [h]

theorem load_live {st : PySession} {w : ConsAddr} {c : CConstraints} (h : st.load w = .ok c) : st.LiveC w c := by
  cases w with
  | own i =>
    simp only [PySession.load] at h
    split at h
    · rename_i r hr; cases h; exact hr
    · cases h
  | member p =>
    simp only [PySession.load] at h
    split at h
    · rename_i r hr; cases h; exact ⟨r, hr, rfl⟩
    · cases h

theorem LiveC.load {st : PySession} {w : ConsAddr} {c : CConstraints} (h : st.LiveC w c) : st.load w = .ok c := by
  cases w with
  | own i => simp only [PySession.load]; rw [show st.cons[i]? = some (some c) from h]
  | member p =>
    obtain ⟨q, h1, rfl⟩ := h
    simp only [PySession.load]; rw [show st.problems[p]? = some (some q) from h1]

theorem Live.unique {st : PySession} {p : ℕ} {q q' : CProblem} (h : st.Live p q) (h' : st.Live p q') : q = q' := by
  unfold PySession.Live at h h'
  rw [h] at h'
  exact Option.some.inj (Option.some.inj h')

theorem LiveC.unique {st : PySession} {w : ConsAddr} {c c' : CConstraints} (h : st.LiveC w c) (h' : st.LiveC w c') : c = c' := by
  cases w with
  | own i =>
    have h1 : st.cons[i]? = some (some c) := h
    have h2 : st.cons[i]? = some (some c') := h'
    rw [h1] at h2
    exact Option.some.inj (Option.some.inj h2)
  | member p =>
    obtain ⟨q, h1, rfl⟩ := h
    obtain ⟨q', h2, rfl⟩ := h'
    rw [Live.unique h1 h2]

theorem set_get {α : Type} {l : List (Option α)} {p : ℕ} {q : α} (h : l[p]? = some (some q)) (y : Option α) (p' : ℕ) :
    (l.set p y)[p']? = if p = p' then some y else l[p']? := by
  rw [List.getElem?_set]
  have : p < l.length := by
    by_contra hn
    rw [List.getElem?_eq_none (by omega)] at h
    cases h
  simp [this]

theorem live_setProb {st : PySession} {p : ℕ} {q : CProblem} (h : st.Live p q) (r : CProblem) (p' : ℕ) (s : CProblem) :
    (st.setProb p r).Live p' s ↔ if p = p' then s = r else st.Live p' s := by
  unfold PySession.Live PySession.setProb
  rw [set_get h]
  split
  · simp [eq_comm]
  · rfl

/-- The effect of a setter of `Constraints`. -/
theorem setCons_ok {st st' : PySession} {v : ℕ} {f : CConstraints → CConstraints} {r : PyVal} (h : st.setCons v f = .ok (st', r)) :
    ∃ w c c', st.Refers v w ∧ st.LiveC w c ∧ c' = f c ∧ st'.mem = st.mem ∧ st'.refs = st.refs ∧
      (∀ i d, st'.cons[i]? = some d ↔ if w = .own i then d = some c' else st.cons[i]? = some d) ∧
      (∀ p d, st'.problems[p]? = some d ↔ if w = .member p then ∃ q, st.Live p q ∧ d = some { q with constraints := c' } else st.problems[p]? = some d) := by
  obtain ⟨w, hw, h⟩ := Out.bind_eq_ok.mp h
  obtain ⟨c, hc, h⟩ := Out.bind_eq_ok.mp h
  obtain ⟨st1, hs, h⟩ := Out.bind_eq_ok.mp h
  obtain ⟨rfl, rfl⟩ := Prod.mk.inj (Out.ok.inj h)
  obtain ⟨c', hc'⟩ : ∃ c', c' = f c := ⟨_, rfl⟩
  rw [← hc'] at hs
  refine ⟨w, c, c', ref_refers hw, load_live hc, hc', ?_⟩
  cases w with
  | own i =>
    simp only [PySession.store] at hs
    split at hs
    · rename_i r hr
      obtain rfl := Out.ok.inj hs
      refine ⟨rfl, rfl, fun j d => ?_, fun p d => ?_⟩
      · show (st.cons.set i (some c'))[j]? = some d ↔ _
        rw [set_get hr]
        by_cases hij : i = j
        · subst hij; simp [eq_comm]
        · simp [hij]
      · simp
    · cases hs
  | member p =>
    simp only [PySession.store] at hs
    split at hs
    · rename_i r hr
      obtain rfl := Out.ok.inj hs
      refine ⟨rfl, rfl, fun j d => ?_, fun p' d => ?_⟩
      · simp [PySession.setProb]
      · show (st.problems.set p (some { r with constraints := c' }))[p']? = some d ↔ _
        rw [set_get hr]
        by_cases hij : p = p'
        · subst hij
          simp only [if_true, PySession.Live, hr, Option.some.injEq]
          constructor
          · rintro rfl; exact ⟨r, rfl, rfl⟩
          · rintro ⟨q, rfl, rfl⟩; rfl
        · simp [hij]
    · cases hs

/-- What a place of a problem holds. -/
def PyLoc.readP (q : CProblem) : PyLoc → PyVal
  | .point _ f => .point (getPoint_ q f)
  | .useAng _ => .bool q.useAngularMomentum
  | .cost _ => .enum q.costFunction
  | .rep _ => .enum q.representation
  | .flag _ => .int q.constraints.flag.toInt
  | .conAcc _ => .bool q.constraints.constraintAcceleration
  | .maxAcc _ => .real q.constraints.maxAcceleration
  | .reduceH _ => .real q.constraints.reduce_h

/-- What a place of a `Constraints` object holds. -/
def PyLoc.readC (c : CConstraints) : PyLoc → PyVal
  | .flag _ => .int c.flag.toInt
  | .conAcc _ => .bool c.constraintAcceleration
  | .maxAcc _ => .real c.maxAcceleration
  | .reduceH _ => .real c.reduce_h
  | _ => .none

theorem has_member {st : PySession} {l : PyLoc} {p : ℕ} (h : l.owner = .member p) (x : PyVal) :
    st.Has l x ↔ ∃ q, st.Live p q ∧ x = l.readP q := by
  cases l with
  | point p' f => cases h; cases f <;> rfl
  | useAng p' => cases h; rfl
  | cost p' => cases h; rfl
  | rep p' => cases h; rfl
  | flag w =>
    cases h
    constructor
    · rintro ⟨c, ⟨q, h1, rfl⟩, rfl⟩; exact ⟨q, h1, rfl⟩
    · rintro ⟨q, h1, rfl⟩; exact ⟨_, ⟨q, h1, rfl⟩, rfl⟩
  | conAcc w =>
    cases h
    constructor
    · rintro ⟨c, ⟨q, h1, rfl⟩, rfl⟩; exact ⟨q, h1, rfl⟩
    · rintro ⟨q, h1, rfl⟩; exact ⟨_, ⟨q, h1, rfl⟩, rfl⟩
  | maxAcc w =>
    cases h
    constructor
    · rintro ⟨c, ⟨q, h1, rfl⟩, rfl⟩; exact ⟨q, h1, rfl⟩
    · rintro ⟨q, h1, rfl⟩; exact ⟨_, ⟨q, h1, rfl⟩, rfl⟩
  | reduceH w =>
    cases h
    constructor
    · rintro ⟨c, ⟨q, h1, rfl⟩, rfl⟩; exact ⟨q, h1, rfl⟩
    · rintro ⟨q, h1, rfl⟩; exact ⟨_, ⟨q, h1, rfl⟩, rfl⟩

theorem has_own {st : PySession} {l : PyLoc} {i : ℕ} (h : l.owner = .own i) (x : PyVal) :
    st.Has l x ↔ ∃ c, st.cons[i]? = some (some c) ∧ x = l.readC c := by
  cases l with
  | point p' f => cases h
  | useAng p' => cases h
  | cost p' => cases h
  | rep p' => cases h
  | flag w => cases h; rfl
  | conAcc w => cases h; rfl
  | maxAcc w => cases h; rfl
  | reduceH w => cases h; rfl

theorem Has.unique {st : PySession} {l : PyLoc} {x y : PyVal} (h : st.Has l x) (h' : st.Has l y) : x = y := by
  cases ho : l.owner with
  | own i =>
    obtain ⟨c, h1, rfl⟩ := (has_own ho x).mp h
    obtain ⟨c', h2, rfl⟩ := (has_own ho y).mp h'
    rw [h1] at h2
    rw [Option.some.inj (Option.some.inj h2)]
  | member p =>
    obtain ⟨c, h1, rfl⟩ := (has_member ho x).mp h
    obtain ⟨c', h2, rfl⟩ := (has_member ho y).mp h'
    rw [Live.unique h1 h2]

/-- Everything that was there is still there. -/
theorem has_same {st st' : PySession} (hp : ∀ p q, st.Live p q → st'.Live p q) (hc : ∀ (i : ℕ) (c : CConstraints), st.cons[i]? = some (some c) → st'.cons[i]? = some (some c))
    {l : PyLoc} {x : PyVal} (h : st.Has l x) : st'.Has l x := by
  cases ho : l.owner with
  | own i =>
    obtain ⟨c, h1, h2⟩ := (has_own ho x).mp h
    exact (has_own ho x).mpr ⟨c, hc i c h1, h2⟩
  | member p =>
    obtain ⟨q, h1, h2⟩ := (has_member ho x).mp h
    exact (has_member ho x).mpr ⟨q, hp p q h1, h2⟩

/-- One problem has changed. -/
theorem has_setProb {st : PySession} {p : ℕ} {q r : CProblem} (hq : st.Live p q) {l : PyLoc} {x : PyVal} (h : st.Has l x) :
    (l.owner ≠ .member p ∧ (st.setProb p r).Has l x) ∨ (l.owner = .member p ∧ x = l.readP q ∧ (st.setProb p r).Has l (l.readP r)) := by
  cases ho : l.owner with
  | own i =>
    refine Or.inl ⟨by simp, ?_⟩
    obtain ⟨c, h1, h2⟩ := (has_own ho x).mp h
    exact (has_own ho x).mpr ⟨c, h1, h2⟩
  | member p' =>
    obtain ⟨q', h1, h2⟩ := (has_member ho x).mp h
    by_cases hpp : p' = p
    · subst hpp
      obtain rfl := Live.unique hq h1
      exact Or.inr ⟨rfl, h2, (has_member ho _).mpr ⟨r, (live_setProb hq r _ _).mpr (by simp), rfl⟩⟩
    · refine Or.inl ⟨by simpa using hpp, (has_member ho _).mpr ⟨q', (live_setProb hq r _ _).mpr (by rw [if_neg (Ne.symm hpp)]; exact h1), h2⟩⟩

/-- The law of a command at a place. -/
def PySession.Law (st st' : PySession) (cmd : PyOp) (l : PyLoc) (x : PyVal) : Prop :=
  (∃ y, st.Writes cmd l y ∧ st'.Has l y) ∨ ((∀ y, ¬ st.Writes cmd l y) ∧ st'.Has l x)

theorem law_point {st : PySession} {p : ℕ} {q : CProblem} (hq : st.Live p q) (f : PyPoint) (v : V3) {l : PyLoc} {x : PyVal} (h : st.Has l x) :
    st.Law (st.setProb p (setPoint_ q v f)) (.setPoint p f v) l x := by
  rcases has_setProb (r := setPoint_ q v f) hq h with ⟨h1, h2⟩ | ⟨h1, rfl, h2⟩
  · refine Or.inr ⟨fun y hy => ?_, h2⟩
    cases l <;> simp only [PySession.Writes] at hy
    exact h1 (by rw [hy.1]; rfl)
  · cases l with
    | point p' g =>
      cases h1
      by_cases hfg : f = g
      · subst hfg
        refine Or.inl ⟨_, ⟨rfl, rfl, rfl⟩, ?_⟩
        convert h2 using 1
        cases f <;> rfl
      · refine Or.inr ⟨fun y hy => hfg hy.2.1, ?_⟩
        convert h2 using 1
        cases f <;> cases g <;> first | rfl | exact absurd rfl hfg
    | _ =>
      refine Or.inr ⟨fun y hy => hy, ?_⟩
      convert h2 using 1
      cases f <;> rfl

theorem law_useAng {st : PySession} {p : ℕ} {q : CProblem} (hq : st.Live p q) (v : Bool) {l : PyLoc} {x : PyVal} (h : st.Has l x) :
    st.Law (st.setProb p { q with useAngularMomentum := v }) (.setUseAng p v) l x := by
  rcases has_setProb (r := { q with useAngularMomentum := v }) hq h with ⟨h1, h2⟩ | ⟨h1, rfl, h2⟩
  · refine Or.inr ⟨fun y hy => ?_, h2⟩
    cases l <;> simp only [PySession.Writes] at hy
    exact h1 (by rw [hy.1]; rfl)
  · cases l with
    | useAng p' => cases h1; exact Or.inl ⟨_, ⟨rfl, rfl⟩, h2⟩
    | point p' g => refine Or.inr ⟨fun y hy => hy, ?_⟩; convert h2 using 1; cases g <;> rfl
    | _ => exact Or.inr ⟨fun y hy => hy, h2⟩

theorem law_cost {st : PySession} {p : ℕ} {q : CProblem} (hq : st.Live p q) (v : CostFunction) {l : PyLoc} {x : PyVal} (h : st.Has l x) :
    st.Law (st.setProb p { q with costFunction := v }) (.setCost p v) l x := by
  rcases has_setProb (r := { q with costFunction := v }) hq h with ⟨h1, h2⟩ | ⟨h1, rfl, h2⟩
  · refine Or.inr ⟨fun y hy => ?_, h2⟩
    cases l <;> simp only [PySession.Writes] at hy
    exact h1 (by rw [hy.1]; rfl)
  · cases l with
    | cost p' => cases h1; exact Or.inl ⟨_, ⟨rfl, rfl⟩, h2⟩
    | point p' g => refine Or.inr ⟨fun y hy => hy, ?_⟩; convert h2 using 1; cases g <;> rfl
    | _ => exact Or.inr ⟨fun y hy => hy, h2⟩

theorem law_rep {st : PySession} {p : ℕ} {q : CProblem} (hq : st.Live p q) (v : Representation) {l : PyLoc} {x : PyVal} (h : st.Has l x) :
    st.Law (st.setProb p { q with representation := v }) (.setRep p v) l x := by
  rcases has_setProb (r := { q with representation := v }) hq h with ⟨h1, h2⟩ | ⟨h1, rfl, h2⟩
  · refine Or.inr ⟨fun y hy => ?_, h2⟩
    cases l <;> simp only [PySession.Writes] at hy
    exact h1 (by rw [hy.1]; rfl)
  · cases l with
    | rep p' => cases h1; exact Or.inl ⟨_, ⟨rfl, rfl⟩, h2⟩
    | point p' g => refine Or.inr ⟨fun y hy => hy, ?_⟩; convert h2 using 1; cases g <;> rfl
    | _ => exact Or.inr ⟨fun y hy => hy, h2⟩

theorem law_constraints {st : PySession} {p v : ℕ} {q : CProblem} (hq : st.Live p q) {w : ConsAddr} (hw : st.Refers v w) {c : CConstraints}
    (hc : st.LiveC w c) {l : PyLoc} {x : PyVal} (h : st.Has l x) :
    st.Law (st.setProb p { q with constraints := c }) (.setConstraints p v) l x := by
  rcases has_setProb (r := { q with constraints := c }) hq h with ⟨h1, h2⟩ | ⟨h1, rfl, h2⟩
  · refine Or.inr ⟨fun y hy => ?_, h2⟩
    cases l with
    | flag u => cases u with
      | own i => exact hy
      | member p' => exact h1 (by rw [hy.1]; rfl)
    | conAcc u => cases u with
      | own i => exact hy
      | member p' => exact h1 (by rw [hy.1]; rfl)
    | maxAcc u => cases u with
      | own i => exact hy
      | member p' => exact h1 (by rw [hy.1]; rfl)
    | reduceH u => cases u with
      | own i => exact hy
      | member p' => exact h1 (by rw [hy.1]; rfl)
    | _ => exact hy
  · cases l with
    | flag u => cases h1; exact Or.inl ⟨_, ⟨rfl, w, hw, c, hc, rfl⟩, h2⟩
    | conAcc u => cases h1; exact Or.inl ⟨_, ⟨rfl, w, hw, c, hc, rfl⟩, h2⟩
    | maxAcc u => cases h1; exact Or.inl ⟨_, ⟨rfl, w, hw, c, hc, rfl⟩, h2⟩
    | reduceH u => cases h1; exact Or.inl ⟨_, ⟨rfl, w, hw, c, hc, rfl⟩, h2⟩
    | point p' g => refine Or.inr ⟨fun y hy => hy, ?_⟩; convert h2 using 1; cases g <;> rfl
    | _ => exact Or.inr ⟨fun y hy => hy, h2⟩

/-- A place after a setter of `Constraints`: elsewhere nothing changes; at the object, the field of the new value. -/
theorem has_setCons {st st' : PySession} {v : ℕ} {f : CConstraints → CConstraints} {r : PyVal} (h : st.setCons v f = .ok (st', r)) {l : PyLoc} {x : PyVal}
    (hx : st.Has l x) : ∃ w c c', st.Refers v w ∧ c' = f c ∧
      ((l.owner ≠ w ∧ st'.Has l x) ∨ (l.owner = w ∧ ((x = l.readC c ∧ st'.Has l (l.readC c') ∧ ∃ u, l = .flag u ∨ l = .conAcc u ∨ l = .maxAcc u ∨ l = .reduceH u) ∨
        (st'.Has l x ∧ ∃ p f, l = .point p f ∨ l = .useAng p ∨ l = .cost p ∨ l = .rep p)))) := by
  obtain ⟨w, c, c', h1, h2, h3, -, -, h5, h6⟩ := setCons_ok h
  refine ⟨w, c, c', h1, h3, ?_⟩
  by_cases ho : l.owner = w
  · refine Or.inr ⟨ho, ?_⟩
    cases w with
    | own i =>
      refine Or.inl ?_
      obtain ⟨d, hd, rfl⟩ := (has_own ho x).mp hx
      have h2' : st.cons[i]? = some (some c) := h2
      rw [h2'] at hd
      obtain rfl := Option.some.inj (Option.some.inj hd)
      refine ⟨rfl, (has_own ho _).mpr ⟨c', (h5 i _).mpr (by simp), rfl⟩, ?_⟩
      cases l with
      | flag u => exact ⟨u, by simp⟩
      | conAcc u => exact ⟨u, by simp⟩
      | maxAcc u => exact ⟨u, by simp⟩
      | reduceH u => exact ⟨u, by simp⟩
      | _ => cases ho
    | member p =>
      obtain ⟨q, hq, rfl⟩ := (has_member ho x).mp hx
      obtain ⟨q', hq', rfl⟩ := h2
      obtain rfl := Live.unique hq hq'
      have hn : st'.Live p { q with constraints := c' } := (h6 p _).mpr (by rw [if_pos rfl]; exact ⟨q, hq, rfl⟩)
      cases l with
      | flag u => exact Or.inl ⟨rfl, (has_member ho _).mpr ⟨_, hn, rfl⟩, u, by simp⟩
      | conAcc u => exact Or.inl ⟨rfl, (has_member ho _).mpr ⟨_, hn, rfl⟩, u, by simp⟩
      | maxAcc u => exact Or.inl ⟨rfl, (has_member ho _).mpr ⟨_, hn, rfl⟩, u, by simp⟩
      | reduceH u => exact Or.inl ⟨rfl, (has_member ho _).mpr ⟨_, hn, rfl⟩, u, by simp⟩
      | point p' g => exact Or.inr ⟨(has_member ho _).mpr ⟨_, hn, by cases g <;> rfl⟩, p', g, by simp⟩
      | useAng p' => exact Or.inr ⟨(has_member ho _).mpr ⟨_, hn, rfl⟩, p', .c0, by simp⟩
      | cost p' => exact Or.inr ⟨(has_member ho _).mpr ⟨_, hn, rfl⟩, p', .c0, by simp⟩
      | rep p' => exact Or.inr ⟨(has_member ho _).mpr ⟨_, hn, rfl⟩, p', .c0, by simp⟩
  · refine Or.inl ⟨ho, ?_⟩
    cases hlo : l.owner with
    | own i =>
      obtain ⟨d, hd, rfl⟩ := (has_own hlo x).mp hx
      exact (has_own hlo _).mpr ⟨d, (h5 i _).mpr (by rw [if_neg (by rw [← hlo]; exact Ne.symm ho)]; exact hd), rfl⟩
    | member p =>
      obtain ⟨q, hq, rfl⟩ := (has_member hlo x).mp hx
      exact (has_member hlo _).mpr ⟨q, (h6 p _).mpr (by rw [if_neg (by rw [← hlo]; exact Ne.symm ho)]; exact hq), rfl⟩

theorem setFlag_ok {grows : ℕ → Bool} {st st' : PySession} {v : ℕ} {k : ℤ} {r : PyVal} (h : st.step grows (.setFlag v k) = .ok (st', r)) :
    IsInt k ∧ st.setCons v (fun c => set_Flag c k) = .ok (st', r) := by
  replace h : (if IsInt k then st.setCons v (fun c => set_Flag c k) else (do let _ ← st.ref v; .throw "OverflowError")) = .ok (st', r) := h
  split at h
  · rename_i hk; exact ⟨hk, h⟩
  · obtain ⟨w, -, h⟩ := Out.bind_eq_ok.mp h; cases h

theorem law_setFlag {st st' : PySession} {v : ℕ} {k : ℤ} {r : PyVal} (hi : IsInt k)
    (h : st.setCons v (fun c => set_Flag c k) = .ok (st', r)) {l : PyLoc} {x : PyVal}
    (hx : st.Has l x) : st.Law st' (.setFlag v k) l x := by
  obtain ⟨w, c, c', h1, h2, h3⟩ := has_setCons h hx
  have hk : (BitVec.ofInt 32 k).toInt = k := by
    unfold IsInt at hi
    rw [BitVec.toInt_ofInt]
    apply Int.bmod_eq_of_le <;> norm_num <;> omega
  subst h2
  rcases h3 with ⟨ho, h3⟩ | ⟨rfl, ⟨rfl, h3, u, rfl | rfl | rfl | rfl⟩ | ⟨h3, p, f, rfl | rfl | rfl | rfl⟩⟩
  · refine Or.inr ⟨fun y hy => ?_, h3⟩
    cases l with
    | flag u =>
      have : some (some u) = some (some w) := (show st.refs[v]? = _ from hy.1).symm.trans h1
      exact ho (Option.some.inj (Option.some.inj this))
    | _ => exact hy
  · refine Or.inl ⟨_, ⟨h1, rfl⟩, ?_⟩
    convert h3 using 1
    exact congrArg PyVal.int hk.symm
  all_goals exact Or.inr ⟨fun y hy => hy, h3⟩

theorem law_setConAcc {st st' : PySession} {v : ℕ} {k : Bool} {r : PyVal}
    (h : st.setCons v (fun c => { c with constraintAcceleration := k }) = .ok (st', r)) {l : PyLoc} {x : PyVal} (hx : st.Has l x) :
    st.Law st' (.setConAcc v k) l x := by
  obtain ⟨w, c, c', h1, h2, h3⟩ := has_setCons h hx
  subst h2
  rcases h3 with ⟨ho, h3⟩ | ⟨rfl, ⟨rfl, h3, u, rfl | rfl | rfl | rfl⟩ | ⟨h3, p, f, rfl | rfl | rfl | rfl⟩⟩
  · refine Or.inr ⟨fun y hy => ?_, h3⟩
    cases l with
    | conAcc u =>
      have : some (some u) = some (some w) := (show st.refs[v]? = _ from hy.1).symm.trans h1
      exact ho (Option.some.inj (Option.some.inj this))
    | _ => exact hy
  · exact Or.inr ⟨fun y hy => hy, h3⟩
  · exact Or.inl ⟨_, ⟨h1, rfl⟩, h3⟩
  all_goals exact Or.inr ⟨fun y hy => hy, h3⟩

theorem law_setMaxAcc {st st' : PySession} {v : ℕ} {k : ℝ} {r : PyVal}
    (h : st.setCons v (fun c => { c with maxAcceleration := k }) = .ok (st', r)) {l : PyLoc} {x : PyVal} (hx : st.Has l x) :
    st.Law st' (.setMaxAcc v k) l x := by
  obtain ⟨w, c, c', h1, h2, h3⟩ := has_setCons h hx
  subst h2
  rcases h3 with ⟨ho, h3⟩ | ⟨rfl, ⟨rfl, h3, u, rfl | rfl | rfl | rfl⟩ | ⟨h3, p, f, rfl | rfl | rfl | rfl⟩⟩
  · refine Or.inr ⟨fun y hy => ?_, h3⟩
    cases l with
    | maxAcc u =>
      have : some (some u) = some (some w) := (show st.refs[v]? = _ from hy.1).symm.trans h1
      exact ho (Option.some.inj (Option.some.inj this))
    | _ => exact hy
  · exact Or.inr ⟨fun y hy => hy, h3⟩
  · exact Or.inr ⟨fun y hy => hy, h3⟩
  · exact Or.inl ⟨_, ⟨h1, rfl⟩, h3⟩
  all_goals exact Or.inr ⟨fun y hy => hy, h3⟩

theorem law_setReduceH {st st' : PySession} {v : ℕ} {k : ℝ} {r : PyVal}
    (h : st.setCons v (fun c => { c with reduce_h := k }) = .ok (st', r)) {l : PyLoc} {x : PyVal} (hx : st.Has l x) :
    st.Law st' (.setReduceH v k) l x := by
  obtain ⟨w, c, c', h1, h2, h3⟩ := has_setCons h hx
  subst h2
  rcases h3 with ⟨ho, h3⟩ | ⟨rfl, ⟨rfl, h3, u, rfl | rfl | rfl | rfl⟩ | ⟨h3, p, f, rfl | rfl | rfl | rfl⟩⟩
  · refine Or.inr ⟨fun y hy => ?_, h3⟩
    cases l with
    | reduceH u =>
      have : some (some u) = some (some w) := (show st.refs[v]? = _ from hy.1).symm.trans h1
      exact ho (Option.some.inj (Option.some.inj this))
    | _ => exact hy
  · exact Or.inr ⟨fun y hy => hy, h3⟩
  · exact Or.inr ⟨fun y hy => hy, h3⟩
  · exact Or.inr ⟨fun y hy => hy, h3⟩
  · exact Or.inl ⟨_, ⟨h1, rfl⟩, h3⟩
  all_goals exact Or.inr ⟨fun y hy => hy, h3⟩

theorem append_get {α : Type} {l : List α} {i : ℕ} {a : α} (h : l[i]? = some a) (m : List α) : (l ++ m)[i]? = some a := by
  have : i < l.length := by
    by_contra hn
    rw [List.getElem?_eq_none (by omega)] at h
    cases h
  rw [List.getElem?_append_left this, h]

theorem getCons_ok {st st' : PySession} {v : ℕ} {f : CConstraints → PyVal} {r : PyVal} (h : st.getCons v f = .ok (st', r)) :
    st' = st ∧ ∃ w c, st.Refers v w ∧ st.LiveC w c ∧ r = f c := by
  obtain ⟨w, hw, h⟩ := Out.bind_eq_ok.mp h
  obtain ⟨c, hc, h⟩ := Out.bind_eq_ok.mp h
  obtain ⟨rfl, rfl⟩ := Prod.mk.inj (Out.ok.inj h)
  exact ⟨rfl, w, c, ref_refers hw, load_live hc, rfl⟩

/-- C101, values: a command that succeeds leaves at every place that it does not destroy the value it writes there, and the value that was there if it
writes none. -/
theorem C101_values (grows : ℕ → Bool) {st st' : PySession} {cmd : PyOp} {r : PyVal} (h : st.step grows cmd = .ok (st', r)) (l : PyLoc) (x : PyVal)
    (hx : st.Has l x) (hd : ¬ st.Destroys cmd l.owner) :
    (∃ y, st.Writes cmd l y ∧ st'.Has l y) ∨ ((∀ y, ¬ st.Writes cmd l y) ∧ st'.Has l x) := by
  cases cmd with
  | mem c =>
    refine Or.inr ⟨fun y hy => hy, ?_⟩
    have : ∃ m, st' = { st with mem := m } := by
      cases c <;> simp only [PySession.step] at h <;>
        first
        | cases h; done
        | obtain ⟨m, hm, h⟩ := Out.bind_eq_ok.mp h
          obtain ⟨rfl, rfl⟩ := Prod.mk.inj (Out.ok.inj h)
          exact ⟨m, rfl⟩
    obtain ⟨m, rfl⟩ := this
    exact has_same (fun p q h => h) (fun i c h => h) hx
  | newProblem =>
    obtain ⟨rfl, rfl⟩ := Prod.mk.inj (Out.ok.inj h)
    refine Or.inr ⟨fun y hy => hy, has_same (st := st) ?_ ?_ hx⟩
    · exact fun p q h => append_get (show st.problems[p]? = _ from h) _
    · exact fun i c h => h
  | delProblem p =>
    refine Or.inr ⟨fun y hy => hy, ?_⟩
    obtain ⟨q, hq, h⟩ := Out.bind_eq_ok.mp h
    obtain ⟨rfl, rfl⟩ := Prod.mk.inj (Out.ok.inj h)
    cases ho : l.owner with
    | own i =>
      obtain ⟨d, hd, rfl⟩ := (has_own ho x).mp hx
      exact (has_own ho _).mpr ⟨d, hd, rfl⟩
    | member p' =>
      obtain ⟨q', hq', rfl⟩ := (has_member ho x).mp hx
      have hne : p ≠ p' := fun e => hd (by rw [ho]; exact e)
      refine (has_member ho _).mpr ⟨q', ?_, rfl⟩
      show (st.problems.set p none)[p']? = _
      rw [set_get (prob_live hq), if_neg hne]
      exact hq'
  | getPoint p f =>
    obtain ⟨q, hq, h⟩ := Out.bind_eq_ok.mp h
    obtain ⟨rfl, rfl⟩ := Prod.mk.inj (Out.ok.inj h)
    exact Or.inr ⟨fun y hy => hy, hx⟩
  | setPoint p f v =>
    obtain ⟨q, hq, h⟩ := Out.bind_eq_ok.mp h
    obtain ⟨rfl, rfl⟩ := Prod.mk.inj (Out.ok.inj h)
    exact law_point (prob_live hq) f v hx
  | getUseAng p =>
    obtain ⟨q, hq, h⟩ := Out.bind_eq_ok.mp h
    obtain ⟨rfl, rfl⟩ := Prod.mk.inj (Out.ok.inj h)
    exact Or.inr ⟨fun y hy => hy, hx⟩
  | setUseAng p v =>
    obtain ⟨q, hq, h⟩ := Out.bind_eq_ok.mp h
    obtain ⟨rfl, rfl⟩ := Prod.mk.inj (Out.ok.inj h)
    exact law_useAng (prob_live hq) v hx
  | getCost p =>
    obtain ⟨q, hq, h⟩ := Out.bind_eq_ok.mp h
    obtain ⟨rfl, rfl⟩ := Prod.mk.inj (Out.ok.inj h)
    exact Or.inr ⟨fun y hy => hy, hx⟩
  | setCost p v =>
    obtain ⟨q, hq, h⟩ := Out.bind_eq_ok.mp h
    obtain ⟨rfl, rfl⟩ := Prod.mk.inj (Out.ok.inj h)
    exact law_cost (prob_live hq) v hx
  | getRep p =>
    obtain ⟨q, hq, h⟩ := Out.bind_eq_ok.mp h
    obtain ⟨rfl, rfl⟩ := Prod.mk.inj (Out.ok.inj h)
    exact Or.inr ⟨fun y hy => hy, hx⟩
  | setRep p v =>
    obtain ⟨q, hq, h⟩ := Out.bind_eq_ok.mp h
    obtain ⟨rfl, rfl⟩ := Prod.mk.inj (Out.ok.inj h)
    exact law_rep (prob_live hq) v hx
  | getConstraints p =>
    obtain ⟨q, hq, h⟩ := Out.bind_eq_ok.mp h
    obtain ⟨rfl, rfl⟩ := Prod.mk.inj (Out.ok.inj h)
    exact Or.inr ⟨fun y hy => hy, has_same (fun p q h => h) (fun i c h => h) hx⟩
  | setConstraints p v =>
    obtain ⟨q, hq, h⟩ := Out.bind_eq_ok.mp h
    obtain ⟨w, hw, h⟩ := Out.bind_eq_ok.mp h
    obtain ⟨c, hc, h⟩ := Out.bind_eq_ok.mp h
    obtain ⟨rfl, rfl⟩ := Prod.mk.inj (Out.ok.inj h)
    exact law_constraints (prob_live hq) (ref_refers hw) (load_live hc) hx
  | addContact p i =>
    obtain ⟨q, hq, h⟩ := Out.bind_eq_ok.mp h
    obtain ⟨c, hc, h⟩ := Out.bind_eq_ok.mp h
    obtain ⟨m, hm, h⟩ := Out.bind_eq_ok.mp h
    obtain ⟨rfl, rfl⟩ := Prod.mk.inj (Out.ok.inj h)
    refine Or.inr ⟨fun y hy => hy, ?_⟩
    have key : (st.setProb p { q with contacts := m.2 }).Has l x := by
      rcases has_setProb (r := { q with contacts := m.2 }) (prob_live hq) hx with ⟨-, h2⟩ | ⟨h1, rfl, h2⟩
      · exact h2
      · convert h2 using 1
        cases l with
        | point p f => cases f <;> rfl
        | _ => rfl
    exact has_same (fun p q h => h) (fun i c h => h) key
  | clearContacts p =>
    obtain ⟨q, hq, h⟩ := Out.bind_eq_ok.mp h
    obtain ⟨rfl, rfl⟩ := Prod.mk.inj (Out.ok.inj h)
    refine Or.inr ⟨fun y hy => hy, ?_⟩
    rcases has_setProb (r := { q with contacts := [] }) (prob_live hq) hx with ⟨-, h2⟩ | ⟨h1, rfl, h2⟩
    · exact h2
    · convert h2 using 1
      cases l with
      | point p f => cases f <;> rfl
      | _ => rfl
  | newConstraints =>
    obtain ⟨rfl, rfl⟩ := Prod.mk.inj (Out.ok.inj h)
    refine Or.inr ⟨fun y hy => hy, has_same (st := st) ?_ ?_ hx⟩
    · exact fun p q h => h
    · exact fun i c h => append_get h _
  | delConstraints v =>
    refine Or.inr ⟨fun y hy => hy, ?_⟩
    obtain ⟨w, hw, h⟩ := Out.bind_eq_ok.mp h
    cases w with
    | own i =>
      obtain ⟨rfl, rfl⟩ := Prod.mk.inj (Out.ok.inj h)
      cases ho : l.owner with
      | own j =>
        obtain ⟨d, hd', rfl⟩ := (has_own ho x).mp hx
        have hne : i ≠ j := fun e => hd (by rw [ho, ← e]; exact ref_refers hw)
        refine (has_own ho _).mpr ⟨d, ?_, rfl⟩
        show (st.cons.set i none)[j]? = _
        rw [List.getElem?_set_ne hne]
        exact hd'
      | member p' =>
        obtain ⟨q', hq', rfl⟩ := (has_member ho x).mp hx
        exact (has_member ho _).mpr ⟨q', hq', rfl⟩
    | member p =>
      obtain ⟨rfl, rfl⟩ := Prod.mk.inj (Out.ok.inj h)
      exact has_same (fun p q h => h) (fun i c h => h) hx
  | getFlag v => obtain ⟨rfl, -⟩ := getCons_ok h; exact Or.inr ⟨fun y hy => hy, hx⟩
  | setFlag v k => exact law_setFlag (setFlag_ok h).1 (setFlag_ok h).2 hx
  | getConAcc v => obtain ⟨rfl, -⟩ := getCons_ok h; exact Or.inr ⟨fun y hy => hy, hx⟩
  | setConAcc v k => exact law_setConAcc h hx
  | getMaxAcc v => obtain ⟨rfl, -⟩ := getCons_ok h; exact Or.inr ⟨fun y hy => hy, hx⟩
  | setMaxAcc v k => exact law_setMaxAcc h hx
  | getReduceH v => obtain ⟨rfl, -⟩ := getCons_ok h; exact Or.inr ⟨fun y hy => hy, hx⟩
  | setReduceH v k => exact law_setReduceH h hx

/-- C101, reads: a getter returns the value that is at its place and changes nothing. -/
theorem C101_reads (grows : ℕ → Bool) {st st' : PySession} {cmd : PyOp} {r : PyVal} (h : st.step grows cmd = .ok (st', r)) (l : PyLoc)
    (hl : st.Reads cmd l) : st' = st ∧ st.Has l r := by
  cases cmd with
  | getPoint p f =>
    obtain ⟨q, hq, h⟩ := Out.bind_eq_ok.mp h
    obtain ⟨rfl, rfl⟩ := Prod.mk.inj (Out.ok.inj h)
    cases l with
    | point p' f' =>
      obtain ⟨rfl, rfl⟩ := hl
      exact ⟨rfl, (has_member rfl _).mpr ⟨q, prob_live hq, rfl⟩⟩
    | _ => exact hl.elim
  | getUseAng p =>
    obtain ⟨q, hq, h⟩ := Out.bind_eq_ok.mp h
    obtain ⟨rfl, rfl⟩ := Prod.mk.inj (Out.ok.inj h)
    cases l with
    | useAng p' => cases (show p = p' from hl); exact ⟨rfl, q, prob_live hq, rfl⟩
    | _ => exact hl.elim
  | getCost p =>
    obtain ⟨q, hq, h⟩ := Out.bind_eq_ok.mp h
    obtain ⟨rfl, rfl⟩ := Prod.mk.inj (Out.ok.inj h)
    cases l with
    | cost p' => cases (show p = p' from hl); exact ⟨rfl, q, prob_live hq, rfl⟩
    | _ => exact hl.elim
  | getRep p =>
    obtain ⟨q, hq, h⟩ := Out.bind_eq_ok.mp h
    obtain ⟨rfl, rfl⟩ := Prod.mk.inj (Out.ok.inj h)
    cases l with
    | rep p' => cases (show p = p' from hl); exact ⟨rfl, q, prob_live hq, rfl⟩
    | _ => exact hl.elim
  | getFlag v =>
    obtain ⟨rfl, w, c, h1, h2, rfl⟩ := getCons_ok h
    cases l with
    | flag u =>
      have : some (some u) = some (some w) := (show st'.refs[v]? = _ from hl).symm.trans h1
      cases this
      exact ⟨rfl, c, h2, rfl⟩
    | _ => exact hl.elim
  | getConAcc v =>
    obtain ⟨rfl, w, c, h1, h2, rfl⟩ := getCons_ok h
    cases l with
    | conAcc u =>
      have : some (some u) = some (some w) := (show st'.refs[v]? = _ from hl).symm.trans h1
      cases this
      exact ⟨rfl, c, h2, rfl⟩
    | _ => exact hl.elim
  | getMaxAcc v =>
    obtain ⟨rfl, w, c, h1, h2, rfl⟩ := getCons_ok h
    cases l with
    | maxAcc u =>
      have : some (some u) = some (some w) := (show st'.refs[v]? = _ from hl).symm.trans h1
      cases this
      exact ⟨rfl, c, h2, rfl⟩
    | _ => exact hl.elim
  | getReduceH v =>
    obtain ⟨rfl, w, c, h1, h2, rfl⟩ := getCons_ok h
    cases l with
    | reduceH u =>
      have : some (some u) = some (some w) := (show st'.refs[v]? = _ from hl).symm.trans h1
      cases this
      exact ⟨rfl, c, h2, rfl⟩
    | _ => exact hl.elim
  | _ => exact hl.elim

/-- How a command changes the lists of problems and variables: problems are only added, replaced, or destroyed by `delProblem`; variables are only added, or
deleted by `delConstraints`. -/
theorem step_shape (grows : ℕ → Bool) {st st' : PySession} {cmd : PyOp} {r : PyVal} (h : st.step grows cmd = .ok (st', r)) :
    (∀ v w, st.Refers v w → cmd ≠ .delConstraints v → st'.Refers v w) ∧ (∀ p : ℕ, st.problems[p]? = some none → st'.problems[p]? = some none) ∧
    (∀ p q, st.Live p q → cmd ≠ .delProblem p → ∃ q', st'.Live p q') := by
  have set : ∀ p q r, st.Live p q → (∀ v w, st.Refers v w → (st.setProb p r).Refers v w) ∧
      (∀ p' : ℕ, st.problems[p']? = some none → (st.setProb p r).problems[p']? = some none) ∧ (∀ p' q', st.Live p' q' → ∃ q', (st.setProb p r).Live p' q') := by
    intro p q r hq
    refine ⟨fun v w h => h, fun p' h => ?_, fun p' q' h => ?_⟩
    · show (st.problems.set p (some r))[p']? = _
      rw [set_get hq]
      split
      · rename_i e; subst e; rw [show st.problems[p]? = _ from hq] at h; cases h
      · exact h
    · by_cases e : p = p'
      · exact ⟨r, (live_setProb hq r _ _).mpr (by simp [e])⟩
      · exact ⟨q', (live_setProb hq r _ _).mpr (by rw [if_neg e]; exact h)⟩
  have setC : ∀ v f, st.setCons v f = .ok (st', r) → (∀ v w, st.Refers v w → st'.Refers v w) ∧
      (∀ p' : ℕ, st.problems[p']? = some none → st'.problems[p']? = some none) ∧ (∀ p' q', st.Live p' q' → ∃ q', st'.Live p' q') := by
    intro v f h
    obtain ⟨w, c, c', h1, h2, h3, -, h4, h5, h6⟩ := setCons_ok h
    refine ⟨fun v w h => by unfold PySession.Refers at h ⊢; rw [h4]; exact h, fun p' h => (h6 p' _).mpr ?_, fun p' q' h => ?_⟩
    · split
      · rename_i e; subst e
        obtain ⟨q, h7, -⟩ := h2
        rw [show st.problems[p']? = _ from h7] at h; cases h
      · exact h
    · by_cases e : w = .member p'
      · exact ⟨{ q' with constraints := c' }, (h6 p' _).mpr (by rw [if_pos e]; exact ⟨q', h, rfl⟩)⟩
      · exact ⟨q', (h6 p' _).mpr (by rw [if_neg e]; exact h)⟩
  have weak : (∀ v w, st.Refers v w → st'.Refers v w) ∧ (∀ p' : ℕ, st.problems[p']? = some none → st'.problems[p']? = some none) ∧
      (∀ p' q', st.Live p' q' → ∃ q', st'.Live p' q') → (∀ v w, st.Refers v w → cmd ≠ .delConstraints v → st'.Refers v w) ∧
      (∀ p : ℕ, st.problems[p]? = some none → st'.problems[p]? = some none) ∧ (∀ p q, st.Live p q → cmd ≠ .delProblem p → ∃ q', st'.Live p q') :=
    fun ⟨a, b, c⟩ => ⟨fun v w h _ => a v w h, b, fun p q h _ => c p q h⟩
  have same : st' = st → (∀ v w, st.Refers v w → cmd ≠ .delConstraints v → st'.Refers v w) ∧
      (∀ p : ℕ, st.problems[p]? = some none → st'.problems[p]? = some none) ∧ (∀ p q, st.Live p q → cmd ≠ .delProblem p → ∃ q', st'.Live p q') := by
    rintro rfl
    exact ⟨fun v w h _ => h, fun p h => h, fun p q h _ => ⟨q, h⟩⟩
  cases cmd with
  | mem c =>
    have : ∃ m, st' = { st with mem := m } := by
      cases c <;> simp only [PySession.step] at h <;>
        first
        | cases h; done
        | obtain ⟨m, hm, h⟩ := Out.bind_eq_ok.mp h
          obtain ⟨rfl, rfl⟩ := Prod.mk.inj (Out.ok.inj h)
          exact ⟨m, rfl⟩
    obtain ⟨m, rfl⟩ := this
    exact ⟨fun v w h _ => h, fun p h => h, fun p q h _ => ⟨q, h⟩⟩
  | newProblem =>
    obtain ⟨rfl, rfl⟩ := Prod.mk.inj (Out.ok.inj h)
    exact ⟨fun v w h _ => h, fun p h => append_get h _, fun p q h _ => ⟨q, append_get (show st.problems[p]? = _ from h) _⟩⟩
  | delProblem p =>
    obtain ⟨q, hq, h⟩ := Out.bind_eq_ok.mp h
    obtain ⟨rfl, rfl⟩ := Prod.mk.inj (Out.ok.inj h)
    refine ⟨fun v w h _ => h, fun p' h => ?_, fun p' q' h hne => ⟨q', ?_⟩⟩
    · show (st.problems.set p none)[p']? = _
      rw [set_get (prob_live hq)]
      split
      · rfl
      · exact h
    · show (st.problems.set p none)[p']? = _
      rw [set_get (prob_live hq), if_neg (fun e => hne (by rw [e]))]
      exact h
  | getPoint p f => obtain ⟨q, hq, h⟩ := Out.bind_eq_ok.mp h; exact same (Prod.mk.inj (Out.ok.inj h)).1.symm
  | setPoint p f v =>
    obtain ⟨q, hq, h⟩ := Out.bind_eq_ok.mp h
    obtain ⟨rfl, rfl⟩ := Prod.mk.inj (Out.ok.inj h)
    exact weak (set _ _ _ (prob_live hq))
  | getUseAng p => obtain ⟨q, hq, h⟩ := Out.bind_eq_ok.mp h; exact same (Prod.mk.inj (Out.ok.inj h)).1.symm
  | setUseAng p v =>
    obtain ⟨q, hq, h⟩ := Out.bind_eq_ok.mp h
    obtain ⟨rfl, rfl⟩ := Prod.mk.inj (Out.ok.inj h)
    exact weak (set _ _ _ (prob_live hq))
  | getCost p => obtain ⟨q, hq, h⟩ := Out.bind_eq_ok.mp h; exact same (Prod.mk.inj (Out.ok.inj h)).1.symm
  | setCost p v =>
    obtain ⟨q, hq, h⟩ := Out.bind_eq_ok.mp h
    obtain ⟨rfl, rfl⟩ := Prod.mk.inj (Out.ok.inj h)
    exact weak (set _ _ _ (prob_live hq))
  | getRep p => obtain ⟨q, hq, h⟩ := Out.bind_eq_ok.mp h; exact same (Prod.mk.inj (Out.ok.inj h)).1.symm
  | setRep p v =>
    obtain ⟨q, hq, h⟩ := Out.bind_eq_ok.mp h
    obtain ⟨rfl, rfl⟩ := Prod.mk.inj (Out.ok.inj h)
    exact weak (set _ _ _ (prob_live hq))
  | getConstraints p =>
    obtain ⟨q, hq, h⟩ := Out.bind_eq_ok.mp h
    obtain ⟨rfl, rfl⟩ := Prod.mk.inj (Out.ok.inj h)
    exact ⟨fun v w h _ => append_get (show st.refs[v]? = _ from h) _, fun p h => h, fun p q h _ => ⟨q, h⟩⟩
  | setConstraints p v =>
    obtain ⟨q, hq, h⟩ := Out.bind_eq_ok.mp h
    obtain ⟨w, hw, h⟩ := Out.bind_eq_ok.mp h
    obtain ⟨c, hc, h⟩ := Out.bind_eq_ok.mp h
    obtain ⟨rfl, rfl⟩ := Prod.mk.inj (Out.ok.inj h)
    exact weak (set _ _ _ (prob_live hq))
  | addContact p i =>
    obtain ⟨q, hq, h⟩ := Out.bind_eq_ok.mp h
    obtain ⟨c, hc, h⟩ := Out.bind_eq_ok.mp h
    obtain ⟨m, hm, h⟩ := Out.bind_eq_ok.mp h
    obtain ⟨rfl, rfl⟩ := Prod.mk.inj (Out.ok.inj h)
    exact weak (set _ _ { q with contacts := m.2 } (prob_live hq))
  | clearContacts p =>
    obtain ⟨q, hq, h⟩ := Out.bind_eq_ok.mp h
    obtain ⟨rfl, rfl⟩ := Prod.mk.inj (Out.ok.inj h)
    exact weak (set _ _ _ (prob_live hq))
  | newConstraints =>
    obtain ⟨rfl, rfl⟩ := Prod.mk.inj (Out.ok.inj h)
    exact ⟨fun v w h _ => append_get (show st.refs[v]? = _ from h) _, fun p h => h, fun p q h _ => ⟨q, h⟩⟩
  | delConstraints v =>
    obtain ⟨w, hw, h⟩ := Out.bind_eq_ok.mp h
    have key : ∀ u y, st.Refers u y → PyOp.delConstraints v ≠ .delConstraints u → (st.refs.set v none)[u]? = some (some y) := by
      intro u y h hne
      rw [List.getElem?_set_ne (fun e => hne (by rw [e]))]
      exact h
    cases w with
    | own i =>
      obtain ⟨rfl, rfl⟩ := Prod.mk.inj (Out.ok.inj h)
      exact ⟨key, fun p h => h, fun p q h _ => ⟨q, h⟩⟩
    | member p =>
      obtain ⟨rfl, rfl⟩ := Prod.mk.inj (Out.ok.inj h)
      exact ⟨key, fun p h => h, fun p q h _ => ⟨q, h⟩⟩
  | getFlag v => exact same (getCons_ok h).1
  | setFlag v k => exact weak (setC _ _ (setFlag_ok h).2)
  | getConAcc v => exact same (getCons_ok h).1
  | setConAcc v k => exact weak (setC _ _ h)
  | getMaxAcc v => exact same (getCons_ok h).1
  | setMaxAcc v k => exact weak (setC _ _ h)
  | getReduceH v => exact same (getCons_ok h).1
  | setReduceH v k => exact weak (setC _ _ h)

/-- Induction on sessions. -/
theorem session_induct (grows : ℕ → Bool) (Q : PySession → Prop) (ok : PyOp → Prop)
    (hstep : ∀ st st' cmd r, ok cmd → Q st → st.step grows cmd = .ok (st', r) → Q st') :
    ∀ (cs : List PyOp) (st st' : PySession), (∀ c ∈ cs, ok c) → Q st → st.run grows cs = .ok st' → Q st' := by
  intro cs
  induction cs with
  | nil => intro st st' _ hq h; cases h; exact hq
  | cons c cs ih =>
    intro st st' hok hq h
    rw [PySession.run] at h
    have hok' : ∀ c ∈ cs, ok c := fun d hd => hok d (List.mem_cons_of_mem _ hd)
    split at h
    · rename_i r hr
      exact ih _ _ hok' (hstep _ _ _ _ (hok c (by simp)) hq (show st.step grows c = .ok (r.1, r.2) from hr)) h
    · exact ih _ _ hok' hq h
    · cases h
    · cases h
    · cases h

theorem run_refers (grows : ℕ → Bool) {st st' : PySession} {cs : List PyOp} {v : ℕ} {w : ConsAddr} (h : st.Refers v w) (hv : .delConstraints v ∉ cs)
    (hr : st.run grows cs = .ok st') : st'.Refers v w :=
  session_induct grows (fun s => s.Refers v w) (fun c => c ≠ .delConstraints v) (fun _ _ _ _ hc hq hs => (step_shape grows hs).1 v w hq hc) cs st st'
    (fun c hc e => hv (e ▸ hc)) h hr

theorem run_live (grows : ℕ → Bool) {st st' : PySession} {cs : List PyOp} {p : ℕ} {q : CProblem} (h : st.Live p q) (hp : .delProblem p ∉ cs)
    (hr : st.run grows cs = .ok st') : ∃ q', st'.Live p q' :=
  session_induct grows (fun s => ∃ q, s.Live p q) (fun c => c ≠ .delProblem p) (fun _ _ _ _ hc hq hs => by
    obtain ⟨q, hq⟩ := hq
    exact (step_shape grows hs).2.2 p q hq hc) cs st st' (fun c hc e => hp (e ▸ hc)) ⟨q, h⟩ hr

theorem run_dead (grows : ℕ → Bool) {st st' : PySession} {cs : List PyOp} {p : ℕ} (h : st.problems[p]? = some none)
    (hr : st.run grows cs = .ok st') : st'.problems[p]? = some none :=
  session_induct grows (fun s => s.problems[p]? = some none) (fun _ => True) (fun _ _ _ _ _ hq hs => (step_shape grows hs).2.1 p hq) cs st st'
    (fun _ _ => trivial) h hr

/-- C101, `v = p.constraints_` is a reference: as long as neither is deleted, whatever else happens, reading through `v` gives the values with which
`computeCOMTraj` is called on `p`. -/
theorem C101_reference (grows : ℕ → Bool) {st st1 st' : PySession} {p : ℕ} {r : PyVal} (h : st.step grows (.getConstraints p) = .ok (st1, r))
    (cs : List PyOp) (hv : .delConstraints st.refs.length ∉ cs) (hp : .delProblem p ∉ cs) (hr : st1.run grows cs = .ok st') :
    ∃ q, st'.Live p q ∧ st'.step grows (.getFlag st.refs.length) = .ok (st', .int q.constraints.flag.toInt) ∧
      st'.step grows (.getConAcc st.refs.length) = .ok (st', .bool q.constraints.constraintAcceleration) ∧
      st'.step grows (.getMaxAcc st.refs.length) = .ok (st', .real q.constraints.maxAcceleration) ∧
      st'.step grows (.getReduceH st.refs.length) = .ok (st', .real q.constraints.reduce_h) ∧
      ∀ l0 d, st'.problemData p l0 = .ok d → d.flag = q.constraints.flag ∧ d.constraintAcceleration = q.constraints.constraintAcceleration ∧
        d.maxAcceleration = q.constraints.maxAcceleration ∧ d.reduce_h = q.constraints.reduce_h := by
  obtain ⟨q, hq, h⟩ := Out.bind_eq_ok.mp h
  obtain ⟨rfl, rfl⟩ := Prod.mk.inj (Out.ok.inj h)
  have h1 : PySession.Refers { st with refs := st.refs ++ [some (.member p)] } st.refs.length (.member p) := by simp [PySession.Refers]
  have h2 := run_refers grows h1 hv hr
  obtain ⟨q', h3⟩ := run_live grows (q := q) (show PySession.Live { st with refs := st.refs ++ [some (.member p)] } p q from prob_live hq) hp hr
  have h4 : ∀ f, st'.getCons st.refs.length f = .ok (st', f q'.constraints) := by
    intro f
    unfold PySession.getCons
    rw [Refers.ref h2, Out.ok_bind, LiveC.load (show st'.LiveC (.member p) q'.constraints from ⟨q', h3, rfl⟩)]
    rfl
  refine ⟨q', h3, h4 _, h4 _, h4 _, h4 _, fun l0 d hd => ?_⟩
  unfold PySession.problemData at hd
  rw [Live.prob h3, Out.ok_bind] at hd
  obtain ⟨cts, -, hd⟩ := Out.bind_eq_ok.mp hd
  obtain rfl := Out.ok.inj hd
  exact ⟨rfl, rfl, rfl, rfl⟩

/-- The commands that use the object a `Constraints` variable refers to. -/
def PyOp.Uses (v : ℕ) : PyOp → Prop
  | .getFlag u => u = v
  | .setFlag u k => u = v ∧ IsInt k
  | .getConAcc u => u = v
  | .setConAcc u _ => u = v
  | .getMaxAcc u => u = v
  | .setMaxAcc u _ => u = v
  | .getReduceH u => u = v
  | .setReduceH u _ => u = v
  | _ => False

theorem uses_dead (grows : ℕ → Bool) {st : PySession} {v : ℕ} {w : ConsAddr} (h : st.Refers v w) (hd : st.load w = .ub) :
    (∀ cmd : PyOp, cmd.Uses v → st.step grows cmd = .ub) ∧ ∀ p q, st.Live p q → st.step grows (.setConstraints p v) = .ub := by
  have hg : ∀ f, st.getCons v f = .ub := by
    intro f
    unfold PySession.getCons
    rw [Refers.ref h, Out.ok_bind, hd, Out.ub_bind]
  have hs : ∀ f, st.setCons v f = .ub := by
    intro f
    unfold PySession.setCons
    rw [Refers.ref h, Out.ok_bind, hd, Out.ub_bind]
  refine ⟨fun cmd hc => ?_, fun p q hq => ?_⟩
  · cases cmd with
    | getFlag u => cases (show u = v from hc); exact hg _
    | setFlag u k =>
      obtain ⟨rfl, hk⟩ : u = v ∧ IsInt k := hc
      simp only [PySession.step]
      rw [if_pos hk]
      exact hs _
    | getConAcc u => cases (show u = v from hc); exact hg _
    | setConAcc u k => cases (show u = v from hc); exact hs _
    | getMaxAcc u => cases (show u = v from hc); exact hg _
    | setMaxAcc u k => cases (show u = v from hc); exact hs _
    | getReduceH u => cases (show u = v from hc); exact hg _
    | setReduceH u k => cases (show u = v from hc); exact hs _
    | _ => exact hc.elim
  · simp only [PySession.step]
    rw [Live.prob hq, Out.ok_bind, Refers.ref h, Out.ok_bind, hd, Out.ub_bind]

/-- C101, the reference does not keep the problem alive: once the problem is deleted, however long ago, every use of the variable is undefined behaviour. -/
theorem C101_dangling (grows : ℕ → Bool) {st st1 st' : PySession} {p v : ℕ} {r : PyVal} (hv : st.Refers v (.member p))
    (h : st.step grows (.delProblem p) = .ok (st1, r)) (cs : List PyOp) (hc : .delConstraints v ∉ cs) (hr : st1.run grows cs = .ok st') :
    (∀ cmd : PyOp, cmd.Uses v → st'.step grows cmd = .ub) ∧ ∀ p q, st'.Live p q → st'.step grows (.setConstraints p v) = .ub := by
  obtain ⟨q, hq, h⟩ := Out.bind_eq_ok.mp h
  obtain ⟨rfl, rfl⟩ := Prod.mk.inj (Out.ok.inj h)
  have hdead : (st.problems.set p none)[p]? = some none := by rw [set_get (prob_live hq)]; simp
  have h1 := run_dead grows (st := { st with problems := st.problems.set p none }) hdead hr
  have h2 := run_refers grows (st := { st with problems := st.problems.set p none }) hv hc hr
  refine uses_dead grows h2 ?_
  simp only [PySession.load]
  rw [h1]

/-! ## What the planners are called with -/

/-- The contacts of all problems. -/
def PySession.held (st : PySession) : List CContact := st.problems.flatMap fun o => match o with
  | some q => q.contacts
  | none => []

theorem mem_held {st : PySession} {c : CContact} : c ∈ st.held ↔ ∃ p q, st.Live p q ∧ c ∈ q.contacts := by
  unfold PySession.held
  rw [List.mem_flatMap]
  constructor
  · rintro ⟨o, ho, hc⟩
    cases o with
    | none => simp at hc
    | some q =>
      obtain ⟨p, hp⟩ := List.mem_iff_getElem?.mp ho
      exact ⟨p, q, hp, hc⟩
  · rintro ⟨p, q, hp, hc⟩
    exact ⟨some q, List.mem_of_getElem? hp, hc⟩

/-- The contacts that a problem sees. -/
def PySession.seen (st : PySession) (q : CProblem) : List ContactData := q.contacts.map (·.value st.mem.heap)

/-- The invariant. -/
structure SInv (st : PySession) : Prop where
  mem : PyInv { st.mem with problem := st.held }
  own : ∀ v i, st.Refers v (.own i) → (∃ c, st.cons[i]? = some (some c)) ∧ ∀ v', st.Refers v' (.own i) → v' = v
  member : ∀ v p, st.Refers v (.member p) → p < st.problems.length
  jerk : ∀ p q, st.Live p q → q.bc.j0 = 0 ∧ q.bc.j1 = 0

theorem PyInv.mono {m : PyState} {L L' : List CContact} (h : PyInv { m with problem := L }) (hL : ∀ c ∈ L', c ∈ L) : PyInv { m with problem := L' } :=
  ⟨fun c hc => h.alive c (hL c hc), fun v p hv => ⟨(h.vars v p hv).1, fun c hc => (h.vars v p hv).2 c (hL c hc)⟩,
    fun p hp a ha => ⟨(h.datas p hp a ha).1, fun c hc => (h.datas p hp a ha).2 c (hL c hc)⟩,
    fun p hp a ha => ⟨(h.wards p hp a ha).1, fun c hc => (h.wards p hp a ha).2 c (hL c hc)⟩⟩

theorem SInv.init : SInv PySession.init :=
  ⟨by simpa [PySession.held, PySession.init, PyState.init] using PyInv.init, fun v i h => by simp [PySession.Refers, PySession.init] at h,
    fun v i h => by simp [PySession.Refers, PySession.init] at h, fun v i h => by simp [PySession.Live, PySession.init] at h⟩

theorem release_other (m : PyState) (a : ℕ) (L : List CContact) : PyState.release { m with problem := L } a = { m.release a with problem := L } := by
  unfold PyState.release
  by_cases h : m.Kept a
  · rw [if_pos h, if_pos (show PyState.Kept { m with problem := L } a from h)]
  · rw [if_neg h, if_neg (show ¬ PyState.Kept { m with problem := L } a from h)]

/-- The commands on equilibrium and contact objects do not look at the problem, unless they are about it. -/
theorem step_other {grows : ℕ → Bool} {m m' : PyState} {c : PyCmd} (h : m.step grows c = .ok m') (h1 : ∀ i, c ≠ .addContact i) (h2 : c ≠ .clearContacts)
    (L : List CContact) : PyState.step grows { m with problem := L } c = .ok { m' with problem := L } := by
  cases c with
  | newEq e => obtain rfl := Out.ok.inj h; rfl
  | setEq v e =>
    obtain ⟨w, hw, h⟩ := Out.bind_eq_ok.mp h
    simp only [PyState.step]
    rw [show PyState.var { m with problem := L } v = .ok w from hw, Out.ok_bind]
    split at h
    · cases h
    · rename_i o ho
      obtain rfl := Out.ok.inj h
      rfl
  | aliasEq v =>
    obtain ⟨w, hw, h⟩ := Out.bind_eq_ok.mp h
    obtain rfl := Out.ok.inj h
    simp only [PyState.step]
    rw [show PyState.var { m with problem := L } v = .ok w from hw, Out.ok_bind]
    rfl
  | delEq v =>
    obtain ⟨w, hw, h⟩ := Out.bind_eq_ok.mp h
    obtain rfl := Out.ok.inj h
    simp only [PyState.step]
    rw [show PyState.var { m with problem := L } v = .ok w from hw, Out.ok_bind]
    cases w.2
    · rfl
    · exact congrArg Out.ok (release_other { m with eqs := m.eqs.set v none } w.1 L)
  | newContact v =>
    cases v with
    | none => obtain rfl := Out.ok.inj h; rfl
    | some v =>
      obtain ⟨w, hw, h⟩ := Out.bind_eq_ok.mp h
      obtain rfl := Out.ok.inj h
      simp only [PyState.step]
      rw [show PyState.var { m with problem := L } v = .ok w from hw, Out.ok_bind]
      rfl
  | delContact i =>
    obtain ⟨c, hc, h⟩ := Out.bind_eq_ok.mp h
    simp only [PyState.step]
    rw [show PyState.contact { m with problem := L } i = .ok c from hc, Out.ok_bind]
    dsimp only at h ⊢
    cases hw : c.ward with
    | none => rw [hw] at h; obtain rfl := Out.ok.inj h; rfl
    | some a =>
      rw [hw] at h
      obtain rfl := Out.ok.inj h
      exact congrArg Out.ok (release_other { m with contacts := m.contacts.set i none } a L)
  | getPhase i =>
    obtain ⟨w, hw, h⟩ := Out.bind_eq_ok.mp h
    obtain ⟨a, ha, h⟩ := Out.bind_eq_ok.mp h
    obtain rfl := Out.ok.inj h
    simp only [PyState.step]
    rw [show PyState.contact { m with problem := L } i = .ok w from hw, Out.ok_bind, ha, Out.ok_bind]
    rfl
  | setPhase i v =>
    obtain ⟨c, hc, h⟩ := Out.bind_eq_ok.mp h
    obtain ⟨w, hw, h⟩ := Out.bind_eq_ok.mp h
    obtain rfl := Out.ok.inj h
    have : PyState.ptr { m with problem := L } v = .ok w := by cases v <;> exact hw
    simp only [PyState.step]
    rw [show PyState.contact { m with problem := L } i = .ok c from hc, Out.ok_bind, this, Out.ok_bind]
    rfl
  | setKin i K k =>
    obtain ⟨c, hc, h⟩ := Out.bind_eq_ok.mp h
    obtain ⟨w, hw, h⟩ := Out.bind_eq_ok.mp h
    obtain rfl := Out.ok.inj h
    simp only [PyState.step]
    rw [show PyState.contact { m with problem := L } i = .ok c from hc, Out.ok_bind, hw, Out.ok_bind]
    rfl
  | setAng i K k =>
    obtain ⟨c, hc, h⟩ := Out.bind_eq_ok.mp h
    obtain ⟨w, hw, h⟩ := Out.bind_eq_ok.mp h
    obtain rfl := Out.ok.inj h
    simp only [PyState.step]
    rw [show PyState.contact { m with problem := L } i = .ok c from hc, Out.ok_bind, hw, Out.ok_bind]
    rfl
  | addContact i => exact absurd rfl (h1 i)
  | clearContacts => exact absurd rfl h2

theorem held_sub {st : PySession} {p : ℕ} {q r : CProblem} (hq : st.Live p q) (hr : ∀ c ∈ r.contacts, c ∈ q.contacts) :
    ∀ c ∈ (st.setProb p r).held, c ∈ st.held := by
  intro c hc
  obtain ⟨p', q', h1, h2⟩ := mem_held.mp hc
  rw [live_setProb hq] at h1
  split at h1
  · subst h1; exact mem_held.mpr ⟨p, q, hq, hr c h2⟩
  · exact mem_held.mpr ⟨p', q', h1, h2⟩

/-- A problem changes, its contacts and jerks do not. -/
theorem SInv.setProb {st : PySession} (hi : SInv st) {p : ℕ} {q r : CProblem} (hq : st.Live p q) (hr : ∀ c ∈ r.contacts, c ∈ q.contacts)
    (hj : r.bc.j0 = q.bc.j0 ∧ r.bc.j1 = q.bc.j1) : SInv (st.setProb p r) := by
  refine ⟨hi.mem.mono (held_sub hq hr), hi.own, fun v p' h => ?_, fun p' q' h => ?_⟩
  · have := hi.member v p' h
    simpa [PySession.setProb] using this
  · rw [live_setProb hq] at h
    split at h
    · subst h; rw [hj.1, hj.2]; exact hi.jerk p q hq
    · exact hi.jerk p' q' h

/-- What a step does to the contacts seen by a problem that it does not destroy, and the invariant. -/
def SeenLaw (st st' : PySession) (cmd : PyOp) : Prop :=
  ∀ p q q', st.Live p q → st'.Live p q' → st'.seen q' = match cmd with
    | .addContact p' i => if p' = p then st.seen q ++ (match st.mem.contacts[i]? with
        | some (some c) => [c.data.value st.mem.heap]
        | _ => []) else st.seen q
    | .clearContacts p' => if p' = p then [] else st.seen q
    | _ => st.seen q

theorem seen_setProb {st : PySession} {p : ℕ} {q r : CProblem} (hq : st.Live p q) (hr : r.contacts = q.contacts) (p' : ℕ) (s s' : CProblem)
    (h : st.Live p' s) (h' : (st.setProb p r).Live p' s') : (st.setProb p r).seen s' = st.seen s := by
  rw [live_setProb hq] at h'
  split at h'
  · rename_i e
    subst e
    subst h'
    obtain rfl := Live.unique hq h
    show s'.contacts.map _ = _
    rw [hr]
    rfl
  · obtain rfl := Live.unique h h'
    rfl

/-- A setter of `Constraints`. -/
theorem SInv.setCons {st st' : PySession} (hi : SInv st) {v : ℕ} {f : CConstraints → CConstraints} {r : PyVal} (h : st.setCons v f = .ok (st', r)) :
    SInv st' ∧ ∀ p q q', st.Live p q → st'.Live p q' → st'.seen q' = st.seen q := by
  obtain ⟨w, c, c', h1, h2, h3, hm, h4, h5, h6⟩ := setCons_ok h
  have hlive : ∀ p q', st'.Live p q' → ∃ q, st.Live p q ∧ q'.contacts = q.contacts ∧ q'.bc = q.bc := by
    intro p q' hq'
    have := (h6 p _).mp hq'
    split at this
    · obtain ⟨q, hq, e⟩ := this
      obtain rfl := Option.some.inj e
      exact ⟨q, hq, rfl, rfl⟩
    · exact ⟨q', this, rfl, rfl⟩
  refine ⟨⟨?_, fun u i hu => ?_, fun u p hu => ?_, fun p q' hq' => ?_⟩, fun p q q' hq hq' => ?_⟩
  · rw [hm]
    refine hi.mem.mono fun x hx => ?_
    obtain ⟨p, q', hq', hx⟩ := mem_held.mp hx
    obtain ⟨q, hq, e, -⟩ := hlive p q' hq'
    exact mem_held.mpr ⟨p, q, hq, e ▸ hx⟩
  · unfold PySession.Refers at hu
    rw [h4] at hu
    obtain ⟨⟨d, hd⟩, huniq⟩ := hi.own u i hu
    refine ⟨?_, fun u' hu' => huniq u' (by unfold PySession.Refers at hu' ⊢; rw [← h4]; exact hu')⟩
    by_cases e : w = .own i
    · exact ⟨c', (h5 i _).mpr (by rw [if_pos e])⟩
    · exact ⟨d, (h5 i _).mpr (by rw [if_neg e]; exact hd)⟩
  · unfold PySession.Refers at hu
    rw [h4] at hu
    have hp := hi.member u p hu
    obtain ⟨d, hd⟩ : ∃ d, st.problems[p]? = some d := ⟨_, List.getElem?_eq_getElem hp⟩
    have : ∃ d', st'.problems[p]? = some d' := by
      by_cases e : w = .member p
      · obtain ⟨q, hq, -⟩ : ∃ q, st.Live p q ∧ q.constraints = c := by rw [e] at h2; exact h2
        exact ⟨_, (h6 p _).mpr (by rw [if_pos e]; exact ⟨q, hq, rfl⟩)⟩
      · exact ⟨d, (h6 p _).mpr (by rw [if_neg e]; exact hd)⟩
    obtain ⟨d', hd'⟩ := this
    by_contra hn
    rw [List.getElem?_eq_none (by omega)] at hd'
    cases hd'
  · obtain ⟨q, hq, -, e⟩ := hlive p q' hq'
    rw [e]
    exact hi.jerk p q hq
  · obtain ⟨q2, hq2, e, -⟩ := hlive p q' hq'
    obtain rfl := Live.unique hq hq2
    unfold PySession.seen
    rw [e, hm]

/-- The commands on equilibrium and contact objects. -/
theorem SInv.memStep {grows : ℕ → Bool} {st : PySession} (hi : SInv st) {c : PyCmd} {m : PyState} (h : st.mem.step grows c = .ok m)
    (h1 : ∀ i, c ≠ .addContact i) (h2 : c ≠ .clearContacts) :
    SInv { st with mem := m } ∧ ∀ p q, st.Live p q → PySession.seen { st with mem := m } q = st.seen q := by
  have hs := step_spec hi.mem (step_other h h1 h2 st.held)
  have hseen : PyState.seen { m with problem := st.held } = PyState.seen { st.mem with problem := st.held } := by
    cases c with
    | addContact i => exact absurd rfl (h1 i)
    | clearContacts => exact absurd rfl h2
    | _ => exact hs.2
  have hval : ∀ x ∈ st.held, x.value m.heap = x.value st.mem.heap := List.map_inj_left.mp hseen
  exact ⟨⟨hs.1, hi.own, hi.member, hi.jerk⟩, fun p q hq => List.map_congr_left fun x hx => hval x (mem_held.mpr ⟨p, q, hq, hx⟩)⟩

/-- `addContact` in a session. -/
theorem SInv.addContact {grows : ℕ → Bool} {st : PySession} (hi : SInv st) {p : ℕ} {q : CProblem} (hq : st.Live p q) {i : ℕ} {c : PyContact}
    (hc : st.mem.contacts[i]? = some (some c)) {h' : Heap} {cs' : List CContact} (hr : Verif.addContact grows st.mem.heap q.contacts c.data = .ok (h', cs')) :
    let st' : PySession := { st with mem := { st.mem with heap := h' }, problems := st.problems.set p (some { q with contacts := cs' }) }
    SInv st' ∧ ∀ p' r r', st.Live p' r → st'.Live p' r' → st'.seen r' = if p = p' then st.seen r ++ [c.data.value st.mem.heap] else st.seen r := by
  intro st'
  have hsub : ∀ x ∈ q.contacts, x ∈ st.held := fun x hx => mem_held.mpr ⟨p, q, hq, hx⟩
  have hmem := List.mem_of_getElem? hc
  obtain ⟨e1, f1, f2, v1⟩ := addContact_spec (fun x hx => Fresh.below (hi.mem.alive x (hsub x hx)))
    (fun a ha => (hi.mem.datas c hmem a ha).1) (fun x hx => hi.mem.alive x (hsub x hx)) hr
  have hlive : ∀ p' r, st'.Live p' r ↔ if p = p' then r = { q with contacts := cs' } else st.Live p' r := fun p' r => live_setProb hq _ _ _
  have hheld : ∀ x ∈ st'.held, x.Fresh h' 0 ∧ (x.Fresh h' st.mem.heap.next ∨ x ∈ st.held) := by
    intro x hx
    obtain ⟨p', r, h1, h2⟩ := mem_held.mp hx
    rw [hlive] at h1
    split at h1
    · subst h1
      refine ⟨f2 x h2, ?_⟩
      rcases f1 x h2 with h | h
      · exact Or.inl h
      · exact Or.inr (hsub x h)
    · have := mem_held.mpr ⟨p', r, h1, h2⟩
      exact ⟨Fresh.ext e1 (hi.mem.alive x this), Or.inr this⟩
  have apart : ∀ a, a < st.mem.heap.next → (∀ x ∈ st.held, x.phase ≠ some a) → ∀ x ∈ st'.held, x.phase ≠ some a := by
    intro a ha hn x hx hp
    rcases (hheld x hx).2 with ⟨b, o, hb, hb2, -⟩ | hx
    · rw [hp] at hb; obtain rfl := Option.some.inj hb; omega
    · exact hn x hx hp
  refine ⟨⟨⟨fun x hx => (hheld x hx).1, fun v w hv => ?_, fun d hd a ha => ?_, fun d hd a ha => ?_⟩, hi.own, fun v p' hv => ?_, fun p' r hr => ?_⟩, fun p' r r' h1 h2 => ?_⟩
  · obtain ⟨h1, h2⟩ := hi.mem.vars v w hv
    exact ⟨lt_of_lt_of_le h1 e1.le, apart _ h1 h2⟩
  · obtain ⟨h1, h2⟩ := hi.mem.datas d hd a ha
    exact ⟨lt_of_lt_of_le h1 e1.le, apart _ h1 h2⟩
  · obtain ⟨h1, h2⟩ := hi.mem.wards d hd a ha
    exact ⟨lt_of_lt_of_le h1 e1.le, apart _ h1 h2⟩
  · have := hi.member v p' hv
    simpa [st'] using this
  · rw [hlive] at hr
    split at hr
    · subst hr; exact hi.jerk p q hq
    · exact hi.jerk p' r hr
  · rw [hlive] at h2
    split at h2
    · rename_i e
      subst e
      subst h2
      obtain rfl := Live.unique hq h1
      rw [if_pos rfl]
      exact v1
    · rename_i e
      obtain rfl := Live.unique h1 h2
      rw [if_neg e]
      exact List.map_congr_left fun x hx => value_ext e1 (Fresh.below (hi.mem.alive x (mem_held.mpr ⟨p', r, h1, hx⟩)))

theorem refers_append {st : PySession} {l : List (Option ConsAddr)} {y : ConsAddr} (hl : st.refs = l ++ [some y]) {v : ℕ} {w : ConsAddr} (h : st.Refers v w) :
    l[v]? = some (some w) ∨ (v = l.length ∧ w = y) := by
  unfold PySession.Refers at h
  rw [hl] at h
  rcases lt_or_ge v l.length with hlt | hge
  · rw [List.getElem?_append_left hlt] at h; exact Or.inl h
  · rw [List.getElem?_append_right hge] at h
    rcases Nat.eq_zero_or_pos (v - l.length) with h0 | h0
    · rw [h0] at h
      simp only [List.getElem?_cons_zero, Option.some.injEq] at h
      exact Or.inr ⟨by omega, h.symm⟩
    · rw [List.getElem?_eq_none (by simp; omega)] at h; cases h

theorem SInv.step {grows : ℕ → Bool} {st st' : PySession} {cmd : PyOp} {r : PyVal} (hi : SInv st) (h : st.step grows cmd = .ok (st', r)) :
    SInv st' ∧ SeenLaw st st' cmd := by
  have setP : ∀ {p q s}, st.Live p q → s.contacts = q.contacts → s.bc.j0 = q.bc.j0 ∧ s.bc.j1 = q.bc.j1 →
      SInv (st.setProb p s) ∧ ∀ p' t t', st.Live p' t → (st.setProb p s).Live p' t' → (st.setProb p s).seen t' = st.seen t := by
    intro p q s hq h1 h2
    exact ⟨hi.setProb hq (by rw [h1]; exact fun _ h => h) h2, seen_setProb hq h1⟩
  have same : st' = st → SInv st' ∧ ∀ p q q', st.Live p q → st'.Live p q' → st'.seen q' = st.seen q := by
    rintro rfl
    exact ⟨hi, fun p q q' h h' => by rw [Live.unique h h']⟩
  cases cmd with
  | mem c =>
    have : ∃ m, st.mem.step grows c = .ok m ∧ (∀ i, c ≠ .addContact i) ∧ c ≠ .clearContacts ∧ st' = { st with mem := m } := by
      cases c <;> simp only [PySession.step] at h <;>
        first
        | cases h; done
        | obtain ⟨m, hm, h⟩ := Out.bind_eq_ok.mp h
          obtain ⟨rfl, rfl⟩ := Prod.mk.inj (Out.ok.inj h)
          exact ⟨m, hm, by simp, by simp, rfl⟩
    obtain ⟨m, h1, h2, h3, rfl⟩ := this
    obtain ⟨k1, k2⟩ := hi.memStep h1 h2 h3
    exact ⟨k1, fun p q q' h h' => by rw [← Live.unique (st := st) h h']; exact k2 p q h⟩
  | newProblem =>
    obtain ⟨rfl, rfl⟩ := Prod.mk.inj (Out.ok.inj h)
    have hl : ∀ p q, PySession.Live { st with problems := st.problems ++ [some CProblem.new] } p q → st.Live p q ∨ q = CProblem.new := by
      intro p q h
      replace h : (st.problems ++ [some CProblem.new])[p]? = some (some q) := h
      rcases lt_or_ge p st.problems.length with hlt | hge
      · rw [List.getElem?_append_left hlt] at h; exact Or.inl h
      · rw [List.getElem?_append_right hge] at h
        rcases Nat.eq_zero_or_pos (p - st.problems.length) with h0 | h0
        · rw [h0] at h
          simp only [List.getElem?_cons_zero, Option.some.injEq] at h
          exact Or.inr h.symm
        · rw [List.getElem?_eq_none (by simp; omega)] at h; cases h
    refine ⟨⟨hi.mem.mono fun c hc => ?_, hi.own, fun v p h => ?_, fun p q h => ?_⟩, fun p q q' h h' => ?_⟩
    · obtain ⟨p, q, h1, h2⟩ := mem_held.mp hc
      rcases hl p q h1 with h1 | rfl
      · exact mem_held.mpr ⟨p, q, h1, h2⟩
      · simp [CProblem.new] at h2
    · have := hi.member v p h
      simp; omega
    · rcases hl p q h with h1 | rfl
      · exact hi.jerk p q h1
      · exact ⟨rfl, rfl⟩
    · have : PySession.Live { st with problems := st.problems ++ [some CProblem.new] } p q := append_get (show st.problems[p]? = _ from h) _
      rw [← Live.unique this h']
      rfl
  | delProblem p =>
    obtain ⟨q, hq, h⟩ := Out.bind_eq_ok.mp h
    obtain ⟨rfl, rfl⟩ := Prod.mk.inj (Out.ok.inj h)
    have hl : ∀ p' q', PySession.Live { st with problems := st.problems.set p none } p' q' → st.Live p' q' := by
      intro p' q' h
      replace h : (st.problems.set p none)[p']? = some (some q') := h
      rw [set_get (prob_live hq)] at h
      split at h
      · cases h
      · exact h
    refine ⟨⟨hi.mem.mono fun c hc => ?_, hi.own, fun v p h => ?_, fun p q h => hi.jerk p q (hl p q h)⟩, fun p' q q' h h' => ?_⟩
    · obtain ⟨p, q, h1, h2⟩ := mem_held.mp hc
      exact mem_held.mpr ⟨p, q, hl p q h1, h2⟩
    · have := hi.member v p h
      simpa using this
    · rw [Live.unique h (hl p' q' h')]
      rfl
  | getPoint p f => obtain ⟨q, hq, h⟩ := Out.bind_eq_ok.mp h; exact same (Prod.mk.inj (Out.ok.inj h)).1.symm
  | setPoint p f v =>
    obtain ⟨q, hq, h⟩ := Out.bind_eq_ok.mp h
    obtain ⟨rfl, rfl⟩ := Prod.mk.inj (Out.ok.inj h)
    exact setP (prob_live hq) (by cases f <;> rfl) (by cases f <;> exact ⟨rfl, rfl⟩)
  | getUseAng p => obtain ⟨q, hq, h⟩ := Out.bind_eq_ok.mp h; exact same (Prod.mk.inj (Out.ok.inj h)).1.symm
  | setUseAng p v =>
    obtain ⟨q, hq, h⟩ := Out.bind_eq_ok.mp h
    obtain ⟨rfl, rfl⟩ := Prod.mk.inj (Out.ok.inj h)
    exact setP (prob_live hq) rfl ⟨rfl, rfl⟩
  | getCost p => obtain ⟨q, hq, h⟩ := Out.bind_eq_ok.mp h; exact same (Prod.mk.inj (Out.ok.inj h)).1.symm
  | setCost p v =>
    obtain ⟨q, hq, h⟩ := Out.bind_eq_ok.mp h
    obtain ⟨rfl, rfl⟩ := Prod.mk.inj (Out.ok.inj h)
    exact setP (prob_live hq) rfl ⟨rfl, rfl⟩
  | getRep p => obtain ⟨q, hq, h⟩ := Out.bind_eq_ok.mp h; exact same (Prod.mk.inj (Out.ok.inj h)).1.symm
  | setRep p v =>
    obtain ⟨q, hq, h⟩ := Out.bind_eq_ok.mp h
    obtain ⟨rfl, rfl⟩ := Prod.mk.inj (Out.ok.inj h)
    exact setP (prob_live hq) rfl ⟨rfl, rfl⟩
  | getConstraints p =>
    obtain ⟨q, hq, h⟩ := Out.bind_eq_ok.mp h
    obtain ⟨rfl, rfl⟩ := Prod.mk.inj (Out.ok.inj h)
    refine ⟨⟨hi.mem, fun v i h => ?_, fun v p' h => ?_, hi.jerk⟩, fun p q q' h h' => by rw [Live.unique (st := st) h h']; rfl⟩
    · rcases refers_append rfl h with h | ⟨-, h⟩
      · refine ⟨(hi.own v i h).1, fun v' h' => ?_⟩
        rcases refers_append rfl h' with h' | ⟨-, h'⟩
        · exact (hi.own v i h).2 v' h'
        · cases h'
      · cases h
    · rcases refers_append rfl h with h | ⟨-, h⟩
      · exact hi.member v p' h
      · cases h
        by_contra hn
        have := prob_live hq
        unfold PySession.Live at this
        rw [List.getElem?_eq_none (by simpa using hn)] at this
        cases this
  | setConstraints p v =>
    obtain ⟨q, hq, h⟩ := Out.bind_eq_ok.mp h
    obtain ⟨w, hw, h⟩ := Out.bind_eq_ok.mp h
    obtain ⟨c, hc, h⟩ := Out.bind_eq_ok.mp h
    obtain ⟨rfl, rfl⟩ := Prod.mk.inj (Out.ok.inj h)
    exact setP (prob_live hq) rfl ⟨rfl, rfl⟩
  | addContact p i =>
    obtain ⟨q, hq, h⟩ := Out.bind_eq_ok.mp h
    obtain ⟨c, hc, h⟩ := Out.bind_eq_ok.mp h
    obtain ⟨⟨h', cs'⟩, hm, h⟩ := Out.bind_eq_ok.mp h
    obtain ⟨rfl, rfl⟩ := Prod.mk.inj (Out.ok.inj h)
    obtain ⟨k1, k2⟩ := hi.addContact (prob_live hq) (contact_spec hc) hm
    refine ⟨k1, fun p' q1 q2 h1 h2 => ?_⟩
    rw [k2 p' q1 q2 h1 h2]
    dsimp only
    rw [contact_spec hc]
  | clearContacts p =>
    obtain ⟨q, hq, h⟩ := Out.bind_eq_ok.mp h
    obtain ⟨rfl, rfl⟩ := Prod.mk.inj (Out.ok.inj h)
    refine ⟨hi.setProb (prob_live hq) (by simp) ⟨rfl, rfl⟩, fun p' s s' h h' => ?_⟩
    rw [live_setProb (prob_live hq)] at h'
    dsimp only
    split at h'
    · rename_i e
      subst h'
      rw [if_pos e]
      rfl
    · rename_i e
      rw [if_neg e, Live.unique h h']
      rfl
  | newConstraints =>
    obtain ⟨rfl, rfl⟩ := Prod.mk.inj (Out.ok.inj h)
    refine ⟨⟨hi.mem, fun v i h => ?_, fun v p' h => ?_, hi.jerk⟩, fun p q q' h h' => by rw [Live.unique (st := st) h h']; rfl⟩
    · have hlt : ∀ (u j : ℕ), st.refs[u]? = some (some (ConsAddr.own j)) → j < st.cons.length := by
        intro u j hu
        obtain ⟨⟨c, hc⟩, -⟩ := hi.own u j hu
        by_contra hn
        rw [List.getElem?_eq_none (by omega)] at hc
        cases hc
      rcases refers_append rfl h with h | ⟨hv, h⟩
      · obtain ⟨⟨c, hc⟩, huniq⟩ := hi.own v i h
        refine ⟨⟨c, append_get hc _⟩, fun v' h' => ?_⟩
        rcases refers_append rfl h' with h' | ⟨-, h'⟩
        · exact huniq v' h'
        · cases h'
          exact absurd (hlt v _ h) (lt_irrefl _)
      · cases h
        refine ⟨⟨CConstraints.new, by simp⟩, fun v' h' => ?_⟩
        rcases refers_append rfl h' with h' | ⟨hv', -⟩
        · exact absurd (hlt v' _ h') (lt_irrefl _)
        · rw [hv, hv']
    · rcases refers_append rfl h with h | ⟨-, h⟩
      · exact hi.member v p' h
      · cases h
  | delConstraints v =>
    obtain ⟨w, hw, h⟩ := Out.bind_eq_ok.mp h
    have key : ∀ (u : ℕ) y, (st.refs.set v none)[u]? = some (some y) → st.Refers u y ∧ u ≠ v := by
      intro u y h
      rw [set_get (ref_refers hw)] at h
      split at h
      · cases h
      · rename_i e; exact ⟨h, Ne.symm e⟩
    cases w with
    | own i =>
      obtain ⟨rfl, rfl⟩ := Prod.mk.inj (Out.ok.inj h)
      refine ⟨⟨hi.mem, fun u j h => ?_, fun u p' h => hi.member u p' (key u _ h).1, hi.jerk⟩, fun p q q' h h' => by rw [Live.unique (st := st) h h']; rfl⟩
      obtain ⟨h1, h2⟩ := key u _ h
      obtain ⟨⟨c, hc⟩, huniq⟩ := hi.own u j h1
      have hij : i ≠ j := by
        rintro rfl
        exact h2 (huniq v (ref_refers hw)).symm
      refine ⟨⟨c, ?_⟩, fun u' h' => huniq u' (key u' _ h').1⟩
      show (st.cons.set i none)[j]? = _
      rw [List.getElem?_set_ne hij]
      exact hc
    | member p =>
      obtain ⟨rfl, rfl⟩ := Prod.mk.inj (Out.ok.inj h)
      exact ⟨⟨hi.mem, fun u j h => ⟨(hi.own u j (key u _ h).1).1, fun u' h' => (hi.own u j (key u _ h).1).2 u' (key u' _ h').1⟩,
        fun u p' h => hi.member u p' (key u _ h).1, hi.jerk⟩, fun p q q' h h' => by rw [Live.unique (st := st) h h']; rfl⟩
  | getFlag v => exact same (getCons_ok h).1
  | setFlag v k => exact hi.setCons (setFlag_ok h).2
  | getConAcc v => exact same (getCons_ok h).1
  | setConAcc v k => exact hi.setCons h
  | getMaxAcc v => exact same (getCons_ok h).1
  | setMaxAcc v k => exact hi.setCons h
  | getReduceH v => exact same (getCons_ok h).1
  | setReduceH v k => exact hi.setCons h

theorem PySReach.inv {grows : ℕ → Bool} {st : PySession} (hr : PySReach grows st) : SInv st := by
  obtain ⟨cs, hcs⟩ := hr
  exact session_induct grows SInv (fun _ => True) (fun _ _ _ _ _ hi hs => (hi.step hs).1) cs _ _ (fun _ _ => trivial) SInv.init hcs

/-- C101, several problems in one session: `p.addContact(c)` makes `p` see, after what it saw, the value `c` has at that time; `p.clearContacts()` makes it see
nothing; nothing else changes what `p` sees, in particular nothing done to another problem, and not even the destruction of the other problem. -/
theorem C101_contacts (grows : ℕ → Bool) {st st' : PySession} (hr : PySReach grows st) {cmd : PyOp} {r : PyVal} (h : st.step grows cmd = .ok (st', r))
    {p : ℕ} {q q' : CProblem} (hq : st.Live p q) (hq' : st'.Live p q') :
    st'.seen q' = match (generalizing := false) cmd with
      | .addContact p' i => if p' = p then st.seen q ++ (match st.mem.contacts[i]? with
          | some (some c) => [c.data.value st.mem.heap]
          | _ => []) else st.seen q
      | .clearContacts p' => if p' = p then [] else st.seen q
      | _ => st.seen q := by
  have := (hr.inv.step h).2 p q q' hq hq'
  cases cmd <;> exact this

theorem resolve_fresh (h : Heap) : ∀ cs : List CContact, (∀ c ∈ cs, c.Fresh h 0) → resolve h cs = .ok (cs.map (·.value h)) := by
  intro cs
  induction cs with
  | nil => intro _; rfl
  | cons c cs ih =>
    intro hf
    obtain ⟨a, e, h1, -, -, h4⟩ := hf c (by simp)
    have hv : c.value h = { contactPhase := some e, Kin := c.Kin, kin := c.kin, Ang := c.Ang, ang := c.ang } := by
      simp [CContact.value, h1, h4]
    rw [resolve, ih fun x hx => hf x (by simp [hx])]
    simp only [h1, h4, Out.ok_bind, List.map_cons, hv]
    rfl

/-- C101, what the planners are called with: the problem in memory has a meaning whatever was done before, its phases exist, its jerks are zero, and every other
member is what Python reads. -/
theorem C101_call (grows : ℕ → Bool) {st : PySession} (hr : PySReach grows st) {p : ℕ} {q : CProblem} (hq : st.Live p q) (l0 : V3) :
    ∃ d, st.problemData p l0 = .ok d ∧ d.contacts = st.seen q ∧ (∀ ct ∈ d.contacts, ct.contactPhase ≠ none) ∧ d.bc.j0 = 0 ∧ d.bc.j1 = 0 ∧
      st.Has (.point p .c0) (.point d.bc.c0) ∧ st.Has (.point p .dc0) (.point d.bc.dc0) ∧ st.Has (.point p .ddc0) (.point d.bc.ddc0) ∧
      st.Has (.point p .c1) (.point d.bc.c1) ∧ st.Has (.point p .dc1) (.point d.bc.dc1) ∧ st.Has (.point p .ddc1) (.point d.bc.ddc1) ∧
      st.Has (.useAng p) (.bool d.useAngularMomentum) ∧ st.Has (.cost p) (.enum d.costFunction) ∧ st.Has (.rep p) (.enum d.representation) ∧
      st.Has (.flag (.member p)) (.int d.flag.toInt) ∧ st.Has (.conAcc (.member p)) (.bool d.constraintAcceleration) ∧
      st.Has (.maxAcc (.member p)) (.real d.maxAcceleration) ∧ st.Has (.reduceH (.member p)) (.real d.reduce_h) := by
  have hf : ∀ c ∈ q.contacts, c.Fresh st.mem.heap 0 := fun c hc => hr.inv.mem.alive c (mem_held.mpr ⟨p, q, hq, hc⟩)
  have hC : st.LiveC (.member p) q.constraints := ⟨q, hq, rfl⟩
  refine ⟨{ contacts := st.seen q, bc := q.bc, l0 := l0, useAngularMomentum := q.useAngularMomentum, flag := q.constraints.flag,
             constraintAcceleration := q.constraints.constraintAcceleration, maxAcceleration := q.constraints.maxAcceleration,
             reduce_h := q.constraints.reduce_h, costFunction := q.costFunction, representation := q.representation }, ?_, rfl, ?_, (hr.inv.jerk p q hq).1, (hr.inv.jerk p q hq).2, ⟨q, hq, rfl⟩, ⟨q, hq, rfl⟩, ⟨q, hq, rfl⟩, ⟨q, hq, rfl⟩, ⟨q, hq, rfl⟩,
    ⟨q, hq, rfl⟩, ⟨q, hq, rfl⟩, ⟨q, hq, rfl⟩, ⟨q, hq, rfl⟩, ⟨_, hC, rfl⟩, ⟨_, hC, rfl⟩, ⟨_, hC, rfl⟩, ⟨_, hC, rfl⟩⟩
  · unfold PySession.problemData
    rw [Live.prob hq, Out.ok_bind, resolve_fresh _ _ hf, Out.ok_bind]
    rfl
  · intro ct hct
    obtain ⟨c, hc, rfl⟩ := List.mem_map.mp hct
    obtain ⟨a, e, h1, -, -, h4⟩ := hf c hc
    simp [CContact.value, h1, h4]

/-- C101, the member that nothing initialises is not used: the outcome of `computeCOMTraj` does not depend on it. -/
theorem C101_l0 (κ : ℝ) (lib : Lib) (fuel : ℕ) (st : PySession) (p : ℕ) (l0 l0' : V3) (Ts : List ℝ) (timeStep : ℝ) (solver : SolverType) :
    st.computeCOMTrajPointer κ lib fuel p l0 Ts timeStep solver = st.computeCOMTrajPointer κ lib fuel p l0' Ts timeStep solver := by
  have rel : ∀ (r : Representation) (cs : List ContactData), List.Forall₂ (SamePhase r) cs cs := by
    intro r cs
    induction cs with
    | nil => exact .nil
    | cons c cs ih =>
      refine .cons ⟨?_, rfl, rfl⟩ ih
      cases c.contactPhase with
      | none => exact .none
      | some e => exact .some ⟨rfl, rfl, fun _ => ⟨rfl, rfl⟩, fun _ => rfl⟩
  unfold PySession.computeCOMTrajPointer PySession.problemData
  cases st.prob p with
  | ok q =>
    simp only [Out.ok_bind]
    cases resolve st.mem.heap q.contacts with
    | ok cts =>
      show computeCOMTraj κ lib fuel _ Ts timeStep solver = computeCOMTraj κ lib fuel _ Ts timeStep solver
      refine C91_com κ lib fuel ?_ Ts timeStep solver
      exact ⟨rel _ _, rfl, ⟨fun _ => rfl, fun _ => rfl, fun _ => rfl, fun _ => rfl, fun _ => rfl, fun _ => rfl, fun _ => rfl, fun _ => rfl⟩,
        fun _ => ⟨rfl, rfl⟩, rfl, rfl, rfl, rfl, rfl⟩
    | _ => rfl
  | _ => rfl

/-! ## Where the behaviour is undefined -/

/-- The variable refers to a member of a problem that has been deleted. -/
def PySession.Dangling (st : PySession) (v : ℕ) : Prop := ∃ p, st.Refers v (.member p) ∧ ∀ q, ¬ st.Live p q

/-- The commands whose behaviour is undefined. -/
def PySession.Undefined (st : PySession) : PyOp → Prop
  | .mem (.setEq v _) => ∃ w, st.mem.eqs[v]? = some (some w) ∧ st.mem.heap.obj w.1 = none
  | .addContact p i => (∃ q, st.Live p q) ∧ ∃ c, st.mem.contacts[i]? = some (some c) ∧ ∀ a, c.data.phase = some a → st.mem.heap.obj a = none
  | .setConstraints p v => (∃ q, st.Live p q) ∧ st.Dangling v
  | .getFlag v => st.Dangling v
  | .setFlag v k => IsInt k ∧ st.Dangling v
  | .getConAcc v => st.Dangling v
  | .setConAcc v _ => st.Dangling v
  | .getMaxAcc v => st.Dangling v
  | .setMaxAcc v _ => st.Dangling v
  | .getReduceH v => st.Dangling v
  | .setReduceH v _ => st.Dangling v
  | _ => False

/-- The outcome is undefined exactly when `P`; otherwise a result or an exception. -/
def Clean {α : Type} (o : Out α) (P : Prop) : Prop := o ≠ .assertFail ∧ o ≠ .diverge ∧ (o = .ub ↔ P)

theorem clean_ok {α : Type} (a : α) {P : Prop} (h : ¬ P) : Clean (.ok a) P := ⟨by simp, by simp, by simp [h]⟩
theorem clean_throw {α : Type} (m : String) {P : Prop} (h : ¬ P) : Clean (.throw m : Out α) P := ⟨by simp, by simp, by simp [h]⟩
theorem clean_ub {α : Type} {P : Prop} (h : P) : Clean (.ub : Out α) P := ⟨by simp, by simp, by simp [h]⟩

theorem clean_prob {α : Type} (st : PySession) (p : ℕ) (f : CProblem → Out α) {P : Prop} (hn : (∀ q, ¬ st.Live p q) → ¬ P)
    (h : ∀ q, st.Live p q → Clean (f q) P) : Clean (st.prob p >>= f) P := by
  by_cases hq : ∃ q, st.Live p q
  · obtain ⟨q, hq⟩ := hq
    rw [Live.prob hq]
    exact h q hq
  · have : st.prob p = .throw "NameError" := by
      unfold PySession.prob
      split
      · rename_i q he; exact absurd ⟨q, he⟩ hq
      · rfl
    rw [this]
    exact clean_throw _ (hn fun q h => hq ⟨q, h⟩)

theorem clean_ref {α : Type} (st : PySession) (v : ℕ) (f : ConsAddr → Out α) {P : Prop} (hn : (∀ w, ¬ st.Refers v w) → ¬ P)
    (h : ∀ w, st.Refers v w → Clean (f w) P) : Clean (st.ref v >>= f) P := by
  by_cases hq : ∃ w, st.Refers v w
  · obtain ⟨w, hw⟩ := hq
    rw [Refers.ref hw]
    exact h w hw
  · have : st.ref v = .throw "NameError" := by
      unfold PySession.ref
      split
      · rename_i q he; exact absurd ⟨q, he⟩ hq
      · rfl
    rw [this]
    exact clean_throw _ (hn fun q h => hq ⟨q, h⟩)

theorem refers_unique {st : PySession} {v : ℕ} {w w' : ConsAddr} (h : st.Refers v w) (h' : st.Refers v w') : w = w' := by
  unfold PySession.Refers at h h'
  rw [h] at h'
  exact Option.some.inj (Option.some.inj h')

/-- Dereferencing a variable. -/
theorem clean_load {α : Type} {st : PySession} (hi : SInv st) {v : ℕ} {w : ConsAddr} (hw : st.Refers v w) (f : CConstraints → Out α) {P : Prop} (hP : st.Dangling v ↔ P)
    (h : ∀ c, st.LiveC w c → ¬ P → Clean (f c) P) : Clean (st.load w >>= f) P := by
  cases w with
  | own i =>
    obtain ⟨⟨c, hc⟩, -⟩ := hi.own v i hw
    rw [LiveC.load (show st.LiveC (.own i) c from hc)]
    refine h c hc fun hp => ?_
    obtain ⟨p, h1, -⟩ := hP.mpr hp
    cases refers_unique hw h1
  | member p =>
    by_cases hq : ∃ q, st.Live p q
    · obtain ⟨q, hq⟩ := hq
      have hC : st.LiveC (.member p) q.constraints := ⟨q, hq, rfl⟩
      rw [LiveC.load hC]
      refine h _ hC fun hp => ?_
      obtain ⟨p', h1, h2⟩ := hP.mpr hp
      cases refers_unique hw h1
      exact h2 q hq
    · have : st.load (.member p) = .ub := by
        simp only [PySession.load]
        split
        · rename_i q he; exact absurd ⟨q, he⟩ hq
        · rfl
      rw [this]
      exact clean_ub (hP.mp ⟨p, hw, fun q h => hq ⟨q, h⟩⟩)

theorem dangling_refers {st : PySession} {v : ℕ} (h : ∀ w, ¬ st.Refers v w) : ¬ st.Dangling v := fun ⟨p, h1, _⟩ => h _ h1

theorem clean_getCons {st : PySession} (hi : SInv st) (v : ℕ) (f : CConstraints → PyVal) : Clean (st.getCons v f) (st.Dangling v) :=
  clean_ref st v _ dangling_refers fun w hw => clean_load hi hw _ Iff.rfl fun c _ hn => clean_ok _ hn

theorem clean_setCons {st : PySession} (hi : SInv st) (v : ℕ) (f : CConstraints → CConstraints) : Clean (st.setCons v f) (st.Dangling v) := by
  refine clean_ref st v _ dangling_refers fun w hw => clean_load hi hw _ Iff.rfl fun c hc hn => ?_
  cases w with
  | own i =>
    simp only [PySession.store]
    rw [show st.cons[i]? = some (some c) from hc, Out.ok_bind]
    exact clean_ok _ hn
  | member p =>
    obtain ⟨q, hq, -⟩ := hc
    simp only [PySession.store]
    rw [show st.problems[p]? = some (some q) from hq, Out.ok_bind]
    exact clean_ok _ hn

theorem clean_addContact {st : PySession} (hi : SInv st) (grows : ℕ → Bool) (p i : ℕ) : Clean (st.step grows (.addContact p i)) (st.Undefined (.addContact p i)) := by
  simp only [PySession.step]
  refine clean_prob st p _ (fun h hu => ?_) fun q hq => ?_
  · obtain ⟨⟨q, hq⟩, -⟩ := hu; exact h q hq
  · by_cases hex : ∃ c, st.mem.contacts[i]? = some (some c)
    swap
    · have : st.mem.contact i = .throw "NameError" := by
        unfold PyState.contact
        split
        · rename_i c hc; exact absurd ⟨c, hc⟩ hex
        · rfl
      rw [this, Out.throw_bind]
      refine clean_throw _ fun hu => ?_
      obtain ⟨-, c, h1, -⟩ := hu
      exact hex ⟨c, h1⟩
    · obtain ⟨c, hc⟩ := hex
      have hcon : st.mem.contact i = .ok c := by unfold PyState.contact; rw [hc]
      rw [hcon, Out.ok_bind]
      by_cases hph : ∃ a e, c.data.phase = some a ∧ st.mem.heap.obj a = some e
      · obtain ⟨a, e, h1, h2⟩ := hph
        have hb : c.data.Below st.mem.heap.next := fun a ha => (hi.mem.datas c (List.mem_of_getElem? hc) a ha).1
        obtain ⟨r, hr⟩ := (copyContact_defined st.mem.heap c.data).mpr ⟨a, e, h1, h2⟩
        obtain ⟨e1, f1, -⟩ := copyContact_spec hb (show copyContact st.mem.heap c.data = .ok (r.1, r.2) from hr)
        obtain ⟨b, g, hb1, -, hb3, hb4⟩ := f1
        obtain ⟨r2, hr2⟩ := (copyContact_defined r.1 r.2).mpr ⟨b, g, hb1, hb4⟩
        obtain ⟨e2, -, -⟩ := copyContact_spec (Fresh.below ⟨b, g, hb1, Nat.zero_le _, hb3, hb4⟩)
          (show copyContact r.1 r.2 = .ok (r2.1, r2.2) from hr2)
        obtain ⟨r3, hr3⟩ := copyContacts_defined q.contacts r2.1 fun x hx =>
          Fresh.ext (e1.trans e2) (hi.mem.alive x (mem_held.mpr ⟨p, q, hq, hx⟩))
        have hn : ¬ st.Undefined (.addContact p i) := by
          rintro ⟨-, d, hd, hd2⟩
          rw [hc] at hd
          obtain rfl := Option.some.inj (Option.some.inj hd)
          rw [hd2 a h1] at h2; cases h2
        simp only [Verif.addContact, hr, Out.ok_bind, hr2]
        split
        · rw [hr3]; exact clean_ok _ hn
        · exact clean_ok _ hn
      · have : copyContact st.mem.heap c.data = .ub := by
          unfold copyContact
          cases hp : c.data.phase with
          | none => rfl
          | some a =>
            cases ho : st.mem.heap.obj a with
            | none => simp [ho]
            | some e => exact absurd ⟨a, e, hp, ho⟩ hph
        simp only [Verif.addContact, this, Out.ub_bind]
        refine clean_ub ⟨⟨q, hq⟩, c, hc, fun a ha => ?_⟩
        cases ho : st.mem.heap.obj a with
        | none => rfl
        | some e => exact absurd ⟨a, e, ha, ho⟩ hph

theorem clean_var {α : Type} (m : PyState) (v : ℕ) (f : ℕ × Bool → Out α) {P : Prop} (hn : (∀ w, m.eqs[v]? ≠ some (some w)) → ¬ P)
    (h : ∀ w, m.eqs[v]? = some (some w) → Clean (f w) P) : Clean (m.var v >>= f) P := by
  by_cases hw : ∃ w, m.eqs[v]? = some (some w)
  · obtain ⟨w, hw⟩ := hw
    have : m.var v = .ok w := by unfold PyState.var; rw [hw]
    rw [this]
    exact h w hw
  · have : m.var v = .throw "NameError" := by
      unfold PyState.var
      split
      · rename_i w he; exact absurd ⟨w, he⟩ hw
      · rfl
    rw [this]
    exact clean_throw _ (hn fun w h => hw ⟨w, h⟩)

theorem clean_bind {α β : Type} {o : Out α} (f : α → Out β) {P : Prop} (h : Clean o P) (hf : ∀ a, o = .ok a → ∃ b, f a = .ok b) : Clean (o >>= f) P := by
  obtain ⟨h1, h2, h3⟩ := h
  cases o with
  | ok a =>
    obtain ⟨b, hb⟩ := hf a rfl
    rw [Out.ok_bind, hb]
    exact clean_ok _ fun hp => by have := h3.mpr hp; cases this
  | throw m => exact clean_throw _ fun hp => by have := h3.mpr hp; cases this
  | assertFail => exact absurd rfl h1
  | ub => exact clean_ub (h3.mp rfl)
  | diverge => exact absurd rfl h2

theorem clean_ptr (m : PyState) (v : Option ℕ) : Clean (m.ptr v) False := by
  cases v with
  | none => exact clean_ok _ id
  | some v => exact clean_var m v _ (fun _ => id) fun w _ => clean_ok _ id

theorem clean_contact (m : PyState) (i : ℕ) : Clean (m.contact i) False := by
  unfold PyState.contact
  split
  · exact clean_ok _ id
  · exact clean_throw _ id

/-- Two things, neither of which is undefined. -/
theorem clean_then {α β : Type} {o : Out α} (f : α → Out β) (h : Clean o False) (hf : ∀ a, o = .ok a → Clean (f a) False) : Clean (o >>= f) False := by
  obtain ⟨h1, h2, h3⟩ := h
  cases o with
  | ok a => exact hf a rfl
  | throw m => exact clean_throw _ id
  | assertFail => exact absurd rfl h1
  | ub => exact (h3.mp rfl).elim
  | diverge => exact absurd rfl h2

theorem clean_mem {grows : ℕ → Bool} (m : PyState) (c : PyCmd) (h1 : ∀ i, c ≠ .addContact i) (h2 : c ≠ .clearContacts) :
    Clean (m.step grows c) (match c with
      | .setEq v _ => ∃ w, m.eqs[v]? = some (some w) ∧ m.heap.obj w.1 = none
      | _ => False) := by
  cases c with
  | newEq e => exact clean_ok _ id
  | setEq v e =>
    simp only [PyState.step]
    refine clean_var m v _ (fun h ⟨w, hw, _⟩ => h w hw) fun w hw => ?_
    cases ho : m.heap.obj w.1 with
    | none => exact clean_ub ⟨w, hw, ho⟩
    | some o =>
      refine clean_ok _ ?_
      rintro ⟨w', hw', h⟩
      rw [hw] at hw'
      obtain rfl := Option.some.inj (Option.some.inj hw')
      rw [ho] at h; cases h
  | delEq v => exact clean_var m v _ (fun _ => id) fun w _ => clean_ok _ id
  | aliasEq v => exact clean_var m v _ (fun _ => id) fun w _ => clean_ok _ id
  | newContact v =>
    cases v with
    | none => exact clean_ok _ id
    | some v => exact clean_var m v _ (fun _ => id) fun w _ => clean_ok _ id
  | delContact i =>
    refine clean_then _ (clean_contact m i) fun c _ => ?_
    dsimp only
    split <;> exact clean_ok _ id
  | getPhase i =>
    refine clean_then _ (clean_contact m i) fun c _ => clean_then _ ?_ fun a _ => clean_ok _ id
    unfold getContactPhase_
    split
    · exact clean_ok _ id
    · exact clean_throw _ id
  | setPhase i v => exact clean_then _ (clean_contact m i) fun c _ => clean_then _ (clean_ptr m v) fun a _ => clean_ok _ id
  | setKin i K k =>
    refine clean_then _ (clean_contact m i) fun c _ => clean_then _ ?_ fun a _ => clean_ok _ id
    unfold set_Kin
    split
    · exact clean_throw _ id
    · exact clean_ok _ id
  | setAng i K k =>
    refine clean_then _ (clean_contact m i) fun c _ => clean_then _ ?_ fun a _ => clean_ok _ id
    unfold set_Ang
    split
    · exact clean_throw _ id
    · exact clean_ok _ id
  | addContact i => exact absurd rfl (h1 i)
  | clearContacts => exact absurd rfl h2

theorem C101_clean (grows : ℕ → Bool) {st : PySession} (hi : SInv st) (cmd : PyOp) : Clean (st.step grows cmd) (st.Undefined cmd) := by
  have P : ∀ (p : ℕ) (f : CProblem → PySession × PyVal), Clean (st.prob p >>= fun q => (pure (f q) : Out _)) False := fun p f =>
    clean_prob st p _ (fun _ => id) fun q _ => clean_ok _ id
  cases cmd with
  | mem c =>
    cases c with
    | addContact i => exact clean_throw _ id
    | clearContacts => exact clean_throw _ id
    | setEq v e => exact clean_bind _ (clean_mem st.mem (.setEq v e) (by simp) (by simp)) fun a _ => ⟨_, rfl⟩
    | newEq e => exact clean_bind _ (clean_mem st.mem (.newEq e) (by simp) (by simp)) fun a _ => ⟨_, rfl⟩
    | delEq e => exact clean_bind _ (clean_mem st.mem (.delEq e) (by simp) (by simp)) fun a _ => ⟨_, rfl⟩
    | aliasEq e => exact clean_bind _ (clean_mem st.mem (.aliasEq e) (by simp) (by simp)) fun a _ => ⟨_, rfl⟩
    | delContact e => exact clean_bind _ (clean_mem st.mem (.delContact e) (by simp) (by simp)) fun a _ => ⟨_, rfl⟩
    | newContact e => exact clean_bind _ (clean_mem st.mem (.newContact e) (by simp) (by simp)) fun a _ => ⟨_, rfl⟩
    | getPhase e => exact clean_bind _ (clean_mem st.mem (.getPhase e) (by simp) (by simp)) fun a _ => ⟨_, rfl⟩
    | setPhase e v => exact clean_bind _ (clean_mem st.mem (.setPhase e v) (by simp) (by simp)) fun a _ => ⟨_, rfl⟩
    | setKin e K k => exact clean_bind _ (clean_mem st.mem (.setKin e K k) (by simp) (by simp)) fun a _ => ⟨_, rfl⟩
    | setAng e K k => exact clean_bind _ (clean_mem st.mem (.setAng e K k) (by simp) (by simp)) fun a _ => ⟨_, rfl⟩
  | newProblem => exact clean_ok _ id
  | delProblem p => exact P p _
  | getPoint p f => exact P p _
  | setPoint p f v => exact P p _
  | getUseAng p => exact P p _
  | setUseAng p v => exact P p _
  | getCost p => exact P p _
  | setCost p v => exact P p _
  | getRep p => exact P p _
  | setRep p v => exact P p _
  | getConstraints p => exact P p _
  | setConstraints p v =>
    simp only [PySession.step]
    refine clean_prob st p _ (fun h ⟨⟨q, hq⟩, _⟩ => h q hq) fun q hq => clean_ref st v _ (fun h hu => dangling_refers h hu.2) fun w hw => ?_
    exact clean_load hi hw _ ⟨fun h => ⟨⟨q, hq⟩, h⟩, fun h => h.2⟩ fun c _ hn => clean_ok _ hn
  | addContact p i => exact clean_addContact hi grows p i
  | clearContacts p => exact P p _
  | newConstraints => exact clean_ok _ id
  | delConstraints v =>
    refine clean_ref st v _ (fun _ => id) fun w _ => ?_
    cases w with
    | own i => exact clean_ok _ id
    | member p => exact clean_ok _ id
  | getFlag v => exact clean_getCons hi v _
  | setFlag v k =>
    simp only [PySession.step, PySession.Undefined]
    split
    · rename_i hk
      obtain ⟨h1, h2, h3⟩ := clean_setCons hi v fun c => set_Flag c k
      exact ⟨h1, h2, h3.trans ⟨fun h => ⟨hk, h⟩, fun h => h.2⟩⟩
    · rename_i hk
      exact clean_ref st v _ (fun _ h => hk h.1) fun w _ => clean_throw _ fun h => hk h.1
  | getConAcc v => exact clean_getCons hi v _
  | setConAcc v k => exact clean_setCons hi v _
  | getMaxAcc v => exact clean_getCons hi v _
  | setMaxAcc v k => exact clean_setCons hi v _
  | getReduceH v => exact clean_getCons hi v _
  | setReduceH v k => exact clean_setCons hi v _

/-- C101, after any session a command gives a result or raises an exception, except in these cases: an `Equilibrium` that has been destroyed is changed, a contact whose
phase is null or destroyed is added, or the `constraints_` of a deleted problem is read, written or assigned from. In particular a `Constraints` object made by
`Constraints()` is never dangling. -/
theorem C101_defined (grows : ℕ → Bool) {st : PySession} (hr : PySReach grows st) (cmd : PyOp) :
    st.step grows cmd ≠ .assertFail ∧ st.step grows cmd ≠ .diverge ∧ (st.step grows cmd = .ub ↔ st.Undefined cmd) :=
  C101_clean grows hr.inv cmd

/-- C101, a number that is not an `int` is refused as flags, and the session goes on as if nothing had happened; every `int` is accepted. -/
theorem C101_overflow (grows : ℕ → Bool) {st : PySession} {v : ℕ} {w : ConsAddr} (hv : st.Refers v w) (k : ℤ) :
    (¬ (-2147483648 ≤ k ∧ k ≤ 2147483647) → st.step grows (.setFlag v k) = .throw "OverflowError" ∧
      ∀ cs, st.run grows (.setFlag v k :: cs) = st.run grows cs) ∧
    (-2147483648 ≤ k ∧ k ≤ 2147483647 → (∃ c, st.LiveC w c) → ∃ st', st.step grows (.setFlag v k) = .ok (st', .none) ∧ st'.Has (.flag w) (.int k)) := by
  constructor
  · intro hk
    have hn : ¬ IsInt k := fun h => hk (by unfold IsInt at h; omega)
    have h : st.step grows (.setFlag v k) = .throw "OverflowError" := by
      simp only [PySession.step]
      rw [if_neg hn, Refers.ref hv, Out.ok_bind]
    exact ⟨h, fun cs => by rw [PySession.run, h]⟩
  · rintro hk ⟨c, hc⟩
    have hi : IsInt k := by unfold IsInt; omega
    have h : ∃ st', st.step grows (.setFlag v k) = .ok (st', .none) := by
      simp only [PySession.step]
      rw [if_pos hi]
      unfold PySession.setCons
      rw [Refers.ref hv, Out.ok_bind, LiveC.load hc, Out.ok_bind]
      cases w with
      | own i =>
        simp only [PySession.store]
        rw [show st.cons[i]? = some (some c) from hc]
        exact ⟨_, rfl⟩
      | member p =>
        obtain ⟨q, hq, -⟩ := hc
        simp only [PySession.store]
        rw [show st.problems[p]? = some (some q) from hq]
        exact ⟨_, rfl⟩
    obtain ⟨st', h⟩ := h
    refine ⟨st', h, ?_⟩
    rcases law_setFlag hi (setFlag_ok h).2 (show st.Has (.flag w) (.int c.flag.toInt) from ⟨c, hc, rfl⟩) with ⟨y, hy, h'⟩ | ⟨hn, -⟩
    · rw [hy.2] at h'; exact h'
    · exact absurd ⟨hv, rfl⟩ (hn (.int k))

/-- C101, a new problem: points at zero, no angular momentum, cost ACCELERATION (0), DOUBLE_DESCRIPTION (0), flags INIT_POS | INIT_VEL | END_POS | END_VEL (27), no bound on
the acceleration, 10 and 1e-3; no contact. -/
theorem C101_new (grows : ℕ → Bool) {st st' : PySession} {r : PyVal} (h : st.step grows .newProblem = .ok (st', r)) :
    ∃ q, st'.Live st.problems.length q ∧ st'.seen q = [] ∧ (∀ f, st'.Has (.point st.problems.length f) (.point 0)) ∧ st'.Has (.useAng st.problems.length) (.bool false) ∧
      st'.Has (.cost st.problems.length) (.enum ACCELERATION) ∧ st'.Has (.rep st.problems.length) (.enum DOUBLE_DESCRIPTION) ∧
      st'.Has (.flag (.member st.problems.length)) (.int 27) ∧ st'.Has (.conAcc (.member st.problems.length)) (.bool false) ∧
      st'.Has (.maxAcc (.member st.problems.length)) (.real 10) ∧ st'.Has (.reduceH (.member st.problems.length)) (.real (1 / 1000)) := by
  obtain ⟨rfl, rfl⟩ := Prod.mk.inj (Out.ok.inj h)
  have hq : PySession.Live { st with problems := st.problems ++ [some CProblem.new] } st.problems.length CProblem.new := by simp [PySession.Live]
  have hC : PySession.LiveC { st with problems := st.problems ++ [some CProblem.new] } (.member st.problems.length) CConstraints.new := ⟨_, hq, rfl⟩
  exact ⟨_, hq, rfl, fun f => by cases f <;> exact ⟨_, hq, rfl⟩, ⟨_, hq, rfl⟩, ⟨_, hq, rfl⟩, ⟨_, hq, rfl⟩, ⟨_, hC, by simp [CConstraints.new]; decide⟩, ⟨_, hC, rfl⟩,
    ⟨_, hC, rfl⟩, ⟨_, hC, by simp [CConstraints.new]; norm_num⟩⟩

/-- C101, a new `Constraints` object has the same values as the member of a new problem. -/
theorem C101_newConstraints (grows : ℕ → Bool) {st st' : PySession} {r : PyVal} (h : st.step grows .newConstraints = .ok (st', r)) :
    ∃ w, st'.Refers st.refs.length w ∧ st'.Has (.flag w) (.int 27) ∧ st'.Has (.conAcc w) (.bool false) ∧ st'.Has (.maxAcc w) (.real 10) ∧
      st'.Has (.reduceH w) (.real (1 / 1000)) := by
  obtain ⟨rfl, rfl⟩ := Prod.mk.inj (Out.ok.inj h)
  have hC : PySession.LiveC { st with cons := st.cons ++ [some CConstraints.new], refs := st.refs ++ [some (.own st.cons.length)] } (.own st.cons.length)
      CConstraints.new := by simp [PySession.LiveC]
  exact ⟨.own st.cons.length, by simp [PySession.Refers], ⟨_, hC, by simp [CConstraints.new]; decide⟩, ⟨_, hC, rfl⟩, ⟨_, hC, rfl⟩,
    ⟨_, hC, by simp [CConstraints.new]; norm_num⟩⟩

/-! ## Non-vacuity -/

/-- Two problems and an alias of the constraints of the first: writing through the alias changes the first problem only; assignment to the second one copies, so that a
later write through the alias does not reach it. -/
example (grows : ℕ → Bool) : ∃ st, PySession.init.run grows
      [.newProblem, .newProblem, .getConstraints 0, .setFlag 0 63, .setConstraints 1 0, .setMaxAcc 0 3, .setPoint 0 .dc0 (fun _ => 1)] = .ok st ∧
    st.Has (.flag (.member 0)) (.int 63) ∧ st.Has (.maxAcc (.member 0)) (.real 3) ∧ st.Has (.flag (.member 1)) (.int 63) ∧ st.Has (.maxAcc (.member 1)) (.real 10) ∧
    st.Has (.point 0 .dc0) (.point fun _ => 1) ∧ st.Has (.point 1 .dc0) (.point 0) := by
  simp [PySession.run, PySession.step, PySession.init, PySession.prob, PySession.setProb, PySession.setCons, PySession.ref, PySession.load, PySession.store, IsInt,
    PySession.Has, PySession.LiveC, PySession.Live, set_Flag, setPoint_, CProblem.new, CConstraints.new]

/-- A dangling reference is reachable. -/
example (grows : ℕ → Bool) : PySession.init.run grows [.newProblem, .getConstraints 0, .delProblem 0, .getFlag 0] = .ub := rfl

/-- Two problems with the same contact, added before and after a change of its phase; the first problem is then destroyed. -/
example (e e' : Equilibrium) : ∃ st q, PySession.init.run (fun _ => true) [.mem (.newEq e), .mem (.newContact (some 0)), .newProblem, .newProblem, .addContact 1 0,
      .mem (.setEq 0 e'), .addContact 0 0, .addContact 1 0, .clearContacts 0, .delProblem 0] = .ok st ∧
    st.Live 1 q ∧ (st.seen q).map (·.contactPhase) = [some e, some e'] := by
  simp [PySession.run, PySession.step, PySession.init, PySession.prob, PySession.setProb, PySession.Live, CProblem.new, PyState.init, PyState.step, PyState.ptr, PyState.var,
    PyState.contact, Heap.alloc, Heap.set, CContact.new, Verif.addContact, copyContact, copyContacts, PySession.seen, CContact.value]

end Verif
