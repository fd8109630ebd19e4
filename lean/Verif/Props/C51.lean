import Verif.Model.Python

/-!
# C51, C52: what Python sees of a contact phase, and copies of it
-/

namespace Verif

/-! ## C51 -/

/-- C51, unknowns: `x` is readable exactly when it is not empty, and is then what is stored. -/
theorem C51_x (x : List ℝ) : (∀ y, get_x x = .ok y ↔ x ≠ [] ∧ y = x) ∧ (x = [] ↔ ∃ m, get_x x = .throw m) := by
  unfold get_x
  cases x with
  | nil => simp
  | cons a l => simp [eq_comm]

/-- C51, kinematic constraints: the setter throws exactly when the sizes differ; otherwise the getter gives back what was
set (it throws when that was empty) and nothing else changes. -/
theorem C51_kinematic (c : CContact) (K : List V3) (k : List ℝ) :
    ((∃ m, set_Kin c K k = .throw m) ↔ K.length ≠ k.length) ∧
    (K.length = k.length → ∃ c', set_Kin c K k = .ok c' ∧ (k ≠ [] → get_Kin c' = .ok (K, k)) ∧
      (k = [] → get_Kin c' = .throw contactMsg) ∧ c'.kin = k ∧ c'.Kin = K ∧
      getContactPhase_ c' = getContactPhase_ c ∧ get_Ang c' = get_Ang c) := by
  unfold set_Kin
  constructor
  · split
    · rename_i h; exact ⟨fun _ => Ne.symm h, fun _ => ⟨_, rfl⟩⟩
    · rename_i h; exact ⟨fun ⟨m, hm⟩ => (by cases hm), fun h' => absurd (Ne.symm h') h⟩
  · intro h
    rw [if_neg (by simp [h])]
    refine ⟨_, rfl, fun hk => ?_, fun hk => ?_, rfl, rfl, rfl, rfl⟩
    · exact if_neg (by simpa using hk)
    · exact if_pos (by simpa using hk)

/-- C51, angular constraints: the same. -/
theorem C51_angular (c : CContact) (K : List V3) (k : List ℝ) :
    ((∃ m, set_Ang c K k = .throw m) ↔ K.length ≠ k.length) ∧
    (K.length = k.length → ∃ c', set_Ang c K k = .ok c' ∧ (k ≠ [] → get_Ang c' = .ok (K, k)) ∧
      (k = [] → get_Ang c' = .throw contactMsg) ∧ c'.ang = k ∧ c'.Ang = K ∧
      getContactPhase_ c' = getContactPhase_ c ∧ get_Kin c' = get_Kin c) := by
  unfold set_Ang
  constructor
  · split
    · rename_i h; exact ⟨fun _ => Ne.symm h, fun _ => ⟨_, rfl⟩⟩
    · rename_i h; exact ⟨fun ⟨m, hm⟩ => (by cases hm), fun h' => absurd (Ne.symm h') h⟩
  · intro h
    rw [if_neg (by simp [h])]
    refine ⟨_, rfl, fun hk => ?_, fun hk => ?_, rfl, rfl, rfl, rfl⟩
    · exact if_neg (by simpa using hk)
    · exact if_pos (by simpa using hk)

/-- C51 in a session: a refused setter leaves every object as it was (the session goes on from the same state). -/
theorem C51_session (grows : ℕ → Bool) (st : PyState) (i : ℕ) (K : List V3) (k : List ℝ) (h : K.length ≠ k.length) (cs : List PyCmd) :
    st.run grows (.setKin i K k :: cs) = st.run grows cs ∧ st.run grows (.setAng i K k :: cs) = st.run grows cs := by
  constructor
  · cases hc : st.contacts[i]? with
    | none => simp [PyState.run, PyState.step, PyState.contact, hc]
    | some c => cases c <;> simp [PyState.run, PyState.step, PyState.contact, hc, set_Kin, h.symm]
  · cases hc : st.contacts[i]? with
    | none => simp [PyState.run, PyState.step, PyState.contact, hc]
    | some c => cases c <;> simp [PyState.run, PyState.step, PyState.contact, hc, set_Ang, h.symm]

/-! ## C52 -/

/-- What a `ContactData` in memory stands for. -/
def CContact.value (h : Heap) (c : CContact) : ContactData :=
  { contactPhase := c.phase.bind h.obj, Kin := c.Kin, kin := c.kin, Ang := c.Ang, ang := c.ang }

/-- What the problem sees. -/
def PyState.seen (st : PyState) : List ContactData := st.problem.map (·.value st.heap)

/-- The session can be in this state. -/
def PyReach (grows : ℕ → Bool) (st : PyState) : Prop := ∃ cs, PyState.init.run grows cs = .ok st

/-- The heap keeps the objects of the addresses in use. -/
structure Heap.Ext (h h' : Heap) : Prop where
  le : h.next ≤ h'.next
  same : ∀ a < h.next, h'.obj a = h.obj a

theorem Heap.Ext.rfl' (h : Heap) : h.Ext h := ⟨le_rfl, fun _ _ => rfl⟩

theorem Heap.Ext.trans {h h' h'' : Heap} (a : h.Ext h') (b : h'.Ext h'') : h.Ext h'' :=
  ⟨a.le.trans b.le, fun x hx => (b.same x (lt_of_lt_of_le hx a.le)).trans (a.same x hx)⟩

/-- The address of a phase is in use. -/
def CContact.Below (c : CContact) (n : ℕ) : Prop := ∀ a, c.phase = some a → a < n

/-- The phase is at an address that was free before `n`, and alive. -/
def CContact.Fresh (c : CContact) (h : Heap) (n : ℕ) : Prop := ∃ a e, c.phase = some a ∧ n ≤ a ∧ a < h.next ∧ h.obj a = some e

theorem value_ext {h h' : Heap} (e : h.Ext h') {c : CContact} (hb : c.Below h.next) : c.value h' = c.value h := by
  unfold CContact.value
  cases hp : c.phase with
  | none => rfl
  | some a => simp only [Option.bind_some]; rw [e.same a (hb a hp)]

theorem copyContact_spec {h h' : Heap} {c c' : CContact} (hb : c.Below h.next) (H : copyContact h c = .ok (h', c')) :
    h.Ext h' ∧ c'.Fresh h' h.next ∧ c'.value h' = c.value h := by
  unfold copyContact at H
  cases hp : c.phase with
  | none => rw [hp] at H; cases H
  | some a =>
    rw [hp] at H
    dsimp only at H
    cases ho : h.obj a with
    | none => rw [ho] at H; cases H
    | some e =>
      rw [ho] at H
      obtain ⟨rfl, rfl⟩ := Prod.mk.inj (Out.ok.inj H)
      have ha := hb a hp
      refine ⟨⟨Nat.le_succ _, fun x hx => if_neg (by omega)⟩, ⟨h.next, e, rfl, le_rfl, Nat.lt_succ_self _, if_pos rfl⟩, ?_⟩
      simp [CContact.value, hp, ho, Heap.alloc]

theorem copyContact_defined (h : Heap) (c : CContact) :
    (∃ r, copyContact h c = .ok r) ↔ ∃ a e, c.phase = some a ∧ h.obj a = some e := by
  unfold copyContact
  cases hp : c.phase with
  | none => simp
  | some a =>
    cases ho : h.obj a with
    | none => simp [ho]
    | some e => simp [ho]

theorem Fresh.below {c : CContact} {h : Heap} {n : ℕ} (hf : c.Fresh h n) : c.Below h.next := by
  obtain ⟨a, e, h1, -, h3, -⟩ := hf
  intro b hb
  rw [h1] at hb
  obtain rfl := Option.some.inj hb
  exact h3

theorem Fresh.ext {c : CContact} {h h' : Heap} {n : ℕ} (e : h.Ext h') (hf : c.Fresh h n) : c.Fresh h' n := by
  obtain ⟨a, q, h1, h2, h3, h4⟩ := hf
  exact ⟨a, q, h1, h2, lt_of_lt_of_le h3 e.le, by rw [e.same a h3]; exact h4⟩

theorem Fresh.mono {c : CContact} {h : Heap} {n m : ℕ} (hm : m ≤ n) (hf : c.Fresh h n) : c.Fresh h m := by
  obtain ⟨a, q, h1, h2, h3, h4⟩ := hf
  exact ⟨a, q, h1, hm.trans h2, h3, h4⟩

theorem copyContacts_spec : ∀ (cs : List CContact) {h h' : Heap} {cs' : List CContact}, (∀ c ∈ cs, c.Below h.next) →
    copyContacts h cs = .ok (h', cs') →
    h.Ext h' ∧ (∀ c ∈ cs', c.Fresh h' h.next) ∧ cs'.map (·.value h') = cs.map (·.value h) := by
  intro cs
  induction cs with
  | nil =>
    intro h h' cs' _ H
    obtain ⟨rfl, rfl⟩ := Prod.mk.inj (Out.ok.inj H)
    exact ⟨Heap.Ext.rfl' _, by simp, rfl⟩
  | cons c cs ih =>
    intro h h' cs' hb H
    unfold copyContacts at H
    obtain ⟨⟨h1, c1⟩, H1, H⟩ := Out.bind_eq_ok.mp H
    obtain ⟨⟨h2, cs2⟩, H2, H⟩ := Out.bind_eq_ok.mp H
    obtain ⟨rfl, rfl⟩ := Prod.mk.inj (Out.ok.inj H)
    obtain ⟨e1, f1, v1⟩ := copyContact_spec (hb c (by simp)) H1
    have hb2 : ∀ x ∈ cs, x.Below h.next := fun x hx => hb x (by simp [hx])
    obtain ⟨e2, f2, v2⟩ := ih (fun x hx a ha => lt_of_lt_of_le (hb2 x hx a ha) e1.le) H2
    refine ⟨e1.trans e2, ?_, ?_⟩
    · intro x hx
      rcases List.mem_cons.mp hx with rfl | hx
      · exact Fresh.ext e2 f1
      · exact Fresh.mono e1.le (f2 x hx)
    · simp only [List.map_cons]
      rw [v2]
      refine congrArg₂ _ ?_ ?_
      · rw [← v1]; exact value_ext e2 (Fresh.below f1)
      · exact List.map_congr_left fun x hx => value_ext e1 (hb2 x hx)

theorem addContact_spec {grows : ℕ → Bool} {h h' : Heap} {cs cs' : List CContact} {c : CContact}
    (hb : ∀ c ∈ cs, c.Below h.next) (hc : c.Below h.next) (halive : ∀ c ∈ cs, c.Fresh h 0)
    (H : addContact grows h cs c = .ok (h', cs')) :
    h.Ext h' ∧ (∀ x ∈ cs', x.Fresh h' h.next ∨ x ∈ cs) ∧ (∀ x ∈ cs', x.Fresh h' 0) ∧
      cs'.map (·.value h') = cs.map (·.value h) ++ [c.value h] := by
  unfold addContact at H
  obtain ⟨⟨h1, t⟩, H1, H⟩ := Out.bind_eq_ok.mp H
  obtain ⟨⟨h2, n⟩, H2, H⟩ := Out.bind_eq_ok.mp H
  obtain ⟨e1, f1, v1⟩ := copyContact_spec hc H1
  obtain ⟨e2, f2, v2⟩ := copyContact_spec (Fresh.below f1) H2
  have e12 := e1.trans e2
  dsimp only at H
  split at H
  · obtain ⟨⟨h3, old⟩, H3, H⟩ := Out.bind_eq_ok.mp H
    obtain ⟨rfl, rfl⟩ := Prod.mk.inj (Out.ok.inj H)
    obtain ⟨e3, f3, v3⟩ := copyContacts_spec cs (fun x hx a ha => lt_of_lt_of_le (hb x hx a ha) e12.le) H3
    have hnew : ∀ x ∈ old ++ [n], x.Fresh h3 h.next := by
      intro x hx
      rcases List.mem_append.mp hx with hx | hx
      · exact Fresh.mono e12.le (f3 x hx)
      · obtain rfl := List.mem_singleton.mp hx
        exact Fresh.ext e3 (Fresh.mono e1.le f2)
    refine ⟨e12.trans e3, fun x hx => Or.inl (hnew x hx), fun x hx => Fresh.mono (Nat.zero_le _) (hnew x hx), ?_⟩
    rw [List.map_append, v3, List.map_singleton, value_ext e3 (Fresh.below f2), v2, v1]
    congr 1
    exact List.map_congr_left fun x hx => value_ext e12 (hb x hx)
  · obtain ⟨rfl, rfl⟩ := Prod.mk.inj (Out.ok.inj H)
    refine ⟨e12, ?_, ?_, ?_⟩
    · intro x hx
      rcases List.mem_append.mp hx with hx | hx
      · exact Or.inr hx
      · obtain rfl := List.mem_singleton.mp hx
        exact Or.inl (Fresh.mono e1.le f2)
    · intro x hx
      rcases List.mem_append.mp hx with hx | hx
      · exact Fresh.ext e12 (halive x hx)
      · obtain rfl := List.mem_singleton.mp hx
        exact Fresh.mono (Nat.zero_le _) f2
    · rw [List.map_append, List.map_singleton, v2, v1]
      congr 1
      exact List.map_congr_left fun x hx => value_ext e12 (hb x hx)

/-- The invariant: the phases of the problem are alive, and at addresses that no Python object has. -/
structure PyInv (st : PyState) : Prop where
  alive : ∀ c ∈ st.problem, c.Fresh st.heap 0
  vars : ∀ (v : ℕ) (h : ℕ × Bool), st.eqs[v]? = some (some h) → h.1 < st.heap.next ∧ ∀ c ∈ st.problem, c.phase ≠ some h.1
  datas : ∀ p, some p ∈ st.contacts → ∀ a, p.data.phase = some a → a < st.heap.next ∧ ∀ c ∈ st.problem, c.phase ≠ some a
  wards : ∀ p, some p ∈ st.contacts → ∀ a, p.ward = some a → a < st.heap.next ∧ ∀ c ∈ st.problem, c.phase ≠ some a

theorem PyInv.init : PyInv PyState.init :=
  ⟨by simp [PyState.init], by simp [PyState.init], by simp [PyState.init], by simp [PyState.init]⟩

theorem seen_set {h : Heap} {a : ℕ} {o : Option Equilibrium} {cs : List CContact} (hn : ∀ c ∈ cs, c.phase ≠ some a) :
    cs.map (·.value (h.set a o)) = cs.map (·.value h) := by
  refine List.map_congr_left fun c hc => ?_
  unfold CContact.value
  cases hp : c.phase with
  | none => rfl
  | some b =>
    have : b ≠ a := fun e => hn c hc (by rw [hp, e])
    simp [Heap.set, this]

theorem fresh_set {h : Heap} {a : ℕ} {o : Option Equilibrium} {c : CContact} (hn : c.phase ≠ some a) (hf : c.Fresh h 0) :
    c.Fresh (h.set a o) 0 := by
  obtain ⟨b, e, h1, h2, h3, h4⟩ := hf
  refine ⟨b, e, h1, h2, h3, ?_⟩
  have : b ≠ a := fun e => hn (by rw [h1, e])
  simp [Heap.set, this, h4]

theorem ptr_spec {st : PyState} (hi : PyInv st) {v : Option ℕ} {p : Option ℕ} (h : st.ptr v = .ok p) :
    ∀ a, p = some a → a < st.heap.next ∧ ∀ c ∈ st.problem, c.phase ≠ some a := by
  intro a ha
  cases v with
  | none => obtain rfl := Out.ok.inj h; cases ha
  | some v =>
    unfold PyState.ptr PyState.var at h
    obtain ⟨w, hw, h⟩ := Out.bind_eq_ok.mp h
    obtain rfl := Out.ok.inj h
    obtain rfl := Option.some.inj ha
    split at hw
    · rename_i q hq
      obtain rfl := Out.ok.inj hw
      exact hi.vars v q hq
    · cases hw

theorem var_spec {st : PyState} {v : ℕ} {h : ℕ × Bool} (e : st.var v = .ok h) : st.eqs[v]? = some (some h) := by
  unfold PyState.var at e
  split at e
  · rename_i q hq; rw [hq, Out.ok.inj e]
  · cases e

theorem contact_spec {st : PyState} {i : ℕ} {c : PyContact} (e : st.contact i = .ok c) : st.contacts[i]? = some (some c) := by
  unfold PyState.contact at e
  split at e
  · rename_i q hq; rw [hq, Out.ok.inj e]
  · cases e

/-- Replacing one contact object. -/
theorem inv_setContact {st : PyState} (hi : PyInv st) {i : ℕ} {c' : PyContact} (hc' : st.contacts[i]? = some (some c')) (c : PyContact) (hw : c.ward = c'.ward)
    (hc : ∀ a, c.data.phase = some a → a < st.heap.next ∧ ∀ x ∈ st.problem, x.phase ≠ some a) :
    PyInv { st with contacts := st.contacts.set i (some c) } := by
  refine ⟨hi.alive, hi.vars, fun p hp => ?_, fun p hp => ?_⟩
  · rcases List.mem_or_eq_of_mem_set hp with hp | hp
    · exact hi.datas p hp
    · obtain rfl := Option.some.inj hp
      exact hc
  · rcases List.mem_or_eq_of_mem_set hp with hp | hp
    · exact hi.wards p hp
    · obtain rfl := Option.some.inj hp
      rw [hw]
      exact hi.wards c' (List.mem_of_getElem? hc')

/-- Destroying an object that the problem does not have. -/
theorem inv_release {st : PyState} (hi : PyInv st) {a : ℕ} (h2 : ∀ c ∈ st.problem, c.phase ≠ some a) :
    PyInv (st.release a) ∧ (st.release a).seen = st.seen := by
  unfold PyState.release
  split
  · exact ⟨hi, rfl⟩
  · exact ⟨⟨fun c hc => fresh_set (h2 c hc) (hi.alive c hc), hi.vars, hi.datas, hi.wards⟩, seen_set h2⟩

/-- One more variable. -/
theorem inv_addVar {st : PyState} (hi : PyInv st) {q : ℕ × Bool} (hq : q.1 < st.heap.next ∧ ∀ c ∈ st.problem, c.phase ≠ some q.1) :
    PyInv { st with eqs := st.eqs ++ [some q] } := by
  refine ⟨hi.alive, fun v p hv => ?_, hi.datas, hi.wards⟩
  rcases lt_or_ge v st.eqs.length with hl | hl
  · dsimp only at hv
    rw [List.getElem?_append_left hl] at hv
    exact hi.vars v p hv
  · dsimp only at hv
    rw [List.getElem?_append_right hl] at hv
    have hv' : p = q := by
      rcases Nat.eq_zero_or_pos (v - st.eqs.length) with h0 | h0
      · rw [h0] at hv; simpa [eq_comm] using hv
      · rw [List.getElem?_eq_none h0] at hv; cases hv
    subst hv'
    exact hq

/-- One more contact object. -/
theorem inv_addData {st : PyState} (hi : PyInv st) {q : PyContact} (hq : ∀ a, q.data.phase = some a → a < st.heap.next ∧ ∀ c ∈ st.problem, c.phase ≠ some a)
    (hw : ∀ a, q.ward = some a → a < st.heap.next ∧ ∀ c ∈ st.problem, c.phase ≠ some a) : PyInv { st with contacts := st.contacts ++ [some q] } := by
  refine ⟨hi.alive, hi.vars, fun p hp => ?_, fun p hp => ?_⟩
  all_goals
    rcases List.mem_append.mp hp with hp | hp
    · first | exact hi.datas p hp | exact hi.wards p hp
    · obtain rfl := Option.some.inj (List.mem_singleton.mp hp)
      assumption

/-- Each command keeps the invariant and changes what the problem sees as it should. -/
theorem step_spec {grows : ℕ → Bool} {st st' : PyState} {cmd : PyCmd} (hi : PyInv st) (h : st.step grows cmd = .ok st') :
    PyInv st' ∧
      match cmd with
      | .addContact i => ∃ c, st.contacts[i]? = some (some c) ∧ st'.seen = st.seen ++ [c.data.value st.heap]
      | .clearContacts => st'.seen = []
      | _ => st'.seen = st.seen := by
  cases cmd with
  | newEq e =>
    obtain rfl := Out.ok.inj h
    have ext : st.heap.Ext (st.heap.alloc e) := ⟨Nat.le_succ _, fun x hx => if_neg (by omega)⟩
    have hi' : PyInv { st with heap := st.heap.alloc e } :=
      ⟨fun c hc => Fresh.ext ext (hi.alive c hc), fun v p hv => ⟨Nat.lt_succ_of_lt (hi.vars v p hv).1, (hi.vars v p hv).2⟩,
        fun p hp a ha => ⟨Nat.lt_succ_of_lt (hi.datas p hp a ha).1, (hi.datas p hp a ha).2⟩,
        fun p hp a ha => ⟨Nat.lt_succ_of_lt (hi.wards p hp a ha).1, (hi.wards p hp a ha).2⟩⟩
    refine ⟨inv_addVar hi' ⟨Nat.lt_succ_self _, fun c hc hp => ?_⟩, ?_⟩
    · exact absurd (Fresh.below (hi.alive c hc) _ hp) (lt_irrefl _)
    · exact List.map_congr_left fun c hc => value_ext ext (Fresh.below (hi.alive c hc))
  | setEq v e =>
    obtain ⟨w, hw, h⟩ := Out.bind_eq_ok.mp h
    obtain ⟨h1, h2⟩ := hi.vars v w (var_spec hw)
    split at h
    · cases h
    · obtain rfl := Out.ok.inj h
      exact ⟨⟨fun c hc => fresh_set (h2 c hc) (hi.alive c hc), hi.vars, hi.datas, hi.wards⟩, seen_set h2⟩
  | aliasEq v =>
    obtain ⟨w, hw, h⟩ := Out.bind_eq_ok.mp h
    obtain rfl := Out.ok.inj h
    exact ⟨inv_addVar hi (hi.vars v w (var_spec hw)), rfl⟩
  | delEq v =>
    obtain ⟨w, hw, h⟩ := Out.bind_eq_ok.mp h
    obtain ⟨h1, h2⟩ := hi.vars v w (var_spec hw)
    have hvars : ∀ (u : ℕ) (q : ℕ × Bool), (st.eqs.set v none)[u]? = some (some q) → st.eqs[u]? = some (some q) := by
      intro u q hq
      rw [List.getElem?_set] at hq
      split at hq
      · split at hq <;> cases hq
      · exact hq
    have hi' : PyInv { st with eqs := st.eqs.set v none } := ⟨hi.alive, fun u q hq => hi.vars u q (hvars u q hq), hi.datas, hi.wards⟩
    obtain rfl := Out.ok.inj h
    split
    · exact inv_release hi' h2
    · exact ⟨hi', rfl⟩
  | newContact v =>
    cases v with
    | none =>
      obtain rfl := Out.ok.inj h
      exact ⟨inv_addData hi (fun a ha => by cases ha) fun a ha => (by cases ha), rfl⟩
    | some v =>
      obtain ⟨w, hw, h⟩ := Out.bind_eq_ok.mp h
      obtain rfl := Out.ok.inj h
      refine ⟨inv_addData hi (fun a ha => ?_) fun a ha => ?_, rfl⟩
      · obtain rfl := Option.some.inj ha
        exact hi.vars v w (var_spec hw)
      · dsimp only at ha
        split at ha
        · obtain rfl := Option.some.inj ha
          exact hi.vars v w (var_spec hw)
        · cases ha
  | delContact i =>
    obtain ⟨c, hc, h⟩ := Out.bind_eq_ok.mp h
    have hmem : ∀ p, some p ∈ st.contacts.set i none → some p ∈ st.contacts := by
      intro p hp
      rcases List.mem_or_eq_of_mem_set hp with hp | hp
      · exact hp
      · cases hp
    have hi' : PyInv { st with contacts := st.contacts.set i none } :=
      ⟨hi.alive, hi.vars, fun p hp => hi.datas p (hmem p hp), fun p hp => hi.wards p (hmem p hp)⟩
    dsimp only at h
    split at h
    · obtain rfl := Out.ok.inj h
      exact ⟨hi', rfl⟩
    · rename_i a ha
      obtain rfl := Out.ok.inj h
      exact inv_release hi' (hi.wards c (List.mem_of_getElem? (contact_spec hc)) a ha).2
  | getPhase i =>
    obtain ⟨c, hc, h⟩ := Out.bind_eq_ok.mp h
    obtain ⟨a, ha, h⟩ := Out.bind_eq_ok.mp h
    obtain rfl := Out.ok.inj h
    have hph : c.data.phase = some a := by
      unfold getContactPhase_ at ha
      split at ha
      · rename_i b hb; rw [hb, Out.ok.inj ha]
      · cases ha
    exact ⟨inv_addVar hi (hi.datas c (List.mem_of_getElem? (contact_spec hc)) a hph), rfl⟩
  | setPhase i v =>
    obtain ⟨c, hc, h⟩ := Out.bind_eq_ok.mp h
    obtain ⟨p, hp, h⟩ := Out.bind_eq_ok.mp h
    obtain rfl := Out.ok.inj h
    exact ⟨inv_setContact hi (contact_spec hc) _ rfl (ptr_spec hi hp), rfl⟩
  | setKin i K k =>
    obtain ⟨c, hc, h⟩ := Out.bind_eq_ok.mp h
    obtain ⟨d, hd, h⟩ := Out.bind_eq_ok.mp h
    obtain rfl := Out.ok.inj h
    refine ⟨inv_setContact hi (contact_spec hc) _ rfl fun a ha => hi.datas c (List.mem_of_getElem? (contact_spec hc)) a ?_, rfl⟩
    unfold set_Kin at hd
    split at hd
    · cases hd
    · obtain rfl := Out.ok.inj hd; exact ha
  | setAng i K k =>
    obtain ⟨c, hc, h⟩ := Out.bind_eq_ok.mp h
    obtain ⟨d, hd, h⟩ := Out.bind_eq_ok.mp h
    obtain rfl := Out.ok.inj h
    refine ⟨inv_setContact hi (contact_spec hc) _ rfl fun a ha => hi.datas c (List.mem_of_getElem? (contact_spec hc)) a ?_, rfl⟩
    unfold set_Ang at hd
    split at hd
    · cases hd
    · obtain rfl := Out.ok.inj hd; exact ha
  | addContact i =>
    obtain ⟨c, hc, h⟩ := Out.bind_eq_ok.mp h
    obtain ⟨⟨h', cs'⟩, hr, h⟩ := Out.bind_eq_ok.mp h
    obtain rfl := Out.ok.inj h
    have hcc := contact_spec hc
    have hmem := List.mem_of_getElem? hcc
    obtain ⟨e1, f1, f2, v1⟩ := addContact_spec (fun x hx => Fresh.below (hi.alive x hx))
      (fun a ha => (hi.datas c hmem a ha).1) hi.alive hr
    have apart : ∀ a, a < st.heap.next → (∀ x ∈ st.problem, x.phase ≠ some a) → ∀ x ∈ cs', x.phase ≠ some a := by
      intro a ha hn x hx hp
      rcases f1 x hx with ⟨b, q, hb, hb2, -⟩ | hx
      · rw [hp] at hb; obtain rfl := Option.some.inj hb; omega
      · exact hn x hx hp
    refine ⟨⟨f2, fun v p hv => ?_, fun p hp a ha => ?_, fun p hp a ha => ?_⟩, c, hcc, v1⟩
    · obtain ⟨h1, h2⟩ := hi.vars v p hv
      exact ⟨lt_of_lt_of_le h1 e1.le, apart _ h1 h2⟩
    · obtain ⟨h1, h2⟩ := hi.datas p hp a ha
      exact ⟨lt_of_lt_of_le h1 e1.le, apart _ h1 h2⟩
    · obtain ⟨h1, h2⟩ := hi.wards p hp a ha
      exact ⟨lt_of_lt_of_le h1 e1.le, apart _ h1 h2⟩
  | clearContacts =>
    obtain rfl := Out.ok.inj h
    exact ⟨⟨by simp, fun v p hv => ⟨(hi.vars v p hv).1, by simp⟩, fun p hp a ha => ⟨(hi.datas p hp a ha).1, by simp⟩,
      fun p hp a ha => ⟨(hi.wards p hp a ha).1, by simp⟩⟩, rfl⟩

theorem run_inv {grows : ℕ → Bool} : ∀ (cs : List PyCmd) {st st' : PyState}, PyInv st → st.run grows cs = .ok st' → PyInv st' := by
  intro cs
  induction cs with
  | nil => intro st st' hi h; obtain rfl := Out.ok.inj h; exact hi
  | cons c cs ih =>
    intro st st' hi h
    rw [PyState.run] at h
    split at h
    · rename_i st1 hs; exact ih (step_spec hi hs).1 h
    · exact ih hi h
    · cases h
    · cases h
    · cases h

/-- C52. After any session, whatever the growth policy of the vector: adding a contact makes the problem see, after what it
saw, the value the contact has at that time; clearing makes it see nothing; no other command, in particular no change to
the original, to its constraints or to its contact phase, and not even its destruction, changes what the problem sees. -/
theorem C52_independent (grows : ℕ → Bool) (st st' : PyState) (hr : PyReach grows st) (cmd : PyCmd)
    (h : st.step grows cmd = .ok st') :
    match cmd with
    | .addContact i => ∃ c, st.contacts[i]? = some (some c) ∧ st'.seen = st.seen ++ [c.data.value st.heap]
    | .clearContacts => st'.seen = []
    | _ => st'.seen = st.seen := by
  obtain ⟨cs, hcs⟩ := hr
  exact (step_spec (run_inv cs PyInv.init hcs) h).2

theorem copyContacts_defined : ∀ (cs : List CContact) (h : Heap), (∀ c ∈ cs, c.Fresh h 0) → ∃ r, copyContacts h cs = .ok r := by
  intro cs
  induction cs with
  | nil => intro h _; exact ⟨_, rfl⟩
  | cons c cs ih =>
    intro h hf
    obtain ⟨a, e, h1, -, -, h4⟩ := hf c (by simp)
    obtain ⟨r, hr⟩ := (copyContact_defined h c).mpr ⟨a, e, h1, h4⟩
    obtain ⟨e1, -, -⟩ := copyContact_spec (Fresh.below (hf c (by simp))) (show copyContact h c = .ok (r.1, r.2) from hr)
    obtain ⟨q, hq⟩ := ih r.1 fun x hx => Fresh.ext e1 (hf x (by simp [hx]))
    refine ⟨(q.1, r.2 :: q.2), ?_⟩
    rw [copyContacts, hr, Out.ok_bind, hq, Out.ok_bind]
    rfl

/-- C52, definedness: after any session, adding a contact is defined exactly when its phase is neither null nor destroyed. -/
theorem C52_defined (grows : ℕ → Bool) (st : PyState) (hr : PyReach grows st) (i : ℕ) (c : PyContact)
    (hc : st.contacts[i]? = some (some c)) :
    ((∃ st', st.step grows (.addContact i) = .ok st') ↔ ∃ a e, c.data.phase = some a ∧ st.heap.obj a = some e) ∧
    ((¬ ∃ a e, c.data.phase = some a ∧ st.heap.obj a = some e) → st.step grows (.addContact i) = .ub) := by
  obtain ⟨cs, hcs⟩ := hr
  have hi := run_inv cs PyInv.init hcs
  have hcon : st.contact i = .ok c := by unfold PyState.contact; rw [hc]
  have hub : (¬ ∃ a e, c.data.phase = some a ∧ st.heap.obj a = some e) → st.step grows (.addContact i) = .ub := by
    intro hn
    have : copyContact st.heap c.data = .ub := by
      unfold copyContact
      cases hp : c.data.phase with
      | none => rfl
      | some a =>
        cases ho : st.heap.obj a with
        | none => simp [ho]
        | some e => exact absurd ⟨a, e, hp, ho⟩ hn
    simp only [PyState.step, hcon, Out.ok_bind, addContact, this, Out.ub_bind]
  refine ⟨⟨fun ⟨st', h⟩ => ?_, fun ⟨a, e, h1, h2⟩ => ?_⟩, hub⟩
  · by_contra hn
    rw [hub hn] at h; cases h
  · have hb : c.data.Below st.heap.next := fun a ha => (hi.datas c (List.mem_of_getElem? hc) a ha).1
    obtain ⟨r, hr⟩ := (copyContact_defined st.heap c.data).mpr ⟨a, e, h1, h2⟩
    obtain ⟨e1, f1, -⟩ := copyContact_spec hb (show copyContact st.heap c.data = .ok (r.1, r.2) from hr)
    obtain ⟨b, q, hb1, -, hb3, hb4⟩ := f1
    obtain ⟨r2, hr2⟩ := (copyContact_defined r.1 r.2).mpr ⟨b, q, hb1, hb4⟩
    obtain ⟨e2, -, -⟩ := copyContact_spec (Fresh.below ⟨b, q, hb1, Nat.zero_le _, hb3, hb4⟩)
      (show copyContact r.1 r.2 = .ok (r2.1, r2.2) from hr2)
    obtain ⟨r3, hr3⟩ := copyContacts_defined st.problem r2.1 fun x hx => Fresh.ext (e1.trans e2) (hi.alive x hx)
    simp only [PyState.step, hcon, Out.ok_bind, addContact, hr, hr2]
    split
    · rw [hr3]; exact ⟨_, rfl⟩
    · exact ⟨_, rfl⟩

/-- C52 is false as to definedness: a `ContactData` made from `None` cannot be added. -/
theorem C52_refuted_null (grows : ℕ → Bool) : PyState.init.run grows [.newContact none, .addContact 0] = .ub := rfl

/-- C52 is false as to definedness, even with a phase that was given: assigning `contactPhase_` does not keep the object
alive, contrary to the constructor, so that adding the contact reads a destroyed object. -/
theorem C52_refuted_dangling (grows : ℕ → Bool) (e e' : Equilibrium) :
    PyState.init.run grows [.newEq e, .newContact (some 0), .newEq e', .setPhase 0 (some 1), .delEq 1, .addContact 0] = .ub ∧
    ∃ st, PyState.init.run grows [.newEq e, .newContact (some 0), .delEq 0, .addContact 0] = .ok st := by
  constructor
  · simp [PyState.init, PyState.run, PyState.step, PyState.ptr, PyState.var, PyState.contact, PyState.release, PyState.Kept, Heap.alloc,
      Heap.set, CContact.new, Verif.addContact, copyContact]
  · by_cases hg : grows 0 <;>
    simp [PyState.init, PyState.run, PyState.step, PyState.ptr, PyState.var, PyState.contact, PyState.release, PyState.Kept, Heap.alloc,
      CContact.new, Verif.addContact, copyContact, hg, copyContacts]

/-- Copy assignment, in C++, is not a copy: both objects then have the same phase, whatever becomes of it. -/
theorem C52_assignment_shares (h : Heap) (dst src : CContact) (a : ℕ) (hp : src.phase = some a) (o : Option Equilibrium) :
    ((assignContact dst src).value (h.set a o)).contactPhase = o := by
  simp [assignContact, CContact.value, hp, Heap.set]

/-- Non-vacuity: a session that adds a contact twice, with a change of its phase in between. -/
example (e e' : Equilibrium) : ∃ st, PyState.init.run (fun n => n == 0 || n == 1)
      [.newEq e, .newContact (some 0), .addContact 0, .setEq 0 e', .addContact 0] = .ok st ∧
    st.seen.map (·.contactPhase) = [some e, some e'] := by
  simp [PyState.init, PyState.run, PyState.step, PyState.ptr, PyState.var, PyState.contact, Heap.alloc, Heap.set,
    CContact.new, Verif.addContact, copyContact, copyContacts, PyState.seen, CContact.value]

end Verif
