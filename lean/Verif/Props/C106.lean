import Verif.Props.C101

/-! # C106: lifetime of `Equilibrium` objects in a Python session -/

namespace Verif

/-- A Python object of the session has this address. -/
def PyState.Addr (m : PyState) (a : ℕ) : Prop := (∃ b, some (a, b) ∈ m.eqs) ∨ ∃ c, some c ∈ m.contacts ∧ c.data.phase = some a

/-- The object exists. -/
def PyState.Exists (m : PyState) (a : ℕ) : Prop := ∃ e, m.heap.obj a = some e

/-- What is kept exists, and what Python objects refer to is kept, unless it is destroyed. -/
structure LInv (m : PyState) : Prop where
  alive : ∀ a, m.Kept a → m.Exists a
  addr : ∀ a, m.Addr a → m.Exists a → m.Kept a
  below : ∀ a, m.Addr a ∨ m.Kept a → a < m.heap.next

/-- What one command does to the objects. -/
structure LifeLaw (m m' : PyState) : Prop where
  next : m.heap.next ≤ m'.heap.next
  kept : ∀ a, m.Kept a → (m'.Exists a ↔ m'.Kept a)
  other : ∀ a < m.heap.next, ¬ m.Kept a → m'.heap.obj a = m.heap.obj a ∧ ¬ m'.Kept a
  fresh : ∀ a, m.heap.next ≤ a → (m'.Kept a → m'.Exists a ∧ a < m'.heap.next)
  addr : ∀ a, m'.Addr a → m.Addr a ∨ m'.Kept a

theorem LInv.law {m m' : PyState} (hi : LInv m) (h : LifeLaw m m') : LInv m' := by
  have hk : ∀ a, m'.Kept a → m'.Exists a ∧ a < m'.heap.next := by
    intro a ha
    rcases lt_or_ge a m.heap.next with hl | hl
    · by_cases hm : m.Kept a
      · exact ⟨(h.kept a hm).mpr ha, lt_of_lt_of_le hl h.next⟩
      · exact absurd ha (h.other a hl hm).2
    · exact h.fresh a hl ha
  refine ⟨fun a ha => (hk a ha).1, fun a ha he => ?_, fun a ha => ?_⟩
  · rcases h.addr a ha with ha | ha
    · by_cases hm : m.Kept a
      · exact (h.kept a hm).mp he
      · obtain ⟨e, he⟩ := he
        rw [(h.other a (hi.below a (Or.inl ha)) hm).1] at he
        exact absurd (hi.addr a ha ⟨e, he⟩) hm
    · exact ha
  · rcases ha with ha | ha
    · rcases h.addr a ha with ha | ha
      · exact lt_of_lt_of_le (hi.below a (Or.inl ha)) h.next
      · exact (hk a ha).2
    · exact (hk a ha).2

theorem LInv.init : LInv PyState.init :=
  ⟨by simp [PyState.Kept, PyState.init], by simp [PyState.Addr, PyState.init], by simp [PyState.Kept, PyState.Addr, PyState.init]⟩

/-- The same objects, with the same keepers. -/
theorem LInv.same {m m' : PyState} (hi : LInv m) (hh : m'.heap = m.heap) (hk : ∀ a, m'.Kept a ↔ m.Kept a) (ha : ∀ a, m'.Addr a → m.Addr a ∨ m'.Kept a) :
    LifeLaw m m' := by
  refine ⟨le_of_eq (by rw [hh]), fun a h => ?_, fun a _ h => ⟨by rw [hh], fun h' => h ((hk a).mp h')⟩, fun a h h' => ?_, ha⟩
  · rw [hk]
    exact ⟨fun _ => h, fun _ => by unfold PyState.Exists; rw [hh]; exact hi.alive a h⟩
  · exact absurd (hi.below a (Or.inr ((hk a).mp h'))) (not_lt.mpr h)

/-- One keeper less. -/
theorem LInv.less {m m₁ : PyState} (hi : LInv m) (hh : m₁.heap = m.heap) {a : ℕ} (ha : m.Kept a) (hk : ∀ b, m₁.Kept b → m.Kept b)
    (hk' : ∀ b, m.Kept b → b ≠ a → m₁.Kept b) (had : ∀ b, m₁.Addr b → m.Addr b) : LifeLaw m (m₁.release a) := by
  have e : ∀ b, (m₁.release a).Kept b ↔ m₁.Kept b := by
    intro b; unfold PyState.release; split <;> exact Iff.rfl
  have ea : ∀ b, (m₁.release a).Addr b ↔ m₁.Addr b := by
    intro b; unfold PyState.release; split <;> exact Iff.rfl
  have en : (m₁.release a).heap.next = m.heap.next := by
    unfold PyState.release; split <;> simp [Heap.set, hh]
  have eo : ∀ b, b ≠ a ∨ m₁.Kept a → (m₁.release a).heap.obj b = m.heap.obj b := by
    intro b hb
    unfold PyState.release
    split
    · rw [hh]
    · rename_i hn
      rcases hb with hb | hb
      · simp [Heap.set, hh, hb]
      · exact absurd hb hn
  have en' : ¬ m₁.Kept a → (m₁.release a).heap.obj a = none := by
    intro hn
    unfold PyState.release
    rw [if_neg hn]
    simp [Heap.set]
  refine ⟨le_of_eq en.symm, fun b hb => ?_, fun b _ hb => ⟨eo b (Or.inl ?_), fun h => hb (hk b ((e b).mp h))⟩, fun b hl h => ?_, fun b h => Or.inl (had b ((ea b).mp h))⟩
  · rw [e]
    unfold PyState.Exists
    by_cases hab : b = a
    · subst hab
      by_cases hm : m₁.Kept b
      · rw [eo b (Or.inr hm)]; exact ⟨fun _ => hm, fun _ => hi.alive b hb⟩
      · rw [en' hm]; simp [hm]
    · rw [eo b (Or.inl hab)]; exact ⟨fun _ => hk' b hb hab, fun _ => hi.alive b hb⟩
  · rintro rfl; exact hb ha
  · exact absurd (hi.below b (Or.inr (hk b ((e b).mp h)))) (not_lt.mpr hl)

theorem mem_set_none {α : Type} {l : List (Option α)} {i : ℕ} {x : α} (h : some x ∈ l.set i none) : some x ∈ l := by
  rcases List.mem_or_eq_of_mem_set h with h | h
  · exact h
  · cases h

theorem mem_set_of_ne {α : Type} {l : List (Option α)} {i : ℕ} {x y : α} {o : Option α} (hi : l[i]? = some (some y)) (h : some x ∈ l) (hx : x ≠ y) : some x ∈ l.set i o := by
  obtain ⟨j, hj⟩ := List.mem_iff_getElem?.mp h
  refine List.mem_iff_getElem?.mpr ⟨j, ?_⟩
  rw [List.getElem?_set_ne]
  · exact hj
  · rintro rfl; rw [hi] at hj; exact hx (Option.some.inj (Option.some.inj hj)).symm

/-- A `ContactData` changes, not what it keeps. -/
theorem LInv.setContact {m : PyState} (hi : LInv m) {i : ℕ} {c c' : PyContact} (hc : m.contacts[i]? = some (some c)) (hw : c'.ward = c.ward)
    (hp : ∀ a, c'.data.phase = some a → m.Addr a) : LifeLaw m { m with contacts := m.contacts.set i (some c') } := by
  have hlt : i < m.contacts.length := by
    by_contra hn
    rw [List.getElem?_eq_none (by omega)] at hc; cases hc
  refine hi.same rfl (fun a => ⟨?_, ?_⟩) ?_
  · rintro (h | ⟨d, hd, h⟩)
    · exact Or.inl h
    · rcases List.mem_or_eq_of_mem_set hd with hd | hd
      · exact Or.inr ⟨d, hd, h⟩
      · obtain rfl := Option.some.inj hd
        exact Or.inr ⟨c, List.mem_of_getElem? hc, hw ▸ h⟩
  · rintro (h | ⟨d, hd, h⟩)
    · exact Or.inl h
    · by_cases he : d = c
      · subst he
        exact Or.inr ⟨c', List.mem_set hlt _, hw.trans h⟩
      · exact Or.inr ⟨d, mem_set_of_ne hc hd he, h⟩
  · rintro a (h | ⟨d, hd, h⟩)
    · exact Or.inl (Or.inl h)
    · rcases List.mem_or_eq_of_mem_set hd with hd | hd
      · exact Or.inl (Or.inr ⟨d, hd, h⟩)
      · obtain rfl := Option.some.inj hd
        exact Or.inl (hp a h)

theorem kept_eqs_append {m : PyState} {q : ℕ × Bool} {a : ℕ} :
    PyState.Kept { m with eqs := m.eqs ++ [some q] } a ↔ m.Kept a ∨ q = (a, true) := by
  unfold PyState.Kept
  simp only [List.mem_append, List.mem_singleton, Option.some.injEq, eq_comm (a := (a, true))]
  exact or_right_comm

theorem addr_eqs_append {m : PyState} {q : ℕ × Bool} {a : ℕ} :
    PyState.Addr { m with eqs := m.eqs ++ [some q] } a ↔ m.Addr a ∨ q.1 = a := by
  unfold PyState.Addr
  simp only [List.mem_append, List.mem_singleton, Option.some.injEq]
  constructor
  · rintro (⟨b, h | h⟩ | h)
    · exact Or.inl (Or.inl ⟨b, h⟩)
    · exact Or.inr (by rw [← h])
    · exact Or.inl (Or.inr h)
  · rintro ((⟨b, h⟩ | h) | h)
    · exact Or.inl ⟨b, Or.inl h⟩
    · exact Or.inr h
    · exact Or.inl ⟨q.2, Or.inr (by rw [← h])⟩

theorem kept_contacts_append {m : PyState} {q : PyContact} {a : ℕ} :
    PyState.Kept { m with contacts := m.contacts ++ [some q] } a ↔ m.Kept a ∨ q.ward = some a := by
  unfold PyState.Kept
  simp only [List.mem_append, List.mem_singleton, Option.some.injEq]
  constructor
  · rintro (h | ⟨c, h | h, h'⟩)
    · exact Or.inl (Or.inl h)
    · exact Or.inl (Or.inr ⟨c, h, h'⟩)
    · exact Or.inr (h ▸ h')
  · rintro ((h | ⟨c, h, h'⟩) | h)
    · exact Or.inl h
    · exact Or.inr ⟨c, Or.inl h, h'⟩
    · exact Or.inr ⟨q, Or.inr rfl, h⟩

theorem addr_contacts_append {m : PyState} {q : PyContact} {a : ℕ} :
    PyState.Addr { m with contacts := m.contacts ++ [some q] } a ↔ m.Addr a ∨ q.data.phase = some a := by
  unfold PyState.Addr
  simp only [List.mem_append, List.mem_singleton, Option.some.injEq]
  constructor
  · rintro (h | ⟨c, h | h, h'⟩)
    · exact Or.inl (Or.inl h)
    · exact Or.inl (Or.inr ⟨c, h, h'⟩)
    · exact Or.inr (h ▸ h')
  · rintro ((h | ⟨c, h, h'⟩) | h)
    · exact Or.inl h
    · exact Or.inr ⟨c, Or.inl h, h'⟩
    · exact Or.inr ⟨q, Or.inr rfl, h⟩

theorem addr_var {m : PyState} {v : ℕ} {w : ℕ × Bool} (h : m.eqs[v]? = some (some w)) : m.Addr w.1 := Or.inl ⟨w.2, List.mem_of_getElem? h⟩

theorem kept_var {m : PyState} {v : ℕ} {w : ℕ × Bool} (h : m.eqs[v]? = some (some w)) (ho : w.2 = true) : m.Kept w.1 := by
  refine Or.inl ?_
  rw [← ho]
  exact List.mem_of_getElem? h

/-- Each command on equilibrium and contact objects follows the law; a command that changes an object in place changes this one only. -/
theorem LInv.memStep {grows : ℕ → Bool} {m m' : PyState} {c : PyCmd} (hi : LInv m) (h : m.step grows c = .ok m') (h1 : ∀ i, c ≠ .addContact i)
    (h2 : c ≠ .clearContacts) : LifeLaw m m' := by
  cases c with
  | newEq e =>
    obtain rfl := Out.ok.inj h
    have hk : ∀ a, PyState.Kept { m with heap := m.heap.alloc e, eqs := m.eqs ++ [some (m.heap.next, true)] } a ↔ m.Kept a ∨ a = m.heap.next := by
      intro a
      refine (kept_eqs_append (m := { m with heap := m.heap.alloc e })).trans (or_congr Iff.rfl ?_)
      simp [eq_comm]
    refine ⟨Nat.le_succ _, fun a ha => ?_, fun a hl ha => ⟨if_neg (by omega), fun h => ?_⟩, fun a hl h => ?_, fun a ha => ?_⟩
    · refine ⟨fun _ => (hk a).mpr (Or.inl ha), fun _ => ?_⟩
      obtain ⟨o, ho⟩ := hi.alive a ha
      exact ⟨o, (if_neg (by have := hi.below a (Or.inr ha); omega)).trans ho⟩
    · rcases (hk a).mp h with h | h
      · exact ha h
      · omega
    · rcases (hk a).mp h with h | rfl
      · exact absurd (hi.below a (Or.inr h)) (not_lt.mpr hl)
      · exact ⟨⟨e, if_pos rfl⟩, Nat.lt_succ_self _⟩
    · rcases (addr_eqs_append (m := { m with heap := m.heap.alloc e })).mp ha with ha | ha
      · exact Or.inl ha
      · exact Or.inr ((hk a).mpr (Or.inr ha.symm))
  | setEq v e =>
    obtain ⟨w, hw, h⟩ := Out.bind_eq_ok.mp h
    split at h
    · cases h
    · rename_i o ho
      obtain rfl := Out.ok.inj h
      have hkw : m.Kept w.1 := hi.addr _ (addr_var (var_spec hw)) ⟨o, ho⟩
      refine ⟨le_rfl, fun a ha => ⟨fun _ => ha, fun _ => ?_⟩, fun a _ ha => ⟨if_neg ?_, ha⟩, fun a hl h => ?_, fun a ha => Or.inl ha⟩
      · by_cases hE : a = w.1
        · exact ⟨e, if_pos hE⟩
        · obtain ⟨o, ho⟩ := hi.alive a ha
          exact ⟨o, (if_neg hE).trans ho⟩
      · rintro rfl; exact ha hkw
      · exact absurd (hi.below a (Or.inr h)) (not_lt.mpr hl)
  | aliasEq v =>
    obtain ⟨w, hw, h⟩ := Out.bind_eq_ok.mp h
    obtain rfl := Out.ok.inj h
    refine hi.same rfl (fun a => ?_) fun a ha => ?_
    · rw [kept_eqs_append]
      refine ⟨fun h => h.elim id ?_, Or.inl⟩
      rintro rfl
      exact kept_var (var_spec hw) rfl
    · rcases addr_eqs_append.mp ha with ha | rfl
      · exact Or.inl ha
      · exact Or.inl (addr_var (var_spec hw))
  | delEq v =>
    obtain ⟨w, hw, h⟩ := Out.bind_eq_ok.mp h
    have hw' := var_spec hw
    obtain rfl := Out.ok.inj h
    have hsub : ∀ b, PyState.Kept { m with eqs := m.eqs.set v none } b → m.Kept b := fun b hb => hb.elim (fun h => Or.inl (mem_set_none h)) Or.inr
    have hadd : ∀ b, PyState.Addr { m with eqs := m.eqs.set v none } b → m.Addr b := by
      rintro b (⟨t, h⟩ | h)
      · exact Or.inl ⟨t, mem_set_none h⟩
      · exact Or.inr h
    have hrest : ∀ b, m.Kept b → (b, true) ≠ w → PyState.Kept { m with eqs := m.eqs.set v none } b := by
      rintro b (h | h) hn
      · exact Or.inl (mem_set_of_ne hw' h hn)
      · exact Or.inr h
    split
    · rename_i ho
      exact hi.less (m₁ := { m with eqs := m.eqs.set v none }) rfl (kept_var hw' ho) hsub (fun b hb hne => hrest b hb fun h => hne (by rw [← h])) hadd
    · rename_i ho
      exact hi.same rfl (fun a => ⟨hsub a, fun ha => hrest a ha fun h => ho (by rw [← h])⟩) fun a ha => Or.inl (hadd a ha)
  | newContact v =>
    cases v with
    | none =>
      obtain rfl := Out.ok.inj h
      refine hi.same rfl (fun a => ?_) fun a ha => ?_
      · rw [kept_contacts_append]; simp
      · rcases addr_contacts_append.mp ha with ha | ha
        · exact Or.inl ha
        · cases ha
    | some v =>
      obtain ⟨w, hw, h⟩ := Out.bind_eq_ok.mp h
      obtain rfl := Out.ok.inj h
      refine hi.same rfl (fun a => ?_) fun a ha => ?_
      · rw [kept_contacts_append]
        refine ⟨fun h => h.elim id fun h => ?_, Or.inl⟩
        dsimp only at h
        split at h
        · rename_i ho
          obtain rfl := Option.some.inj h
          exact kept_var (var_spec hw) ho
        · cases h
      · rcases addr_contacts_append.mp ha with ha | ha
        · exact Or.inl ha
        · obtain rfl := Option.some.inj ha
          exact Or.inl (addr_var (var_spec hw))
  | delContact i =>
    obtain ⟨c, hc, h⟩ := Out.bind_eq_ok.mp h
    have hc' := contact_spec hc
    have hsub : ∀ b, PyState.Kept { m with contacts := m.contacts.set i none } b → m.Kept b :=
      fun b hb => hb.elim Or.inl fun ⟨d, h, h'⟩ => Or.inr ⟨d, mem_set_none h, h'⟩
    have hadd : ∀ b, PyState.Addr { m with contacts := m.contacts.set i none } b → m.Addr b :=
      fun b hb => hb.elim Or.inl fun ⟨d, h, h'⟩ => Or.inr ⟨d, mem_set_none h, h'⟩
    have hrest : ∀ b, m.Kept b → c.ward ≠ some b → PyState.Kept { m with contacts := m.contacts.set i none } b := by
      rintro b (h | ⟨d, h, h'⟩) hn
      · exact Or.inl h
      · exact Or.inr ⟨d, mem_set_of_ne hc' h (fun e => hn (e ▸ h')), h'⟩
    dsimp only at h
    split at h
    · rename_i hw
      obtain rfl := Out.ok.inj h
      exact hi.same rfl (fun a => ⟨hsub a, fun ha => hrest a ha (by rw [hw]; simp)⟩) fun a ha => Or.inl (hadd a ha)
    · rename_i a hw
      obtain rfl := Out.ok.inj h
      exact hi.less (m₁ := { m with contacts := m.contacts.set i none }) rfl (Or.inr ⟨c, List.mem_of_getElem? hc', hw⟩) hsub
        (fun b hb hne => hrest b hb fun h => hne (Option.some.inj (hw.symm.trans h)).symm) hadd
  | getPhase i =>
    obtain ⟨c, hc, h⟩ := Out.bind_eq_ok.mp h
    obtain ⟨a, ha, h⟩ := Out.bind_eq_ok.mp h
    obtain rfl := Out.ok.inj h
    have hph : c.data.phase = some a := by
      unfold getContactPhase_ at ha
      split at ha
      · rename_i b hb; rw [hb, Out.ok.inj ha]
      · cases ha
    refine hi.same rfl (fun b => ?_) fun b hb => ?_
    · rw [kept_eqs_append]; simp
    · rcases addr_eqs_append.mp hb with hb | rfl
      · exact Or.inl hb
      · exact Or.inl (Or.inr ⟨c, List.mem_of_getElem? (contact_spec hc), hph⟩)
  | setPhase i v =>
    obtain ⟨c, hc, h⟩ := Out.bind_eq_ok.mp h
    obtain ⟨p, hp, h⟩ := Out.bind_eq_ok.mp h
    obtain rfl := Out.ok.inj h
    refine hi.setContact (contact_spec hc) rfl fun a ha => ?_
    cases v with
    | none =>
      obtain rfl := Out.ok.inj hp
      cases ha
    | some v =>
      obtain ⟨w, hw, hp⟩ := Out.bind_eq_ok.mp hp
      obtain rfl := Out.ok.inj hp
      obtain rfl := Option.some.inj ha
      exact addr_var (var_spec hw)
  | setKin i K k =>
    obtain ⟨c, hc, h⟩ := Out.bind_eq_ok.mp h
    obtain ⟨d, hd, h⟩ := Out.bind_eq_ok.mp h
    obtain rfl := Out.ok.inj h
    refine hi.setContact (contact_spec hc) rfl fun a ha => Or.inr ⟨c, List.mem_of_getElem? (contact_spec hc), ?_⟩
    unfold set_Kin at hd
    split at hd
    · cases hd
    · obtain rfl := Out.ok.inj hd; exact ha
  | setAng i K k =>
    obtain ⟨c, hc, h⟩ := Out.bind_eq_ok.mp h
    obtain ⟨d, hd, h⟩ := Out.bind_eq_ok.mp h
    obtain rfl := Out.ok.inj h
    refine hi.setContact (contact_spec hc) rfl fun a ha => Or.inr ⟨c, List.mem_of_getElem? (contact_spec hc), ?_⟩
    unfold set_Ang at hd
    split at hd
    · cases hd
    · obtain rfl := Out.ok.inj hd; exact ha
  | addContact i => exact absurd rfl (h1 i)
  | clearContacts => exact absurd rfl h2

/-! ## The whole session -/

/-- No problem has been deleted. -/
def PySession.Whole (st : PySession) : Prop := ∀ p, p < st.problems.length → ∃ q, st.Live p q

/-- No variable refers to the constraints of a problem. -/
def PySession.NoMember (st : PySession) : Prop := ∀ v p, ¬ st.Refers v (.member p)

/-- What a command does to the memory of the equilibrium and contact objects. -/
def MemLaw (grows : ℕ → Bool) (st st' : PySession) (cmd : PyOp) : Prop :=
  (∃ c, cmd = .mem c ∧ st.mem.step grows c = .ok st'.mem ∧ (∀ i, c ≠ .addContact i) ∧ c ≠ .clearContacts) ∨
  (∃ p i q c cs', cmd = .addContact p i ∧ st.Live p q ∧ st.mem.contacts[i]? = some (some c) ∧
    Verif.addContact grows st.mem.heap q.contacts c.data = .ok (st'.mem.heap, cs') ∧ st'.mem = { st.mem with heap := st'.mem.heap }) ∨
  ((∀ c, cmd ≠ .mem c) ∧ (∀ p i, cmd ≠ .addContact p i) ∧ st'.mem = st.mem)

theorem whole_set {st : PySession} (h : st.Whole) (p : ℕ) (q : CProblem) : (st.setProb p q).Whole := by
  intro p' hp'
  have hl : p' < st.problems.length := by simpa [PySession.setProb] using hp'
  obtain ⟨r, hr⟩ := h p' hl
  unfold PySession.Live PySession.setProb
  dsimp only
  rw [List.getElem?_set]
  split
  · rename_i e
    subst e
    rw [if_pos hl]; exact ⟨q, rfl⟩
  · exact ⟨r, hr⟩

theorem whole_setCons {st st' : PySession} {v : ℕ} {f : CConstraints → CConstraints} {r : PyVal} (h : st.setCons v f = .ok (st', r)) (hw : st.Whole) : st'.Whole := by
  obtain ⟨w, hw', h⟩ := Out.bind_eq_ok.mp h
  obtain ⟨c, hc, h⟩ := Out.bind_eq_ok.mp h
  obtain ⟨s, hs, h⟩ := Out.bind_eq_ok.mp h
  obtain ⟨rfl, rfl⟩ := Prod.mk.inj (Out.ok.inj h)
  cases w with
  | own i =>
    simp only [PySession.store] at hs
    split at hs
    · obtain rfl := Out.ok.inj hs; exact hw
    · cases hs
  | member p =>
    simp only [PySession.store] at hs
    split at hs
    · obtain rfl := Out.ok.inj hs; exact whole_set hw _ _
    · cases hs

theorem session_frame {grows : ℕ → Bool} {st st' : PySession} {cmd : PyOp} {r : PyVal} (h : st.step grows cmd = .ok (st', r)) :
    MemLaw grows st st' cmd ∧ ((∀ p, cmd ≠ .delProblem p) → st.Whole → st'.Whole) ∧ ((∀ p, cmd ≠ .getConstraints p) → st.NoMember → st'.NoMember) := by
  have frame : ∀ {cmd : PyOp}, (∀ c, cmd ≠ .mem c) → (∀ p i, cmd ≠ .addContact p i) → st'.mem = st.mem → MemLaw grows st st' cmd :=
    fun h1 h2 h3 => Or.inr (Or.inr ⟨h1, h2, h3⟩)
  have same : st' = st → ∀ {cmd : PyOp}, (∀ c, cmd ≠ .mem c) → (∀ p i, cmd ≠ .addContact p i) →
      MemLaw grows st st' cmd ∧ ((∀ p, cmd ≠ .delProblem p) → st.Whole → st'.Whole) ∧ ((∀ p, cmd ≠ .getConstraints p) → st.NoMember → st'.NoMember) := by
    rintro rfl cmd h1 h2
    exact ⟨Or.inr (Or.inr ⟨h1, h2, rfl⟩), fun _ => id, fun _ => id⟩
  have setP : ∀ p q, st' = st.setProb p q → ∀ {cmd : PyOp}, (∀ c, cmd ≠ .mem c) → (∀ p i, cmd ≠ .addContact p i) →
      MemLaw grows st st' cmd ∧ ((∀ p, cmd ≠ .delProblem p) → st.Whole → st'.Whole) ∧ ((∀ p, cmd ≠ .getConstraints p) → st.NoMember → st'.NoMember) := by
    rintro p q rfl cmd h1 h2
    exact ⟨Or.inr (Or.inr ⟨h1, h2, rfl⟩), fun _ hw => whole_set hw p q, fun _ => id⟩
  have setC : ∀ {v f r}, st.setCons v f = .ok (st', r) → ∀ {cmd : PyOp}, (∀ c, cmd ≠ .mem c) → (∀ p i, cmd ≠ .addContact p i) →
      MemLaw grows st st' cmd ∧ ((∀ p, cmd ≠ .delProblem p) → st.Whole → st'.Whole) ∧ ((∀ p, cmd ≠ .getConstraints p) → st.NoMember → st'.NoMember) := by
    intro v f r h cmd h1 h2
    obtain ⟨w, c, c', -, -, -, hm, hrf, -, -⟩ := setCons_ok h
    refine ⟨Or.inr (Or.inr ⟨h1, h2, hm⟩), fun _ hw => whole_setCons h hw, fun _ hn v p hv => hn v p ?_⟩
    unfold PySession.Refers at hv ⊢
    rw [← hrf]; exact hv
  cases cmd with
  | mem c =>
    have : ∃ m, st.mem.step grows c = .ok m ∧ (∀ i, c ≠ .addContact i) ∧ c ≠ .clearContacts ∧ st' = { st with mem := m } := by
      cases c <;> simp only [PySession.step] at h <;>
        first
        | cases h; done
        | obtain ⟨m, hm, h⟩ := Out.bind_eq_ok.mp h
          obtain ⟨rfl, rfl⟩ := Prod.mk.inj (Out.ok.inj h)
          exact ⟨m, hm, by simp, by simp, rfl⟩
    obtain ⟨m, h1, h2, h3, rfl⟩ := this
    exact ⟨Or.inl ⟨c, rfl, h1, h2, h3⟩, fun _ => id, fun _ => id⟩
  | newProblem =>
    obtain ⟨rfl, rfl⟩ := Prod.mk.inj (Out.ok.inj h)
    refine ⟨frame (by simp) (by simp) rfl, fun _ hw p hp => ?_, fun _ => id⟩
    show ∃ q, (st.problems ++ [some CProblem.new])[p]? = some (some q)
    rcases lt_or_ge p st.problems.length with hl | hl
    · rw [List.getElem?_append_left hl]; exact hw p hl
    · have : p = st.problems.length := by simp at hp; omega
      subst this
      simp
  | delProblem p =>
    obtain ⟨q, hq, h⟩ := Out.bind_eq_ok.mp h
    obtain ⟨rfl, rfl⟩ := Prod.mk.inj (Out.ok.inj h)
    exact ⟨frame (by simp) (by simp) rfl, fun hn => absurd rfl (hn p), fun _ => id⟩
  | getPoint p f =>
    obtain ⟨q, hq, h⟩ := Out.bind_eq_ok.mp h
    exact same (Prod.mk.inj (Out.ok.inj h)).1.symm (by simp) (by simp)
  | setPoint p f v =>
    obtain ⟨q, hq, h⟩ := Out.bind_eq_ok.mp h
    exact setP _ _ (Prod.mk.inj (Out.ok.inj h)).1.symm (by simp) (by simp)
  | getUseAng p =>
    obtain ⟨q, hq, h⟩ := Out.bind_eq_ok.mp h
    exact same (Prod.mk.inj (Out.ok.inj h)).1.symm (by simp) (by simp)
  | setUseAng p v =>
    obtain ⟨q, hq, h⟩ := Out.bind_eq_ok.mp h
    exact setP _ _ (Prod.mk.inj (Out.ok.inj h)).1.symm (by simp) (by simp)
  | getCost p =>
    obtain ⟨q, hq, h⟩ := Out.bind_eq_ok.mp h
    exact same (Prod.mk.inj (Out.ok.inj h)).1.symm (by simp) (by simp)
  | setCost p v =>
    obtain ⟨q, hq, h⟩ := Out.bind_eq_ok.mp h
    exact setP _ _ (Prod.mk.inj (Out.ok.inj h)).1.symm (by simp) (by simp)
  | getRep p =>
    obtain ⟨q, hq, h⟩ := Out.bind_eq_ok.mp h
    exact same (Prod.mk.inj (Out.ok.inj h)).1.symm (by simp) (by simp)
  | setRep p v =>
    obtain ⟨q, hq, h⟩ := Out.bind_eq_ok.mp h
    exact setP _ _ (Prod.mk.inj (Out.ok.inj h)).1.symm (by simp) (by simp)
  | getConstraints p =>
    obtain ⟨q, hq, h⟩ := Out.bind_eq_ok.mp h
    obtain ⟨rfl, rfl⟩ := Prod.mk.inj (Out.ok.inj h)
    exact ⟨frame (by simp) (by simp) rfl, fun _ => id, fun hn => absurd rfl (hn p)⟩
  | setConstraints p v =>
    obtain ⟨q, hq, h⟩ := Out.bind_eq_ok.mp h
    obtain ⟨w, hw, h⟩ := Out.bind_eq_ok.mp h
    obtain ⟨c, hc, h⟩ := Out.bind_eq_ok.mp h
    exact setP _ _ (Prod.mk.inj (Out.ok.inj h)).1.symm (by simp) (by simp)
  | addContact p i =>
    obtain ⟨q, hq, h⟩ := Out.bind_eq_ok.mp h
    obtain ⟨c, hc, h⟩ := Out.bind_eq_ok.mp h
    obtain ⟨⟨h', cs'⟩, hm, h⟩ := Out.bind_eq_ok.mp h
    obtain ⟨rfl, rfl⟩ := Prod.mk.inj (Out.ok.inj h)
    exact ⟨Or.inr (Or.inl ⟨p, i, q, c, cs', rfl, prob_live hq, contact_spec hc, hm, rfl⟩), fun _ hw => whole_set hw p _, fun _ => id⟩
  | clearContacts p =>
    obtain ⟨q, hq, h⟩ := Out.bind_eq_ok.mp h
    exact setP _ _ (Prod.mk.inj (Out.ok.inj h)).1.symm (by simp) (by simp)
  | newConstraints =>
    obtain ⟨rfl, rfl⟩ := Prod.mk.inj (Out.ok.inj h)
    refine ⟨frame (by simp) (by simp) rfl, fun _ => id, fun _ hn v p hv => ?_⟩
    rcases refers_append rfl hv with hv | ⟨-, hv⟩
    · exact hn v p hv
    · cases hv
  | delConstraints v =>
    obtain ⟨w, hw, h⟩ := Out.bind_eq_ok.mp h
    have sub : ∀ u p, (st.refs.set v none)[u]? = some (some (.member p)) → st.Refers u (.member p) := by
      intro u p hu
      rw [List.getElem?_set] at hu
      split at hu
      · split at hu <;> cases hu
      · exact hu
    cases w with
    | own i =>
      obtain ⟨rfl, rfl⟩ := Prod.mk.inj (Out.ok.inj h)
      exact ⟨frame (by simp) (by simp) rfl, fun _ => id, fun _ hn u p hu => hn u p (sub u p hu)⟩
    | member p =>
      obtain ⟨rfl, rfl⟩ := Prod.mk.inj (Out.ok.inj h)
      exact ⟨frame (by simp) (by simp) rfl, fun _ => id, fun _ hn u p hu => hn u p (sub u p hu)⟩
  | getFlag v => exact same (getCons_ok h).1 (by simp) (by simp)
  | setFlag v k => exact setC (setFlag_ok h).2 (by simp) (by simp)
  | getConAcc v => exact same (getCons_ok h).1 (by simp) (by simp)
  | setConAcc v k => exact setC h (by simp) (by simp)
  | getMaxAcc v => exact same (getCons_ok h).1 (by simp) (by simp)
  | setMaxAcc v k => exact setC h (by simp) (by simp)
  | getReduceH v => exact same (getCons_ok h).1 (by simp) (by simp)
  | setReduceH v k => exact setC h (by simp) (by simp)

/-- The heap has `n` objects more. -/
structure Grown (h h' : Heap) (n : ℕ) : Prop where
  next : h'.next = h.next + n
  same : ∀ a < h.next, h'.obj a = h.obj a
  more : ∀ a, h.next ≤ a → a < h'.next → ∃ e, h'.obj a = some e
  rest : ∀ a, h'.next ≤ a → h'.obj a = h.obj a

theorem Grown.trans {h h' h'' : Heap} {n n' : ℕ} (a : Grown h h' n) (b : Grown h' h'' n') : Grown h h'' (n + n') := by
  have hn := a.next
  have hn' := b.next
  refine ⟨by omega, fun x hx => (b.same x (by omega)).trans (a.same x hx), fun x h1 h2 => ?_, fun x hx => (b.rest x hx).trans (a.rest x (by omega))⟩
  rcases lt_or_ge x h'.next with hl | hl
  · rw [b.same x hl]; exact a.more x h1 hl
  · exact b.more x hl h2

theorem copyContact_grown {h : Heap} {c : CContact} {r : Heap × CContact} (H : copyContact h c = .ok r) : Grown h r.1 1 := by
  unfold copyContact at H
  cases hp : c.phase with
  | none => rw [hp] at H; cases H
  | some a =>
    rw [hp] at H
    dsimp only at H
    cases ho : h.obj a with
    | none => rw [ho] at H; cases H
    | some e =>
      rw [ho] at H
      obtain rfl := Out.ok.inj H
      refine ⟨rfl, fun x hx => if_neg (by omega), fun x h1 h2 => ⟨e, if_pos ?_⟩, fun x hx => if_neg ?_⟩
      · simp only [Heap.alloc] at h2; omega
      · simp only [Heap.alloc] at hx; omega

theorem copyContacts_grown : ∀ (cs : List CContact) {h : Heap} {r : Heap × List CContact}, copyContacts h cs = .ok r → Grown h r.1 cs.length := by
  intro cs
  induction cs with
  | nil =>
    intro h r H
    obtain rfl := Out.ok.inj H
    exact ⟨rfl, fun _ _ => rfl, fun a h1 h2 => absurd h1 (not_le.mpr h2), fun _ _ => rfl⟩
  | cons c cs ih =>
    intro h r H
    unfold copyContacts at H
    obtain ⟨r1, H1, H⟩ := Out.bind_eq_ok.mp H
    obtain ⟨r2, H2, H⟩ := Out.bind_eq_ok.mp H
    obtain rfl := Out.ok.inj H
    have := (copyContact_grown H1).trans (ih H2)
    rwa [Nat.add_comm] at this

theorem addContact_grown {grows : ℕ → Bool} {h : Heap} {cs : List CContact} {c : CContact} {r : Heap × List CContact} (H : addContact grows h cs c = .ok r) :
    Grown h r.1 (2 + if grows cs.length then cs.length else 0) := by
  unfold addContact at H
  obtain ⟨r1, H1, H⟩ := Out.bind_eq_ok.mp H
  obtain ⟨r2, H2, H⟩ := Out.bind_eq_ok.mp H
  have g := (copyContact_grown H1).trans (copyContact_grown H2)
  split at H
  · rename_i hg
    obtain ⟨r3, H3, H⟩ := Out.bind_eq_ok.mp H
    obtain rfl := Out.ok.inj H
    rw [if_pos hg]
    have := g.trans (copyContacts_grown cs H3)
    exact this
  · rename_i hg
    obtain rfl := Out.ok.inj H
    rw [if_neg hg]
    exact g

theorem LInv.grown {m : PyState} (hi : LInv m) {h' : Heap} {n : ℕ} (g : Grown m.heap h' n) : LifeLaw m { m with heap := h' } := by
  refine ⟨by have := g.next; dsimp only; omega, fun a ha => ⟨fun _ => ha, fun _ => ?_⟩, fun a hl ha => ⟨g.same a hl, ha⟩, fun a hl h => ?_, fun a ha => Or.inl ha⟩
  · obtain ⟨e, he⟩ := hi.alive a ha
    exact ⟨e, (g.same a (hi.below a (Or.inr ha))).trans he⟩
  · exact absurd (hi.below a (Or.inr h)) (not_lt.mpr hl)

theorem LInv.step {grows : ℕ → Bool} {st st' : PySession} {cmd : PyOp} {r : PyVal} (hi : LInv st.mem) (h : st.step grows cmd = .ok (st', r)) : LifeLaw st.mem st'.mem := by
  rcases (session_frame h).1 with ⟨c, -, h1, h2, h3⟩ | ⟨p, i, q, c, cs', -, -, -, h1, h2⟩ | ⟨-, -, h1⟩
  · exact hi.memStep h1 h2 h3
  · rw [h2]; exact hi.grown (addContact_grown h1)
  · exact hi.same (by rw [h1]) (fun a => by rw [h1]) fun a ha => Or.inl (by rw [h1] at ha; exact ha)

theorem PySReach.life {grows : ℕ → Bool} {st : PySession} (hr : PySReach grows st) : LInv st.mem := by
  obtain ⟨cs, hcs⟩ := hr
  exact session_induct grows (fun st => LInv st.mem) (fun _ => True) (fun _ _ _ _ _ hi hs => hi.law (hi.step hs)) cs _ _ (fun _ _ => trivial) LInv.init hcs

/-! ## C106 -/

/-- C106, the lifetime of the `Equilibrium` objects made by Python. In every state of a session, an object that a variable owns, or that was the argument of the constructor
of a `ContactData` that still exists (and was owned by the variable given), exists. A command after which neither holds any more destroys it, and only then. -/
theorem C106_lifetime (grows : ℕ → Bool) {st : PySession} (hr : PySReach grows st) {a : ℕ}
    (hk : some (a, true) ∈ st.mem.eqs ∨ ∃ c, some c ∈ st.mem.contacts ∧ c.ward = some a) :
    (∃ e, st.mem.heap.obj a = some e) ∧
    ∀ cmd st' r, st.step grows cmd = .ok (st', r) →
      ((∃ e, st'.mem.heap.obj a = some e) ↔ some (a, true) ∈ st'.mem.eqs ∨ ∃ c, some c ∈ st'.mem.contacts ∧ c.ward = some a) :=
  ⟨hr.life.alive a hk, fun _ _ _ h => (hr.life.step h).kept a hk⟩

/-- C106, what a Python object refers to exists exactly as long as something keeps it. -/
theorem C106_reference (grows : ℕ → Bool) {st : PySession} (hr : PySReach grows st) {a : ℕ}
    (ha : (∃ b, some (a, b) ∈ st.mem.eqs) ∨ ∃ c, some c ∈ st.mem.contacts ∧ c.data.phase = some a) :
    (∃ e, st.mem.heap.obj a = some e) ↔ some (a, true) ∈ st.mem.eqs ∨ ∃ c, some c ∈ st.mem.contacts ∧ c.ward = some a :=
  ⟨hr.life.addr a ha, hr.life.alive a⟩

theorem release_value {m : PyState} {a b : ℕ} {o : Equilibrium} (h : (m.release b).heap.obj a = some o) : m.heap.obj a = some o := by
  unfold PyState.release at h
  split at h
  · exact h
  · by_cases e : a = b
    · subst e; simp [Heap.set] at h
    · simpa [Heap.set, e] using h

theorem memStep_value {grows : ℕ → Bool} {m m' : PyState} {c : PyCmd} (h : m.step grows c = .ok m') (h1 : ∀ i, c ≠ .addContact i) (h2 : c ≠ .clearContacts) {a : ℕ}
    (hl : a < m.heap.next) {o : Equilibrium} (ho : m'.heap.obj a = some o) :
    (∃ v b, c = .setEq v o ∧ m.eqs[v]? = some (some (a, b))) ∨ m.heap.obj a = some o := by
  cases c with
  | newEq e =>
    obtain rfl := Out.ok.inj h
    exact Or.inr ((if_neg (by omega)).symm.trans ho)
  | setEq v e =>
    obtain ⟨w, hw, h⟩ := Out.bind_eq_ok.mp h
    split at h
    · cases h
    · obtain rfl := Out.ok.inj h
      by_cases hE : a = w.1
      · subst hE
        obtain rfl : e = o := Option.some.inj ((if_pos rfl).symm.trans ho)
        exact Or.inl ⟨v, w.2, rfl, var_spec hw⟩
      · exact Or.inr ((if_neg hE).symm.trans ho)
  | aliasEq v =>
    obtain ⟨w, hw, h⟩ := Out.bind_eq_ok.mp h
    obtain rfl := Out.ok.inj h
    exact Or.inr ho
  | delEq v =>
    obtain ⟨w, hw, h⟩ := Out.bind_eq_ok.mp h
    obtain rfl := Out.ok.inj h
    split at ho
    · exact Or.inr (release_value (m := { m with eqs := m.eqs.set v none }) ho)
    · exact Or.inr ho
  | newContact v =>
    cases v with
    | none => obtain rfl := Out.ok.inj h; exact Or.inr ho
    | some v =>
      obtain ⟨w, hw, h⟩ := Out.bind_eq_ok.mp h
      obtain rfl := Out.ok.inj h
      exact Or.inr ho
  | delContact i =>
    obtain ⟨c, hc, h⟩ := Out.bind_eq_ok.mp h
    dsimp only at h
    split at h
    · obtain rfl := Out.ok.inj h; exact Or.inr ho
    · obtain rfl := Out.ok.inj h
      exact Or.inr (release_value (m := { m with contacts := m.contacts.set i none }) ho)
  | getPhase i =>
    obtain ⟨c, hc, h⟩ := Out.bind_eq_ok.mp h
    obtain ⟨a, ha, h⟩ := Out.bind_eq_ok.mp h
    obtain rfl := Out.ok.inj h
    exact Or.inr ho
  | setPhase i v =>
    obtain ⟨c, hc, h⟩ := Out.bind_eq_ok.mp h
    obtain ⟨p, hp, h⟩ := Out.bind_eq_ok.mp h
    obtain rfl := Out.ok.inj h
    exact Or.inr ho
  | setKin i K k =>
    obtain ⟨c, hc, h⟩ := Out.bind_eq_ok.mp h
    obtain ⟨d, hd, h⟩ := Out.bind_eq_ok.mp h
    obtain rfl := Out.ok.inj h
    exact Or.inr ho
  | setAng i K k =>
    obtain ⟨c, hc, h⟩ := Out.bind_eq_ok.mp h
    obtain ⟨d, hd, h⟩ := Out.bind_eq_ok.mp h
    obtain rfl := Out.ok.inj h
    exact Or.inr ho
  | addContact i => exact absurd rfl (h1 i)
  | clearContacts => exact absurd rfl h2

/-- C106, an object changes only through a variable that holds it. -/
theorem C106_value (grows : ℕ → Bool) {st st' : PySession} {cmd : PyOp} {r : PyVal} (h : st.step grows cmd = .ok (st', r)) {a : ℕ} (hl : a < st.mem.heap.next)
    {o : Equilibrium} (ho : st'.mem.heap.obj a = some o) :
    (∃ v b, cmd = .mem (.setEq v o) ∧ st.mem.eqs[v]? = some (some (a, b))) ∨ st.mem.heap.obj a = some o := by
  rcases (session_frame h).1 with ⟨c, rfl, h1, h2, h3⟩ | ⟨p, i, q, c, cs', -, -, -, h1, -⟩ | ⟨-, -, h1⟩
  · rcases memStep_value h1 h2 h3 hl ho with ⟨v, b, rfl, k⟩ | k
    · exact Or.inl ⟨v, b, rfl, k⟩
    · exact Or.inr k
  · exact Or.inr (((addContact_grown h1).same a hl).symm.trans ho)
  · rw [h1] at ho; exact Or.inr ho

/-- An object that Python does not keep stays what it is until the end of the session. -/
theorem unkept_forever (grows : ℕ → Bool) {st st' : PySession} (hi : LInv st.mem) {a : ℕ} (hl : a < st.mem.heap.next) (hn : ¬ st.mem.Kept a) (cs : List PyOp)
    (h : st.run grows cs = .ok st') : st'.mem.heap.obj a = st.mem.heap.obj a := by
  have := session_induct grows (fun s => LInv s.mem ∧ a < s.mem.heap.next ∧ ¬ s.mem.Kept a ∧ s.mem.heap.obj a = st.mem.heap.obj a) (fun _ => True)
    (fun s s' cmd r _ ⟨h1, h2, h3, h4⟩ hs => ?_) cs st st' (fun _ _ => trivial) ⟨hi, hl, hn, rfl⟩ h
  · exact this.2.2.2
  · have law := h1.step hs
    obtain ⟨o1, o2⟩ := law.other a h2 h3
    exact ⟨h1.law law, lt_of_lt_of_le h2 law.next, o2, o1.trans h4⟩

/-- C106, the copies made by `addContact` are never destroyed: the command makes two objects, and one more per contact of the problem when the vector grows; whatever is
done afterwards, `clearContacts` and the deletion of the problem included, they still exist with the value they had (`~ContactData` frees nothing). -/
theorem C106_leak (grows : ℕ → Bool) {st st' : PySession} (hr : PySReach grows st) {p i : ℕ} {r : PyVal} {q : CProblem} (hq : st.Live p q)
    (h : st.step grows (.addContact p i) = .ok (st', r)) :
    st'.mem.heap.next = st.mem.heap.next + (2 + if grows q.contacts.length then q.contacts.length else 0) ∧
    ∀ a, st.mem.heap.next ≤ a → a < st'.mem.heap.next → ∃ e, st'.mem.heap.obj a = some e ∧
      ∀ cs st'', st'.run grows cs = .ok st'' → st''.mem.heap.obj a = some e := by
  rcases (session_frame h).1 with ⟨c, h1, -⟩ | ⟨p', i', q', c, cs', h0, hq', -, h1, h2⟩ | ⟨-, h1, -⟩
  · cases h1
  · cases h0
    obtain rfl := Live.unique hq hq'
    have g : Grown st.mem.heap st'.mem.heap _ := addContact_grown h1
    refine ⟨g.next, fun a h3 h4 => ?_⟩
    obtain ⟨e, he⟩ := g.more a h3 h4
    refine ⟨e, he, fun cs st'' hs => ?_⟩
    rw [unkept_forever grows (hr.life.law (hr.life.step h)) h4 (fun hk => ?_) cs hs, he]
    rw [h2] at hk
    exact absurd (hr.life.below a (Or.inr hk)) (not_lt.mpr h3)
  · exact absurd rfl (h1 p i)

/-- The commands of a session that keeps to the constructor: `contactPhase_` is neither read nor assigned, and no `ContactData` is made of `None`. -/
def Disciplined : PyOp → Prop
  | .mem (.getPhase _) => False
  | .mem (.setPhase _ _) => False
  | .mem (.newContact none) => False
  | _ => True

/-- Every variable owns its object, and every `ContactData` has the object that it keeps. -/
structure DInv (m : PyState) : Prop where
  vars : ∀ q, some q ∈ m.eqs → q.2 = true
  datas : ∀ c, some c ∈ m.contacts → c.data.phase = c.ward ∧ c.ward ≠ none

theorem release_lists (m : PyState) (a : ℕ) : (m.release a).eqs = m.eqs ∧ (m.release a).contacts = m.contacts := by
  unfold PyState.release
  split <;> exact ⟨rfl, rfl⟩

theorem DInv.setContact {m : PyState} (hd : DInv m) {i : ℕ} {c c' : PyContact} (hc : m.contacts[i]? = some (some c)) (hw : c'.ward = c.ward)
    (hp : c'.data.phase = c.data.phase) : DInv { m with contacts := m.contacts.set i (some c') } := by
  refine ⟨hd.vars, fun d h => ?_⟩
  rcases List.mem_or_eq_of_mem_set h with h | h
  · exact hd.datas d h
  · obtain rfl := Option.some.inj h
    rw [hw, hp]
    exact hd.datas c (List.mem_of_getElem? hc)

theorem DInv.memStep {grows : ℕ → Bool} {m m' : PyState} {c : PyCmd} (hd : DInv m) (h : m.step grows c = .ok m') (hc : Disciplined (.mem c)) (h1 : ∀ i, c ≠ .addContact i)
    (h2 : c ≠ .clearContacts) : DInv m' := by
  have addVar : ∀ (hp : Heap) (q : ℕ × Bool), q.2 = true → DInv { m with heap := hp, eqs := m.eqs ++ [some q] } := by
    intro hp q hq
    refine ⟨fun x hx => ?_, hd.datas⟩
    rcases List.mem_append.mp hx with hx | hx
    · exact hd.vars x hx
    · obtain rfl := Option.some.inj (List.mem_singleton.mp hx); exact hq
  cases c with
  | newEq e => obtain rfl := Out.ok.inj h; exact addVar _ _ rfl
  | setEq v e =>
    obtain ⟨w, hw, h⟩ := Out.bind_eq_ok.mp h
    split at h
    · cases h
    · obtain rfl := Out.ok.inj h; exact ⟨hd.vars, hd.datas⟩
  | aliasEq v =>
    obtain ⟨w, hw, h⟩ := Out.bind_eq_ok.mp h
    obtain rfl := Out.ok.inj h
    exact addVar _ _ (hd.vars w (List.mem_of_getElem? (var_spec hw)))
  | delEq v =>
    obtain ⟨w, hw, h⟩ := Out.bind_eq_ok.mp h
    obtain rfl := Out.ok.inj h
    split
    · obtain ⟨e1, e2⟩ := release_lists { m with eqs := m.eqs.set v none } w.1
      exact ⟨fun x hx => hd.vars x (mem_set_none (e1 ▸ hx)), fun c hc => hd.datas c (e2 ▸ hc)⟩
    · exact ⟨fun x hx => hd.vars x (mem_set_none hx), hd.datas⟩
  | newContact v =>
    cases v with
    | none => exact hc.elim
    | some v =>
      obtain ⟨w, hw, h⟩ := Out.bind_eq_ok.mp h
      obtain rfl := Out.ok.inj h
      refine ⟨hd.vars, fun c hc => ?_⟩
      rcases List.mem_append.mp hc with hc | hc
      · exact hd.datas c hc
      · obtain rfl := Option.some.inj (List.mem_singleton.mp hc)
        simp [CContact.new, hd.vars w (List.mem_of_getElem? (var_spec hw))]
  | delContact i =>
    obtain ⟨c, hc, h⟩ := Out.bind_eq_ok.mp h
    dsimp only at h
    split at h
    · obtain rfl := Out.ok.inj h
      exact ⟨hd.vars, fun c hc => hd.datas c (mem_set_none hc)⟩
    · rename_i a _
      obtain rfl := Out.ok.inj h
      obtain ⟨e1, e2⟩ := release_lists { m with contacts := m.contacts.set i none } a
      exact ⟨fun x hx => hd.vars x (e1 ▸ hx), fun c hc => hd.datas c (mem_set_none (e2 ▸ hc))⟩
  | getPhase i => exact hc.elim
  | setPhase i v => exact hc.elim
  | setKin i K k =>
    obtain ⟨c, hc, h⟩ := Out.bind_eq_ok.mp h
    obtain ⟨d, hd', h⟩ := Out.bind_eq_ok.mp h
    obtain rfl := Out.ok.inj h
    refine hd.setContact (contact_spec hc) rfl ?_
    unfold set_Kin at hd'
    split at hd'
    · cases hd'
    · obtain rfl := Out.ok.inj hd'; rfl
  | setAng i K k =>
    obtain ⟨c, hc, h⟩ := Out.bind_eq_ok.mp h
    obtain ⟨d, hd', h⟩ := Out.bind_eq_ok.mp h
    obtain rfl := Out.ok.inj h
    refine hd.setContact (contact_spec hc) rfl ?_
    unfold set_Ang at hd'
    split at hd'
    · cases hd'
    · obtain rfl := Out.ok.inj hd'; rfl
  | addContact i => exact absurd rfl (h1 i)
  | clearContacts => exact absurd rfl h2

theorem DInv.step {grows : ℕ → Bool} {st st' : PySession} {cmd : PyOp} {r : PyVal} (hd : DInv st.mem) (hc : Disciplined cmd) (h : st.step grows cmd = .ok (st', r)) :
    DInv st'.mem := by
  rcases (session_frame h).1 with ⟨c, rfl, h1, h2, h3⟩ | ⟨p, i, q, c, cs', -, -, -, -, h2⟩ | ⟨-, -, h1⟩
  · exact hd.memStep h1 hc h2 h3
  · rw [h2]; exact ⟨hd.vars, hd.datas⟩
  · rw [h1]; exact hd

/-- With the invariants, no command is undefined. -/
theorem disciplined_defined {st : PySession} (hi : SInv st) (hl : LInv st.mem) (hd : DInv st.mem) (hw : st.Whole ∨ st.NoMember) (cmd : PyOp) : ¬ st.Undefined cmd := by
  have nd : ∀ v, ¬ st.Dangling v := by
    rintro v ⟨p, h1, h2⟩
    rcases hw with hw | hw
    · obtain ⟨q, hq⟩ := hw p (hi.member v p h1)
      exact h2 q hq
    · exact hw v p h1
  intro hu
  cases cmd with
  | mem c =>
    cases c with
    | setEq v e =>
      obtain ⟨w, h1, h2⟩ := hu
      obtain ⟨o, ho⟩ := hl.alive w.1 (kept_var h1 (hd.vars w (List.mem_of_getElem? h1)))
      rw [h2] at ho; cases ho
    | _ => exact hu
  | addContact p i =>
    obtain ⟨-, c, h1, h2⟩ := hu
    obtain ⟨d1, d2⟩ := hd.datas c (List.mem_of_getElem? h1)
    obtain ⟨a, ha⟩ := Option.ne_none_iff_exists'.mp d2
    obtain ⟨o, ho⟩ := hl.alive a (Or.inr ⟨c, List.mem_of_getElem? h1, ha⟩)
    rw [h2 a (d1.trans ha)] at ho; cases ho
  | setConstraints p v => exact nd v hu.2
  | setFlag v k => exact nd v hu.2
  | getFlag v => exact nd v hu
  | getConAcc v => exact nd v hu
  | setConAcc v k => exact nd v hu
  | getMaxAcc v => exact nd v hu
  | setMaxAcc v k => exact nd v hu
  | getReduceH v => exact nd v hu
  | setReduceH v k => exact nd v hu
  | _ => exact hu

theorem disciplined_run (grows : ℕ → Bool) (P : PySession → Prop) (ok : PyOp → Prop)
    (hstep : ∀ st st' cmd r, ok cmd → P st → st.step grows cmd = .ok (st', r) → P st') (hdef : ∀ st cmd, ok cmd → P st → Clean (st.step grows cmd) False) :
    ∀ (cs : List PyOp) (st : PySession), (∀ c ∈ cs, ok c) → P st → ∃ st', st.run grows cs = .ok st' := by
  intro cs
  induction cs with
  | nil => intro st _ _; exact ⟨st, rfl⟩
  | cons c cs ih =>
    intro st hok hp
    have hok' : ∀ c ∈ cs, ok c := fun d hd => hok d (List.mem_cons_of_mem _ hd)
    obtain ⟨h1, h2, h3⟩ := hdef st c (hok c (by simp)) hp
    rw [PySession.run]
    cases hs : st.step grows c with
    | ok r => exact ih _ hok' (hstep _ _ _ _ (hok c (by simp)) hp (show st.step grows c = .ok (r.1, r.2) from hs))
    | throw m => exact ih _ hok' hp
    | assertFail => exact absurd hs h1
    | ub => exact (h3.mp hs).elim
    | diverge => exact absurd hs h2

/-- C106, sessions that keep to the constructor are defined: if `contactPhase_` is neither read nor assigned, no `ContactData` is made of `None`, and either no problem is
deleted or the constraints of no problem are read, then every session, whatever it creates, changes, aliases, adds, clears and deletes, ends normally. -/
theorem C106_disciplined (grows : ℕ → Bool) (cs : List PyOp) (hc : ∀ c ∈ cs, Disciplined c)
    (hw : (∀ c ∈ cs, ∀ p, c ≠ .delProblem p) ∨ ∀ c ∈ cs, ∀ p, c ≠ .getConstraints p) : ∃ st, PySession.init.run grows cs = .ok st := by
  have main : ∀ (W : PySession → Prop) (okW : PyOp → Prop), (∀ st, W st → st.Whole ∨ st.NoMember) →
      (∀ st st' cmd r, okW cmd → W st → st.step grows cmd = .ok (st', r) → W st') → W PySession.init → (∀ c ∈ cs, okW c) → ∃ st, PySession.init.run grows cs = .ok st := by
    intro W okW h1 h2 h3 h4
    refine disciplined_run grows (fun st => SInv st ∧ LInv st.mem ∧ DInv st.mem ∧ W st) (fun c => Disciplined c ∧ okW c) ?_ ?_ cs _ (fun c h => ⟨hc c h, h4 c h⟩)
      ⟨SInv.init, LInv.init, ⟨by simp [PySession.init, PyState.init], by simp [PySession.init, PyState.init]⟩, h3⟩
    · rintro st st' cmd r ⟨k1, k2⟩ ⟨i1, i2, i3, i4⟩ hs
      exact ⟨(i1.step hs).1, i2.law (i2.step hs), i3.step k1 hs, h2 _ _ _ _ k2 i4 hs⟩
    · rintro st cmd - ⟨i1, i2, i3, i4⟩
      have := C101_clean grows i1 cmd
      exact ⟨this.1, this.2.1, this.2.2.trans ⟨disciplined_defined i1 i2 i3 (h1 st i4) cmd, False.elim⟩⟩
  rcases hw with hw | hw
  · exact main PySession.Whole (fun c => ∀ p, c ≠ .delProblem p) (fun _ => Or.inl) (fun _ _ _ _ h hW hs => (session_frame hs).2.1 h hW)
      (fun p hp => by simp [PySession.init] at hp) hw
  · exact main PySession.NoMember (fun c => ∀ p, c ≠ .getConstraints p) (fun _ => Or.inr) (fun _ _ _ _ h hW hs => (session_frame hs).2.2 h hW)
      (fun v p hv => by simp [PySession.init, PySession.Refers] at hv) hw

/-- C106, each of the four conditions is needed. -/
theorem C106_needed (grows : ℕ → Bool) (e : Equilibrium) :
    PySession.init.run grows [.mem (.newEq e), .mem (.newContact (some 0)), .mem (.getPhase 0), .mem (.newContact (some 1)), .mem (.delContact 0), .mem (.delEq 0),
      .newProblem, .addContact 0 1] = .ub ∧
    PySession.init.run grows [.mem (.newEq e), .mem (.newContact (some 0)), .mem (.newEq e), .mem (.setPhase 0 (some 1)), .mem (.delEq 1), .newProblem, .addContact 0 0] = .ub ∧
    PySession.init.run grows [.mem (.newContact none), .newProblem, .addContact 0 0] = .ub ∧
    PySession.init.run grows [.newProblem, .getConstraints 0, .delProblem 0, .getFlag 0] = .ub := by
  refine ⟨?_, ?_, rfl, rfl⟩ <;>
  simp [PySession.run, PySession.step, PySession.init, PySession.prob, PySession.setProb, CProblem.new, PyState.init, PyState.step, PyState.ptr, PyState.var,
    PyState.contact, PyState.release, PyState.Kept, Heap.alloc, Heap.set, CContact.new, getContactPhase_, Verif.addContact, copyContact]

/-- The hypotheses are met by a session that makes, adds and deletes: the object is kept by the contact, then destroyed, and its copies remain. -/
example (e : Equilibrium) : ∃ st st', PySession.init.run (fun _ => true) [.mem (.newEq e), .mem (.newContact (some 0)), .mem (.delEq 0), .newProblem, .addContact 0 0] = .ok st ∧
    st.mem.heap.obj 0 = some e ∧ st.run (fun _ => true) [.clearContacts 0, .mem (.delContact 0), .delProblem 0] = .ok st' ∧
    st'.mem.heap.obj 0 = none ∧ st'.mem.heap.obj 1 = some e ∧ st'.mem.heap.obj 2 = some e := by
  simp [PySession.run, PySession.step, PySession.init, PySession.prob, PySession.setProb, CProblem.new, PyState.init, PyState.step, PyState.ptr, PyState.var,
    PyState.contact, PyState.release, PyState.Kept, Heap.alloc, Heap.set, CContact.new, Verif.addContact, copyContact, copyContacts]

end Verif
