import Verif.Model.OneStep
import Verif.Props.C15
import Verif.TimeProofs
import Verif.SpecTraj
import Mathlib.Algebra.BigOperators.Group.List.Basic

/-!
# Lemmas on the discretised constraint assembly
-/

namespace Verif
open Matrix

/-! ## Filling buffers -/

/-- The first rows of the buffers hold exactly the list `L`. -/
structure Filled (st : Asm) (n : ℕ) (L : List (V3 × ℝ)) : Prop where
  ar : st.A.rows = n
  ac : st.A.cols = 3
  br : st.b.rows = n
  bc : st.b.cols = 1
  row : st.row = L.length
  a : ∀ r q, L[r]? = some q → ∀ c < 3, st.A.e r c = some (V3.get q.1 c)
  b : ∀ r q, L[r]? = some q → st.b.e r 0 = some q.2

theorem put_filled {st : Asm} {n : ℕ} {L : List (V3 × ℝ)} (h : Filled st n L)
    (M : List (V3 × ℝ)) (k : ℕ) (hk : M.length = k) (hle : (L ++ M).length ≤ n) :
    ∃ st', st.put M k = .ok st' ∧ Filled st' n (L ++ M) := by
  subst hk
  rw [List.length_append] at hle
  have h1 : st.row + (M.map (·.1)).length ≤ st.A.rows ∧ 0 + 3 ≤ st.A.cols := by
    rw [h.row, h.ar, h.ac, List.length_map]; omega
  have h2 : st.row + (M.map (·.2)).length ≤ st.b.rows ∧ 0 + 1 ≤ st.b.cols := by
    rw [h.row, h.br, h.bc, List.length_map]; omega
  unfold Asm.put Buf.writeRows Buf.writeSeg Buf.write
  rw [if_pos h1, if_pos h2]
  refine ⟨_, rfl, h.ar, h.ac, h.br, h.bc, by simp [h.row], ?_, ?_⟩
  · intro r q hq c hc
    simp only [h.row, List.length_map]
    by_cases hr : r < L.length
    · rw [if_neg (by omega)]
      rw [List.getElem?_append_left hr] at hq
      exact h.a r q hq c hc
    · rw [List.getElem?_append_right (by omega)] at hq
      obtain ⟨hlt, -⟩ := List.getElem?_eq_some_iff.mp hq
      rw [if_pos (by omega)]
      simp [List.getD, hq]
  · intro r q hq
    simp only [h.row, List.length_map]
    by_cases hr : r < L.length
    · rw [if_neg (by omega)]
      rw [List.getElem?_append_left hr] at hq
      exact h.b r q hq
    · rw [List.getElem?_append_right (by omega)] at hq
      obtain ⟨hlt, -⟩ := List.getElem?_eq_some_iff.mp hq
      rw [if_pos (by omega)]
      simp [List.getD, hq]

/-! ## Phase tags of a time array -/

/-- The tags of the samples start at `p`, stay or increase by one, and end at `N - 1`. -/
def TagsFrom (N : ℕ) : ℕ → TTime → Prop
  | _, [] => False
  | p, [q] => q.2 = p ∧ p + 1 = N
  | p, q :: q' :: rest =>
    q.2 = p ∧ (TagsFrom N p (q' :: rest) ∨ TagsFrom N (p + 1) (q' :: rest))

theorem TagsFrom.head {N p : ℕ} {q : ℝ × ℤ} {l : TTime} (h : TagsFrom N p (q :: l)) : q.2 = p := by
  cases l with
  | nil => exact h.1
  | cons a l => exact h.1

theorem TagsFrom.lt {N : ℕ} : ∀ {l : TTime} {p : ℕ}, TagsFrom N p l → p < N := by
  intro l
  induction l with
  | nil => intro p h; exact h.elim
  | cons q l ih =>
    intro p h
    cases l with
    | nil => have := h.2; omega
    | cons q' rest =>
      rcases h.2 with h | h
      · exact ih h
      · have := ih h; omega

/-- The list of what is written for each sample: `f` for the sample itself, then `fs` for the phase
that begins when the next sample has another tag. -/
def expand {β : Type} (f fs : ℝ → ℕ → List β) : TTime → List β
  | [] => []
  | [q] => f q.1 q.2.toNat
  | q :: q' :: rest =>
    f q.1 q.2.toNat ++ ((if q'.2 ≠ q.2 then fs q.1 q'.2.toNat else []) ++ expand f fs (q' :: rest))

theorem expand_length {β : Type} (f fs : ℝ → ℕ → List β) (m : ℕ → ℕ)
    (hf : ∀ t p, (f t p).length = m p) (hfs : ∀ t p, (fs t p).length = m p) (l : TTime) :
    (expand f fs l).length
      = ((expand (fun _ p => [p]) (fun _ p => [p]) l).map m).sum := by
  induction l with
  | nil => rfl
  | cons q l ih =>
    cases l with
    | nil => simp [expand, hf]
    | cons q' rest =>
      by_cases h : q'.2 ≠ q.2
      · simp only [expand, if_pos h, List.length_append, hf, hfs, ih, List.map_append, List.sum_append,
          List.map_cons, List.map_nil, List.sum_cons, List.sum_nil]
        omega
      · simp only [expand, if_neg h, List.length_append, hf, ih, List.map_append, List.sum_append,
          List.map_cons, List.map_nil, List.sum_cons, List.sum_nil, List.length_nil]
        omega

theorem expand_mem {β : Type} (f fs : ℝ → ℕ → List β) (b : β) (l : TTime) :
    b ∈ expand f fs l ↔ (∃ q ∈ l, b ∈ f q.1 q.2.toNat) ∨
      ∃ l₁ q q' l₂, l = l₁ ++ q :: q' :: l₂ ∧ q'.2 ≠ q.2 ∧ b ∈ fs q.1 q'.2.toNat := by
  induction l with
  | nil => simp [expand]
  | cons q l ih =>
    cases l with
    | nil =>
      simp only [expand, List.mem_singleton]
      constructor
      · intro h; exact Or.inl ⟨q, rfl, h⟩
      · rintro (⟨q', rfl, h⟩ | ⟨l₁, a, a', l₂, h, -⟩)
        · exact h
        · have := congrArg List.length h
          simp at this
          omega
    | cons q' rest =>
      rw [expand, List.mem_append, List.mem_append, ih]
      constructor
      · rintro (h | h | ⟨a, ha, h⟩ | ⟨l₁, a, a', l₂, he, hne, h⟩)
        · exact Or.inl ⟨q, List.mem_cons_self, h⟩
        · by_cases hne : q'.2 ≠ q.2
          · rw [if_pos hne] at h
            exact Or.inr ⟨[], q, q', rest, rfl, hne, h⟩
          · rw [if_neg hne] at h
            simp at h
        · exact Or.inl ⟨a, List.mem_cons_of_mem _ ha, h⟩
        · exact Or.inr ⟨q :: l₁, a, a', l₂, by rw [he]; rfl, hne, h⟩
      · rintro (⟨a, ha, h⟩ | ⟨l₁, a, a', l₂, he, hne, h⟩)
        · rcases List.mem_cons.mp ha with rfl | ha
          · exact Or.inl h
          · exact Or.inr (Or.inr (Or.inl ⟨a, ha, h⟩))
        · cases l₁ with
          | nil =>
            simp only [List.nil_append, List.cons.injEq] at he
            obtain ⟨rfl, rfl, rfl⟩ := he
            right; left
            rw [if_pos hne]
            exact h
          | cons c l₁ =>
            simp only [List.cons_append, List.cons.injEq] at he
            exact Or.inr (Or.inr (Or.inr ⟨l₁, a, a', l₂, he.2, hne, h⟩))

/-! ## Switch indices -/

theorem stepIdGo_ne (i : ℕ) (l : List ℤ) : stepIdGo i l ≠ [] := by
  induction l generalizing i with
  | nil => simp [stepIdGo]
  | cons a l ih =>
    cases l with
    | nil => simp [stepIdGo]
    | cons b rest => rw [stepIdGo]; simp [ih]

theorem stepIdGo_ge (l : List ℤ) : ∀ i, ∀ s ∈ stepIdGo i l, i ≤ s := by
  induction l with
  | nil => intro i s hs; simp [stepIdGo] at hs; omega
  | cons a l ih =>
    intro i s hs
    cases l with
    | nil => simp [stepIdGo] at hs; omega
    | cons b rest =>
      rw [stepIdGo, List.mem_append] at hs
      rcases hs with hs | hs
      · split_ifs at hs
        · simp at hs; omega
        · simp at hs
      · have := ih (i + 1) s hs; omega

theorem stepIdGo_last (l : List ℤ) : ∀ i, (stepIdGo i l).getLast? = some (i + (l.length - 1)) := by
  induction l with
  | nil => intro i; simp [stepIdGo]
  | cons a l ih =>
    intro i
    cases l with
    | nil => simp [stepIdGo]
    | cons b rest =>
      rw [stepIdGo, List.getLast?_append, ih]
      simp
      omega

theorem dropLast_append_stepIdGo (pre : List ℕ) (i : ℕ) (l : List ℤ) :
    (pre ++ stepIdGo i l).dropLast = pre ++ (stepIdGo i l).dropLast :=
  List.dropLast_append_of_ne_nil (stepIdGo_ne i l)

/-! ## Number of inequalities -/

/-- The phases in the order in which they are visited. -/
def visits (l : TTime) : List ℕ := expand (fun _ p => [p]) (fun _ p => [p]) l

theorem numIneqLoop_eq (contacts : List ContactData) (N : ℕ) (e : ℕ → Equilibrium)
    (ct : ℕ → ContactData) (hct : ∀ i < N, contacts[i]? = some (ct i))
    (he : ∀ i < N, (ct i).contactPhase = some (e i)) (l : TTime) :
    ∀ (p k : ℕ) (pre : List ℕ) (cum acc : ℤ), TagsFrom N p l → pre.length = p →
      numIneqLoop contacts (pre ++ stepIdGo k (l.map (·.2))) (N - p) p cum acc
        = .ok (acc + ((k : ℤ) - cum + if p > 0 then 1 else 0)
              * (((e p).poly.length + (ct p).kin.length : ℕ) : ℤ)
            + (((visits l).map fun i => (e i).poly.length + (ct i).kin.length).sum : ℕ)) := by
  induction l with
  | nil => intro p k pre cum acc h; exact h.elim
  | cons q l ih =>
    intro p k pre cum acc h hpre
    have hp := h.lt
    have hq := h.head
    cases l with
    | nil =>
      obtain ⟨m, hm⟩ : ∃ m, N - p = m + 1 := ⟨N - p - 1, by omega⟩
      have hm0 : m = 0 := by have := h.2; omega
      subst hm0
      rw [hm, numIneqLoop, hct p hp]
      have : (pre ++ stepIdGo k (List.map (·.2) [q]))[p]? = some k := by
        rw [List.getElem?_append_right (by omega)]
        simp [stepIdGo, hpre]
      rw [this]
      dsimp only
      rw [he p hp]
      simp only [numIneqLoop, visits, expand, hq, Int.toNat_natCast, List.map_cons, List.map_nil,
        List.sum_cons, List.sum_nil]
      congr 1
      by_cases h0 : p > 0
      · simp only [if_pos h0]; push_cast; ring
      · simp only [if_neg h0]; push_cast; ring
    | cons q' rest =>
      by_cases hne : q'.2 = q.2
      · have h' : TagsFrom N p (q' :: rest) := by
          rcases h.2 with h | h
          · exact h
          · have := h.head; rw [this] at hne; omega
        have e1 : stepIdGo k (List.map (·.2) (q :: q' :: rest))
            = stepIdGo (k + 1) (List.map (·.2) (q' :: rest)) := by
          simp [stepIdGo, hne]
        have e2 : visits (q :: q' :: rest) = p :: visits (q' :: rest) := by
          simp [visits, expand, hne, hq]
        rw [e1, ih p (k + 1) pre cum acc h' hpre, e2]
        congr 1
        simp only [List.map_cons, List.sum_cons]
        push_cast
        ring
      · have h' : TagsFrom N (p + 1) (q' :: rest) := by
          rcases h.2 with h | h
          · have := h.head; rw [this, hq] at hne; exact absurd rfl hne
          · exact h
        have e1 : stepIdGo k (List.map (·.2) (q :: q' :: rest))
            = k :: stepIdGo (k + 1) (List.map (·.2) (q' :: rest)) := by
          simp [stepIdGo, hne]
        have e2 : visits (q :: q' :: rest) = p :: (p + 1) :: visits (q' :: rest) := by
          have := h'.head
          simp only [visits, expand, hq, this, Int.toNat_natCast]
          rw [if_pos (by omega)]
          simp
        have hlt := h'.lt
        obtain ⟨m, hm⟩ : ∃ m, N - p = m + 1 := ⟨N - p - 1, by omega⟩
        have hm' : m = N - (p + 1) := by omega
        rw [e1, hm, numIneqLoop, hct p hp]
        have : (pre ++ k :: stepIdGo (k + 1) (List.map (·.2) (q' :: rest)))[p]? = some k := by
          rw [List.getElem?_append_right (by omega)]
          simp [hpre]
        rw [this]
        dsimp only
        rw [he p hp, hm']
        have e3 : pre ++ k :: stepIdGo (k + 1) (List.map (·.2) (q' :: rest))
            = (pre ++ [k]) ++ stepIdGo (k + 1) (List.map (·.2) (q' :: rest)) := by simp
        rw [e3]
        dsimp only
        rw [ih (p + 1) (k + 1) (pre ++ [k]) _ _ h' (by simp [hpre]), e2]
        congr 1
        simp only [List.map_cons, List.sum_cons, Nat.succ_pos', if_true, gt_iff_lt, Nat.add_one_pos]
        by_cases h0 : 0 < p
        · simp only [if_pos h0]; push_cast; ring
        · simp only [if_neg h0]; push_cast; ring

/-! ## Stability rows -/

theorem dyn_length (mH : HRows) (g : V3) (w : Wp6) :
    (dynamicStabilityConstraints mH g w).length = mH.length := by
  rw [dynamicStabilityConstraints, (C15_feasible_set _).1, List.length_map]

theorem switchLoop_none (pData : ProblemData) (k : ℕ) (w : Wp6) (l : List ℕ) (h : ∀ s ∈ l, k ≠ s)
    (s : ℕ × HRows × Asm) : switchLoop pData k w l s = .ok s := by
  induction l generalizing s with
  | nil => rfl
  | cons a l ih =>
    obtain ⟨p, mH, st⟩ := s
    rw [switchLoop, if_neg (h a List.mem_cons_self)]
    exact ih (fun s hs => h s (List.mem_cons_of_mem _ hs)) _

theorem switchLoop_append (pData : ProblemData) (k : ℕ) (w : Wp6) (l l' : List ℕ)
    (h : ∀ s ∈ l, k ≠ s) (s : ℕ × HRows × Asm) :
    switchLoop pData k w (l ++ l') s = switchLoop pData k w l' s := by
  induction l generalizing s with
  | nil => rfl
  | cons a l ih =>
    obtain ⟨p, mH, st⟩ := s
    rw [List.cons_append, switchLoop, if_neg (h a List.mem_cons_self)]
    exact ih (fun s hs => h s (List.mem_cons_of_mem _ hs)) _

theorem stabLoop_eq (pData : ProblemData) (N : ℕ) (e : ℕ → Equilibrium)
    (ct : ℕ → ContactData) (hct : ∀ i < N, pData.contacts[i]? = some (ct i))
    (he : ∀ i < N, (ct i).contactPhase = some (e i)) (hs : ℕ → HRows)
    (hhs : ∀ i < N, updateH pData.reduce_h (ct i) = .ok (hs i)) (g : V3) (F : ℝ → Wp6) (n : ℕ)
    (l : TTime) :
    ∀ (p k : ℕ) (pre : List ℕ) (st : Asm) (L : List (V3 × ℝ)), TagsFrom N p l →
      (∀ s ∈ pre, s < k) → Filled st n L →
      (L ++ expand (fun t i => dynamicStabilityConstraints (hs i) g (F t))
        (fun t i => dynamicStabilityConstraints (hs i) (e i).gravity (F t)) l).length ≤ n →
      ∃ st', stabLoop pData g (pre ++ stepIdGo k (l.map (·.2))) (l.map fun q => F q.1) k p (hs p) st
          = .ok st' ∧
        Filled st' n (L ++ expand (fun t i => dynamicStabilityConstraints (hs i) g (F t))
          (fun t i => dynamicStabilityConstraints (hs i) (e i).gravity (F t)) l) := by
  induction l with
  | nil => intro p k pre st L h; exact h.elim
  | cons q l ih =>
    intro p k pre st L h hpre hF hle
    have hq := h.head
    have hp := h.lt
    cases l with
    | nil =>
      simp only [expand, hq, Int.toNat_natCast] at hle ⊢
      obtain ⟨st1, h1, hF1⟩ := put_filled hF _ _ (dyn_length (hs p) g (F q.1)) hle
      refine ⟨st1, ?_, hF1⟩
      rw [List.map_cons (f := fun q : ℝ × ℤ => F q.1), stabLoop, assignStabilityConstraintsForTimeStep, h1, Out.ok_bind]
      rw [switchLoop_none]
      · rfl
      · intro s hs'
        rw [dropLast_append_stepIdGo] at hs'
        simp [stepIdGo] at hs'
        have := hpre s hs'
        omega
    | cons q' rest =>
      rw [List.map_cons (f := fun q : ℝ × ℤ => F q.1), stabLoop, assignStabilityConstraintsForTimeStep]
      by_cases hne : q'.2 = q.2
      · have h' : TagsFrom N p (q' :: rest) := by
          rcases h.2 with h | h
          · exact h
          · have := h.head; rw [this] at hne; omega
        have e1 : stepIdGo k (List.map (·.2) (q :: q' :: rest))
            = stepIdGo (k + 1) (List.map (·.2) (q' :: rest)) := by
          simp [stepIdGo, hne]
        rw [e1]
        rw [expand, if_neg (not_not.mpr hne), List.nil_append, hq, Int.toNat_natCast,
          ← List.append_assoc] at hle ⊢
        obtain ⟨st1, h1, hF1⟩ := put_filled hF _ _ (dyn_length (hs p) g (F q.1))
          (le_trans (by rw [List.length_append (as := L ++ _)]; omega) hle)
        rw [h1, Out.ok_bind, switchLoop_none, Out.ok_bind]
        · exact ih p (k + 1) pre st1 _ h' (fun s hs => by have := hpre s hs; omega) hF1 hle
        · intro s hs'
          rw [dropLast_append_stepIdGo, List.mem_append] at hs'
          rcases hs' with hs' | hs'
          · have := hpre s hs'; omega
          · have := stepIdGo_ge _ _ _ (List.mem_of_mem_dropLast hs'); omega
      · have h' : TagsFrom N (p + 1) (q' :: rest) := by
          rcases h.2 with h | h
          · have := h.head; rw [this, hq] at hne; exact absurd rfl hne
          · exact h
        have e1 : stepIdGo k (List.map (·.2) (q :: q' :: rest))
            = k :: stepIdGo (k + 1) (List.map (·.2) (q' :: rest)) := by
          simp [stepIdGo, hne]
        have hlt := h'.lt
        rw [e1]
        rw [expand, if_pos hne, hq, Int.toNat_natCast, h'.head, Int.toNat_natCast,
          ← List.append_assoc, ← List.append_assoc] at hle ⊢
        have hle2 : (L ++ dynamicStabilityConstraints (hs p) g (F q.1) ++
            dynamicStabilityConstraints (hs (p + 1)) (e (p + 1)).gravity (F q.1)).length ≤ n :=
          le_trans (by rw [List.length_append (as := L ++ _ ++ _)]; omega) hle
        obtain ⟨st1, h1, hF1⟩ := put_filled hF _ _ (dyn_length (hs p) g (F q.1))
          (le_trans (by rw [List.length_append (as := L ++ _)]; omega) hle2)
        obtain ⟨st2, h2, hF2⟩ := put_filled hF1 _ _
          (dyn_length (hs (p + 1)) (e (p + 1)).gravity (F q.1)) hle2
        rw [h1, Out.ok_bind]
        have e3 : (pre ++ k :: stepIdGo (k + 1) (List.map (·.2) (q' :: rest))).dropLast
            = pre ++ k :: (stepIdGo (k + 1) (List.map (·.2) (q' :: rest))).dropLast := by
          rw [List.dropLast_append_of_ne_nil (by simp), List.dropLast_cons_of_ne_nil (stepIdGo_ne _ _)]
        rw [e3, switchLoop_append _ _ _ _ _ (fun s hs => by have := hpre s hs; omega), switchLoop,
          if_pos rfl, hct _ hlt]
        dsimp only
        rw [he _ hlt]
        dsimp only
        rw [hhs _ hlt, Out.ok_bind, assignStabilityConstraintsForTimeStep, h2, Out.ok_bind,
          switchLoop_none, Out.ok_bind]
        · have e4 : pre ++ k :: stepIdGo (k + 1) (List.map (·.2) (q' :: rest))
              = (pre ++ [k]) ++ stepIdGo (k + 1) (List.map (·.2) (q' :: rest)) := by simp
          rw [e4]
          refine ih (p + 1) (k + 1) (pre ++ [k]) st2 _ h' ?_ hF2 hle
          intro s hs'
          rw [List.mem_append, List.mem_singleton] at hs'
          rcases hs' with hs' | rfl
          · have := hpre s hs'; omega
          · omega
        · intro s hs'
          have := stepIdGo_ge _ _ _ (List.mem_of_mem_dropLast hs'); omega

/-! ## Kinematic rows -/

/-- The kinematic rows of a phase at a sample. -/
noncomputable def kinRows (ct : ContactData) (co : Coefs) : List (V3 × ℝ) :=
  if ct.kin.length > 0 then
    List.zipWith (fun K k => (co.first • K, k - K ⬝ᵥ co.second)) ct.Kin ct.kin
  else []

theorem kinRows_length (ct : ContactData) (co : Coefs)
    (h : ct.kin.length > 0 → ct.Kin.length = ct.kin.length) :
    (kinRows ct co).length = ct.kin.length := by
  unfold kinRows
  split_ifs with h0
  · simp [h h0]
  · simp at h0; simp [h0]

theorem assignKin_eq (pData : ProblemData) (p : ℕ) (ct : ContactData)
    (hct : pData.contacts[p]? = some ct) (hk : ct.kin.length > 0 → ct.Kin.length = ct.kin.length)
    (co : Coefs) (n : ℕ) {st : Asm} {L : List (V3 × ℝ)} (hF : Filled st n L)
    (hle : (L ++ kinRows ct co).length ≤ n) :
    ∃ st', assignKin pData st p co = .ok st' ∧ Filled st' n (L ++ kinRows ct co) := by
  unfold assignKin
  rw [hct]
  dsimp only
  unfold kinRows at hle ⊢
  split_ifs with h0 h1
  · rw [if_pos h0] at hle
    exact put_filled hF _ _ (by simp [h1]) hle
  · exact absurd (hk h0) h1
  · exact ⟨st, rfl, by simpa using hF⟩

theorem kinSwitchLoop_none (pData : ProblemData) (k : ℕ) (co : Coefs) (l : List ℕ)
    (h : ∀ s ∈ l, k ≠ s) : ∀ (i : ℕ) (s : ℕ × Asm), kinSwitchLoop pData k co l i s = .ok s := by
  induction l with
  | nil => intro i s; rfl
  | cons a l ih =>
    intro i s
    obtain ⟨p, st⟩ := s
    rw [kinSwitchLoop, if_neg (h a List.mem_cons_self)]
    exact ih (fun s hs => h s (List.mem_cons_of_mem _ hs)) _ _

theorem kinSwitchLoop_append (pData : ProblemData) (k : ℕ) (co : Coefs) (l l' : List ℕ)
    (h : ∀ s ∈ l, k ≠ s) : ∀ (i : ℕ) (s : ℕ × Asm),
    kinSwitchLoop pData k co (l ++ l') i s = kinSwitchLoop pData k co l' (i + l.length) s := by
  induction l with
  | nil => intro i s; rfl
  | cons a l ih =>
    intro i s
    obtain ⟨p, st⟩ := s
    rw [List.cons_append, kinSwitchLoop, if_neg (h a List.mem_cons_self),
      ih (fun s hs => h s (List.mem_cons_of_mem _ hs))]
    simp only [List.length_cons]
    congr 1
    omega

theorem kinLoop_eq (pData : ProblemData) (N : ℕ)
    (ct : ℕ → ContactData) (hct : ∀ i < N, pData.contacts[i]? = some (ct i))
    (hk : ∀ i < N, (ct i).kin.length > 0 → (ct i).Kin.length = (ct i).kin.length)
    (F : ℝ → Coefs) (n : ℕ) (l : TTime) :
    ∀ (p k : ℕ) (pre : List ℕ) (st : Asm) (L : List (V3 × ℝ)), TagsFrom N p l →
      pre.length = p → (∀ s ∈ pre, s < k) → Filled st n L →
      (L ++ expand (fun t i => kinRows (ct i) (F t)) (fun t i => kinRows (ct i) (F t)) l).length ≤ n →
      ∃ st', kinLoop pData (pre ++ stepIdGo k (l.map (·.2))) (l.map fun q => F q.1) k p st
          = .ok st' ∧
        Filled st' n (L ++ expand (fun t i => kinRows (ct i) (F t))
          (fun t i => kinRows (ct i) (F t)) l) := by
  induction l with
  | nil => intro p k pre st L h; exact h.elim
  | cons q l ih =>
    intro p k pre st L h hpl hpre hF hle
    have hq := h.head
    have hp := h.lt
    cases l with
    | nil =>
      simp only [expand, hq, Int.toNat_natCast] at hle ⊢
      obtain ⟨st1, h1, hF1⟩ := assignKin_eq pData p _ (hct p hp) (hk p hp) (F q.1) n hF hle
      refine ⟨st1, ?_, hF1⟩
      rw [List.map_cons (f := fun q : ℝ × ℤ => F q.1), kinLoop, h1, Out.ok_bind]
      rw [kinSwitchLoop_none]
      · rfl
      · intro s hs'
        rw [dropLast_append_stepIdGo] at hs'
        simp [stepIdGo] at hs'
        have := hpre s hs'
        omega
    | cons q' rest =>
      rw [List.map_cons (f := fun q : ℝ × ℤ => F q.1), kinLoop]
      by_cases hne : q'.2 = q.2
      · have h' : TagsFrom N p (q' :: rest) := by
          rcases h.2 with h | h
          · exact h
          · have := h.head; rw [this] at hne; omega
        have e1 : stepIdGo k (List.map (·.2) (q :: q' :: rest))
            = stepIdGo (k + 1) (List.map (·.2) (q' :: rest)) := by
          simp [stepIdGo, hne]
        rw [e1]
        rw [expand, if_neg (not_not.mpr hne), List.nil_append, hq, Int.toNat_natCast,
          ← List.append_assoc] at hle ⊢
        obtain ⟨st1, h1, hF1⟩ := assignKin_eq pData p _ (hct p hp) (hk p hp) (F q.1) n hF
          (le_trans (by rw [List.length_append (as := L ++ _)]; omega) hle)
        rw [h1, Out.ok_bind, kinSwitchLoop_none, Out.ok_bind]
        · exact ih p (k + 1) pre st1 _ h' hpl (fun s hs => by have := hpre s hs; omega) hF1 hle
        · intro s hs'
          rw [dropLast_append_stepIdGo, List.mem_append] at hs'
          rcases hs' with hs' | hs'
          · have := hpre s hs'; omega
          · have := stepIdGo_ge _ _ _ (List.mem_of_mem_dropLast hs'); omega
      · have h' : TagsFrom N (p + 1) (q' :: rest) := by
          rcases h.2 with h | h
          · have := h.head; rw [this, hq] at hne; exact absurd rfl hne
          · exact h
        have e1 : stepIdGo k (List.map (·.2) (q :: q' :: rest))
            = k :: stepIdGo (k + 1) (List.map (·.2) (q' :: rest)) := by
          simp [stepIdGo, hne]
        have hlt := h'.lt
        rw [e1]
        rw [expand, if_pos hne, hq, Int.toNat_natCast, h'.head, Int.toNat_natCast,
          ← List.append_assoc, ← List.append_assoc] at hle ⊢
        have hle2 : (L ++ kinRows (ct p) (F q.1) ++ kinRows (ct (p + 1)) (F q.1)).length ≤ n :=
          le_trans (by rw [List.length_append (as := L ++ _ ++ _)]; omega) hle
        obtain ⟨st1, h1, hF1⟩ := assignKin_eq pData p _ (hct p hp) (hk p hp) (F q.1) n hF
          (le_trans (by rw [List.length_append (as := L ++ _)]; omega) hle2)
        obtain ⟨st2, h2, hF2⟩ := assignKin_eq pData (p + 1) _ (hct _ hlt) (hk _ hlt) (F q.1) n hF1 hle2
        rw [h1, Out.ok_bind]
        have e3 : (pre ++ k :: stepIdGo (k + 1) (List.map (·.2) (q' :: rest))).dropLast
            = pre ++ k :: (stepIdGo (k + 1) (List.map (·.2) (q' :: rest))).dropLast := by
          rw [List.dropLast_append_of_ne_nil (by simp), List.dropLast_cons_of_ne_nil (stepIdGo_ne _ _)]
        rw [e3, kinSwitchLoop_append _ _ _ _ _ (fun s hs => by have := hpre s hs; omega),
          kinSwitchLoop, if_pos rfl, zero_add, hpl, h2, Out.ok_bind,
          kinSwitchLoop_none, Out.ok_bind]
        · have e4 : pre ++ k :: stepIdGo (k + 1) (List.map (·.2) (q' :: rest))
              = (pre ++ [k]) ++ stepIdGo (k + 1) (List.map (·.2) (q' :: rest)) := by simp
          rw [e4]
          refine ih (p + 1) (k + 1) (pre ++ [k]) st2 _ h' (by simp [hpl]) ?_ hF2 hle
          intro s hs'
          rw [List.mem_append, List.mem_singleton] at hs'
          rcases hs' with hs' | rfl
          · have := hpre s hs'; omega
          · omega
        · intro s hs'
          have := stepIdGo_ge _ _ _ (List.mem_of_mem_dropLast hs'); omega

/-! ## Acceleration rows -/

theorem accRows_length (B : ℝ) (co : Coefs) : (accRows B co).length = 6 := by
  simp [accRows]

theorem accLoop_eq (B : ℝ) (n : ℕ) (cs : List Coefs) : ∀ (st : Asm) (L : List (V3 × ℝ)),
    Filled st n L → (L ++ cs.flatMap (accRows B)).length ≤ n →
      ∃ st', accLoop B cs st = .ok st' ∧ Filled st' n (L ++ cs.flatMap (accRows B)) := by
  induction cs with
  | nil => intro st L hF _; exact ⟨st, rfl, by simpa using hF⟩
  | cons co cs ih =>
    intro st L hF hle
    rw [List.flatMap_cons, ← List.append_assoc] at hle ⊢
    obtain ⟨st1, h1, hF1⟩ := put_filled hF _ _ (accRows_length B co)
      (le_trans (by rw [List.length_append (as := L ++ _)]; omega) hle)
    rw [accLoop, h1, Out.ok_bind]
    exact ih st1 _ hF1 hle

theorem accRows_sum (B : ℝ) (cs : List Coefs) : (cs.flatMap (accRows B)).length = 6 * cs.length := by
  induction cs with
  | nil => rfl
  | cons c cs ih => rw [List.flatMap_cons, List.length_append, ih, accRows_length, List.length_cons]; ring

/-! ## `mapList` -/

theorem mapList_ok {α β : Type} (f : α → Out β) (F : α → β) (l : List α)
    (h : ∀ a ∈ l, f a = .ok (F a)) : Out.mapList f l = .ok (l.map F) := by
  induction l with
  | nil => rfl
  | cons a l ih =>
    rw [Out.mapList, h a List.mem_cons_self, Out.ok_bind,
      ih fun b hb => h b (List.mem_cons_of_mem _ hb)]
    rfl

/-! ## Sum of wrench waypoints -/

theorem wSum_eq (wps : List Wp6) : ∀ (bs : List Bern) (t : ℝ) (w : Wp6), wps.length ≤ bs.length →
    ∃ r, wSum wps bs t w = .ok r ∧ ∀ x : V3,
      r.headAt x = w.headAt x + ((List.zipWith (fun (b : Bern) p => b.eval t • p.headAt x) bs wps).sum) ∧
      r.tailAt x = w.tailAt x + ((List.zipWith (fun (b : Bern) p => b.eval t • p.tailAt x) bs wps).sum) := by
  induction wps with
  | nil => intro bs t w _; exact ⟨w, rfl, fun x => by simp⟩
  | cons p ps ih =>
    intro bs t w hle
    cases bs with
    | nil => simp at hle
    | cons b bs =>
      obtain ⟨r, hr, hx⟩ := ih bs t (w.addScaled (b.eval t) p) (by simpa using hle)
      refine ⟨r, by rw [wSum, hr], fun x => ?_⟩
      obtain ⟨h1, h2⟩ := hx x
      rw [h1, h2]
      constructor
      · simp only [Wp6.headAt, Wp6.addScaled, List.zipWith_cons_cons, List.sum_cons,
          Matrix.add_mulVec, Matrix.smul_mulVec, smul_add]
        abel
      · simp only [Wp6.tailAt, Wp6.addScaled, List.zipWith_cons_cons, List.sum_cons,
          Matrix.add_mulVec, Matrix.smul_mulVec, smul_add]
        abel

end Verif
