import Verif.Lemmas.OneStepSem
import Verif.Model.OneStepFp

/-!
# Assembly of the discretised constraints, for any numerical parts
-/

namespace Verif
open Matrix

namespace RowFns

/-- The numbers of rows. -/
structure Lengths (F : RowFns) : Prop where
  stab : ∀ H g w, (F.stab H g w).length = H.length
  kin : ∀ ct co, (F.kin ct co).length = min ct.Kin.length ct.kin.length
  acc : ∀ co, (F.acc co).length = 6

variable (F : RowFns)

theorem switchLoop_none (pData : ProblemData) (k : ℕ) (w : Wp6) (l : List ℕ) (h : ∀ s ∈ l, k ≠ s)
    (s : ℕ × HRows × Asm) : F.switchLoop pData k w l s = .ok s := by
  induction l generalizing s with
  | nil => rfl
  | cons a l ih =>
    obtain ⟨p, mH, st⟩ := s
    rw [switchLoop, if_neg (h a List.mem_cons_self)]
    exact ih (fun s hs => h s (List.mem_cons_of_mem _ hs)) _

theorem switchLoop_append (pData : ProblemData) (k : ℕ) (w : Wp6) (l l' : List ℕ)
    (h : ∀ s ∈ l, k ≠ s) (s : ℕ × HRows × Asm) :
    F.switchLoop pData k w (l ++ l') s = F.switchLoop pData k w l' s := by
  induction l generalizing s with
  | nil => rfl
  | cons a l ih =>
    obtain ⟨p, mH, st⟩ := s
    rw [List.cons_append, switchLoop, if_neg (h a List.mem_cons_self)]
    exact ih (fun s hs => h s (List.mem_cons_of_mem _ hs)) _

theorem stabLoop_eq (hlen : F.Lengths) (pData : ProblemData) (N : ℕ) (e : ℕ → Equilibrium)
    (ct : ℕ → ContactData) (hct : ∀ i < N, pData.contacts[i]? = some (ct i))
    (he : ∀ i < N, (ct i).contactPhase = some (e i)) (hs : ℕ → HRows)
    (hhs : ∀ i < N, F.updH (ct i) = .ok (hs i)) (g : V3) (W : ℝ → Wp6) (n : ℕ)
    (l : TTime) :
    ∀ (p k : ℕ) (pre : List ℕ) (st : Asm) (L : List (V3 × ℝ)), TagsFrom N p l →
      (∀ s ∈ pre, s < k) → Filled st n L →
      (L ++ expand (fun t i => F.stab (hs i) g (W t))
        (fun t i => F.stab (hs i) (e i).gravity (W t)) l).length ≤ n →
      ∃ st', F.stabLoop pData g (pre ++ stepIdGo k (l.map (·.2))) (l.map fun q => W q.1) k p (hs p) st
          = .ok st' ∧
        Filled st' n (L ++ expand (fun t i => F.stab (hs i) g (W t))
          (fun t i => F.stab (hs i) (e i).gravity (W t)) l) := by
  induction l with
  | nil => intro p k pre st L h; exact h.elim
  | cons q l ih =>
    intro p k pre st L h hpre hF hle
    have hq := h.head
    have hp := h.lt
    cases l with
    | nil =>
      simp only [expand, hq, Int.toNat_natCast] at hle ⊢
      obtain ⟨st1, h1, hF1⟩ := put_filled hF _ _ (hlen.stab (hs p) g (W q.1)) hle
      refine ⟨st1, ?_, hF1⟩
      rw [List.map_cons (f := fun q : ℝ × ℤ => W q.1), stabLoop, assignStab, h1, Out.ok_bind]
      rw [switchLoop_none]
      · rfl
      · intro s hs'
        rw [dropLast_append_stepIdGo] at hs'
        simp [stepIdGo] at hs'
        have := hpre s hs'
        omega
    | cons q' rest =>
      rw [List.map_cons (f := fun q : ℝ × ℤ => W q.1), stabLoop, assignStab]
      by_cases hne : q'.2 = q.2
      · have h' : TagsFrom N p (q' :: rest) := by
          rcases h.2 with h | h
          · exact h
          · have := h.head; rw [this] at hne; omega
        have e1 : stepIdGo k (List.map (·.2) (q :: q' :: rest))
            = stepIdGo (k + 1) (List.map (·.2) (q' :: rest)) := by
          simp [stepIdGo, hne]
        rw [e1]
        rw [expand, if_neg (not_not.mpr hne), List.nil_append, hq, Int.toNat_natCast,
          ← List.append_assoc] at hle ⊢
        obtain ⟨st1, h1, hF1⟩ := put_filled hF _ _ (hlen.stab (hs p) g (W q.1))
          (le_trans (by rw [List.length_append (as := L ++ _)]; omega) hle)
        rw [h1, Out.ok_bind, switchLoop_none, Out.ok_bind]
        · exact ih p (k + 1) pre st1 _ h' (fun s hs => by have := hpre s hs; omega) hF1 hle
        · intro s hs'
          rw [dropLast_append_stepIdGo, List.mem_append] at hs'
          rcases hs' with hs' | hs'
          · have := hpre s hs'; omega
          · have := stepIdGo_ge _ _ _ (List.mem_of_mem_dropLast hs'); omega
      · have h' : TagsFrom N (p + 1) (q' :: rest) := by
          rcases h.2 with h | h
          · have := h.head; rw [this, hq] at hne; exact absurd rfl hne
          · exact h
        have e1 : stepIdGo k (List.map (·.2) (q :: q' :: rest))
            = k :: stepIdGo (k + 1) (List.map (·.2) (q' :: rest)) := by
          simp [stepIdGo, hne]
        have hlt := h'.lt
        rw [e1]
        rw [expand, if_pos hne, hq, Int.toNat_natCast, h'.head, Int.toNat_natCast,
          ← List.append_assoc, ← List.append_assoc] at hle ⊢
        have hle2 : (L ++ F.stab (hs p) g (W q.1) ++
            F.stab (hs (p + 1)) (e (p + 1)).gravity (W q.1)).length ≤ n :=
          le_trans (by rw [List.length_append (as := L ++ _ ++ _)]; omega) hle
        obtain ⟨st1, h1, hF1⟩ := put_filled hF _ _ (hlen.stab (hs p) g (W q.1))
          (le_trans (by rw [List.length_append (as := L ++ _)]; omega) hle2)
        obtain ⟨st2, h2, hF2⟩ := put_filled hF1 _ _
          (hlen.stab (hs (p + 1)) (e (p + 1)).gravity (W q.1)) hle2
        rw [h1, Out.ok_bind]
        have e3 : (pre ++ k :: stepIdGo (k + 1) (List.map (·.2) (q' :: rest))).dropLast
            = pre ++ k :: (stepIdGo (k + 1) (List.map (·.2) (q' :: rest))).dropLast := by
          rw [List.dropLast_append_of_ne_nil (by simp), List.dropLast_cons_of_ne_nil (stepIdGo_ne _ _)]
        rw [e3, switchLoop_append _ _ _ _ _ _ (fun s hs => by have := hpre s hs; omega), switchLoop,
          if_pos rfl, hct _ hlt]
        dsimp only
        rw [he _ hlt]
        dsimp only
        rw [hhs _ hlt, Out.ok_bind, assignStab, h2, Out.ok_bind,
          switchLoop_none, Out.ok_bind]
        · have e4 : pre ++ k :: stepIdGo (k + 1) (List.map (·.2) (q' :: rest))
              = (pre ++ [k]) ++ stepIdGo (k + 1) (List.map (·.2) (q' :: rest)) := by simp
          rw [e4]
          refine ih (p + 1) (k + 1) (pre ++ [k]) st2 _ h' ?_ hF2 hle
          intro s hs'
          rw [List.mem_append, List.mem_singleton] at hs'
          rcases hs' with hs' | rfl
          · have := hpre s hs'; omega
          · omega
        · intro s hs'
          have := stepIdGo_ge _ _ _ (List.mem_of_mem_dropLast hs'); omega

/-! ## Kinematic rows -/

/-- The kinematic rows of a phase at a sample. -/
def kinRows (ct : ContactData) (co : Coefs) : List (V3 × ℝ) := if ct.kin.length > 0 then F.kin ct co else []

theorem kinRows_length (hF : F.Lengths) (ct : ContactData) (co : Coefs) (h : ct.kin.length > 0 → ct.Kin.length = ct.kin.length) :
    (F.kinRows ct co).length = ct.kin.length := by
  unfold kinRows
  split_ifs with h0
  · simp [h h0, hF.kin]
  · simp at h0; simp [h0]

theorem assignKin_eq (hlen : F.Lengths) (pData : ProblemData) (p : ℕ) (ct : ContactData)
    (hct : pData.contacts[p]? = some ct) (hk : ct.kin.length > 0 → ct.Kin.length = ct.kin.length)
    (co : Coefs) (n : ℕ) {st : Asm} {L : List (V3 × ℝ)} (hF : Filled st n L)
    (hle : (L ++ F.kinRows ct co).length ≤ n) :
    ∃ st', F.assignKin pData st p co = .ok st' ∧ Filled st' n (L ++ F.kinRows ct co) := by
  unfold assignKin
  rw [hct]
  dsimp only
  unfold kinRows at hle ⊢
  split_ifs with h0 h1
  · rw [if_pos h0] at hle
    exact put_filled hF _ _ (by rw [hlen.kin, h1, min_self]) hle
  · exact absurd (hk h0) h1
  · exact ⟨st, rfl, by simpa using hF⟩

theorem kinSwitchLoop_none (pData : ProblemData) (k : ℕ) (co : Coefs) (l : List ℕ)
    (h : ∀ s ∈ l, k ≠ s) : ∀ (i : ℕ) (s : ℕ × Asm), F.kinSwitchLoop pData k co l i s = .ok s := by
  induction l with
  | nil => intro i s; rfl
  | cons a l ih =>
    intro i s
    obtain ⟨p, st⟩ := s
    rw [kinSwitchLoop, if_neg (h a List.mem_cons_self)]
    exact ih (fun s hs => h s (List.mem_cons_of_mem _ hs)) _ _

theorem kinSwitchLoop_append (pData : ProblemData) (k : ℕ) (co : Coefs) (l l' : List ℕ)
    (h : ∀ s ∈ l, k ≠ s) : ∀ (i : ℕ) (s : ℕ × Asm),
    F.kinSwitchLoop pData k co (l ++ l') i s = F.kinSwitchLoop pData k co l' (i + l.length) s := by
  induction l with
  | nil => intro i s; rfl
  | cons a l ih =>
    intro i s
    obtain ⟨p, st⟩ := s
    rw [List.cons_append, kinSwitchLoop, if_neg (h a List.mem_cons_self),
      ih (fun s hs => h s (List.mem_cons_of_mem _ hs))]
    simp only [List.length_cons]
    congr 1
    omega

theorem kinLoop_eq (hlen : F.Lengths) (pData : ProblemData) (N : ℕ)
    (ct : ℕ → ContactData) (hct : ∀ i < N, pData.contacts[i]? = some (ct i))
    (hk : ∀ i < N, (ct i).kin.length > 0 → (ct i).Kin.length = (ct i).kin.length)
    (W : ℝ → Coefs) (n : ℕ) (l : TTime) :
    ∀ (p k : ℕ) (pre : List ℕ) (st : Asm) (L : List (V3 × ℝ)), TagsFrom N p l →
      pre.length = p → (∀ s ∈ pre, s < k) → Filled st n L →
      (L ++ expand (fun t i => F.kinRows (ct i) (W t)) (fun t i => F.kinRows (ct i) (W t)) l).length ≤ n →
      ∃ st', F.kinLoop pData (pre ++ stepIdGo k (l.map (·.2))) (l.map fun q => W q.1) k p st
          = .ok st' ∧
        Filled st' n (L ++ expand (fun t i => F.kinRows (ct i) (W t))
          (fun t i => F.kinRows (ct i) (W t)) l) := by
  induction l with
  | nil => intro p k pre st L h; exact h.elim
  | cons q l ih =>
    intro p k pre st L h hpl hpre hF hle
    have hq := h.head
    have hp := h.lt
    cases l with
    | nil =>
      simp only [expand, hq, Int.toNat_natCast] at hle ⊢
      obtain ⟨st1, h1, hF1⟩ := F.assignKin_eq hlen pData p _ (hct p hp) (hk p hp) (W q.1) n hF hle
      refine ⟨st1, ?_, hF1⟩
      rw [List.map_cons (f := fun q : ℝ × ℤ => W q.1), kinLoop, h1, Out.ok_bind]
      rw [kinSwitchLoop_none]
      · rfl
      · intro s hs'
        rw [dropLast_append_stepIdGo] at hs'
        simp [stepIdGo] at hs'
        have := hpre s hs'
        omega
    | cons q' rest =>
      rw [List.map_cons (f := fun q : ℝ × ℤ => W q.1), kinLoop]
      by_cases hne : q'.2 = q.2
      · have h' : TagsFrom N p (q' :: rest) := by
          rcases h.2 with h | h
          · exact h
          · have := h.head; rw [this] at hne; omega
        have e1 : stepIdGo k (List.map (·.2) (q :: q' :: rest))
            = stepIdGo (k + 1) (List.map (·.2) (q' :: rest)) := by
          simp [stepIdGo, hne]
        rw [e1]
        rw [expand, if_neg (not_not.mpr hne), List.nil_append, hq, Int.toNat_natCast,
          ← List.append_assoc] at hle ⊢
        obtain ⟨st1, h1, hF1⟩ := F.assignKin_eq hlen pData p _ (hct p hp) (hk p hp) (W q.1) n hF
          (le_trans (by rw [List.length_append (as := L ++ _)]; omega) hle)
        rw [h1, Out.ok_bind, kinSwitchLoop_none, Out.ok_bind]
        · exact ih p (k + 1) pre st1 _ h' hpl (fun s hs => by have := hpre s hs; omega) hF1 hle
        · intro s hs'
          rw [dropLast_append_stepIdGo, List.mem_append] at hs'
          rcases hs' with hs' | hs'
          · have := hpre s hs'; omega
          · have := stepIdGo_ge _ _ _ (List.mem_of_mem_dropLast hs'); omega
      · have h' : TagsFrom N (p + 1) (q' :: rest) := by
          rcases h.2 with h | h
          · have := h.head; rw [this, hq] at hne; exact absurd rfl hne
          · exact h
        have e1 : stepIdGo k (List.map (·.2) (q :: q' :: rest))
            = k :: stepIdGo (k + 1) (List.map (·.2) (q' :: rest)) := by
          simp [stepIdGo, hne]
        have hlt := h'.lt
        rw [e1]
        rw [expand, if_pos hne, hq, Int.toNat_natCast, h'.head, Int.toNat_natCast,
          ← List.append_assoc, ← List.append_assoc] at hle ⊢
        have hle2 : (L ++ F.kinRows (ct p) (W q.1) ++ F.kinRows (ct (p + 1)) (W q.1)).length ≤ n :=
          le_trans (by rw [List.length_append (as := L ++ _ ++ _)]; omega) hle
        obtain ⟨st1, h1, hF1⟩ := F.assignKin_eq hlen pData p _ (hct p hp) (hk p hp) (W q.1) n hF
          (le_trans (by rw [List.length_append (as := L ++ _)]; omega) hle2)
        obtain ⟨st2, h2, hF2⟩ := F.assignKin_eq hlen pData (p + 1) _ (hct _ hlt) (hk _ hlt) (W q.1) n hF1 hle2
        rw [h1, Out.ok_bind]
        have e3 : (pre ++ k :: stepIdGo (k + 1) (List.map (·.2) (q' :: rest))).dropLast
            = pre ++ k :: (stepIdGo (k + 1) (List.map (·.2) (q' :: rest))).dropLast := by
          rw [List.dropLast_append_of_ne_nil (by simp), List.dropLast_cons_of_ne_nil (stepIdGo_ne _ _)]
        rw [e3, kinSwitchLoop_append _ _ _ _ _ _ (fun s hs => by have := hpre s hs; omega),
          kinSwitchLoop, if_pos rfl, zero_add, hpl, h2, Out.ok_bind,
          kinSwitchLoop_none, Out.ok_bind]
        · have e4 : pre ++ k :: stepIdGo (k + 1) (List.map (·.2) (q' :: rest))
              = (pre ++ [k]) ++ stepIdGo (k + 1) (List.map (·.2) (q' :: rest)) := by simp
          rw [e4]
          refine ih (p + 1) (k + 1) (pre ++ [k]) st2 _ h' (by simp [hpl]) ?_ hF2 hle
          intro s hs'
          rw [List.mem_append, List.mem_singleton] at hs'
          rcases hs' with hs' | rfl
          · have := hpre s hs'; omega
          · omega
        · intro s hs'
          have := stepIdGo_ge _ _ _ (List.mem_of_mem_dropLast hs'); omega

/-! ## Acceleration rows -/

theorem accLoop_eq (hlen : F.Lengths) (n : ℕ) (cs : List Coefs) : ∀ (st : Asm) (L : List (V3 × ℝ)),
    Filled st n L → (L ++ cs.flatMap F.acc).length ≤ n →
      ∃ st', F.accLoop cs st = .ok st' ∧ Filled st' n (L ++ cs.flatMap F.acc) := by
  induction cs with
  | nil => intro st L hF _; exact ⟨st, rfl, by simpa using hF⟩
  | cons co cs ih =>
    intro st L hF hle
    rw [List.flatMap_cons, ← List.append_assoc] at hle ⊢
    obtain ⟨st1, h1, hF1⟩ := put_filled hF _ _ (hlen.acc co)
      (le_trans (by rw [List.length_append (as := L ++ _)]; omega) hle)
    rw [accLoop, h1, Out.ok_bind]
    exact ih st1 _ hF1 hle

theorem acc_sum (hlen : F.Lengths) (cs : List Coefs) : (cs.flatMap F.acc).length = 6 * cs.length := by
  induction cs with
  | nil => rfl
  | cons c cs ih => rw [List.flatMap_cons, List.length_append, ih, hlen.acc, List.length_cons]; ring

/-- The rows of the discretised system: it is assembled without any memory error; its rows are those of all the
constrained times. -/
theorem oneStep_rows (hlen : F.Lengths) (pData : ProblemData) (N : ℕ) (l : TTime) (htags : TagsFrom N 0 l) (g : V3)
    (hgood : ∀ i < N, ∃ ct e, pData.contacts[i]? = some ct ∧ GoodContact ct e ∧ e.gravity = g)
    (hupd : ∀ ct e, GoodContact ct e → ∃ H, F.updH ct = .ok H ∧ H.length = e.poly.length)
    (W : ℝ → Wp6) (CO AO : ℝ → Coefs) (hW : ∀ t, F.w t = .ok (W t)) (hCO : ∀ t, F.co t = .ok (CO t)) (hAO : ∀ t, F.ac t = .ok (AO t)) :
    ∃ (A b : Mat) (L : List (V3 × ℝ)), F.computeConstraintsOneStep pData N l = .ok (A, b) ∧ A.cols = 3 ∧ b.rows = A.rows ∧
      b.cols = 1 ∧ A.rows = L.length ∧
      (∀ r q, L[r]? = some q → (∀ c < 3, A.e r c = V3.get q.1 c) ∧ b.e r 0 = q.2) ∧
      ∀ P : V3 × ℝ → Prop, (∀ r ∈ L, P r) ↔
        (∀ t p, Constrained l t p → AtPhase pData.contacts p fun ct e => GoodContact ct e ∧
          ∃ H, F.updH ct = .ok H ∧ (∀ r ∈ F.stab H g (W t), P r) ∧ ∀ r ∈ F.kinRows ct (CO t), P r) ∧
        (pData.constraintAcceleration = true → ∀ q ∈ l, ∀ r ∈ F.acc (AO q.1), P r) := by
  have hN : 0 < N := htags.lt
  -- choose the data of each phase
  have hgood' : ∀ i, ∃ ct e, GoodContact ct e ∧ e.gravity = g ∧
      (i < N → pData.contacts[i]? = some ct) := by
    intro i
    by_cases h : i < N
    · obtain ⟨ct, e, h1, h2, h3⟩ := hgood i h
      exact ⟨ct, e, h2, h3, fun _ => h1⟩
    · obtain ⟨ct, e, h1, h2, h3⟩ := hgood 0 hN
      exact ⟨ct, e, h2, h3, fun h' => absurd h' h⟩
  choose ct e hce hgr hct using hgood'
  have he : ∀ i, (ct i).contactPhase = some (e i) := fun i => (hce i).1
  have hH : ∀ i, ∃ H, F.updH (ct i) = .ok H ∧ H.length = (e i).poly.length :=
    fun i => hupd _ _ (hce i)
  choose hs hhs1 hhs2 using hH
  have hk : ∀ i, (ct i).kin.length > 0 → (ct i).Kin.length = (ct i).kin.length := by
    intro i h0
    exact (hce i).2.2.2.2 (List.length_pos_iff.mp h0)
  have hW' : Out.mapList (fun q : ℝ × ℤ => F.w q.1) l = .ok (l.map fun q => W q.1) := mapList_ok _ _ _ fun q _ => hW _
  have hK : Out.mapList (fun q : ℝ × ℤ => F.co q.1) l = .ok (l.map fun q => CO q.1) := mapList_ok _ _ _ fun q _ => hCO _
  have hAcc : Out.mapList (fun q : ℝ × ℤ => F.ac q.1) l = .ok (l.map fun q => AO q.1) := mapList_ok _ _ _ fun q _ => hAO _
  -- the rows
  set R1 := expand (fun t i => F.stab (hs i) g (W t))
    (fun t i => F.stab (hs i) g (W t)) l with hR1
  set R2 := expand (fun t i => F.kinRows (ct i) (CO t))
    (fun t i => F.kinRows (ct i) (CO t)) l with hR2
  set R3 := if pData.constraintAcceleration then
    (l.map fun q => AO q.1).flatMap F.acc else [] with hR3
  have hlen1 : R1.length = ((visits l).map fun i => (e i).poly.length).sum := by
    refine expand_length _ _ _ ?_ ?_ l <;> intro t i <;> rw [hlen.stab, hhs2]
  have hlen2 : R2.length = ((visits l).map fun i => (ct i).kin.length).sum := by
    refine expand_length _ _ _ ?_ ?_ l <;> intro t i <;> rw [F.kinRows_length hlen _ _ (hk i)]
  have hlen3 : R3.length = if pData.constraintAcceleration then 6 * l.length else 0 := by
    rw [hR3]
    split_ifs
    · rw [F.acc_sum hlen, List.length_map]
    · rfl
  set n := (R1 ++ R2 ++ R3).length with hn
  have hlpos : 0 < l.length := List.length_pos_iff.mpr htags.ne
  have hnum : computeNumIneq pData N (stepIdGo 0 (l.map (·.2))) = .ok (n : ℤ) := by
    have h1 := stepIdGo_last (l.map (·.2)) 0
    have h2 := numIneqLoop_eq pData.contacts N e ct hct (fun i _ => he i) l 0 0 [] 0 0 htags rfl
    simp only [List.nil_append, Nat.sub_zero] at h2
    unfold computeNumIneq
    rw [h1]
    dsimp only
    rw [h2]
    simp only [Out.ok_bind]
    have h3 : (((visits l).map fun i => (e i).poly.length + (ct i).kin.length).sum : ℕ)
        = R1.length + R2.length := by
      rw [hlen1, hlen2, List.sum_map_add]
    rw [h3]
    have h4 : n = R1.length + R2.length + R3.length := by
      rw [hn, List.length_append, List.length_append]
    have h5 : ((l.length - 1 : ℕ) : ℤ) = (l.length : ℤ) - 1 := by omega
    rw [h4, hlen3]
    rw [if_neg (lt_irrefl 0)]
    split_ifs
    · simp only [List.length_map, zero_add, lt_irrefl, gt_iff_lt, if_false]
      change Out.ok _ = Out.ok _
      congr 1
      push_cast
      rw [h5]
      ring
    · change Out.ok _ = Out.ok _
      congr 1
      push_cast
      simp
  -- assembly
  set st0 : Asm := { A := Buf.zero n 3, b := Buf.uninit n 1, row := 0 } with hst0
  have hF0 : Filled st0 n [] :=
    ⟨rfl, rfl, rfl, rfl, rfl, fun r q hq => by simp at hq, fun r q hq => by simp at hq⟩
  have hn' : n = R1.length + R2.length + R3.length := by
    rw [hn, List.length_append, List.length_append]
  obtain ⟨st1, h1, hF1⟩ := F.stabLoop_eq hlen pData N e ct hct (fun i _ => he i) hs (fun i _ => hhs1 i) g
    W n l 0 0 [] st0 [] htags (by simp) hF0 (by
      simp only [hgr, List.nil_append]
      rw [← hR1, hn']; omega)
  simp only [hgr, List.nil_append] at h1 hF1
  rw [← hR1] at hF1
  obtain ⟨st2, h2, hF2⟩ := F.kinLoop_eq hlen pData N ct hct (fun i _ => hk i)
    CO n l 0 0 [] st1 R1 htags rfl (by simp) hF1 (by
      rw [← hR2, hn', List.length_append]; omega)
  simp only [List.nil_append] at h2 hF2
  rw [← hR2] at hF2
  have h3 : ∃ st3, F.assignAccelerationConstraints pData st2 l = .ok st3 ∧
      Filled st3 n (R1 ++ R2 ++ R3) := by
    unfold assignAccelerationConstraints
    rw [hR3]
    split_ifs with hc
    · rw [hAcc, Out.ok_bind]
      refine F.accLoop_eq hlen _ _ _ _ hF2 ?_
      rw [hR3, if_pos hc] at hn
      rw [← hn]
    · exact ⟨st2, rfl, by simpa using hF2⟩
  obtain ⟨st3, h3, hF3⟩ := h3
  obtain ⟨A, b, hA, hb, hAr, hAc, hbr, hbc, hsat⟩ := filled_value hF3 rfl
  refine ⟨A, b, R1 ++ R2 ++ R3, ?_, hAc, by rw [hbr, hAr], hbc, hAr, hsat, ?_⟩
  · unfold computeConstraintsOneStep stepIdPerPhase
    rw [if_neg htags.ne, Out.ok_bind, hnum, Out.ok_bind]
    simp only [Int.toNat_natCast]
    rw [← hst0]
    have hS : F.assignStabilityConstraints pData st0 l (stepIdGo 0 (l.map (·.2))) = .ok st1 := by
      unfold assignStabilityConstraints
      rw [hW', Out.ok_bind, hct 0 hN]
      dsimp only
      rw [he 0]
      dsimp only
      rw [hhs1 0, Out.ok_bind, hgr 0]
      exact h1
    have hK' : F.assignKinematicConstraints pData st1 l (stepIdGo 0 (l.map (·.2))) = .ok st2 := by
      unfold assignKinematicConstraints
      rw [hK, Out.ok_bind]
      exact h2
    rw [hS, Out.ok_bind, hK', Out.ok_bind, h3, Out.ok_bind, if_pos (by rw [hF3.row, hF3.ar]), hA,
      Out.ok_bind, hb, Out.ok_bind]
    rfl
  · intro P
    simp only [List.mem_append, or_imp, forall_and]
    refine and_congr ?_ ?_
    · rw [hR1, hR2]
      have e1 := expand_constrained htags
        (fun t i => F.stab (hs i) g (W t)) P
      have e2 := expand_constrained htags
        (fun t i => F.kinRows (ct i) (CO t)) P
      rw [e1, e2]
      constructor
      · rintro ⟨p1, p2⟩ t i hc
        exact ⟨ct i, e i, hct i (hc.lt htags).1, he i, hce i, hs i, hhs1 i, p1 t i hc, p2 t i hc⟩
      · intro h
        refine ⟨fun t i hc => ?_, fun t i hc => ?_⟩ <;>
        · obtain ⟨ct', e', q1, q2, -, H', q5, q3, q4⟩ := h t i hc
          rw [hct i (hc.lt htags).1] at q1
          cases q1
          rw [hhs1 i] at q5
          cases q5
          assumption
    · rw [hR3]
      split_ifs with hc
      · simp only [hc, true_implies, List.mem_flatMap, List.mem_map, forall_exists_index, and_imp]
        constructor
        · intro h q hq r hr
          exact h r _ q hq rfl hr
        · rintro h r co q hq rfl hr
          exact h q hq r hr
      · simp [hc]


end RowFns

end Verif
