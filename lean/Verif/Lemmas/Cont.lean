import Verif.Lemmas.Extract
import Verif.Lemmas.OneStepSem

/-!
# Lemmas on the assembly of the continuous formulation
-/

namespace Verif
open Matrix

/-! ## Inequalities -/

/-- The first rows of the buffers hold exactly the list `L`; the columns after the third are zero. -/
structure FilledC (st : Asm) (n m : ℕ) (L : List (V3 × ℝ)) : Prop where
  ar : st.A.rows = n
  ac : st.A.cols = m
  am : 3 ≤ m
  br : st.b.rows = n
  bc : st.b.cols = 1
  row : st.row = L.length
  a : ∀ r q, L[r]? = some q → ∀ c < 3, st.A.e r c = some (V3.get q.1 c)
  z : ∀ r c, 3 ≤ c → st.A.e r c = some 0
  b : ∀ r q, L[r]? = some q → st.b.e r 0 = some q.2

theorem put_filledC {st : Asm} {n m : ℕ} {L : List (V3 × ℝ)} (h : FilledC st n m L)
    (M : List (V3 × ℝ)) (k : ℕ) (hk : M.length = k) (hle : (L ++ M).length ≤ n) :
    ∃ st', st.put M k = .ok st' ∧ FilledC st' n m (L ++ M) := by
  subst hk
  rw [List.length_append] at hle
  have hm := h.am
  have h1 : st.row + (M.map (·.1)).length ≤ st.A.rows ∧ 0 + 3 ≤ st.A.cols := by
    rw [h.row, h.ar, h.ac, List.length_map]; omega
  have h2 : st.row + (M.map (·.2)).length ≤ st.b.rows ∧ 0 + 1 ≤ st.b.cols := by
    rw [h.row, h.br, h.bc, List.length_map]; omega
  unfold Asm.put Buf.writeRows Buf.writeSeg Buf.write
  rw [if_pos h1, if_pos h2]
  refine ⟨_, rfl, h.ar, h.ac, hm, h.br, h.bc, by simp [h.row], ?_, ?_, ?_⟩
  · intro r q hq c hc
    simp only [h.row, List.length_map]
    by_cases hr : r < L.length
    · rw [if_neg (by omega)]
      rw [List.getElem?_append_left hr] at hq
      exact h.a r q hq c hc
    · rw [List.getElem?_append_right (by omega)] at hq
      obtain ⟨hlt, -⟩ := List.getElem?_eq_some_iff.mp hq
      rw [if_pos (by omega)]
      simp [List.getD, hq]
  · intro r c hc
    simp only [h.row, List.length_map]
    rw [if_neg (by omega)]
    exact h.z r c hc
  · intro r q hq
    simp only [h.row, List.length_map]
    by_cases hr : r < L.length
    · rw [if_neg (by omega)]
      rw [List.getElem?_append_left hr] at hq
      exact h.b r q hq
    · rw [List.getElem?_append_right (by omega)] at hq
      obtain ⟨hlt, -⟩ := List.getElem?_eq_some_iff.mp hq
      rw [if_pos (by omega)]
      simp [List.getD, hq]

/-- First three unknowns. -/
def first3 (y : ℕ → ℝ) : V3 := fun k => y k.val

theorem filledC_value {st : Asm} {n m : ℕ} {L : List (V3 × ℝ)} (h : FilledC st n m L)
    (hn : L.length = n) :
    ∃ A b, st.A.value = .ok A ∧ st.b.value = .ok b ∧ A.rows = n ∧ A.cols = m ∧ b.rows = n ∧
      b.cols = 1 ∧ (∀ y : ℕ → ℝ, Sat A b y ↔ ∀ r ∈ L, r.1 ⬝ᵥ first3 y ≤ r.2) ∧
      (∀ r q, L[r]? = some q → (∀ c < 3, A.e r c = V3.get q.1 c) ∧ b.e r 0 = q.2) ∧
      ∀ r c, 3 ≤ c → A.e r c = 0 := by
  have hget : ∀ r < n, ∃ q, L[r]? = some q := fun r hr =>
    ⟨L[r], List.getElem?_eq_getElem (by omega)⟩
  refine ⟨{ rows := st.A.rows, cols := st.A.cols, e := fun r c => (st.A.e r c).getD 0 },
    { rows := st.b.rows, cols := st.b.cols, e := fun r c => (st.b.e r c).getD 0 }, ?_, ?_⟩
  · unfold Buf.value
    rw [if_pos]
    intro r hr c hc
    obtain ⟨q, hq⟩ := hget r (by rw [← h.ar]; exact hr)
    by_cases hc3 : c < 3
    · rw [h.a r q hq c hc3]; rfl
    · rw [h.z r c (by omega)]; rfl
  · refine ⟨?_, h.ar, h.ac, h.br, h.bc, fun y => ?_, fun r q hq => ⟨fun c hc => by simp [h.a r q hq c hc], by
      simp [h.b r q hq]⟩, fun r c hc => by simp [h.z r c hc]⟩
    · unfold Buf.value
      rw [if_pos]
      intro r hr c hc
      obtain ⟨q, hq⟩ := hget r (by rw [← h.br]; exact hr)
      have : c = 0 := by rw [h.bc] at hc; omega
      subst this
      rw [h.b r q hq]
      rfl
    · have key : ∀ r q, L[r]? = some q →
          (∑ c ∈ Finset.range st.A.cols, (st.A.e r c).getD 0 * y c ≤ (st.b.e r 0).getD 0 ↔
            q.1 ⬝ᵥ first3 y ≤ q.2) := by
        intro r q hq
        obtain ⟨m', rfl⟩ : ∃ m', m = 3 + m' := ⟨m - 3, by have := h.am; omega⟩
        rw [h.b r q hq, h.ac, Finset.sum_range_add]
        rw [Finset.sum_eq_zero (s := Finset.range m') fun c _ => by
          rw [h.z r (3 + c) (by omega)]; simp]
        rw [Finset.sum_congr rfl fun c hc => by
          rw [h.a r q hq c (Finset.mem_range.mp hc)]]
        simp [Finset.sum_range_succ, V3.get, first3, dotProduct, Fin.sum_univ_three]
      unfold Sat
      constructor
      · intro hs q hq
        obtain ⟨r, hr⟩ := List.mem_iff_getElem?.mp hq
        have hrn : r < n := by
          have := (List.getElem?_eq_some_iff.mp hr).1
          omega
        exact (key r q hr).mp (hs r (by rw [h.ar]; exact hrn))
      · intro hs r hr
        obtain ⟨q, hq⟩ := hget r (by rw [← h.ar]; exact hr)
        exact (key r q hq).mpr (hs q (List.mem_of_getElem? hq))

theorem kinContLoop_eq (ct : ContactData) (hk : ct.Kin.length = ct.kin.length) (n m : ℕ)
    (cs : List Coefs) : ∀ (st : Asm) (L : List (V3 × ℝ)), FilledC st n m L →
      (L ++ cs.flatMap (kinRows ct)).length ≤ n →
      ∃ st', kinContLoop ct cs st = .ok st' ∧ FilledC st' n m (L ++ cs.flatMap (kinRows ct)) := by
  induction cs with
  | nil => intro st L hF _; exact ⟨st, rfl, by simpa using hF⟩
  | cons co cs ih =>
    intro st L hF hle
    have hz : List.zipWith (fun K k => (co.first • K, k - K ⬝ᵥ co.second)) ct.Kin ct.kin
        = kinRows ct co := by
      unfold kinRows
      split_ifs with h0
      · rfl
      · simp at h0; simp [h0]
    simp only [List.flatMap_cons, ← List.append_assoc] at hle ⊢
    obtain ⟨st1, h1, hF1⟩ := put_filledC hF (kinRows ct co) ct.kin.length
      (kinRows_length ct co fun _ => hk) (by rw [List.length_append] at hle; omega)
    obtain ⟨st2, h2, hF2⟩ := ih st1 _ hF1 hle
    refine ⟨st2, ?_, hF2⟩
    rw [kinContLoop, if_pos hk, hz, h1, Out.ok_bind, h2]

theorem stabContLoop_eq (H : HRows) (g : V3) (n m : ℕ)
    (ws : List Wp6) : ∀ (st : Asm) (L : List (V3 × ℝ)), FilledC st n m L →
      (L ++ ws.flatMap (dynamicStabilityConstraints H g)).length ≤ n →
      ∃ st', stabContLoop H g ws st = .ok st' ∧
        FilledC st' n m (L ++ ws.flatMap (dynamicStabilityConstraints H g)) := by
  induction ws with
  | nil => intro st L hF _; exact ⟨st, rfl, by simpa using hF⟩
  | cons w ws ih =>
    intro st L hF hle
    simp only [List.flatMap_cons, ← List.append_assoc] at hle ⊢
    obtain ⟨st1, h1, hF1⟩ := put_filledC hF (dynamicStabilityConstraints H g w) H.length
      (dyn_length H g w) (by rw [List.length_append] at hle; omega)
    obtain ⟨st2, h2, hF2⟩ := ih st1 _ hF1 hle
    refine ⟨st2, ?_, hF2⟩
    rw [stabContLoop, assignStabilityConstraintsForTimeStep, h1, Out.ok_bind, h2]

theorem accLoop_eqC (B : ℝ) (n m : ℕ) (cs : List Coefs) : ∀ (st : Asm) (L : List (V3 × ℝ)),
    FilledC st n m L → (L ++ cs.flatMap (accRows B)).length ≤ n →
    ∃ st', accLoop B cs st = .ok st' ∧ FilledC st' n m (L ++ cs.flatMap (accRows B)) := by
  induction cs with
  | nil => intro st L hF _; exact ⟨st, rfl, by simpa using hF⟩
  | cons w ws ih =>
    intro st L hF hle
    simp only [List.flatMap_cons, ← List.append_assoc] at hle ⊢
    obtain ⟨st1, h1, hF1⟩ := put_filledC hF (accRows B w) 6
      (accRows_length B w) (by rw [List.length_append] at hle; omega)
    obtain ⟨st2, h2, hF2⟩ := ih st1 _ hF1 hle
    refine ⟨st2, ?_, hF2⟩
    rw [accLoop, h1, Out.ok_bind, h2]

/-! ## Equalities -/

/-- Number of force variables of a list of blocks. -/
def gcols (B : List (Wp6 × Equilibrium)) : ℕ := (B.map fun q => q.2.gens.length).sum

/-- Entry of the rows of block `(w, e)`, whose force variables start at column `o`. -/
def blockEntry (q : Wp6 × Equilibrium) (o r c : ℕ) : ℝ :=
  if c < 3 then q.2.mass * q.1.entry r c
  else if o ≤ c ∧ c < o + q.2.gens.length then
    get6 (q.2.gens.getD (c - o) 0).1 (q.2.gens.getD (c - o) 0).2 r
  else 0

/-- The first rows of the buffers hold exactly the blocks `B`, the others are zero. -/
structure FilledF (s : AsmF) (n m : ℕ) (B : List (Wp6 × Equilibrium)) : Prop where
  dr : s.D.rows = n
  dc : s.D.cols = m
  vr : s.d.rows = n
  vc : s.d.cols = 1
  row : s.row = 6 * B.length
  col : s.col = 3 + gcols B
  a : ∀ j q, B[j]? = some q → ∀ r < 6, ∀ c,
    s.D.e (6 * j + r) c = some (blockEntry q (3 + gcols (B.take j)) r c)
  b : ∀ j q, B[j]? = some q → ∀ r < 6,
    s.d.e (6 * j + r) 0 = some (q.2.mass * (get6 q.2.gravity 0 r - get6 q.1.head q.1.tail r))
  z : ∀ r c, 6 * B.length ≤ r → s.D.e r c = some 0

theorem gcols_append (B B' : List (Wp6 × Equilibrium)) : gcols (B ++ B') = gcols B + gcols B' := by
  simp [gcols]

theorem assignForce_filled {s : AsmF} {n m : ℕ} {B : List (Wp6 × Equilibrium)} (h : FilledF s n m B)
    (w : Wp6) (e : Equilibrium) (hn : 6 * (B ++ [(w, e)]).length ≤ n)
    (hm : 3 + gcols (B ++ [(w, e)]) ≤ m) :
    ∃ s', assignForce w e s = .ok s' ∧ FilledF s' n m (B ++ [(w, e)]) := by
  have hg : gcols (B ++ [(w, e)]) = gcols B + e.gens.length := by simp [gcols]
  rw [hg] at hm
  simp only [List.length_append, List.length_singleton] at hn
  unfold assignForce Buf.write
  rw [if_pos (by rw [h.row, h.col, h.dr, h.dc]; omega)]
  simp only [Out.ok_bind]
  rw [if_pos (by rw [h.row, h.dr, h.dc]; omega)]
  simp only [Out.ok_bind]
  rw [if_pos (by rw [h.row, h.vr, h.vc]; omega)]
  simp only [Out.ok_bind]
  refine ⟨_, rfl, h.dr, h.dc, h.vr, h.vc, ?_, ?_, ?_, ?_, ?_⟩
  · simp [h.row]; ring
  · simp [h.col, hg]; ring
  · intro j q hq r hr c
    simp only [h.row, h.col]
    by_cases hj : j < B.length
    · rw [List.getElem?_append_left hj] at hq
      rw [if_neg (by omega), if_neg (by omega), h.a j q hq r hr c, List.take_append_of_le_length (by omega)]
    · rw [List.getElem?_append_right (by omega)] at hq
      obtain ⟨hlt, hq'⟩ := List.getElem?_eq_some_iff.mp hq
      have hj0 : j = B.length := by simp at hlt; omega
      subst hj0
      simp at hq
      subst hq
      have e1 : (B ++ [(w, e)]).take B.length = B := by simp
      have e2 : 6 * B.length + r - 6 * B.length = r := by omega
      rw [e1, e2]
      unfold blockEntry
      by_cases hc : c < 3
      · rw [if_pos (by omega), if_pos hc]
        rfl
      · rw [if_neg (by omega), if_neg hc]
        by_cases ho : 3 + gcols B ≤ c ∧ c < 3 + gcols B + e.gens.length
        · rw [if_pos (by omega), if_pos ho]
        · rw [if_neg (by omega), if_neg ho, h.z _ _ (by omega)]
  · intro j q hq r hr
    simp only [h.row]
    by_cases hj : j < B.length
    · rw [List.getElem?_append_left hj] at hq
      rw [if_neg (by omega), h.b j q hq r hr]
    · rw [List.getElem?_append_right (by omega)] at hq
      obtain ⟨hlt, hq'⟩ := List.getElem?_eq_some_iff.mp hq
      have hj0 : j = B.length := by simp at hlt; omega
      subst hj0
      simp at hq
      subst hq
      rw [if_pos (by omega)]
      congr 2
      rw [show 6 * B.length + r - 6 * B.length = r by omega]
  · intro r c hr
    simp only [List.length_append, List.length_singleton] at hr
    simp only [h.row, h.col]
    rw [if_neg (by omega), if_neg (by omega)]
    exact h.z r c (by omega)

theorem forceLoop_eq (e : Equilibrium) (n m : ℕ) (ws : List Wp6) :
    ∀ (s : AsmF) (B : List (Wp6 × Equilibrium)), FilledF s n m B →
      6 * (B ++ ws.map fun w => (w, e)).length ≤ n → 3 + gcols (B ++ ws.map fun w => (w, e)) ≤ m →
      ∃ s', forceLoop e ws s = .ok s' ∧ FilledF s' n m (B ++ ws.map fun w => (w, e)) := by
  induction ws with
  | nil => intro s B h _ _; exact ⟨s, rfl, by simpa using h⟩
  | cons w ws ih =>
    intro s B h hn hm
    have hspl : B ++ (w :: ws).map (fun w => (w, e)) = (B ++ [(w, e)]) ++ ws.map fun w => (w, e) := by
      simp
    rw [hspl] at hn hm ⊢
    obtain ⟨s1, h1, hF1⟩ := assignForce_filled h w e
      (by rw [List.length_append] at hn; omega) (by rw [gcols_append] at hm; omega)
    obtain ⟨s2, h2, hF2⟩ := ih s1 _ hF1 hn hm
    exact ⟨s2, by rw [forceLoop, h1, Out.ok_bind, h2], hF2⟩

theorem get6_sum (w : Wp6) (y : ℕ → ℝ) (r : ℕ) (hr : r < 6) :
    ∑ c ∈ Finset.range 3, w.entry r c * y c + get6 w.head w.tail r
      = get6 (w.headAt (first3 y)) (w.tailAt (first3 y)) r := by
  have : r = 0 ∨ r = 1 ∨ r = 2 ∨ r = 3 ∨ r = 4 ∨ r = 5 := by omega
  rcases this with rfl | rfl | rfl | rfl | rfl | rfl <;>
    simp [Finset.sum_range_succ, Wp6.entry, get6, V3.get, Wp6.headAt, Wp6.tailAt, mulVec, dotProduct,
      Fin.sum_univ_three, first3]
  all_goals rfl

theorem get6_ext {f τ f' τ' : V3} (h : ∀ r < 6, get6 f τ r = get6 f' τ' r) : f = f' ∧ τ = τ' := by
  constructor
  · funext k
    have := h k.val (by omega)
    fin_cases k <;> simpa [get6, V3.get] using this
  · funext k
    have := h (k.val + 3) (by omega)
    fin_cases k <;> simpa [get6, V3.get] using this

theorem get6_gens (e : Equilibrium) (β : ℕ → ℝ) (r : ℕ) (hr : r < 6) :
    ∑ k ∈ Finset.range e.gens.length, get6 (e.gens.getD k 0).1 (e.gens.getD k 0).2 r * β k
      = get6 (∑ k ∈ Finset.range e.gens.length, β k • (e.gens.getD k 0).1)
          (∑ k ∈ Finset.range e.gens.length, β k • (e.gens.getD k 0).2) r := by
  have : r = 0 ∨ r = 1 ∨ r = 2 ∨ r = 3 ∨ r = 4 ∨ r = 5 := by omega
  rcases this with rfl | rfl | rfl | rfl | rfl | rfl <;>
    simp [get6, V3.get, Finset.sum_apply, mul_comm]

theorem blockEntry_sum (q : Wp6 × Equilibrium) (o m r : ℕ) (ho : 3 ≤ o) (hm : o + q.2.gens.length ≤ m)
    (y : ℕ → ℝ) :
    ∑ c ∈ Finset.range m, blockEntry q o r c * y c
      = q.2.mass * ∑ c ∈ Finset.range 3, q.1.entry r c * y c
        + ∑ k ∈ Finset.range q.2.gens.length,
            get6 (q.2.gens.getD k 0).1 (q.2.gens.getD k 0).2 r * y (o + k) := by
  obtain ⟨p, rfl⟩ : ∃ p, o = 3 + p := ⟨o - 3, by omega⟩
  obtain ⟨s, rfl⟩ : ∃ s, m = 3 + p + q.2.gens.length + s := ⟨m - (3 + p + q.2.gens.length), by omega⟩
  rw [Finset.sum_range_add, Finset.sum_range_add, Finset.sum_range_add]
  have z1 : ∑ x ∈ Finset.range p, blockEntry q (3 + p) r (3 + x) * y (3 + x) = 0 := by
    refine Finset.sum_eq_zero fun c hc => ?_
    have := Finset.mem_range.mp hc
    rw [blockEntry, if_neg (by omega), if_neg (by omega), zero_mul]
  have z2 : ∑ x ∈ Finset.range s, blockEntry q (3 + p) r (3 + p + q.2.gens.length + x)
      * y (3 + p + q.2.gens.length + x) = 0 := by
    refine Finset.sum_eq_zero fun c hc => ?_
    rw [blockEntry, if_neg (by omega), if_neg (by omega), zero_mul]
  rw [z1, z2, Finset.mul_sum, add_zero, add_zero]
  congr 1
  · refine Finset.sum_congr rfl fun c hc => ?_
    rw [blockEntry, if_pos (Finset.mem_range.mp hc)]
    ring
  · refine Finset.sum_congr rfl fun c hc => ?_
    have := Finset.mem_range.mp hc
    rw [blockEntry, if_neg (by omega), if_pos (by omega), show 3 + p + c - (3 + p) = c by omega]

/-- A completely filled equality system: each block says that the wrench of its waypoint is generated
by its own variables. -/
theorem filledF_value {s : AsmF} {n m : ℕ} {B : List (Wp6 × Equilibrium)} (h : FilledF s n m B)
    (hn : 6 * B.length = n) (hm : 3 + gcols B = m) :
    ∃ D d, s.D.value = .ok D ∧ s.d.value = .ok d ∧ D.rows = n ∧ D.cols = m ∧ d.rows = n ∧
      d.cols = 1 ∧
      (∀ j q, B[j]? = some q → ∀ r < 6, (∀ c, D.e (6 * j + r) c = blockEntry q (3 + gcols (B.take j)) r c) ∧
        d.e (6 * j + r) 0 = q.2.mass * (get6 q.2.gravity 0 r - get6 q.1.head q.1.tail r)) ∧
      ∀ y : ℕ → ℝ, EqSat D d y ↔ ∀ j q, B[j]? = some q →
        ∑ k ∈ Finset.range q.2.gens.length, y (3 + gcols (B.take j) + k) • (q.2.gens.getD k 0).1
          = q.2.mass • (q.2.gravity - q.1.headAt (first3 y)) ∧
        ∑ k ∈ Finset.range q.2.gens.length, y (3 + gcols (B.take j) + k) • (q.2.gens.getD k 0).2
          = q.2.mass • (-q.1.tailAt (first3 y)) := by
  have hget : ∀ r < n, ∃ j q, B[j]? = some q ∧ r = 6 * j + r % 6 := fun r hr =>
    ⟨r / 6, B[r / 6]'(by omega), List.getElem?_eq_getElem (by omega), by omega⟩
  refine ⟨{ rows := s.D.rows, cols := s.D.cols, e := fun r c => (s.D.e r c).getD 0 },
    { rows := s.d.rows, cols := s.d.cols, e := fun r c => (s.d.e r c).getD 0 }, ?_, ?_, ?_⟩
  · unfold Buf.value
    rw [if_pos]
    intro r hr c hc
    obtain ⟨j, q, hq, hj⟩ := hget r (by rw [← h.dr]; exact hr)
    rw [hj, h.a j q hq _ (Nat.mod_lt _ (by norm_num)) c]
    rfl
  · unfold Buf.value
    rw [if_pos]
    intro r hr c hc
    obtain ⟨j, q, hq, hj⟩ := hget r (by rw [← h.vr]; exact hr)
    have : c = 0 := by rw [h.vc] at hc; omega
    subst this
    rw [hj, h.b j q hq _ (Nat.mod_lt _ (by norm_num))]
    rfl
  · refine ⟨h.dr, h.dc, h.vr, h.vc, fun j q hq r hr =>
      ⟨fun c => by dsimp only; rw [h.a j q hq r hr c]; rfl, by dsimp only; rw [h.b j q hq r hr]; rfl⟩, fun y => ?_⟩
    have key : ∀ j q, B[j]? = some q → ∀ r < 6,
        (∑ c ∈ Finset.range s.D.cols, (s.D.e (6 * j + r) c).getD 0 * y c = (s.d.e (6 * j + r) 0).getD 0 ↔
          get6 (∑ k ∈ Finset.range q.2.gens.length, y (3 + gcols (B.take j) + k) • (q.2.gens.getD k 0).1)
            (∑ k ∈ Finset.range q.2.gens.length, y (3 + gcols (B.take j) + k) • (q.2.gens.getD k 0).2) r
          = get6 (q.2.mass • (q.2.gravity - q.1.headAt (first3 y)))
              (q.2.mass • (-q.1.tailAt (first3 y))) r) := by
      intro j q hq r hr
      have hjl := (List.getElem?_eq_some_iff.mp hq).1
      have hcol : 3 + gcols (B.take j) + q.2.gens.length ≤ m := by
        rw [← hm]
        have e1 : B = B.take j ++ q :: B.drop (j + 1) := by
          have := (List.getElem?_eq_some_iff.mp hq).2
          rw [← this, List.getElem_cons_drop, List.take_append_drop]
        have e2 : gcols B = gcols (B.take j) + (q.2.gens.length + gcols (B.drop (j + 1))) := by
          conv_lhs => rw [e1]
          rw [gcols_append]; simp [gcols]
        omega
      rw [h.b j q hq r hr, h.dc]
      rw [Finset.sum_congr rfl fun c _ => by rw [h.a j q hq r hr c]]
      simp only [Option.getD_some]
      rw [blockEntry_sum q _ m r (by omega) hcol, get6_gens q.2 (fun k => y (3 + gcols (B.take j) + k)) r hr]
      have e3 := get6_sum q.1 y r hr
      have e4 : get6 (q.2.mass • (q.2.gravity - q.1.headAt (first3 y)))
          (q.2.mass • (-q.1.tailAt (first3 y))) r
          = q.2.mass * (get6 q.2.gravity 0 r - get6 (q.1.headAt (first3 y)) (q.1.tailAt (first3 y)) r) := by
        have : r = 0 ∨ r = 1 ∨ r = 2 ∨ r = 3 ∨ r = 4 ∨ r = 5 := by omega
        rcases this with rfl | rfl | rfl | rfl | rfl | rfl <;> simp [get6, V3.get]
      rw [e4, ← e3]
      constructor <;> intro hh <;> linarith
    unfold EqSat
    constructor
    · intro hs j q hq
      have hjl := (List.getElem?_eq_some_iff.mp hq).1
      exact get6_ext fun r hr => (key j q hq r hr).mp (hs _ (by
        change 6 * j + r < s.D.rows
        rw [h.dr]; omega))
    · intro hs r hr
      obtain ⟨j, q, hq, hj⟩ := hget r (by rw [← h.dr]; exact hr)
      rw [hj]
      refine (key j q hq _ (Nat.mod_lt _ (by norm_num))).mpr ?_
      rw [(hs j q hq).1, (hs j q hq).2]

/-! ## The loop over the phases -/

/-- The inequality rows of the phases, in order. -/
noncomputable def contRows (useDD : Bool) (ct : ℕ → ContactData) (e : ℕ → Equilibrium)
    (H : ℕ → HRows) (B T : ℝ) (c ddc : List Coefs) (w : List Wp6) :
    List ℝ → ℕ → ℝ → List (V3 × ℝ)
  | [], _, _ => []
  | D :: Ts, i, t =>
    ((subCoefs c T t D).flatMap (kinRows (ct i)) ++
      ((if useDD then (subWp6 w T t D).flatMap (dynamicStabilityConstraints (H i) (e i).gravity) else [])
        ++ (subCoefs ddc T t D).flatMap (accRows B))) ++
      contRows useDD ct e H B T c ddc w Ts (i + 1) (t + D)

/-- The number of generators of the phase after `i`, if there is one. -/
def nextGens (e : ℕ → Equilibrium) (Ts : List ℝ) (i : ℕ) : Option ℕ :=
  if Ts.isEmpty then none else some (e (i + 1)).gens.length

/-- The equality blocks of the phases, in order. -/
noncomputable def contBlocks (e : ℕ → Equilibrium) (T : ℝ) (w : List Wp6) :
    List ℝ → ℕ → ℝ → ℕ → List (Wp6 × Equilibrium)
  | [], _, _, _ => []
  | D :: Ts, i, t, cSize =>
    ((forceRange (subWp6 w T t D) cSize (e i).gens.length (nextGens e Ts i)).map fun v => (v, e i)) ++
      contBlocks e T w Ts (i + 1) (t + D) (e i).gens.length

theorem contLoop_eq (pData : ProblemData) (useDD : Bool) (N : ℕ) (ct : ℕ → ContactData)
    (e : ℕ → Equilibrium) (H : ℕ → HRows)
    (hct : ∀ i < N, pData.contacts[i]? = some (ct i))
    (he : ∀ i < N, (ct i).contactPhase = some (e i))
    (hk : ∀ i < N, (ct i).Kin.length = (ct i).kin.length)
    (hH : useDD = true → ∀ i < N, updateH pData.reduce_h (ct i) = .ok (H i))
    (T : ℝ) (c ddc : List Coefs) (w : List Wp6) (n m nf mf : ℕ) (Ts : List ℝ) :
    (∀ D ∈ Ts, 0 < D) → ∀ (i : ℕ) (t : ℝ) (cSize : ℕ) (st : Asm) (sf : AsmF) (L : List (V3 × ℝ))
      (B : List (Wp6 × Equilibrium)), 0 ≤ t → t + Ts.sum ≤ T → i + Ts.length = N →
      FilledC st n m L → FilledF sf nf mf B →
      (L ++ contRows useDD ct e H pData.maxAcceleration T c ddc w Ts i t).length ≤ n →
      (useDD = false → 6 * (B ++ contBlocks e T w Ts i t cSize).length ≤ nf ∧
        3 + gcols (B ++ contBlocks e T w Ts i t cSize) ≤ mf) →
      ∃ st' sf', contLoop pData useDD T c ddc w Ts i t cSize st sf = .ok (st', sf') ∧
        FilledC st' n m (L ++ contRows useDD ct e H pData.maxAcceleration T c ddc w Ts i t) ∧
        FilledF sf' nf mf (B ++ if useDD then [] else contBlocks e T w Ts i t cSize) := by
  induction Ts with
  | nil =>
    intro _ i t cSize st sf L B _ _ _ hC hF _ _
    exact ⟨st, sf, rfl, by simpa [contRows] using hC, by
      cases useDD <;> simpa [contBlocks] using hF⟩
  | cons D Ts ih =>
    intro hpos i t cSize st sf L B ht hT hi hC hF hn hfm
    have hD := hpos D List.mem_cons_self
    have hTs : ∀ D ∈ Ts, 0 < D := fun D h => hpos D (List.mem_cons_of_mem _ h)
    have hsum : 0 ≤ Ts.sum := List.sum_nonneg fun D h => (hTs D h).le
    rw [List.sum_cons] at hT
    rw [List.length_cons] at hi
    have hiN : i < N := by omega
    simp only [contRows] at hn ⊢
    rw [← List.append_assoc, ← List.append_assoc] at hn
    have hle := hn
    rw [List.length_append] at hle
    obtain ⟨st1, h1, hC1⟩ := kinContLoop_eq (ct i) (hk i hiN) n m (subCoefs c T t D) st L hC (by
      rw [List.length_append] at hle; omega)
    have hloop : contLoop pData useDD T c ddc w (D :: Ts) i t cSize st sf
        = (contPhase pData useDD i (!Ts.isEmpty) (subCoefs c T t D) (subCoefs ddc T t D)
            (subWp6 w T t D) cSize st sf >>= fun r =>
            contLoop pData useDD T c ddc w Ts (i + 1) (t + D) r.1 r.2.1 r.2.2) := by
      rw [contLoop, extractCoefs_ok c T t D ht hD (by linarith),
        extractCoefs_ok ddc T t D ht hD (by linarith), extractWp6_ok w T t D ht hD (by linarith)]
      rfl
    rw [hloop]
    unfold contPhase
    rw [hct i hiN]
    dsimp only
    rw [h1, Out.ok_bind, he i hiN]
    cases useDD with
    | true =>
      simp only [if_true] at hn hle ⊢
      rw [hH rfl i hiN]
      simp only [Out.ok_bind]
      rw [List.append_assoc L, ← List.append_assoc (List.flatMap _ _) (List.flatMap _ _),
        ← List.append_assoc L, ← List.append_assoc L] at hle hn
      obtain ⟨st2, h2, hC2⟩ := stabContLoop_eq (H i) (e i).gravity n m (subWp6 w T t D) st1 _ hC1
        (by rw [List.length_append] at hle; omega)
      obtain ⟨st3, h3, hC3⟩ := accLoop_eqC pData.maxAcceleration n m (subCoefs ddc T t D) st2 _ hC2
        (by omega)
      rw [h2]
      simp only [Out.ok_bind]
      rw [h3]
      simp only [Out.ok_bind, Out.pure_eq]
      obtain ⟨st4, sf4, h4, hC4, hF4⟩ := ih hTs (i + 1) (t + D) cSize st3 sf _ B (by linarith)
        (by linarith) (by omega) hC3 hF hn (by simp)
      refine ⟨st4, sf4, h4, ?_, hF4⟩
      simpa [List.append_assoc] using hC4
    | false =>
      simp only [Bool.false_eq_true, if_false, List.nil_append] at hn hle ⊢
      simp only [contBlocks] at hfm ⊢
      obtain ⟨hf1, hf2⟩ := hfm trivial
      rw [← List.append_assoc] at hf1 hf2
      have hnext : nextGensOf pData.contacts i (!Ts.isEmpty) = Out.ok (nextGens e Ts i) := by
        unfold nextGens nextGensOf
        cases hTs' : Ts with
        | nil => rfl
        | cons D' Ts' =>
          have : i + 1 < N := by rw [hTs'] at hi; simp at hi; omega
          simp [gensOf, hct (i + 1) this, he (i + 1) this]
      rw [hnext]
      simp only [Out.ok_bind]
      obtain ⟨sf2, h2, hF2⟩ := forceLoop_eq (e i) nf mf (forceRange (subWp6 w T t D) cSize
        (e i).gens.length (nextGens e Ts i)) sf B hF
        (by rw [List.length_append] at hf1; omega) (by rw [gcols_append] at hf2; omega)
      rw [h2]
      simp only [Out.ok_bind]
      obtain ⟨st3, h3, hC3⟩ := accLoop_eqC pData.maxAcceleration n m (subCoefs ddc T t D) st1 _ hC1
        (by simp only [List.length_append] at hle ⊢; omega)
      rw [h3]
      simp only [Out.ok_bind, Out.pure_eq]
      obtain ⟨st4, sf4, h4, hC4, hF4⟩ := ih hTs (i + 1) (t + D) (e i).gens.length st3 sf2 _ _
        (by linarith) (by linarith) (by omega) hC3 hF2 (by simpa [List.append_assoc] using hn)
        (fun _ => ⟨hf1, hf2⟩)
      refine ⟨st4, sf4, h4, ?_, ?_⟩
      · simpa [List.append_assoc] using hC4
      · simpa [List.append_assoc] using hF4

/-! ## Counting -/

theorem flatMap_length {α β : Type} (f : α → List β) (k : ℕ) (l : List α)
    (h : ∀ a ∈ l, (f a).length = k) : (l.flatMap f).length = l.length * k := by
  induction l with
  | nil => simp
  | cons a l ih =>
    rw [List.flatMap_cons, List.length_append, h a List.mem_cons_self,
      ih fun b hb => h b (List.mem_cons_of_mem _ hb), List.length_cons]
    ring

theorem numIneqCont_eq (useDD : Bool) (ct : ℕ → ContactData) (e : ℕ → Equilibrium) (H : ℕ → HRows)
    (B T : ℝ) (c ddc : List Coefs) (w : List Wp6) (hc : c ≠ []) (hw : w ≠ [])
    (N : ℕ) (he : ∀ i < N, (ct i).contactPhase = some (e i))
    (hk : ∀ i < N, (ct i).Kin.length = (ct i).kin.length)
    (hH : useDD = true → ∀ i < N, (H i).length = (e i).poly.length)
    (Ts : List ℝ) : ∀ (i : ℕ) (t : ℝ), i + Ts.length = N →
    numIneqContLoop ((c.length : ℤ) - 1) ((w.length : ℤ) - 1) useDD ((List.range' i Ts.length).map ct)
      = .ok (((contRows useDD ct e H B T c ddc w Ts i t).length : ℤ) - ddc.length * 6 * Ts.length) := by
  induction Ts with
  | nil => intro i t _; simp [numIneqContLoop, contRows]
  | cons D Ts ih =>
    intro i t hN
    rw [List.length_cons] at hN
    have hiN : i < N := by omega
    rw [List.length_cons, List.range'_succ, List.map_cons, numIneqContLoop,
      ih (i + 1) (t + D) (by omega), Out.ok_bind]
    have l1 : ((subCoefs c T t D).flatMap (kinRows (ct i))).length = c.length * (ct i).kin.length := by
      rw [flatMap_length _ _ _ fun co _ => kinRows_length (ct i) co fun _ => hk i hiN, subCoefs_length]
    have l3 : ((subCoefs ddc T t D).flatMap (accRows B)).length = ddc.length * 6 := by
      rw [flatMap_length _ _ _ fun co _ => accRows_length B co, subCoefs_length]
    cases useDD with
    | true =>
      have l2 : ((subWp6 w T t D).flatMap (dynamicStabilityConstraints (H i) (e i).gravity)).length
          = w.length * (e i).poly.length := by
        rw [flatMap_length _ _ _ fun co _ => dyn_length (H i) (e i).gravity co, subWp6_length,
          hH rfl i hiN]
      simp only [if_true, he i hiN, contRows, List.length_append, l1, l2, l3, Out.pure_eq]
      congr 1
      push_cast
      ring
    | false =>
      simp only [Bool.false_eq_true, if_false, contRows, List.length_append, l1, l3, Out.pure_eq,
        List.nil_append]
      congr 1
      push_cast
      ring

theorem forceRange_length (ws : List Wp6) (hw : 2 ≤ ws.length) (cSize cols : ℕ) (next : Option ℕ) :
    ((forceRange ws cSize cols next).length : ℤ)
      = ws.length - (if ∃ n, next = some n ∧ n ≤ cols then 1 else 0)
        - (if cSize ≠ 0 ∧ cols > cSize then 1 else 0) := by
  unfold forceRange
  cases next with
  | none =>
    by_cases h : cSize > 0 ∧ cSize < cols
    · have : cSize ≠ 0 ∧ cols > cSize := ⟨by omega, h.2⟩
      simp [h, this]; omega
    · have : ¬ (cSize ≠ 0 ∧ cols > cSize) := by rintro ⟨a, b⟩; exact h ⟨by omega, b⟩
      simp only [if_neg h, if_neg this]
      simp
  | some n =>
    by_cases hn : n ≤ cols
    · have e1 : ∃ n', some n = some n' ∧ n' ≤ cols := ⟨n, rfl, hn⟩
      by_cases h : cSize > 0 ∧ cSize < cols
      · have : cSize ≠ 0 ∧ cols > cSize := ⟨by omega, h.2⟩
        simp only [if_pos h, if_pos this, if_pos e1, if_pos hn]
        simp; omega
      · have : ¬ (cSize ≠ 0 ∧ cols > cSize) := by rintro ⟨a, b⟩; exact h ⟨by omega, b⟩
        simp only [if_neg h, if_neg this, if_pos e1, if_pos hn]
        simp; omega
    · have e1 : ¬ ∃ n', some n = some n' ∧ n' ≤ cols := by
        rintro ⟨n', h1, h2⟩; cases h1; exact hn h2
      by_cases h : cSize > 0 ∧ cSize < cols
      · have : cSize ≠ 0 ∧ cols > cSize := ⟨by omega, h.2⟩
        simp only [if_pos h, if_pos this, if_neg e1, if_neg hn]
        simp; omega
      · have : ¬ (cSize ≠ 0 ∧ cols > cSize) := by rintro ⟨a, b⟩; exact h ⟨by omega, b⟩
        simp only [if_neg h, if_neg this, if_neg e1, if_neg hn]
        simp

theorem numEq_eq (ct : ℕ → ContactData) (e : ℕ → Equilibrium) (T : ℝ) (w : List Wp6)
    (hw : 2 ≤ w.length) (N : ℕ) (he : ∀ i < N, (ct i).contactPhase = some (e i))
    (Ts : List ℝ) : ∀ (i : ℕ) (t : ℝ) (cSize : ℕ), i + Ts.length = N →
    numEqLoop ((w.length : ℤ) - 1) ((List.range' i Ts.length).map ct) cSize
      = .ok (6 * ((contBlocks e T w Ts i t cSize).length : ℤ), (gcols (contBlocks e T w Ts i t cSize) : ℤ)) := by
  induction Ts with
  | nil => intro i t cSize _; simp [numEqLoop, contBlocks, gcols]
  | cons D Ts ih =>
    intro i t cSize hN
    rw [List.length_cons] at hN
    have hiN : i < N := by omega
    have hl := forceRange_length (subWp6 w T t D) (by simpa using hw) cSize (e i).gens.length
      (nextGens e Ts i)
    rw [subWp6_length] at hl
    have hg : ∀ l : List Wp6, gcols (l.map fun v => (v, e i)) = l.length * (e i).gens.length := by
      intro l
      unfold gcols
      rw [List.map_map]
      induction l with
      | nil => simp
      | cons a l ih => rw [List.map_cons, List.sum_cons, ih]; simp; ring
    rw [List.length_cons, List.range'_succ, List.map_cons, numEqLoop, he i hiN]
    dsimp only
    rw [ih (i + 1) (t + D) (e i).gens.length (by omega)]
    rw [contBlocks, List.length_append, gcols_append, hg, List.length_map]
    push_cast
    rw [hl]
    cases Ts with
    | nil =>
      have e1 : ¬ ∃ n, nextGens e ([] : List ℝ) i = some n ∧ n ≤ (e i).gens.length := by
        simp [nextGens]
      rw [if_neg e1]
      simp only [List.length_nil, List.range'_zero, List.map_nil, Out.ok_bind, Out.pure_eq]
      by_cases h : cSize ≠ 0 ∧ (e i).gens.length > cSize
      · simp only [if_pos h]
        congr 2 <;> ring
      · simp only [if_neg h]
        congr 2 <;> ring
    | cons D' Ts' =>
      have hi1 : i + 1 < N := by simp at hN; omega
      have e1 : nextGens e (D' :: Ts') i = some (e (i + 1)).gens.length := by simp [nextGens]
      rw [List.length_cons, List.range'_succ, List.map_cons]
      dsimp only
      rw [he (i + 1) hi1, e1]
      simp only [Out.ok_bind, Out.pure_eq]
      by_cases h2 : (e (i + 1)).gens.length ≤ (e i).gens.length
      · rw [if_pos (c := ∃ n, some (e (i + 1)).gens.length = some n ∧ n ≤ (e i).gens.length)
          ⟨_, rfl, h2⟩, if_pos h2]
        by_cases h : cSize ≠ 0 ∧ (e i).gens.length > cSize
        · simp only [if_pos h]
          congr 2 <;> ring
        · simp only [if_neg h]
          congr 2 <;> ring
      · rw [if_neg (c := ∃ n, some (e (i + 1)).gens.length = some n ∧ n ≤ (e i).gens.length)
          (by rintro ⟨n, hn, hle⟩; cases hn; exact h2 hle), if_neg h2]
        by_cases h : cSize ≠ 0 ∧ (e i).gens.length > cSize
        · simp only [if_pos h]
          congr 2 <;> ring
        · simp only [if_neg h]
          congr 2 <;> ring

end Verif
