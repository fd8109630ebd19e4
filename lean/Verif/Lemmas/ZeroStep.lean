import Verif.Model.ZeroStep
import Verif.Lemmas.Cont
import Verif.Lemmas.OneStepSem

/-!
# The inequality matrix of the zero step problem
-/

namespace Verif
open Matrix

/-- The last three unknowns. -/
def last3 (y : ℕ → ℝ) : V3 := fun k => y (3 + k)

/-- The two buffers are fully assigned, with the given sizes and contents. -/
structure View (A b : Buf) (n m : ℕ) (a : ℕ → ℕ → ℝ) (β : ℕ → ℝ) : Prop where
  ar : A.rows = n
  ac : A.cols = m
  br : b.rows = n
  bc : b.cols = 1
  a : ∀ r c, A.e r c = some (a r c)
  b : ∀ r, b.e r 0 = some (β r)

theorem view_zero (n m : ℕ) : View (Buf.zero n m) (Buf.zero n 1) n m (fun _ _ => 0) fun _ => 0 :=
  ⟨rfl, rfl, rfl, rfl, fun _ _ => rfl, fun _ => rfl⟩

theorem view_rows {A b : Buf} {n m : ℕ} {a : ℕ → ℕ → ℝ} {β : ℕ → ℝ} (h : View A b n m a β) (i j : ℕ) (M : List V3)
    (hi : i + M.length ≤ n) (hj : j + 3 ≤ m) :
    ∃ A', A.writeRows i j M = .ok A' ∧ View A' b n m
      (fun r c => if i ≤ r ∧ r < i + M.length ∧ j ≤ c ∧ c < j + 3 then V3.get (M.getD (r - i) 0) (c - j) else a r c) β := by
  have w : A.writeRows i j M = .ok _ := if_pos ⟨by rw [h.ar]; exact hi, by rw [h.ac]; exact hj⟩
  refine ⟨_, w, h.ar, h.ac, h.br, h.bc, fun r c => ?_, h.b⟩
  dsimp only
  split_ifs
  · rfl
  · exact h.a r c

theorem view_seg {A b : Buf} {n m : ℕ} {a : ℕ → ℕ → ℝ} {β : ℕ → ℝ} (h : View A b n m a β) (i : ℕ) (v : List ℝ)
    (hi : i + v.length ≤ n) :
    ∃ b', b.writeSeg i v = .ok b' ∧ View A b' n m a
      (fun r => if i ≤ r ∧ r < i + v.length then v.getD (r - i) 0 else β r) := by
  have w : b.writeSeg i v = .ok _ := if_pos ⟨by rw [h.br]; exact hi, by rw [h.bc]⟩
  refine ⟨_, w, h.ar, h.ac, h.br, h.bc, h.a, fun r => ?_⟩
  dsimp only
  by_cases hr : i ≤ r ∧ r < i + v.length
  · rw [if_pos hr, if_pos ⟨hr.1, hr.2, le_rfl, by norm_num⟩]
  · rw [if_neg hr, if_neg fun hc => hr ⟨hc.1, hc.2.1⟩]
    exact h.b r

theorem view_value {A b : Buf} {n m : ℕ} {a : ℕ → ℕ → ℝ} {β : ℕ → ℝ} (h : View A b n m a β) :
    ∃ A' b', A.value = .ok A' ∧ b.value = .ok b' ∧ A'.rows = n ∧ A'.cols = m ∧ b'.rows = n ∧ b'.cols = 1 ∧
      ∀ y, Sat A' b' y ↔ ∀ r < n, ∑ c ∈ Finset.range m, a r c * y c ≤ β r := by
  refine ⟨{ rows := A.rows, cols := A.cols, e := fun r c => (A.e r c).getD 0 },
    { rows := b.rows, cols := b.cols, e := fun r c => (b.e r c).getD 0 }, ?_, ?_, h.ar, h.ac, h.br, h.bc, fun y => ?_⟩
  · unfold Buf.value
    rw [if_pos]
    intro r _ c _
    rw [h.a]; rfl
  · unfold Buf.value
    rw [if_pos]
    intro r _ c hc
    rw [h.bc] at hc
    obtain rfl : c = 0 := by omega
    rw [h.b]; rfl
  · unfold Sat
    simp only [h.ar, h.ac, h.a, h.b, Option.getD_some]

/-- Dot product of a row of `a` starting in column `j` with a vector. -/
def seg3 (a : ℕ → ℝ) (j : ℕ) : V3 := fun k => a (j + k)

theorem sum_first (a : ℕ → ℝ) (y : ℕ → ℝ) : ∑ c ∈ Finset.range 3, a c * y c = seg3 a 0 ⬝ᵥ first3 y := by
  simp [Finset.sum_range_succ, seg3, first3, dotProduct, Fin.sum_univ_three]

theorem sum_both (a : ℕ → ℝ) (y : ℕ → ℝ) :
    ∑ c ∈ Finset.range 6, a c * y c = seg3 a 0 ⬝ᵥ first3 y + seg3 a 3 ⬝ᵥ last3 y := by
  simp [Finset.sum_range_succ, seg3, first3, last3, dotProduct, Fin.sum_univ_three]
  ring

theorem seg3_block (v : V3) (j : ℕ) (f : ℕ → ℝ) (h : ∀ c, j ≤ c → c < j + 3 → f c = V3.get v (c - j)) : seg3 f j = v := by
  funext k
  have hk := k.isLt
  rw [seg3, h _ (by omega) (by omega)]
  simp [V3.get]

/-- Contents of the rows written by `loop6d` for waypoint `w` (and `u`). -/
structure LoopRow (m : ℝ) (g : V3) (r : V3 × V3) (w : Wp6) (a : ℕ → ℝ) (β : ℝ) : Prop where
  fst : seg3 a 0 = m • rowMul r w
  rhs : β = m * rowDot r (g - w.head) (0 - w.tail)

structure LoopRowAng (m : ℝ) (g : V3) (r : V3 × V3) (w u : Wp6) (a : ℕ → ℝ) (β : ℝ) : Prop where
  fst : seg3 a 0 = m • rowMul r w
  snd : seg3 a 3 = rowMul r u
  rhs : β = m * rowDot r (g - w.head) (0 - w.tail) + rowDot r (-u.head) (-u.tail)

theorem loop6d_view (m : ℝ) (g : V3) (H : List (V3 × V3)) (wpL : List Wp6) (n : ℕ) :
    ∀ (ws : List Wp6) (i : ℕ) (A b : Buf) (a : ℕ → ℕ → ℝ) (β : ℕ → ℝ), View A b n 3 a β →
      (i + ws.length) * H.length ≤ n →
      ∃ q a' β', loop6d m g H false ws wpL i A b = .ok q ∧ View q.1 q.2 n 3 a' β' ∧
        (∀ r, r < i * H.length ∨ (i + ws.length) * H.length ≤ r → (∀ c, a' r c = a r c) ∧ β' r = β r) ∧
        ∀ k (hk : k < ws.length) j (hj : j < H.length),
          LoopRow m g H[j] ws[k] (a' ((i + k) * H.length + j)) (β' ((i + k) * H.length + j)) := by
  intro ws
  induction ws with
  | nil =>
    intro i A b a β h _
    exact ⟨(A, b), a, β, rfl, h, fun _ _ => ⟨fun _ => rfl, rfl⟩, fun k hk => absurd hk (by simp)⟩
  | cons w ws ih =>
    intro i A b a β h hle
    have e1 : (i + (w :: ws).length) * H.length = i * H.length + H.length + ws.length * H.length := by
      rw [List.length_cons]; ring
    have e2 : (i + 1 + ws.length) * H.length = i * H.length + H.length + ws.length * H.length := by ring
    have e3 : (i + 1) * H.length = i * H.length + H.length := by ring
    obtain ⟨A1, hA, hV1⟩ := view_rows h (i * H.length) 0 (H.map fun r => m • rowMul r w) (by rw [List.length_map]; nlinarith) le_rfl
    obtain ⟨b1, hb, hV2⟩ := view_seg hV1 (i * H.length) (H.map fun r => m * rowDot r (g - w.head) (0 - w.tail))
      (by rw [List.length_map]; nlinarith)
    obtain ⟨q, a', β', hq, hV, hout, hin⟩ := ih (i + 1) A1 b1 _ _ hV2 (by omega)
    refine ⟨q, a', β', ?_, hV, ?_, ?_⟩
    · unfold loop6d
      rw [hA, Out.ok_bind, hb, Out.ok_bind]
      exact hq
    · intro r hr
      obtain ⟨h1, h2⟩ := hout r (by rcases hr with hr | hr <;> omega)
      constructor
      · intro c
        rw [h1, if_neg]
        rw [List.length_map]
        rintro ⟨p1, p2, -⟩
        rcases hr with hr | hr
        · omega
        · have : 0 ≤ ws.length * H.length := Nat.zero_le _
          omega
      · rw [h2, if_neg]
        rw [List.length_map]
        rintro ⟨p1, p2⟩
        rcases hr with hr | hr
        · omega
        · have : 0 ≤ ws.length * H.length := Nat.zero_le _
          omega
    · intro k hk j hj
      rcases k with _ | k
      · obtain ⟨h1, h2⟩ := hout ((i + 0) * H.length + j) (by left; rw [e3]; simp; omega)
        constructor
        · apply seg3_block
          intro c _ hc
          rw [h1, if_pos ⟨by simp, by rw [List.length_map]; simp; omega, by omega, by omega⟩]
          simp [List.getD, hj]
        · rw [h2, if_pos ⟨by simp, by rw [List.length_map]; simp; omega⟩]
          simp [List.getD, hj]
      · have := hin k (by simpa using hk) j hj
        rw [show i + (k + 1) = i + 1 + k by ring]
        exact this

theorem loop6d_view_ang (m : ℝ) (g : V3) (H : List (V3 × V3)) (n : ℕ) :
    ∀ (ws us : List Wp6) (i : ℕ) (A b : Buf) (a : ℕ → ℕ → ℝ) (β : ℕ → ℝ), View A b n 6 a β →
      ws.length = us.length → (i + ws.length) * H.length ≤ n →
      ∃ q a' β', loop6d m g H true ws us i A b = .ok q ∧ View q.1 q.2 n 6 a' β' ∧
        (∀ r, r < i * H.length ∨ (i + ws.length) * H.length ≤ r → (∀ c, a' r c = a r c) ∧ β' r = β r) ∧
        ∀ k (hk : k < ws.length) (hk' : k < us.length) j (hj : j < H.length),
          LoopRowAng m g H[j] ws[k] us[k] (a' ((i + k) * H.length + j)) (β' ((i + k) * H.length + j)) := by
  intro ws
  induction ws with
  | nil =>
    intro us i A b a β h _ _
    exact ⟨(A, b), a, β, rfl, h, fun _ _ => ⟨fun _ => rfl, rfl⟩, fun k hk => absurd hk (by simp)⟩
  | cons w ws ih =>
    intro us i A b a β h hlen hle
    obtain _ | ⟨u, us⟩ := us
    · simp at hlen
    have e1 : (i + (w :: ws).length) * H.length = i * H.length + H.length + ws.length * H.length := by
      rw [List.length_cons]; ring
    have e2 : (i + 1 + ws.length) * H.length = i * H.length + H.length + ws.length * H.length := by ring
    have e3 : (i + 1) * H.length = i * H.length + H.length := by ring
    have hl : ∀ {γ : Type} (f : V3 × V3 → γ), i * H.length + (H.map f).length ≤ n := by
      intro γ f; rw [List.length_map]; nlinarith
    obtain ⟨A1, hA, hV1⟩ := view_rows h (i * H.length) 0 (H.map fun r => m • rowMul r w) (hl _) (by norm_num)
    obtain ⟨b1, hb, hV2⟩ := view_seg hV1 (i * H.length) (H.map fun r => m * rowDot r (g - w.head) (0 - w.tail)) (hl _)
    obtain ⟨A2, hA2, hV3⟩ := view_rows hV2 (i * H.length) 3 (H.map fun r => rowMul r u) (hl _) (by norm_num)
    obtain ⟨b2, hb2, hV4⟩ := view_seg hV3 (i * H.length)
      (H.map fun r => m * rowDot r (g - w.head) (0 - w.tail) + rowDot r (-u.head) (-u.tail)) (hl _)
    obtain ⟨q, a', β', hq, hV, hout, hin⟩ := ih us (i + 1) A2 b2 _ _ hV4 (by simpa using hlen) (by omega)
    refine ⟨q, a', β', ?_, hV, ?_, ?_⟩
    · unfold loop6d
      rw [hA, Out.ok_bind, hb, Out.ok_bind, if_pos rfl]
      dsimp only
      rw [hA2, Out.ok_bind, hb2, Out.ok_bind]
      exact hq
    · intro r hr
      obtain ⟨h1, h2⟩ := hout r (by rcases hr with hr | hr <;> omega)
      have hno : ¬ (i * H.length ≤ r ∧ r < i * H.length + H.length) := by
        rintro ⟨p1, p2⟩
        have : 0 ≤ ws.length * H.length := Nat.zero_le _
        rcases hr with hr | hr <;> omega
      simp only [List.length_map] at h1 h2
      constructor
      · intro c
        rw [h1, if_neg (fun hc => hno ⟨hc.1, hc.2.1⟩), if_neg (fun hc => hno ⟨hc.1, hc.2.1⟩)]
      · rw [h2, if_neg hno, if_neg hno]
    · intro k hk hk' j hj
      rcases k with _ | k
      · obtain ⟨h1, h2⟩ := hout ((i + 0) * H.length + j) (by left; rw [e3]; simp; omega)
        simp only [List.length_map, Nat.add_zero] at h1 h2
        constructor
        · apply seg3_block
          intro c _ hc
          simp only [Nat.add_zero]
          rw [h1, if_neg (by omega), if_pos ⟨by omega, by omega, by omega, by omega⟩]
          simp [List.getD, hj]
        · apply seg3_block
          intro c h3 hc
          simp only [Nat.add_zero]
          rw [h1, if_pos ⟨by omega, by omega, by omega, by omega⟩]
          simp [List.getD, hj]
        · simp only [Nat.add_zero]
          rw [h2, if_pos ⟨by omega, by omega⟩]
          simp [List.getD, hj]
      · have := hin k (by simpa using hk) (by simpa using hk') j hj
        rw [show i + (k + 1) = i + 1 + k by ring]
        exact this

end Verif
