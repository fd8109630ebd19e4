import Verif.Props.C36
import Verif.SpecLP

/-!
# C46, C47: loading a linear program
-/

namespace Verif

/-! ## What is loaded -/

open Classical in
/-- The triples of row `i` from column `j` on. -/
noncomputable def rowEntries (M : Mat) (i idrow : ℕ) : ℕ → ℕ → List (ℕ × ℕ × ℝ)
  | 0, _ => []
  | n + 1, j => if M.e i j ≠ 0 then (idrow, j + 1, M.e i j) :: rowEntries M i idrow n (j + 1) else rowEntries M i idrow n (j + 1)

/-- The triples of `n` rows from row `i` on. -/
noncomputable def blockEntries (M : Mat) (xsize : ℕ) : ℕ → ℕ → ℕ → List (ℕ × ℕ × ℝ)
  | 0, _, _ => []
  | n + 1, i, idrow => rowEntries M i idrow xsize 0 ++ blockEntries M xsize n (i + 1) (idrow + 1)

theorem loadCols_eq (M : Mat) (i idrow : ℕ) : ∀ (n j : ℕ) (acc : List (ℕ × ℕ × ℝ)), j + n ≤ M.cols → acc.length ≤ 20000 →
    loadCols M i idrow n j acc = if acc.length + (rowEntries M i idrow n j).length ≤ 20000 then
      .ok (acc ++ rowEntries M i idrow n j) else .ub := by
  intro n
  induction n with
  | zero => intro j acc _ ha; simp [loadCols, rowEntries, ha]
  | succ n ih =>
    intro j acc hj ha
    rw [loadCols, if_pos (by omega), rowEntries]
    by_cases h0 : M.e i j ≠ 0
    · rw [if_pos h0, if_pos h0, pushEntry]
      by_cases hl : acc.length + 1 < 1 + 20000
      · rw [if_pos hl, Out.ok_bind, ih (j + 1) _ (by omega) (by simp; omega)]
        simp only [List.length_append, List.length_cons, List.length_nil, List.append_assoc, List.cons_append, List.nil_append]
        exact if_congr (by omega) rfl rfl
      · rw [if_neg hl, if_neg (by simp only [List.length_cons]; omega)]
        rfl
    · rw [if_neg h0, if_neg h0, ih (j + 1) acc (by omega) ha]

theorem loadRows_eq (M v : Mat) (xsize : ℕ) (mk : ℝ → LPBnd) (hx : xsize ≤ M.cols) :
    ∀ (n i idrow : ℕ) (st : List LPBnd × List (ℕ × ℕ × ℝ)), i + n ≤ v.rows → st.2.length ≤ 20000 →
    loadRows M v xsize mk n i idrow st = if st.2.length + (blockEntries M xsize n i idrow).length ≤ 20000 then
      .ok (st.1 ++ (List.range' i n).map fun r => mk (v.e r 0), st.2 ++ blockEntries M xsize n i idrow) else .ub := by
  intro n
  induction n with
  | zero => intro i idrow st _ ha; simp [loadRows, blockEntries, ha]
  | succ n ih =>
    intro i idrow st hi ha
    rw [loadRows, if_pos (by omega), loadCols_eq M i idrow xsize 0 st.2 (by omega) ha, blockEntries]
    by_cases hl : st.2.length + (rowEntries M i idrow xsize 0).length ≤ 20000
    · rw [if_pos hl, Out.ok_bind, ih (i + 1) (idrow + 1) _ (by omega) (by simpa using hl)]
      simp only [List.length_append, List.append_assoc, List.range'_succ, List.map_cons, List.cons_append, List.nil_append, ← add_assoc]
    · rw [if_neg hl, if_neg (by simp only [List.length_append]; omega)]
      rfl

theorem loadBounds_eq (g0 : Mat) (miB maB : List ℝ) (N : ℕ) (h1 : N ≤ miB.length) (h2 : N ≤ maB.length) (h3 : N ≤ g0.rows) :
    ∀ (n i : ℕ) (st : List LPBnd × List ℝ), i + n = N →
    loadBounds g0 miB maB n i st = .ok (st.1 ++ (List.range' i n).map (fun c =>
      ⟨getType (miB.getD c 0) (maB.getD c 0), miB.getD c 0, maB.getD c 0⟩), st.2 ++ (List.range' i n).map fun c => g0.e c 0) := by
  intro n
  induction n with
  | zero => intro i st _; simp [loadBounds]
  | succ n ih =>
    intro i st hi
    have e1 : miB[i]? = some (miB.getD i 0) := by
      rw [List.getD_eq_getElem?_getD, List.getElem?_eq_getElem (by omega)]; rfl
    have e2 : maB[i]? = some (maB.getD i 0) := by
      rw [List.getD_eq_getElem?_getD, List.getElem?_eq_getElem (by omega)]; rfl
    rw [loadBounds, e1, e2]
    dsimp only
    rw [if_pos (by omega), ih (i + 1) _ (by omega)]
    simp [List.range'_succ]

/-! ## Meaning of the triples -/

theorem rowEntries_sum (M : Mat) (i idrow r : ℕ) (y : ℕ → ℝ) : ∀ n j,
    (((rowEntries M i idrow n j).filter fun e => e.1 = r).map fun e => e.2.2 * y e.2.1).sum =
      if idrow = r then ∑ c ∈ Finset.range n, M.e i (j + c) * y (j + c + 1) else 0 := by
  intro n
  induction n with
  | zero => intro j; simp [rowEntries]
  | succ n ih =>
    intro j
    rw [rowEntries]
    have hs : ∑ c ∈ Finset.range (n + 1), M.e i (j + c) * y (j + c + 1) =
        M.e i j * y (j + 1) + ∑ c ∈ Finset.range n, M.e i (j + 1 + c) * y (j + 1 + c + 1) := by
      rw [Finset.sum_range_succ', add_comm]
      congr 1
      exact Finset.sum_congr rfl fun c _ => by rw [show j + (c + 1) = j + 1 + c by ring]
    by_cases h0 : M.e i j ≠ 0
    · rw [if_pos h0, List.filter_cons]
      by_cases hr : idrow = r
      · have := ih (j + 1)
        rw [if_pos hr] at this ⊢
        rw [if_pos (by simpa using hr), List.map_cons, List.sum_cons, this, hs]
      · have := ih (j + 1)
        rw [if_neg hr] at this ⊢
        rw [if_neg (by simpa using hr), this]
    · rw [if_neg h0, ih (j + 1), hs]
      push Not at h0
      simp [h0]

theorem blockEntries_sum (M : Mat) (xsize r : ℕ) (y : ℕ → ℝ) : ∀ n i idrow,
    (((blockEntries M xsize n i idrow).filter fun e => e.1 = r).map fun e => e.2.2 * y e.2.1).sum =
      if idrow ≤ r ∧ r < idrow + n then ∑ c ∈ Finset.range xsize, M.e (i + (r - idrow)) c * y (c + 1) else 0 := by
  intro n
  induction n with
  | zero => intro i idrow; simp [blockEntries]
  | succ n ih =>
    intro i idrow
    rw [blockEntries, List.filter_append, List.map_append, List.sum_append, rowEntries_sum, ih (i + 1) (idrow + 1)]
    simp only [Nat.zero_add, Nat.add_eq, zero_add]
    by_cases h1 : idrow = r
    · rw [if_pos h1, if_neg (by omega), if_pos (by omega)]
      simp [h1]
    · rw [if_neg h1, zero_add]
      by_cases h2 : idrow + 1 ≤ r ∧ r < idrow + 1 + n
      · rw [if_pos h2, if_pos (by omega), show i + 1 + (r - (idrow + 1)) = i + (r - idrow) by omega]
      · rw [if_neg h2, if_neg (by omega)]

theorem mem_rowEntries (M : Mat) (i idrow : ℕ) (a b : ℕ) (v : ℝ) : ∀ n j,
    (a, b, v) ∈ rowEntries M i idrow n j ↔ a = idrow ∧ j < b ∧ b ≤ j + n ∧ v ≠ 0 ∧ v = M.e i (b - 1) := by
  intro n
  induction n with
  | zero => intro j; simp [rowEntries]; omega
  | succ n ih =>
    intro j
    have key : (a, b, v) = (idrow, j + 1, M.e i j) ↔ a = idrow ∧ b = j + 1 ∧ v = M.e i j := by simp [Prod.ext_iff]
    rw [rowEntries]
    split
    · rename_i h0
      rw [List.mem_cons, ih, key]
      constructor
      · rintro (⟨h1, h2, h3⟩ | ⟨h1, h2, h3, h4, h5⟩)
        · exact ⟨h1, by omega, by omega, by rw [h3]; exact h0, by rw [h3, h2]; rfl⟩
        · exact ⟨h1, by omega, by omega, h4, h5⟩
      · rintro ⟨h1, h2, h3, h4, h5⟩
        by_cases hb : b = j + 1
        · left; exact ⟨h1, hb, by rw [h5, hb]; rfl⟩
        · right; exact ⟨h1, by omega, by omega, h4, h5⟩
    · rename_i h0
      push Not at h0
      rw [ih]
      constructor
      · rintro ⟨h1, h2, h3, h4, h5⟩
        exact ⟨h1, by omega, by omega, h4, h5⟩
      · rintro ⟨h1, h2, h3, h4, h5⟩
        refine ⟨h1, ?_, by omega, h4, h5⟩
        by_contra hc
        have : b = j + 1 := by omega
        rw [this] at h5
        exact h4 (h5.trans h0)

theorem mem_blockEntries (M : Mat) (xsize : ℕ) (a b : ℕ) (v : ℝ) : ∀ n i idrow,
    (a, b, v) ∈ blockEntries M xsize n i idrow ↔
      idrow ≤ a ∧ a < idrow + n ∧ 1 ≤ b ∧ b ≤ xsize ∧ v ≠ 0 ∧ v = M.e (i + (a - idrow)) (b - 1) := by
  intro n
  induction n with
  | zero => intro i idrow; simp [blockEntries]; omega
  | succ n ih =>
    intro i idrow
    rw [blockEntries, List.mem_append, mem_rowEntries, ih]
    constructor
    · rintro (⟨h1, h2, h3, h4, h5⟩ | ⟨h1, h2, h3, h4, h5, h6⟩)
      · exact ⟨by omega, by omega, by omega, by omega, h4, by rw [h5, h1, Nat.sub_self, Nat.add_zero]⟩
      · exact ⟨by omega, by omega, h3, h4, h5, by rw [h6, show i + 1 + (a - (idrow + 1)) = i + (a - idrow) by omega]⟩
    · rintro ⟨h1, h2, h3, h4, h5, h6⟩
      by_cases ha : a = idrow
      · left
        exact ⟨ha, by omega, by omega, h5, by rw [h6, ha, Nat.sub_self, Nat.add_zero]⟩
      · right
        exact ⟨by omega, by omega, h3, h4, h5, by rw [h6, show i + 1 + (a - (idrow + 1)) = i + (a - idrow) by omega]⟩

theorem nodup_rowEntries (M : Mat) (i idrow : ℕ) : ∀ n j, ((rowEntries M i idrow n j).map fun e => (e.1, e.2.1)).Nodup := by
  intro n
  induction n with
  | zero => intro j; simp [rowEntries]
  | succ n ih =>
    intro j
    rw [rowEntries]
    split
    · rw [List.map_cons, List.nodup_cons]
      refine ⟨fun h => ?_, ih (j + 1)⟩
      obtain ⟨⟨a, b, v⟩, he, h2⟩ := List.mem_map.mp h
      have := (mem_rowEntries M i idrow a b v n (j + 1)).mp he
      simp only [Prod.mk.injEq] at h2
      omega
    · exact ih (j + 1)

theorem nodup_blockEntries (M : Mat) (xsize : ℕ) : ∀ n i idrow,
    ((blockEntries M xsize n i idrow).map fun e => (e.1, e.2.1)).Nodup := by
  intro n
  induction n with
  | zero => intro i idrow; simp [blockEntries]
  | succ n ih =>
    intro i idrow
    rw [blockEntries, List.map_append, List.nodup_append]
    refine ⟨nodup_rowEntries M i idrow xsize 0, ih _ _, ?_⟩
    intro p hp q hq hpq
    obtain ⟨⟨a, b, v⟩, he, h2⟩ := List.mem_map.mp hp
    obtain ⟨⟨a', b', v'⟩, he', h2'⟩ := List.mem_map.mp hq
    have h3 := (mem_rowEntries M i idrow a b v xsize 0).mp he
    have h4 := (mem_blockEntries M xsize a' b' v' n (i + 1) (idrow + 1)).mp he'
    have : (a, b) = (a', b') := h2.trans (hpq.trans h2'.symm)
    simp only [Prod.mk.injEq] at this
    omega

open Classical in
theorem rowEntries_length (M : Mat) (i idrow : ℕ) : ∀ n j,
    (rowEntries M i idrow n j).length = ∑ c ∈ Finset.range n, if M.e i (j + c) ≠ 0 then 1 else 0 := by
  intro n
  induction n with
  | zero => intro j; simp [rowEntries]
  | succ n ih =>
    intro j
    rw [rowEntries, Finset.sum_range_succ']
    have hs : ∑ c ∈ Finset.range n, (if M.e i (j + (c + 1)) ≠ 0 then 1 else 0) = (rowEntries M i idrow n (j + 1)).length := by
      rw [ih (j + 1)]
      exact Finset.sum_congr rfl fun c _ => by rw [show j + (c + 1) = j + 1 + c by ring]
    rw [hs, Nat.add_zero]
    by_cases h0 : M.e i j = 0 <;> simp [h0]

open Classical in
theorem blockEntries_length (M : Mat) (xsize : ℕ) : ∀ n i idrow, (blockEntries M xsize n i idrow).length =
    ∑ r ∈ Finset.range n, ∑ c ∈ Finset.range xsize, if M.e (i + r) c ≠ 0 then 1 else 0 := by
  intro n
  induction n with
  | zero => intro i idrow; simp [blockEntries]
  | succ n ih =>
    intro i idrow
    rw [blockEntries, Finset.sum_range_succ', List.length_append, ih, rowEntries_length]
    rw [add_comm]
    congr 1
    · exact Finset.sum_congr rfl fun r _ => by rw [show i + (r + 1) = i + 1 + r by ring]
    · simp only [Nat.add_zero, Nat.zero_add]

theorem blockEntries_nonzeros (M : Mat) (idrow : ℕ) : (blockEntries M M.cols M.rows 0 idrow).length = nonzeros M := by
  rw [blockEntries_length, nonzeros, Finset.card_filter, Finset.sum_product]
  simp only [Nat.zero_add]

/-! ## C47 -/

/-- C47. The bounds given to a column allow exactly the values between its lower and its upper bound, where a bound of
100000 or more in absolute value, on its own side, is no bound. -/
theorem C47_bounds (lo up v : ℝ) :
    (⟨getType lo up, lo, up⟩ : LPBnd).Admits v ↔ (-100000 < lo → lo ≤ v) ∧ (up < 100000 → v ≤ up) := by
  unfold getType
  by_cases h1 : lo > -100000 <;> by_cases h2 : up < 100000 <;> simp [h1, h2, LPBnd.Admits]

/-- C47. GLPK accepts the bounds unless both are bounds and the lower one is not less than the upper one. In particular it
refuses a variable with equal bounds, for which its type should have been `GLP_FX`. -/
theorem C47_valid (lo up : ℝ) :
    (⟨getType lo up, lo, up⟩ : LPBnd).Valid ↔ (-100000 < lo → up < 100000 → lo < up) := by
  unfold getType
  by_cases h1 : lo > -100000 <;> by_cases h2 : up < 100000 <;> simp [h1, h2, LPBnd.Valid]

/-- C47 is false as to what can be solved: there is a value between equal bounds, and GLPK refuses them. -/
theorem C47_refuted_equal (b : ℝ) (h1 : -100000 < b) (h2 : b < 100000) :
    (⟨getType b b, b, b⟩ : LPBnd).Admits b ∧ ¬ (⟨getType b b, b, b⟩ : LPBnd).Valid :=
  ⟨(C47_bounds b b b).mpr ⟨fun _ => le_rfl, fun _ => le_rfl⟩, fun h => lt_irrefl b ((C47_valid b b).mp h h1 h2)⟩

example : (⟨getType (-1) 200000, -1, 200000⟩ : LPBnd).Admits 300000 ∧ ¬ (⟨getType (-1) 200000, -1, 200000⟩ : LPBnd).Admits (-2) := by
  constructor
  · rw [C47_bounds]; norm_num
  · rw [C47_bounds]; norm_num

/-! ## C46 -/

/-- The arguments of `solveglpk` fit together: sizes as in `Fits`, at least a row and a variable, bounds absent or one per
variable. -/
structure FitsLP (g0 CE ce0 CI ci0 : Mat) (lo up : List ℝ) (xsize : ℕ) : Prop where
  ineq : ci0.rows = CI.rows ∧ CI.cols = xsize
  eqs : ce0.rows = CE.rows ∧ CE.cols = xsize
  obj : g0.rows = xsize
  lo : lo = [] ∨ lo.length = xsize
  up : up = [] ∨ up.length = xsize
  some_row : 0 < CE.rows + CI.rows
  some_var : 0 < xsize

theorem glpkProblem_eq {g0 CE ce0 CI ci0 : Mat} {lo up : List ℝ} {xsize : ℕ} (h : FitsLP g0 CE ce0 CI ci0 lo up xsize) :
    glpkProblem g0 CE ce0 CI ci0 lo up xsize = if nonzeros CI + nonzeros CE ≤ 20000 then .ok {
      rows := ((List.range' 0 CI.rows).map fun r => ⟨.UP, 0, ci0.e r 0⟩) ++ (List.range' 0 CE.rows).map fun r => ⟨.FX, ce0.e r 0, ce0.e r 0⟩,
      cols := (List.range' 0 xsize).map fun c =>
        let l := if lo.length > 0 then lo else List.replicate xsize (-100000)
        let u := if up.length > 0 then up else List.replicate xsize 100000
        ⟨getType (l.getD c 0) (u.getD c 0), l.getD c 0, u.getD c 0⟩,
      obj := (List.range' 0 xsize).map fun c => g0.e c 0,
      entries := blockEntries CI xsize CI.rows 0 1 ++ blockEntries CE xsize CE.rows 0 (CI.rows + 1) } else .ub := by
  obtain ⟨h1, h2, h3, h4, h5, h6, h7⟩ := h
  have n1 : (blockEntries CI xsize CI.rows 0 1).length = nonzeros CI := by
    rw [← h1.2]; exact blockEntries_nonzeros CI 1
  have n2 : (blockEntries CE xsize CE.rows 0 (CI.rows + 1)).length = nonzeros CE := by
    rw [← h2.2]; exact blockEntries_nonzeros CE _
  have l1 : ∀ (l : List ℝ) (a : ℝ), l = [] ∨ l.length = xsize →
      xsize ≤ (if l.length > 0 then l else List.replicate xsize a).length := by
    rintro l a (rfl | h)
    · simp
    · rw [if_pos (by omega)]; omega
  unfold glpkProblem
  rw [if_neg (by omega), loadRows_eq CI ci0 xsize _ (by omega) _ _ _ _ (by omega) (by simp)]
  simp only [List.length_nil, Nat.zero_add, n1, List.nil_append]
  by_cases c1 : nonzeros CI ≤ 20000
  · rw [if_pos c1, Out.ok_bind, loadRows_eq CE ce0 xsize _ (by omega) _ _ _ _ (by omega) (by rw [n1]; exact c1)]
    simp only [n1, n2]
    by_cases c2 : nonzeros CI + nonzeros CE ≤ 20000
    · rw [if_pos c2, if_pos c2, Out.ok_bind,
        loadBounds_eq g0 _ _ xsize (l1 lo _ h4) (l1 up _ h5) (by omega) xsize 0 _ (by omega), Out.ok_bind]
      rfl
    · rw [if_neg c2, if_neg c2]
      rfl
  · rw [if_neg c1, if_neg (show ¬ nonzeros CI + nonzeros CE ≤ 20000 by omega)]
    rfl

/-- C46, the arrays: `solveglpk` builds its problem exactly when `[A; D]` has at most 20000 coefficients that are not zero;
with more it writes past the end of its arrays. -/
theorem C46_in_bounds {g0 CE ce0 CI ci0 : Mat} {lo up : List ℝ} {xsize : ℕ} (h : FitsLP g0 CE ce0 CI ci0 lo up xsize) :
    ((∃ lp, glpkProblem g0 CE ce0 CI ci0 lo up xsize = .ok lp) ↔ nonzeros CI + nonzeros CE ≤ 20000) ∧
    (20000 < nonzeros CI + nonzeros CE → glpkProblem g0 CE ce0 CI ci0 lo up xsize = .ub) := by
  rw [glpkProblem_eq h]
  refine ⟨?_, fun hc => if_neg (by omega)⟩
  split
  · rename_i hc; exact ⟨fun _ => hc, fun _ => ⟨_, rfl⟩⟩
  · rename_i hc; exact ⟨fun ⟨lp, hl⟩ => (by cases hl), fun h' => absurd h' hc⟩

/-- C46, the coefficients: the loaded triples are exactly the coefficients of `[A; D]` that are not zero, each at its
position (numbered from 1, the rows of `A` before those of `D`), each position at most once; there is one objective
coefficient per variable, the one of `g`. -/
theorem C46_entries {g0 CE ce0 CI ci0 : Mat} {lo up : List ℝ} {xsize : ℕ} (h : FitsLP g0 CE ce0 CI ci0 lo up xsize)
    {lp : LP} (hl : glpkProblem g0 CE ce0 CI ci0 lo up xsize = .ok lp) :
    (∀ a b v, (a, b, v) ∈ lp.entries ↔ v ≠ 0 ∧ ∃ r c, b = c + 1 ∧ c < xsize ∧
      (r < CI.rows ∧ a = r + 1 ∧ v = CI.e r c ∨ r < CE.rows ∧ a = CI.rows + r + 1 ∧ v = CE.e r c)) ∧
    (lp.entries.map fun e => (e.1, e.2.1)).Nodup ∧
    lp.rows.length = CI.rows + CE.rows ∧ lp.cols.length = xsize ∧
    lp.obj.length = xsize ∧ ∀ c < xsize, lp.obj.getD c 0 = g0.e c 0 := by
  rw [glpkProblem_eq h] at hl
  split at hl
  · obtain rfl := Out.ok.inj hl
    refine ⟨?_, ?_, by simp, by simp, by simp, fun c hc => by simp [List.getD_eq_getElem?_getD, hc]⟩
    · intro a b v
      rw [List.mem_append, mem_blockEntries, mem_blockEntries]
      constructor
      · rintro (⟨h1, h2, h3, h4, h5, h6⟩ | ⟨h1, h2, h3, h4, h5, h6⟩)
        · exact ⟨h5, a - 1, b - 1, by omega, by omega, Or.inl ⟨by omega, by omega, by rw [h6, Nat.zero_add]⟩⟩
        · exact ⟨h5, a - (CI.rows + 1), b - 1, by omega, by omega, Or.inr ⟨by omega, by omega, by rw [h6, Nat.zero_add]⟩⟩
      · rintro ⟨h5, r, c, rfl, hc, ⟨h1, rfl, h2⟩ | ⟨h1, rfl, h2⟩⟩
        · left
          exact ⟨by omega, by omega, by omega, by omega, h5, by rw [h2]; simp⟩
        · right
          exact ⟨by omega, by omega, by omega, by omega, h5, by
            rw [h2, show 0 + (CI.rows + r + 1 - (CI.rows + 1)) = r by omega]; simp⟩
    · rw [List.map_append, List.nodup_append]
      refine ⟨nodup_blockEntries _ _ _ _ _, nodup_blockEntries _ _ _ _ _, ?_⟩
      intro p hp q hq hpq
      obtain ⟨⟨a, b, v⟩, he, h2⟩ := List.mem_map.mp hp
      obtain ⟨⟨a', b', v'⟩, he', h2'⟩ := List.mem_map.mp hq
      have h3 := (mem_blockEntries _ _ _ _ _ _ _ _).mp he
      have h4 := (mem_blockEntries _ _ _ _ _ _ _ _).mp he'
      have : (a, b) = (a', b') := h2.trans (hpq.trans h2'.symm)
      simp only [Prod.mk.injEq] at this
      omega
  · cases hl

/-- C46, the meaning: a point is feasible for the problem GLPK is given exactly when `A y ≤ b`, `D y = d` and `y` is
between the bounds (none when the vector is empty); its objective is `gᵀ y`. -/
theorem C46_problem {g0 CE ce0 CI ci0 : Mat} {lo up : List ℝ} {xsize : ℕ} (h : FitsLP g0 CE ce0 CI ci0 lo up xsize)
    {lp : LP} (hl : glpkProblem g0 CE ce0 CI ci0 lo up xsize = .ok lp) (y : ℕ → ℝ) :
    (lp.Feasible y ↔ Sat CI ci0 (fun c => y (c + 1)) ∧ EqSat CE ce0 (fun c => y (c + 1)) ∧ InBox lo up fun c => y (c + 1)) ∧
    lp.value y = ∑ c ∈ Finset.range xsize, g0.e c 0 * y (c + 1) := by
  obtain ⟨-, -, -, -, ho1, ho2⟩ := C46_entries h hl
  refine ⟨?_, by
    rw [LP.value, ho1]
    exact Finset.sum_congr rfl fun c hc => by rw [ho2 c (Finset.mem_range.mp hc)]⟩
  have hrv : ∀ r, lp.rowVal (r + 1) y = (if r < CI.rows then ∑ c ∈ Finset.range xsize, CI.e r c * y (c + 1) else 0) +
      if CI.rows ≤ r ∧ r < CI.rows + CE.rows then ∑ c ∈ Finset.range xsize, CE.e (r - CI.rows) c * y (c + 1) else 0 := by
    rw [glpkProblem_eq h] at hl
    split at hl
    · obtain rfl := Out.ok.inj hl
      intro r
      rw [LP.rowVal, List.filter_append, List.map_append, List.sum_append, blockEntries_sum, blockEntries_sum]
      simp only [Nat.zero_add]
      congr 1
      · exact if_congr (by omega) (by rw [Nat.add_sub_cancel]) rfl
      · exact if_congr (by omega) (by rw [show r + 1 - (CI.rows + 1) = r - CI.rows by omega]) rfl
    · cases hl
  have hrows : ∀ r b, lp.rows[r]? = some b ↔ (r < CI.rows ∧ b = ⟨.UP, 0, ci0.e r 0⟩) ∨
      (CI.rows ≤ r ∧ r < CI.rows + CE.rows ∧ b = ⟨.FX, ce0.e (r - CI.rows) 0, ce0.e (r - CI.rows) 0⟩) := by
    rw [glpkProblem_eq h] at hl
    split at hl
    · obtain rfl := Out.ok.inj hl
      intro r b
      dsimp only
      by_cases hr : r < CI.rows
      · rw [List.getElem?_append_left (by simpa using hr)]
        simp only [List.getElem?_map, List.getElem?_range' (i := r) hr, Option.map_some, Option.some.injEq, hr, true_and, Nat.zero_add, Nat.one_mul]
        constructor
        · intro e; exact Or.inl e.symm
        · rintro (e | ⟨e, -⟩)
          · exact e.symm
          · omega
      · rw [List.getElem?_append_right (by simpa using hr)]
        simp only [List.length_map, List.length_range', hr, false_and, false_or]
        by_cases h2 : r - CI.rows < CE.rows
        · simp only [List.getElem?_map, List.getElem?_range' (i := r - CI.rows) h2, Option.map_some, Option.some.injEq, Nat.zero_add, Nat.one_mul]
          constructor
          · intro e; exact ⟨by omega, by omega, e.symm⟩
          · rintro ⟨-, -, e⟩; exact e.symm
        · rw [List.getElem?_eq_none (by simpa using by omega)]
          constructor
          · intro e; cases e
          · rintro ⟨h3, h4, -⟩; omega
    · cases hl
  have hcols : (∀ c (b : LPBnd), lp.cols[c]? = some b → b.Admits (y (c + 1))) ↔ InBox lo up fun c => y (c + 1) := by
    rw [glpkProblem_eq h] at hl
    split at hl
    · obtain rfl := Out.ok.inj hl
      dsimp only
      have hc : ∀ c b, (List.map (fun c => ({ type := getType ((if lo.length > 0 then lo else List.replicate xsize (-100000)).getD c 0) ((if up.length > 0 then up else List.replicate xsize 100000).getD c 0), lb := (if lo.length > 0 then lo else List.replicate xsize (-100000)).getD c 0, ub := (if up.length > 0 then up else List.replicate xsize 100000).getD c 0 } : LPBnd)) (List.range' 0 xsize))[c]? = some b ↔
          c < xsize ∧ b = ({ type := getType ((if lo.length > 0 then lo else List.replicate xsize (-100000)).getD c 0) ((if up.length > 0 then up else List.replicate xsize 100000).getD c 0), lb := (if lo.length > 0 then lo else List.replicate xsize (-100000)).getD c 0, ub := (if up.length > 0 then up else List.replicate xsize 100000).getD c 0 } : LPBnd) := by
        intro c b
        by_cases hx : c < xsize
        · simp only [List.getElem?_map, List.getElem?_range' (i := c) hx, Option.map_some, Option.some.injEq, Nat.zero_add, Nat.one_mul, hx, true_and]
          exact eq_comm
        · rw [List.getElem?_eq_none (by simpa using by omega)]
          simp [hx]
      have hlo : ∀ c < xsize, ∀ v : ℝ, (-100000 < (if lo.length > 0 then lo else List.replicate xsize (-100000)).getD c 0 →
          (if lo.length > 0 then lo else List.replicate xsize (-100000)).getD c 0 ≤ v) ↔ ∀ b, lo[c]? = some b → -100000 < b → b ≤ v := by
        intro c hx v
        rcases h.lo with e | e
        · simp [e, List.getD_eq_getElem?_getD, hx]
        · rw [if_pos (by omega)]
          simp [List.getD_eq_getElem?_getD, e, hx]
      have hup : ∀ c < xsize, ∀ v : ℝ, ((if up.length > 0 then up else List.replicate xsize 100000).getD c 0 < 100000 →
          v ≤ (if up.length > 0 then up else List.replicate xsize 100000).getD c 0) ↔ ∀ b, up[c]? = some b → b < 100000 → v ≤ b := by
        intro c hx v
        rcases h.up with e | e
        · simp [e, List.getD_eq_getElem?_getD, hx]
        · rw [if_pos (by omega)]
          simp [List.getD_eq_getElem?_getD, e, hx]
      have hrng : ∀ (l : List ℝ), l = [] ∨ l.length = xsize → ∀ c b, l[c]? = some b → c < xsize := by
        rintro l (rfl | e) c b hb
        · simp at hb
        · have := (List.getElem?_eq_some_iff.mp hb).1; omega
      constructor
      · intro H
        constructor
        · intro c b hb
          have hx := hrng lo h.lo c b hb
          exact (hlo c hx _).mp ((C47_bounds _ _ _).mp (H c _ ((hc c _).mpr ⟨hx, rfl⟩))).1 b hb
        · intro c b hb
          have hx := hrng up h.up c b hb
          exact (hup c hx _).mp ((C47_bounds _ _ _).mp (H c _ ((hc c _).mpr ⟨hx, rfl⟩))).2 b hb
      · rintro ⟨H1, H2⟩ c b hb
        obtain ⟨hx, rfl⟩ := (hc c b).mp hb
        exact (C47_bounds _ _ _).mpr ⟨(hlo c hx _).mpr fun b hb => H1 c b hb, (hup c hx _).mpr fun b hb => H2 c b hb⟩
    · cases hl
  unfold LP.Feasible
  rw [hcols, ← and_assoc]
  refine and_congr_left fun _ => ?_
  unfold Sat EqSat
  rw [h.ineq.2, h.eqs.2]
  constructor
  · intro H
    constructor
    · intro r hr
      have := H r _ ((hrows r _).mpr (Or.inl ⟨hr, rfl⟩))
      rw [hrv, if_pos hr, if_neg (by omega), add_zero] at this
      exact this
    · intro r hr
      have := H (CI.rows + r) _ ((hrows _ _).mpr (Or.inr ⟨by omega, by omega, rfl⟩))
      rw [hrv, if_neg (by omega), if_pos (by omega), zero_add, Nat.add_sub_cancel_left] at this
      exact this
  · rintro ⟨H1, H2⟩ r b hb
    rcases (hrows r b).mp hb with ⟨hr, rfl⟩ | ⟨h1, h2, rfl⟩
    · rw [hrv, if_pos hr, if_neg (by omega), add_zero]
      exact H1 r hr
    · rw [hrv, if_neg (by omega), if_pos (by omega), zero_add]
      exact H2 (r - CI.rows) (by omega)

/-- C46 is false as to the buffers: 20001 rows in one variable overrun them. -/
theorem C46_refuted : ∃ g0 CE ce0 CI ci0 : Mat, FitsLP g0 CE ce0 CI ci0 [] [] 1 ∧ glpkProblem g0 CE ce0 CI ci0 [] [] 1 = .ub := by
  have h : FitsLP ⟨1, 1, fun _ _ => 0⟩ ⟨0, 1, fun _ _ => 0⟩ ⟨0, 1, fun _ _ => 0⟩ ⟨20001, 1, fun _ _ => 1⟩ ⟨20001, 1, fun _ _ => 1⟩ [] [] 1 :=
    ⟨⟨rfl, rfl⟩, ⟨rfl, rfl⟩, rfl, Or.inl rfl, Or.inl rfl, by norm_num, by norm_num⟩
  refine ⟨_, _, _, _, _, h, (C46_in_bounds h).2 ?_⟩
  simp [nonzeros]

end Verif
