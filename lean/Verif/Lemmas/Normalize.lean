import Verif.Model.Rows
import Mathlib.Data.List.Perm.Basic
import Mathlib.Algebra.BigOperators.Field
import Mathlib.Tactic.Positivity

/-!
# Lemmas on `removeZeroRows` and `Normalize`
-/

namespace Verif
open Matrix

theorem swapAt_perm {α : Type} (l : List α) (i j : ℕ) : (swapAt l i j).Perm l := by
  unfold swapAt
  split
  · rename_i x y hx hy
    obtain ⟨hi, rfl⟩ := List.getElem?_eq_some_iff.mp hx
    obtain ⟨hj, rfl⟩ := List.getElem?_eq_some_iff.mp hy
    exact List.set_set_perm hi hj
  · exact List.Perm.refl _

theorem swapAt_length {α : Type} (l : List α) (i j : ℕ) : (swapAt l i j).length = l.length :=
  (swapAt_perm l i j).length_eq

theorem swapAt_get {α : Type} (l : List α) (i j k : ℕ) (hi : i < l.length) (hj : j < l.length) :
    (swapAt l i j)[k]? = if k = j then l[i]? else if k = i then l[j]? else l[k]? := by
  have h1 : l[i]? = some l[i] := by simp [hi]
  have h2 : l[j]? = some l[j] := by simp [hj]
  unfold swapAt
  rw [h1, h2]
  simp only [List.getElem?_set, List.length_set]
  by_cases hk : k = j
  · subst hk; simp [hj]
  · by_cases hk' : k = i
    · subst hk'; simp [hi, hk, Ne.symm hk]
    · simp [hk, hk', Ne.symm hk, Ne.symm hk']

/-- Rows in `[0,i)` are not empty, rows from `m` on are empty with a nonnegative bound. -/
structure RzInv {n : ℕ} (l : List (ZRow n)) (i m : ℕ) : Prop where
  im : i ≤ m
  ml : m ≤ l.length
  lo : ∀ k r, k < i → l[k]? = some r → r.empty = false
  hi : ∀ k r, m ≤ k → l[k]? = some r → r.empty = true ∧ 0 ≤ r.b

theorem rzLoop_spec {n : ℕ} (fuel : ℕ) : ∀ (l : List (ZRow n)) (i m : ℕ), RzInv l i m →
    m - i ≤ fuel →
    (rzLoop fuel l i m).1.Perm l ∧
    ((∃ k, (rzLoop fuel l i m).2 = some k ∧ RzInv (rzLoop fuel l i m).1 k k) ∨
     ((rzLoop fuel l i m).2 = none ∧ ∃ r ∈ l, r.empty = true ∧ r.b < 0)) := by
  induction fuel with
  | zero =>
    intro l i m inv hf
    have : i = m := by have := inv.im; omega
    subst this
    exact ⟨List.Perm.refl _, Or.inl ⟨i, rfl, inv⟩⟩
  | succ fuel ih =>
    intro l i m inv hf
    rw [rzLoop]
    by_cases him : i < m
    · rw [if_pos him]
      have hil : i < l.length := lt_of_lt_of_le him inv.ml
      have hg : l[i]? = some l[i] := by simp [hil]
      rw [hg]
      dsimp only
      by_cases he : l[i].empty = true
      · rw [if_pos he]
        by_cases hb : l[i].b < 0
        · rw [if_pos hb]
          exact ⟨List.Perm.refl _, Or.inr ⟨rfl, l[i], List.getElem_mem hil, he, hb⟩⟩
        · rw [if_neg hb]
          have hm1 : m - 1 < l.length := by have := inv.ml; omega
          have inv' : RzInv (swapAt l i (m - 1)) i (m - 1) := by
            refine ⟨by omega, by rw [swapAt_length]; omega, ?_, ?_⟩
            · intro k r hk hr
              rw [swapAt_get _ _ _ _ hil hm1, if_neg (by omega), if_neg (by omega)] at hr
              exact inv.lo k r hk hr
            · intro k r hk hr
              rw [swapAt_get _ _ _ _ hil hm1] at hr
              by_cases hk' : k = m - 1
              · rw [if_pos hk', hg] at hr
                have := Option.some.inj hr
                rw [← this]
                exact ⟨he, not_lt.mp hb⟩
              · rw [if_neg hk', if_neg (by omega)] at hr
                exact inv.hi k r (by omega) hr
          obtain ⟨h1, h2⟩ := ih _ _ _ inv' (by omega)
          refine ⟨h1.trans (swapAt_perm _ _ _), ?_⟩
          rcases h2 with h2 | ⟨h2, r, hr, hr2⟩
          · exact Or.inl h2
          · exact Or.inr ⟨h2, r, (swapAt_perm l i (m - 1)).mem_iff.mp hr, hr2⟩
      · rw [if_neg he]
        refine ih _ _ _ ⟨him, inv.ml, ?_, inv.hi⟩ (by omega)
        intro k r hk hr
        by_cases hki : k = i
        · subst hki
          rw [hg] at hr
          have := Option.some.inj hr
          rw [← this]
          simpa using he
        · exact inv.lo k r (by omega) hr
    · rw [if_neg him]
      have : i = m := by have := inv.im; omega
      subst this
      exact ⟨List.Perm.refl _, Or.inl ⟨i, rfl, inv⟩⟩

theorem removeZeroRows_spec {n : ℕ} (rows : List ((Fin n → ℝ) × ℝ)) :
    (removeZeroRows rows).1.Perm rows ∧
    ((∃ k, (removeZeroRows rows).2 = some k ∧ k ≤ rows.length ∧
        (∀ r ∈ (removeZeroRows rows).1.take k, r.1 ≠ 0) ∧
        (∀ r ∈ (removeZeroRows rows).1.drop k, r.1 = 0 ∧ 0 ≤ r.2)) ∨
     ((removeZeroRows rows).2 = none ∧ ∃ r ∈ rows, r.1 = 0 ∧ r.2 < 0)) := by
  classical
  set l := rows.map zrow with hl
  have hempty : ∀ r ∈ l, r.empty = true ↔ r.a = 0 := by
    intro r hr
    rw [hl, List.mem_map] at hr
    obtain ⟨q, -, rfl⟩ := hr
    simp [zrow, funext_iff]
  have hinit : RzInv l 0 l.length := by
    refine ⟨Nat.zero_le _, le_rfl, fun k r hk => absurd hk (Nat.not_lt_zero _), ?_⟩
    intro k r hk hr
    rw [List.getElem?_eq_none hk] at hr
    cases hr
  obtain ⟨hp, hcase⟩ := rzLoop_spec l.length l 0 l.length hinit (by omega)
  have hmap : l.map (fun r => (r.a, r.b)) = rows := by
    rw [hl, List.map_map]
    conv_rhs => rw [← List.map_id rows]
    apply List.map_congr_left
    intro a _
    rfl
  have hdef : removeZeroRows rows
      = ((rzLoop l.length l 0 l.length).1.map fun r => (r.a, r.b), (rzLoop l.length l 0 l.length).2) :=
    rfl
  rw [hdef]
  refine ⟨?_, ?_⟩
  · have := hp.map (fun r : ZRow n => (r.a, r.b))
    rwa [hmap] at this
  · rcases hcase with ⟨k, hk, inv⟩ | ⟨hn, r, hr, he, hb⟩
    · left
      refine ⟨k, hk, ?_, ?_, ?_⟩
      · have := inv.ml
        rw [hp.length_eq, hl, List.length_map] at this
        exact this
      · intro r hr
        rw [← List.map_take, List.mem_map] at hr
        obtain ⟨q, hq, rfl⟩ := hr
        have hmem : q ∈ l := hp.mem_iff.mp (List.mem_of_mem_take hq)
        obtain ⟨j, hj, rfl⟩ := List.mem_take_iff_getElem.mp hq
        have := inv.lo j _ (by omega) (List.getElem?_eq_getElem (by omega))
        intro h0
        rw [(hempty _ hmem).mpr h0] at this
        cases this
      · intro r hr
        rw [← List.map_drop, List.mem_map] at hr
        obtain ⟨q, hq, rfl⟩ := hr
        have hmem : q ∈ l := hp.mem_iff.mp (List.mem_of_mem_drop hq)
        obtain ⟨j, hj, rfl⟩ := List.mem_drop_iff_getElem.mp hq
        have := inv.hi (k + j) _ (by omega) (List.getElem?_eq_getElem (by omega))
        exact ⟨(hempty _ hmem).mp this.1, this.2⟩
    · right
      refine ⟨hn, (r.a, r.b), ?_, (hempty r hr).mp he, hb⟩
      have : (r.a, r.b) ∈ l.map (fun r => (r.a, r.b)) := List.mem_map_of_mem hr
      rwa [hmap] at this

theorem eNorm_pos {n : ℕ} {a : Fin n → ℝ} (h : a ≠ 0) : 0 < eNorm a := by
  unfold eNorm
  rw [Real.sqrt_pos]
  have h0 : 0 ≤ a ⬝ᵥ a := by
    rw [dotProduct]; exact Finset.sum_nonneg fun i _ => mul_self_nonneg _
  rcases h0.lt_or_eq with h1 | h1
  · exact h1
  · exfalso
    apply h
    funext i
    have : ∑ i, a i * a i = 0 := h1.symm
    rw [Finset.sum_eq_zero_iff_of_nonneg (fun i _ => mul_self_nonneg _)] at this
    exact mul_self_eq_zero.mp (this i (Finset.mem_univ i))

theorem eNorm_normalized {n : ℕ} {a : Fin n → ℝ} (h : a ≠ 0) :
    eNorm (fun j => a j / eNorm a) = 1 := by
  have hp := eNorm_pos h
  have h2 : eNorm a * eNorm a = a ⬝ᵥ a := by
    unfold eNorm
    apply Real.mul_self_sqrt
    rw [dotProduct]; exact Finset.sum_nonneg fun i _ => mul_self_nonneg _
  have : (fun j => a j / eNorm a) ⬝ᵥ (fun j => a j / eNorm a) = 1 := by
    rw [dotProduct]
    have : ∀ i, a i / eNorm a * (a i / eNorm a) = a i * a i / (eNorm a * eNorm a) := by
      intro i; field_simp
    simp only [this]
    rw [← Finset.sum_div]
    change a ⬝ᵥ a / (eNorm a * eNorm a) = 1
    rw [← h2]
    exact div_self (by positivity)
  rw [eNorm, this, Real.sqrt_one]

theorem row_div_le {n : ℕ} (a x : Fin n → ℝ) (b s : ℝ) (hs : 0 < s) :
    (fun j => a j / s) ⬝ᵥ x ≤ b / s ↔ a ⬝ᵥ x ≤ b := by
  have : (fun j => a j / s) ⬝ᵥ x = (a ⬝ᵥ x) / s := by
    rw [dotProduct, dotProduct, Finset.sum_div]
    apply Finset.sum_congr rfl
    intro i _
    ring
  rw [this, div_le_div_iff_of_pos_right hs]

end Verif
