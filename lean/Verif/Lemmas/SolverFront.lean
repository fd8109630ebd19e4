import Verif.Model.Solver
import Verif.SpecConstraints
import Verif.SpecQP
import Mathlib.Algebra.Order.BigOperators.Group.List

/-!
# Lemmas on the solver front end
-/

namespace Verif
open Matrix

/-- What `addConstraintMinBoundQuadProg` builds from a nonempty vector of bounds. -/
theorem minBound_ok (m : List ℝ) (A b : Mat) (hm : m.length = A.cols) (hm0 : m ≠ []) (hb : b.rows = A.rows)
    (hb1 : b.cols = 1) :
    ∃ A' b', addConstraintMinBoundQuadProg m A b = .ok (A', b') ∧ A'.rows = A.rows + A.cols ∧ A'.cols = A.cols ∧
      b'.rows = A.rows + A.cols ∧
      (∀ r < A.rows, (∀ c < A.cols, A'.e r c = A.e r c) ∧ b'.e r 0 = b.e r 0) ∧
      (∀ k < A.cols, (∀ c < A.cols, A'.e (A.rows + k) c = if k = c then -1 else 0) ∧
        b'.e (A.rows + k) 0 = -(m.getD k 0)) := by
  have h0 : ¬ m.length = 0 := by simpa using hm0
  unfold addConstraintMinBoundQuadProg
  rw [if_neg h0]
  have w1 : (Buf.uninit (A.rows + A.cols) A.cols).write 0 0 A.rows A.cols A.e = .ok _ :=
    if_pos ⟨by simp [Buf.uninit], by simp [Buf.uninit]⟩
  rw [w1, Out.ok_bind]
  have w2 : (Buf.uninit (b.rows + A.cols) 1).write 0 0 b.rows 1 b.e = .ok _ :=
    if_pos ⟨by simp [Buf.uninit], by simp [Buf.uninit]⟩
  rw [w2]
  simp only [if_pos hm, Buf.write, Buf.uninit, le_refl, zero_add, and_self, if_true, Out.ok_bind, add_le_add_iff_right]
  unfold Buf.value
  rw [if_pos, Out.ok_bind, if_pos, Out.ok_bind]
  · refine ⟨_, _, rfl, rfl, rfl, by simp [hb], ?_, ?_⟩
    · intro r hr
      constructor
      · intro c hc
        simp only
        rw [if_neg (by omega), if_pos (by omega)]
        rfl
      · simp only
        rw [if_neg (by omega), if_pos (by omega)]
        rfl
    · intro k hk
      constructor
      · intro c hc
        simp only
        rw [if_pos (by omega)]
        simp
      · simp only
        rw [if_pos (by omega)]
        simp [hb]
  · intro r hr c hc
    simp only at hr hc ⊢
    by_cases h : b.rows ≤ r
    · rw [if_pos (by omega)]; rfl
    · rw [if_neg (by omega), if_pos (by omega)]; rfl
  · intro r hr c hc
    simp only at hr hc ⊢
    by_cases h : A.rows ≤ r
    · rw [if_pos (by omega)]; rfl
    · rw [if_neg (by omega), if_pos (by omega)]; rfl

theorem dot_range {n : ℕ} (v y : ℕ → ℝ) :
    (fun i : Fin n => v i) ⬝ᵥ (fun i : Fin n => y i) = ∑ c ∈ Finset.range n, v c * y c := by
  rw [dotProduct, Finset.sum_range]

/-- The inequalities of the problem given to the QP solver. -/
theorem qpOf_ineq (n : ℕ) (Hess g CE ce0 A b : Mat) (hA : A.cols = n) (y : ℕ → ℝ) :
    (∀ e ∈ (qpOf n Hess g CE ce0 A.neg b).CI, 0 ≤ e.1 ⬝ᵥ (fun i : Fin n => y i) + e.2) ↔ Sat A b y := by
  unfold Sat
  simp only [qpOf, List.mem_map, List.mem_range, forall_exists_index, and_imp, forall_apply_eq_imp_iff₂]
  refine forall₂_congr fun r _ => ?_
  unfold Mat.rowN
  rw [dot_range (fun j => A.neg.e r j) y, hA]
  simp only [Mat.neg, neg_mul, Finset.sum_neg_distrib]
  constructor <;> intro h <;> linarith

/-- The equalities of the problem given to the QP solver. -/
theorem qpOf_eq (n : ℕ) (Hess g D d A b : Mat) (hD : D.cols = n) (y : ℕ → ℝ) :
    EqHolds (qpOf n Hess g D d.neg A b) (fun i : Fin n => y i) ↔ EqSat D d y := by
  unfold EqSat EqHolds
  simp only [qpOf, List.mem_map, List.mem_range, forall_exists_index, and_imp, forall_apply_eq_imp_iff₂]
  refine forall₂_congr fun r _ => ?_
  unfold Mat.rowN
  rw [dot_range (fun j => D.e r j) y, hD]
  simp only [Mat.neg]
  constructor <;> intro h <;> linarith

theorem sum_single {n k : ℕ} (hk : k < n) (a : ℕ → ℝ) (y : ℕ → ℝ) (s : ℝ)
    (ha : ∀ c < n, a c = if k = c then s else 0) : ∑ c ∈ Finset.range n, a c * y c = s * y k := by
  rw [Finset.sum_eq_single k]
  · rw [ha k hk, if_pos rfl]
  · intro c hc hne
    rw [ha c (Finset.mem_range.mp hc), if_neg hne.symm, zero_mul]
  · intro h; exact absurd (Finset.mem_range.mpr hk) h

/-- Adding lower bounds adds exactly them. -/
theorem minBound_satTol (m : List ℝ) (A b : Mat) (hm : m = [] ∨ m.length = A.cols) (hb : b.rows = A.rows)
    (hb1 : b.cols = 1) :
    ∃ A' b', addConstraintMinBoundQuadProg m A b = .ok (A', b') ∧ A'.cols = A.cols ∧ b'.rows = A'.rows ∧
      A'.rows = A.rows + m.length ∧
      (∀ r < A'.rows, (r < A.rows ∧ ∀ c < A.cols, A'.e r c = A.e r c) ∨
        m ≠ [] ∧ ∃ k < A.cols, ∀ c < A.cols, A'.e r c = if k = c then -1 else 0) ∧
      ∀ δ y, SatTol A' b' δ y ↔ SatTol A b δ y ∧ AboveBoundsTol m δ y := by
  rcases eq_or_ne m [] with rfl | hne
  · exact ⟨A, b, by simp [addConstraintMinBoundQuadProg], rfl, hb, by simp,
      fun r hr => Or.inl ⟨hr, fun _ _ => rfl⟩, fun δ y => by simp [AboveBoundsTol]⟩
  · have hm := hm.resolve_left hne
    obtain ⟨A', b', h1, h2, h3, h4, h5, h6⟩ := minBound_ok m A b hm hne hb hb1
    refine ⟨A', b', h1, h3, by omega, by omega, fun r hr => ?_, fun δ y => ?_⟩
    · rcases lt_or_ge r A.rows with hlt | hge
      · exact Or.inl ⟨hlt, (h5 r hlt).1⟩
      · obtain ⟨k, rfl⟩ := Nat.exists_eq_add_of_le hge
        exact Or.inr ⟨hne, k, by omega, (h6 k (by omega)).1⟩
    have key : ∀ k < A.cols, ∑ c ∈ Finset.range A'.cols, A'.e (A.rows + k) c * y c = -y k := by
      intro k hk
      rw [h3, sum_single hk _ y (-1) (fun c hc => (h6 k hk).1 c hc)]
      ring
    have key2 : ∀ r < A.rows, ∑ c ∈ Finset.range A'.cols, A'.e r c * y c = ∑ c ∈ Finset.range A.cols, A.e r c * y c := by
      intro r hr
      rw [h3]
      refine Finset.sum_congr rfl fun c hc => ?_
      rw [(h5 r hr).1 c (Finset.mem_range.mp hc)]
    unfold SatTol AboveBoundsTol
    constructor
    · intro h
      constructor
      · intro r hr
        have := h r (by omega)
        rwa [key2 r hr, (h5 r hr).2] at this
      · intro k v hv
        obtain ⟨hk, rfl⟩ := List.getElem?_eq_some_iff.mp hv
        have := h (A.rows + k) (by omega)
        rw [key k (by omega), (h6 k (by omega)).2, List.getD_eq_getElem?_getD, List.getElem?_eq_getElem hk,
          Option.getD_some] at this
        linarith
    · rintro ⟨ha, hbd⟩ r hr
      rcases lt_or_ge r A.rows with hlt | hge
      · rw [key2 r hlt, (h5 r hlt).2]
        exact ha r hlt
      · obtain ⟨k, rfl⟩ := Nat.exists_eq_add_of_le hge
        have hk : k < m.length := by omega
        rw [key k (by omega), (h6 k (by omega)).2, List.getD_eq_getElem?_getD, List.getElem?_eq_getElem hk,
          Option.getD_some]
        have := hbd k _ (List.getElem?_eq_getElem hk)
        linarith

theorem satTol_zero (A b : Mat) (y : ℕ → ℝ) : SatTol A b 0 y ↔ Sat A b y := by simp [SatTol, Sat]

theorem aboveTol_zero (m : List ℝ) (y : ℕ → ℝ) : AboveBoundsTol m 0 y ↔ AboveBounds m y := by
  simp [AboveBoundsTol, AboveBounds]

/-- Each inequality is violated by no more than the sum of the violations. -/
theorem le_of_violation {n : ℕ} {P : QP n} {x : VecN n} {δ : ℝ} (h : violation P x ≤ δ) :
    ∀ e ∈ P.CI, -δ ≤ e.1 ⬝ᵥ x + e.2 := by
  intro e he
  have h1 : max 0 (-(e.1 ⬝ᵥ x + e.2)) ≤ violation P x := by
    unfold violation
    refine List.single_le_sum ?_ _ (List.mem_map_of_mem he)
    intro v hv
    obtain ⟨e', -, rfl⟩ := List.mem_map.mp hv
    exact le_max_left _ _
  have h2 := le_trans (le_max_right 0 (-(e.1 ⬝ᵥ x + e.2))) h1
  linarith

/-- The inequalities of the problem given to the QP solver, up to `δ`. -/
theorem qpOf_ineqTol (n : ℕ) (Hess g CE ce0 A b : Mat) (hA : A.cols = n) (δ : ℝ) (y : ℕ → ℝ) :
    (∀ e ∈ (qpOf n Hess g CE ce0 A.neg b).CI, -δ ≤ e.1 ⬝ᵥ (fun i : Fin n => y i) + e.2) ↔ SatTol A b δ y := by
  unfold SatTol
  simp only [qpOf, List.mem_map, List.mem_range, forall_exists_index, and_imp, forall_apply_eq_imp_iff₂]
  refine forall₂_congr fun r _ => ?_
  unfold Mat.rowN
  rw [dot_range (fun j => A.neg.e r j) y, hA]
  simp only [Mat.neg, neg_mul, Finset.sum_neg_distrib]
  constructor <;> intro h <;> linarith

/-- A vector of `n` coefficients extended by zero. -/
def extN {n : ℕ} (x : VecN n) : ℕ → ℝ := fun c => if h : c < n then x ⟨c, h⟩ else 0

theorem extN_restrict {n : ℕ} (x : VecN n) : (fun i : Fin n => extN x i) = x := by
  funext i; simp [extN]

end Verif
