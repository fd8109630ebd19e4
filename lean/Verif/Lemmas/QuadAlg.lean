import Verif.SpecQP
import Verif.Lemmas.Givens
import Mathlib.LinearAlgebra.Matrix.NonsingularInverse
import Mathlib.Algebra.Order.BigOperators.Group.Finset

/-! Linear algebra behind the QP solver. -/

namespace Verif
open Matrix

variable {n : ℕ}

theorem jj_dot (J : ℕ → VecN n) (v w : VecN n) :
    w ⬝ᵥ jj J v = ∑ j ∈ Finset.range n, (J j ⬝ᵥ v) * (J j ⬝ᵥ w) := by
  unfold jj
  rw [dotProduct_sum]
  apply Finset.sum_congr rfl
  intro j _
  rw [dotProduct_smul, smul_eq_mul, dotProduct_comm w]

theorem jj_symm (J : ℕ → VecN n) (v w : VecN n) : w ⬝ᵥ jj J v = v ⬝ᵥ jj J w := by
  rw [jj_dot, jj_dot]
  exact Finset.sum_congr rfl fun _ _ => mul_comm _ _

theorem jj_matrix (J : ℕ → VecN n) : ∃ K : Matrix (Fin n) (Fin n) ℝ, ∀ v, K *ᵥ v = jj J v := by
  refine ⟨∑ j ∈ Finset.range n, vecMulVec (J j) (J j), fun v => ?_⟩
  rw [Matrix.sum_mulVec]
  unfold jj
  apply Finset.sum_congr rfl
  intro j _
  rw [Matrix.vecMulVec_mulVec]
  simp

theorem Factor.left {G : Matrix (Fin n) (Fin n) ℝ} {J : ℕ → VecN n} (h : Factor G J) (v : VecN n) :
    jj J (G *ᵥ v) = v := by
  obtain ⟨K, hK⟩ := jj_matrix J
  have h1 : G * K = 1 := by
    apply Matrix.ext_of_mulVec_single
    intro i
    rw [← Matrix.mulVec_mulVec, hK, Matrix.one_mulVec]
    exact h _
  have h2 : K * G = 1 := _root_.mul_eq_one_comm.mp h1
  rw [← hK, Matrix.mulVec_mulVec, h2, Matrix.one_mulVec]

theorem Factor.symm {G : Matrix (Fin n) (Fin n) ℝ} {J : ℕ → VecN n} (h : Factor G J) (v w : VecN n) :
    v ⬝ᵥ G *ᵥ w = w ⬝ᵥ G *ᵥ v := by
  calc v ⬝ᵥ G *ᵥ w = jj J (G *ᵥ v) ⬝ᵥ G *ᵥ w := by rw [h.left]
    _ = G *ᵥ w ⬝ᵥ jj J (G *ᵥ v) := dotProduct_comm _ _
    _ = G *ᵥ v ⬝ᵥ jj J (G *ᵥ w) := jj_symm _ _ _
    _ = w ⬝ᵥ G *ᵥ v := by rw [h.left, dotProduct_comm]

theorem Factor.quad {G : Matrix (Fin n) (Fin n) ℝ} {J : ℕ → VecN n} (h : Factor G J) (v : VecN n) :
    v ⬝ᵥ G *ᵥ v = ∑ j ∈ Finset.range n, (J j ⬝ᵥ G *ᵥ v) ^ 2 := by
  calc v ⬝ᵥ G *ᵥ v = G *ᵥ v ⬝ᵥ jj J (G *ᵥ v) := by rw [h.left, dotProduct_comm]
    _ = _ := by rw [jj_dot]; exact Finset.sum_congr rfl fun _ _ => (sq _).symm

theorem Factor.nonneg {G : Matrix (Fin n) (Fin n) ℝ} {J : ℕ → VecN n} (h : Factor G J) (v : VecN n) :
    0 ≤ v ⬝ᵥ G *ᵥ v := by
  rw [h.quad]; exact Finset.sum_nonneg fun _ _ => sq_nonneg _

theorem qpObj_add {P : QP n} {J : ℕ → VecN n} (h : Factor P.G J) (x v : VecN n) :
    qpObj P (x + v) = qpObj P x + (P.G *ᵥ x + P.g) ⬝ᵥ v + 1 / 2 * (v ⬝ᵥ P.G *ᵥ v) := by
  unfold qpObj
  rw [Matrix.mulVec_add]
  simp only [add_dotProduct, dotProduct_add]
  rw [h.symm v x, dotProduct_comm (P.G *ᵥ x) v, h.symm v x]
  ring

/-- The objective at a point where the gradient is known to have non-negative product with every
admissible displacement. -/
theorem qpObj_le {P : QP n} {J : ℕ → VecN n} (h : Factor P.G J) {x y : VecN n}
    (hg : 0 ≤ (P.G *ᵥ x + P.g) ⬝ᵥ (y - x)) : qpObj P x ≤ qpObj P y := by
  have := qpObj_add h x (y - x)
  rw [add_sub_cancel] at this
  rw [this]
  have := h.nonneg (y - x)
  linarith

/-! ### Back substitution -/

theorem backSub_ge (R : ℕ → ℕ → ℝ) (d : ℕ → ℝ) (iq : ℕ) : ∀ (k : ℕ) (r : ℕ → ℝ) (i : ℕ), k ≤ i →
    backSub R d iq k r i = r i
  | 0, _, _, _ => rfl
  | k + 1, r, i, h => by
    rw [backSub, backSub_ge R d iq k _ i (by omega), Function.update_of_ne (by omega)]

theorem backSub_spec (R : ℕ → ℕ → ℝ) (d : ℕ → ℝ) (iq : ℕ) : ∀ (k : ℕ) (r : ℕ → ℝ), k ≤ iq →
    (∀ j, j < k → R j j ≠ 0) → ∀ j, j < k → ∑ i ∈ Finset.Ico j iq, R j i * backSub R d iq k r i = d j
  | 0, _, _, _, j, hj => absurd hj (by omega)
  | k + 1, r, hk, hR, j, hj => by
    rw [backSub]
    by_cases h : j = k
    · subst h
      rw [Finset.sum_eq_sum_Ico_succ_bot (by omega), backSub_ge _ _ _ _ _ _ le_rfl, Function.update_self]
      have : ∑ i ∈ Finset.Ico (j + 1) iq,
          R j i * backSub R d iq j
            (Function.update r j ((d j - ∑ i ∈ Finset.Ico (j + 1) iq, R j i * r i) / R j j)) i =
          ∑ i ∈ Finset.Ico (j + 1) iq, R j i * r i := by
        apply Finset.sum_congr rfl
        intro i hi
        have := (Finset.mem_Ico.mp hi).1
        rw [backSub_ge _ _ _ _ _ _ (by omega), Function.update_of_ne (by omega)]
      rw [this]
      have := hR j (by omega)
      field_simp
      ring
    · exact backSub_spec R d iq k _ (by omega) (fun j hj => hR j (by omega)) j (by omega)

theorem updateR_spec {R : ℕ → ℕ → ℝ} {d : ℕ → ℝ} {iq : ℕ} (hR : ∀ j, j < iq → R j j ≠ 0) {j : ℕ} (hj : j < iq) :
    ∑ i ∈ Finset.Ico j iq, R j i * updateR R d iq i = d j :=
  backSub_spec R d iq iq _ le_rfl hR j hj

/-! ### Directions -/

/-- What holds of the factors: `J J'` is the inverse of the Hessian, and the products of the columns of `J`
with the active normals `N 0 … N (iq-1)` are upper triangular, invertible and stored in `R`. -/
structure Factors (G : Matrix (Fin n) (Fin n) ℝ) (J : ℕ → VecN n) (R : ℕ → ℕ → ℝ) (N : ℕ → VecN n) (iq : ℕ) :
    Prop where
  fac : Factor G J
  le : iq ≤ n
  tri : ∀ k, k < iq → TriCol J R (N k) k

section
variable {G : Matrix (Fin n) (Fin n) ℝ} {J : ℕ → VecN n} {R : ℕ → ℕ → ℝ} {N : ℕ → VecN n} {iq : ℕ}

theorem Factors.normal_expand (h : Factors G J R N iq) {k : ℕ} (hk : k < iq) :
    N k = ∑ j ∈ Finset.range iq, (if j ≤ k then R j k else 0) • G *ᵥ J j := by
  have h1 := h.fac (N k)
  rw [Matrix.mulVec_sum] at h1
  have hle := h.le
  rw [← Finset.sum_subset (Finset.range_subset_range.mpr hle)] at h1
  · nth_rw 1 [← h1]
    apply Finset.sum_congr rfl
    intro j hj
    have hj := Finset.mem_range.mp hj
    rw [Matrix.mulVec_smul]
    obtain ⟨a, b, _⟩ := h.tri k hk
    split_ifs with hjk
    · rw [a j hjk (by omega)]
    · rw [b j (by omega) (by omega)]
  · intro j hj hj'
    have := Finset.mem_range.mp hj
    have := mt Finset.mem_range.mpr hj'
    rw [(h.tri k hk).2.1 j (by omega) (by omega)]
    simp

theorem Factors.sum_r (h : Factors G J R N iq) (d : ℕ → ℝ) :
    ∑ k ∈ Finset.range iq, updateR R d iq k • N k = ∑ j ∈ Finset.range iq, d j • G *ᵥ J j := by
  have e : ∀ k ∈ Finset.range iq, updateR R d iq k • N k =
      ∑ j ∈ Finset.range iq, ((if j ≤ k then R j k else 0) * updateR R d iq k) • G *ᵥ J j := by
    intro k hk
    rw [h.normal_expand (Finset.mem_range.mp hk), Finset.smul_sum]
    apply Finset.sum_congr rfl
    intro j _
    rw [smul_smul, mul_comm]
  rw [Finset.sum_congr rfl e, Finset.sum_comm]
  apply Finset.sum_congr rfl
  intro j hj
  have hj := Finset.mem_range.mp hj
  rw [← Finset.sum_smul]
  congr 1
  rw [← updateR_spec (d := d) (fun j hj => (h.tri j hj).2.2) hj]
  have : Finset.Ico j iq ⊆ Finset.range iq := by
    intro i hi; exact Finset.mem_range.mpr (Finset.mem_Ico.mp hi).2
  rw [← Finset.sum_subset this]
  · apply Finset.sum_congr rfl
    intro i hi
    rw [if_pos (Finset.mem_Ico.mp hi).1]
  · intro i hi hi'
    have h1 := Finset.mem_range.mp hi
    rw [if_neg, zero_mul]
    intro hc
    exact hi' (Finset.mem_Ico.mpr ⟨hc, h1⟩)

theorem jj_split (J : ℕ → VecN n) (np : VecN n) (h : iq ≤ n) :
    jj J np = ∑ j ∈ Finset.range iq, computeD J np j • J j + updateZ J (computeD J np) iq := by
  unfold jj updateZ computeD
  rw [Finset.sum_range_add_sum_Ico _ h]

/-- `G z = np - Σ r_k n_k`. -/
theorem Factors.Gz (h : Factors G J R N iq) (np : VecN n) :
    G *ᵥ updateZ J (computeD J np) iq =
      np - ∑ k ∈ Finset.range iq, updateR R (computeD J np) iq k • N k := by
  have h1 := h.fac np
  change G *ᵥ jj J np = np at h1
  rw [jj_split J np h.le, Matrix.mulVec_add, Matrix.mulVec_sum] at h1
  rw [h.sum_r]
  rw [eq_sub_iff_add_eq, add_comm]
  rw [← h1]
  congr 1
  · apply Finset.sum_congr rfl
    intro j _
    rw [Matrix.mulVec_smul, h1]
  · rw [h1]

theorem Factors.z_normal (h : Factors G J R N iq) (d : ℕ → ℝ) {k : ℕ} (hk : k < iq) :
    N k ⬝ᵥ updateZ J d iq = 0 := by
  unfold updateZ
  rw [dotProduct_sum]
  apply Finset.sum_eq_zero
  intro j hj
  obtain ⟨h1, h2⟩ := Finset.mem_Ico.mp hj
  rw [dotProduct_smul, dotProduct_comm, (h.tri k hk).2.1 j (by omega) h2, smul_zero]

theorem z_np (J : ℕ → VecN n) (np : VecN n) (iq : ℕ) :
    updateZ J (computeD J np) iq ⬝ᵥ np = ∑ j ∈ Finset.Ico iq n, computeD J np j ^ 2 := by
  unfold updateZ
  rw [sum_dotProduct]
  apply Finset.sum_congr rfl
  intro j _
  rw [smul_dotProduct, smul_eq_mul, computeD, sq]

theorem z_np_pos {J : ℕ → VecN n} {np : VecN n} {iq : ℕ} (hz : updateZ J (computeD J np) iq ≠ 0) :
    0 < updateZ J (computeD J np) iq ⬝ᵥ np := by
  rw [z_np]
  rcases (Finset.sum_nonneg fun j (_ : j ∈ Finset.Ico iq n) => sq_nonneg (computeD J np j)).lt_or_eq with h | h
  · exact h
  · exfalso
    apply hz
    have := (Finset.sum_eq_zero_iff_of_nonneg fun j _ => sq_nonneg (computeD J np j)).mp h.symm
    unfold updateZ
    apply Finset.sum_eq_zero
    intro j hj
    have := this j hj
    rw [pow_eq_zero_iff (by norm_num)] at this
    rw [this, zero_smul]

theorem dot_self_pos {z : VecN n} : 0 < z ⬝ᵥ z ↔ z ≠ 0 := by
  constructor
  · rintro h rfl
    simp at h
  · intro h
    obtain ⟨i, hi⟩ : ∃ i, z i ≠ 0 := by
      by_contra hc
      push_neg at hc
      exact h (funext hc)
    unfold dotProduct
    exact Finset.sum_pos' (fun i _ => mul_self_nonneg _) ⟨i, Finset.mem_univ _, mul_self_pos.mpr hi⟩

theorem Factors.zGz (h : Factors G J R N iq) (np : VecN n) :
    updateZ J (computeD J np) iq ⬝ᵥ G *ᵥ updateZ J (computeD J np) iq =
      updateZ J (computeD J np) iq ⬝ᵥ np := by
  rw [h.Gz, dotProduct_sub, dotProduct_sum, Finset.sum_eq_zero, sub_zero]
  intro k hk
  rw [dotProduct_smul, dotProduct_comm, h.z_normal _ (Finset.mem_range.mp hk), smul_zero]

/-- What `add_constraint` leaves. -/
theorem Factors.add (h : Factors G J R N iq) (eps Rnorm : ℝ) (np : VecN n) (hlt : iq < n) :
    ∃ a, addConstraint eps J R (computeD J np) iq Rnorm = .ok a ∧ (a.ok ↔ eps * Rnorm < |a.last|) ∧
      (a.last ≠ 0 → Factors G a.J a.R (Function.update N iq np) (iq + 1)) ∧
      (updateZ J (computeD J np) iq ≠ 0 ↔ a.last ≠ 0) ∧
      a.last ^ 2 = updateZ J (computeD J np) iq ⬝ᵥ np ∧
      a.Rnorm = (open Classical in if a.ok then max Rnorm |a.last| else Rnorm) := by
  unfold addConstraint
  obtain ⟨hr, hd, hz⟩ := addLoop_spec (np := np) iq (n - 1 - iq) (J, computeD J np) (by omega)
    (fun j _ => rfl) (fun i h1 h2 => absurd h1 (by omega))
  set q := addLoop iq (n - 1 - iq) (J, computeD J np) with hq
  simp only [hlt, if_true]
  have hlast : q.2 iq ^ 2 = updateZ J (computeD J np) iq ⬝ᵥ np := by
    have e1 : np ⬝ᵥ jj q.1 np = np ⬝ᵥ jj J np := by rw [hr.jj]
    rw [jj_dot, jj_dot] at e1
    rw [z_np]
    rw [← Finset.sum_range_add_sum_Ico _ h.le, ← Finset.sum_range_add_sum_Ico _ h.le] at e1
    have e2 : ∑ j ∈ Finset.range iq, (q.1 j ⬝ᵥ np) * (q.1 j ⬝ᵥ np) = ∑ j ∈ Finset.range iq, (J j ⬝ᵥ np) * (J j ⬝ᵥ np) := by
      apply Finset.sum_congr rfl
      intro j hj
      rw [hr.low j (Finset.mem_range.mp hj)]
    rw [e2, add_right_inj] at e1
    simp only [computeD, sq]
    rw [← e1, Finset.sum_eq_sum_Ico_succ_bot hlt, Finset.sum_eq_zero, add_zero, hd iq hlt]
    intro j hj
    obtain ⟨a, b⟩ := Finset.mem_Ico.mp hj
    rw [← hd j b, hz j (by omega) b, zero_mul]
  refine ⟨_, rfl, by simp, ?_, ?_, hlast, ?_⟩
  · intro hne
    refine ⟨fun v => ?_, by omega, ?_⟩
    · have := hr.jj v
      unfold jj at this
      rw [this]; exact h.fac v
    · intro k hk
      by_cases hki : k = iq
      · subst hki
        rw [Function.update_self]
        refine ⟨fun i hi hn => ?_, fun i hi hn => ?_, ?_⟩
        · simp only [true_and, hi, if_true]; exact (hd i hn).symm
        · rw [← hd i hn]; exact hz i hi hn
        · simpa using hne
      · rw [Function.update_of_ne hki]
        obtain ⟨a, b, c⟩ := h.tri k (by omega)
        refine ⟨fun i hi hn => ?_, fun i hi hn => ?_, ?_⟩
        · simp only [hki, false_and, if_false]
          rw [hr.low i (by omega)]; exact a i hi hn
        · by_cases h' : i < iq
          · change q.1 i ⬝ᵥ N k = 0
            rw [hr.low i h']; exact b i hi hn
          · exact hr.zero (N k) (fun i' hi' hn' => b i' (by omega) hn') i (by omega) hn
        · simpa [hki] using c
  · constructor
    · intro hz' h0
      have := z_np_pos hz'
      rw [← hlast] at this
      simp only at h0
      rw [h0] at this
      norm_num at this
    · intro h0 hz'
      rw [hz', zero_dotProduct] at hlast
      exact h0 (by simpa using hlast)
  · by_cases hc : |q.2 iq| ≤ eps * Rnorm <;> simp [hc]

end

end Verif
