import Verif.Lemmas.QuadStruct

/-! A condition on the data alone under which every threshold test of the QP solver is exact. -/

namespace Verif
open Matrix

variable {n : ℕ}

/-- The rows of all constraints. -/
def QP.normals (P : QP n) : List (VecN n) := P.CE.map (·.1) ++ P.CI.map (·.1)

/-- No normal is nearly, but not exactly, a combination of normals: it either is one or stays away from all
of them by a margin. -/
def Separated (eps : ℝ) (P : QP n) : Prop :=
  ∃ Lam, HessLe P Lam ∧ ∀ v ∈ P.normals, ∀ (m : ℕ) (N : ℕ → VecN n), (∀ k, k < m → N k ∈ P.normals) →
    (∃ c : ℕ → ℝ, v = ∑ k ∈ Finset.range m, c k • N k) ∨
      ∀ c : ℕ → ℝ, eps * Lam < (v - ∑ k ∈ Finset.range m, c k • N k) ⬝ᵥ (v - ∑ k ∈ Finset.range m, c k • N k)

theorem mem_normals_eq {P : QP n} {i : ℕ} (h : i < P.CE.length) : (P.CE.getD i (0, 0)).1 ∈ P.normals := by
  rw [List.getD_eq_getElem?_getD, List.getElem?_eq_getElem h]
  exact List.mem_append_left _ (List.mem_map.mpr ⟨_, List.getElem_mem h, rfl⟩)

theorem mem_normals_ineq {P : QP n} {i : ℕ} (h : i < P.CI.length) : (P.row i).1 ∈ P.normals :=
  List.mem_append_right _ (List.mem_map.mpr ⟨_, row_mem h, rfl⟩)

theorem SBase.mem_normals {P : QP n} {B : ℝ} {S : Prop} {ne : ℕ} {st : QState n} (h : SBase P B S ne st) {k : ℕ}
    (hk : k < st.iq) : nrm P st.A k ∈ P.normals := by
  unfold nrm
  by_cases hne : k < ne
  · rw [h.eqs k hne, conOf_neg]
    exact mem_normals_eq (lt_of_lt_of_le hne h.ne_len)
  · obtain ⟨r1, r2⟩ := h.rng k (not_lt.mp hne) hk
    obtain ⟨i, hi⟩ := Int.eq_ofNat_of_zero_le r1
    rw [hi, conOf_nat]
    exact mem_normals_ineq (by omega)

theorem SBase.sharp {eps lam B : ℝ} {P : QP n} {J0 : ℕ → VecN n} (hC : Conditioned eps lam B P J0)
    (hS : Separated eps P) {S : Prop} {ne : ℕ} {st : QState n} (h : SBase P B S ne st) {np : VecN n}
    (hnp : np ∈ P.normals) : Sharp eps st np := by
  obtain ⟨Lam, hL, hsep⟩ := hS
  have key : updateZ st.J (computeD st.J np) st.iq ⬝ᵥ updateZ st.J (computeD st.J np) st.iq ≤ eps →
      updateZ st.J (computeD st.J np) st.iq = 0 := by
    intro hz
    rcases hsep np hnp st.iq (nrm P st.A) (fun k hk => h.mem_normals hk) with ⟨c, hc⟩ | hfar
    · by_contra hne
      have hpos := z_np_pos hne
      rw [hc, dotProduct_sum, Finset.sum_eq_zero] at hpos
      · exact lt_irrefl _ hpos
      · intro k hk
        rw [dotProduct_smul, dotProduct_comm, h.fac.z_normal _ (Finset.mem_range.mp hk), smul_zero]
    · exfalso
      have e1 := hfar (updateR st.R (computeD st.J np) st.iq)
      rw [← h.fac.Gz] at e1
      have e2 := hL.2 (updateZ st.J (computeD st.J np) st.iq)
      have e3 := mul_le_mul_of_nonneg_left hz hL.1
      linarith
  refine ⟨key, fun hz a ha => ?_⟩
  have hlt : st.iq < n := by
    by_contra hc'
    apply hz
    rw [updateZ, Finset.Ico_eq_empty (by omega), Finset.sum_empty]
  obtain ⟨a', ha', hok, _, _, hl2, _⟩ := h.fac.add eps st.Rnorm np hlt
  rw [ha] at ha'
  cases ha'
  rw [hok]
  apply accepted hC h.fac h.rn0 h.rnB _ hl2
  by_contra hc
  exact hz (key (not_lt.mp hc))

/-- Conditioned and separated data make every run exact. -/
theorem exactRun_of_separated {eps lam B : ℝ} {maxIter : ℕ} {P : QP n} {J0 : ℕ → VecN n} (w : Work n)
    (hF : Factor P.G J0) (hE : P.CE.length ≤ n) (hC : Conditioned eps lam B P J0) (hS : Separated eps P) :
    ExactRun eps maxIter P J0 w := by
  intro q hq
  have hI : SInvN eps maxIter (qpTol eps P J0) B False P q := by
    induction hq with
    | refl => exact SInvE.init hF w hC
    | step _ hs ih =>
      obtain ⟨q', h1, h2, _⟩ := SqpStep_ok hF False.elim hC hE ih
      rw [hs] at h1
      cases h1
      exact h2
  cases q with
  | ret r s => trivial
  | l1 s => trivial
  | l2 s => trivial
  | eq i s =>
    intro hi
    exact SBase.sharp hC hS (SInvE.base hI) (mem_normals_eq hi)
  | l2a s => exact SBase.sharp hC hS hI.1.mv.base (mem_normals_ineq hI.1.mv.ip_lt)

end Verif
