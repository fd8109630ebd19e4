import Verif.Lemmas.QuadRoundedInf
import Verif.Lemmas.QuadAlg

/-! The directions of the equalities pass the test of eiquadprog-fast.cpp:346 when the normals of the equalities are independent by a margin. -/

namespace Verif

variable {n : ℕ}

/-- The normals of the equalities are independent by a margin `s`: a combination of them is at least `s` times as long as the sum of the absolute values
of its coefficients. -/
def FpEqSep (P : FQP ℝ n) (s : ℝ) : Prop :=
  ∀ c : ℕ → ℝ, (s * ∑ j ∈ Finset.range P.CE.length, |c j|) ^ 2 ≤ ∑ k, (∑ j ∈ Finset.range P.CE.length, c j * (P.CE.getD j (0, 0)).1 k) ^ 2

/-- The margin exceeds the rounding errors. -/
def SepMargin (n nE : ℕ) (u g eps ν σ β : ℝ) (maxIter : ℕ) (s : ℝ) : Prop :=
  5.2 * Real.sqrt eps / σ ^ 2 + 2.2 * g * β * (ν / σ) < s ∧
  2.4 * β * (ν / σ) * (g + 152 * u * (n * (nE + 2 + maxIter * (n + 3) : ℕ))) ≤ s

namespace Arith

variable {o : Arith ℝ n} {m : ℕ} {u g : ℝ}

section
variable {maxIter : ℕ} {P : FQP ℝ n} {J0 : ℕ → Fin n → ℝ} {ν σ β b X : ℝ}

/-- The same operations, with an exact triangular solver. -/
noncomputable def exactTri (o : Arith ℝ n) : Arith ℝ n := { o with triSolve := updateR }

theorem Rounded.exactTri (h : o.Rounded m u g) : o.exactTri.Rounded m u g where
  zero := h.zero
  one := h.one
  two := h.two
  hundred := h.hundred
  eps := h.eps
  ofNat := h.ofNat
  neg := h.neg
  abs := h.abs
  sqrt := h.sqrt
  add := h.add
  sub := h.sub
  mul := h.mul
  div := h.div
  mulAdd := h.mulAdd
  mulSub := h.mulSub
  lin2 := h.lin2
  dot := h.dot
  gemvT := h.gemvT
  gemv := h.gemv
  slacks := h.slacks
  sumNeg := h.sumNeg
  trace := h.trace
  lt := h.lt
  le := h.le
  eq := h.eq
  ltInf := h.ltInf
  geInf := h.geInf

theorem exactTri_tri (o : Arith ℝ n) : o.exactTri.TriRounded 0 := by
  intro R d iq _ hR i hi
  rw [zero_mul, show o.exactTri.triSolve = updateR from rfl, updateR_spec hR hi, sub_self, abs_zero]

/-- The direction of an equality passes the test. -/
theorem ScaledFp.eq_far (hC : ScaledFp o u g maxIter P J0 ν σ β b) (h : o.Rounded m u g) {s : ℝ} (hS : FpEqSep P s)
    (hs : SepMargin n P.CE.length u g o.eps ν σ β maxIter s) {i c : ℕ} {st : FState ℝ n} (hgood : Good o P (.eq i st)) (hi : i < P.CE.length)
    (hcn : n * c ≤ rots n maxIter P) (hB : Resid u g (rots n maxIter P) P ν σ β b X c st) (hd : ∀ k < st.iq, st.R k k ≠ 0) :
    o.far (o.updateZ st.J (o.gemvT st.J (P.CE.getD i (0, 0)).1) st.iq) := by
  by_contra hz
  obtain ⟨g1, g2, g3, g4⟩ := hgood
  have hp := hC.par
  have hσ := hC.σ0
  have hmem := getD_mem hi ((0, 0) : (Fin n → ℝ) × ℝ)
  have hcomb := fun (w : Fin n → ℝ) (W : ℝ) (hW : 0 ≤ W) (hw : ∑ k, w k ^ 2 ≤ W ^ 2) =>
    h.exactTri.normal_comb hp hσ hcn hB.J (hC.lo_ge hcn) (iq := st.iq) (by omega) hB.F (fun k hk => hC.active_le (fun k h1 h2 => by omega) hk) (hC.cond.ce _ hmem)
      (show ¬ o.exactTri.far (o.exactTri.updateZ st.J (o.exactTri.gemvT st.J (P.CE.getD i (0, 0)).1) st.iq) from hz) le_rfl o.exactTri_tri hd hW hw
  have hact : ∀ j < st.iq, active P st.A j = P.CE.getD j (0, 0) := fun j hj => by
    unfold active
    rw [if_pos (by omega)]
  generalize o.exactTri.triSolve st.R (o.exactTri.gemvT st.J (P.CE.getD i (0, 0)).1) st.iq = ρ at hcomb
  have hle := hC.comb_le le_rfl zero_le_one hcn
  rw [zero_mul, add_zero] at hle
  simp only [zero_mul, add_zero] at hcomb
  obtain ⟨s1, s2⟩ := hs
  -- the combination
  generalize hv : (fun k => (P.CE.getD i (0, 0)).1 k - ∑ j ∈ Finset.range st.iq, ρ j * (active P st.A j).1 k) = v at hcomb
  have hvk : ∀ k, (P.CE.getD i (0, 0)).1 k - ∑ j ∈ Finset.range st.iq, ρ j * (active P st.A j).1 k = v k := fun k => congrFun hv k
  simp only [hvk] at hcomb
  have hsep := hS fun j => if j < i then -ρ j else if j = i then 1 else 0
  have hsplit : ∀ F : ℕ → ℝ, (∀ j, i < j → F j = 0) → ∑ j ∈ Finset.range P.CE.length, F j = ∑ j ∈ Finset.range i, F j + F i := by
    intro F hF
    rw [← Finset.sum_range_succ]
    refine (Finset.sum_subset (fun j hj => Finset.mem_range.mpr ?_) fun j _ hj => hF j ?_).symm
    · have := Finset.mem_range.mp hj
      omega
    · have : ¬ j < i + 1 := fun hh => hj (Finset.mem_range.mpr hh)
      omega
  rw [hsplit _ fun j hj => by rw [if_neg (by omega), if_neg (by omega), abs_zero]] at hsep
  rw [Finset.sum_congr rfl (fun j hj => by rw [if_pos (Finset.mem_range.mp hj), abs_neg]), if_neg (lt_irrefl i), if_pos rfl, abs_one] at hsep
  have hv2 : ∀ k, ∑ j ∈ Finset.range P.CE.length, (if j < i then -ρ j else if j = i then 1 else 0) * (P.CE.getD j (0, 0)).1 k = v k := by
    intro k
    rw [hsplit _ fun j hj => by rw [if_neg (by omega), if_neg (by omega), zero_mul], if_neg (lt_irrefl i), if_pos rfl, one_mul, ← hvk k, g1,
      Finset.sum_congr rfl (fun j hj => by rw [if_pos (Finset.mem_range.mp hj), neg_mul]), Finset.sum_neg_distrib, neg_add_eq_sub]
    congr 1
    exact Finset.sum_congr rfl fun j hj => by rw [hact j (by have := Finset.mem_range.mp hj; omega)]
  simp only [hv2] at hsep
  have hV0 : 0 ≤ ∑ k, v k ^ 2 := Finset.sum_nonneg fun _ _ => sq_nonneg _
  have hw := hcomb v (Real.sqrt (∑ k, v k ^ 2)) (Real.sqrt_nonneg _) (Real.sq_sqrt hV0).ge
  have hsq := Real.sq_sqrt hV0
  have hW0 := Real.sqrt_nonneg (∑ k, v k ^ 2)
  have e0 : ∑ k, v k * v k = Real.sqrt (∑ k, v k ^ 2) ^ 2 := by rw [hsq]; exact Finset.sum_congr rfl fun k _ => (pow_two _).symm
  rw [e0] at hw
  rw [← hsq] at hsep
  generalize Real.sqrt (∑ k, v k ^ 2) = W at hw hsep hW0
  have hρ0 : 0 ≤ ∑ j ∈ Finset.range i, |ρ j| := Finset.sum_nonneg fun _ _ => abs_nonneg _
  rw [g1, abs_of_nonneg (sq_nonneg W)] at hw
  generalize ∑ j ∈ Finset.range i, |ρ j| = S at hw hsep hρ0
  have hs0 : 0 < s := by
    refine lt_of_le_of_lt ?_ s1
    have := hC.ν0
    have := hC.β0
    have := hp.g0
    positivity
  have hge : s * (S + 1) ≤ W := by
    have := abs_le_of_sq_le_sq hsep hW0
    exact le_trans (le_abs_self _) (abs_le.mpr (abs_le.mp this))
  have hWpos : 0 < W := lt_of_lt_of_le (by positivity) hge
  have hκ : 2 * 1 / σ * dl u g (β * (1.07 * ν)) (n * c) ≤ s := by
    refine le_trans hle (le_trans (le_of_eq ?_) s2)
    ring
  have h1 : W ≤ 2 / σ * (2.6 * Real.sqrt o.eps / σ + g * (β * (1.07 * ν))) + S * (2 * 1 / σ * dl u g (β * (1.07 * ν)) (n * c)) := by
    have : W * W ≤ W * (2 / σ * (2.6 * Real.sqrt o.eps / σ + g * (β * (1.07 * ν))) + S * (2 * 1 / σ * dl u g (β * (1.07 * ν)) (n * c))) := by
      rw [← pow_two]
      refine le_trans hw (le_of_eq ?_)
      show 2 * W / σ * (2.6 * Real.sqrt o.eps / σ + g * (β * (1.07 * ν)) + S * dl u g (β * (1.07 * ν)) (n * c)) = _
      ring
    exact le_of_mul_le_mul_left this hWpos
  have h2 : 2 / σ * (2.6 * Real.sqrt o.eps / σ + g * (β * (1.07 * ν))) ≤ 5.2 * Real.sqrt o.eps / σ ^ 2 + 2.2 * g * β * (ν / σ) := by
    have e : 2 / σ * (2.6 * Real.sqrt o.eps / σ + g * (β * (1.07 * ν))) = 5.2 * Real.sqrt o.eps / σ ^ 2 + 2.14 * g * β * (ν / σ) := by
      field_simp
      ring
    rw [e]
    have : 0 ≤ g * β * (ν / σ) := by
      have := hC.ν0
      have := hC.β0
      have := hp.g0
      positivity
    linarith
  have h3 := mul_le_mul_of_nonneg_left hκ hρ0
  linarith

/-- Only the loop over the equalities leads to the loop over the equalities. -/
theorem step_eq_inv {F : Type} {o : Arith F n} (ho : o.Sane) {maxIter : ℕ} {P : FQP F n} {J0 : ℕ → Fin n → F} {q : FNext F n} {i : ℕ} {s : FState F n}
    (hq : Good o P q) (hacc : ∀ st, q = .l2a st → o.Accepts P st) (hs : o.step maxIter P J0 q = .ok (.eq i s)) : ∃ j t, q = .eq j t := by
  cases q with
  | ret r t => cases Out.ok.inj (show Out.ok (FNext.ret r t) = Out.ok _ from hs)
  | eq j t => exact ⟨j, t, rfl⟩
  | l1 t =>
    replace hs : o.stepL1 maxIter P J0 t = .ok _ := hs
    unfold stepL1 at hs
    dsimp only at hs
    split_ifs at hs <;> cases hs
  | l2 t =>
    replace hs : o.stepL2 P t = .ok _ := hs
    unfold stepL2 at hs
    dsimp only at hs
    split_ifs at hs <;> cases hs
  | l2a t =>
    replace hs : o.stepL2a P t = .ok _ := hs
    rcases stepL2a_cases ho hq (hacc t rfl) hs with ⟨e, -⟩ | ⟨_, _, _, _, _, _, _, e⟩ | ⟨_, _, _, _, _, _, _, _, _, _, e⟩ | ⟨_, _, _, _, _, _, _, _, _, e⟩ <;> cases e

/-- The directions of all equalities pass the test. -/
theorem ScaledFp.far_of_sep (hC : ScaledFp o u g maxIter P J0 ν σ β b) (h : o.Rounded m u g) (hX : 0 ≤ X) (hE : P.CE.length ≤ n) {x0 : Fin n → ℝ}
    {w : FWork ℝ n} (hx : ∀ q, o.Reach maxIter P J0 (.eq 0 (o.init P J0 x0 w)) q → ∑ k, (st q).x k ^ 2 ≤ X ^ 2)
    {s : ℝ} (hS : FpEqSep P s) (hs : SepMargin n P.CE.length u g o.eps ν σ β maxIter s) :
    ∀ i t, o.Reach maxIter P J0 (.eq 0 (o.init P J0 x0 w)) (.eq i t) → i < P.CE.length →
      o.far (o.updateZ t.J (o.gemvT t.J (P.CE.getD i (0, 0)).1) t.iq) := by
  classical
  have key : ∀ q, o.Reach maxIter P J0 (.eq 0 (o.init P J0 x0 w)) q → ∀ i t, q = .eq i t → Good o P q ∧
      ∃ c, c + cost maxIter P q ≤ P.CE.length + 2 + maxIter * (n + 3) ∧ Bnd u (ν ^ 2) (β ^ 2) c (st q).J (st q).Rnorm ∧
        Resid u g (rots n maxIter P) P ν σ β b X c t ∧ ∀ k < t.iq, t.R k k ≠ 0 := by
    intro q hr
    induction hr with
    | refl =>
      intro i t e
      cases e
      refine ⟨⟨rfl, Nat.zero_le _, hE, rfl⟩, 0, by simp [cost], ⟨?_, ?_, ?_⟩, ⟨⟨?_, ?_⟩, ?_, ?_⟩, fun k hk => absurd hk (Nat.not_lt_zero k)⟩
      · rw [Nat.mul_zero, pow_zero, one_mul]
        exact hC.cond.sum
      · show (0 : ℝ) ≤ o.one
        rw [h.one]; norm_num
      · show o.one ^ 2 ≤ _
        rw [h.one, one_pow]
        exact le_max_left _ _
      · rw [Nat.mul_zero, pow_zero, one_mul]
        exact hC.cond.sum
      · rw [Nat.mul_zero]
        have : lo u σ (1.07 * ν) 0 = σ := by unfold lo; simp
        rw [this]
        exact hC.low'
      · intro k hk
        exact absurd hk (Nat.not_lt_zero k)
      · intro k hk
        exact absurd hk (Nat.not_lt_zero k)
    | @tail q q' hb hst ih =>
      intro i t e
      subst e
      obtain ⟨hg0, -⟩ := hC.cond.reach h hE hb
      have hacc0 : ∀ st, q = .l2a st → o.Accepts P st := fun st e => by
        subst e
        obtain ⟨-, c, hc, hB⟩ := hC.cond.reach h hE hb
        exact hC.cond.accepts h (c := c) (by omega) hB
      obtain ⟨j, t', rfl⟩ := step_eq_inv h.sane hg0 hacc0 hst
      obtain ⟨hg, c, hc, hB, hR, hd⟩ := ih j t' rfl
      obtain ⟨q2, z1, z2, z3, z4⟩ := step_good h.sane (maxIter := maxIter) (J0 := J0)
        (hC.cond.carries h (c := c) (by omega)) hB hg (fun r s e => by cases e) hacc0
      rw [hst] at z1
      cases Out.ok.inj z1
      have hfar : ∀ i s, FNext.eq j t' = .eq i s → i < P.CE.length → o.far (o.updateZ s.J (o.gemvT s.J (P.CE.getD i (0, 0)).1) s.iq) := by
        intro i s e hi
        cases e
        exact hC.eq_far h hS hs hg hi (Nat.mul_le_mul_left n (by omega)) hR hd
      refine ⟨z2, c + 1, by omega, z4, hC.step h hX ?_ hg hacc0 hfar (hx _ hb) (hx _ (.tail hb hst)) hR hst, ?_⟩
      · exact Nat.mul_le_mul_left n (by omega)
      · replace hst : o.stepEq P j t' = .ok _ := hst
        obtain ⟨g1, g2, g3, g4⟩ := hg
        unfold stepEq at hst
        by_cases hi : j < P.CE.length
        · rw [if_pos hi, if_pos ⟨by omega, by omega⟩] at hst
          obtain ⟨a, ha⟩ := o.addConstraint_ok (J := t'.J) (R := t'.R) (d := o.gemvT t'.J (P.CE.getD j (fun _ => o.zero, o.zero)).1)
            (Rnorm := t'.Rnorm) (show t'.iq < n by omega)
          dsimp only at hst
          rw [ha] at hst
          dsimp only at hst
          split_ifs at hst with hok
          · cases Out.ok.inj hst
            exact h.addConstraint_diag hC.par.u1 hB.2.1 hd ha hok
          · cases Out.ok.inj hst
        · rw [if_neg hi] at hst
          cases Out.ok.inj hst
  intro i t hr hi
  obtain ⟨hg, c, hc, -, hR, hd⟩ := key _ hr i t rfl
  exact hC.eq_far h hS hs hg hi (Nat.mul_le_mul_left n (by omega)) hR hd

end

end Arith

end Verif
