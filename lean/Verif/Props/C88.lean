import Verif.Props.C87
import Verif.Lemmas.QuadRoundedBig

/-!
# C88: meaning of `OPTIMAL` with rounded arithmetic
-/

namespace Verif

variable {n : ℕ}

namespace Arith

variable {o : Arith ℝ n} {m : ℕ} {u g : ℝ}

theorem Rounded.abs_mul_le (h : o.Rounded m u g) {a b A B : ℝ} (hu : 0 ≤ u) (ha : |a| ≤ A) (hb : |b| ≤ B) :
    |o.mul a b| ≤ (1 + u) * (A * B) := by
  have h1 := h.mul a b
  have h2 := abs_sub_abs_le_abs_sub (o.mul a b) (a * b)
  have h3 : |a * b| ≤ A * B := by
    rw [abs_mul]
    exact mul_le_mul ha hb (abs_nonneg _) (le_trans (abs_nonneg _) ha)
  nlinarith

theorem Rounded.abs_trace_le (h : o.Rounded m u g) (d : Fin n → ℝ) : |o.trace d| ≤ (1 + g) * ∑ i, |d i| := by
  have h1 := h.trace d
  have h2 := abs_sub_abs_le_abs_sub (o.trace d) (∑ i, d i)
  have h3 := Finset.abs_sum_le_sum_abs d Finset.univ
  linarith

/-- The computed tolerance. -/
theorem Rounded.tol_le (h : o.Rounded m u g) (hu0 : 0 ≤ u) (hu : u ≤ 1 / 1000) (hg0 : 0 ≤ g) (hg : g ≤ 1 / 100) (P : FQP ℝ n)
    (J0 : ℕ → Fin n → ℝ) :
    o.tol P J0 ≤ 1.03 * (100 * P.CI.length * o.eps * (∑ i, |P.G i i|) * ∑ i : Fin n, |J0 i.val i|) := by
  have hG : 0 ≤ ∑ i, |P.G i i| := Finset.sum_nonneg fun _ _ => abs_nonneg _
  have hJ : 0 ≤ ∑ i : Fin n, |J0 i.val i| := Finset.sum_nonneg fun _ _ => abs_nonneg _
  have h1 := h.abs_mul_le (a := o.ofNat P.CI.length) (b := o.eps) hu0 (by rw [h.ofNat, Nat.abs_cast]) (abs_of_nonneg h.eps).le
  have h2 := h.abs_mul_le hu0 h1 (h.abs_trace_le fun i => P.G i i)
  have h3 := h.abs_mul_le hu0 h2 (h.abs_trace_le fun i => J0 i.val i)
  have h4 := h.abs_mul_le hu0 h3 (b := o.hundred) (B := 100) (by rw [h.hundred]; norm_num)
  refine le_trans (le_abs_self _) (le_trans h4 ?_)
  have c : (1 + u) ^ 4 * (1 + g) ^ 2 ≤ 1.03 := by
    calc (1 + u) ^ 4 * (1 + g) ^ 2 ≤ (1 + 1 / 1000 : ℝ) ^ 4 * (1 + 1 / 100) ^ 2 := by gcongr
      _ ≤ 1.03 := by norm_num
  have e0 : 0 ≤ 100 * (P.CI.length : ℝ) * o.eps * (∑ i, |P.G i i|) * ∑ i : Fin n, |J0 i.val i| := by
    have := h.eps
    positivity
  calc (1 + u) * ((1 + u) * ((1 + u) * ((1 + u) * (P.CI.length * o.eps) * ((1 + g) * ∑ i, |P.G i i|)) *
        ((1 + g) * ∑ i : Fin n, |J0 i.val i|)) * 100)
      = (1 + u) ^ 4 * (1 + g) ^ 2 * (100 * P.CI.length * o.eps * (∑ i, |P.G i i|) * ∑ i : Fin n, |J0 i.val i|) := by ring
    _ ≤ _ := mul_le_mul_of_nonneg_right c e0

/-- The exit on the sum of violations. -/
theorem Rounded.psi_exit (h : o.Rounded m u g) (hu0 : 0 ≤ u) (hu : u ≤ 1 / 1000) (hg0 : 0 ≤ g) (hg : g ≤ 1 / 100) {P : FQP ℝ n}
    (hm : P.CI.length ≤ m) {J0 : ℕ → Fin n → ℝ} {x : Fin n → ℝ}
    (hx : o.le (o.abs (o.sumNeg (o.slacks P.CI x) P.CI.length)) (o.tol P J0)) {i : ℕ} (hi : i < P.CI.length) :
    -(105 * P.CI.length * o.eps * (∑ i, |P.G i i|) * (∑ i : Fin n, |J0 i.val i|) + g * mag (P.CI.getD i (0, 0)) x) ≤
      val (P.CI.getD i (0, 0)) x := by
  rw [h.le, h.abs] at hx
  have h1 := h.sumNeg (o.slacks P.CI x) P.CI.length hm
  have h2 := h.tol_le hu0 hu hg0 hg P J0
  have h3 := h.slacks P.CI x i hi
  have e0 : 0 ≤ (P.CI.length : ℝ) * o.eps * (∑ i, |P.G i i|) * ∑ i : Fin n, |J0 i.val i| := by
    have := h.eps
    have hG : 0 ≤ ∑ i, |P.G i i| := Finset.sum_nonneg fun _ _ => abs_nonneg _
    have hJ : 0 ≤ ∑ i : Fin n, |J0 i.val i| := Finset.sum_nonneg fun _ _ => abs_nonneg _
    positivity
  have e1 : ∑ i ∈ Finset.range P.CI.length, min 0 (o.slacks P.CI x i) =
      -∑ i ∈ Finset.range P.CI.length, |min 0 (o.slacks P.CI x i)| := by
    rw [← Finset.sum_neg_distrib]
    exact Finset.sum_congr rfl fun i _ => by rw [abs_of_nonpos (min_le_left _ _), neg_neg]
  have e2 : |min 0 (o.slacks P.CI x i)| ≤ ∑ i ∈ Finset.range P.CI.length, |min 0 (o.slacks P.CI x i)| :=
    Finset.single_le_sum (f := fun i => |min 0 (o.slacks P.CI x i)|) (fun _ _ => abs_nonneg _) (Finset.mem_range.mpr hi)
  rw [e1] at h1
  generalize ∑ i ∈ Finset.range P.CI.length, |min 0 (o.slacks P.CI x i)| = S at h1 e2
  have hS : 0 ≤ S := le_trans (abs_nonneg _) e2
  have e3 : (1 - g) * S ≤ o.tol P J0 := by
    have k := (abs_le.mp h1).2
    have k2 := neg_abs_le (o.sumNeg (o.slacks P.CI x) P.CI.length)
    have k3 := (abs_le.mp h1).1
    linarith
  have e4 : 0.99 * S ≤ o.tol P J0 := le_trans (mul_le_mul_of_nonneg_right (by linarith) hS) e3
  have e5 : -S ≤ o.slacks P.CI x i := by
    have := neg_abs_le (min 0 (o.slacks P.CI x i))
    have := min_le_right 0 (o.slacks P.CI x i)
    linarith
  have e6 := (abs_le.mp h3).2
  unfold val mag
  generalize (P.CI.length : ℝ) * o.eps * (∑ i, |P.G i i|) * ∑ i : Fin n, |J0 i.val i| = Z at *
  nlinarith

/-- The selection of the most violated inequality leaves the start only for something smaller. -/
theorem Rounded.chooseViolated_le (h : o.Rounded m u g) (s : ℕ → ℝ) (iai : ℕ → ℤ) (iaexcl : ℕ → Bool) : ∀ (l : List ℕ) (b : ℝ × ℕ),
    (o.chooseViolated s iai iaexcl l b).1 ≤ b.1 ∧
      ∀ i ∈ l, iai i ≠ -1 → iaexcl i = true → (o.chooseViolated s iai iaexcl l b).1 ≤ s i
  | [], b => ⟨le_rfl, fun i hi => absurd hi List.not_mem_nil⟩
  | j :: l, b => by
    unfold chooseViolated
    split_ifs with hc
    · obtain ⟨h1, h2⟩ := h.chooseViolated_le s iai iaexcl l (s j, j)
      refine ⟨le_trans h1 ((h.lt _ _).mp hc.1).le, fun i hi a b => ?_⟩
      rcases List.mem_cons.mp hi with rfl | hi
      · exact h1
      · exact h2 i hi a b
    · obtain ⟨h1, h2⟩ := h.chooseViolated_le s iai iaexcl l b
      refine ⟨h1, fun i hi a a' => ?_⟩
      rcases List.mem_cons.mp hi with rfl | hi
      · have : ¬ s i < b.1 := fun hlt => hc ⟨(h.lt _ _).mpr hlt, a, a'⟩
        linarith
      · exact h2 i hi a a'

/-- The last step before the return of `OPTIMAL`. -/
theorem reach_optimal {F : Type} {o : Arith F n} {maxIter : ℕ} {P : FQP F n} {J0 : ℕ → Fin n → F} {a : FNext F n}
    (ha : ∀ r s, a ≠ .ret r s) {q : FNext F n} (hr : o.Reach maxIter P J0 a q) (s : FState F n) (hq : q = .ret .optimal s) :
    (∃ st, o.Reach maxIter P J0 a (.l1 st) ∧ s.x = st.x ∧ s.A = st.A ∧ s.iq = st.iq ∧
      o.le (o.abs (o.sumNeg (o.slacks P.CI st.x) P.CI.length)) (o.tol P J0)) ∨
    ∃ st, o.Reach maxIter P J0 a (.l2 st) ∧ s.x = st.x ∧ s.A = st.A ∧ s.iq = st.iq ∧
      o.le o.zero (o.chooseViolated st.s st.iai st.iaexcl (List.range P.CI.length) (st.ss, st.ip)).1 := by
  classical
  induction hr with
  | refl => exact absurd hq (ha _ _)
  | @tail b c hb hs ih =>
    subst hq
    cases b with
    | ret r s' =>
      cases hs
      exact ih rfl
    | eq i s' =>
      exfalso
      simp only [Arith.step, Arith.stepEq] at hs
      split at hs
      · split at hs
        · split at hs
          · split at hs <;> cases hs
          all_goals cases hs
        · cases hs
      · cases hs
    | l1 st =>
      left
      refine ⟨st, hb, ?_⟩
      simp only [Arith.step, Arith.stepL1] at hs
      split at hs
      · cases hs
      · split at hs
        · split at hs
          · rename_i hle
            cases hs
            exact ⟨rfl, rfl, rfl, hle⟩
          · cases hs
        · cases hs
    | l2 st =>
      right
      refine ⟨st, hb, ?_⟩
      simp only [Arith.step, Arith.stepL2] at hs
      split at hs
      · rename_i hle
        cases hs
        exact ⟨rfl, rfl, rfl, hle⟩
      · split at hs <;> cases hs
    | l2a st =>
      exfalso
      have hdual : ∀ r l t, o.dualStep P r l t st ≠ .ok (.ret .optimal s) := by
        intro r l t h
        unfold dualStep at h
        split at h <;> cases h
      have hmove : ∀ np d z r l t t2, o.moveStep P np d z r l t t2 st ≠ .ok (.ret .optimal s) := by
        intro np d z r l t t2 h
        unfold moveStep fullStep at h
        dsimp only at h
        split at h
        · split at h
          · split at h
            · cases h
            · split at h
              · split at h <;> cases h
              all_goals cases h
          all_goals cases h
        · split at h <;> cases h
      simp only [Arith.step, Arith.stepL2a] at hs
      split at hs
      · split at hs
        · cases hs
        · split at hs
          · cases hs
          · exact hdual _ _ _ hs
        · split at hs
          · cases hs
          · split at hs
            · exact hdual _ _ _ hs
            · exact hmove _ _ _ _ _ _ _ hs
      · cases hs

end Arith

open Arith

/-- C88, first part. With rounded arithmetic and well-scaled data, when `solve_quadprog` returns `OPTIMAL`, either all inequalities hold
at the returned point up to the documented tolerance and the rounding of one evaluation, or all inequalities that are not
in the returned active set hold up to the rounding of one evaluation. -/
theorem C88_optimal (o : Arith ℝ n) {m : ℕ} {u g : ℝ} (ho : o.Rounded m u g) (maxIter : ℕ) (P : FQP ℝ n) (hE : P.CE.length ≤ n)
    (hm : P.CI.length ≤ m) (J0 : ℕ → Fin n → ℝ) (x0 : Fin n → ℝ) (w : FWork ℝ n) {N B : ℝ} (hC : o.ConditionedFp u g maxIter P J0 N B)
    (fuel : ℕ) (hf : P.CE.length + 2 + maxIter * (n + 3) ≤ fuel) (s : FState ℝ n)
    (h : o.solve maxIter P J0 x0 w fuel = .ok (.optimal, s)) :
    (∀ i < P.CI.length, -(105 * P.CI.length * o.eps * (∑ i, |P.G i i|) * (∑ i : Fin n, |J0 i.val i|) +
        g * mag (P.CI.getD i (0, 0)) s.x) ≤ val (P.CI.getD i (0, 0)) s.x) ∨
    ∀ i < P.CI.length, (∃ k, P.CE.length ≤ k ∧ k < s.iq ∧ s.A k = i) ∨
      -(g * mag (P.CI.getD i (0, 0)) s.x) ≤ val (P.CI.getD i (0, 0)) s.x := by
  have hacc := (C87_rounded o ho maxIter P hE J0 x0 w hC).1
  obtain ⟨r, s', h1, h2⟩ := Arith.run_good ho.sane hacc _ (.eq 0 (o.init P J0 x0 w)) le_rfl ⟨rfl, Nat.zero_le _, hE, rfl⟩ .refl
  have h3 := h1 fuel (by simpa [Arith.cost] using hf)
  rw [show o.run maxIter P J0 fuel (.eq 0 (o.init P J0 x0 w)) = .ok (.optimal, s) from h] at h3
  cases h3
  rcases reach_optimal (fun _ _ => by simp) h2 s rfl with ⟨st, hr, e1, e2, e3, hle⟩ | ⟨st, hr, e1, e2, e3, hle⟩
  · left
    intro i hi
    rw [e1]
    exact ho.psi_exit hC.u0 hC.u1 hC.g0 hC.g1 hm hle hi
  · right
    intro i hi
    obtain ⟨⟨hact, h0, -, hex, hsl⟩, -⟩ := hC.reach ho hE hr
    rw [e1, e2, e3]
    by_cases hia : st.iai i = -1
    · exact Or.inl (hact.mark i hia)
    · right
      have hc := (ho.chooseViolated_le st.s st.iai st.iaexcl (List.range P.CI.length) (st.ss, st.ip)).2 i (List.mem_range.mpr hi) hia (hex i)
      rw [ho.le, ho.zero] at hle
      have hs := ho.slacks P.CI st.x i hi
      rw [hsl] at hc hle
      have := (abs_le.mp hs).2
      unfold val mag
      linarith

/-- C88, second part. If moreover the iterates stay in a ball of radius `X` and the directions of the equalities pass the test of
eiquadprog-fast.cpp:346, then at a point returned with `OPTIMAL` all equalities and all inequalities of the active set hold up to a multiple of the
rounding errors, and all other inequalities hold up to the tolerance of the code and the rounding of one evaluation. -/
theorem C88_constraints (o : Arith ℝ n) {m : ℕ} {u g : ℝ} (ho : o.Rounded m u g) (maxIter : ℕ) (P : FQP ℝ n) (hE : P.CE.length ≤ n)
    (hm : P.CI.length ≤ m) (J0 : ℕ → Fin n → ℝ) (x0 : Fin n → ℝ) (w : FWork ℝ n) {ν σ β b X : ℝ}
    (hC : o.ScaledFp u g maxIter P J0 ν σ β b) (hX : 0 ≤ X)
    (hx : ∀ q, o.Reach maxIter P J0 (.eq 0 (o.init P J0 x0 w)) q → ∑ k, (st q).x k ^ 2 ≤ X ^ 2)
    (hfar : ∀ i s, o.Reach maxIter P J0 (.eq 0 (o.init P J0 x0 w)) (.eq i s) → i < P.CE.length →
      o.far (o.updateZ s.J (o.gemvT s.J (P.CE.getD i (0, 0)).1) s.iq))
    (fuel : ℕ) (hf : P.CE.length + 2 + maxIter * (n + 3) ≤ fuel) (s : FState ℝ n)
    (h : o.solve maxIter P J0 x0 w fuel = .ok (.optimal, s)) :
    let C : ℝ := (P.CE.length + 2 + maxIter * (n + 3) : ℕ)
    let τ := 6 * (g + u) * (β * X + b) + C * (β * X) * (12 * (g + 80 * u * (n * C)) * (ν / σ) + 4 * u)
    (∀ i < P.CE.length, |val (P.CE.getD i (0, 0)) s.x| ≤ τ) ∧
    (∀ k, P.CE.length ≤ k → k < s.iq → |val (P.CI.getD (s.A k).toNat (0, 0)) s.x| ≤ τ) ∧
    ∀ i < P.CI.length, -max (105 * P.CI.length * o.eps * (∑ i, |P.G i i|) * (∑ i : Fin n, |J0 i.val i|) +
        g * mag (P.CI.getD i (0, 0)) s.x) τ ≤ val (P.CI.getD i (0, 0)) s.x := by
  intro C τ
  have hacc := (C87_rounded o ho maxIter P hE J0 x0 w hC.cond).1
  obtain ⟨r, s', h1, h2⟩ := Arith.run_good ho.sane hacc _ (.eq 0 (o.init P J0 x0 w)) le_rfl ⟨rfl, Nat.zero_le _, hE, rfl⟩ .refl
  have h3 := h1 fuel (by simpa [Arith.cost] using hf)
  rw [show o.run maxIter P J0 fuel (.eq 0 (o.init P J0 x0 w)) = .ok (.optimal, s) from h] at h3
  cases h3
  have key : ∃ st c, c ≤ P.CE.length + 2 + maxIter * (n + 3) ∧ Resid u g (rots n maxIter P) P ν σ β b X c st ∧ P.CE.length ≤ st.iq ∧
      s.x = st.x ∧ s.A = st.A ∧ s.iq = st.iq := by
    rcases reach_optimal (fun _ _ => by simp) h2 s rfl with ⟨st, hr, e1, e2, e3, hle⟩ | ⟨st, hr, e1, e2, e3, hle⟩
    · obtain ⟨hact, c, hc, -, hB⟩ := hC.reach ho hX hE hx hfar hr
      exact ⟨st, c, by omega, hB, ActOk.ne_le hact, e1, e2, e3⟩
    · obtain ⟨⟨hact, -⟩, c, hc, -, hB⟩ := hC.reach ho hX hE hx hfar hr
      exact ⟨st, c, by omega, hB, hact.ne_le, e1, e2, e3⟩
  obtain ⟨st, c, hc, hR, hne, e1, e2, e3⟩ := key
  have hV : ∀ k < st.iq, |val (active P st.A k) st.x| ≤ τ := fun k hk => le_trans (hR.V k hk) (hC.resid_le hX hc)
  have hI : ∀ k, P.CE.length ≤ k → k < s.iq → |val (P.CI.getD (s.A k).toNat (0, 0)) s.x| ≤ τ := by
    intro k hk hk'
    have := hV k (by omega)
    unfold active at this
    rw [if_neg (by omega)] at this
    rw [e1, e2]
    exact this
  refine ⟨fun i hi => ?_, hI, ?_⟩
  · have := hV i (by omega)
    unfold active at this
    rw [if_pos hi] at this
    rw [e1]
    exact this
  · have he0 : 0 ≤ 105 * (P.CI.length : ℝ) * o.eps * (∑ i, |P.G i i|) * (∑ i : Fin n, |J0 i.val i|) := by
      have := ho.eps
      have : 0 ≤ ∑ i, |P.G i i| := Finset.sum_nonneg fun _ _ => abs_nonneg _
      have : 0 ≤ ∑ i : Fin n, |J0 i.val i| := Finset.sum_nonneg fun _ _ => abs_nonneg _
      positivity
    rcases C88_optimal o ho maxIter P hE hm J0 x0 w hC.cond fuel hf s h with hall | hrest
    · intro i hi
      have := hall i hi
      have := le_max_left (105 * P.CI.length * o.eps * (∑ i, |P.G i i|) * (∑ i : Fin n, |J0 i.val i|) + g * mag (P.CI.getD i (0, 0)) s.x) τ
      linarith
    · intro i hi
      have hmx := le_max_left (105 * P.CI.length * o.eps * (∑ i, |P.G i i|) * (∑ i : Fin n, |J0 i.val i|) + g * mag (P.CI.getD i (0, 0)) s.x) τ
      have hmx' := le_max_right (105 * P.CI.length * o.eps * (∑ i, |P.G i i|) * (∑ i : Fin n, |J0 i.val i|) + g * mag (P.CI.getD i (0, 0)) s.x) τ
      rcases hrest i hi with ⟨k, k1, k2, k3⟩ | hge
      · have h5 := hI k k1 k2
        rw [k3, Int.toNat_natCast] at h5
        have := neg_abs_le (val (P.CI.getD i (0, 0)) s.x)
        linarith
      · linarith

namespace C88Example

/-- A problem in one variable: minimise `x ^ 2 / 2` with `x ≥ 1`. -/
def prob : FQP ℝ 1 := ⟨1, fun _ => 0, [], [(fun _ => 1, -1)]⟩

variable {fl : ℝ → ℝ} (hfl : ∀ x, |fl x - x| ≤ 2⁻¹ ^ 53 * |x|) (h1 : fl 1 = 1) (hm : fl (-1) = -1)
  (tri : (ℕ → ℕ → ℝ) → (ℕ → ℝ) → ℕ → ℕ → ℝ)

include hfl in
theorem fl_zero : fl 0 = 0 := by
  have := hfl 0
  rw [abs_zero, mul_zero, sub_zero] at this
  exact abs_eq_zero.mp (le_antisymm this (abs_nonneg _))

include hfl in
theorem scaled : (flArith fl (2⁻¹ ^ 52) tri 1).ScaledFp (2⁻¹ ^ 53) ((1 + 2⁻¹ ^ 53) ^ (1 + 1) - 1) 1000 prob (fun _ _ => 1) 1 1 1 1 where
  cond := {
    u0 := by norm_num, u1 := by norm_num, g0 := by norm_num, g1 := by norm_num
    steps := by simp only [prob]; norm_num
    sum := by simp
    ce := by simp [prob]
    ci := by simp [prob]
    eps := by simp only [flArith]; norm_num }
  ν0 := by norm_num
  β0 := by norm_num
  σ0 := by norm_num
  b0 := by norm_num
  low := fun v => by simp
  small := by simp only [prob]; norm_num
  eps := by simp only [flArith]; norm_num
  ce := by simp [prob]
  ci := by simp [prob]

/-- The states of the run. -/
def Inv : FNext ℝ 1 → Prop
  | .ret r s => ∑ k, s.x k ^ 2 ≤ 1 ∧ r = .optimal
  | .eq _ s => s.x = (fun _ => 0) ∧ s.J = (fun _ _ => 1) ∧ s.iq = 0 ∧ s.iter = 0
  | .l1 s => (s.x = (fun _ => 0) ∧ s.J = (fun _ _ => 1) ∧ s.iq = 0 ∧ s.iter = 0) ∨ (s.x = (fun _ => 1) ∧ s.iter = 1)
  | .l2 s => s.x = (fun _ => 0) ∧ s.J = (fun _ _ => 1) ∧ s.iq = 0 ∧ s.iter = 1
  | .l2a s => s.x = (fun _ => 0) ∧ s.J = (fun _ _ => 1) ∧ s.iq = 0 ∧ s.iter = 1 ∧ s.s 0 = -1

include hfl h1 hm in
theorem inv {w : FWork ℝ 1} {q : FNext ℝ 1}
    (hr : (flArith fl (2⁻¹ ^ 52) tri 1).Reach 1000 prob (fun _ _ => 1) (.eq 0 ((flArith fl (2⁻¹ ^ 52) tri 1).init prob (fun _ _ => 1) (fun _ => 0) w)) q) :
    Inv q := by
  have h0 := fl_zero hfl
  have ho := C87_left_to_right (n := 1) (m := 1) (N := 1) (by norm_num) hfl (eps := 2⁻¹ ^ 52) (by norm_num) tri le_rfl le_rfl
  have hC := scaled hfl tri
  induction hr with
  | refl => exact ⟨rfl, rfl, rfl, rfl⟩
  | @tail b q' hb hs ih =>
    obtain ⟨hg, c, hc, hB⟩ := hC.cond.reach ho (by simp [prob]) hb
    cases b with
    | ret r s => cases Out.ok.inj (show Out.ok (FNext.ret r s) = Out.ok q' from hs); exact ih
    | eq i s =>
      cases Out.ok.inj (show Out.ok (FNext.l1 _) = Out.ok q' from hs)
      exact Or.inl ih
    | l1 s =>
      replace hs : (flArith fl (2⁻¹ ^ 52) tri 1).stepL1 1000 prob (fun _ _ => 1) s = .ok q' := hs
      unfold Arith.stepL1 at hs
      dsimp only at hs
      rcases ih with ih | ih
      · rw [if_neg (by rw [ih.2.2.2]; norm_num)] at hs
        split_ifs at hs
        · cases Out.ok.inj hs
          simp [Inv, ih.1]
        · cases Out.ok.inj hs
          exact ⟨ih.1, ih.2.1, ih.2.2.1, by simp [ih.2.2.2]⟩
      · have hpsi : (flArith fl (2⁻¹ ^ 52) tri 1).le ((flArith fl (2⁻¹ ^ 52) tri 1).abs ((flArith fl (2⁻¹ ^ 52) tri 1).sumNeg
            ((flArith fl (2⁻¹ ^ 52) tri 1).slacks prob.CI s.x) prob.CI.length)) ((flArith fl (2⁻¹ ^ 52) tri 1).tol prob fun _ _ => 1) := by
          have hp : ∀ a : ℝ, 0 ≤ a → 0 ≤ fl a := fun a ha => by
            have := (abs_le.mp (hfl a)).1
            rw [abs_of_nonneg ha] at this
            have h53 : (2⁻¹ : ℝ) ^ 53 ≤ 1 := by norm_num
            have := mul_le_mul_of_nonneg_right h53 ha
            linarith
          rw [ih.1]
          simp only [flArith, Arith.tol, prob, flSum, List.ofFn_succ, List.ofFn_zero, List.foldl, List.getD_cons_zero, List.length_singleton, List.range_one,
            List.map, one_mul, mul_one, h1, neg_add_cancel, h0, min_self, zero_add, abs_zero, Matrix.one_apply_eq, Nat.cast_one]
          exact hp _ (mul_nonneg (hp _ (hp _ (hp _ (by norm_num)))) (by norm_num))
        rw [if_pos hpsi, if_neg (by rw [ih.2]; norm_num)] at hs
        split_ifs at hs
        cases Out.ok.inj hs
        simp [Inv, ih.1]
    | l2 s =>
      obtain ⟨hact, g0, g1, g2, g3⟩ := hg
      replace hs : (flArith fl (2⁻¹ ^ 52) tri 1).stepL2 prob s = .ok q' := hs
      unfold Arith.stepL2 at hs
      dsimp only at hs
      split_ifs at hs
      · cases Out.ok.inj hs
        simp [Inv, ih.1]
      · cases Out.ok.inj hs
        refine ⟨ih.1, ih.2.1, ih.2.2.1, ih.2.2.2, ?_⟩
        dsimp only
        rw [g3, ih.1]
        simp [flArith, prob, flSum, List.ofFn_succ, h0, hm]
    | l2a s =>
      obtain ⟨i1, i2, i3, i5, i4⟩ := ih
      have hacc := hC.cond.accepts ho (c := c) (by omega) hB
      have hip : s.ip = 0 := by
        have := hg.2.1
        simp only [prob, List.length_singleton] at this
        omega
      have hz : (flArith fl (2⁻¹ ^ 52) tri 1).updateZ (fun _ _ => 1)
          ((flArith fl (2⁻¹ ^ 52) tri 1).gemvT (fun _ _ => 1) ((flArith fl (2⁻¹ ^ 52) tri 1).row prob 0).1) 0 = fun _ => 1 := by
        unfold Arith.updateZ
        rw [if_pos one_pos]
        funext i
        simp [flArith, prob, flSum, List.ofFn_succ, h1, Arith.row]
      rcases stepL2a_cases ho.sane hg hacc hs with ⟨rfl, e⟩ | ⟨k, r, t, st1, k1, k2, k3, rfl⟩ | ⟨k, t, f', u', st1, k1, k2, k3, k4, -, rfl⟩ |
        ⟨t, f', u', a, k1, k2, k3, k4, -, rfl⟩
      · exfalso
        rcases e with ⟨e, -⟩ | ⟨t, e | e⟩
        · rw [hip, i3, i2, hz] at e
          apply e
          unfold far
          rw [ho.lt]
          simp [flArith, flSum, List.ofFn_succ, h1]
          norm_num
        · exact ho.geInf t e
        · exact e (ho.ltInf t)
      · omega
      · omega
      · right
        refine ⟨?_, i5⟩
        dsimp only
        rw [ho.eq, hip, i4, i3, i2] at k3
        rw [hz] at k3
        have ht : t = 1 := by
          rw [k3]
          simp [flArith, prob, flSum, List.ofFn_succ, h1, Arith.row]
        rw [ht, hip, i3, i2, i1, hz]
        funext i
        simp [flArith, h1]

end C88Example

/-- A non-trivial case: doubles, one thousand passes, minimise `x² / 2` under `x ≥ 1` from `x = 0`. -/
example (fl : ℝ → ℝ) (hfl : ∀ x, |fl x - x| ≤ 2⁻¹ ^ 53 * |x|) (h1 : fl 1 = 1) (hm : fl (-1) = -1)
    (tri : (ℕ → ℕ → ℝ) → (ℕ → ℝ) → ℕ → ℕ → ℝ) (w : FWork ℝ 1) :
    ∃ s, (flArith fl (2⁻¹ ^ 52) tri 1).solve 1000 C88Example.prob (fun _ _ => 1) (fun _ => 0) w 4002 = .ok (.optimal, s) ∧ 1 - 10⁻¹ ^ 5 ≤ s.x 0 := by
  have ho := C87_left_to_right (n := 1) (m := 1) (N := 1) (by norm_num) hfl (eps := 2⁻¹ ^ 52) (by norm_num) tri le_rfl le_rfl
  have hacc := (C87_rounded _ ho 1000 C88Example.prob (by simp [C88Example.prob]) (fun _ _ => 1) (fun _ => 0) w (C88Example.scaled hfl tri).cond).1
  obtain ⟨r, s, h3, h4⟩ := Arith.run_good ho.sane hacc _ (.eq 0 _) le_rfl ⟨rfl, Nat.zero_le _, by simp [C88Example.prob], rfl⟩ .refl
  have h : (flArith fl (2⁻¹ ^ 52) tri 1).solve 1000 C88Example.prob (fun _ _ => 1) (fun _ => 0) w 4002 = .ok (r, s) :=
    h3 4002 (by simp [Arith.cost, C88Example.prob])
  obtain rfl := (C88Example.inv hfl h1 hm tri h4).2
  refine ⟨s, h, ?_⟩
  have key := (C88_constraints (flArith fl (2⁻¹ ^ 52) tri 1) (C87_left_to_right (m := 1) (N := 1) (by norm_num) hfl (by norm_num) tri le_rfl le_rfl)
    1000 C88Example.prob (by simp [C88Example.prob]) (by simp [C88Example.prob]) (fun _ _ => 1) (fun _ => 0) w (C88Example.scaled hfl tri) (X := 1) (by norm_num)
    (fun q hq => ?_) (fun i s hr hi => absurd hi (by simp [C88Example.prob])) 4002 (by simp [C88Example.prob]) s h).2.2 0 (by simp [C88Example.prob])
  · simp only [C88Example.prob, flArith, val, mag, Finset.univ_unique, Finset.sum_singleton, List.length_singleton, List.getD_cons_zero, List.length_nil,
      Matrix.one_apply_eq, one_mul, Fin.default_eq_zero] at key
    have h2 : |s.x 0| ≤ 1 ∨ 1 ≤ s.x 0 ∨ |s.x 0| = -s.x 0 := by
      rcases abs_cases (s.x 0) with ⟨e, -⟩ | ⟨e, -⟩
      · rcases le_total 1 (s.x 0) with h | h
        · exact Or.inr (Or.inl h)
        · exact Or.inl (by rw [e]; exact h)
      · exact Or.inr (Or.inr e)
    generalize |s.x 0| = y at *
    norm_num at key ⊢
    have key := key
    rw [← sub_le_iff_le_add, le_max_iff] at key
    rcases h2 with h2 | h2 | h2
    · rcases key with key | key <;> linarith
    · linarith
    · rcases key with key | key <;> linarith
  · have := C88Example.inv hfl h1 hm tri hq
    rw [one_pow]
    cases q with
    | ret r s => exact this.1
    | eq i s => simp [st, this.1]
    | l1 s => rcases this with this | this <;> simp [st, this.1]
    | l2 s => simp [st, this.1]
    | l2a s => simp [st, this.1]

end Verif
