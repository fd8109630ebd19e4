import Verif.Lemmas.QuadRoundedDual

/-! The point and the multipliers under rounding: the invariant of the solver. -/

namespace Verif

variable {n : ℕ}

namespace Arith

variable {o : Arith ℝ n} {m : ℕ} {u g : ℝ}

theorem sum_skip (G : ℕ → ℝ) (k : ℕ) : ∀ q, k ≤ q → ∑ i ∈ Finset.range q, (if i < k then G i else G (i + 1)) = ∑ i ∈ Finset.range (q + 1), G i - G k
  | 0, hk => by
    obtain rfl : k = 0 := by omega
    simp
  | q + 1, hk => by
    rw [Finset.sum_range_succ _ (q + 1)]
    rcases Nat.lt_or_ge q k with h | h
    · obtain rfl : k = q + 1 := by omega
      rw [add_sub_cancel_right]
      refine Finset.sum_congr rfl fun i hi => ?_
      rw [if_pos (Finset.mem_range.mp hi)]
    · rw [Finset.sum_range_succ, sum_skip G k q h, if_neg (by omega)]
      ring

section
variable {maxIter : ℕ} {P : FQP ℝ n} {J0 : ℕ → Fin n → ℝ} {ν σ β b X U : ℝ}

/-- The combination of the normals and the multipliers after a constraint has been dropped. -/
theorem drop_comb {st st1 st' : FState ℝ n} (hact : ActOk P st) {k : ℕ} (hk : P.CE.length ≤ k) (hk' : k < st.iq)
    (hd : o.dropActive P st1 (st.A k) = .ok st') (e3 : st1.A = st.A) (e4 : st1.iq = st.iq) :
    st'.iq + 1 = st.iq ∧ st'.x = st1.x ∧
    (∀ i, comb P st'.A st'.u (st'.iq + 1) i = comb P st.A st1.u (st.iq + 1) i - st1.u k * (active P st.A k).1 i) ∧
    ∑ i ∈ Finset.range (st'.iq + 1), |st'.u i| = ∑ i ∈ Finset.range (st.iq + 1), |st1.u i| - |st1.u k| ∧
    ∃ d, o.deleteConstraint (P.CE.length + P.CI.length) P.CE.length st1.J st1.R st.A st1.u st.iq (st.A k) = .ok d ∧ st'.J = d.J ∧
      findActive st.A P.CE.length st.iq (st.A k) = k := by
  obtain ⟨d, hd1, rfl⟩ := dropActive_cases hd
  rw [e3, e4] at hd1
  have hq : findActive st.A P.CE.length st.iq (st.A k) = k :=
    findActive_eq hk hk' rfl fun i h1 h2 e => by
      have := hact.inj i k h1 (by omega) hk hk' e
      omega
  have hiq : st.iq - 1 + 1 = st.iq := by omega
  have hdA : ∀ i < st.iq, active P d.A i = if i < k then active P st.A i else active P st.A (i + 1) := by
    intro i hi
    unfold deleteConstraint at hd1
    dsimp only at hd1
    split_ifs at hd1 with hcond
    rw [hq] at hd1
    cases Out.ok.inj hd1
    unfold active
    dsimp only
    split_ifs <;> first | rfl | omega
  have hdu : ∀ i < st.iq, d.u i = if i < k then st1.u i else st1.u (i + 1) := by
    intro i hi
    unfold deleteConstraint at hd1
    dsimp only at hd1
    split_ifs at hd1 with hcond
    rw [hq] at hd1
    cases Out.ok.inj hd1
    dsimp only
    split_ifs <;> first | rfl | omega
  refine ⟨by dsimp only; omega, rfl, fun i => ?_, ?_, d, hd1, rfl, hq⟩
  · dsimp only
    unfold comb
    rw [e4, hiq, ← sum_skip (fun j => st1.u j * (active P st.A j).1 i) k st.iq hk'.le]
    refine Finset.sum_congr rfl fun j hj => ?_
    rw [hdA j (Finset.mem_range.mp hj), hdu j (Finset.mem_range.mp hj)]
    split_ifs <;> rfl
  · dsimp only
    rw [e4, hiq, ← sum_skip (fun j => |st1.u j|) k st.iq hk'.le]
    refine Finset.sum_congr rfl fun j hj => ?_
    rw [hdu j (Finset.mem_range.mp hj)]
    split_ifs <;> rfl

/-- The sum of the absolute values of the multipliers. -/
noncomputable def multSum : FNext ℝ n → ℝ
  | .l2a st => ∑ k ∈ Finset.range (st.iq + 1), |st.u k|
  | q => ∑ k ∈ Finset.range (st q).iq, |(st q).u k|

/-- What is known of the point and the multipliers after `c` steps. -/
def Dual (u : ℝ) (P : FQP ℝ n) (J0 : ℕ → Fin n → ℝ) (x0 : Fin n → ℝ) (Y D : ℝ) (c : ℕ) : FNext ℝ n → Prop
  | .ret r s => r = .optimal → Stat J0 x0 s.x (comb P s.A s.u s.iq) (c * D)
  | .eq _ st => Gr u Y (n * c) J0 st.J ∧ Stat J0 x0 st.x (comb P st.A st.u st.iq) (c * D)
  | .l1 st => Gr u Y (n * c) J0 st.J ∧ Stat J0 x0 st.x (comb P st.A st.u st.iq) (c * D)
  | .l2 st => Gr u Y (n * c) J0 st.J ∧ Stat J0 x0 st.x (comb P st.A st.u st.iq) (c * D)
  | .l2a st => Gr u Y (n * c) J0 st.J ∧ Stat J0 x0 st.x (comb P st.A st.u (st.iq + 1)) (c * D)

theorem ScaledFp.statD_nonneg (hC : ScaledFp o u g maxIter P J0 ν σ β b) {γ : ℝ} (hγ : 0 ≤ γ) (hX : 0 ≤ X) (hU : 0 ≤ U) (r : ℕ) :
    0 ≤ statD u g o.eps γ σ β (1.07 * ν) X U r := by
  have hp := hC.par
  have := hp.u0
  have := hp.g0
  have := hC.σ0
  have := hp.β0
  have := hC.ν0
  have := dl_nonneg hp.u0 hp.g0 hp.Q0 r
  unfold statD
  positivity

/-- A dropped constraint: the combination changes little. -/
theorem ScaledFp.drop_stat (hC : ScaledFp o u g maxIter P J0 ν σ β b) (hU : 0 ≤ U) {x c c' a : Fin n → ℝ} {y : ℝ} (ha : ∑ i, a i ^ 2 ≤ β ^ 2)
    (hy : |y| ≤ 2.1 * u * U) (hc' : ∀ i, c' i = c i - y * a i) (x0 : Fin n → ℝ) {E : ℝ} (h : Stat J0 x0 x c E) :
    Stat J0 x0 x c' (E + 2.1 * u * U * (β * (1.07 * ν) ^ 2)) := by
  have hp := hC.par
  have hu0 := hp.u0
  have hJ0 : sqJ J0 ≤ (1.07 * ν) ^ 2 := by
    have := hp.sq 0 (Nat.zero_le _)
    rw [pow_zero, one_mul] at this
    exact le_trans hC.cond.sum this
  refine h.move fun w W hW hw => ?_
  have e : (fun i => c' i - c i) = fun i => -y * a i := by
    funext i
    rw [hc' i]
    ring
  have h1 : ∑ i, (-y * a i) ^ 2 ≤ (2.1 * u * U * β) ^ 2 := by
    simp only [mul_pow (-y), neg_sq]
    rw [← Finset.mul_sum, mul_pow (2.1 * u * U)]
    refine mul_le_mul ?_ ha (Finset.sum_nonneg fun _ _ => sq_nonneg _) (sq_nonneg _)
    rw [← sq_abs]
    exact pow_le_pow_left₀ (abs_nonneg _) hy 2
  rw [e]
  simp only [sub_self, zero_mul, Finset.sum_const_zero, zero_sub, abs_neg]
  refine le_trans (gram_le (mul_nonneg (by positivity) hp.β0) hW hp.Y0 hJ0 h1 hw) (le_of_eq ?_)
  ring

/-- The new multipliers in the loop over the equalities, eiquadprog-fast.cpp:352-353. -/
noncomputable def eqU (o : Arith ℝ n) (v r : ℕ → ℝ) (iq : ℕ) (t : ℝ) : ℕ → ℝ := fun k => if k = iq then t else if k < iq then o.subMul (v k) t (r k) else v k

/-- A combination of equalities does not depend on the active set. -/
theorem comb_eq (A A' : ℕ → ℤ) (v : ℕ → ℝ) {q : ℕ} (hq : q ≤ P.CE.length) : comb P A' v q = comb P A v q := by
  funext i
  unfold comb
  refine Finset.sum_congr rfl fun k hk => ?_
  have hk := Finset.mem_range.mp hk
  unfold active
  rw [if_pos (by omega), if_pos (by omega)]

/-- A multiplier that is zero does not count. -/
theorem comb_zero (A : ℕ → ℤ) (v : ℕ → ℝ) (q : ℕ) : comb P A (Function.update v q 0) (q + 1) = comb P A v q := by
  funext i
  unfold comb
  rw [Finset.sum_range_succ, Function.update_self, zero_mul, add_zero]
  refine Finset.sum_congr rfl fun k hk => ?_
  rw [Function.update_of_ne (Finset.mem_range.mp hk).ne]

theorem sum_zero (v : ℕ → ℝ) (q : ℕ) : ∑ k ∈ Finset.range (q + 1), |Function.update v q 0 k| = ∑ k ∈ Finset.range q, |v k| := by
  rw [Finset.sum_range_succ, Function.update_self, abs_zero, add_zero]
  refine Finset.sum_congr rfl fun k hk => ?_
  rw [Function.update_of_ne (Finset.mem_range.mp hk).ne]

theorem SubMulRounded.eqU (hsm : o.SubMulRounded u) (hu0 : 0 ≤ u) (hu : u ≤ 1 / 1000) {v r : ℕ → ℝ} {iq : ℕ} {t U : ℝ} (hU : 0 ≤ U)
    (hv : ∑ k ∈ Finset.range iq, |v k| ≤ U) (hv' : ∑ k ∈ Finset.range (iq + 1), |o.eqU v r iq t k| ≤ U) :
    Moves u U (Function.update v iq 0) (o.eqU v r iq t) r iq t := by
  refine hsm.moveEq hu0 hu (fun k hk => ?_) (Function.update_self _ _ _) (if_pos rfl) (by rw [sum_zero]; exact hv) (by linarith)
  unfold Arith.eqU
  rw [if_neg hk.ne, if_pos hk, Function.update_of_ne hk.ne]

/-- The loop over the equalities: what happens in one pass. -/
theorem stepEq_cases {i : ℕ} {st : FState ℝ n} (hgood : Good o P (.eq i st)) (hi : i < P.CE.length) {q' : FNext ℝ n} (hs : o.stepEq P i st = .ok q') :
    ∃ a d z r t, o.gemvT st.J (P.CE.getD i (0, 0)).1 = d ∧ o.updateZ st.J d st.iq = z ∧ o.triSolve st.R d st.iq = r ∧
      t = o.eqLen z (P.CE.getD i (0, 0)).1 st.x (P.CE.getD i (0, 0)).2 ∧ o.addConstraint st.J st.R d st.iq st.Rnorm = .ok a ∧ (Arith.st q').J = a.J ∧
      (Arith.st q').x = (fun k => o.mulAdd t (z k) (st.x k)) ∧ (Arith.st q').u = o.eqU st.u r st.iq t ∧ (Arith.st q').iq = st.iq + 1 ∧
      (Arith.st q').f = o.mulAdd (o.mul o.half (o.mul t t)) (o.dot z (P.CE.getD i (0, 0)).1) st.f ∧
      (Arith.st q').A = Function.update st.A i (-(i : ℤ) - 1) ∧ ((∃ s, q' = .eq (i + 1) s) ∨ ∃ s, q' = .ret .redundantEqualities s) := by
  classical
  obtain ⟨g1, g2, g3, g4⟩ := hgood
  unfold stepEq at hs
  rw [if_pos hi, if_pos ⟨by omega, by omega⟩] at hs
  have hrow : P.CE.getD i (fun _ => o.zero, o.zero) = P.CE.getD i (0, 0) := by
    rw [List.getD_eq_getElem?_getD, List.getD_eq_getElem?_getD, List.getElem?_eq_getElem hi]; rfl
  rw [hrow] at hs
  obtain ⟨a, ha⟩ := o.addConstraint_ok (J := st.J) (R := st.R) (d := o.gemvT st.J (P.CE.getD i (0, 0)).1) (Rnorm := st.Rnorm) (show st.iq < n by omega)
  dsimp only at hs
  rw [ha] at hs
  dsimp only at hs
  refine ⟨a, _, _, _, _, rfl, rfl, rfl, rfl, ha, ?_⟩
  split_ifs at hs
  · cases Out.ok.inj hs
    exact ⟨rfl, rfl, rfl, rfl, rfl, rfl, Or.inl ⟨_, rfl⟩⟩
  · cases Out.ok.inj hs
    exact ⟨rfl, rfl, rfl, rfl, rfl, rfl, Or.inr ⟨_, rfl⟩⟩

/-- The invariant holds in every reachable state. -/
theorem ScaledFp.dual_reach (hC : ScaledFp o u g maxIter P J0 ν σ β b) (h : o.Rounded m u g) (hsm : o.SubMulRounded u) {γ : ℝ} (hγ : 0 ≤ γ)
    (htri : o.TriRounded γ) (hX : 0 ≤ X) (hU : 0 ≤ U) (hE' : P.CE.length ≤ n) {x0 : Fin n → ℝ}
    {w : FWork ℝ n} (hx : ∀ q, o.Reach maxIter P J0 (.eq 0 (o.init P J0 x0 w)) q → ∑ k, (st q).x k ^ 2 ≤ X ^ 2)
    (hfar : ∀ i s, o.Reach maxIter P J0 (.eq 0 (o.init P J0 x0 w)) (.eq i s) → i < P.CE.length →
      o.far (o.updateZ s.J (o.gemvT s.J (P.CE.getD i (0, 0)).1) s.iq))
    (hu : ∀ q, o.Reach maxIter P J0 (.eq 0 (o.init P J0 x0 w)) q → multSum q ≤ U)
    {q : FNext ℝ n} (hr : o.Reach maxIter P J0 (.eq 0 (o.init P J0 x0 w)) q) :
    ∃ c, c + cost maxIter P q ≤ P.CE.length + 2 + maxIter * (n + 3) ∧
      Dual u P J0 x0 (1.07 * ν) (statD u g o.eps γ σ β (1.07 * ν) X U (rots n maxIter P)) c q := by
  classical
  have hp := hC.par
  have hDn := hC.statD_nonneg hγ hX hU (rots n maxIter P)
  have hsucc : ∀ c : ℕ, ((c : ℝ)) * statD u g o.eps γ σ β (1.07 * ν) X U (rots n maxIter P) ≤
      ((c + 1 : ℕ) : ℝ) * statD u g o.eps γ σ β (1.07 * ν) X U (rots n maxIter P) := fun c => by
    push_cast
    linarith
  induction hr with
  | refl =>
    refine ⟨0, by simp [cost], by rw [Nat.mul_zero]; exact Gr.refl _, fun w' W hW _ => ?_⟩
    have e : gram J0 (comb P (o.init P J0 x0 w).A (o.init P J0 x0 w).u (o.init P J0 x0 w).iq) w' = 0 := by
      unfold gram comb
      refine Finset.sum_eq_zero fun j _ => ?_
      simp [init]
    rw [e]
    simp [init]
  | @tail q q' hb hs ih =>
    obtain ⟨c, hc, hdual⟩ := ih
    obtain ⟨hgood, cB, hcB, hB, hbig⟩ := hC.reach h hX hE' hx hfar hb
    by_cases hret : ∃ r s, q = .ret r s
    · obtain ⟨r, s, rfl⟩ := hret
      cases Out.ok.inj (show Out.ok (FNext.ret r s) = Out.ok q' from hs)
      exact ⟨c, hc, hdual⟩
    have hacc : ∀ st, q = .l2a st → o.Accepts P st := fun st e => hC.cond.accepts h (c := cB) (by omega) (by rw [e] at hB; exact hB)
    obtain ⟨q2, s1, -, s3, -⟩ := step_good h.sane (maxIter := maxIter) (J0 := J0)
      (hC.cond.carries h (c := cB) (by omega)) hB hgood (fun r s e => hret ⟨r, s, e⟩) hacc
    rw [hs] at s1
    cases Out.ok.inj s1
    refine ⟨c + 1, by omega, ?_⟩
    have hmn : n * c ≤ n * (c + 1) := Nat.mul_le_mul_left n (Nat.le_succ c)
    have hxb := hx _ hb
    have hxb' := hx _ (.tail hb hs)
    have hub := hu _ hb
    have hub' := hu _ (.tail hb hs)
    cases q with
    | ret r s => exact absurd ⟨r, s, rfl⟩ hret
    | eq i st =>
      replace hs : o.stepEq P i st = .ok q' := hs
      by_cases hi : i < P.CE.length
      · obtain ⟨hG, hS⟩ := hdual
        have hRes : Resid u g (rots n maxIter P) P ν σ β b X cB st := hbig
        have hd : ∀ k < st.iq, st.R k k ≠ 0 := hC.extra h hX hE' hx hfar hb
        have hRn : n * (P.CE.length + 2 + maxIter * (n + 3)) ≤ rots n maxIter P := le_rfl
        have hRes' : Resid u g (rots n maxIter P) P ν σ β b X (P.CE.length + 2 + maxIter * (n + 3)) st :=
          hRes.same hC hX (by omega) rfl rfl rfl (fun _ _ => rfl) rfl
        have hG' : Gr u (1.07 * ν) (n * (P.CE.length + 2 + maxIter * (n + 3))) J0 st.J := hG.mono hp.u0 (Nat.mul_le_mul_left n (by omega))
        have hcB' : n * cB + n ≤ rots n maxIter P := by
          have : n * (cB + 1) ≤ rots n maxIter P := Nat.mul_le_mul_left n (by omega)
          rwa [Nat.mul_succ] at this
        have hcast : ((c + 1 : ℕ) : ℝ) * statD u g o.eps γ σ β (1.07 * ν) X U (rots n maxIter P) =
            c * statD u g o.eps γ σ β (1.07 * ν) X U (rots n maxIter P) + statD u g o.eps γ σ β (1.07 * ν) X U (rots n maxIter P) := by
          push_cast
          ring
        have hY := hp.Y0
        have hβ := hp.β0
        have hσ := hC.σ0
        have hu0 := hp.u0
        have z2 : 0 ≤ 5.4 * U * (1.07 * ν) * Real.sqrt o.eps / σ := by positivity
        have z3 : 0 ≤ u * U * (β * (1.07 * ν) ^ 2) := by positivity
        have hent := hC.enters_eq hgood hi
        have hlt : st.iq < n := by
          have := hgood.1
          omega
        have g1 : st.iq = i := hgood.1
        obtain ⟨a, d, z, r, t, c1, c2, c3, c4, c5, c6, c7, c8, c9, c10, c11, c12⟩ := stepEq_cases hgood hi hs
        rw [c7] at hxb'
        have hmul : multSum q' = ∑ k ∈ Finset.range (Arith.st q').iq, |(Arith.st q').u k| := by
          rcases c12 with ⟨s, rfl⟩ | ⟨s, rfl⟩ <;> rfl
        rw [hmul, c8, c9] at hub'
        have hmv := hsm.eqU hp.u0 hp.u1 hU hub hub'
        have hst : Stat J0 x0 (Arith.st q').x (comb P (Arith.st q').A (Arith.st q').u (Arith.st q').iq) (((c + 1 : ℕ) : ℝ) * statD u g o.eps γ σ β (1.07 * ν) X U (rots n maxIter P)) := by
          have hS' := hS
          rw [← comb_zero] at hS'
          rw [c7, c8, c9, comb_eq st.A _ _ (by omega), hcast]
          refine (hS'.move fun w' W hW hw' => hC.full_stat h hγ htri hRn hX hRes' hent hG' hd c1 c3 c2 hlt hxb hxb' hU hmv hW hw').mono ?_
          unfold statD
          linarith
        rcases c12 with ⟨s, rfl⟩ | ⟨s, rfl⟩
        · refine ⟨?_, hst⟩
          obtain c6 : s.J = a.J := c6
          rw [c6, Nat.mul_succ]
          exact hG.trans (h.addConstraint_gram hp (r := n * cB) hcB' hRes.J c5)
        · intro e
          cases e
      · unfold stepEq at hs
        rw [if_neg hi] at hs
        cases Out.ok.inj hs
        exact ⟨hdual.1.mono hp.u0 hmn, hdual.2.mono (hsucc c)⟩
    | l1 st =>
      replace hs : o.stepL1 maxIter P J0 st = .ok q' := hs
      unfold stepL1 at hs
      dsimp only at hs
      split_ifs at hs
      · cases Out.ok.inj hs
        intro e
        cases e
      · cases Out.ok.inj hs
        exact fun _ => hdual.2.mono (hsucc c)
      · cases Out.ok.inj hs
        exact ⟨hdual.1.mono hp.u0 hmn, hdual.2.mono (hsucc c)⟩
    | l2 st =>
      replace hs : o.stepL2 P st = .ok q' := hs
      unfold stepL2 at hs
      dsimp only at hs
      split_ifs at hs with hz hg
      · cases Out.ok.inj hs
        exact fun _ => hdual.2.mono (hsucc c)
      · cases Out.ok.inj hs
        refine ⟨hdual.1.mono hp.u0 hmn, ?_⟩
        dsimp only
        have e : ∀ ip : ℕ, comb P (Function.update st.A st.iq (ip : ℤ)) (Function.update st.u st.iq o.zero) (st.iq + 1) = comb P st.A st.u st.iq := by
          intro ip
          funext i
          unfold comb
          rw [Finset.sum_range_succ, Function.update_self, h.zero, zero_mul, add_zero]
          refine Finset.sum_congr rfl fun k hk => ?_
          have hne := (Finset.mem_range.mp hk).ne
          unfold active
          rw [Function.update_of_ne hne, Function.update_of_ne hne]
        rw [e]
        exact hdual.2.mono (hsucc c)
    | l2a st =>
      obtain ⟨hG, hS⟩ := hdual
      obtain ⟨hRes, -⟩ := hbig
      obtain ⟨hd, -⟩ := hC.extra h hX hE' hx hfar hb
      have hall : P.CE.length + 2 + maxIter * (n + 3) ≤ P.CE.length + 2 + maxIter * (n + 3) := le_rfl
      have hRn : n * (P.CE.length + 2 + maxIter * (n + 3)) ≤ rots n maxIter P := le_rfl
      have hRes' : Resid u g (rots n maxIter P) P ν σ β b X (P.CE.length + 2 + maxIter * (n + 3)) st :=
        hRes.same hC hX (by omega) rfl rfl rfl (fun _ _ => rfl) rfl
      have hG' : Gr u (1.07 * ν) (n * (P.CE.length + 2 + maxIter * (n + 3))) J0 st.J := hG.mono hp.u0 (Nat.mul_le_mul_left n (by omega))
      obtain ⟨hact, g1, g2, g3⟩ := id hgood
      have hcn : n * c + n ≤ rots n maxIter P := by
        have : n * (c + 1) ≤ rots n maxIter P := Nat.mul_le_mul_left n (by
          have h1 : 1 ≤ cost maxIter P (.l2a st : FNext ℝ n) := by omega
          omega)
        rwa [Nat.mul_succ] at this
      have hcB' : n * cB + n ≤ rots n maxIter P := by
        have : n * (cB + 1) ≤ rots n maxIter P := Nat.mul_le_mul_left n (by
          have h1 : 1 ≤ cost maxIter P (.l2a st : FNext ℝ n) := by omega
          omega)
        rwa [Nat.mul_succ] at this
      have hactq : ∀ k < st.iq, ∑ i, (active P st.A k).1 i ^ 2 ≤ β ^ 2 := fun k hk => hC.active_le hact.rng hk
      have hUu : 0 ≤ u * U := mul_nonneg hp.u0 hU
      have hUsmall : 2.1 * u * U ≤ 0.01 * U := by
        have := mul_le_mul_of_nonneg_right hp.u1 hU
        linarith
      have hmul : multSum (.l2a st) = ∑ k ∈ Finset.range (st.iq + 1), |st.u k| := rfl
      rw [hmul] at hub
      have huk : ∀ k < st.iq, |st.u k| ≤ U := fun k hk =>
        le_trans (Finset.single_le_sum (f := fun k => |st.u k|) (fun _ _ => abs_nonneg _) (Finset.mem_range.mpr (by omega))) hub
      have hcast : ((c + 1 : ℕ) : ℝ) * statD u g o.eps γ σ β (1.07 * ν) X U (rots n maxIter P) =
          c * statD u g o.eps γ σ β (1.07 * ν) X U (rots n maxIter P) + statD u g o.eps γ σ β (1.07 * ν) X U (rots n maxIter P) := by
        push_cast
        ring
      have hY := hp.Y0
      have hβ := hp.β0
      have hg0 := hp.g0
      have hσ := hC.σ0
      have hu0 := hp.u0
      have z1 : 0 ≤ 3.2 * u * X + g * (5 * X / σ * (1.07 * ν)) := by positivity
      have z2 : 0 ≤ 5.4 * U * (1.07 * ν) * Real.sqrt o.eps / σ := by positivity
      have z3 : 0 ≤ u * U * (β * (1.07 * ν) ^ 2) := by positivity
      rcases stepL2a_dual h.sane (fun a => (h.eq a a).mpr rfl) hgood (hacc st rfl) hs rfl rfl rfl with rfl | ⟨k, st1, k1, k2, k3, k4, k5, rfl⟩ |
        ⟨k, st1, k1, k2, k3, k4, k5, rfl⟩ | ⟨t, a, k1, k2, -, k3, rfl⟩
      · intro e
        cases e
      · have k4 := k4.resolve_right fun ⟨t, ht⟩ => h.geInf t ht
        rw [h.lt, h.zero] at k3
        have hdrop := h.moveU_drop hsm hp.u0 hp.u1 (v := st.u) k2 k3
        have hle : 2.1 * u * |st.u k| ≤ 2.1 * u * U := mul_le_mul_of_nonneg_left (huk k k2) (by positivity)
        obtain ⟨f1, f2, f3, f4, d, f5, f6, f7⟩ := drop_comb hact k1 k2 k5 rfl rfl
        have hub1 : ∑ i ∈ Finset.range (st1.iq + 1), |st1.u i| ≤ U := hub'
        rw [f4] at hub1
        dsimp only at hub1 f3 f2
        have hst : Stat J0 x0 st.x _ _ := hS.move fun w' W hW hw' => by
          have := hC.dual_stat h hγ htri hRn hRes' (hC.enters hgood) hG' hd (t := o.div (st.u k) (o.triSolve st.R (o.gemvT st.J (o.row P st.ip).1) st.iq k)) rfl rfl k4 hU
            (h.moveU_sum hsm hp.u0 hp.u1 hub (by linarith)) hW hw'
          simp only [sub_self, zero_mul, Finset.sum_const_zero, zero_sub, abs_neg]
          exact this
        have hst2 := hC.drop_stat hU (hactq k k2) (le_trans hdrop hle) f3 x0 hst
        refine ⟨?_, ?_⟩
        · rw [f6, Nat.mul_succ]
          exact hG.trans (h.deleteConstraint_gram hp (r := n * cB) hcB' hRes.J f5 (by rw [f7]; exact k2))
        · rw [f2, hcast]
          refine hst2.mono ?_
          unfold statD
          linarith
      · rw [h.lt, h.zero] at k3
        have hlt := (h.far_d hp.g0 hp.g1 k4).1
        have hdrop := h.moveU_drop hsm hp.u0 hp.u1 (v := st.u) k2 k3
        have hle : 2.1 * u * |st.u k| ≤ 2.1 * u * U := mul_le_mul_of_nonneg_left (huk k k2) (by positivity)
        obtain ⟨f1, f2, f3, f4, d, f5, f6, f7⟩ := drop_comb hact k1 k2 k5 rfl rfl
        have hub1 : ∑ i ∈ Finset.range (st1.iq + 1), |st1.u i| ≤ U := hub'
        have hx1 : ∑ i, st1.x i ^ 2 ≤ X ^ 2 := hxb'
        rw [f4] at hub1
        rw [f2] at hx1
        dsimp only at hub1 f3 f2 hx1
        have hst := hS.move fun w' W hW hw' =>
          hC.full_stat h hγ htri hRn hX hRes' (hC.enters hgood) hG' hd rfl rfl rfl hlt hxb hx1 hU (h.moveU_sum hsm hp.u0 hp.u1 hub (by linarith)) hW hw'
        have hst2 := hC.drop_stat hU (hactq k k2) (le_trans hdrop hle) f3 x0 hst
        refine ⟨?_, ?_⟩
        · dsimp only
          rw [f6, Nat.mul_succ]
          exact hG.trans (h.deleteConstraint_gram hp (r := n * cB) hcB' hRes.J f5 (by rw [f7]; exact k2))
        · dsimp only
          rw [f2, hcast]
          refine hst2.mono ?_
          unfold statD
          linarith
      · have hub1 : ∑ i ∈ Finset.range (st.iq + 1), |o.moveU st.u (o.triSolve st.R (o.gemvT st.J (o.row P st.ip).1) st.iq) st.iq t i| ≤ U := hub'
        refine ⟨?_, ?_⟩
        · dsimp only
          rw [Nat.mul_succ]
          exact hG.trans (h.addConstraint_gram hp (r := n * cB) hcB' hRes.J k3)
        · dsimp only
          rw [hcast]
          have hst := hS.move fun w' W hW hw' =>
            hC.full_stat h hγ htri hRn hX hRes' (hC.enters hgood) hG' hd rfl rfl rfl k2 hxb hxb' hU (h.moveU_sum hsm hp.u0 hp.u1 hub (by linarith)) hW hw'
          refine hst.mono ?_
          unfold statD
          linarith

end

end Arith

end Verif
