import Verif.Lemmas.QuadRoundedRes
import Verif.Lemmas.QuadFpCases

/-! Residuals of the constraints under rounding: the invariant of the solver. -/

namespace Verif

variable {n : ℕ}

namespace Arith

variable {o : Arith ℝ n} {m : ℕ} {u g : ℝ}

/-- The active constraint in position `k`: the equalities come first. -/
noncomputable def active (P : FQP ℝ n) (A : ℕ → ℤ) (k : ℕ) : (Fin n → ℝ) × ℝ :=
  if k < P.CE.length then P.CE.getD k (0, 0) else P.CI.getD (A k).toNat (0, 0)

/-- Sizes of the data: `ν` bounds the Frobenius norm of the inverse Cholesky factor `J0`, `σ` is at most its smallest singular value, `β` bounds the
norms of the rows of the constraints and `b` their offsets; the rounding errors are small compared with them. -/
structure ScaledFp (o : Arith ℝ n) (u g : ℝ) (maxIter : ℕ) (P : FQP ℝ n) (J0 : ℕ → Fin n → ℝ) (ν σ β b : ℝ) : Prop where
  cond : o.ConditionedFp u g maxIter P J0 (ν ^ 2) (β ^ 2)
  ν0 : 0 ≤ ν
  β0 : 0 ≤ β
  σ0 : 0 < σ
  b0 : 0 ≤ b
  low : ∀ v : ℕ → ℝ, σ ^ 2 * ∑ j ∈ Finset.range n, v j ^ 2 ≤ ∑ k, (∑ j ∈ Finset.range n, v j * J0 j k) ^ 2
  small : 200 * u * (n * (P.CE.length + 2 + maxIter * (n + 3) : ℕ)) * ν + 4 * g * ν ≤ σ
  eps : 14 * (g * β * ν ^ 2) ^ 2 ≤ o.eps
  ce : ∀ e ∈ P.CE, |e.2| ≤ b
  ci : ∀ e ∈ P.CI, |e.2| ≤ b

section
variable {maxIter : ℕ} {P : FQP ℝ n} {J0 : ℕ → Fin n → ℝ} {ν σ β b X : ℝ}

/-- The number of rotations. -/
def rots (n maxIter : ℕ) (P : FQP ℝ n) : ℕ := n * (P.CE.length + 2 + maxIter * (n + 3))

theorem ScaledFp.rots_le (hC : ScaledFp o u g maxIter P J0 ν σ β b) : 1000 * u * (rots n maxIter P : ℝ) ≤ 1 := by
  have := hC.cond.steps
  unfold rots
  rw [Nat.cast_mul]
  exact this

theorem ScaledFp.par (hC : ScaledFp o u g maxIter P J0 ν σ β b) : Par u g (ν ^ 2) σ β (1.07 * ν) (rots n maxIter P) where
  u0 := hC.cond.u0
  u1 := hC.cond.u1
  g0 := hC.cond.g0
  g1 := hC.cond.g1
  N0 := sq_nonneg _
  σ0 := hC.σ0.le
  β0 := hC.β0
  Y0 := by have := hC.ν0; positivity
  sq := fun r hr => by
    have h1 : (1 + 120 * u) ^ r ≤ (1 + 120 * u) ^ rots n maxIter P := pow_le_pow_right₀ (by linarith [hC.cond.u0]) hr
    have h2 := hC.cond.growth (c := P.CE.length + 2 + maxIter * (n + 3)) le_rfl
    have h3 : (1 + 120 * u) ^ r ≤ 1.14 := le_trans h1 h2
    calc (1 + 120 * u) ^ r * ν ^ 2 ≤ 1.14 * ν ^ 2 := mul_le_mul_of_nonneg_right h3 (sq_nonneg _)
      _ ≤ (1.07 * ν) ^ 2 := by nlinarith [sq_nonneg ν]

theorem ScaledFp.lo_ge (hC : ScaledFp o u g maxIter P J0 ν σ β b) {r : ℕ} (hr : r ≤ rots n maxIter P) :
    σ / 2 ≤ lo u σ (1.07 * ν) r - g * (1.07 * ν) := by
  have hu0 := hC.cond.u0
  have hν := hC.ν0
  have hg := hC.cond.g0
  have hσ := hC.σ0
  refine le_trans ?_ (sub_le_sub_right (lo_anti hu0 hσ.le (by positivity) hr) _)
  have h1 := hC.rots_le
  have h2 := hC.small
  have e : ((n : ℝ) * ((P.CE.length + 2 + maxIter * (n + 3) : ℕ) : ℝ)) = (rots n maxIter P : ℝ) := by unfold rots; rw [Nat.cast_mul]
  rw [e] at h2
  have hR : (0 : ℝ) ≤ (rots n maxIter P : ℝ) := Nat.cast_nonneg _
  unfold lo
  generalize (rots n maxIter P : ℝ) = R at *
  have h3 : u * R * σ ≤ 0.001 * σ := mul_le_mul_of_nonneg_right (by linarith) hσ.le
  have h4 : 0 ≤ u * R * ν := by positivity
  have h5 : 0 ≤ g * ν := by positivity
  nlinarith

theorem ScaledFp.low' (hC : ScaledFp o u g maxIter P J0 ν σ β b) : Low σ J0 := by
  intro v c hc hv
  have h1 := le_trans (hC.low v) hv
  have hV0 : 0 ≤ ∑ j ∈ Finset.range n, v j ^ 2 := Finset.sum_nonneg fun _ _ => sq_nonneg _
  refine le_trans (le_abs_self _) (abs_le_of_sq_le_sq ?_ hc)
  rw [mul_pow, Real.sq_sqrt hV0]
  exact h1

theorem ScaledFp.eps' (hC : ScaledFp o u g maxIter P J0 ν σ β b) : 10 * (g * β * (1.07 * ν) ^ 2) ^ 2 ≤ o.eps := by
  refine le_trans ?_ hC.eps
  have : 0 ≤ (g * β * ν ^ 2) ^ 2 := sq_nonneg _
  nlinarith

/-- The change of the value of an active constraint in one step. -/
noncomputable def drift (u g : ℝ) (R : ℕ) (ν σ β X : ℝ) : ℝ :=
  5 * X / σ * (dl u g (β * (1.07 * ν)) R + g * (β * (1.07 * ν))) + 3.2 * u * (β * X)

theorem ScaledFp.drift_nonneg (hC : ScaledFp o u g maxIter P J0 ν σ β b) (hX : 0 ≤ X) (R : ℕ) : 0 ≤ drift u g R ν σ β X := by
  have hu0 := hC.cond.u0
  have hν := hC.ν0
  have hg := hC.cond.g0
  have hσ := hC.σ0
  have hβ := hC.β0
  have := dl_nonneg hu0 hg (mul_nonneg hβ (by positivity : 0 ≤ 1.07 * ν)) R
  unfold drift
  positivity

/-- The bound on the values of the active constraints after `c` steps. -/
noncomputable def resid (u g : ℝ) (R : ℕ) (ν σ β b X : ℝ) (c : ℕ) : ℝ := 6 * (g + u) * (β * X + b) + c * drift u g R ν σ β X

/-- What is known of the state after `c` steps. -/
structure Resid (u g : ℝ) (R : ℕ) (P : FQP ℝ n) (ν σ β b X : ℝ) (c : ℕ) (st : FState ℝ n) : Prop where
  J : JOk u (ν ^ 2) σ (1.07 * ν) (n * c) st.J
  F : Fac u g (β * (1.07 * ν)) (n * c) (fun k => (active P st.A k).1) st.J st.R st.iq
  V : ∀ k < st.iq, |val (active P st.A k) st.x| ≤ resid u g R ν σ β b X c

def Big (u g : ℝ) (R : ℕ) (P : FQP ℝ n) (ν σ β b X : ℝ) (c : ℕ) : FNext ℝ n → Prop
  | .ret _ _ => True
  | .eq _ st => Resid u g R P ν σ β b X c st
  | .l1 st => Resid u g R P ν σ β b X c st
  | .l2 st => Resid u g R P ν σ β b X c st
  | .l2a st => Resid u g R P ν σ β b X c st ∧
      |st.s st.ip - val (P.CI.getD st.ip (0, 0)) st.x| ≤ (g + 1.01 * u) * (β * X + b)

theorem getD_mem {α : Type} {l : List α} {i : ℕ} (h : i < l.length) (d : α) : l.getD i d ∈ l := by
  rw [List.getD_eq_getElem?_getD, List.getElem?_eq_getElem h]
  exact List.getElem_mem h

theorem row_eq (o : Arith ℝ n) {P : FQP ℝ n} {i : ℕ} (h : i < P.CI.length) : o.row P i = P.CI.getD i (0, 0) := by
  unfold row
  rw [List.getD_eq_getElem?_getD, List.getD_eq_getElem?_getD, List.getElem?_eq_getElem h]
  rfl

theorem ScaledFp.active_le (hC : ScaledFp o u g maxIter P J0 ν σ β b) {A : ℕ → ℤ} {iq : ℕ}
    (hr : ∀ k, P.CE.length ≤ k → k < iq → 0 ≤ A k ∧ A k < P.CI.length) {k : ℕ} (hk : k < iq) : ∑ i, (active P A k).1 i ^ 2 ≤ β ^ 2 := by
  unfold active
  split_ifs with h
  · exact hC.cond.ce _ (getD_mem h _)
  · have := hr k (not_lt.mp h) hk
    exact hC.cond.ci _ (getD_mem (by omega) _)

theorem slack_err {e : (Fin n → ℝ) × ℝ} {x : Fin n → ℝ} {D y : ℝ} (hu0 : 0 ≤ u) (hg0 : 0 ≤ g) (hg : g ≤ 1 / 100)
    (h1 : |D - ∑ k, e.1 k * x k| ≤ g * ∑ k, |e.1 k * x k|) (h2 : |y - (D + e.2)| ≤ u * |D + e.2|) :
    |y - val e x| ≤ (g + 1.01 * u) * mag e x := by
  have hS : 0 ≤ ∑ k, |e.1 k * x k| := Finset.sum_nonneg fun _ _ => abs_nonneg _
  have h3 := Finset.abs_sum_le_sum_abs (fun k => e.1 k * x k) Finset.univ
  unfold val mag
  generalize ∑ k, |e.1 k * x k| = S at *
  generalize ∑ k, e.1 k * x k = T at *
  have h4 : |D| ≤ 1.01 * S := by
    have := abs_sub_abs_le_abs_sub D T
    nlinarith
  have h5 := abs_add_le D e.2
  have h6 : |y - (T + e.2)| ≤ |y - (D + e.2)| + |D - T| := by
    have := abs_add_le (y - (D + e.2)) (D - T)
    rwa [show y - (D + e.2) + (D - T) = y - (T + e.2) by ring] at this
  have h7 := abs_nonneg e.2
  have h8 : u * |D + e.2| ≤ u * (1.01 * S + |e.2|) := mul_le_mul_of_nonneg_left (by linarith) hu0
  have h9 := mul_nonneg hg0 h7
  have h10 := mul_nonneg hu0 h7
  linarith

theorem ScaledFp.slack_le (hC : ScaledFp o u g maxIter P J0 ν σ β b) (h : o.Rounded m u g) (hX : 0 ≤ X) {j : ℕ} (hj : j < P.CI.length)
    {s : ℕ → ℝ} {x : Fin n → ℝ} (hx : ∑ k, x k ^ 2 ≤ X ^ 2) (hs : s = o.slacks P.CI x) :
    |s j - val (P.CI.getD j (0, 0)) x| ≤ (g + 1.01 * u) * (β * X + b) := by
  have hp := hC.par
  have hmem := getD_mem hj ((0, 0) : (Fin n → ℝ) × ℝ)
  have h1 := h.slacks P.CI x j hj
  have h2 := mag_le hC.β0 hX (hC.cond.ci _ hmem) hx (hC.ci _ hmem)
  have h3 : 0 ≤ mag (P.CI.getD j (0, 0)) x := le_trans (abs_nonneg _) (abs_val_le _ _)
  have h4 := mul_le_mul_of_nonneg_left h2 hp.g0
  have h5 := mul_nonneg hp.u0 (le_trans h3 h2)
  have h6 : |s j - val (P.CI.getD j (0, 0)) x| ≤ g * mag (P.CI.getD j (0, 0)) x := by
    rw [hs]
    exact h1
  linarith

/-- The value of the active constraints after a move. -/
theorem ScaledFp.move (hC : ScaledFp o u g maxIter P J0 ν σ β b) (h : o.Rounded m u g) {c : ℕ}
    (hc : n * c ≤ rots n maxIter P) (hX : 0 ≤ X) {st : FState ℝ n}
    (hR : Resid u g (rots n maxIter P) P ν σ β b X c st) (hr : ∀ k, P.CE.length ≤ k → k < st.iq → 0 ≤ st.A k ∧ st.A k < P.CI.length)
    {np : Fin n → ℝ} {t : ℝ} (hiq : st.iq < n) (hx : ∑ k, st.x k ^ 2 ≤ X ^ 2)
    (hx' : ∑ i, o.mulAdd t (o.updateZ st.J (o.gemvT st.J np) st.iq i) (st.x i) ^ 2 ≤ X ^ 2) {k : ℕ} (hk : k < st.iq) :
    |val (active P st.A k) fun i => o.mulAdd t (o.updateZ st.J (o.gemvT st.J np) st.iq i) (st.x i)| ≤
      resid u g (rots n maxIter P) ν σ β b X (c + 1) := by
  have hz : o.updateZ st.J (o.gemvT st.J np) st.iq = o.gemv st.J (o.gemvT st.J np) st.iq := by
    unfold updateZ
    rw [if_pos hiq]
  rw [hz] at hx' ⊢
  have hp := hC.par
  have h1 := h.move_active hp hC.σ0 hc hR.J (hC.lo_ge hc) hk hX hx hx' (hC.active_le hr hk) (hR.F k hk)
  have h2 := hR.V k hk
  have h3 := dl_mono hp.u0 hp.g0 hp.Q0 hc
  have h4 := abs_sub_abs_le_abs_sub (val (active P st.A k) fun i => o.mulAdd t (o.gemv st.J (o.gemvT st.J np) st.iq i) (st.x i)) (val (active P st.A k) st.x)
  have h5 : 5 * X / σ * (dl u g (β * (1.07 * ν)) (n * c) + g * (β * (1.07 * ν))) + 3.2 * u * (β * X) ≤ drift u g (rots n maxIter P) ν σ β X := by
    unfold drift
    have : 0 ≤ 5 * X / σ := div_nonneg (by linarith) hC.σ0.le
    have := mul_le_mul_of_nonneg_left (add_le_add_left h3 (g * (β * (1.07 * ν)))) this
    linarith
  unfold resid at h2 ⊢
  push_cast
  linarith

theorem ScaledFp.resid_mono (hC : ScaledFp o u g maxIter P J0 ν σ β b) (hX : 0 ≤ X) (R : ℕ) {c c' : ℕ} (h : c ≤ c') :
    resid u g R ν σ β b X c ≤ resid u g R ν σ β b X c' := by
  unfold resid
  have := hC.drift_nonneg hX R
  have h2 : (c : ℝ) ≤ c' := Nat.cast_le.mpr h
  have := mul_le_mul_of_nonneg_right h2 this
  linarith

theorem ScaledFp.resid_ge (hC : ScaledFp o u g maxIter P J0 ν σ β b) (hX : 0 ≤ X) (R c : ℕ) :
    6 * (g + u) * (β * X + b) ≤ resid u g R ν σ β b X c := by
  refine le_trans (le_of_eq ?_) (hC.resid_mono hX R (Nat.zero_le c))
  unfold resid
  simp

/-- A state with the same factorisation, active set and point. -/
theorem Resid.same {R c c' : ℕ} (hC : ScaledFp o u g maxIter P J0 ν σ β b) (hX : 0 ≤ X) (hc : c ≤ c') {st st' : FState ℝ n}
    (hR : Resid u g R P ν σ β b X c st) (h1 : st'.J = st.J) (h2 : st'.R = st.R) (h3 : st'.iq = st.iq)
    (h4 : ∀ k < st.iq, st'.A k = st.A k) (h5 : st'.x = st.x) : Resid u g R P ν σ β b X c' st' := by
  have hp := hC.par
  have hm : n * c ≤ n * c' := Nat.mul_le_mul_left n hc
  have ha : ∀ k < st.iq, active P st'.A k = active P st.A k := fun k hk => by unfold active; rw [h4 k hk]
  refine ⟨by rw [h1]; exact hR.J.mono hp hm, ?_, ?_⟩
  · rw [h1, h2, h3]
    refine Fac.mono hp hm fun k hk => ?_
    rw [ha k hk]
    exact hR.F k hk
  · rw [h3, h5]
    intro k hk
    rw [ha k hk]
    exact le_trans (hR.V k hk) (hC.resid_mono hX R hc)

/-- `delete_constraint`, after the point has moved to `x'`. -/
theorem ScaledFp.drop (hC : ScaledFp o u g maxIter P J0 ν σ β b) (h : o.Rounded m u g) {c : ℕ}
    (hc : n * (c + 1) ≤ rots n maxIter P) {st st1 st' : FState ℝ n} (hact : ActOk P st) {k : ℕ} (hk : P.CE.length ≤ k) (hk' : k < st.iq)
    (hR : Resid u g (rots n maxIter P) P ν σ β b X c st) (e1 : st1.J = st.J) (e2 : st1.R = st.R) (e3 : st1.A = st.A) (e4 : st1.iq = st.iq)
    (hd : o.dropActive P st1 (st.A k) = .ok st')
    (hV : ∀ k < st.iq, |val (active P st.A k) st1.x| ≤ resid u g (rots n maxIter P) ν σ β b X (c + 1)) :
    Resid u g (rots n maxIter P) P ν σ β b X (c + 1) st' ∧ st'.x = st1.x ∧ st'.ip = st1.ip ∧ st'.s = st1.s := by
  obtain ⟨d, hd1, rfl⟩ := dropActive_cases hd
  rw [e1, e2, e3, e4] at hd1
  have hq : findActive st.A P.CE.length st.iq (st.A k) = k :=
    findActive_eq hk hk' rfl fun i h1 h2 e => by
      have := hact.inj i k h1 (by omega) hk hk' e
      omega
  have hA : ∀ i < st.iq - 1, active P d.A i = if i < k then active P st.A i else active P st.A (i + 1) := by
    intro i hi
    unfold deleteConstraint at hd1
    dsimp only at hd1
    split_ifs at hd1 with hcond
    rw [hq] at hd1
    cases Out.ok.inj hd1
    unfold active
    dsimp only
    split_ifs <;> first | rfl | omega
  have hm : n * (c + 1) = n * c + n := Nat.mul_succ n c
  obtain ⟨f1, f2⟩ := h.deleteConstraint_all hC.par (by omega : n * c + n ≤ rots n maxIter P) hR.J hR.F
    (fun i hi => hC.active_le hact.rng hi) hd1 hq hk' (act' := fun k => (active P d.A k).1) (fun i hi => by
      rw [hA i hi]
      split_ifs <;> rfl)
  refine ⟨⟨?_, ?_, ?_⟩, rfl, rfl, rfl⟩
  · rw [hm]; exact f1
  · rw [hm]
    dsimp only
    rw [e4]
    exact f2
  · dsimp only
    rw [e4]
    intro i hi
    rw [hA i hi]
    split_ifs
    · exact hV i (by omega)
    · exact hV (i + 1) (by omega)

/-- One step carries the invariant. -/
theorem ScaledFp.step (hC : ScaledFp o u g maxIter P J0 ν σ β b) (h : o.Rounded m u g) {c : ℕ} (hX : 0 ≤ X)
    (hc : n * (c + 1) ≤ rots n maxIter P) {q q' : FNext ℝ n} (hgood : Good o P q) (hacc : ∀ st, q = .l2a st → o.Accepts P st)
    (hfar : ∀ i s, q = .eq i s → i < P.CE.length → o.far (o.updateZ s.J (o.gemvT s.J (P.CE.getD i (0, 0)).1) s.iq))
    (hx : ∑ k, (st q).x k ^ 2 ≤ X ^ 2) (hx' : ∑ k, (st q').x k ^ 2 ≤ X ^ 2)
    (hB : Big u g (rots n maxIter P) P ν σ β b X c q) (hs : o.step maxIter P J0 q = .ok q') :
    Big u g (rots n maxIter P) P ν σ β b X (c + 1) q' := by
  classical
  have hp := hC.par
  have hm : n * (c + 1) = n * c + n := Nat.mul_succ n c
  have hc0 : n * c ≤ rots n maxIter P := by omega
  have hν := hC.ν0
  cases q with
  | ret r s => cases Out.ok.inj (show Out.ok (FNext.ret r s) = Out.ok q' from hs); trivial
  | eq i st =>
    obtain ⟨g1, g2, g3, g4⟩ := hgood
    have hB : Resid u g (rots n maxIter P) P ν σ β b X c st := hB
    replace hs : o.stepEq P i st = .ok q' := hs
    unfold stepEq at hs
    by_cases hi : i < P.CE.length
    · rw [if_pos hi, if_pos ⟨by omega, by omega⟩] at hs
      have hfar := hfar i st rfl hi
      have hrow : P.CE.getD i (fun _ => o.zero, o.zero) = P.CE.getD i (0, 0) := by
        rw [List.getD_eq_getElem?_getD, List.getD_eq_getElem?_getD, List.getElem?_eq_getElem hi]; rfl
      rw [hrow] at hs
      dsimp only at hs
      have hmem := getD_mem hi ((0, 0) : (Fin n → ℝ) × ℝ)
      have hce := hC.cond.ce _ hmem
      have hcb := hC.ce _ hmem
      obtain ⟨e, he⟩ : ∃ e, P.CE.getD i (0, 0) = e := ⟨_, rfl⟩
      rw [he] at hs hfar hmem hce hcb
      have hlt := (h.far_d hp.g0 hp.g1 hfar).1
      have hpos := h.dot_pos hp hc0 hB.J hce (hC.eps') hfar
      obtain ⟨a, ha⟩ : ∃ a, o.addConstraint st.J st.R (o.gemvT st.J e.1) st.iq st.Rnorm = .ok a := by
        unfold addConstraint
        dsimp only
        rw [if_pos hlt]
        exact ⟨_, rfl⟩
      rw [ha] at hs
      dsimp only at hs
      split_ifs at hs
      swap
      · cases Out.ok.inj hs; trivial
      cases Out.ok.inj hs
      have hrng : ∀ k, P.CE.length ≤ k → k < st.iq → 0 ≤ st.A k ∧ st.A k < P.CI.length := fun k h1 h2 => by omega
      have hactk : ∀ k < st.iq, active P (Function.update st.A i (-(i : ℤ) - 1)) k = active P st.A k := fun k hk => by
        unfold active
        rw [if_pos (by omega), if_pos (by omega)]
      obtain ⟨f1, f2⟩ := h.addConstraint_all hp (by omega : n * c + n ≤ rots n maxIter P) hB.J hB.F (fun k hk => hC.active_le hrng hk) hce ha
        (act' := fun k => (active P (Function.update st.A i (-(i : ℤ) - 1)) k).1) (fun k hk => by rw [hactk k hk]) (by
          unfold active
          rw [if_pos (by omega), g1, he])
      refine ⟨by rw [hm]; exact f1, by rw [hm]; exact f2, fun k hk => ?_⟩
      dsimp only at hk hx' ⊢
      rcases Nat.lt_succ_iff_lt_or_eq.mp hk with hlt' | rfl
      · rw [hactk k hlt']
        exact hC.move h hc0 hX hB hrng hlt hx hx' hlt'
      · have hz : o.updateZ st.J (o.gemvT st.J e.1) st.iq = o.gemv st.J (o.gemvT st.J e.1) st.iq := by
          unfold updateZ
          rw [if_pos hlt]
        have ea : active P (Function.update st.A i (-(i : ℤ) - 1)) st.iq = e := by
          unfold active
          rw [if_pos (by omega), g1, he]
        have e1 : o.eqLen (o.updateZ st.J (o.gemvT st.J e.1) st.iq) e.1 st.x e.2 =
            o.div (-(-o.sub (-o.dot e.1 st.x) e.2)) (o.dot (o.gemv st.J (o.gemvT st.J e.1) st.iq) e.1) := by
          unfold eqLen
          rw [if_pos hfar, hz, neg_neg, h.neg]
        have d1 := h.dot e.1 st.x
        have d2 := h.sub (-o.dot e.1 st.x) e.2
        have d3 : |-o.sub (-o.dot e.1 st.x) e.2 - val e st.x| ≤ (g + 1.01 * u) * mag e st.x := by
          refine slack_err hp.u0 hp.g0 hp.g1 d1 ?_
          rw [show -o.sub (-o.dot e.1 st.x) e.2 - (o.dot e.1 st.x + e.2) = -(o.sub (-o.dot e.1 st.x) e.2 - (-o.dot e.1 st.x - e.2)) by ring, abs_neg,
            show o.dot e.1 st.x + e.2 = -(-o.dot e.1 st.x - e.2) by ring, abs_neg]
          exact d2
        have d4 := mag_le hC.β0 hX hce hx hcb
        have hb : 0 ≤ b := le_trans (abs_nonneg _) hcb
        have hx'' : ∑ k, o.mulAdd (o.eqLen (o.updateZ st.J (o.gemvT st.J e.1) st.iq) e.1 st.x e.2) (o.updateZ st.J (o.gemvT st.J e.1) st.iq k) (st.x k) ^ 2 ≤ X ^ 2 := hx'
        rw [e1, hz] at hx''
        rw [ea, e1, hz]
        refine le_trans (h.move_new hp hce hpos.ne' hX hx hx'' d4 (by linarith) (le_trans d3 ?_)) (hC.resid_ge hX _ _)
        refine mul_le_mul_of_nonneg_left d4 ?_
        have := hp.u0
        have := hp.g0
        positivity
    · rw [if_neg hi] at hs
      cases Out.ok.inj hs
      exact hB.same hC hX (Nat.le_succ c) rfl rfl rfl (fun _ _ => rfl) rfl
  | l1 st =>
    have hB : Resid u g (rots n maxIter P) P ν σ β b X c st := hB
    replace hs : o.stepL1 maxIter P J0 st = .ok q' := hs
    unfold stepL1 at hs
    dsimp only at hs
    split_ifs at hs
    · cases Out.ok.inj hs; trivial
    · cases Out.ok.inj hs; trivial
    · cases Out.ok.inj hs
      exact hB.same hC hX (Nat.le_succ c) rfl rfl rfl (fun _ _ => rfl) rfl
  | l2 st =>
    obtain ⟨hact, g0, g1, g2, g3⟩ := hgood
    have hB : Resid u g (rots n maxIter P) P ν σ β b X c st := hB
    replace hs : o.stepL2 P st = .ok q' := hs
    unfold stepL2 at hs
    dsimp only at hs
    split_ifs at hs with hz hg
    · cases Out.ok.inj hs; trivial
    · cases Out.ok.inj hs
      refine ⟨hB.same hC hX (Nat.le_succ c) rfl rfl rfl (fun k hk => ?_) rfl, ?_⟩
      · dsimp only
        rw [Function.update_of_ne (by omega)]
      · dsimp only
        generalize (o.chooseViolated st.s st.iai st.iaexcl (List.range P.CI.length) (st.ss, st.ip)).2 = j at hg
        exact hC.slack_le h hX hg.1 hx g3
  | l2a st =>
    obtain ⟨hB, hsl⟩ := hB
    have hacc := hacc st rfl
    obtain ⟨hact, g1, g2, g3⟩ := id hgood
    have hmem := getD_mem g1 ((0, 0) : (Fin n → ℝ) × ℝ)
    have hce := hC.cond.ci _ hmem
    have hcb := hC.ci _ hmem
    rcases stepL2a_cases h.sane hgood hacc hs with ⟨rfl, -⟩ | ⟨k, r, t, st1, k1, k2, k3, rfl⟩ | ⟨k, t, f', u', st1, k1, k2, k3, k4, -, rfl⟩ |
      ⟨t, f', u', a, k1, k2, k3, k4, -, rfl⟩
    · trivial
    · obtain ⟨f1, f2, f3, f4⟩ := hC.drop h hc hact k1 k2 hB (st1 := { st with u := o.moveU st.u r st.iq t }) rfl rfl rfl rfl k3 fun i hi => le_trans (hB.V i hi) (hC.resid_mono hX _ (Nat.le_succ c))
      refine ⟨f1, ?_⟩
      rw [f2, f3, f4]
      exact hsl
    · have hlt := (h.far_d hp.g0 hp.g1 k3).1
      have hx1 : ∑ i, o.mulAdd t (o.updateZ st.J (o.gemvT st.J (o.row P st.ip).1) st.iq i) (st.x i) ^ 2 ≤ X ^ 2 := by
        obtain ⟨d, -, rfl⟩ := dropActive_cases k4
        exact hx'
      obtain ⟨f1, f2, f3, f4⟩ := hC.drop h hc hact k1 k2 hB (st1 := { st with
        x := fun i => o.mulAdd t (o.updateZ st.J (o.gemvT st.J (o.row P st.ip).1) st.iq i) (st.x i), f := f', u := u' }) rfl rfl rfl rfl k4
        fun i hi => hC.move h hc0 hX hB hact.rng hlt hx hx1 hi
      refine ⟨f1.same hC hX le_rfl rfl rfl rfl (fun _ _ => rfl) rfl, ?_⟩
      dsimp only
      rw [Function.update_self, f3]
      dsimp only
      unfold slack
      rw [row_eq o g1] at hx1 f2 ⊢
      have e1 := h.dot (P.CI.getD st.ip (0, 0)).1 st1.x
      have e2 := h.add (o.dot (P.CI.getD st.ip (0, 0)).1 st1.x) (P.CI.getD st.ip (0, 0)).2
      have e3 := mag_le hC.β0 hX hce (show ∑ k, st1.x k ^ 2 ≤ X ^ 2 by rw [f2]; exact hx1) hcb
      refine le_trans (slack_err hp.u0 hp.g0 hp.g1 e1 e2) (mul_le_mul_of_nonneg_left e3 ?_)
      have := hp.u0
      have := hp.g0
      positivity
    · rw [row_eq o g1] at k1 k3 k4 hx' ⊢
      obtain ⟨e, he⟩ : ∃ e, P.CI.getD st.ip (0, 0) = e := ⟨_, rfl⟩
      rw [he] at k1 k3 k4 hx' hsl hce hcb ⊢
      rw [h.eq, h.neg] at k3
      have hz : o.updateZ st.J (o.gemvT st.J e.1) st.iq = o.gemv st.J (o.gemvT st.J e.1) st.iq := by
        unfold updateZ
        rw [if_pos k2]
      have hpos := h.dot_pos hp hc0 hB.J hce (hC.eps') k1
      have ea : active P st.A st.iq = e := by
        unfold active
        rw [if_neg (by have := hact.ne_le; omega), g2, Int.toNat_natCast, he]
      have hb : 0 ≤ b := le_trans (abs_nonneg _) hcb
      have d4 := mag_le hC.β0 hX hce hx hcb
      obtain ⟨f1, f2⟩ := h.addConstraint_all hp (by omega : n * c + n ≤ rots n maxIter P) hB.J hB.F (fun k hk => hC.active_le hact.rng hk) hce k4
        (act' := fun k => (active P st.A k).1) (fun k hk => rfl) (by rw [ea])
      refine ⟨by rw [hm]; exact f1, by rw [hm]; exact f2, fun k hk => ?_⟩
      dsimp only at hk ⊢
      rcases Nat.lt_succ_iff_lt_or_eq.mp hk with hlt' | rfl
      · exact hC.move h hc0 hX hB hact.rng k2 hx hx' hlt'
      · have hx'' : ∑ k, o.mulAdd t (o.updateZ st.J (o.gemvT st.J e.1) st.iq k) (st.x k) ^ 2 ≤ X ^ 2 := hx'
        rw [hz] at k3 hx''
        rw [k3] at hx''
        rw [ea, hz, k3]
        exact le_trans (h.move_new hp hce hpos.ne' hX hx hx'' d4 (by linarith) hsl) (hC.resid_ge hX _ _)

/-- The invariant holds in every reachable state. -/
theorem ScaledFp.reach (hC : ScaledFp o u g maxIter P J0 ν σ β b) (h : o.Rounded m u g) (hX : 0 ≤ X) (hE : P.CE.length ≤ n) {x0 : Fin n → ℝ}
    {w : FWork ℝ n} (hx : ∀ q, o.Reach maxIter P J0 (.eq 0 (o.init P J0 x0 w)) q → ∑ k, (st q).x k ^ 2 ≤ X ^ 2)
    (hfar : ∀ i s, o.Reach maxIter P J0 (.eq 0 (o.init P J0 x0 w)) (.eq i s) → i < P.CE.length →
      o.far (o.updateZ s.J (o.gemvT s.J (P.CE.getD i (0, 0)).1) s.iq))
    {q : FNext ℝ n} (hr : o.Reach maxIter P J0 (.eq 0 (o.init P J0 x0 w)) q) :
    Good o P q ∧ ∃ c, c + cost maxIter P q ≤ P.CE.length + 2 + maxIter * (n + 3) ∧ Bnd u (ν ^ 2) (β ^ 2) c (st q).J (st q).Rnorm ∧
      Big u g (rots n maxIter P) P ν σ β b X c q := by
  induction hr with
  | refl =>
    refine ⟨⟨rfl, Nat.zero_le _, hE, rfl⟩, 0, by simp [cost], ⟨?_, ?_, ?_⟩, ⟨?_, ?_⟩, ?_, ?_⟩
    · rw [Nat.mul_zero, pow_zero, one_mul]
      exact hC.cond.sum
    · show (0 : ℝ) ≤ o.one
      rw [h.one]; norm_num
    · show o.one ^ 2 ≤ _
      rw [h.one, one_pow]
      exact le_max_left _ _
    · rw [Nat.mul_zero, pow_zero, one_mul]
      exact hC.cond.sum
    · rw [Nat.mul_zero]
      have : lo u σ (1.07 * ν) 0 = σ := by unfold lo; simp
      rw [this]
      exact hC.low'
    · intro k hk
      exact absurd hk (Nat.not_lt_zero k)
    · intro k hk
      exact absurd hk (Nat.not_lt_zero k)
  | @tail b q' hb hs ih =>
    obtain ⟨hg, c, hc, hB, hbig⟩ := ih
    by_cases hret : ∃ r s, b = .ret r s
    · obtain ⟨r, s, rfl⟩ := hret
      cases Out.ok.inj (show Out.ok (FNext.ret r s) = Out.ok q' from hs)
      exact ⟨hg, c, hc, hB, hbig⟩
    · have hacc : ∀ st, b = .l2a st → o.Accepts P st := fun st e => hC.cond.accepts h (c := c) (by omega) (by rw [e] at hB; exact hB)
      obtain ⟨q2, s1, s2, s3, s4⟩ := step_good h.sane (maxIter := maxIter) (J0 := J0)
        (hC.cond.carries h (c := c) (by omega)) hB hg (fun r s e => hret ⟨r, s, e⟩) hacc
      rw [hs] at s1
      cases Out.ok.inj s1
      refine ⟨s2, c + 1, by omega, s4, hC.step h hX ?_ hg hacc (fun i s e => ?_) (hx _ hb) (hx _ (.tail hb hs)) hbig hs⟩
      · exact Nat.mul_le_mul_left n (by omega)
      · subst e
        exact hfar i s hb

/-- The bound on the residuals of the active constraints, in terms of the data. -/
theorem ScaledFp.resid_le (hC : ScaledFp o u g maxIter P J0 ν σ β b) (hX : 0 ≤ X) {c : ℕ}
    (hc : c ≤ P.CE.length + 2 + maxIter * (n + 3)) :
    resid u g (rots n maxIter P) ν σ β b X c ≤ 6 * (g + u) * (β * X + b) +
      (P.CE.length + 2 + maxIter * (n + 3) : ℕ) * (β * X) *
        (12 * (g + 80 * u * (n * (P.CE.length + 2 + maxIter * (n + 3) : ℕ))) * (ν / σ) + 4 * u) := by
  refine le_trans (hC.resid_mono hX _ hc) ?_
  have hu0 := hC.cond.u0
  have hν := hC.ν0
  have hg := hC.cond.g0
  have hσ := hC.σ0
  have hβ := hC.β0
  have e : ((n : ℝ) * ((P.CE.length + 2 + maxIter * (n + 3) : ℕ) : ℝ)) = (rots n maxIter P : ℝ) := by unfold rots; rw [Nat.cast_mul]
  rw [e]
  have hpow : (1 + 84 * u) ^ rots n maxIter P ≤ 1.1 := by
    have h1 := one_add_pow_mul (x := 84 * u) (rots n maxIter P) (by positivity) (by linarith [hC.cond.u1])
    have h2 := hC.rots_le
    have h3 : (1 : ℝ) ≤ (1 + 84 * u) ^ rots n maxIter P := one_le_pow₀ (by linarith)
    nlinarith
  unfold resid
  have key : drift u g (rots n maxIter P) ν σ β X ≤ β * X * (12 * (g + 80 * u * (rots n maxIter P)) * (ν / σ) + 4 * u) := by
    unfold drift dl
    have hR : (0 : ℝ) ≤ (rots n maxIter P : ℝ) := Nat.cast_nonneg _
    generalize (1 + 84 * u) ^ rots n maxIter P = p at *
    generalize (rots n maxIter P : ℝ) = R at *
    have k0 : 0 ≤ g + 152 * u * R := by positivity
    have k1 : p * (g + 152 * u * R) ≤ 1.1 * (g + 152 * u * R) := mul_le_mul_of_nonneg_right hpow k0
    have k2 : 0 ≤ β * X * (ν / σ) := by positivity
    have k3 : 5.35 * (p * (g + 152 * u * R) + g) ≤ 12 * (g + 80 * u * R) := by
      have : 0 ≤ u * R := by positivity
      linarith
    have k4 := mul_le_mul_of_nonneg_left k3 k2
    have k5 : 5 * X / σ * (p * (g + 152 * u * R) * (β * (1.07 * ν)) + g * (β * (1.07 * ν))) =
        β * X * (ν / σ) * (5.35 * (p * (g + 152 * u * R) + g)) := by
      field_simp
      ring
    rw [k5]
    have k6 : 0 ≤ u * (β * X) := by positivity
    nlinarith
  have := mul_le_mul_of_nonneg_left key (Nat.cast_nonneg (α := ℝ) (P.CE.length + 2 + maxIter * (n + 3)))
  linarith

end

end Arith

end Verif
