import Verif.Lemmas.QuadStruct

/-!
The verdict of the QP solver with its threshold tests as they are, on inequalities that some point satisfies with a
margin. A direction that is taken for zero although it is not leaves a residual in the gradient condition; the margin
bounds the multipliers, hence the residual.
-/

namespace Verif
open Matrix

variable {n : ℕ}

theorem dot_self_nonneg (v : VecN n) : 0 ≤ v ⬝ᵥ v := by
  unfold dotProduct; exact Finset.sum_nonneg fun i _ => mul_self_nonneg _

/-- Cauchy-Schwarz with bounds. -/
theorem dot_le_mul {u v : VecN n} {a b : ℝ} (ha : 0 ≤ a) (hb : 0 ≤ b) (hu : u ⬝ᵥ u ≤ a ^ 2) (hv : v ⬝ᵥ v ≤ b ^ 2) :
    |u ⬝ᵥ v| ≤ a * b := by
  apply abs_le_of_sq_le_sq _ (mul_nonneg ha hb)
  have := dot_sq_le u v
  have := mul_le_mul hu hv (dot_self_nonneg v) (sq_nonneg a)
  nlinarith

/-- Triangle inequality with bounds. -/
theorem dot_sub_le {u v : VecN n} {a b : ℝ} (ha : 0 ≤ a) (hb : 0 ≤ b) (hu : u ⬝ᵥ u ≤ a ^ 2) (hv : v ⬝ᵥ v ≤ b ^ 2) :
    (u - v) ⬝ᵥ (u - v) ≤ (a + b) ^ 2 := by
  have h := (abs_le.mp (dot_le_mul ha hb hu hv)).1
  simp only [sub_dotProduct, dotProduct_sub, dotProduct_comm v u]
  nlinarith

/-- The point `y` satisfies the equalities, whose normals are independent by a margin, and every inequality with the margin `m`, except those with zero normal, which hold everywhere, and the margin is large compared to what the
threshold `eps` can hide: `gam` bounds the image of a direction that is taken for zero, `F` the distance of the objective at
`y` to its least value, `R` the distance of `y` to the points of the run, `rho` the residual. -/
structure Slater (eps lam : ℝ) (maxIter : ℕ) (P : QP n) (y : VecN n) (m gam F R rho : ℝ) : Prop where
  sep : EqSep eps P
  eqs : ∀ e ∈ P.CE, e.1 ⬝ᵥ y + e.2 = 0
  lam0 : 0 < lam
  gam0 : 0 ≤ gam
  hgam : ∀ v : VecN n, v ⬝ᵥ v ≤ eps → P.G *ᵥ v ⬝ᵥ P.G *ᵥ v ≤ gam ^ 2
  m0 : 0 < m
  slack : ∀ e ∈ P.CI, m ≤ e.1 ⬝ᵥ y + e.2 ∨ e.1 = 0 ∧ 0 ≤ e.2
  hF : ∀ x, (∀ e ∈ P.CE, e.1 ⬝ᵥ x + e.2 = 0) → qpObj P y - qpObj P x ≤ F
  R0 : 0 ≤ R
  rho0 : 0 ≤ rho
  hR : 2 * F + 2 * rho * R ≤ lam * R ^ 2
  hR2 : 2 * rho ≤ lam * R
  hm : 2 * gam * R ≤ m
  hrho : maxIter * (gam * (2 * (F + rho * R) / m)) ≤ rho

namespace Slater
variable {eps lam m gam F R rho : ℝ} {maxIter : ℕ} {P : QP n} {y : VecN n}

theorem F0 (h : Slater eps lam maxIter P y m gam F R rho) : 0 ≤ F := by simpa using h.hF y h.eqs

/-- Bound of one step. -/
noncomputable def U (F R rho m : ℝ) : ℝ := 2 * (F + rho * R) / m

theorem U0 (h : Slater eps lam maxIter P y m gam F R rho) : 0 ≤ U F R rho m := by
  have h1 := h.F0
  have h2 := h.R0
  have h3 := h.rho0
  have h4 := h.m0
  unfold U
  positivity

/-- The points of the run stay near `y`. -/
theorem near (h : Slater eps lam maxIter P y m gam F R rho) {J0 : ℕ → VecN n} (hJ : Factor P.G J0)
    (hess : ∀ v : VecN n, lam * (v ⬝ᵥ v) ≤ v ⬝ᵥ P.G *ᵥ v) {x e : VecN n}
    (hx : ∀ e ∈ P.CE, e.1 ⬝ᵥ x + e.2 = 0) (he : e ⬝ᵥ e ≤ rho ^ 2) (hg : e ⬝ᵥ (y - x) ≤ (P.G *ᵥ x + P.g) ⬝ᵥ (y - x)) :
    (y - x) ⬝ᵥ (y - x) ≤ R ^ 2 := by
  have h1 := qpObj_add hJ x (y - x)
  rw [add_sub_cancel] at h1
  have h2 := h.hF x hx
  have h3 := hess (y - x)
  set D := Real.sqrt ((y - x) ⬝ᵥ (y - x)) with hD
  have hDD : (y - x) ⬝ᵥ (y - x) = D ^ 2 := (Real.sq_sqrt (dot_self_nonneg _)).symm
  have hD0 : 0 ≤ D := Real.sqrt_nonneg _
  have h4 := (abs_le.mp (dot_le_mul h.rho0 hD0 he hDD.le)).1
  rw [hDD] at h3 ⊢
  have h5 : lam * D ^ 2 ≤ 2 * F + 2 * rho * D := by linarith
  have hR0 := h.R0
  have hl := h.lam0
  have hle : D ≤ R := by
    by_contra hc
    have hc := not_le.mp hc
    have h6 := h.hR
    have h7 : lam * (D ^ 2 - R ^ 2) ≤ 2 * rho * (D - R) := by linarith
    have h8 : (lam * (D + R) - 2 * rho) * (D - R) ≤ 0 := by nlinarith
    have h9 : 0 < lam * (D + R) - 2 * rho := by
      have := mul_pos hl (lt_of_le_of_lt hR0 hc)
      have := h.hR2
      nlinarith
    nlinarith [mul_pos h9 (sub_pos.mpr hc)]
  exact pow_le_pow_left₀ hD0 hle 2

/-- The length of a step in a direction `z` that is taken for zero. -/
theorem step_le (h : Slater eps lam maxIter P y m gam F R rho) {J0 : ℕ → VecN n} (hJ : Factor P.G J0)
    {x e v : VecN n} {t : ℝ} (hx : ∀ e ∈ P.CE, e.1 ⬝ᵥ x + e.2 = 0) (ht : 0 ≤ t) (he : e ⬝ᵥ e ≤ rho ^ 2) (hv : v ⬝ᵥ v ≤ gam ^ 2)
    (hn : (y - x) ⬝ᵥ (y - x) ≤ R ^ 2)
    (hg : t * m + (e - t • v) ⬝ᵥ (y - x) ≤ (P.G *ᵥ x + P.g) ⬝ᵥ (y - x)) : t ≤ U F R rho m := by
  have h1 := qpObj_add hJ x (y - x)
  rw [add_sub_cancel] at h1
  have h2 := h.hF x hx
  have h3 := hJ.nonneg (y - x)
  have h4 := (abs_le.mp (dot_le_mul h.rho0 h.R0 he hn)).1
  have h5 := (abs_le.mp (dot_le_mul h.gam0 h.R0 hv hn)).2
  rw [sub_dotProduct, smul_dotProduct, smul_eq_mul] at hg
  have h6 : t * (v ⬝ᵥ (y - x)) ≤ t * (gam * R) := mul_le_mul_of_nonneg_left h5 ht
  have h7 : t * (2 * gam * R) ≤ t * m := mul_le_mul_of_nonneg_left h.hm ht
  unfold U
  rw [le_div_iff₀ h.m0]
  nlinarith

end Slater

/-! ### The invariant -/

/-- Non-negative multipliers and the residual. -/
structure Res (P : QP n) (c : ℝ) (st : QState n) (extra : VecN n) : Prop where
  c0 : 0 ≤ c
  pos : ∀ k, P.CE.length ≤ k → k < st.iq → 0 ≤ st.u k
  res : ∃ e : VecN n, e ⬝ᵥ e ≤ c ^ 2 ∧
    P.G *ᵥ st.x + P.g = ∑ k ∈ Finset.range st.iq, st.u k • nrm P st.A k + extra + e

structure ResA (P : QP n) (c : ℝ) (st : QState n) : Prop where
  r : Res P c st (st.u st.iq • (P.row st.ip).1)
  u_pos : 0 ≤ st.u st.iq

/-- The residual at each label: each step in a direction taken for zero adds at most `a`, and removes a constraint. -/
def TInvN (eps a : ℝ) (P : QP n) (maxIter : ℕ) : QNext n → Prop
  | .eq i s => P.G *ᵥ s.x + P.g = ∑ k ∈ Finset.range i, s.u k • nrm P s.A k
  | .l1 s => s.iq ≤ s.iter + P.CE.length ∧ Res P ((s.iter + P.CE.length - s.iq : ℝ) * a) s 0
  | .l2 s => s.iq + 1 ≤ s.iter + P.CE.length ∧ Res P ((s.iter + P.CE.length - 1 - s.iq : ℝ) * a) s 0
  | .l2a s => s.iq + 1 ≤ s.iter + P.CE.length ∧ ResA P ((s.iter + P.CE.length - 1 - s.iq : ℝ) * a) s ∧ P.slack s.x s.ip < 0
  | .ret .optimal s => Res P (maxIter * a) s 0
  | .ret .unbounded _ => False
  | .ret .redundantEqualities _ => False
  | .ret .maxIterReached _ => True
  | .ret .infeasible _ => False

theorem Res.mono {P : QP n} {c c' : ℝ} {st : QState n} {x : VecN n} (h : Res P c st x) (hc : c ≤ c') : Res P c' st x := by
  obtain ⟨h0, hp, e, he, hr⟩ := h
  exact ⟨h0.trans hc, hp, e, he.trans (pow_le_pow_left₀ h0 hc 2), hr⟩

/-- Dropping a constraint whose multiplier is zero. -/
theorem ResA.drop {P : QP n} {B c : ℝ} {S : Prop} {st st' : QState n} (h : SMoved P B S st) (hr : ResA P c st)
    {kk : ℕ} (h1 : P.CE.length ≤ kk) (h2 : kk < st.iq) (hu : st.u kk = 0)
    (hd : dropActive P st (st.A kk) = .ok st') : ResA P c st' ∧ st'.u st'.iq = st.u st.iq := by
  have hb := h.base
  have hr' := hb.rng kk h1 h2
  obtain ⟨a, ha, hA, hU, hF⟩ := hb.fac.delete (u := st.u) h.room h1 h2 rfl
    (fun i hi hi' he => by
      have := hb.inj i kk hi (by omega) h1 h2 he
      omega)
  unfold dropActive at hd
  rw [if_pos hr', ha] at hd
  cases hd
  have hA1 : ∀ k, k < st.iq - 1 → a.A k = st.A (if k < kk then k else k + 1) := by
    intro k hk
    rw [hA]
    by_cases hk' : k < kk
    · simp only [hk', if_true]
      rw [if_neg (by omega), if_neg (by omega)]
    · simp only [hk', if_false]
      rw [if_pos (by omega)]
  have hU1 : ∀ k, k < st.iq - 1 → a.u k = st.u (if k < kk then k else k + 1) := by
    intro k hk
    rw [hU]
    by_cases hk' : k < kk
    · simp only [hk', if_true]
      rw [if_neg (by omega), if_neg (by omega)]
    · simp only [hk', if_false]
      rw [if_pos (by omega)]
  have hU2 : a.u (st.iq - 1) = st.u st.iq := by
    rw [hU]; simp only
    rw [if_pos (by omega), Nat.sub_add_cancel (by omega)]
  refine ⟨⟨⟨hr.r.c0, ?_, ?_⟩, ?_⟩, hU2⟩
  · intro k hk0 hk
    simp only at hk ⊢
    rw [hU1 k hk]
    refine hr.r.pos _ ?_ ?_ <;> split_ifs <;> omega
  · obtain ⟨e, he, hs⟩ := hr.r.res
    refine ⟨e, he, ?_⟩
    simp only
    rw [hs, hU2]
    congr 2
    obtain ⟨q, hq⟩ : ∃ q, st.iq = q + 1 := ⟨st.iq - 1, by omega⟩
    rw [hq, sum_delete _ q kk (by omega), hu, zero_smul, zero_add]
    apply Finset.sum_congr (by simp)
    intro k hk
    have hk := Finset.mem_range.mp hk
    rw [hU1 k (by omega), nrm, nrm, hA1 k (by omega)]
  · simp only; rw [hU2]; exact hr.u_pos

/-- The multipliers after a step of length `t`; the gradient condition changes by `t G z` when the point does not move, and
not at all when it moves. -/
theorem ResA.move {P : QP n} {c : ℝ} {st : QState n} (h : ResA P c st)
    (hfac : Factors P.G st.J st.R (nrm P st.A) st.iq) {t : ℝ} (ht : 0 ≤ t)
    (hu : ∀ k, P.CE.length ≤ k → k < st.iq → 0 < updateR st.R (computeD st.J (P.row st.ip).1) st.iq k →
      t ≤ st.u k / updateR st.R (computeD st.J (P.row st.ip).1) st.iq k) :
    ResA P c (moved P st t) ∧ ∀ e : VecN n,
      P.G *ᵥ st.x + P.g = ∑ k ∈ Finset.range st.iq, st.u k • nrm P st.A k + st.u st.iq • (P.row st.ip).1 + e →
      P.G *ᵥ st.x + P.g = ∑ k ∈ Finset.range st.iq, (moved P st t).u k • nrm P st.A k +
        (moved P st t).u st.iq • (P.row st.ip).1 +
        (e - t • P.G *ᵥ updateZ st.J (computeD st.J (P.row st.ip).1) st.iq) := by
  set np := (P.row st.ip).1 with hnp
  set d := computeD st.J np with hd
  set z := updateZ st.J d st.iq with hz
  set r := updateR st.R d st.iq with hr
  have hGz := hfac.Gz np
  rw [← hd, ← hz, ← hr] at hGz
  have e1 : ∑ k ∈ Finset.range st.iq, moveU st.u r st.iq t k • nrm P st.A k =
      ∑ k ∈ Finset.range st.iq, st.u k • nrm P st.A k - t • ∑ k ∈ Finset.range st.iq, r k • nrm P st.A k := by
    rw [Finset.smul_sum, ← Finset.sum_sub_distrib]
    apply Finset.sum_congr rfl
    intro k hk
    have hk := Finset.mem_range.mp hk
    rw [moveU, if_neg (by omega), if_pos hk, sub_smul, smul_smul]
  have e2 : moveU st.u r st.iq t st.iq = st.u st.iq + t := by simp [moveU]
  have key : ∀ e : VecN n,
      P.G *ᵥ st.x + P.g = ∑ k ∈ Finset.range st.iq, st.u k • nrm P st.A k + st.u st.iq • np + e →
      P.G *ᵥ st.x + P.g = ∑ k ∈ Finset.range st.iq, moveU st.u r st.iq t k • nrm P st.A k +
        moveU st.u r st.iq t st.iq • np + (e - t • P.G *ᵥ z) := by
    intro e he
    rw [e1, e2, he, hGz, smul_sub, add_smul]
    abel
  refine ⟨⟨⟨h.r.c0, ?_, ?_⟩, ?_⟩, key⟩
  · intro k hk0 hk
    change k < st.iq at hk
    change 0 ≤ moveU st.u r st.iq t k
    rw [moveU, if_neg (by omega), if_pos hk]
    by_cases hrk : 0 < r k
    · have := (le_div_iff₀ hrk).mp (hu k hk0 hk hrk)
      linarith
    · have := h.r.pos k hk0 hk
      nlinarith [mul_nonneg ht (neg_nonneg.mpr (not_lt.mp hrk))]
  · obtain ⟨e, he, hs⟩ := h.r.res
    refine ⟨e, he, ?_⟩
    change P.G *ᵥ (st.x + t • z) + P.g = ∑ k ∈ Finset.range st.iq, moveU st.u r st.iq t k • nrm P st.A k +
        moveU st.u r st.iq t st.iq • np + e
    have := key e hs
    rw [Matrix.mulVec_add, Matrix.mulVec_smul, add_right_comm, this]
    abel
  · change 0 ≤ moveU st.u r st.iq t st.iq
    rw [e2]
    have := h.u_pos
    linarith

/-- The points of the main loop satisfy the equalities. -/
theorem SBase.on {P : QP n} {B : ℝ} {st : QState n} (hb : SBase P B True P.CE.length st) : ∀ e ∈ P.CE, e.1 ⬝ᵥ st.x + e.2 = 0 := by
  intro e he
  obtain ⟨k, hk, rfl⟩ := List.getElem_of_mem he
  have h1 := hb.act k (fun _ => trivial) (lt_of_lt_of_le hk hb.ne_le)
  rw [hb.eqs k hk, conOf_neg, List.getD_eq_getElem?_getD, List.getElem?_eq_getElem hk] at h1
  exact h1

/-- The displacement to a point that satisfies the equalities against their normals. -/
theorem SBase.active_eq {P : QP n} {B : ℝ} {st : QState n} (hb : SBase P B True P.CE.length st) {y : VecN n}
    (hy : ∀ e ∈ P.CE, e.1 ⬝ᵥ y + e.2 = 0) {k : ℕ} (hk : k < P.CE.length) : nrm P st.A k ⬝ᵥ (y - st.x) = 0 := by
  have hm := List.getElem_mem hk
  have h1 := hb.on _ hm
  have h2 := hy _ hm
  rw [nrm, hb.eqs k hk, conOf_neg, List.getD_eq_getElem?_getD, List.getElem?_eq_getElem hk, Option.getD_some, dotProduct_sub]
  linarith

/-- The displacement to `y` against the active normals. -/
theorem Slater.active {eps lam m gam F R rho B : ℝ} {maxIter : ℕ} {P : QP n} {y : VecN n}
    (h : Slater eps lam maxIter P y m gam F R rho) {st : QState n} (hb : SBase P B True P.CE.length st) {k : ℕ}
    (hk0 : P.CE.length ≤ k) (hk : k < st.iq) : 0 ≤ nrm P st.A k ⬝ᵥ (y - st.x) := by
  have h1 := hb.act k (fun _ => trivial) hk
  obtain ⟨h2, h3⟩ := hb.rng k hk0 hk
  obtain ⟨i, hi⟩ := Int.eq_ofNat_of_zero_le h2
  have h4 := h.slack _ (row_mem (P := P) (i := i) (by omega))
  have := h.m0
  rw [nrm, dotProduct_sub]
  rw [hi, conOf_nat] at h1 ⊢
  rcases h4 with h4 | ⟨h4, -⟩
  · linarith
  · rw [h4, zero_dotProduct, zero_dotProduct, sub_zero]

theorem Slater.grad {eps lam m gam F R rho B : ℝ} {maxIter : ℕ} {P : QP n} {y : VecN n}
    (h : Slater eps lam maxIter P y m gam F R rho) {st : QState n} (hb : SBase P B True P.CE.length st) {u : ℕ → ℝ} {up : ℝ}
    {np e : VecN n} (hu : ∀ k, P.CE.length ≤ k → k < st.iq → 0 ≤ u k) (hup : 0 ≤ up) (hn : up = 0 ∨ m ≤ np ⬝ᵥ (y - st.x))
    (hs : P.G *ᵥ st.x + P.g = ∑ k ∈ Finset.range st.iq, u k • nrm P st.A k + up • np + e) :
    up * m + e ⬝ᵥ (y - st.x) ≤ (P.G *ᵥ st.x + P.g) ⬝ᵥ (y - st.x) := by
  rw [hs, add_dotProduct, add_dotProduct, sum_dotProduct, smul_dotProduct, smul_eq_mul]
  have h1 : 0 ≤ ∑ k ∈ Finset.range st.iq, (u k • nrm P st.A k) ⬝ᵥ (y - st.x) := by
    refine Finset.sum_nonneg fun k hk => ?_
    have hk := Finset.mem_range.mp hk
    rw [smul_dotProduct, smul_eq_mul]
    rcases lt_or_ge k P.CE.length with hk0 | hk0
    · rw [hb.active_eq h.eqs hk0, mul_zero]
    · exact mul_nonneg (hu k hk0 hk) (h.active hb hk0 hk)
  have h2 : up * m ≤ up * (np ⬝ᵥ (y - st.x)) := by
    rcases hn with hn | hn
    · rw [hn]; simp
    · exact mul_le_mul_of_nonneg_left hn hup
  linarith

theorem Slater.new {eps lam m gam F R rho : ℝ} {maxIter : ℕ} {P : QP n} {y : VecN n}
    (h : Slater eps lam maxIter P y m gam F R rho) {x : VecN n} {i : ℕ} (hi : i < P.CI.length) (hs : P.slack x i < 0) :
    m < (P.row i).1 ⬝ᵥ (y - x) := by
  have := h.slack _ (row_mem hi)
  unfold QP.slack at hs
  rw [dotProduct_sub]
  rcases this with h4 | ⟨h4, h5⟩
  · linarith
  · rw [h4, zero_dotProduct] at hs
    linarith

theorem TstepL2a {eps lam B m gam F R rho : ℝ} {maxIter : ℕ} {P : QP n} {J0 : ℕ → VecN n} {y : VecN n}
    (hC : Conditioned eps lam B P J0) (h : Slater eps lam maxIter P y m gam F R rho) {st : QState n}
    (hI : SInvA P B True st) (hit : st.iter < maxIter)
    (hT : TInvN eps (gam * Slater.U F R rho m) P maxIter (.l2a st)) {q : QNext n} (hq : stepL2a eps P st = .ok q) :
    TInvN eps (gam * Slater.U F R rho m) P maxIter q := by
  obtain ⟨hiq, hA, hneg⟩ := hT
  have hS := hI.mv
  have hb := hS.base
  have hon := hb.on
  have hne : (P.CE.length : ℝ) ≤ st.iq := by exact_mod_cast hb.ne_le
  set a := gam * Slater.U F R rho m with ha
  have ha0 : 0 ≤ a := mul_nonneg h.gam0 h.U0
  have hc : ((st.iter + P.CE.length - 1 - st.iq : ℝ) * a) ≤ rho := by
    refine le_trans ?_ h.hrho
    have : (st.iter + P.CE.length - 1 - st.iq : ℝ) ≤ maxIter := by
      have h1 : (st.iter : ℝ) ≤ maxIter := by exact_mod_cast hit.le
      have h2 : (0 : ℝ) ≤ st.iq := Nat.cast_nonneg _
      linarith
    exact mul_le_mul_of_nonneg_right this ha0
  unfold stepL2a at hq
  rw [if_pos ⟨hb.fac.le, hS.room, hS.ip_lt⟩] at hq
  have hmove := fun t (ht : 0 ≤ t) hu => hA.move (t := t) hb.fac ht hu
  have hnew := h.new hS.ip_lt hneg
  have hGz := hb.fac.Gz (P.row st.ip).1
  have hzn := z_np_pos (J := st.J) (np := (P.row st.ip).1) (iq := st.iq)
  set np := (P.row st.ip).1 with hnp
  set d := computeD st.J np with hd
  set z := updateZ st.J d st.iq with hz
  set r := updateR st.R d st.iq with hr
  set p := partialLen r st.u st.A (List.range' P.CE.length (st.iq - P.CE.length)) (none, 0) with hp
  have hzz : |z ⬝ᵥ z| = z ⬝ᵥ z := abs_of_nonneg (dot_self_nonneg z)
  have hmv : ∀ t, { st with x := st.x + t • z, f := st.f + t * (z ⬝ᵥ np) * (1 / 2 * t + st.u st.iq),
                            u := moveU st.u r st.iq t } = moved P st t := fun t => rfl
  have hzero : ∀ k t, k < st.iq → 0 < r k → t = st.u k / r k → moveU st.u r st.iq t k = 0 := by
    intro k t hk hrk ht
    rw [moveU, if_neg (by omega), if_pos hk, ht]
    field_simp; ring
  simp only [← hd, ← hz, ← hr, ← hp, hzz] at hq
  have hsome : ∀ t1, p.1 = some t1 → 0 ≤ t1 ∧ (∀ k, P.CE.length ≤ k → k < st.iq → 0 < r k → t1 ≤ st.u k / r k) ∧
      ∃ kk, P.CE.length ≤ kk ∧ kk < st.iq ∧ p.2 = st.A kk ∧ moveU st.u r st.iq t1 kk = 0 := by
    intro t1 hp1
    obtain ⟨hle, kk, k1, k2, k3, k4, k5⟩ := partialLen_some hp1
    refine ⟨?_, hle, kk, k1, k2, k5, hzero kk t1 k2 k3 k4⟩
    rw [k4]; exact div_nonneg (hA.r.pos kk k1 k2) k3.le
  by_cases hcz : z ⬝ᵥ z > eps
  · rw [if_pos hcz] at hq
    have hz0 : z ≠ 0 := dot_self_pos.mp (lt_of_le_of_lt hC.eps0 hcz)
    have hznp : 0 < z ⬝ᵥ np := hzn hz0
    simp only [hmv] at hq
    set t2 := -st.s st.ip / (z ⬝ᵥ np) with ht2
    have hsl := hI.slack
    have ht2p : 0 < t2 := div_pos (by rw [hsl]; linarith) hznp
    have ht2e : t2 * (z ⬝ᵥ np) = -st.s st.ip := by rw [ht2]; field_simp
    have hcl : ((chooseLen p.1 t2).2 ∧ (chooseLen p.1 t2).1 = t2 ∧
          ∀ k, P.CE.length ≤ k → k < st.iq → 0 < r k → t2 ≤ st.u k / r k) ∨
        (¬ (chooseLen p.1 t2).2 ∧ ∃ t1, p.1 = some t1 ∧ t1 < t2 ∧ (chooseLen p.1 t2).1 = t1) := by
      rcases hp1 : p.1 with _ | t1
      · have hn := partialLen_none hp1
        exact Or.inl ⟨trivial, rfl, fun k h1 h2 h3 => absurd (hn k h1 h2) (not_le.mpr h3)⟩
      · obtain ⟨hle, _⟩ := partialLen_some hp1
        simp only [chooseLen]
        by_cases hmin : min t1 t2 = t2
        · exact Or.inl ⟨hmin, hmin, fun k h1 h2 h3 => (min_eq_right_iff.mp hmin).trans (hle k h1 h2 h3)⟩
        · have hlt : t1 < t2 := by
            by_contra hc'
            exact hmin (min_eq_right (not_lt.mp hc'))
          exact Or.inr ⟨hmin, t1, rfl, hlt, min_eq_left hlt.le⟩
    rcases hcl with ⟨hc2, hc1, hle⟩ | ⟨hc2, t1, hp1, hlt, hc1⟩
    · rw [if_pos hc2, hc1] at hq
      obtain ⟨hM, -⟩ := hmove t2 ht2p.le hle
      have hltn : st.iq < n := by
        by_contra hc'
        apply hz0
        rw [hz, updateZ, Finset.Ico_eq_empty (by omega), Finset.sum_empty]
      obtain ⟨ar, har, hok, hfac, hiff, hl2, hRn⟩ := hb.fac.add eps st.Rnorm np hltn
      have haok : ar.ok := hok.mpr (accepted hC hb.fac hb.rn0 hb.rnB hcz hl2)
      unfold fullStep at hq
      have ha2 : addConstraint eps (moved P st t2).J (moved P st t2).R d (moved P st t2).iq (moved P st t2).Rnorm
        = .ok ar := har
      rw [ha2] at hq
      simp only [haok, if_true] at hq
      cases hq
      refine ⟨hiq, ?_, ?_, ?_⟩
      · change 0 ≤ ((st.iter : ℝ) + P.CE.length - ((st.iq + 1 : ℕ) : ℝ)) * a
        refine mul_nonneg ?_ ha0
        rw [sub_nonneg]; exact_mod_cast hiq
      · intro k hk0 hk
        change k < st.iq + 1 at hk
        by_cases hk2 : k = st.iq
        · subst hk2; exact hM.u_pos
        · exact hM.r.pos k hk0 (by change k < st.iq; omega)
      · obtain ⟨e, he, hs⟩ := hM.r.res
        refine ⟨e, ?_, ?_⟩
        · change e ⬝ᵥ e ≤ (((st.iter : ℝ) + P.CE.length - ((st.iq + 1 : ℕ) : ℝ)) * a) ^ 2
          refine he.trans (le_of_eq ?_)
          push_cast; ring
        · change P.G *ᵥ (moved P st t2).x + P.g
            = ∑ k ∈ Finset.range (st.iq + 1), (moved P st t2).u k • nrm P st.A k + 0 + e
          rw [hs, Finset.sum_range_succ, add_zero]
          congr 3
          rw [nrm, hS.ip_A, conOf_nat]
          rfl
    · rw [if_neg hc2, hc1] at hq
      obtain ⟨ht1, hle, kk, k1, k2, k5, k6⟩ := hsome t1 hp1
      obtain ⟨hM, -⟩ := hmove t1 ht1 hle
      have hSM := hS.move t1
      obtain ⟨st', e, hM', hiq', hit', hx, hs, hip⟩ := hSM.drop (kk := kk) k1 k2
      have hk5 : p.2 = (moved P st t1).A kk := k5
      rw [hk5, e] at hq
      simp only [Out.ok.injEq] at hq
      obtain ⟨hD, -⟩ := ResA.drop hSM hM k1 k2 k6 e
      subst hq
      have hiq2 : st'.iq + 1 = st.iq := hiq'
      have hit2 : st'.iter = st.iter := hit'
      refine ⟨by change st'.iq + 1 ≤ st'.iter + P.CE.length; omega, ⟨?_, hD.u_pos⟩, ?_⟩
      · have := hD.r.mono (c' := (st'.iter + P.CE.length - 1 - st'.iq : ℝ) * a) (by
          rw [hit2, ← hiq2]; push_cast
          nlinarith)
        exact ⟨this.c0, this.pos, this.res⟩
      · change P.slack st'.x st'.ip < 0
        rw [hx, hip]
        change P.slack (st.x + t1 • z) st.ip < 0
        rw [slack_move, ← hnp, ← hsl]
        have := mul_lt_mul_of_pos_right hlt hznp
        rw [ht2e] at this
        linarith
  · rw [if_neg hcz] at hq
    have hgz := h.hgam z (not_lt.mp hcz)
    obtain ⟨e, he, hs⟩ := hA.r.res
    have he' : e ⬝ᵥ e ≤ rho ^ 2 := he.trans (pow_le_pow_left₀ hA.r.c0 hc 2)
    have hJ : Factor P.G st.J := hb.fac.fac
    have hnear : (y - st.x) ⬝ᵥ (y - st.x) ≤ R ^ 2 := by
      refine h.near hJ hC.hess hon he' ?_
      have := h.grad hb hA.r.pos hA.u_pos (Or.inr hnew.le) hs
      have := mul_nonneg hA.u_pos h.m0.le
      linarith
    rcases hp1 : p.1 with _ | t1
    · exfalso
      have hn := partialLen_none hp1
      have e1 : np = P.G *ᵥ z + ∑ k ∈ Finset.range st.iq, r k • nrm P st.A k := by
        rw [hGz]; abel
      have e2 : np ⬝ᵥ (y - st.x) ≤ P.G *ᵥ z ⬝ᵥ (y - st.x) := by
        conv_lhs => rw [e1]
        rw [add_dotProduct, sum_dotProduct]
        have : ∑ k ∈ Finset.range st.iq, (r k • nrm P st.A k) ⬝ᵥ (y - st.x) ≤ 0 := by
          refine Finset.sum_nonpos fun k hk => ?_
          have hk := Finset.mem_range.mp hk
          rw [smul_dotProduct, smul_eq_mul]
          rcases lt_or_ge k P.CE.length with hk0 | hk0
          · rw [hb.active_eq h.eqs hk0, mul_zero]
          · exact mul_nonpos_of_nonpos_of_nonneg (hn k hk0 hk) (h.active hb hk0 hk)
        linarith
      have e3 := (abs_le.mp (dot_le_mul h.gam0 h.R0 hgz hnear)).2
      have e4 := h.hm
      have e5 := mul_nonneg h.gam0 h.R0
      linarith
    · rw [hp1] at hq
      simp only at hq
      obtain ⟨ht1, hle, kk, k1, k2, k5, k6⟩ := hsome t1 hp1
      obtain ⟨hM, hkey⟩ := hmove t1 ht1 hle
      have hkey := hkey e hs
      have hb1 : t1 ≤ Slater.U F R rho m := by
        refine h.step_le hJ hon ht1 he' hgz hnear ?_
        have hup : (moved P st t1).u st.iq = st.u st.iq + t1 := by
          change moveU st.u r st.iq t1 st.iq = _
          simp [moveU]
        have := h.grad hb (u := (moved P st t1).u) hM.r.pos hM.u_pos (Or.inr hnew.le) hkey
        change (moved P st t1).u st.iq * m + _ ≤ _ at this
        rw [hup] at this
        have := mul_nonneg hA.u_pos h.m0.le
        nlinarith
      set st1 : QState n := { st with u := moveU st.u r st.iq t1 } with hst1
      have hSM : SMoved P B True st1 := hS.congr rfl rfl rfl rfl rfl rfl rfl rfl
      have hR1 : ResA P (((st.iter : ℝ) + P.CE.length - 1 - st.iq + 1) * a) st1 := by
        refine ⟨⟨?_, hM.r.pos, e - t1 • P.G *ᵥ z, ?_, hkey⟩, hM.u_pos⟩
        · have := hA.r.c0; linarith
        · have hb2 : (t1 • P.G *ᵥ z) ⬝ᵥ (t1 • P.G *ᵥ z) ≤ a ^ 2 := by
            rw [smul_dotProduct, dotProduct_smul, smul_eq_mul, smul_eq_mul]
            have h1 : t1 * (t1 * (P.G *ᵥ z ⬝ᵥ P.G *ᵥ z)) ≤ t1 * (t1 * gam ^ 2) :=
              mul_le_mul_of_nonneg_left (mul_le_mul_of_nonneg_left hgz ht1) ht1
            have h2 : t1 ^ 2 ≤ Slater.U F R rho m ^ 2 := pow_le_pow_left₀ ht1 hb1 2
            have h3 := mul_le_mul_of_nonneg_right h2 (sq_nonneg gam)
            rw [ha, mul_pow]
            nlinarith
          have := dot_sub_le hA.r.c0 ha0 he hb2
          refine this.trans (le_of_eq ?_)
          ring
      obtain ⟨st', e', hM', hiq', hit', hx, hs', hip⟩ := hSM.drop (kk := kk) k1 k2
      have hk5 : p.2 = st1.A kk := k5
      rw [hk5, e'] at hq
      simp only [Out.ok.injEq] at hq
      obtain ⟨hD, -⟩ := ResA.drop hSM hR1 k1 k2 k6 e'
      subst hq
      have hiq2 : st'.iq + 1 = st.iq := hiq'
      have hit2 : st'.iter = st.iter := hit'
      refine ⟨by omega, ⟨?_, hD.u_pos⟩, ?_⟩
      · refine hD.r.mono (le_of_eq ?_)
        rw [hit2, ← hiq2]; push_cast; ring
      · rw [hx, hip]; exact hneg

theorem Res.congr {P : QP n} {c : ℝ} {st st' : QState n} {v : VecN n} (h : Res P c st v) (h1 : st'.iq = st.iq)
    (h2 : st'.x = st.x) (h3 : ∀ k, k < st.iq → st'.u k = st.u k) (h4 : ∀ k, k < st.iq → st'.A k = st.A k) :
    Res P c st' v := by
  obtain ⟨h0, hp, e, he, hs⟩ := h
  refine ⟨h0, fun k hk0 hk => ?_, e, he, ?_⟩
  · rw [h1] at hk; rw [h3 k hk]; exact hp k hk0 hk
  · rw [h1, h2, hs]
    congr 2
    refine Finset.sum_congr rfl fun k hk => ?_
    have hk := Finset.mem_range.mp hk
    rw [h3 k hk, nrm, nrm, h4 k hk]

theorem TqpStep {eps lam B m gam F R rho : ℝ} {maxIter : ℕ} {P : QP n} {J0 : ℕ → VecN n} {y : VecN n}
    (hF : Factor P.G J0) (hC : Conditioned eps lam B P J0) (hE : P.CE.length ≤ n) (h : Slater eps lam maxIter P y m gam F R rho)
    {q : QNext n} (hI : SInvN eps maxIter (qpTol eps P J0) B True P q) (hT : TInvN eps (gam * Slater.U F R rho m) P maxIter q)
    {q' : QNext n} (hq : qpStep eps maxIter P J0 q = .ok q') : TInvN eps (gam * Slater.U F R rho m) P maxIter q' := by
  have ha0 : 0 ≤ gam * Slater.U F R rho m := mul_nonneg h.gam0 h.U0
  set a := gam * Slater.U F R rho m with ha
  cases q with
  | ret r s => cases hq; exact hT
  | eq i s =>
    have hq' : stepEq eps P i s = .ok q' := hq
    have hb := hI.base
    have hiq := hI.iq
    have hit := hI.iter
    replace hT : P.G *ᵥ s.x + P.g = ∑ k ∈ Finset.range i, s.u k • nrm P s.A k := hT
    by_cases hi : i < P.CE.length
    · obtain ⟨q1, h1, h2, -⟩ := SqpStep_ok hF (fun _ => h.sep) hC hE (q := .eq i s) hI
      rw [hq] at h1
      obtain rfl := Out.ok.inj h1
      unfold stepEq at hq'
      rw [if_pos hi] at hq'
      simp only at hq'
      rw [if_pos ⟨by omega, by omega⟩] at hq'
      have hGz := hb.fac.Gz (P.CE.getD i (0, 0)).1
      set np := (P.CE.getD i (0, 0)).1 with hnp
      obtain ⟨ar, har, -⟩ := hb.fac.add eps s.Rnorm np (by omega)
      rw [har] at hq'
      simp only at hq'
      by_cases haok : ar.ok
      · rw [if_pos haok] at hq'
        obtain rfl := Out.ok.inj hq'
        show P.G *ᵥ (s.x + _) + P.g = ∑ k ∈ Finset.range (i + 1), _
        rw [Finset.sum_range_succ, Matrix.mulVec_add, Matrix.mulVec_smul, add_right_comm, hT, hGz]
        simp only [nrm, hiq, Function.update_self, conOf_neg, if_true]
        rw [← hnp, smul_sub, Finset.smul_sum, sub_eq_add_neg, add_comm (_ • np), ← add_assoc, ← sub_eq_add_neg, ← Finset.sum_sub_distrib]
        congr 1
        refine Finset.sum_congr rfl fun k hk => ?_
        have hk := Finset.mem_range.mp hk
        rw [if_neg (by omega), if_pos hk, Function.update_of_ne (by omega), sub_smul, smul_smul]
      · rw [if_neg haok] at hq'
        obtain rfl := Out.ok.inj hq'
        exact (h.sep.not_close h2).elim
    · unfold stepEq at hq'
      rw [if_neg hi] at hq'
      obtain rfl := Out.ok.inj hq'
      have hi' : i = P.CE.length := le_antisymm hb.ne_len (not_lt.mp hi)
      refine ⟨by simp only; omega, by simp [hit, hiq, hi'], fun k hk0 hk => ?_, 0, ?_, ?_⟩
      · simp only at hk; omega
      · simp only [zero_dotProduct]; positivity
      · simp only
        rw [hT, hiq]; simp
  | l1 s =>
    obtain ⟨hS, hit⟩ := hI
    obtain ⟨h1, hR⟩ := hT
    have hq : stepL1 eps maxIter P J0 s = .ok q' := hq
    unfold stepL1 at hq
    by_cases hm : s.iter + 1 ≥ maxIter
    · rw [if_pos hm] at hq
      cases hq
      trivial
    · rw [if_neg hm] at hq
      simp only at hq
      split_ifs at hq with g1 g2
      · cases hq
        refine (hR.mono (c' := maxIter * a) (mul_le_mul_of_nonneg_right ?_ ha0)).congr rfl rfl (fun _ _ => rfl) fun _ _ => rfl
        have h2 : (s.iter : ℝ) ≤ maxIter := by exact_mod_cast (by omega : s.iter ≤ maxIter)
        have h3 : (P.CE.length : ℝ) ≤ s.iq := by exact_mod_cast hS.base.ne_le
        linarith
      · cases hq
        refine ⟨by simp only; omega, ?_⟩
        refine (hR.mono (c' := ((s.iter + 1 : ℕ) + P.CE.length - 1 - s.iq : ℝ) * a) (le_of_eq ?_)).congr rfl rfl (fun _ _ => rfl)
          fun _ _ => rfl
        push_cast; ring
  | l2 s =>
    obtain ⟨hS, hit⟩ := hI
    obtain ⟨h1, hR⟩ := hT
    have hq : stepL2 P s = .ok q' := hq
    obtain ⟨-, -, c3⟩ := chooseViolated_spec s.s s.iai s.iaexcl (List.range P.CI.length) (s.ss, s.ip)
    unfold stepL2 at hq
    set b := chooseViolated s.s s.iai s.iaexcl (List.range P.CI.length) (s.ss, s.ip) with hbd
    simp only at hq
    split_ifs at hq with g1 g2
    · cases hq
      refine (hR.mono (c' := maxIter * a) (mul_le_mul_of_nonneg_right ?_ ha0)).congr rfl rfl (fun _ _ => rfl) fun _ _ => rfl
      have h2 : (s.iter : ℝ) ≤ maxIter := by exact_mod_cast hit.le
      have h3 : (P.CE.length : ℝ) ≤ s.iq := by exact_mod_cast hS.base.ne_le
      linarith
    · cases hq
      have hneg : b.1 < 0 := not_le.mp g1
      refine ⟨h1, ⟨?_, by simp⟩, ?_⟩
      · simp only [Function.update_self, zero_smul]
        refine hR.congr rfl rfl (fun k hk => ?_) fun k hk => ?_
        · exact Function.update_of_ne (by omega) _ _
        · exact Function.update_of_ne (by omega) _ _
      · rcases c3 with c3 | ⟨i, hi, c3, -, -⟩
        · rw [c3, hS.ss] at hneg; simp at hneg
        · change P.slack s.x b.2 < 0
          rw [c3] at hneg ⊢
          rw [← hS.slack i (by simpa using hi)]
          exact hneg
  | l2a s => exact TstepL2a hC h hI.1 hI.2 hT hq

theorem TqpRun {eps lam B m gam F R rho : ℝ} {maxIter : ℕ} {P : QP n} {J0 : ℕ → VecN n} {y : VecN n}
    (hF : Factor P.G J0) (hC : Conditioned eps lam B P J0) (hE : P.CE.length ≤ n) (h : Slater eps lam maxIter P y m gam F R rho) :
    ∀ (fuel : ℕ) (q : QNext n), SInvN eps maxIter (qpTol eps P J0) B True P q →
      TInvN eps (gam * Slater.U F R rho m) P maxIter q → ∀ r s, qpRun eps maxIter P J0 fuel q = .ok (r, s) →
      TInvN eps (gam * Slater.U F R rho m) P maxIter (.ret r s) := by
  intro fuel
  induction fuel with
  | zero =>
    intro q _ hT r s hr
    cases q with
    | ret r' s' => cases hr; exact hT
    | eq i s => cases hr
    | l1 s => cases hr
    | l2 s => cases hr
    | l2a s => cases hr
  | succ k ih =>
    intro q hI hT r s hr
    by_cases hnr : ∃ r s, q = .ret r s
    · obtain ⟨r', s', rfl⟩ := hnr
      cases hr; exact hT
    · rw [qpRun_succ k fun r s he => hnr ⟨r, s, he⟩] at hr
      obtain ⟨q', h1, h2, -⟩ := SqpStep_ok hF (fun _ => h.sep) hC hE hI
      rw [h1] at hr
      exact ih q' h2 (TqpStep hF hC hE h hI hT h1) r s hr

/-- The verdict on inequalities that some point satisfies with a margin. -/
theorem Slater.verdict {eps lam B m gam F R rho : ℝ} {maxIter : ℕ} {P : QP n} {J0 : ℕ → VecN n} {y : VecN n}
    {w : Work n} (hF : Factor P.G J0) (hC : Conditioned eps lam B P J0) (hE : P.CE.length ≤ n)
    (h : Slater eps lam maxIter P y m gam F R rho) {fuel : ℕ} {r : QPStatus} {s : QState n}
    (hr : solveQuadprog eps maxIter P J0 w fuel = .ok (r, s)) :
    r = .maxIterReached ∨ r = .optimal ∧ (∀ e ∈ P.CE, e.1 ⬝ᵥ s.x + e.2 = 0) ∧ violation P s.x ≤ max 0 (qpTol eps P J0) ∧
      ∀ v, QPFeasible P v → qpObj P s.x ≤ qpObj P v + (maxIter * (gam * Slater.U F R rho m)) ^ 2 / (2 * lam) := by
  have hS := Sqp_sound (S := True) hF (fun _ => h.sep) hC hE hr
  have hinit : TInvN eps (gam * Slater.U F R rho m) P maxIter (.eq 0 (qpInit P J0 w)) := by
    have := hF P.g
    show P.G *ᵥ (qpInit P J0 w).x + P.g = _
    simp only [qpInit]
    rw [Matrix.mulVec_neg, this]; simp
  have hT := TqpRun hF hC hE h fuel (.eq 0 (qpInit P J0 w)) (SInvE.init hF w hC) hinit r s hr
  cases r with
  | maxIterReached => exact Or.inl rfl
  | unbounded => exact hT.elim
  | infeasible => exact hT.elim
  | redundantEqualities => exact hT.elim
  | optimal =>
    refine Or.inr ⟨rfl, hS.1.on, hS.2, fun v hv => ?_⟩
    have hb := hS.1
    obtain ⟨hc0, hp, e, he, hs⟩ := hT
    have h1 := qpObj_add hF s.x (v - s.x)
    rw [add_sub_cancel] at h1
    have h2 := hC.hess (v - s.x)
    set D := Real.sqrt ((v - s.x) ⬝ᵥ (v - s.x)) with hD
    have hDD : (v - s.x) ⬝ᵥ (v - s.x) = D ^ 2 := (Real.sq_sqrt (dot_self_nonneg _)).symm
    have h3 := (abs_le.mp (dot_le_mul hc0 (Real.sqrt_nonneg _) he hDD.le)).1
    have h4 : e ⬝ᵥ (v - s.x) ≤ (P.G *ᵥ s.x + P.g) ⬝ᵥ (v - s.x) := by
      rw [hs, add_dotProduct, add_zero, sum_dotProduct]
      have : 0 ≤ ∑ k ∈ Finset.range s.iq, (s.u k • nrm P s.A k) ⬝ᵥ (v - s.x) := by
        refine Finset.sum_nonneg fun k hk => ?_
        have hk := Finset.mem_range.mp hk
        rw [smul_dotProduct, smul_eq_mul]
        rcases lt_or_ge k P.CE.length with hk0 | hk0
        · rw [hb.active_eq hv.1 hk0, mul_zero]
        refine mul_nonneg (hp k hk0 hk) ?_
        have h1 := hb.act k (fun _ => trivial) hk
        obtain ⟨h2, h3⟩ := hb.rng k hk0 hk
        obtain ⟨i, hi⟩ := Int.eq_ofNat_of_zero_le h2
        have h4 := hv.2 _ (row_mem (P := P) (i := i) (by omega))
        rw [nrm, dotProduct_sub]
        rw [hi, conOf_nat] at h1 ⊢
        linarith
      linarith
    rw [hDD] at h2
    set c := (maxIter : ℝ) * (gam * Slater.U F R rho m) with hc
    have hl := h.lam0
    have h5 : 0 ≤ (lam * D - c) ^ 2 / (2 * lam) := by positivity
    have h6 : (lam * D - c) ^ 2 / (2 * lam) = lam * D ^ 2 / 2 - c * D + c ^ 2 / (2 * lam) := by
      field_simp; ring
    linarith

end Verif
