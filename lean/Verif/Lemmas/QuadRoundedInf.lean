import Verif.Lemmas.QuadRoundedBig
import Mathlib.LinearAlgebra.FiniteDimensional.Basic

/-! The exit `UNBOUNDED` under rounding. -/

namespace Verif

variable {n : ℕ}

namespace Arith

/-- The triangular solver has a componentwise backward error at most `γ`: `R x = d` up to `γ` times the sum of the absolute values of the terms. -/
def TriRounded (o : Arith ℝ n) (γ : ℝ) : Prop :=
  ∀ (R : ℕ → ℕ → ℝ) (d : ℕ → ℝ) (iq : ℕ), iq ≤ n → (∀ k < iq, R k k ≠ 0) → ∀ i < iq,
    |∑ k ∈ Finset.Ico i iq, R i k * o.triSolve R d iq k - d i| ≤ γ * ∑ k ∈ Finset.Ico i iq, |R i k * o.triSolve R d iq k|

variable {o : Arith ℝ n} {m : ℕ} {u g : ℝ}

theorem Rounded.givens_ne (h : o.Rounded m u g) (hu0 : 0 ≤ u) (hu : u ≤ 1 / 1000) {c s : ℝ} (hs : s ≠ 0) :
    o.dist c s ≠ 0 ∧ (o.givens c s).2.2 ≠ 0 := by
  have h1 := (h.dist_sq hu0 hu c s).2.1
  have hd : o.dist c s ≠ 0 := by
    intro e
    rw [e] at h1
    have : 0 < s ^ 2 := by positivity
    have : 0 < (1 - 12 * u) * (c ^ 2 + s ^ 2) := mul_pos (by linarith) (by nlinarith [sq_nonneg c])
    norm_num at h1
    linarith
  refine ⟨hd, fun e => ?_⟩
  have h2 := (h.givens_spec hu0 hu hd).2.2
  rw [e] at h2
  have : 0 < o.dist c s ^ 2 := by positivity
  norm_num at h2
  linarith

theorem Rounded.delLoop_diag (h : o.Rounded m u g) (hu0 : 0 ≤ u) (hu : u ≤ 1 / 1000) (iq : ℕ) : ∀ (k j : ℕ) (q : (ℕ → Fin n → ℝ) × (ℕ → ℕ → ℝ)),
    j + k = iq → (∀ i < j, q.2 i i ≠ 0) → (∀ i, j ≤ i → i < iq → q.2 (i + 1) i ≠ 0) → ∀ i < iq, (o.delLoop iq j k q).2 i i ≠ 0
  | 0, j, q, hj, h1, _, i, hi => h1 i (by omega)
  | k + 1, j, q, hj, h1, h2, i, hi => by
    classical
    unfold delLoop
    obtain ⟨g1, g2⟩ := h.givens_ne hu0 hu (c := q.2 j j) (h2 j le_rfl (by omega))
    refine h.delLoop_diag hu0 hu iq k (j + 1) _ (by omega) (fun i hi => ?_) (fun i hi hi' => ?_) i hi
    · unfold delGivens
      dsimp only
      rw [if_neg (by rw [h.eq, h.zero]; exact g1)]
      dsimp only
      rcases Nat.lt_succ_iff_lt_or_eq.mp hi with hlt | rfl
      · rw [if_neg (by omega), if_neg (by omega)]
        exact h1 i hlt
      · rw [if_pos rfl, if_pos rfl]
        exact g2
    · unfold delGivens
      dsimp only
      rw [if_neg (by rw [h.eq, h.zero]; exact g1)]
      dsimp only
      rw [if_neg (by omega), if_pos (by omega), if_neg (by omega), if_neg (by omega)]
      exact h2 i (by omega) hi'

theorem Rounded.deleteConstraint_diag (h : o.Rounded m u g) (hu0 : 0 ≤ u) (hu : u ≤ 1 / 1000) {m' nE : ℕ} {J : ℕ → Fin n → ℝ} {R : ℕ → ℕ → ℝ}
    {A : ℕ → ℤ} {w : ℕ → ℝ} {iq : ℕ} {l : ℤ} {b : DelRes ℝ n} (hR : ∀ k < iq, R k k ≠ 0)
    (hb : o.deleteConstraint m' nE J R A w iq l = .ok b) {qq : ℕ} (hqq : findActive A nE iq l = qq) (hlt : qq < iq) :
    ∀ k < iq - 1, b.R k k ≠ 0 := by
  unfold deleteConstraint at hb
  dsimp only at hb
  split_ifs at hb with hcond
  rw [hqq] at hb
  cases Out.ok.inj hb
  dsimp only
  refine h.delLoop_diag hu0 hu (iq - 1) _ _ _ (by omega) (fun i hi => ?_) fun i hi hi' => ?_
  · dsimp only
    rw [if_neg (by omega), if_neg (by omega)]
    exact hR i (by omega)
  · dsimp only
    rw [if_neg (by omega), if_pos (by omega)]
    exact hR (i + 1) (by omega)

theorem Rounded.addConstraint_diag (h : o.Rounded m u g) (hu : u ≤ 1 / 1000) {J : ℕ → Fin n → ℝ} {R : ℕ → ℕ → ℝ} {d : ℕ → ℝ}
    {iq : ℕ} {rn : ℝ} (hrn : 0 ≤ rn) {a : AddRes ℝ n} (hR : ∀ k < iq, R k k ≠ 0) (ha : o.addConstraint J R d iq rn = .ok a) (hok : a.ok) :
    ∀ k < iq + 1, a.R k k ≠ 0 := by
  classical
  unfold addConstraint at ha
  dsimp only at ha
  by_cases hn : iq < n
  swap
  · rw [if_neg hn] at ha
    cases ha
  rw [if_pos hn] at ha
  cases Out.ok.inj ha
  dsimp only at hok ⊢
  rw [h.le, h.abs, not_le] at hok
  have h1 := h.mul o.eps rn
  have h2 := mul_nonneg h.eps hrn
  rw [abs_of_nonneg h2] at h1
  have h3 : 0 ≤ o.mul o.eps rn := by
    have := (abs_le.mp h1).1
    nlinarith
  intro k hk
  rcases Nat.lt_succ_iff_lt_or_eq.mp hk with hlt | rfl
  · rw [if_neg (by omega)]
    exact hR k hlt
  · rw [if_pos ⟨rfl, le_rfl⟩]
    exact abs_pos.mp (lt_of_le_of_lt h3 hok)

/-- A partial step does not cross the constraint. -/
theorem Rounded.move_part {N σ β Y : ℝ} {Rm : ℕ} (h : o.Rounded m u g) (hp : Par u g N σ β Y Rm) {z : Fin n → ℝ} {e : (Fin n → ℝ) × ℝ}
    (he : ∑ k, e.1 k ^ 2 ≤ β ^ 2) (hdot : 0 < o.dot z e.1) {s t X M : ℝ} (ht : t ≤ o.div (-s) (o.dot z e.1)) (hX : 0 ≤ X) {x : Fin n → ℝ}
    (hx : ∑ k, x k ^ 2 ≤ X ^ 2) (hx' : ∑ k, o.mulAdd t (z k) (x k) ^ 2 ≤ X ^ 2) (hM : mag e x ≤ M) (hβX : β * X ≤ M)
    (hs : |s - val e x| ≤ (g + 1.01 * u) * M) : val e (fun k => o.mulAdd t (z k) (x k)) ≤ 6 * (g + u) * M := by
  have hu0 := hp.u0
  have hu := hp.u1
  have hg0 := hp.g0
  have hg := hp.g1
  have hdiv := h.div (-s) (o.dot z e.1)
  have hdt := h.dot z e.1
  generalize o.div (-s) (o.dot z e.1) = t2 at *
  generalize o.dot z e.1 = D at *
  obtain ⟨m1, m2⟩ := h.move hu0 hu hX hx hx'
  have b1 := abs_sum_mul_le Finset.univ e.1 (fun i => o.mulAdd t (z i) (x i) - (x i + t * z i)) hp.β0 (by positivity) he m1
  have b2 := abs_sum_abs_le Finset.univ (fun k => t * z k) e.1 (by positivity) hp.β0 m2 he
  have htD : t * D + s ≤ u * |s| := by
    have e1 : |t2 * D + s| ≤ u * |s| := by
      have : t2 * D + s = (t2 - -s / D) * D := by field_simp; ring
      rw [this, abs_mul]
      refine le_trans (mul_le_mul_of_nonneg_right hdiv (abs_nonneg D)) (le_of_eq ?_)
      rw [abs_div, abs_neg, mul_assoc, div_mul_cancel₀ _ (abs_ne_zero.mpr hdot.ne')]
    have e2 := mul_le_mul_of_nonneg_right ht hdot.le
    have e3 := le_abs_self (t2 * D + s)
    linarith
  have htz : |t * ∑ k, z k * e.1 k - t * D| ≤ g * (2.01 * X * β) := by
    rw [← mul_sub, abs_mul, abs_sub_comm]
    refine le_trans (mul_le_mul_of_nonneg_left hdt (abs_nonneg t)) ?_
    rw [mul_left_comm, Finset.mul_sum]
    refine mul_le_mul_of_nonneg_left (le_trans (le_of_eq ?_) b2) hg0
    exact Finset.sum_congr rfl fun k _ => by rw [abs_mul, abs_mul, abs_mul, mul_assoc]
  have hM0 : 0 ≤ M := le_trans (mul_nonneg hp.β0 hX) hβX
  have hval := le_trans (abs_val_le e x) hM
  have hsM : |s| ≤ 1.02 * M := by
    have := abs_sub_abs_le_abs_sub s (val e x)
    nlinarith
  have split : val e (fun k => o.mulAdd t (z k) (x k)) = -(s - val e x) + ((t * D + s) + ((t * ∑ k, z k * e.1 k - t * D) +
      ∑ i, e.1 i * (o.mulAdd t (z i) (x i) - (x i + t * z i)))) := by
    unfold val
    have e1 : ∑ i, e.1 i * (o.mulAdd t (z i) (x i) - (x i + t * z i)) =
        ∑ i, e.1 i * o.mulAdd t (z i) (x i) - (∑ i, e.1 i * x i + t * ∑ k, z k * e.1 k) := by
      rw [Finset.mul_sum, ← Finset.sum_add_distrib, ← Finset.sum_sub_distrib]
      exact Finset.sum_congr rfl fun i _ => by ring
    rw [e1]
    ring
  rw [split]
  have a1 := neg_abs_le (s - val e x)
  have a2 := le_abs_self (t * ∑ k, z k * e.1 k - t * D)
  have a3 := le_abs_self (∑ i, e.1 i * (o.mulAdd t (z i) (x i) - (x i + t * z i)))
  have k1 := mul_le_mul_of_nonneg_left hsM hu0
  have k2 := mul_le_mul_of_nonneg_left hβX hg0
  have k3 := mul_le_mul_of_nonneg_left hβX hu0
  have k4 := mul_nonneg hg0 hM0
  have k5 := mul_nonneg hu0 hM0
  linarith

/-- A matrix with a positive smallest singular value is onto. -/
theorem Low.surj {σ : ℝ} (hσ : 0 < σ) {J : ℕ → Fin n → ℝ} (h : Low σ J) (w : Fin n → ℝ) {W : ℝ} (hW : 0 ≤ W) (hw : ∑ k, w k ^ 2 ≤ W ^ 2) :
    ∃ v : ℕ → ℝ, (∀ k, ∑ j ∈ Finset.range n, v j * J j k = w k) ∧ ∑ j ∈ Finset.range n, v j ^ 2 ≤ (W / σ) ^ 2 := by
  let L : (Fin n → ℝ) →ₗ[ℝ] (Fin n → ℝ) := ∑ j : Fin n, (LinearMap.proj j).smulRight (J j.val)
  have hL : ∀ v k, L v k = ∑ j : Fin n, v j * J j.val k := fun v k => by
    simp [L, LinearMap.sum_apply]
  let ex : (Fin n → ℝ) → ℕ → ℝ := fun v j => if hj : j < n then v ⟨j, hj⟩ else 0
  have hex : ∀ v k, ∑ j ∈ Finset.range n, ex v j * J j k = L v k := by
    intro v k
    rw [hL, Finset.sum_range]
    exact Finset.sum_congr rfl fun j _ => by simp [ex]
  have hsq : ∀ v, ∑ j ∈ Finset.range n, ex v j ^ 2 = ∑ j : Fin n, v j ^ 2 := by
    intro v
    rw [Finset.sum_range]
    exact Finset.sum_congr rfl fun j _ => by simp [ex]
  have hinj : Function.Injective L := by
    rw [← LinearMap.ker_eq_bot, LinearMap.ker_eq_bot']
    intro v hv
    have h1 := h (ex v) 0 le_rfl (by
      simp only [hex, hv]
      simp)
    have h2 := Real.sqrt_nonneg (∑ j ∈ Finset.range n, ex v j ^ 2)
    have h3 : Real.sqrt (∑ j ∈ Finset.range n, ex v j ^ 2) = 0 := by nlinarith
    rw [hsq, Real.sqrt_eq_zero (Finset.sum_nonneg fun _ _ => sq_nonneg _), Finset.sum_eq_zero_iff_of_nonneg fun _ _ => sq_nonneg _] at h3
    funext j
    exact pow_eq_zero_iff (two_ne_zero) |>.mp (h3 j (Finset.mem_univ j))
  obtain ⟨v, hv⟩ := LinearMap.injective_iff_surjective.mp hinj w
  refine ⟨ex v, fun k => by rw [hex, hv], ?_⟩
  have h1 := h (ex v) W hW (by
    simp only [hex, hv]
    exact hw)
  have h0 : 0 ≤ ∑ j ∈ Finset.range n, ex v j ^ 2 := Finset.sum_nonneg fun _ _ => sq_nonneg _
  have h2 : Real.sqrt (∑ j ∈ Finset.range n, ex v j ^ 2) ≤ W / σ := by
    rw [le_div_iff₀ hσ, mul_comm]
    exact h1
  exact (Real.sqrt_le_left (div_nonneg hW hσ.le)).mp h2

/-- The selected value is that of the selected constraint. -/
theorem chooseViolated_mem {F : Type} (o : Arith F n) (s : ℕ → F) (iai : ℕ → ℤ) (iaexcl : ℕ → Bool) : ∀ (l : List ℕ) (b : F × ℕ),
    o.chooseViolated s iai iaexcl l b = b ∨ (o.chooseViolated s iai iaexcl l b).1 = s (o.chooseViolated s iai iaexcl l b).2
  | [], _ => Or.inl rfl
  | j :: l, b => by
    unfold chooseViolated
    split_ifs with hc
    · rcases chooseViolated_mem o s iai iaexcl l (s j, j) with h | h
      · right
        rw [h]
      · exact Or.inr h
    · exact chooseViolated_mem o s iai iaexcl l b

/-- Squares of a sum of vectors. -/
theorem sum_sq_sum {ι : Type} (s : Finset ι) (x : ℕ → ι → ℝ) (b : ℕ → ℝ) : ∀ q : ℕ, (∀ j < q, 0 ≤ b j) → (∀ j < q, ∑ i ∈ s, x j i ^ 2 ≤ b j ^ 2) →
    ∑ i ∈ s, (∑ j ∈ Finset.range q, x j i) ^ 2 ≤ (∑ j ∈ Finset.range q, b j) ^ 2
  | 0, _, _ => by simp
  | q + 1, h0, h => by
    have ih := sum_sq_sum s x b q (fun j hj => h0 j (by omega)) fun j hj => h j (by omega)
    have := sum_sq_add s (fun i => ∑ j ∈ Finset.range q, x j i) (x q) (Finset.sum_nonneg fun j hj => h0 j (by have := Finset.mem_range.mp hj; omega))
      (h0 q (by omega)) ih (h q (by omega))
    simpa only [Finset.sum_range_succ] using this

section
variable {N σ β Y : ℝ} {Rm : ℕ}

/-- A direction that does not pass the test is short. -/
theorem Rounded.near_d (h : o.Rounded m u g) (hp : Par u g N σ β Y Rm) (hσ : 0 < σ) {J : ℕ → Fin n → ℝ} {r : ℕ} (hr : r ≤ Rm)
    (hJ : JOk u N σ Y r J) (hlo : σ / 2 ≤ lo u σ Y r - g * Y) {d : ℕ → ℝ} {iq : ℕ} (hz : ¬ o.far (o.updateZ J d iq)) :
    ∑ j ∈ Finset.Ico iq n, d j ^ 2 ≤ (2.6 * Real.sqrt o.eps / σ) ^ 2 := by
  by_cases hiq : iq < n
  swap
  · rw [Finset.Ico_eq_empty (by omega), Finset.sum_empty]
    exact sq_nonneg _
  unfold updateZ at hz
  rw [if_pos hiq] at hz
  unfold far at hz
  rw [h.lt, h.abs, not_lt] at hz
  have h1 := h.dot (o.gemv J d iq) (o.gemv J d iq)
  have e1 : ∑ i, |o.gemv J d iq i * o.gemv J d iq i| = ∑ i, o.gemv J d iq i ^ 2 :=
    Finset.sum_congr rfl fun i _ => by rw [← pow_two, abs_of_nonneg (sq_nonneg _)]
  have e2 : ∑ i, o.gemv J d iq i * o.gemv J d iq i = ∑ i, o.gemv J d iq i ^ 2 :=
    Finset.sum_congr rfl fun i _ => (pow_two _).symm
  have e3 : 0 ≤ ∑ i, o.gemv J d iq i ^ 2 := Finset.sum_nonneg fun _ _ => sq_nonneg _
  rw [e1, e2] at h1
  have hs := Real.sq_sqrt h.eps
  have hs0 := Real.sqrt_nonneg o.eps
  have h2 : ∑ i, o.gemv J d iq i ^ 2 ≤ (1.01 * Real.sqrt o.eps) ^ 2 := by
    have := (abs_le.mp h1).1
    have := le_abs_self (o.dot (o.gemv J d iq) (o.gemv J d iq))
    have := mul_le_mul_of_nonneg_right hp.g1 e3
    rw [mul_pow, hs]
    linarith [h.eps]
  have h3 := h.move_len hp hσ hr hJ hlo (d := d) (iq := iq) (t := 1) (X := 1.01 * Real.sqrt o.eps / 2.01) (by positivity) (by
    rw [mul_div_cancel₀ _ (by norm_num : (2.01 : ℝ) ≠ 0)]
    simpa only [one_mul] using h2)
  simp only [one_mul] at h3
  have h4 : 5 * (1.01 * Real.sqrt o.eps / 2.01) / σ ≤ 2.6 * Real.sqrt o.eps / σ := by
    refine div_le_div_of_nonneg_right ?_ hσ.le
    have : 1.01 * Real.sqrt o.eps / 2.01 ≤ 0.51 * Real.sqrt o.eps := by
      rw [div_le_iff₀ (by norm_num)]
      linarith
    linarith
  exact (Real.sqrt_le_left (by positivity)).mp (le_trans h3 h4)

/-- The image of `np - Σ r_j a_j` under `J'` is the part of `d` below the active constraints, up to an error. -/
theorem Rounded.comb_split (h : o.Rounded m u g) (hp : Par u g N σ β Y Rm) {J : ℕ → Fin n → ℝ} {R : ℕ → ℕ → ℝ} {r : ℕ} (hr : r ≤ Rm)
    (hJ : JOk u N σ Y r J) {iq : ℕ} (hiq : iq ≤ n) {act : ℕ → Fin n → ℝ} (hF : Fac u g (β * Y) r act J R iq)
    (hact : ∀ k < iq, ∑ i, act k i ^ 2 ≤ β ^ 2) {np : Fin n → ℝ} (hnp : ∑ k, np k ^ 2 ≤ β ^ 2)
    {γ : ℝ} (hγ : 0 ≤ γ) (htri : o.TriRounded γ) (hdiag : ∀ k < iq, R k k ≠ 0) :
    ∃ f : ℕ → ℝ, (∀ i, ∑ k, (np k - ∑ j ∈ Finset.range iq, o.triSolve R (o.gemvT J np) iq j * act j k) * J i k =
        f i + if iq ≤ i then o.gemvT J np i else 0) ∧
      ∑ i ∈ Finset.range n, f i ^ 2 ≤ (g * (β * Y) +
        (∑ j ∈ Finset.range iq, |o.triSolve R (o.gemvT J np) iq j|) * (dl u g (β * Y) r + γ * (β * Y + dl u g (β * Y) r))) ^ 2 := by
  have hYJ : sqJ J ≤ Y ^ 2 := le_trans hJ.sq (hp.sq r hr)
  have hd := h.gemvT_err hp hYJ hnp
  have ht := htri R (o.gemvT J np) iq hiq hdiag
  generalize o.gemvT J np = d at *
  generalize o.triSolve R d iq = ρ at *
  have hdl := dl_nonneg hp.u0 hp.g0 hp.Q0 r
  replace hF : ∀ k < iq, sqE (act k) J (colR R k) ≤ dl u g (β * Y) r ^ 2 := hF
  generalize dl u g (β * Y) r = δ at *
  have hQ := hp.Q0
  have hg0 := hp.g0
  have hY0 := hp.Y0
  -- the three terms
  let f1 : ℕ → ℝ := fun i => ∑ k, np k * J i k - d i
  let f3 : ℕ → ℝ := fun i => ∑ j ∈ Finset.range iq, -ρ j * (∑ k, act j k * J i k - colR R j i)
  let f4 : ℕ → ℝ := fun i => if i < iq then -(∑ k ∈ Finset.Ico i iq, R i k * ρ k - d i) else 0
  have hsum : ∀ i, ∑ k, (np k - ∑ j ∈ Finset.range iq, ρ j * act j k) * J i k = (f1 i + f3 i + f4 i) + if iq ≤ i then d i else 0 := by
    intro i
    have a1 : ∑ k, (np k - ∑ j ∈ Finset.range iq, ρ j * act j k) * J i k =
        ∑ k, np k * J i k - ∑ j ∈ Finset.range iq, ρ j * ∑ k, act j k * J i k := by
      simp only [sub_mul, Finset.sum_sub_distrib, Finset.sum_mul, Finset.mul_sum]
      rw [Finset.sum_comm]
      congr 1
      exact Finset.sum_congr rfl fun j _ => Finset.sum_congr rfl fun k _ => by ring
    have a2 : f3 i = -∑ j ∈ Finset.range iq, ρ j * ∑ k, act j k * J i k + ∑ j ∈ Finset.range iq, ρ j * colR R j i := by
      simp only [f3]
      rw [← Finset.sum_neg_distrib, ← Finset.sum_add_distrib]
      exact Finset.sum_congr rfl fun j _ => by ring
    have a3 : ∑ j ∈ Finset.range iq, ρ j * colR R j i = ∑ k ∈ Finset.Ico i iq, R i k * ρ k := by
      rw [← Finset.sum_filter_add_sum_filter_not (Finset.range iq) (fun j => i ≤ j)]
      have b1 : (Finset.range iq).filter (fun j => i ≤ j) = Finset.Ico i iq := by
        ext j
        simp only [Finset.mem_filter, Finset.mem_range, Finset.mem_Ico]
        tauto
      rw [b1, Finset.sum_eq_zero (s := (Finset.range iq).filter fun j => ¬ i ≤ j) (fun j hj => by
        unfold colR
        rw [if_neg (Finset.mem_filter.mp hj).2, mul_zero]), add_zero]
      refine Finset.sum_congr rfl fun j hj => ?_
      unfold colR
      rw [if_pos (Finset.mem_Ico.mp hj).1, mul_comm]
    rw [a1, a2, a3]
    simp only [f1, f4]
    by_cases hi : i < iq
    · rw [if_pos hi, if_neg (by omega)]
      ring
    · rw [if_neg hi, if_pos (by omega), Finset.Ico_eq_empty (by omega), Finset.sum_empty]
      ring
  have n1 : ∑ i ∈ Finset.range n, f1 i ^ 2 ≤ (g * (β * Y)) ^ 2 := hd
  have n3 : ∑ i ∈ Finset.range n, f3 i ^ 2 ≤ ((∑ j ∈ Finset.range iq, |ρ j|) * δ) ^ 2 := by
    rw [Finset.sum_mul]
    refine sum_sq_sum (Finset.range n) (fun j i => -ρ j * (∑ k, act j k * J i k - colR R j i)) (fun j => |ρ j| * δ) iq (fun j _ => by positivity) fun j hj => ?_
    simp only [mul_pow, neg_sq, sq_abs]
    rw [← Finset.mul_sum]
    exact mul_le_mul_of_nonneg_left (hF j hj) (sq_nonneg _)
  have n4 : ∑ i ∈ Finset.range n, f4 i ^ 2 ≤ (γ * ((∑ j ∈ Finset.range iq, |ρ j|) * (β * Y + δ))) ^ 2 := by
    have c1 : ∑ i ∈ Finset.range n, (∑ j ∈ Finset.range iq, |ρ j| * |colR R j i|) ^ 2 ≤ ((∑ j ∈ Finset.range iq, |ρ j|) * (β * Y + δ)) ^ 2 := by
      rw [Finset.sum_mul]
      refine sum_sq_sum (Finset.range n) (fun j i => |ρ j| * |colR R j i|) (fun j => |ρ j| * (β * Y + δ)) iq (fun j _ => by positivity) fun j hj => ?_
      simp only [mul_pow, sq_abs]
      rw [← Finset.mul_sum]
      exact mul_le_mul_of_nonneg_left (sq_col_le hp.β0 hY0 hdl (hact j hj) hYJ (hF j hj)) (sq_nonneg _)
    rw [mul_pow]
    refine le_trans ?_ (mul_le_mul_of_nonneg_left c1 (sq_nonneg γ))
    rw [Finset.mul_sum]
    refine Finset.sum_le_sum fun i _ => ?_
    rw [← mul_pow, ← sq_abs]
    refine pow_le_pow_left₀ (abs_nonneg _) ?_ 2
    simp only [f4]
    by_cases hi : i < iq
    · rw [if_pos hi, abs_neg]
      refine le_trans (ht i hi) (mul_le_mul_of_nonneg_left ?_ hγ)
      refine le_trans (le_of_eq ?_) (Finset.sum_le_sum_of_subset_of_nonneg (s := Finset.Ico i iq) (fun j hj => Finset.mem_range.mpr (Finset.mem_Ico.mp hj).2)
        fun j _ _ => by positivity)
      refine Finset.sum_congr rfl fun j hj => ?_
      unfold colR
      rw [if_pos (Finset.mem_Ico.mp hj).1, abs_mul, mul_comm]
    · rw [if_neg hi, abs_zero]
      exact mul_nonneg hγ (Finset.sum_nonneg fun j _ => by positivity)
  have hS : 0 ≤ ∑ j ∈ Finset.range iq, |ρ j| := Finset.sum_nonneg fun _ _ => abs_nonneg _
  have s13 := sum_sq_add (Finset.range n) f1 f3 (by positivity) (by positivity) n1 n3
  have s := sum_sq_add (Finset.range n) (fun i => f1 i + f3 i) f4 (by positivity) (by positivity) s13 n4
  refine ⟨fun i => f1 i + f3 i + f4 i, hsum, le_trans s (le_of_eq ?_)⟩
  ring

/-- The normal of the entering constraint is the combination of those of the active constraints that is computed, up to an error, when its direction does
not pass the test. -/
theorem Rounded.normal_comb (h : o.Rounded m u g) (hp : Par u g N σ β Y Rm) (hσ : 0 < σ) {J : ℕ → Fin n → ℝ} {R : ℕ → ℕ → ℝ} {r : ℕ} (hr : r ≤ Rm)
    (hJ : JOk u N σ Y r J) (hlo : σ / 2 ≤ lo u σ Y r - g * Y) {iq : ℕ} (hiq : iq ≤ n) {act : ℕ → Fin n → ℝ} (hF : Fac u g (β * Y) r act J R iq)
    (hact : ∀ k < iq, ∑ i, act k i ^ 2 ≤ β ^ 2) {np : Fin n → ℝ} (hnp : ∑ k, np k ^ 2 ≤ β ^ 2) (hz : ¬ o.far (o.updateZ J (o.gemvT J np) iq))
    {γ : ℝ} (hγ : 0 ≤ γ) (htri : o.TriRounded γ) (hdiag : ∀ k < iq, R k k ≠ 0) {w : Fin n → ℝ} {W : ℝ} (hW : 0 ≤ W) (hw : ∑ k, w k ^ 2 ≤ W ^ 2) :
    |∑ k, (np k - ∑ j ∈ Finset.range iq, o.triSolve R (o.gemvT J np) iq j * act j k) * w k| ≤ 2 * W / σ * (2.6 * Real.sqrt o.eps / σ + g * (β * Y) +
      (∑ j ∈ Finset.range iq, |o.triSolve R (o.gemvT J np) iq j|) * (dl u g (β * Y) r + γ * (β * Y + dl u g (β * Y) r))) := by
  obtain ⟨f, hsum, hf⟩ := h.comb_split hp hr hJ hiq hF hact hnp hγ htri hdiag
  have htail := h.near_d hp hσ hr hJ hlo hz
  generalize o.gemvT J np = d at *
  generalize o.triSolve R d iq = ρ at *
  have hdl := dl_nonneg hp.u0 hp.g0 hp.Q0 r
  generalize dl u g (β * Y) r = δ at *
  have hQ := hp.Q0
  have hg0 := hp.g0
  have hY0 := hp.Y0
  have n2 : ∑ i ∈ Finset.range n, (if iq ≤ i then d i else 0) ^ 2 ≤ (2.6 * Real.sqrt o.eps / σ) ^ 2 := by
    refine le_trans (le_of_eq ?_) htail
    rw [← Finset.sum_filter_add_sum_filter_not (Finset.range n) (fun i => iq ≤ i), Finset.sum_eq_zero (s := (Finset.range n).filter fun i => ¬ iq ≤ i) (fun i hi => by
      rw [if_neg (Finset.mem_filter.mp hi).2]
      norm_num), add_zero]
    have b1 : (Finset.range n).filter (fun j => iq ≤ j) = Finset.Ico iq n := by
      ext j
      simp only [Finset.mem_filter, Finset.mem_range, Finset.mem_Ico]
      tauto
    rw [b1]
    refine Finset.sum_congr rfl fun j hj => ?_
    rw [if_pos (Finset.mem_Ico.mp hj).1]
  have hS : 0 ≤ ∑ j ∈ Finset.range iq, |ρ j| := Finset.sum_nonneg fun _ _ => abs_nonneg _
  have s := sum_sq_add (Finset.range n) f (fun i => if iq ≤ i then d i else 0) (by positivity) (by positivity) hf n2
  have hσ2 : 0 < lo u σ Y r := by
    have := mul_nonneg hg0 hY0
    linarith
  obtain ⟨v, hv, hvn⟩ := Low.surj hσ2 hJ.low w hW hw
  have hvn' : ∑ j ∈ Finset.range n, v j ^ 2 ≤ (2 * W / σ) ^ 2 := by
    refine le_trans hvn (pow_le_pow_left₀ (div_nonneg hW hσ2.le) ?_ 2)
    rw [div_le_div_iff₀ hσ2 hσ]
    have := mul_nonneg hg0 hY0
    have : W * σ ≤ W * (2 * lo u σ Y r) := mul_le_mul_of_nonneg_left (by linarith) hW
    linarith
  have e : ∑ k, (np k - ∑ j ∈ Finset.range iq, ρ j * act j k) * w k = ∑ i ∈ Finset.range n, v i * (f i + if iq ≤ i then d i else 0) := by
    simp only [← hsum, ← hv, Finset.mul_sum]
    rw [Finset.sum_comm]
    exact Finset.sum_congr rfl fun i _ => Finset.sum_congr rfl fun k _ => by ring
  rw [e]
  refine le_trans (abs_sum_mul_le (Finset.range n) v _ (by positivity) (by positivity) hvn' s) (le_of_eq ?_)
  ring

end

section
variable {maxIter : ℕ} {P : FQP ℝ n} {J0 : ℕ → Fin n → ℝ} {ν σ β b X : ℝ}

/-- The diagonal of `R` has no zero; the entering constraint is not satisfied with a margin. -/
def Extra (u g : ℝ) (P : FQP ℝ n) (β b X : ℝ) : FNext ℝ n → Prop
  | .ret _ _ => True
  | .eq _ st => ∀ k < st.iq, st.R k k ≠ 0
  | .l1 st => ∀ k < st.iq, st.R k k ≠ 0
  | .l2 st => ∀ k < st.iq, st.R k k ≠ 0
  | .l2a st => (∀ k < st.iq, st.R k k ≠ 0) ∧ val (P.CI.getD st.ip (0, 0)) st.x ≤ 6 * (g + u) * (β * X + b)

theorem Rounded.drop_diag (h : o.Rounded m u g) (hu0 : 0 ≤ u) (hu : u ≤ 1 / 1000) {st st1 st' : FState ℝ n} (hact : ActOk P st) {k : ℕ}
    (hk : P.CE.length ≤ k) (hk' : k < st.iq) (hR : ∀ k < st.iq, st.R k k ≠ 0)
    (hd : o.dropActive P st1 (st.A k) = .ok st') (e1 : st1.R = st.R) (e2 : st1.A = st.A) (e3 : st1.iq = st.iq) : (∀ k < st'.iq, st'.R k k ≠ 0) ∧ st'.x = st1.x ∧ st'.ip = st1.ip := by
  obtain ⟨d, hd1, rfl⟩ := dropActive_cases hd
  rw [e1, e2, e3] at hd1
  have hq : findActive st.A P.CE.length st.iq (st.A k) = k :=
    findActive_eq hk hk' rfl fun i h1 h2 e => by
      have := hact.inj i k h1 (by omega) hk hk' e
      omega
  refine ⟨?_, rfl, rfl⟩
  dsimp only
  rw [e3]
  exact h.deleteConstraint_diag hu0 hu hR hd1 hq hk'

theorem ScaledFp.extra (hC : ScaledFp o u g maxIter P J0 ν σ β b) (h : o.Rounded m u g) (hX : 0 ≤ X) (hE : P.CE.length ≤ n) {x0 : Fin n → ℝ}
    {w : FWork ℝ n} (hx : ∀ q, o.Reach maxIter P J0 (.eq 0 (o.init P J0 x0 w)) q → ∑ k, (st q).x k ^ 2 ≤ X ^ 2)
    (hfar : ∀ i s, o.Reach maxIter P J0 (.eq 0 (o.init P J0 x0 w)) (.eq i s) → i < P.CE.length →
      o.far (o.updateZ s.J (o.gemvT s.J (P.CE.getD i (0, 0)).1) s.iq))
    {q : FNext ℝ n} (hr : o.Reach maxIter P J0 (.eq 0 (o.init P J0 x0 w)) q) : Extra u g P β b X q := by
  classical
  have hp := hC.par
  have hM : 0 ≤ 6 * (g + u) * (β * X + b) := by
    have := hC.β0
    have := hC.b0
    have := hp.g0
    have := hp.u0
    positivity
  induction hr with
  | refl =>
    intro k hk
    exact absurd hk (Nat.not_lt_zero k)
  | @tail q q' hb hs ih =>
    obtain ⟨hgood, c, hc, hB, hbig⟩ := hC.reach h hX hE hx hfar hb
    have hxb := hx _ hb
    have hxb' := hx _ (.tail hb hs)
    cases q with
    | ret r s => cases Out.ok.inj (show Out.ok (FNext.ret r s) = Out.ok q' from hs); trivial
    | eq i st =>
      replace hs : o.stepEq P i st = .ok q' := hs
      obtain ⟨g1, g2, g3, g4⟩ := hgood
      unfold stepEq at hs
      by_cases hi : i < P.CE.length
      · rw [if_pos hi, if_pos ⟨by omega, by omega⟩] at hs
        obtain ⟨a, ha⟩ := o.addConstraint_ok (J := st.J) (R := st.R) (d := o.gemvT st.J (P.CE.getD i (fun _ => o.zero, o.zero)).1)
          (Rnorm := st.Rnorm) (show st.iq < n by omega)
        dsimp only at hs
        rw [ha] at hs
        dsimp only at hs
        split_ifs at hs with hok
        · cases Out.ok.inj hs
          exact h.addConstraint_diag hp.u1 hB.2.1 ih ha hok
        · cases Out.ok.inj hs; trivial
      · rw [if_neg hi] at hs
        cases Out.ok.inj hs
        exact ih
    | l1 st =>
      replace hs : o.stepL1 maxIter P J0 st = .ok q' := hs
      unfold stepL1 at hs
      dsimp only at hs
      split_ifs at hs
      · cases Out.ok.inj hs; trivial
      · cases Out.ok.inj hs; trivial
      · cases Out.ok.inj hs
        exact ih
    | l2 st =>
      obtain ⟨hact, g0, g1, g2, g3⟩ := hgood
      replace hs : o.stepL2 P st = .ok q' := hs
      have hlt := (o.chooseViolated_mem st.s st.iai st.iaexcl (List.range P.CI.length) (st.ss, st.ip))
      unfold stepL2 at hs
      dsimp only at hs
      split_ifs at hs with hz hg
      · cases Out.ok.inj hs; trivial
      · cases Out.ok.inj hs
        refine ⟨ih, ?_⟩
        dsimp only
        generalize o.chooseViolated st.s st.iai st.iaexcl (List.range P.CI.length) (st.ss, st.ip) = j at hg hz hlt
        have k1 := hC.slack_le h hX hg.1 hxb g3
        rw [h.le, h.zero, not_le] at hz
        have k2 : st.s j.2 < 0 := by
          rcases hlt with rfl | hlt
          · dsimp only at hz
            rw [g0, h.zero] at hz
            exact absurd hz (lt_irrefl 0)
          · rw [← hlt]
            exact hz
        have k3 : _ ≤ st.s j.2 - val (P.CI.getD j.2 (0, 0)) st.x := (abs_le.mp k1).1
        have : (g + 1.01 * u) * (β * X + b) ≤ 6 * (g + u) * (β * X + b) := by
          refine mul_le_mul_of_nonneg_right ?_ ?_
          · linarith [hp.g0, hp.u0]
          · have := hC.β0
            have := hC.b0
            positivity
        linarith
    | l2a st =>
      obtain ⟨hBr, hsl⟩ := hbig
      obtain ⟨hd, hval⟩ := ih
      have hm : n * c ≤ rots n maxIter P := Nat.mul_le_mul_left n (by omega)
      have hacc : o.Accepts P st := hC.cond.accepts h (c := c) (by omega) hB
      obtain ⟨hact, g1, g2, g3⟩ := id hgood
      have hmem := getD_mem g1 ((0, 0) : (Fin n → ℝ) × ℝ)
      have hce := hC.cond.ci _ hmem
      have hcb := hC.ci _ hmem
      rcases stepL2a_cases h.sane hgood hacc hs with ⟨rfl, -⟩ | ⟨k, r, t, st1, k1, k2, k3, rfl⟩ | ⟨k, t, f', u', st1, k1, k2, k3, k4, k5, rfl⟩ |
        ⟨t, f', u', a, k1, k2, k3, k4, k5, rfl⟩
      · trivial
      · obtain ⟨f1, f2, f3⟩ := h.drop_diag hp.u0 hp.u1 hact k1 k2 hd k3 rfl rfl rfl
        refine ⟨f1, ?_⟩
        rw [f2, f3]
        exact hval
      · obtain ⟨f1, f2, f3⟩ := h.drop_diag hp.u0 hp.u1 hact k1 k2 hd k4 rfl rfl rfl
        refine ⟨f1, ?_⟩
        dsimp only at f2 f3 ⊢
        rw [row_eq o g1] at f2 k3 k5
        have hlt := (h.far_d hp.g0 hp.g1 k3).1
        have hpos := h.dot_pos hp hm hBr.J hce hC.eps' k3
        have hz : o.updateZ st.J (o.gemvT st.J (P.CI.getD st.ip (0, 0)).1) st.iq = o.gemv st.J (o.gemvT st.J (P.CI.getD st.ip (0, 0)).1) st.iq := by
          unfold updateZ
          rw [if_pos hlt]
        have hx1 : ∑ i, st1.x i ^ 2 ≤ X ^ 2 := hxb'
        rw [f2] at hx1
        rw [f3, f2]
        rw [h.lt, h.neg, h.eq] at k5
        rw [hz] at k5 hx1 ⊢
        exact h.move_part hp hce hpos (not_lt.mp (k5 rfl)) hX hxb hx1 (mag_le hC.β0 hX hce hxb hcb) (by linarith [hC.b0]) hsl
      · exact h.addConstraint_diag hp.u1 hB.2.1 hd k4 k5

/-- The error of the combination of the normals, in terms of the data. -/
theorem ScaledFp.comb_le (hC : ScaledFp o u g maxIter P J0 ν σ β b) {γ W : ℝ} (hγ : 0 ≤ γ) (hW : 0 ≤ W) {r : ℕ} (hr : r ≤ rots n maxIter P) :
    2 * W / σ * (dl u g (β * (1.07 * ν)) r + γ * (β * (1.07 * ν) + dl u g (β * (1.07 * ν)) r)) ≤
      W * β * (ν / σ) * (2.4 * (1 + γ) * (g + 152 * u * (n * (P.CE.length + 2 + maxIter * (n + 3) : ℕ))) + 2.2 * γ) := by
  have hu0 := hC.cond.u0
  have hν := hC.ν0
  have hg := hC.cond.g0
  have hσ := hC.σ0
  have hβ := hC.β0
  have h1 : dl u g (β * (1.07 * ν)) r ≤ dl u g (β * (1.07 * ν)) (rots n maxIter P) := dl_mono hu0 hg (by positivity) hr
  have hpow : (1 + 84 * u) ^ rots n maxIter P ≤ 1.1 := by
    have h1 := one_add_pow_mul (x := 84 * u) (rots n maxIter P) (by positivity) (by linarith [hC.cond.u1])
    have h2 := hC.rots_le
    have h3 : (1 : ℝ) ≤ (1 + 84 * u) ^ rots n maxIter P := one_le_pow₀ (by linarith)
    nlinarith
  have e : ((n : ℝ) * ((P.CE.length + 2 + maxIter * (n + 3) : ℕ) : ℝ)) = (rots n maxIter P : ℝ) := by unfold rots; rw [Nat.cast_mul]
  rw [e]
  have hR : (0 : ℝ) ≤ (rots n maxIter P : ℝ) := Nat.cast_nonneg _
  have h2 : dl u g (β * (1.07 * ν)) (rots n maxIter P) ≤ 1.1 * (g + 152 * u * rots n maxIter P) * (β * (1.07 * ν)) := by
    unfold dl
    have : 0 ≤ g + 152 * u * rots n maxIter P := by positivity
    gcongr
  have h3 := le_trans h1 h2
  generalize dl u g (β * (1.07 * ν)) r = D at *
  generalize (rots n maxIter P : ℝ) = R at *
  have h4 : D + γ * (β * (1.07 * ν) + D) ≤ β * ν * (1.177 * (1 + γ) * (g + 152 * u * R) + 1.07 * γ) := by
    have := mul_le_mul_of_nonneg_left h3 (by linarith : (0 : ℝ) ≤ 1 + γ)
    linarith
  have h5 := mul_le_mul_of_nonneg_left h4 (by positivity : 0 ≤ 2 * W / σ)
  refine le_trans h5 ?_
  have e2 : 2 * W / σ * (β * ν * (1.177 * (1 + γ) * (g + 152 * u * R) + 1.07 * γ)) =
      W * β * (ν / σ) * (2.354 * (1 + γ) * (g + 152 * u * R) + 2.14 * γ) := by
    field_simp
    ring
  rw [e2]
  have k : 0 ≤ W * β * (ν / σ) := by positivity
  refine mul_le_mul_of_nonneg_left ?_ k
  have : 0 ≤ (1 + γ) * (g + 152 * u * R) := by positivity
  linarith

end

end Arith

end Verif
