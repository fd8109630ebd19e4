import Verif.Lemmas.QuadRounded

/-! `m_J` and `R_norm` under rounding. -/

namespace Verif

variable {n : ℕ}

namespace Arith

variable {o : Arith ℝ n} {m : ℕ} {u g : ℝ}

/-- Sum of the squares of the entries of `m_J`. -/
noncomputable def sqJ (J : ℕ → Fin n → ℝ) : ℝ := ∑ j ∈ Finset.range n, ∑ k, J j k ^ 2

theorem sqJ_nonneg (J : ℕ → Fin n → ℝ) : 0 ≤ sqJ J :=
  Finset.sum_nonneg fun _ _ => Finset.sum_nonneg fun _ _ => sq_nonneg _

theorem sqJ_two {J J' : ℕ → Fin n → ℝ} {j : ℕ} {e : ℝ} (he : 0 ≤ e) (hj : j + 1 < n)
    (h : ∀ k, J' j k ^ 2 + J' (j + 1) k ^ 2 ≤ (1 + e) * (J j k ^ 2 + J (j + 1) k ^ 2))
    (h' : ∀ i, i ≠ j → i ≠ j + 1 → J' i = J i) : sqJ J' ≤ (1 + e) * sqJ J := by
  have split : ∀ S : ℕ → ℝ, ∑ i ∈ Finset.range n, S i =
      S j + (S (j + 1) + ∑ i ∈ ((Finset.range n).erase j).erase (j + 1), S i) := by
    intro S
    rw [Finset.add_sum_erase _ S (Finset.mem_erase.mpr ⟨by omega, Finset.mem_range.mpr hj⟩),
      Finset.add_sum_erase _ S (Finset.mem_range.mpr (by omega))]
  unfold sqJ
  rw [split, split fun i => ∑ k, J i k ^ 2]
  have e1 : ∑ i ∈ ((Finset.range n).erase j).erase (j + 1), ∑ k, J' i k ^ 2 =
      ∑ i ∈ ((Finset.range n).erase j).erase (j + 1), ∑ k, J i k ^ 2 := by
    refine Finset.sum_congr rfl fun i hi => ?_
    rw [Finset.mem_erase, Finset.mem_erase] at hi
    rw [h' i hi.2.1 hi.1]
  have e2 : 0 ≤ ∑ i ∈ ((Finset.range n).erase j).erase (j + 1), ∑ k, J i k ^ 2 :=
    Finset.sum_nonneg fun _ _ => Finset.sum_nonneg fun _ _ => sq_nonneg _
  have e3 : ∑ k, J' j k ^ 2 + ∑ k, J' (j + 1) k ^ 2 ≤ (1 + e) * (∑ k, J j k ^ 2 + ∑ k, J (j + 1) k ^ 2) := by
    rw [← Finset.sum_add_distrib, ← Finset.sum_add_distrib, Finset.mul_sum]
    exact Finset.sum_le_sum fun k _ => h k
  rw [e1]
  nlinarith [mul_nonneg he e2]

theorem Rounded.addGivens_sqJ (h : o.Rounded m u g) (hu0 : 0 ≤ u) (hu : u ≤ 1 / 1000) (q : (ℕ → Fin n → ℝ) × (ℕ → ℝ)) {j : ℕ}
    (hj : j + 1 < n) : sqJ (o.addGivens q j).1 ≤ (1 + 120 * u) * sqJ q.1 := by
  classical
  unfold addGivens
  dsimp only
  by_cases hd : o.eq (o.dist (q.2 j) (q.2 (j + 1))) o.zero
  · rw [if_pos hd]
    have := sqJ_nonneg q.1
    nlinarith
  · rw [if_neg hd]
    rw [h.eq, h.zero] at hd
    obtain ⟨g1, g2, -⟩ := h.givens_spec hu0 hu hd
    refine sqJ_two (j := j) (by linarith) hj (fun k => ?_) (fun i h1 h2 => ?_)
    · dsimp only
      rw [Function.update_of_ne (by omega), Function.update_self, Function.update_self]
      exact h.rot_sq hu0 hu g1 g2 _ _
    · dsimp only
      rw [Function.update_of_ne h2, Function.update_of_ne h1]

theorem Rounded.delGivens_sqJ (h : o.Rounded m u g) (hu0 : 0 ≤ u) (hu : u ≤ 1 / 1000) (iq : ℕ)
    (q : (ℕ → Fin n → ℝ) × (ℕ → ℕ → ℝ)) {j : ℕ} (hj : j + 1 < n) :
    sqJ (o.delGivens iq q j).1 ≤ (1 + 120 * u) * sqJ q.1 := by
  classical
  unfold delGivens
  dsimp only
  by_cases hd : o.eq (o.dist (q.2 j j) (q.2 (j + 1) j)) o.zero
  · rw [if_pos hd]
    have := sqJ_nonneg q.1
    nlinarith
  · rw [if_neg hd]
    rw [h.eq, h.zero] at hd
    obtain ⟨g1, g2, -⟩ := h.givens_spec hu0 hu hd
    refine sqJ_two (j := j) (by linarith) hj (fun k => ?_) (fun i h1 h2 => ?_)
    · dsimp only
      rw [Function.update_of_ne (by omega), Function.update_self, Function.update_self]
      exact h.rot_sq' hu0 hu g1 g2 _ _
    · dsimp only
      rw [Function.update_of_ne h2, Function.update_of_ne h1]

theorem Rounded.addLoop_sqJ (h : o.Rounded m u g) (hu0 : 0 ≤ u) (hu : u ≤ 1 / 1000) (iq : ℕ) : ∀ (k : ℕ)
    (q : (ℕ → Fin n → ℝ) × (ℕ → ℝ)), iq + k < n → sqJ (o.addLoop iq k q).1 ≤ (1 + 120 * u) ^ k * sqJ q.1
  | 0, q, _ => by simp [addLoop]
  | k + 1, q, hk => by
    unfold addLoop
    refine le_trans (h.addLoop_sqJ hu0 hu iq k _ (by omega)) ?_
    rw [pow_succ, mul_assoc]
    exact mul_le_mul_of_nonneg_left (h.addGivens_sqJ hu0 hu q (by omega)) (by positivity)

theorem Rounded.delLoop_sqJ (h : o.Rounded m u g) (hu0 : 0 ≤ u) (hu : u ≤ 1 / 1000) (iq : ℕ) : ∀ (k j : ℕ)
    (q : (ℕ → Fin n → ℝ) × (ℕ → ℕ → ℝ)), j + k < n → sqJ (o.delLoop iq j k q).1 ≤ (1 + 120 * u) ^ k * sqJ q.1
  | 0, _, q, _ => by simp [delLoop]
  | k + 1, j, q, hk => by
    unfold delLoop
    refine le_trans (h.delLoop_sqJ hu0 hu iq k (j + 1) _ (by omega)) ?_
    rw [pow_succ, mul_assoc]
    exact mul_le_mul_of_nonneg_left (h.delGivens_sqJ hu0 hu iq q (by omega)) (by positivity)

/-- The last rotations leave the norm of the tail of `d` in its first entry. -/
theorem Rounded.addLoop_d (h : o.Rounded m u g) (hu0 : 0 ≤ u) (hu : u ≤ 1 / 1000) (iq : ℕ) : ∀ (k : ℕ)
    (q : (ℕ → Fin n → ℝ) × (ℕ → ℝ)),
    (1 - 12 * u) ^ k * ∑ i ∈ Finset.range (k + 1), q.2 (iq + i) ^ 2 ≤ (o.addLoop iq k q).2 iq ^ 2 ∧
      (o.addLoop iq k q).2 iq ^ 2 ≤ (1 + 12 * u) ^ k * ∑ i ∈ Finset.range (k + 1), q.2 (iq + i) ^ 2
  | 0, q => by simp [addLoop]
  | k + 1, q => by
    classical
    unfold addLoop
    obtain ⟨h1, h2⟩ := h.addLoop_d hu0 hu iq k (o.addGivens q (iq + k))
    have hs0 : 0 ≤ ∑ i ∈ Finset.range k, q.2 (iq + i) ^ 2 := Finset.sum_nonneg fun _ _ => sq_nonneg _
    have hn1 : 0 ≤ 1 - 12 * u := by linarith
    have key : (1 - 12 * u) * ∑ i ∈ Finset.range (k + 1 + 1), q.2 (iq + i) ^ 2 ≤
          ∑ i ∈ Finset.range (k + 1), (o.addGivens q (iq + k)).2 (iq + i) ^ 2 ∧
        ∑ i ∈ Finset.range (k + 1), (o.addGivens q (iq + k)).2 (iq + i) ^ 2 ≤
          (1 + 12 * u) * ∑ i ∈ Finset.range (k + 1 + 1), q.2 (iq + i) ^ 2 := by
      obtain ⟨-, d1, d2⟩ := h.dist_sq hu0 hu (q.2 (iq + k)) (q.2 (iq + k + 1))
      rw [Finset.sum_range_succ, Finset.sum_range_succ, Finset.sum_range_succ, ← add_assoc]
      unfold addGivens
      dsimp only
      by_cases hd : o.eq (o.dist (q.2 (iq + k)) (q.2 (iq + k + 1))) o.zero
      · rw [if_pos hd]
        rw [h.eq, h.zero] at hd
        rw [hd] at d1
        have e1 := sq_nonneg (q.2 (iq + k))
        have e2 := sq_nonneg (q.2 (iq + k + 1))
        have e3 : q.2 (iq + k) ^ 2 + q.2 (iq + k + 1) ^ 2 ≤ 0 := by
          by_contra hcon
          have := mul_pos (by linarith : (0 : ℝ) < 1 - 12 * u) (not_le.mp hcon)
          linarith
        have e4 : q.2 (iq + k) ^ 2 = 0 := by linarith
        have e5 : q.2 (iq + k + 1) ^ 2 = 0 := by linarith
        rw [e4, e5]
        constructor <;> nlinarith
      · rw [if_neg hd]
        rw [h.eq, h.zero] at hd
        obtain ⟨-, -, g3⟩ := h.givens_spec hu0 hu hd
        dsimp only
        rw [Function.update_self, g3]
        have e1 : ∑ i ∈ Finset.range k, Function.update (Function.update q.2 (iq + k + 1) o.zero) (iq + k)
            (o.givens (q.2 (iq + k)) (q.2 (iq + k + 1))).2.2 (iq + i) ^ 2 = ∑ i ∈ Finset.range k, q.2 (iq + i) ^ 2 := by
          refine Finset.sum_congr rfl fun i hi => ?_
          have := Finset.mem_range.mp hi
          rw [Function.update_of_ne (by omega), Function.update_of_ne (by omega)]
        rw [e1]
        constructor <;> nlinarith
    constructor
    · refine le_trans ?_ h1
      rw [pow_succ, mul_assoc]
      exact mul_le_mul_of_nonneg_left key.1 (pow_nonneg hn1 k)
    · refine le_trans h2 ?_
      rw [pow_succ, mul_assoc]
      exact mul_le_mul_of_nonneg_left key.2 (by positivity)

/-- A rounded sum of products, by the Cauchy-Schwarz inequality. -/
theorem sq_sum_mul_le {ι : Type} (s : Finset ι) (a b : ι → ℝ) {r : ℝ} (hg : 0 ≤ g)
    (h : |r - ∑ i ∈ s, a i * b i| ≤ g * ∑ i ∈ s, |a i * b i|) :
    r ^ 2 ≤ (1 + g) ^ 2 * ((∑ i ∈ s, a i ^ 2) * ∑ i ∈ s, b i ^ 2) := by
  have h1 : |r| ≤ (1 + g) * ∑ i ∈ s, |a i * b i| := by
    have := abs_sub_abs_le_abs_sub r (∑ i ∈ s, a i * b i)
    have := Finset.abs_sum_le_sum_abs (fun i => a i * b i) s
    linarith
  have h2 : (∑ i ∈ s, |a i * b i|) ^ 2 ≤ (∑ i ∈ s, a i ^ 2) * ∑ i ∈ s, b i ^ 2 := by
    have := Finset.sum_mul_sq_le_sq_mul_sq s (fun i => |a i|) fun i => |b i|
    simp only [sq_abs] at this
    simpa only [abs_mul] using this
  calc r ^ 2 = |r| ^ 2 := (sq_abs r).symm
    _ ≤ ((1 + g) * ∑ i ∈ s, |a i * b i|) ^ 2 := pow_le_pow_left₀ (abs_nonneg _) h1 2
    _ = (1 + g) ^ 2 * (∑ i ∈ s, |a i * b i|) ^ 2 := by ring
    _ ≤ _ := mul_le_mul_of_nonneg_left h2 (by positivity)

/-- The vector `d`. -/
theorem Rounded.gemvT_sq (h : o.Rounded m u g) (hg : 0 ≤ g) (J : ℕ → Fin n → ℝ) (v : Fin n → ℝ) :
    ∑ j ∈ Finset.range n, o.gemvT J v j ^ 2 ≤ (1 + g) ^ 2 * (sqJ J * ∑ i, v i ^ 2) := by
  unfold sqJ
  rw [Finset.sum_mul, Finset.mul_sum]
  exact Finset.sum_le_sum fun j hj => sq_sum_mul_le _ _ _ hg (h.gemvT J v j (Finset.mem_range.mp hj))

/-- The vector `z`. -/
theorem Rounded.gemv_sq (h : o.Rounded m u g) (hg : 0 ≤ g) (J : ℕ → Fin n → ℝ) (d : ℕ → ℝ) (iq : ℕ) :
    ∑ k, o.gemv J d iq k ^ 2 ≤ (1 + g) ^ 2 * ((∑ j ∈ Finset.Ico iq n, d j ^ 2) * sqJ J) := by
  have h1 : ∀ k, o.gemv J d iq k ^ 2 ≤ (1 + g) ^ 2 * ((∑ j ∈ Finset.Ico iq n, d j ^ 2) * ∑ j ∈ Finset.Ico iq n, J j k ^ 2) :=
    fun k => sq_sum_mul_le _ _ _ hg (h.gemv J d iq k)
  refine le_trans (Finset.sum_le_sum fun k _ => h1 k) ?_
  rw [← Finset.mul_sum, ← Finset.mul_sum]
  refine mul_le_mul_of_nonneg_left (mul_le_mul_of_nonneg_left ?_ (Finset.sum_nonneg fun _ _ => sq_nonneg _)) (by positivity)
  rw [Finset.sum_comm]
  unfold sqJ
  refine Finset.sum_le_sum_of_subset_of_nonneg (fun j hj => ?_) (fun _ _ _ => Finset.sum_nonneg fun _ _ => sq_nonneg _)
  exact Finset.mem_range.mpr (Finset.mem_Ico.mp hj).2

/-- When `z` is far from zero, so is the tail of `d`. -/
theorem Rounded.far_d (h : o.Rounded m u g) (hg : 0 ≤ g) (hg' : g ≤ 1 / 100) {J : ℕ → Fin n → ℝ} {d : ℕ → ℝ} {iq : ℕ}
    (hz : o.far (o.updateZ J d iq)) : iq < n ∧ o.eps < 1.04 * ((∑ j ∈ Finset.Ico iq n, d j ^ 2) * sqJ J) := by
  unfold updateZ at hz
  by_cases hiq : iq < n
  · refine ⟨hiq, ?_⟩
    rw [if_pos hiq] at hz
    unfold far at hz
    rw [h.lt, h.abs] at hz
    have h1 := h.dot (o.gemv J d iq) (o.gemv J d iq)
    have h2 := h.gemv_sq hg J d iq
    have e1 : ∑ i, |o.gemv J d iq i * o.gemv J d iq i| = ∑ i, o.gemv J d iq i ^ 2 :=
      Finset.sum_congr rfl fun i _ => by rw [← pow_two, abs_of_nonneg (sq_nonneg _)]
    have e2 : ∑ i, o.gemv J d iq i * o.gemv J d iq i = ∑ i, o.gemv J d iq i ^ 2 :=
      Finset.sum_congr rfl fun i _ => (pow_two _).symm
    have e3 : 0 ≤ ∑ i, o.gemv J d iq i ^ 2 := Finset.sum_nonneg fun _ _ => sq_nonneg _
    rw [e1, e2] at h1
    have h3 : |o.dot (o.gemv J d iq) (o.gemv J d iq)| ≤ (1 + g) * ∑ i, o.gemv J d iq i ^ 2 := by
      have := abs_sub_abs_le_abs_sub (o.dot (o.gemv J d iq) (o.gemv J d iq)) (∑ i, o.gemv J d iq i ^ 2)
      rw [abs_of_nonneg e3] at this
      linarith
    have e4 : 0 ≤ (∑ j ∈ Finset.Ico iq n, d j ^ 2) * sqJ J :=
      mul_nonneg (Finset.sum_nonneg fun _ _ => sq_nonneg _) (sqJ_nonneg J)
    have e5 : (1 + g) * (1 + g) ^ 2 ≤ 1.04 := by
      have : (1 + g) * (1 + g) ^ 2 = (1 + g) ^ 3 := by ring
      rw [this]
      calc (1 + g) ^ 3 ≤ (1 + 1 / 100 : ℝ) ^ 3 := pow_le_pow_left₀ (by linarith) (by linarith) 3
        _ ≤ 1.04 := by norm_num
    calc o.eps < |o.dot (o.gemv J d iq) (o.gemv J d iq)| := hz
      _ ≤ (1 + g) * ∑ i, o.gemv J d iq i ^ 2 := h3
      _ ≤ (1 + g) * ((1 + g) ^ 2 * ((∑ j ∈ Finset.Ico iq n, d j ^ 2) * sqJ J)) := mul_le_mul_of_nonneg_left h2 (by linarith)
      _ = (1 + g) * (1 + g) ^ 2 * ((∑ j ∈ Finset.Ico iq n, d j ^ 2) * sqJ J) := by ring
      _ ≤ 1.04 * ((∑ j ∈ Finset.Ico iq n, d j ^ 2) * sqJ J) := mul_le_mul_of_nonneg_right e5 e4
  · rw [if_neg hiq] at hz
    exact absurd hz h.sane.zero

/-- Powers of numbers close to one. -/
theorem one_sub_pow {x : ℝ} (m : ℕ) (hx : x ≤ 1) : 1 - m * x ≤ (1 - x) ^ m := by
  have := one_add_mul_le_pow (a := -x) (by linarith) m
  calc 1 - m * x = 1 + m * -x := by ring
    _ ≤ (1 + -x) ^ m := this
    _ = (1 - x) ^ m := by ring

theorem one_add_pow_mul {x : ℝ} (m : ℕ) (hx0 : 0 ≤ x) (hx : x ≤ 1) : (1 + x) ^ m * (1 - m * x) ≤ 1 := by
  calc (1 + x) ^ m * (1 - m * x) ≤ (1 + x) ^ m * (1 - x) ^ m := mul_le_mul_of_nonneg_left (one_sub_pow m hx) (by positivity)
    _ = ((1 + x) * (1 - x)) ^ m := (mul_pow _ _ _).symm
    _ ≤ 1 := pow_le_one₀ (by nlinarith) (by nlinarith)

/-- The sizes of the data are small compared with `1 / eps`, and the rounding errors small compared with the number of steps: `N` bounds the sum of the
squares of the entries of the inverse Cholesky factor, `B` the squared norms of the rows of the constraints. -/
structure ConditionedFp (o : Arith ℝ n) (u g : ℝ) (maxIter : ℕ) (P : FQP ℝ n) (J0 : ℕ → Fin n → ℝ) (N B : ℝ) : Prop where
  u0 : 0 ≤ u
  u1 : u ≤ 1 / 1000
  g0 : 0 ≤ g
  g1 : g ≤ 1 / 100
  steps : 1000 * u * (n * (P.CE.length + 2 + maxIter * (n + 3) : ℕ)) ≤ 1
  sum : ∑ j ∈ Finset.range n, ∑ k, J0 j k ^ 2 ≤ N
  ce : ∀ e ∈ P.CE, ∑ k, e.1 k ^ 2 ≤ B
  ci : ∀ e ∈ P.CI, ∑ k, e.1 k ^ 2 ≤ B
  eps : 2 * o.eps * N * max 1 (2 * N * B) ≤ 1

section
variable {maxIter : ℕ} {P : FQP ℝ n} {J0 : ℕ → Fin n → ℝ} {N B : ℝ}

/-- What is known of `m_J` and `R_norm` after `c` steps. -/
def Bnd (u N B : ℝ) (c : ℕ) (J : ℕ → Fin n → ℝ) (r : ℝ) : Prop :=
  sqJ J ≤ (1 + 120 * u) ^ (n * c) * N ∧ 0 ≤ r ∧ r ^ 2 ≤ max 1 (2 * N * B)

theorem ConditionedFp.N0 (hC : ConditionedFp o u g maxIter P J0 N B) : 0 ≤ N := le_trans (sqJ_nonneg J0) hC.sum

theorem ConditionedFp.growth (hC : ConditionedFp o u g maxIter P J0 N B) {c : ℕ}
    (hc : c ≤ P.CE.length + 2 + maxIter * (n + 3)) : (1 + 120 * u) ^ (n * c) ≤ 1.14 := by
  have hu0 := hC.u0
  have h1 : ((n * c : ℕ) : ℝ) * (120 * u) ≤ 0.12 := by
    have h2 : ((n * c : ℕ) : ℝ) ≤ n * (P.CE.length + 2 + maxIter * (n + 3) : ℕ) := by
      rw [Nat.cast_mul]
      exact mul_le_mul_of_nonneg_left (Nat.cast_le.mpr hc) (Nat.cast_nonneg n)
    have h3 := mul_le_mul_of_nonneg_right h2 hu0
    have := hC.steps
    linarith
  have h2 := one_add_pow_mul (x := 120 * u) (n * c) (by linarith) (by linarith [hC.u1])
  have h3 : 0 ≤ (1 + 120 * u) ^ (n * c) := by positivity
  nlinarith

theorem ConditionedFp.small (hC : ConditionedFp o u g maxIter P J0 N B) {k : ℕ} (hk : k ≤ n) :
    0.99 ≤ (1 - 12 * u) ^ k ∧ (1 + 12 * u) ^ k ≤ 1.01 := by
  have hu0 := hC.u0
  have h1 : (k : ℝ) * (12 * u) ≤ 0.009 := by
    have hn : (k : ℝ) ≤ n := Nat.cast_le.mpr hk
    have h2 : (n : ℝ) * 2 ≤ n * (P.CE.length + 2 + maxIter * (n + 3) : ℕ) := by
      refine mul_le_mul_of_nonneg_left ?_ (Nat.cast_nonneg n)
      exact_mod_cast (by omega : 2 ≤ P.CE.length + 2 + maxIter * (n + 3))
    have h3 := mul_le_mul_of_nonneg_right h2 hu0
    have h4 := mul_le_mul_of_nonneg_right hn hu0
    have := hC.steps
    linarith
  have h2 := one_add_pow_mul (x := 12 * u) k (by linarith) (by linarith [hC.u1])
  have h3 := one_sub_pow (x := 12 * u) k (by linarith [hC.u1])
  have h4 : 0 ≤ (1 + 12 * u) ^ k := by positivity
  constructor
  · linarith
  · nlinarith

theorem ConditionedFp.mono (hC : ConditionedFp o u g maxIter P J0 N B) {c : ℕ} {k : ℕ} (hk : k ≤ n) {J J' : ℕ → Fin n → ℝ}
    (hJ : sqJ J ≤ (1 + 120 * u) ^ (n * c) * N) (hJ' : sqJ J' ≤ (1 + 120 * u) ^ k * sqJ J) :
    sqJ J' ≤ (1 + 120 * u) ^ (n * (c + 1)) * N := by
  have hu0 := hC.u0
  have h1 : (1 + 120 * u) ^ k ≤ (1 + 120 * u) ^ n := pow_le_pow_right₀ (by linarith) hk
  calc sqJ J' ≤ (1 + 120 * u) ^ k * sqJ J := hJ'
    _ ≤ (1 + 120 * u) ^ n * ((1 + 120 * u) ^ (n * c) * N) := mul_le_mul h1 hJ (sqJ_nonneg J) (by positivity)
    _ = (1 + 120 * u) ^ (n * (c + 1)) * N := by rw [Nat.mul_succ, pow_add]; ring

/-- One step carries the bounds. -/
theorem ConditionedFp.carries (hC : ConditionedFp o u g maxIter P J0 N B) (h : o.Rounded m u g) {c : ℕ}
    (hc : c ≤ P.CE.length + 2 + maxIter * (n + 3)) : o.Carries P (Bnd u N B c) (Bnd u N B (c + 1)) := by
  classical
  have hu0 := hC.u0
  have hu := hC.u1
  have hN := hC.N0
  refine ⟨fun J r ⟨h1, h2, h3⟩ => ⟨?_, h2, h3⟩, ?_, ?_⟩
  · exact hC.mono (Nat.zero_le n) h1 (by simp)
  · rintro J R r iq np a ⟨h1, h2, h3⟩ hiq hnp ha
    have hB : ∑ k, np k ^ 2 ≤ B := by
      rcases hnp with ⟨e, he, rfl⟩ | ⟨e, he, rfl⟩
      · exact hC.ce e he
      · exact hC.ci e he
    have hB0 : 0 ≤ ∑ k, np k ^ 2 := Finset.sum_nonneg fun _ _ => sq_nonneg _
    unfold addConstraint at ha
    dsimp only at ha
    rw [if_pos hiq] at ha
    have hJ := h.addLoop_sqJ hu0 hu iq (n - 1 - iq) (J, o.gemvT J np) (by omega)
    have hd := (h.addLoop_d hu0 hu iq (n - 1 - iq) (J, o.gemvT J np)).2
    cases Out.ok.inj ha
    refine ⟨hC.mono (by omega) h1 hJ, ?_, ?_⟩
    · dsimp only
      split_ifs
      · exact h2
      · rw [h.abs]; exact abs_nonneg _
      · exact h2
    · dsimp only
      split_ifs
      · exact h3
      · rw [h.abs, sq_abs]
        refine le_trans hd (le_trans ?_ (le_max_right _ _))
        dsimp only
        have e1 : ∑ i ∈ Finset.range (n - 1 - iq + 1), o.gemvT J np (iq + i) ^ 2 ≤ ∑ j ∈ Finset.range n, o.gemvT J np j ^ 2 := by
          have e0 := Finset.sum_Ico_eq_sum_range (fun j => o.gemvT J np j ^ 2) iq n
          rw [show n - iq = n - 1 - iq + 1 by omega] at e0
          rw [← e0]
          exact Finset.sum_le_sum_of_subset_of_nonneg (fun j hj => Finset.mem_range.mpr (Finset.mem_Ico.mp hj).2)
            fun _ _ _ => sq_nonneg _
        have e2 := h.gemvT_sq hC.g0 J np
        have e3 : sqJ J * ∑ i, np i ^ 2 ≤ (1.14 * N) * B :=
          mul_le_mul (le_trans h1 (mul_le_mul_of_nonneg_right (hC.growth hc) hN)) hB hB0 (by linarith)
        have e4 : (1 + g) ^ 2 ≤ 1.03 := by nlinarith [hC.g0, hC.g1]
        have hNB : 0 ≤ N * B := mul_nonneg hN (le_trans hB0 hB)
        have e0 : 0 ≤ sqJ J * ∑ i, np i ^ 2 := mul_nonneg (sqJ_nonneg J) hB0
        have e5 : (1 + g) ^ 2 * (sqJ J * ∑ i, np i ^ 2) ≤ 1.03 * (1.14 * N * B) := mul_le_mul e4 e3 e0 (by norm_num)
        have e6 := (hC.small (k := n - 1 - iq) (by omega)).2
        calc (1 + 12 * u) ^ (n - 1 - iq) * ∑ i ∈ Finset.range (n - 1 - iq + 1), o.gemvT J np (iq + i) ^ 2
            ≤ 1.01 * (1.03 * (1.14 * N * B)) :=
              mul_le_mul e6 (le_trans e1 (le_trans e2 e5)) (Finset.sum_nonneg fun _ _ => sq_nonneg _) (by norm_num)
          _ ≤ 2 * N * B := by nlinarith
      · exact h3
  · rintro J R r m' nE A w iq l b ⟨h1, h2, h3⟩ hiq hb
    unfold deleteConstraint at hb
    dsimp only at hb
    split_ifs at hb with hcond
    cases Out.ok.inj hb
    refine ⟨?_, h2, h3⟩
    dsimp only
    rcases Nat.eq_zero_or_pos (iq - 1 - findActive A nE iq l) with hz | hz
    · rw [hz]
      exact hC.mono (Nat.zero_le n) h1 (by simp [delLoop])
    · exact hC.mono (k := iq - 1 - findActive A nE iq l) (by omega) h1 (h.delLoop_sqJ hu0 hu _ _ _ _ (by omega))

/-- Within the bounds nothing is rejected. -/
theorem ConditionedFp.accepts_all (hC : ConditionedFp o u g maxIter P J0 N B) (h : o.Rounded m u g) {c : ℕ}
    (hc : c ≤ P.CE.length + 2 + maxIter * (n + 3)) {st : FState ℝ n} (hb : Bnd u N B c st.J st.Rnorm) (np : Fin n → ℝ) (a : AddRes ℝ n)
    (hfar : o.far (o.updateZ st.J (o.gemvT st.J np) st.iq)) (ha : o.addConstraint st.J st.R (o.gemvT st.J np) st.iq st.Rnorm = .ok a) : a.ok := by
  classical
  have hu0 := hC.u0
  have hu := hC.u1
  have hN := hC.N0
  obtain ⟨h1, h2, h3⟩ := hb
  obtain ⟨hiq, hf⟩ := h.far_d hC.g0 hC.g1 hfar
  unfold addConstraint at ha
  dsimp only at ha
  rw [if_pos hiq] at ha
  have hd := (h.addLoop_d hu0 hu st.iq (n - 1 - st.iq) (st.J, o.gemvT st.J np)).1
  cases Out.ok.inj ha
  dsimp only
  rw [h.le, h.abs, not_le]
  dsimp only at hd
  have e1 : ∑ i ∈ Finset.range (n - 1 - st.iq + 1), o.gemvT st.J np (st.iq + i) ^ 2 =
      ∑ j ∈ Finset.Ico st.iq n, o.gemvT st.J np j ^ 2 := by
    rw [Finset.sum_Ico_eq_sum_range, show n - st.iq = n - 1 - st.iq + 1 by omega]
  rw [e1] at hd
  have hD0 : 0 ≤ ∑ j ∈ Finset.Ico st.iq n, o.gemvT st.J np j ^ 2 := Finset.sum_nonneg fun _ _ => sq_nonneg _
  generalize ∑ j ∈ Finset.Ico st.iq n, o.gemvT st.J np j ^ 2 = D at hf hd hD0
  generalize (o.addLoop st.iq (n - 1 - st.iq) (st.J, o.gemvT st.J np)).2 st.iq = y at hd
  have hJ : sqJ st.J ≤ 1.14 * N := le_trans h1 (mul_le_mul_of_nonneg_right (hC.growth hc) hN)
  have hy : 0.99 * D ≤ y ^ 2 := le_trans (mul_le_mul_of_nonneg_right (hC.small (k := n - 1 - st.iq) (by omega)).1 hD0) hd
  have he : o.eps < 1.2 * (D * N) := by
    have : D * sqJ st.J ≤ D * (1.14 * N) := mul_le_mul_of_nonneg_left hJ hD0
    have hDN : 0 ≤ D * N := mul_nonneg hD0 hN
    linarith
  have hm := h.mul o.eps st.Rnorm
  have he0 := h.eps
  have hM := hC.eps
  have hr : o.mul o.eps st.Rnorm ≤ 1.001 * (o.eps * st.Rnorm) := by
    have h0 : 0 ≤ o.eps * st.Rnorm := mul_nonneg he0 h2
    rw [abs_of_nonneg h0] at hm
    have := (abs_le.mp hm).2
    nlinarith
  refine lt_of_le_of_lt hr ?_
  refine lt_of_lt_of_le ?_ (le_refl |y|)
  refine lt_of_pow_lt_pow_left₀ 2 (abs_nonneg y) ?_
  rw [sq_abs, mul_pow, mul_pow]
  generalize max 1 (2 * N * B) = M at h3 hM
  have hNpos : 0 < N := by
    rcases hN.lt_or_eq with hp | hp
    · exact hp
    · rw [← hp] at he; simp at he; linarith
  have hDpos : 0 < D := by
    rcases hD0.lt_or_eq with hp | hp
    · exact hp
    · rw [← hp] at he; simp at he; linarith
  have k1 : o.eps ^ 2 * st.Rnorm ^ 2 ≤ o.eps ^ 2 * M := mul_le_mul_of_nonneg_left h3 (sq_nonneg _)
  have k2 : N * (o.eps ^ 2 * M) ≤ N * (0.6 * D) := by
    have : o.eps * (2 * o.eps * N * M) ≤ o.eps * 1 := mul_le_mul_of_nonneg_left hM he0
    nlinarith
  have k3 : o.eps ^ 2 * M ≤ 0.6 * D := le_of_mul_le_mul_left k2 hNpos
  norm_num at k1 k3 ⊢
  nlinarith

theorem ConditionedFp.accepts (hC : ConditionedFp o u g maxIter P J0 N B) (h : o.Rounded m u g) {c : ℕ}
    (hc : c ≤ P.CE.length + 2 + maxIter * (n + 3)) {st : FState ℝ n} (hb : Bnd u N B c st.J st.Rnorm) : o.Accepts P st :=
  hC.accepts_all h hc hb _

/-- The invariant on the states that the solver reaches. -/
theorem ConditionedFp.reach (hC : ConditionedFp o u g maxIter P J0 N B) (h : o.Rounded m u g) {x0 : Fin n → ℝ} {w : FWork ℝ n}
    (hE : P.CE.length ≤ n) {q : FNext ℝ n} (hr : o.Reach maxIter P J0 (.eq 0 (o.init P J0 x0 w)) q) :
    Good o P q ∧ ∃ c, c + cost maxIter P q ≤ P.CE.length + 2 + maxIter * (n + 3) ∧ Bnd u N B c (st q).J (st q).Rnorm := by
  induction hr with
  | refl =>
    refine ⟨⟨rfl, Nat.zero_le _, hE, rfl⟩, 0, by simp [cost], ?_, ?_, ?_⟩
    · rw [Nat.mul_zero, pow_zero, one_mul]
      exact hC.sum
    · show (0 : ℝ) ≤ o.one
      rw [h.one]; norm_num
    · show o.one ^ 2 ≤ _
      rw [h.one, one_pow]
      exact le_max_left _ _
  | @tail b q' hb hs ih =>
    obtain ⟨hg, c, hc, hB⟩ := ih
    by_cases hret : ∃ r s, b = .ret r s
    · obtain ⟨r, s, rfl⟩ := hret
      cases Out.ok.inj (show Out.ok (FNext.ret r s) = Out.ok q' from hs)
      exact ⟨hg, c, hc, hB⟩
    · obtain ⟨q2, s1, s2, s3, s4⟩ := step_good h.sane (maxIter := maxIter) (J0 := J0)
        (hC.carries h (c := c) (by omega)) hB hg (fun r s e => hret ⟨r, s, e⟩)
        (fun st e => hC.accepts h (c := c) (by omega) (by rw [e] at hB; exact hB))
      rw [hs] at s1
      cases Out.ok.inj s1
      exact ⟨s2, c + 1, by omega, s4⟩

end

end Arith

end Verif
