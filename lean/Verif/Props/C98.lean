import Verif.Props.C97

/-!
# C98: the objective reported by a solver with rounded arithmetic
-/

namespace Verif

variable {n : ℕ}

namespace Arith

variable {o : Arith ℝ n} {m : ℕ} {u g : ℝ}

/-- The change of the objective is the mean of the gradients times the move. -/
theorem objective_sub {P : FQP ℝ n} (hs : ∀ i j, P.G i j = P.G j i) (x x' : Fin n → ℝ) :
    objective P x' - objective P x =
      1 / 2 * (∑ i, (∑ j, P.G i j * x j + P.g i) * (x' i - x i) + ∑ i, (∑ j, P.G i j * x' j + P.g i) * (x' i - x i)) := by
  have e : ∀ y : Fin n → ℝ, ∑ i, (∑ j, P.G i j * y j + P.g i) * (x' i - x i) =
      ∑ i, x' i * ∑ j, P.G i j * y j - ∑ i, x i * ∑ j, P.G i j * y j + (∑ i, P.g i * x' i - ∑ i, P.g i * x i) := by
    intro y
    rw [← Finset.sum_sub_distrib, ← Finset.sum_sub_distrib, ← Finset.sum_add_distrib]
    exact Finset.sum_congr rfl fun i _ => by ring
  rw [e, e, quad_symm hs x' x]
  unfold objective
  ring

/-- The product of the step length and the direction with the normal. -/
theorem Rounded.move_normal (h : o.Rounded m u g) (hu0 : 0 ≤ u) (hu : u ≤ 1 / 1000) (hg0 : 0 ≤ g) (hg : g ≤ 1 / 100) {x z np : Fin n → ℝ} {t X β : ℝ} (hX : 0 ≤ X)
    (hβ : 0 ≤ β) (hx : ∑ k, x k ^ 2 ≤ X ^ 2) (hx' : ∑ k, o.mulAdd t (z k) (x k) ^ 2 ≤ X ^ 2) (hn : ∑ k, np k ^ 2 ≤ β ^ 2) :
    |∑ i, np i * (o.mulAdd t (z i) (x i) - x i) - t * o.dot z np| ≤ (3.2 * u + 2.01 * g) * (β * X) ∧ |t * o.dot z np| ≤ 2.04 * (β * X) := by
  obtain ⟨m1, m2⟩ := h.move hu0 hu hX hx hx'
  have hd := h.dot z np
  have b1 := abs_sum_mul_le Finset.univ np _ hβ (by positivity) hn m1
  have b2 := abs_sum_abs_le Finset.univ (fun k => t * z k) np (by positivity) hβ m2 hn
  have e1 : ∑ i, np i * (o.mulAdd t (z i) (x i) - x i) = ∑ i, np i * (o.mulAdd t (z i) (x i) - (x i + t * z i)) + ∑ i, t * z i * np i := by
    rw [← Finset.sum_add_distrib]
    exact Finset.sum_congr rfl fun i _ => by ring
  have e2 : ∑ i, t * z i * np i = t * ∑ i, z i * np i := by
    rw [Finset.mul_sum]
    exact Finset.sum_congr rfl fun i _ => by ring
  have e3 : ∑ i, |t * z i * np i| = |t| * ∑ i, |z i * np i| := by
    rw [Finset.mul_sum]
    exact Finset.sum_congr rfl fun i _ => by rw [mul_assoc, abs_mul]
  have b3 : |t * o.dot z np - ∑ i, t * z i * np i| ≤ g * (2.01 * X * β) := by
    rw [e2, ← mul_sub, abs_mul]
    have := mul_le_mul_of_nonneg_left hd (abs_nonneg t)
    have b4 := mul_le_mul_of_nonneg_left b2 hg0
    rw [e3] at b4
    linarith
  have b5 := Finset.abs_sum_le_sum_abs (fun i => t * z i * np i) Finset.univ
  have hβX := mul_nonneg hβ hX
  have b6 : g * (2.01 * X * β) ≤ 0.03 * (β * X) := by
    have := mul_le_mul_of_nonneg_right hg hβX
    linarith
  constructor
  · rw [e1]
    rw [abs_le] at *
    constructor <;> linarith [b1.1, b1.2, b3.1, b3.2]
  · have := abs_sub_abs_le_abs_sub (t * o.dot z np) (∑ i, t * z i * np i)
    linarith

/-- The update of the objective, in numbers. -/
theorem value_update {t D v v' p f q y f' U M Fm : ℝ} (hu0 : 0 ≤ u) (hu : u ≤ 1 / 1000) (hg0 : 0 ≤ g) (hM : 0 ≤ M) (hU : 0 ≤ U)
    (hv : |v| ≤ U) (ht : |t| ≤ 2.04 * U) (hv' : |v' - (v + t)| ≤ 3.3 * u * U) (hp : |p| ≤ 2 * M) (hpD : |p - t * D| ≤ (3.2 * u + 2.01 * g) * M)
    (hD : |t * D| ≤ 2.04 * M) (hq : |q - t * D| ≤ u * |t * D|) (hy : |y - (1 / 2 * t + v)| ≤ u * |1 / 2 * t + v| + u * (1 + u) * |1 / 2 * t|)
    (hf' : |f' - (q * y + f)| ≤ u * |q * y + f| + u * (1 + u) * |q * y|) (hf : |f| ≤ Fm) :
    |f' - f - 1 / 2 * (v + v') * p| ≤ u * Fm + (29 * u + 4.1 * g) * (U * M) := by
  have hUM := mul_nonneg hU hM
  have huU := mul_nonneg hu0 hU
  have huM := mul_nonneg hu0 hM
  have huUM := mul_nonneg hu0 hUM
  have a1 : |1 / 2 * t + v| ≤ 2.02 * U := by
    have h1 := abs_add_le (1 / 2 * t) v
    have h2 : |1 / 2 * t| = 1 / 2 * |t| := by rw [abs_mul]; norm_num
    linarith
  have a2 : |1 / 2 * t| ≤ 1.02 * U := by
    rw [abs_mul]
    norm_num
    linarith
  have a3 : |y - (1 / 2 * t + v)| ≤ 3.05 * (u * U) := by
    have h1 := mul_le_mul_of_nonneg_left a1 hu0
    have h2 := mul_le_mul_of_nonneg_left a2 (by positivity : 0 ≤ u * (1 + u))
    have h3 := mul_le_mul_of_nonneg_right hu huU
    linarith
  have a4 : |y| ≤ 2.03 * U := by
    have h1 := abs_sub_abs_le_abs_sub y (1 / 2 * t + v)
    have h2 := mul_le_mul_of_nonneg_right hu hU
    linarith
  have a5 : |q - t * D| ≤ 2.04 * (u * M) := by
    have := mul_le_mul_of_nonneg_left hD hu0
    linarith
  have a6 : |q| ≤ 2.05 * M := by
    have h1 := abs_sub_abs_le_abs_sub q (t * D)
    have h2 := mul_le_mul_of_nonneg_right hu hM
    linarith
  have a7 : |q * y| ≤ 4.2 * (U * M) := by
    rw [abs_mul]
    have := mul_le_mul a6 a4 (abs_nonneg _) (by positivity)
    linarith
  have a8 : |q * y - t * D * (1 / 2 * t + v)| ≤ 10.5 * (u * (U * M)) := by
    have e : q * y - t * D * (1 / 2 * t + v) = (q - t * D) * y + t * D * (y - (1 / 2 * t + v)) := by ring
    rw [e]
    have h1 := abs_add_le ((q - t * D) * y) (t * D * (y - (1 / 2 * t + v)))
    rw [abs_mul, abs_mul (t * D)] at h1
    have h2 := mul_le_mul a5 a4 (abs_nonneg _) (by positivity)
    have h3 := mul_le_mul hD a3 (abs_nonneg _) (by positivity)
    linarith
  have a9 : |f' - (q * y + f)| ≤ u * Fm + 8.5 * (u * (U * M)) := by
    have h1 := abs_add_le (q * y) f
    have h2 := mul_le_mul_of_nonneg_left (le_trans h1 (add_le_add a7 hf)) hu0
    have h3 := mul_le_mul_of_nonneg_left a7 (by positivity : 0 ≤ u * (1 + u))
    have h4 := mul_le_mul_of_nonneg_right hu huUM
    linarith
  have a10 : |1 / 2 * (v + v') * p - t * D * (1 / 2 * t + v)| ≤ (9.8 * u + 4.1 * g) * (U * M) := by
    have e : 1 / 2 * (v + v') * p - t * D * (1 / 2 * t + v) = 1 / 2 * ((v' - (v + t)) * p) + (1 / 2 * t + v) * (p - t * D) := by ring
    rw [e]
    have h1 := abs_add_le (1 / 2 * ((v' - (v + t)) * p)) ((1 / 2 * t + v) * (p - t * D))
    rw [abs_mul, abs_mul (v' - (v + t)), abs_mul (1 / 2 * t + v), abs_of_nonneg (by norm_num : (0 : ℝ) ≤ 1 / 2)] at h1
    have h2 := mul_le_mul hv' hp (abs_nonneg _) (by positivity)
    have h3 := mul_le_mul a1 hpD (abs_nonneg _) (by positivity)
    have h4 := mul_nonneg hg0 hUM
    linarith
  have h5 := mul_nonneg hg0 hUM
  rw [abs_le] at a8 a9 a10 ⊢
  constructor <;> linarith [a8.1, a8.2, a9.1, a9.2, a10.1, a10.2]

/-- The update of the objective for an equality, in numbers. -/
theorem value_update_eq {t D p f q y f' U M Fm : ℝ} (hu0 : 0 ≤ u) (hu : u ≤ 1 / 1000) (hg0 : 0 ≤ g) (hM : 0 ≤ M) (hU : 0 ≤ U)
    (ht : |t| ≤ 2.04 * U) (hpD : |p - t * D| ≤ (3.2 * u + 2.01 * g) * M)
    (hD : |t * D| ≤ 2.04 * M) (hq : |q - t * t| ≤ u * |t * t|) (hy : |y - 1 / 2 * q| ≤ u * |1 / 2 * q|)
    (hf' : |f' - (y * D + f)| ≤ u * |y * D + f| + u * (1 + u) * |y * D|) (hf : |f| ≤ Fm) :
    |f' - f - 1 / 2 * (0 + t) * p| ≤ u * Fm + (29 * u + 4.1 * g) * (U * M) := by
  have hUM := mul_nonneg hU hM
  have huUM := mul_nonneg hu0 hUM
  have hgUM := mul_nonneg hg0 hUM
  have b0 : |t * t * D| ≤ 4.17 * (U * M) := by
    rw [mul_assoc, abs_mul]
    have := mul_le_mul ht hD (abs_nonneg _) (by positivity)
    linarith
  have hD0 := abs_nonneg D
  have b1 : |q * D - t * t * D| ≤ 4.17 * (u * (U * M)) := by
    rw [← sub_mul, abs_mul]
    have h1 := mul_le_mul_of_nonneg_right hq hD0
    rw [mul_assoc u, ← abs_mul (t * t)] at h1
    have := mul_le_mul_of_nonneg_left b0 hu0
    linarith
  have b2 : |q * D| ≤ 4.18 * (U * M) := by
    have h1 := abs_sub_abs_le_abs_sub (q * D) (t * t * D)
    have h2 := mul_le_mul_of_nonneg_right hu hUM
    linarith
  have b3 : |y * D - 1 / 2 * (q * D)| ≤ 2.1 * (u * (U * M)) := by
    rw [show y * D - 1 / 2 * (q * D) = (y - 1 / 2 * q) * D by ring, abs_mul]
    have h1 := mul_le_mul_of_nonneg_right hy hD0
    rw [mul_assoc u, ← abs_mul (1 / 2 * q), mul_assoc (1 / 2), abs_mul (1 / 2), abs_of_nonneg (by norm_num : (0 : ℝ) ≤ 1 / 2)] at h1
    have := mul_le_mul_of_nonneg_left b2 hu0
    linarith
  have b4 : |y * D| ≤ 2.1 * (U * M) := by
    have h1 := abs_sub_abs_le_abs_sub (y * D) (1 / 2 * (q * D))
    rw [abs_mul (1 / 2), abs_of_nonneg (by norm_num : (0 : ℝ) ≤ 1 / 2)] at h1
    have h2 := mul_le_mul_of_nonneg_right hu hUM
    linarith
  have b5 : |f' - (y * D + f)| ≤ u * Fm + 4.3 * (u * (U * M)) := by
    have h1 := abs_add_le (y * D) f
    have h2 := mul_le_mul_of_nonneg_left (le_trans h1 (add_le_add b4 hf)) hu0
    have h3 := mul_le_mul_of_nonneg_left b4 (by positivity : 0 ≤ u * (1 + u))
    have h4 := mul_le_mul_of_nonneg_right hu huUM
    linarith
  have b6 : |1 / 2 * (0 + t) * p - 1 / 2 * (t * t * D)| ≤ (3.3 * u + 2.06 * g) * (U * M) := by
    rw [show 1 / 2 * (0 + t) * p - 1 / 2 * (t * t * D) = 1 / 2 * (t * (p - t * D)) by ring, abs_mul, abs_mul t, abs_of_nonneg (by norm_num : (0 : ℝ) ≤ 1 / 2)]
    have := mul_le_mul ht hpD (abs_nonneg _) (by positivity)
    linarith
  rw [abs_le] at b1 b3 b5 b6 ⊢
  constructor <;> linarith [b1.1, b1.2, b3.1, b3.2, b5.1, b5.2, b6.1, b6.2]

section
variable {maxIter : ℕ} {P : FQP ℝ n} {J0 : ℕ → Fin n → ℝ} {ν σ β b X U : ℝ}

/-- What one step adds to the error of the objective: `E1` is the error of the gradient, `dr` the change of the value of an active constraint. -/
noncomputable def valueD (u g β X U Fm E1 dr : ℝ) : ℝ := 2 * X * E1 + 1.01 * U * dr + (29 * u + 4.1 * g) * (U * (β * X)) + u * Fm

/-- A combination times a vector. -/
theorem comb_mul (P : FQP ℝ n) (A : ℕ → ℤ) (v : ℕ → ℝ) (q : ℕ) (a : Fin n → ℝ) :
    ∑ i, comb P A v q i * a i = ∑ k ∈ Finset.range q, v k * ∑ i, (active P A k).1 i * a i := by
  unfold comb
  simp only [Finset.sum_mul, Finset.mul_sum]
  rw [Finset.sum_comm]
  exact Finset.sum_congr rfl fun k _ => Finset.sum_congr rfl fun i _ => by ring

/-- The objective and the reported one after a move. -/
theorem ScaledFp.value_move (hC : ScaledFp o u g maxIter P J0 ν σ β b) (h : o.Rounded m u g)
    {c : ℕ} (hc : n * c ≤ rots n maxIter P) (hX : 0 ≤ X) (hU : 0 ≤ U) {st : FState ℝ n} (hB : Resid u g (rots n maxIter P) P ν σ β b X c st)
    {np : Fin n → ℝ} (hent : Enters P β st np) {t : ℝ} {d r : ℕ → ℝ} {z : Fin n → ℝ}
    (hd : o.gemvT st.J np = d) (hz : o.updateZ st.J d st.iq = z) (hiq : st.iq < n)
    (hx : ∑ k, st.x k ^ 2 ≤ X ^ 2) (hx' : ∑ i, o.mulAdd t (z i) (st.x i) ^ 2 ≤ X ^ 2)
    {y y' : ℕ → ℝ} (hv : ∑ k ∈ Finset.range (st.iq + 1), |y k| ≤ U) (hv' : ∑ k ∈ Finset.range (st.iq + 1), |y' k| ≤ 1.01 * U)
    (hmv : Moves u U y y' r st.iq t)
    {x0 : Fin n → ℝ} {Λ θ θ0 E Fm : ℝ} (hF : NearFactor P J0 x0 Λ θ θ0) (hs1 : Stat J0 x0 st.x (comb P st.A y (st.iq + 1)) E)
    (hs2 : Stat J0 x0 (fun i => o.mulAdd t (z i) (st.x i)) (comb P st.A y' (st.iq + 1)) E) {f' : ℝ}
    (hf' : ∀ p, |p| ≤ 2 * (β * X) → |p - t * o.dot z np| ≤ (3.2 * u + 2.01 * g) * (β * X) → |t * o.dot z np| ≤ 2.04 * (β * X) → |y st.iq| ≤ U →
      |t| ≤ 2.04 * U → |y' st.iq - (y st.iq + t)| ≤ 3.3 * u * U →
      |f' - st.f - 1 / 2 * (y st.iq + y' st.iq) * p| ≤ u * Fm + (29 * u + 4.1 * g) * (U * (β * X))) :
    |(f' - objective P fun i => o.mulAdd t (z i) (st.x i)) -
        (st.f - objective P st.x)| ≤
      valueD u g β X U Fm (θ0 + Λ * E + θ * (1.01 * U * β)) (drift u g (rots n maxIter P) ν σ β X) := by
  have hp := hC.par
  have hu0 := hp.u0
  have hβ := hp.β0
  have hsq : ∀ v : ℕ → ℝ, ∑ k ∈ Finset.range (st.iq + 1), |v k| ≤ 1.01 * U → ∑ i, comb P st.A v (st.iq + 1) i ^ 2 ≤ (1.01 * U * β) ^ 2 := fun v hv => by
    refine le_trans (comb_sq_le (act := fun k => (active P st.A k).1) hβ hent.all v) ?_
    exact pow_le_pow_left₀ (mul_nonneg (Finset.sum_nonneg fun _ _ => abs_nonneg _) hβ) (mul_le_mul_of_nonneg_right hv hβ) 2
  have ha : ∑ i, (o.mulAdd t (z i) (st.x i) - st.x i) ^ 2 ≤ (2 * X) ^ 2 := by
    have := sq_sub_le hX hX hx hx'
    rwa [← two_mul] at this
  have q1 := hs1.grad hF (by positivity) (hsq _ (by linarith)) (by positivity) ha
  have q2 := hs2.grad hF (by positivity) (hsq _ hv') (by positivity) ha
  have e1 := objective_sub hF.sym st.x fun i => o.mulAdd t (z i) (st.x i)
  rw [comb_mul] at q1 q2
  rw [Finset.sum_range_succ] at q1 q2
  rw [hent.last] at q1 q2
  -- the active constraints
  have hdr : ∀ k ∈ Finset.range st.iq, |∑ i, (active P st.A k).1 i * (o.mulAdd t (z i) (st.x i) - st.x i)| ≤ drift u g (rots n maxIter P) ν σ β X := by
    intro k hk
    have hk := Finset.mem_range.mp hk
    have hz' : z = o.gemv st.J d st.iq := by
      rw [← hz]
      unfold updateZ
      rw [if_pos hiq]
    subst hz'
    have h1 := h.move_active hp hC.σ0 hc hB.J (hC.lo_ge hc) hk hX hx hx' (hent.rows k hk) (hB.F k hk)
    rw [val_sub] at h1
    refine le_trans h1 ?_
    have h3 := dl_mono hp.u0 hp.g0 hp.Q0 hc
    unfold drift
    have h4 : 0 ≤ 5 * X / σ := div_nonneg (by linarith) hC.σ0.le
    have h5 := mul_le_mul_of_nonneg_left (add_le_add_left h3 (g * (β * (1.07 * ν)))) h4
    linarith
  have hsum : ∀ v : ℕ → ℝ, |∑ k ∈ Finset.range st.iq, v k * ∑ i, (active P st.A k).1 i * (o.mulAdd t (z i) (st.x i) - st.x i)| ≤
      (∑ k ∈ Finset.range st.iq, |v k|) * drift u g (rots n maxIter P) ν σ β X := fun v => by
    rw [Finset.sum_mul]
    refine le_trans (Finset.abs_sum_le_sum_abs _ _) (Finset.sum_le_sum fun k hk => ?_)
    rw [abs_mul]
    exact mul_le_mul_of_nonneg_left (hdr k hk) (abs_nonneg _)
  have s1 := hsum y
  have s2 := hsum y'
  have hdr0 := hC.drift_nonneg hX (rots n maxIter P)
  obtain ⟨w1, w2⟩ := hmv
  rw [Finset.sum_range_succ] at hv hv'
  have p0 := hent.norm
  obtain ⟨n1, n2⟩ := h.move_normal hp.u0 hp.u1 hp.g0 hp.g1 hX hβ hx hx' p0
  have n3 := abs_sum_mul_le Finset.univ np _ hβ (by positivity) p0 ha
  have k1 := Finset.sum_nonneg fun k (_ : k ∈ Finset.range st.iq) => abs_nonneg (y k)
  have k2 := Finset.sum_nonneg fun k (_ : k ∈ Finset.range st.iq) => abs_nonneg (y' k)
  have k3 := Finset.sum_nonneg fun k (_ : k ∈ Finset.range st.iq) => abs_nonneg (y' k - (y k - t * r k))
  have k4 := Finset.sum_nonneg fun k (_ : k ∈ Finset.range st.iq) => abs_nonneg (t * r k)
  have v1 := abs_nonneg (y st.iq)
  have v2 := abs_nonneg (y' st.iq)
  have s3 := mul_le_mul_of_nonneg_right (show ∑ k ∈ Finset.range st.iq, |y k| ≤ U by linarith) hdr0
  have s4 := mul_le_mul_of_nonneg_right (show ∑ k ∈ Finset.range st.iq, |y' k| ≤ 1.01 * U by linarith) hdr0
  have key := hf' _ (le_trans n3 (le_of_eq (by ring))) n1 n2 (show |y st.iq| ≤ U by linarith) (show |t| ≤ 2.04 * U by linarith)
    (show |y' st.iq - (y st.iq + t)| ≤ 3.3 * u * U by linarith)
  have s5 := le_trans s1 s3
  have s6 := le_trans s2 s4
  unfold valueD
  generalize ∑ i, np i * (o.mulAdd t (z i) (st.x i) - st.x i) = p at *
  generalize ∑ k ∈ Finset.range st.iq, y k * ∑ i, (active P st.A k).1 i * (o.mulAdd t (z i) (st.x i) - st.x i) = S1 at *
  generalize ∑ k ∈ Finset.range st.iq, y' k * ∑ i, (active P st.A k).1 i * (o.mulAdd t (z i) (st.x i) - st.x i) = S2 at *
  generalize ∑ i, (∑ j, P.G i j * st.x j + P.g i) * (o.mulAdd t (z i) (st.x i) - st.x i) = G1 at *
  generalize ∑ i, (∑ j, P.G i j * o.mulAdd t (z j) (st.x j) + P.g i) * (o.mulAdd t (z i) (st.x i) - st.x i) = G2 at *
  generalize drift u g (rots n maxIter P) ν σ β X = dr at *
  generalize θ0 + Λ * E + θ * (1.01 * U * β) = E1 at *
  have hUd := mul_nonneg hU hdr0
  rw [abs_le] at q1 q2 s5 s6 key ⊢
  constructor <;> linarith [q1.1, q1.2, q2.1, q2.2, s5.1, s5.2, s6.1, s6.2, key.1, key.2]

/-- The error of the objective at the first point. -/
noncomputable def value0 (u g X Γ θ0 : ℝ) : ℝ := 1 / 2 * θ0 * X + (1 / 2 * g + 0.51 * u) * (Γ * X)

theorem Rounded.value_init (h : o.Rounded m u g) (hhalf : o.half = 1 / 2) (hu0 : 0 ≤ u) (hg0 : 0 ≤ g) (hg : g ≤ 1 / 100) (hX : 0 ≤ X)
    {x0 : Fin n → ℝ} {Λ θ θ0 Γ : ℝ} (hF : NearFactor P J0 x0 Λ θ θ0) (hx : ∑ k, x0 k ^ 2 ≤ X ^ 2) (hΓ : 0 ≤ Γ) (hPg : ∑ k, P.g k ^ 2 ≤ Γ ^ 2) :
    |o.mul o.half (o.dot P.g x0) - objective P x0| ≤ value0 u g X Γ θ0 := by
  have h1 := h.mul o.half (o.dot P.g x0)
  have h2 := h.dot P.g x0
  have h3 := abs_sum_abs_le Finset.univ P.g x0 hΓ hX hPg hx
  have h4 := abs_sum_mul_le Finset.univ (fun i => ∑ j, P.G i j * x0 j + P.g i) x0 hF.θ00 hX hF.grad hx
  have h5 := Finset.abs_sum_le_sum_abs (fun i => P.g i * x0 i) Finset.univ
  have e : objective P x0 = 1 / 2 * ∑ i, P.g i * x0 i + 1 / 2 * ∑ i, (∑ j, P.G i j * x0 j + P.g i) * x0 i := by
    have : ∑ i, (∑ j, P.G i j * x0 j + P.g i) * x0 i = ∑ i, x0 i * ∑ j, P.G i j * x0 j + ∑ i, P.g i * x0 i := by
      rw [← Finset.sum_add_distrib]
      exact Finset.sum_congr rfl fun i _ => by ring
    rw [this]
    unfold objective
    ring
  have hΓX := mul_nonneg hΓ hX
  rw [hhalf] at h1
  rw [e, hhalf]
  unfold value0
  generalize o.mul (1 / 2) (o.dot P.g x0) = f at *
  generalize o.dot P.g x0 = D at *
  generalize ∑ i, (∑ j, P.G i j * x0 j + P.g i) * x0 i = Q at *
  have h6 := mul_le_mul_of_nonneg_left h3 hg0
  have h7 := mul_le_mul_of_nonneg_right hg hΓX
  have h8 : |1 / 2 * D| ≤ 1 / 2 * (1.01 * (Γ * X)) := by
    rw [abs_mul, abs_of_nonneg (by norm_num : (0 : ℝ) ≤ 1 / 2)]
    have := abs_sub_abs_le_abs_sub D (∑ i, P.g i * x0 i)
    linarith
  have h9 := mul_le_mul_of_nonneg_left h8 hu0
  have h10 := le_trans h2 h6
  have h11 := le_trans h1 h9
  have h12 := mul_nonneg hu0 hΓX
  rw [abs_le] at h4 h10 h11 ⊢
  constructor <;> linarith [h4.1, h4.2, h10.1, h10.2, h11.1, h11.2]

/-- The error of the objective in every reachable state. -/
theorem ScaledFp.value_reach (hC : ScaledFp o u g maxIter P J0 ν σ β b) (h : o.Rounded m u g) (hsm : o.SubMulRounded u) (hhalf : o.half = 1 / 2) {γ : ℝ}
    (hγ : 0 ≤ γ) (htri : o.TriRounded γ) (hX : 0 ≤ X) (hU : 0 ≤ U) (hE' : P.CE.length ≤ n) {x0 : Fin n → ℝ} {w : FWork ℝ n}
    (hx : ∀ q, o.Reach maxIter P J0 (.eq 0 (o.init P J0 x0 w)) q → ∑ k, (st q).x k ^ 2 ≤ X ^ 2)
    (hfar : ∀ i s, o.Reach maxIter P J0 (.eq 0 (o.init P J0 x0 w)) (.eq i s) → i < P.CE.length →
      o.far (o.updateZ s.J (o.gemvT s.J (P.CE.getD i (0, 0)).1) s.iq))
    (hu : ∀ q, o.Reach maxIter P J0 (.eq 0 (o.init P J0 x0 w)) q → multSum q ≤ U)
    {Λ θ θ0 Γ Fm : ℝ} (hθ : 0 ≤ θ) (hF : NearFactor P J0 x0 Λ θ θ0) (hΓ : 0 ≤ Γ) (hPg : ∑ k, P.g k ^ 2 ≤ Γ ^ 2)
    (hf : ∀ q, o.Reach maxIter P J0 (.eq 0 (o.init P J0 x0 w)) q → |(st q).f| ≤ Fm)
    {q : FNext ℝ n} (hr : o.Reach maxIter P J0 (.eq 0 (o.init P J0 x0 w)) q) :
    ∃ c, c + cost maxIter P q ≤ P.CE.length + 2 + maxIter * (n + 3) ∧
      |(st q).f - objective P (st q).x| ≤ value0 u g X Γ θ0 + c * valueD u g β X U Fm
        (θ0 + Λ * ((P.CE.length + 2 + maxIter * (n + 3) : ℕ) * statD u g o.eps γ σ β (1.07 * ν) X U (rots n maxIter P)) + θ * (1.01 * U * β))
        (drift u g (rots n maxIter P) ν σ β X) := by
  classical
  have hp := hC.par
  have hu0 := hp.u0
  have hg0 := hp.g0
  have hβ := hp.β0
  have hDn := hC.statD_nonneg hγ hX hU (rots n maxIter P)
  have hFm : 0 ≤ Fm := le_trans (abs_nonneg _) (hf _ .refl)
  have hV0 : 0 ≤ valueD u g β X U Fm
        (θ0 + Λ * ((P.CE.length + 2 + maxIter * (n + 3) : ℕ) * statD u g o.eps γ σ β (1.07 * ν) X U (rots n maxIter P)) + θ * (1.01 * U * β))
        (drift u g (rots n maxIter P) ν σ β X) := by
    have := hC.drift_nonneg hX (rots n maxIter P)
    have := hF.Λ0
    have := hF.θ00
    unfold valueD
    positivity
  generalize hV : valueD u g β X U Fm
        (θ0 + Λ * ((P.CE.length + 2 + maxIter * (n + 3) : ℕ) * statD u g o.eps γ σ β (1.07 * ν) X U (rots n maxIter P)) + θ * (1.01 * U * β))
        (drift u g (rots n maxIter P) ν σ β X) = V at *
  induction hr with
  | refl =>
    refine ⟨0, by simp [cost], ?_⟩
    rw [Nat.cast_zero, zero_mul, add_zero]
    exact h.value_init hhalf hu0 hg0 hp.g1 hX hF (hx _ .refl) hΓ hPg
  | @tail q q' hb hs ih =>
    obtain ⟨c, hc, hval⟩ := ih
    obtain ⟨hgood, cB, hcB, hB, hbig⟩ := hC.reach h hX hE' hx hfar hb
    obtain ⟨cD, hcD, hdual⟩ := hC.dual_reach h hsm hγ htri hX hU hE' hx hfar hu hb
    by_cases hret : ∃ r s, q = .ret r s
    · obtain ⟨r, s, rfl⟩ := hret
      cases Out.ok.inj (show Out.ok (FNext.ret r s) = Out.ok q' from hs)
      exact ⟨c, hc, hval⟩
    have hacc : ∀ st, q = .l2a st → o.Accepts P st := fun st e => hC.cond.accepts h (c := cB) (by omega) (by rw [e] at hB; exact hB)
    obtain ⟨q2, s1, -, s3, -⟩ := step_good h.sane (maxIter := maxIter) (J0 := J0)
      (hC.cond.carries h (c := cB) (by omega)) hB hgood (fun r s e => hret ⟨r, s, e⟩) hacc
    rw [hs] at s1
    cases Out.ok.inj s1
    refine ⟨c + 1, by omega, ?_⟩
    have same : (st q').f = (st q).f → (st q').x = (st q).x → |(st q').f - objective P (st q').x| ≤ value0 u g X Γ θ0 + ((c + 1 : ℕ) : ℝ) * V := by
      intro e1 e2
      rw [e1, e2]
      push_cast
      linarith
    have moved : |((st q').f - objective P (st q').x) - ((st q).f - objective P (st q).x)| ≤ V →
        |(st q').f - objective P (st q').x| ≤ value0 u g X Γ θ0 + ((c + 1 : ℕ) : ℝ) * V := by
      intro e
      have := abs_sub_abs_le_abs_sub ((st q').f - objective P (st q').x) ((st q).f - objective P (st q).x)
      push_cast
      linarith
    have hxb := hx _ hb
    have hxb' := hx _ (.tail hb hs)
    have hub := hu _ hb
    have hub' := hu _ (.tail hb hs)
    have hfb := hf _ hb
    cases q with
    | ret r s => exact absurd ⟨r, s, rfl⟩ hret
    | eq i st =>
      replace hs : o.stepEq P i st = .ok q' := hs
      by_cases hi : i < P.CE.length
      · obtain ⟨hG, hS⟩ := hdual
        have hRes : Resid u g (rots n maxIter P) P ν σ β b X cB st := hbig
        have hd : ∀ k < st.iq, st.R k k ≠ 0 := hC.extra h hX hE' hx hfar hb
        have hRn : n * (P.CE.length + 2 + maxIter * (n + 3)) ≤ rots n maxIter P := le_rfl
        have hRes' : Resid u g (rots n maxIter P) P ν σ β b X (P.CE.length + 2 + maxIter * (n + 3)) st :=
          hRes.same hC hX (by omega) rfl rfl rfl (fun _ _ => rfl) rfl
        have hG' : Gr u (1.07 * ν) (n * (P.CE.length + 2 + maxIter * (n + 3))) J0 st.J := hG.mono hp.u0 (Nat.mul_le_mul_left n (by omega))
        have hσ := hC.σ0
        have z2 : 0 ≤ 5.4 * U * (1.07 * ν) * Real.sqrt o.eps / σ := by have := hC.ν0; positivity
        have z3 : 0 ≤ u * U * (β * (1.07 * ν) ^ 2) := by positivity
        have hle : (cD : ℝ) * statD u g o.eps γ σ β (1.07 * ν) X U (rots n maxIter P) + statD u g o.eps γ σ β (1.07 * ν) X U (rots n maxIter P) ≤
            (P.CE.length + 2 + maxIter * (n + 3) : ℕ) * statD u g o.eps γ σ β (1.07 * ν) X U (rots n maxIter P) := by
          have hcD' : cD + 1 ≤ P.CE.length + 2 + maxIter * (n + 3) := by omega
          have : ((cD + 1 : ℕ) : ℝ) ≤ (P.CE.length + 2 + maxIter * (n + 3) : ℕ) := Nat.cast_le.mpr hcD'
          have := mul_le_mul_of_nonneg_right this hDn
          rw [Nat.cast_succ] at this
          linarith
        have hent := hC.enters_eq hgood hi
        have hlt : st.iq < n := by
          have := hgood.1
          omega
        obtain ⟨a, d, z, r, t, c1, c2, c3, c4, c5, c6, c7, c8, c9, c10, c11, c12⟩ := stepEq_cases hgood hi hs
        have hmul : multSum q' = ∑ k ∈ Finset.range (Arith.st q').iq, |(Arith.st q').u k| := by
          rcases c12 with ⟨s, rfl⟩ | ⟨s, rfl⟩ <;> rfl
        rw [hmul, c8, c9] at hub'
        rw [c7] at hxb'
        replace hub : ∑ k ∈ Finset.range st.iq, |st.u k| ≤ U := hub
        replace hub' : ∑ k ∈ Finset.range (st.iq + 1), |o.eqU st.u r st.iq t k| ≤ U := hub'
        have hmv := hsm.eqU hp.u0 hp.u1 hU hub hub'
        have hS' := hS
        rw [← comb_zero] at hS'
        refine moved ?_
        rw [c7, c10, ← hV]
        refine hC.value_move h hRn hX hU hRes' hent c1 c2 hlt hxb hxb' (by rw [sum_zero]; exact hub) (by linarith) hmv hF (hS'.mono (by linarith)) ?_ ?_
        · refine (hS'.move fun w' W hW hw' => hC.full_stat h hγ htri hRn hX hRes' hent hG' hd c1 c3 c2 hlt hxb hxb' hU hmv hW hw').mono ?_
          refine le_trans (add_le_add le_rfl ?_) hle
          unfold statD
          linarith
        · intro p p1 p2 p3 _ p5 _
          rw [Function.update_self, show o.eqU st.u r st.iq t st.iq = t from if_pos rfl]
          have hy := h.mul o.half (o.mul t t)
          rw [hhalf] at hy
          rw [hhalf]
          exact value_update_eq hp.u0 hp.u1 hp.g0 (mul_nonneg hβ hX) hU p5 p2 p3 (h.mul t t) hy (h.mulAdd _ _ st.f) hfb
      · unfold stepEq at hs
        rw [if_neg hi] at hs
        cases Out.ok.inj hs
        exact same rfl rfl
    | l1 st =>
      replace hs : o.stepL1 maxIter P J0 st = .ok q' := hs
      unfold stepL1 at hs
      dsimp only at hs
      split_ifs at hs
      all_goals
        cases Out.ok.inj hs
        exact same rfl rfl
    | l2 st =>
      replace hs : o.stepL2 P st = .ok q' := hs
      unfold stepL2 at hs
      dsimp only at hs
      split_ifs at hs
      all_goals
        cases Out.ok.inj hs
        exact same rfl rfl
    | l2a st =>
      obtain ⟨hG, hS⟩ := hdual
      obtain ⟨hRes, -⟩ := hbig
      obtain ⟨hd, -⟩ := hC.extra h hX hE' hx hfar hb
      have hRn : n * (P.CE.length + 2 + maxIter * (n + 3)) ≤ rots n maxIter P := le_rfl
      have hRes' : Resid u g (rots n maxIter P) P ν σ β b X (P.CE.length + 2 + maxIter * (n + 3)) st :=
        hRes.same hC hX (by omega) rfl rfl rfl (fun _ _ => rfl) rfl
      have hG' : Gr u (1.07 * ν) (n * (P.CE.length + 2 + maxIter * (n + 3))) J0 st.J := hG.mono hp.u0 (Nat.mul_le_mul_left n (by omega))
      obtain ⟨hact, g1, g2, g3⟩ := id hgood
      have hUsmall : 2.1 * u * U ≤ 0.01 * U := by
        have := mul_le_mul_of_nonneg_right hp.u1 hU
        linarith
      have hmul : multSum (.l2a st) = ∑ k ∈ Finset.range (st.iq + 1), |st.u k| := rfl
      rw [hmul] at hub
      have huk : ∀ k < st.iq, |st.u k| ≤ U := fun k hk =>
        le_trans (Finset.single_le_sum (f := fun k => |st.u k|) (fun _ _ => abs_nonneg _) (Finset.mem_range.mpr (by omega))) hub
      have hcD' : cD + 1 ≤ P.CE.length + 2 + maxIter * (n + 3) := by
        have h1 : 1 ≤ cost maxIter P (.l2a st : FNext ℝ n) := by omega
        omega
      have hσ := hC.σ0
      have z2 : 0 ≤ 5.4 * U * (1.07 * ν) * Real.sqrt o.eps / σ := by have := hC.ν0; positivity
      have z3 : 0 ≤ u * U * (β * (1.07 * ν) ^ 2) := by positivity
      have hle : (cD : ℝ) * statD u g o.eps γ σ β (1.07 * ν) X U (rots n maxIter P) + statD u g o.eps γ σ β (1.07 * ν) X U (rots n maxIter P) ≤
          (P.CE.length + 2 + maxIter * (n + 3) : ℕ) * statD u g o.eps γ σ β (1.07 * ν) X U (rots n maxIter P) := by
        have : ((cD + 1 : ℕ) : ℝ) ≤ (P.CE.length + 2 + maxIter * (n + 3) : ℕ) := Nat.cast_le.mpr hcD'
        have := mul_le_mul_of_nonneg_right this hDn
        rw [Nat.cast_succ] at this
        linarith
      have hgo : ∀ t, st.iq < n → ∑ i, o.mulAdd t (o.updateZ st.J (o.gemvT st.J (o.row P st.ip).1) st.iq i) (st.x i) ^ 2 ≤ X ^ 2 →
          ∑ k ∈ Finset.range (st.iq + 1), |o.moveU st.u (o.triSolve st.R (o.gemvT st.J (o.row P st.ip).1) st.iq) st.iq t k| ≤ 1.01 * U →
          |(o.mulAdd (o.mul t (o.dot (o.updateZ st.J (o.gemvT st.J (o.row P st.ip).1) st.iq) (o.row P st.ip).1)) (o.mulAdd o.half t (st.u st.iq)) st.f -
              objective P fun i => o.mulAdd t (o.updateZ st.J (o.gemvT st.J (o.row P st.ip).1) st.iq i) (st.x i)) -
            (st.f - objective P st.x)| ≤ V := by
        intro t hlt hx1 hv1
        rw [← hV]
        have hmv := h.moveU_sum hsm hp.u0 hp.u1 hub hv1
        refine hC.value_move h hRn hX hU hRes' (hC.enters hgood) rfl rfl hlt hxb hx1 hub hv1 hmv hF (hS.mono (by linarith)) ?_ ?_
        · refine (hS.move fun w' W hW hw' => hC.full_stat h hγ htri hRn hX hRes' (hC.enters hgood) hG' hd rfl rfl rfl hlt hxb hx1 hU hmv hW hw').mono ?_
          refine le_trans (add_le_add le_rfl ?_) hle
          unfold statD
          linarith
        · intro p p1 p2 p3 p4 p5 p6
          have hy := h.mulAdd o.half t (st.u st.iq)
          rw [hhalf] at hy
          rw [hhalf]
          exact value_update hp.u0 hp.u1 hp.g0 (mul_nonneg hβ hX) hU p4 p5 p6 p1 p2 p3 (h.mul t _) hy (h.mulAdd _ _ st.f) hfb
      rcases stepL2a_dual h.sane (fun a => (h.eq a a).mpr rfl) hgood (hacc st rfl) hs rfl rfl rfl with rfl | ⟨k, st1, k1, k2, k3, k4, k5, rfl⟩ |
        ⟨k, st1, k1, k2, k3, k4, k5, rfl⟩ | ⟨t, a, k1, k2, -, k3, rfl⟩
      · exact same rfl rfl
      · obtain ⟨d, -, rfl⟩ := dropActive_cases k5
        exact same rfl rfl
      · rw [h.lt, h.zero] at k3
        have hlt := (h.far_d hp.g0 hp.g1 k4).1
        have hdrop := h.moveU_drop hsm hp.u0 hp.u1 (v := st.u) k2 k3
        have hle1 : 2.1 * u * |st.u k| ≤ 2.1 * u * U := mul_le_mul_of_nonneg_left (huk k k2) (by positivity)
        obtain ⟨f1, f2, f3, f4, -⟩ := drop_comb hact k1 k2 k5 rfl rfl
        have hub1 : ∑ i ∈ Finset.range (st1.iq + 1), |st1.u i| ≤ U := hub'
        have hx1 : ∑ i, st1.x i ^ 2 ≤ X ^ 2 := hxb'
        rw [f4] at hub1
        rw [f2] at hx1
        dsimp only at hub1 hx1
        have := hgo _ hlt hx1 (by linarith)
        obtain ⟨d, -, rfl⟩ := dropActive_cases k5
        exact moved this
      · have hub1 : ∑ i ∈ Finset.range (st.iq + 1), |o.moveU st.u (o.triSolve st.R (o.gemvT st.J (o.row P st.ip).1) st.iq) st.iq t i| ≤ U := hub'
        exact moved (hgo t k2 hxb' (by linarith))

end

end Arith

open Arith

/-- The bound of C98 for `C` steps. -/
noncomputable def valueErrC (o : Arith ℝ n) (u g γ : ℝ) (C : ℕ) (ν σ β X U Λ θ θ0 Γ Fm : ℝ) : ℝ :=
  value0 u g X Γ θ0 + C * valueD u g β X U Fm (θ0 + Λ * (C * statD u g o.eps γ σ β (1.07 * ν) X U (n * C)) + θ * (1.01 * U * β)) (drift u g (n * C) ν σ β X)

/-- The bound of C98. -/
noncomputable def valueErr (o : Arith ℝ n) (u g γ : ℝ) (maxIter : ℕ) (ν σ β X U Λ θ θ0 Γ Fm : ℝ) : ℝ :=
  valueErrC o u g γ (2 + maxIter * (n + 3)) ν σ β X U Λ θ θ0 Γ Fm

/-- C98, with equalities whose normals are far enough from each other (`hfar`). With rounded arithmetic, on well-scaled data whose Cholesky factors are accurate up to `θ` and `θ0`: whatever the status,
`f_value` is the objective at the point that is returned, up to a multiple of the rounding errors. -/
theorem C98_equalities (o : Arith ℝ n) {m : ℕ} {u g γ : ℝ} (ho : o.Rounded m u g) (hsm : o.SubMulRounded u) (hhalf : o.half = 1 / 2) (hγ : 0 ≤ γ)
    (htri : o.TriRounded γ) (maxIter : ℕ) (P : FQP ℝ n) (hE' : P.CE.length ≤ n) (J0 : ℕ → Fin n → ℝ) (x0 : Fin n → ℝ) (w : FWork ℝ n) {ν σ β b X U : ℝ}
    (hC : o.ScaledFp u g maxIter P J0 ν σ β b) (hX : 0 ≤ X) (hU : 0 ≤ U)
    (hx : ∀ q, o.Reach maxIter P J0 (.eq 0 (o.init P J0 x0 w)) q → ∑ k, (st q).x k ^ 2 ≤ X ^ 2)
    (hfar : ∀ i s, o.Reach maxIter P J0 (.eq 0 (o.init P J0 x0 w)) (.eq i s) → i < P.CE.length →
      o.far (o.updateZ s.J (o.gemvT s.J (P.CE.getD i (0, 0)).1) s.iq))
    (hu : ∀ q, o.Reach maxIter P J0 (.eq 0 (o.init P J0 x0 w)) q → multSum q ≤ U)
    {Λ θ θ0 Γ Fm : ℝ} (hθ : 0 ≤ θ) (hF : NearFactor P J0 x0 Λ θ θ0) (hΓ : 0 ≤ Γ) (hPg : ∑ k, P.g k ^ 2 ≤ Γ ^ 2)
    (hf : ∀ q, o.Reach maxIter P J0 (.eq 0 (o.init P J0 x0 w)) q → |(st q).f| ≤ Fm)
    (fuel : ℕ) (hfu : P.CE.length + 2 + maxIter * (n + 3) ≤ fuel) (r : QPStatus) (s : FState ℝ n) (h : o.solve maxIter P J0 x0 w fuel = .ok (r, s)) :
    |s.f - objective P s.x| ≤ valueErrC o u g γ (P.CE.length + 2 + maxIter * (n + 3)) ν σ β X U Λ θ θ0 Γ Fm := by
  have hacc := (C87_rounded o ho maxIter P hE' J0 x0 w hC.cond).1
  obtain ⟨r', s', h1, h2⟩ := Arith.run_good ho.sane hacc _ (.eq 0 (o.init P J0 x0 w)) le_rfl ⟨rfl, Nat.zero_le _, hE', rfl⟩ .refl
  have h3 := h1 fuel (by simp only [Arith.cost]; omega)
  rw [show o.run maxIter P J0 fuel (.eq 0 (o.init P J0 x0 w)) = .ok (r, s) from h] at h3
  cases h3
  obtain ⟨c, hc, hv⟩ := hC.value_reach ho hsm hhalf hγ htri hX hU hE' hx hfar hu hθ hF hΓ hPg hf h2
  refine le_trans hv ?_
  unfold valueErrC rots
  refine add_le_add le_rfl (mul_le_mul_of_nonneg_right (Nat.cast_le.mpr (by omega)) ?_)
  have hFm : 0 ≤ Fm := le_trans (abs_nonneg _) (hf _ .refl)
  have := hC.statD_nonneg hγ hX hU (n * (P.CE.length + 2 + maxIter * (n + 3)))
  have := hC.drift_nonneg hX (n * (P.CE.length + 2 + maxIter * (n + 3)))
  have := hF.Λ0
  have := hF.θ00
  have := hC.par.u0
  have := hC.par.g0
  have := hC.par.β0
  unfold valueD
  positivity

/-- C98. With rounded arithmetic, without equalities, on well-scaled data whose Cholesky factors are accurate up to `θ` and `θ0`: whatever the status,
`f_value` is the objective at the point that is returned, up to a multiple of the rounding errors. -/
theorem C98_value (o : Arith ℝ n) {m : ℕ} {u g γ : ℝ} (ho : o.Rounded m u g) (hsm : o.SubMulRounded u) (hhalf : o.half = 1 / 2) (hγ : 0 ≤ γ)
    (htri : o.TriRounded γ) (maxIter : ℕ) (P : FQP ℝ n) (hE : P.CE = []) (J0 : ℕ → Fin n → ℝ) (x0 : Fin n → ℝ) (w : FWork ℝ n) {ν σ β b X U : ℝ}
    (hC : o.ScaledFp u g maxIter P J0 ν σ β b) (hX : 0 ≤ X) (hU : 0 ≤ U)
    (hx : ∀ q, o.Reach maxIter P J0 (.eq 0 (o.init P J0 x0 w)) q → ∑ k, (st q).x k ^ 2 ≤ X ^ 2)
    (hu : ∀ q, o.Reach maxIter P J0 (.eq 0 (o.init P J0 x0 w)) q → multSum q ≤ U)
    {Λ θ θ0 Γ Fm : ℝ} (hθ : 0 ≤ θ) (hF : NearFactor P J0 x0 Λ θ θ0) (hΓ : 0 ≤ Γ) (hPg : ∑ k, P.g k ^ 2 ≤ Γ ^ 2)
    (hf : ∀ q, o.Reach maxIter P J0 (.eq 0 (o.init P J0 x0 w)) q → |(st q).f| ≤ Fm)
    (fuel : ℕ) (hfu : 2 + maxIter * (n + 3) ≤ fuel) (r : QPStatus) (s : FState ℝ n) (h : o.solve maxIter P J0 x0 w fuel = .ok (r, s)) :
    |s.f - objective P s.x| ≤ valueErr o u g γ maxIter ν σ β X U Λ θ θ0 Γ Fm := by
  have hl : P.CE.length = 0 := by rw [hE]; rfl
  have key := C98_equalities o ho hsm hhalf hγ htri maxIter P (by omega) J0 x0 w hC hX hU hx (fun i s _ hi => by omega) hu hθ hF hΓ hPg hf fuel (by omega) r s h
  rw [hl, Nat.zero_add] at key
  exact key

/-- C98, the bound of the reported objective exists for every run on well-scaled data. -/
theorem C98_value_exists (o : Arith ℝ n) {m : ℕ} {u g : ℝ} (ho : o.Rounded m u g) (maxIter : ℕ) (P : FQP ℝ n) (hE : P.CE.length ≤ n)
    (J0 : ℕ → Fin n → ℝ) (x0 : Fin n → ℝ) (w : FWork ℝ n) {N B : ℝ} (hC : o.ConditionedFp u g maxIter P J0 N B) :
    ∃ Fm : ℝ, 0 ≤ Fm ∧ ∀ q, o.Reach maxIter P J0 (.eq 0 (o.init P J0 x0 w)) q → |(st q).f| ≤ Fm :=
  run_bound ho.sane (C87_rounded o ho maxIter P hE J0 x0 w hC).1 (fun q => |(st q).f|) _ (.eq 0 (o.init P J0 x0 w)) le_rfl ⟨rfl, Nat.zero_le _, hE, rfl⟩ .refl

/-- C98, the planner on samples, the five sets whose coefficients are exact: when the run ends with `success_`, twice the reported `cost_` is the cost of
the returned motion less the one of the motion with the free point `0`, up to the rounding errors. -/
theorem C98_samples (pData : ProblemData) (Ts : List ℝ) (gr : V3) (h : Accepted pData Ts gr)
    (hf : pData.flag ∈ [11#32, 19#32, 27#32, 7#32, 15#32]) (l : TTime) (hl : Discretisation Ts l)
    (hc : pData.costFunction = DISTANCE_TRAVELED ∨ pData.costFunction = ACCELERATION) {k R : ℝ} (hs : DataScale pData Ts.sum l gr k R) :
    ∃ A b H c, computeConstraintsOneStep pData Ts.length Ts.sum l = .ok (A, b) ∧ genCostFunction pData Ts Ts.sum l 3 = .ok (H, c) ∧
      ∀ (o : Arith ℝ 3) (m : ℕ) (u g γ : ℝ) (_ : o.Rounded m u g) (_ : o.SubMulRounded u) (_ : o.half = 1 / 2) (_ : 0 ≤ γ) (_ : o.TriRounded γ)
        (maxIter : ℕ) (P : FQP ℝ 3) (_ : P.CI.length ≤ m) (J0 : ℕ → Fin 3 → ℝ) (x0 : Fin 3 → ℝ) (w : FWork ℝ 3) (ν σ β B X U ρ κ Λ θ θ0 Γ Fm : ℝ)
        (_ : o.ScaledFp u g maxIter P J0 ν σ β B) (_ : 0 ≤ X) (_ : 0 ≤ U)
        (_ : ∀ q, o.Reach maxIter P J0 (.eq 0 (o.init P J0 x0 w)) q → ∑ k, (st q).x k ^ 2 ≤ X ^ 2)
        (_ : ∀ q, o.Reach maxIter P J0 (.eq 0 (o.init P J0 x0 w)) q → multSum q ≤ U)
        (_ : 0 ≤ ρ) (_ : GivenRows P A b ρ) (_ : 0 ≤ κ) (_ : GivenCost P H c κ) (_ : 0 ≤ θ) (_ : NearFactor P J0 x0 Λ θ θ0) (_ : 0 ≤ Γ)
        (_ : ∑ k, P.g k ^ 2 ≤ Γ ^ 2) (_ : ∀ q, o.Reach maxIter P J0 (.eq 0 (o.init P J0 x0 w)) q → |(st q).f| ≤ Fm),
      ∃ r s, (∀ fuel ≥ 2 + maxIter * (3 + 3), o.solve maxIter P J0 x0 w fuel = .ok (r, s)) ∧
        ∃ res, genTraj { success := r = .optimal, cost := if r = .optimal then s.f else -1, x := List.ofFn s.x } pData Ts.sum = .ok res ∧
          (res.success = true ↔ r = .optimal) ∧
          (res.success = true → ∃ v a c0 v0 a0, Motion pData Ts.sum res.point res.c_of_t.eval v a ∧ Motion pData Ts.sum 0 c0 v0 a0 ∧
            |2 * res.cost - (motionCost pData l res.point a - motionCost pData l 0 a0)| ≤
              2 * valueErr o u g γ maxIter ν σ β X U Λ θ θ0 Γ Fm + κ * (3 * X ^ 2 + 4 * X)) := by
  have hgc := goodCost pData Ts h.total h.ne h.flag h.capt l hl (hc.imp_right fun hc => ⟨hc, fun e => by rw [e] at hf; simp at hf⟩)
  obtain ⟨A, b, w', K, pts, hpts, hA, hk, hgen, hcost, hcols, hfits, hRow, hrows⟩ := planSamples_rows pData Ts gr h hf l hl hgc hs
  obtain ⟨A', b', hA', hall⟩ := C90_samples pData Ts gr h hf l hl hc hs
  rw [hA] at hA'
  cases hA'
  refine ⟨A, b, _, _, hA, hgen, ?_⟩
  intro o m u g γ ho hsm hhalf hγ htri maxIter P hm J0 x0 w ν σ β B X U ρ κ Λ θ θ0 Γ Fm hC hX hU hx hu hρ hP hκ hG hθ hF hΓ hPg hfm
  obtain ⟨r, s, h1, res, hres, hiff, hgood⟩ := hall o m u g ho maxIter P hm J0 x0 w ν σ β B X ρ hC hX hx hρ hP
  have hl0 : P.CE.length = 0 := by rw [hP.noEq]; rfl
  have hrun : ∀ fuel ≥ 2 + maxIter * (3 + 3), o.solve maxIter P J0 x0 w fuel = .ok (r, s) := fun fuel hfu => h1 fuel (by omega)
  refine ⟨r, s, hrun, res, hres, hiff, fun hsucc => ?_⟩
  obtain ⟨hb, v, a, hmo, hmeet⟩ := hgood hsucc
  obtain ⟨v0, a0, hmo0⟩ := motion_exists pData Ts.sum pts hpts h.flag h.total.ne' 0
  refine ⟨v, a, _, v0, a0, hmo, hmo0, ?_⟩
  obtain rfl := hiff.mp hsucc
  obtain ⟨r2, s2, hrun2, hxs2, -⟩ := optimal_rows o ho maxIter P hm J0 x0 w hC hX hx hρ hP
  have e2 := hrun2 (2 + maxIter * (3 + 3)) (by omega)
  rw [hrun _ le_rfl] at e2
  cases e2
  obtain ⟨hpt, hrc⟩ : res.point = s.x ∧ res.cost = s.f := by
    obtain ⟨res2, hres2, hss, hg2⟩ := genTraj_total
      { success := QPStatus.optimal = .optimal, cost := if QPStatus.optimal = .optimal then s.f else -1, x := List.ofFn s.x } pData Ts.sum h.total pts hpts h.flag (by simp)
    rw [hres] at hres2
    cases hres2
    obtain ⟨hp, hc, -⟩ := hg2 (by rw [← hss]; exact hsucc)
    refine ⟨?_, by rw [hc]; simp⟩
    rw [hp]
    have := ext3_ofFn s.x
    funext i
    have := congrFun this i
    simpa [ext3, extN] using this
  have key := C98_value o ho hsm hhalf hγ htri maxIter P hP.noEq J0 x0 w hC hX hU hx hu hθ hF hΓ hPg hfm _ le_rfl _ s (hrun _ le_rfl)
  have k1 := hcost _ _ _ _ hmo
  have k2 := hcost _ _ _ _ hmo0
  have k0 : k * dot (0 : V3) 0 + 2 * dot w' 0 = 0 := by simp [dot]
  rw [k0] at k2
  rw [hpt] at k1 ⊢
  rw [hrc]
  have k3 := hG.objective_error hκ s.x hX hxs2
  rw [abs_le] at key k3 ⊢
  constructor <;> linarith [key.1, key.2, k3.1, k3.2]

namespace C98Example

open C88Example

variable {fl : ℝ → ℝ} (hfl : ∀ x, |fl x - x| ≤ 2⁻¹ ^ 53 * |x|) (h1 : fl 1 = 1) (hm : fl (-1) = -1)
  (tri : (ℕ → ℕ → ℝ) → (ℕ → ℝ) → ℕ → ℕ → ℝ)

include hfl in
theorem scaled : (flArith fl (2⁻¹ ^ 52) tri 1).ScaledFp (2⁻¹ ^ 53) ((1 + 2⁻¹ ^ 53) ^ (1 + 1) - 1) 10 prob (fun _ _ => 1) 1 1 1 1 where
  cond := {
    u0 := by norm_num, u1 := by norm_num, g0 := by norm_num, g1 := by norm_num
    steps := by simp only [prob]; norm_num
    sum := by simp
    ce := by simp [prob]
    ci := by simp [prob]
    eps := by simp only [flArith]; norm_num }
  ν0 := by norm_num
  β0 := by norm_num
  σ0 := by norm_num
  b0 := by norm_num
  low := fun v => by simp
  small := by simp only [prob]; norm_num
  eps := by simp only [flArith]; norm_num
  ce := by simp [prob]
  ci := by simp [prob]

include hfl h1 hm in
/-- The run does not depend on the limit of the passes. -/
theorem reach {w : FWork ℝ 1} {q : FNext ℝ 1}
    (hr : (flArith fl (2⁻¹ ^ 52) tri 1).Reach 10 prob (fun _ _ => 1) (.eq 0 ((flArith fl (2⁻¹ ^ 52) tri 1).init prob (fun _ _ => 1) (fun _ => 0) w)) q) :
    (flArith fl (2⁻¹ ^ 52) tri 1).Reach 1000 prob (fun _ _ => 1) (.eq 0 ((flArith fl (2⁻¹ ^ 52) tri 1).init prob (fun _ _ => 1) (fun _ => 0) w)) q := by
  induction hr with
  | refl => exact .refl
  | @tail b q' hb hs ih =>
    refine ih.tail ?_
    have hinv := inv hfl h1 hm tri ih
    cases b with
    | l1 s =>
      have hit : s.iter ≤ 1 := by rcases hinv with h | h <;> [rw [h.2.2.2]; rw [h.2]] <;> norm_num
      replace hs : (flArith fl (2⁻¹ ^ 52) tri 1).stepL1 10 prob (fun _ _ => 1) s = .ok q' := hs
      show (flArith fl (2⁻¹ ^ 52) tri 1).stepL1 1000 prob (fun _ _ => 1) s = .ok q'
      unfold Arith.stepL1 at hs ⊢
      dsimp only at hs ⊢
      rw [if_neg (by omega)] at hs
      rw [if_neg (by omega)]
      exact hs
    | ret r s => exact hs
    | eq i s => exact hs
    | l2 s => exact hs
    | l2a s => exact hs

/-- The objective of the run. -/
def Val : FNext ℝ 1 → Prop
  | .ret _ s => |s.f| ≤ 1
  | .eq _ s => s.f = 0
  | .l1 s => |s.f| ≤ 1 ∧ (s.iter = 0 → s.f = 0)
  | .l2 s => s.f = 0
  | .l2a s => s.f = 0

include hfl h1 hm in
theorem value {w : FWork ℝ 1} {q : FNext ℝ 1}
    (hr : (flArith fl (2⁻¹ ^ 52) tri 1).Reach 1000 prob (fun _ _ => 1) (.eq 0 ((flArith fl (2⁻¹ ^ 52) tri 1).init prob (fun _ _ => 1) (fun _ => 0) w)) q) :
    Val q := by
  have h0 := fl_zero hfl
  have ho := C87_left_to_right (n := 1) (m := 1) (N := 1) (by norm_num) hfl (eps := 2⁻¹ ^ 52) (by norm_num) tri le_rfl le_rfl
  have hC := C88Example.scaled hfl tri
  induction hr with
  | refl =>
    show fl (1 / 2 * _) = 0
    simp [prob, flArith, flSum, List.ofFn_succ, h0]
  | @tail b q' hb hs ih =>
    have hinv := inv hfl h1 hm tri hb
    have hinv' := inv hfl h1 hm tri (.tail hb hs)
    have hmul := C97Example.mult hfl h1 hm tri hb
    obtain ⟨hg, c, hc, hB⟩ := hC.cond.reach ho (by simp [prob]) hb
    cases b with
    | ret r s => cases Out.ok.inj (show Out.ok (FNext.ret r s) = Out.ok q' from hs); exact ih
    | eq i s =>
      cases Out.ok.inj (show Out.ok (FNext.l1 _) = Out.ok q' from hs)
      obtain ih : s.f = 0 := ih
      exact ⟨by simp [ih], fun _ => ih⟩
    | l1 s =>
      replace hs : (flArith fl (2⁻¹ ^ 52) tri 1).stepL1 1000 prob (fun _ _ => 1) s = .ok q' := hs
      unfold Arith.stepL1 at hs
      dsimp only at hs
      split_ifs at hs
      · cases Out.ok.inj hs
        exact ih.1
      · cases Out.ok.inj hs
        exact ih.1
      · cases Out.ok.inj hs
        refine ih.2 ?_
        have : s.iter + 1 = 1 := hinv'.2.2.2
        omega
    | l2 s =>
      replace hs : (flArith fl (2⁻¹ ^ 52) tri 1).stepL2 prob s = .ok q' := hs
      obtain ih : s.f = 0 := ih
      unfold Arith.stepL2 at hs
      dsimp only at hs
      split_ifs at hs
      · cases Out.ok.inj hs
        show |s.f| ≤ 1
        simp [ih]
      · cases Out.ok.inj hs
        exact ih
    | l2a s =>
      obtain ⟨i1, i2, i3, i5, i4⟩ := hinv
      obtain ⟨-, j2⟩ := hmul
      obtain ih : s.f = 0 := ih
      have hacc := hC.cond.accepts ho (c := c) (by omega) hB
      have hip : s.ip = 0 := by
        have := hg.2.1
        simp only [prob, List.length_singleton] at this
        omega
      have hz : (flArith fl (2⁻¹ ^ 52) tri 1).updateZ (fun _ _ => 1)
          ((flArith fl (2⁻¹ ^ 52) tri 1).gemvT (fun _ _ => 1) ((flArith fl (2⁻¹ ^ 52) tri 1).row prob 0).1) 0 = fun _ => 1 := by
        unfold Arith.updateZ
        rw [if_pos one_pos]
        funext i
        simp [flArith, prob, flSum, List.ofFn_succ, h1, Arith.row]
      rcases stepL2a_dual ho.sane (fun a => (ho.eq a a).mpr rfl) hg hacc hs rfl rfl rfl with rfl | ⟨k, st1, k1, k2, -⟩ | ⟨k, st1, k1, k2, -⟩ |
        ⟨t, a, k1, k2, k3, k4, rfl⟩
      · show |s.f| ≤ 1
        simp [ih]
      · omega
      · omega
      · rw [ho.eq, hip, i4, i3, i2, hz] at k3
        have ht : t = 1 := by
          rw [k3]
          simp [flArith, prob, flSum, List.ofFn_succ, h1, Arith.row]
        refine ⟨?_, fun e => ?_⟩
        · dsimp only
          rw [hip, i3, i2, hz, j2, ih, ht]
          simp [flArith, prob, flSum, List.ofFn_succ, h1, Arith.row]
          have e0 : |(2⁻¹ : ℝ)| = 1 / 2 := by norm_num
          have step : ∀ y : ℝ, |fl y| ≤ 1.1 * |y| := fun y => by
            have := abs_sub_abs_le_abs_sub (fl y) y
            have := hfl y
            have h53 : (2⁻¹ : ℝ) ^ 53 ≤ 0.1 := by norm_num
            have := mul_le_mul_of_nonneg_right h53 (abs_nonneg y)
            linarith
          have b1 := step 2⁻¹
          have b2 := step (fl 2⁻¹)
          have b3 := step (fl (fl 2⁻¹))
          have b4 := step (fl (fl (fl 2⁻¹)))
          rw [e0] at b1
          norm_num at b1 b2 b3 b4 ⊢
          linarith
        · have : s.iter = 0 := e
          omega

end C98Example

/-- A non-trivial case: doubles with back substitution and ten passes, minimise `x² / 2` under `x ≥ 1` from `x = 0`. -/
example (fl : ℝ → ℝ) (hfl : ∀ x, |fl x - x| ≤ 2⁻¹ ^ 53 * |x|) (h1 : fl 1 = 1) (hm : fl (-1) = -1) (w : FWork ℝ 1) :
    ∃ s, (flArith fl (2⁻¹ ^ 52) (backSubFl fl) 1).solve 10 C88Example.prob (fun _ _ => 1) (fun _ => 0) w 42 = .ok (.optimal, s) ∧
      |s.f - objective C88Example.prob s.x| ≤ 10⁻¹ ^ 3 := by
  have ho := C87_left_to_right (n := 1) (m := 1) (N := 1) (by norm_num) hfl (eps := 2⁻¹ ^ 52) (by norm_num) (backSubFl fl) le_rfl le_rfl
  have hC := C98Example.scaled hfl (backSubFl fl)
  have hacc := (C87_rounded _ ho 10 C88Example.prob (by simp [C88Example.prob]) (fun _ _ => 1) (fun _ => 0) w hC.cond).1
  obtain ⟨r, s, h3, h4⟩ := Arith.run_good ho.sane hacc _ (.eq 0 _) le_rfl ⟨rfl, Nat.zero_le _, by simp [C88Example.prob], rfl⟩ .refl
  have h : (flArith fl (2⁻¹ ^ 52) (backSubFl fl) 1).solve 10 C88Example.prob (fun _ _ => 1) (fun _ => 0) w 42 = .ok (r, s) :=
    h3 42 (by simp [Arith.cost, C88Example.prob])
  obtain rfl := (C88Example.inv hfl h1 hm (backSubFl fl) (C98Example.reach hfl h1 hm _ h4)).2
  refine ⟨s, h, ?_⟩
  have hF : NearFactor C88Example.prob (fun _ _ => 1) (fun _ => 0) 1 0 0 := by
    constructor <;> simp [C88Example.prob]
    · exact fun y => mul_self_nonneg _
  have e : Real.sqrt (flArith fl (2⁻¹ ^ 52) (backSubFl fl) 1).eps = 2⁻¹ ^ 26 := by
    show Real.sqrt (2⁻¹ ^ 52) = _
    rw [show (2⁻¹ : ℝ) ^ 52 = (2⁻¹ ^ 26) ^ 2 by norm_num]
    exact Real.sqrt_sq (by norm_num)
  refine le_trans (C98_value _ ho (flArith_subMul (by norm_num) hfl _ _ _) rfl (γ := 3 * (((1 + 2⁻¹ ^ 53) ^ (1 + 1) - 1) + 2⁻¹ ^ 53)) (by norm_num)
    (flArith_tri (by norm_num) (by norm_num) hfl le_rfl (by norm_num) _) 10 C88Example.prob rfl (fun _ _ => 1) (fun _ => 0) w
    hC (X := 1) (U := 1) (by norm_num) (by norm_num) (fun q hq => C97Example.point_le hfl h1 hm (backSubFl fl) (C98Example.reach hfl h1 hm _ hq))
    (fun q hq => C97Example.mult_le hfl h1 hm (backSubFl fl) (C98Example.reach hfl h1 hm _ hq)) le_rfl hF (Γ := 0) (Fm := 1) le_rfl (by simp [C88Example.prob])
    (fun q hq => ?_) 42 (by norm_num) _ s h) ?_
  · have := C98Example.value hfl h1 hm (backSubFl fl) (C98Example.reach hfl h1 hm _ hq)
    cases q with
    | ret r s => exact this
    | eq i s => simp [st, show s.f = 0 from this]
    | l1 s => exact this.1
    | l2 s => simp [st, show s.f = 0 from this]
    | l2a s => simp [st, show s.f = 0 from this]
  · have hp := one_add_pow_mul (x := 84 * 2⁻¹ ^ 53) 42 (by norm_num) (by norm_num)
    have hp0 : (1 : ℝ) ≤ (1 + 84 * 2⁻¹ ^ 53) ^ 42 := one_le_pow₀ (by norm_num)
    unfold valueErr valueErrC value0 valueD statD drift dl
    rw [e, show 1 * (2 + 10 * (1 + 3)) = 42 by norm_num]
    generalize (1 + 84 * (2⁻¹ : ℝ) ^ 53) ^ 42 = p at *
    have hp1 : p ≤ 1.1 := by
      norm_num at hp ⊢
      linarith
    clear hp
    norm_num
    linarith

/-- A non-trivial case with an equality: doubles with back substitution and ten passes, minimise `x² / 2` with `x = 1` and `x ≥ 0` from `x = 0`. -/
example (fl : ℝ → ℝ) (hfl : ∀ x, |fl x - x| ≤ 2⁻¹ ^ 53 * |x|) (h1 : fl 1 = 1) (hm : fl (-1) = -1) (w : FWork ℝ 1) :
    ∃ s, (flArith fl (2⁻¹ ^ 52) (backSubFl fl) 1).solve 10 C96Example.prob (fun _ _ => 1) (fun _ => 0) w 43 = .ok (.optimal, s) ∧
      |s.f - objective C96Example.prob s.x| ≤ 10⁻¹ ^ 3 := by
  have ho := C87_left_to_right (n := 1) (m := 1) (N := 1) (by norm_num) hfl (eps := 2⁻¹ ^ 52) (by norm_num) (backSubFl fl) le_rfl le_rfl
  have hC := C96Example.scaled hfl (backSubFl fl) (maxIter := 10) (by norm_num)
  have hacc := (C87_rounded _ ho 10 C96Example.prob (by simp [C96Example.prob]) (fun _ _ => 1) (fun _ => 0) w hC.cond).1
  obtain ⟨r, s, h3, h4⟩ := Arith.run_good ho.sane hacc _ (.eq 0 _) le_rfl ⟨rfl, Nat.zero_le _, by simp [C96Example.prob], rfl⟩ .refl
  have h : (flArith fl (2⁻¹ ^ 52) (backSubFl fl) 1).solve 10 C96Example.prob (fun _ _ => 1) (fun _ => 0) w 43 = .ok (r, s) :=
    h3 43 (by simp [Arith.cost, C96Example.prob])
  obtain ⟨hdone, rfl⟩ := (C96Example.inv hfl h1 hm (backSubFl fl) (by norm_num) h4).1
  refine ⟨s, h, ?_⟩
  have hF : NearFactor C96Example.prob (fun _ _ => 1) (fun _ => 0) 1 0 0 := by
    constructor <;> simp [C96Example.prob]
    · exact fun y => mul_self_nonneg _
  have e : Real.sqrt (flArith fl (2⁻¹ ^ 52) (backSubFl fl) 1).eps = 2⁻¹ ^ 26 := by
    show Real.sqrt (2⁻¹ ^ 52) = _
    rw [show (2⁻¹ : ℝ) ^ 52 = (2⁻¹ ^ 26) ^ 2 by norm_num]
    exact Real.sqrt_sq (by norm_num)
  refine le_trans (C98_equalities _ ho (flArith_subMul (by norm_num) hfl _ _ _) rfl (γ := 3 * (((1 + 2⁻¹ ^ 53) ^ (1 + 1) - 1) + 2⁻¹ ^ 53)) (by norm_num)
    (flArith_tri (by norm_num) (by norm_num) hfl le_rfl (by norm_num) _) 10 C96Example.prob (by simp [C96Example.prob]) (fun _ _ => 1) (fun _ => 0) w
    hC (X := 1) (U := 1) (by norm_num) (by norm_num) (fun q hq => C96Example.point_le hfl h1 hm (backSubFl fl) (by norm_num) hq)
    (fun i s hr hi => (C96Example.inv hfl h1 hm (backSubFl fl) (by norm_num) hr).2 i s rfl hi)
    (fun q hq => C96Example.mult_le hfl h1 hm (backSubFl fl) (by norm_num) hq) le_rfl hF (Γ := 0) (Fm := 1) le_rfl (by simp [C96Example.prob])
    (fun q hq => ?_) 43 (by simp [C96Example.prob]) _ s h) ?_
  · have h := (C96Example.inv hfl h1 hm (backSubFl fl) (by norm_num) hq).1
    cases q with
    | ret r s => exact h.1.2.2.2
    | eq i s =>
      rcases h.2 with h | h
      · simp [st, h.2.2.2.2.1]
      · exact h.2.2.2.2
    | l1 s => exact h.2.2.2.2
    | l2 s => exact h.elim
    | l2a s => exact h.elim
  · have hp := one_add_pow_mul (x := 84 * 2⁻¹ ^ 53) 43 (by norm_num) (by norm_num)
    have hp0 : (1 : ℝ) ≤ (1 + 84 * 2⁻¹ ^ 53) ^ 43 := one_le_pow₀ (by norm_num)
    unfold valueErrC value0 valueD statD drift dl
    rw [e, show C96Example.prob.CE.length = 1 from rfl, show 1 * (1 + 2 + 10 * (1 + 3)) = 43 by norm_num]
    generalize (1 + 84 * (2⁻¹ : ℝ) ^ 53) ^ 43 = p at *
    have hp1 : p ≤ 1.1 := by
      norm_num at hp ⊢
      linarith
    clear hp
    norm_num
    linarith

end Verif
