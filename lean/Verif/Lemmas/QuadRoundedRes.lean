import Verif.Lemmas.QuadRoundedFac

/-! Residuals of the constraints under rounding: one move of the point. -/

namespace Verif

variable {n : ℕ}

namespace Arith

variable {o : Arith ℝ n} {m : ℕ} {u g : ℝ}

/-- The exact value of a constraint at `x`, and the sum of the absolute values of its terms. -/
noncomputable def val (e : (Fin n → ℝ) × ℝ) (x : Fin n → ℝ) : ℝ := ∑ k, e.1 k * x k + e.2
noncomputable def mag (e : (Fin n → ℝ) × ℝ) (x : Fin n → ℝ) : ℝ := ∑ k, |e.1 k * x k| + |e.2|

theorem abs_sum_abs_le {ι : Type} (s : Finset ι) (x y : ι → ℝ) {a b : ℝ} (ha : 0 ≤ a) (hb : 0 ≤ b) (hx : ∑ i ∈ s, x i ^ 2 ≤ a ^ 2)
    (hy : ∑ i ∈ s, y i ^ 2 ≤ b ^ 2) : ∑ i ∈ s, |x i * y i| ≤ a * b := by
  have := abs_sum_mul_le s (fun i => |x i|) (fun i => |y i|) ha hb (by simpa only [sq_abs] using hx) (by simpa only [sq_abs] using hy)
  simp only [abs_mul]
  exact le_trans (le_abs_self _) this

theorem mag_le {e : (Fin n → ℝ) × ℝ} {x : Fin n → ℝ} {β X b : ℝ} (hβ : 0 ≤ β) (hX : 0 ≤ X) (he : ∑ k, e.1 k ^ 2 ≤ β ^ 2)
    (hx : ∑ k, x k ^ 2 ≤ X ^ 2) (hb : |e.2| ≤ b) : mag e x ≤ β * X + b := by
  unfold mag
  have := abs_sum_abs_le Finset.univ e.1 x hβ hX he hx
  linarith

theorem abs_val_le (e : (Fin n → ℝ) × ℝ) (x : Fin n → ℝ) : |val e x| ≤ mag e x := by
  unfold val mag
  have h1 := abs_add_le (∑ k, e.1 k * x k) e.2
  have h2 := Finset.abs_sum_le_sum_abs (fun k => e.1 k * x k) Finset.univ
  linarith

/-- The new point. -/
theorem Rounded.move (h : o.Rounded m u g) (hu0 : 0 ≤ u) (hu : u ≤ 1 / 1000) {x z : Fin n → ℝ} {t X : ℝ} (hX : 0 ≤ X)
    (hx : ∑ k, x k ^ 2 ≤ X ^ 2) (hx' : ∑ k, o.mulAdd t (z k) (x k) ^ 2 ≤ X ^ 2) :
    ∑ k, (o.mulAdd t (z k) (x k) - (x k + t * z k)) ^ 2 ≤ (3.2 * u * X) ^ 2 ∧ ∑ k, (t * z k) ^ 2 ≤ (2.01 * X) ^ 2 := by
  have pt : ∀ k, |o.mulAdd t (z k) (x k) - (x k + t * z k)| ≤ 2.1 * u * |o.mulAdd t (z k) (x k)| + 1.1 * u * |x k| := by
    intro k
    have h1 := h.mulAdd t (z k) (x k)
    rw [add_comm (t * z k) (x k)] at h1
    generalize o.mulAdd t (z k) (x k) = y at *
    generalize t * z k = w at *
    generalize x k = v at *
    have h2 : |w| ≤ |v + w| + |v| := by
      have := abs_sub (v + w) v
      rwa [add_sub_cancel_left] at this
    have h3 : |v + w| ≤ |y| + |y - (v + w)| := by
      have := abs_sub y (y - (v + w))
      rwa [sub_sub_cancel] at this
    have h4 : 0 ≤ |v + w| := abs_nonneg _
    have h5 : 0 ≤ |y - (v + w)| := abs_nonneg _
    have h6 : 0 ≤ |y| := abs_nonneg _
    have h7 : 0 ≤ |v| := abs_nonneg _
    have h8 : u * (1 + u) * |w| ≤ 1.001 * u * (|v + w| + |v|) := by
      have a1 : u * (1 + u) ≤ 1.001 * u := by nlinarith
      exact mul_le_mul a1 h2 (abs_nonneg _) (by positivity)
    have h9 := mul_le_mul_of_nonneg_left h3 hu0
    have e1 : u * |y - (v + w)| ≤ 0.001 * |y - (v + w)| := by nlinarith
    have e2 : 0 ≤ u * |y| := by positivity
    have e3 : 0 ≤ u * |v| := by positivity
    nlinarith
  have h1 : ∑ k, (o.mulAdd t (z k) (x k) - (x k + t * z k)) ^ 2 ≤ (3.2 * u * X) ^ 2 := by
    have := sum_sq_add Finset.univ (fun k => 2.1 * u * |o.mulAdd t (z k) (x k)|) (fun k => 1.1 * u * |x k|) (a := 2.1 * u * X) (b := 1.1 * u * X)
      (by positivity) (by positivity) ?_ ?_
    · calc ∑ k, (o.mulAdd t (z k) (x k) - (x k + t * z k)) ^ 2 ≤ ∑ k, (2.1 * u * |o.mulAdd t (z k) (x k)| + 1.1 * u * |x k|) ^ 2 := by
            refine Finset.sum_le_sum fun k _ => ?_
            rw [← sq_abs]
            exact pow_le_pow_left₀ (abs_nonneg _) (pt k) 2
        _ ≤ _ := this
        _ = _ := by ring
    · simp only [mul_pow, sq_abs]
      rw [← Finset.mul_sum]
      exact mul_le_mul_of_nonneg_left hx' (by positivity)
    · simp only [mul_pow, sq_abs]
      rw [← Finset.mul_sum]
      exact mul_le_mul_of_nonneg_left hx (by positivity)
  refine ⟨h1, ?_⟩
  have h2 := sum_sq_add Finset.univ (fun k => -x k) (fun k => -(o.mulAdd t (z k) (x k) - (x k + t * z k))) (b := 3.2 * u * X) hX (by positivity) (by simpa using hx)
    (by simp only [neg_sq]; exact h1)
  have h3 := sum_sq_add Finset.univ (fun k => o.mulAdd t (z k) (x k)) (fun k => -x k + -(o.mulAdd t (z k) (x k) - (x k + t * z k))) hX
    (by positivity) hx' h2
  calc ∑ k, (t * z k) ^ 2 = ∑ k, (o.mulAdd t (z k) (x k) + (-x k + -(o.mulAdd t (z k) (x k) - (x k + t * z k)))) ^ 2 :=
        Finset.sum_congr rfl fun k _ => by ring
    _ ≤ (X + (X + 3.2 * u * X)) ^ 2 := h3
    _ ≤ (2.01 * X) ^ 2 := by
        refine pow_le_pow_left₀ (by positivity) ?_ 2
        nlinarith

/-- The vector `z`. -/
theorem Rounded.gemv_err (h : o.Rounded m u g) (hg : 0 ≤ g) {J : ℕ → Fin n → ℝ} {Y D t : ℝ} (hY : sqJ J ≤ Y ^ 2) {d : ℕ → ℝ} {iq : ℕ}
    (hd : ∑ j ∈ Finset.Ico iq n, (t * d j) ^ 2 ≤ D ^ 2) :
    ∑ k, (t * (o.gemv J d iq k - ∑ j ∈ Finset.Ico iq n, d j * J j k)) ^ 2 ≤ (g * (D * Y)) ^ 2 := by
  have pt : ∀ k, (t * (o.gemv J d iq k - ∑ j ∈ Finset.Ico iq n, d j * J j k)) ^ 2 ≤
      g ^ 2 * ((∑ j ∈ Finset.Ico iq n, (t * d j) ^ 2) * ∑ j ∈ Finset.Ico iq n, J j k ^ 2) := by
    intro k
    have h1 := h.gemv J d iq k
    have h2 : |t * (o.gemv J d iq k - ∑ j ∈ Finset.Ico iq n, d j * J j k)| ≤ g * ∑ j ∈ Finset.Ico iq n, |t * d j| * |J j k| := by
      rw [abs_mul]
      refine le_trans (mul_le_mul_of_nonneg_left h1 (abs_nonneg t)) (le_of_eq ?_)
      rw [mul_left_comm, Finset.mul_sum]
      congr 1
      exact Finset.sum_congr rfl fun j _ => by rw [abs_mul, abs_mul, mul_assoc]
    rw [← sq_abs]
    refine le_trans (pow_le_pow_left₀ (abs_nonneg _) h2 2) ?_
    rw [mul_pow]
    refine mul_le_mul_of_nonneg_left ?_ (sq_nonneg _)
    have := Finset.sum_mul_sq_le_sq_mul_sq (Finset.Ico iq n) (fun j => |t * d j|) fun j => |J j k|
    simpa only [sq_abs] using this
  calc ∑ k, (t * (o.gemv J d iq k - ∑ j ∈ Finset.Ico iq n, d j * J j k)) ^ 2
      ≤ ∑ k, g ^ 2 * ((∑ j ∈ Finset.Ico iq n, (t * d j) ^ 2) * ∑ j ∈ Finset.Ico iq n, J j k ^ 2) := Finset.sum_le_sum fun k _ => pt k
    _ = g ^ 2 * ((∑ j ∈ Finset.Ico iq n, (t * d j) ^ 2) * ∑ k, ∑ j ∈ Finset.Ico iq n, J j k ^ 2) := by rw [← Finset.mul_sum, ← Finset.mul_sum]
    _ ≤ g ^ 2 * (D ^ 2 * Y ^ 2) := by
        refine mul_le_mul_of_nonneg_left (mul_le_mul hd ?_ (Finset.sum_nonneg fun _ _ => Finset.sum_nonneg fun _ _ => sq_nonneg _) (sq_nonneg _)) (sq_nonneg _)
        refine le_trans ?_ hY
        rw [Finset.sum_comm]
        unfold sqJ
        refine Finset.sum_le_sum_of_subset_of_nonneg (fun j hj => ?_) (fun _ _ _ => Finset.sum_nonneg fun _ _ => sq_nonneg _)
        exact Finset.mem_range.mpr (Finset.mem_Ico.mp hj).2
    _ = _ := by ring

section
variable {N σ β Y : ℝ} {Rm : ℕ}

/-- The length of the step in the space of `d`. -/
theorem Rounded.move_len (h : o.Rounded m u g) (hp : Par u g N σ β Y Rm) (hσ : 0 < σ) {J : ℕ → Fin n → ℝ} {r : ℕ} (hr : r ≤ Rm)
    (hJ : JOk u N σ Y r J) (hlo : σ / 2 ≤ lo u σ Y r - g * Y) {d : ℕ → ℝ} {iq : ℕ} {t X : ℝ} (hX : 0 ≤ X)
    (hz : ∑ k, (t * o.gemv J d iq k) ^ 2 ≤ (2.01 * X) ^ 2) :
    Real.sqrt (∑ j ∈ Finset.Ico iq n, (t * d j) ^ 2) ≤ 5 * X / σ := by
  have hD0 : 0 ≤ ∑ j ∈ Finset.Ico iq n, (t * d j) ^ 2 := Finset.sum_nonneg fun _ _ => sq_nonneg _
  have hD := Real.sq_sqrt hD0
  have hDn := Real.sqrt_nonneg (∑ j ∈ Finset.Ico iq n, (t * d j) ^ 2)
  generalize hDd : Real.sqrt (∑ j ∈ Finset.Ico iq n, (t * d j) ^ 2) = D at hD hDn ⊢
  have hY : sqJ J ≤ Y ^ 2 := le_trans hJ.sq (hp.sq r hr)
  have he := h.gemv_err hp.g0 hY (t := t) (d := d) (iq := iq) hD.ge
  have hs := sum_sq_add Finset.univ (fun k => t * o.gemv J d iq k) (fun k => -(t * (o.gemv J d iq k - ∑ j ∈ Finset.Ico iq n, d j * J j k)))
    (by positivity) (mul_nonneg hp.g0 (mul_nonneg hDn hp.Y0)) hz (by simpa only [neg_sq] using he)
  have sub : ∀ f : ℕ → ℝ, ∑ j ∈ Finset.range n, (if iq ≤ j then f j else 0) = ∑ j ∈ Finset.Ico iq n, f j := by
    intro f
    rw [← Finset.sum_filter]
    refine Finset.sum_congr ?_ fun _ _ => rfl
    ext j
    simp only [Finset.mem_filter, Finset.mem_range, Finset.mem_Ico]
    omega
  have hl := hJ.low (fun j => if iq ≤ j then t * d j else 0) (2.01 * X + g * (D * Y)) (by have := mul_nonneg hp.g0 (mul_nonneg hDn hp.Y0); positivity) ?_
  · have e1 : ∑ j ∈ Finset.range n, (if iq ≤ j then t * d j else 0) ^ 2 = ∑ j ∈ Finset.Ico iq n, (t * d j) ^ 2 := by
      rw [← sub]
      exact Finset.sum_congr rfl fun j _ => by split_ifs <;> simp
    rw [e1, hDd] at hl
    rw [le_div_iff₀ hσ]
    have := mul_le_mul_of_nonneg_right hlo hDn
    nlinarith
  · refine le_trans (le_of_eq ?_) hs
    refine Finset.sum_congr rfl fun k _ => ?_
    congr 1
    have e2 : ∑ j ∈ Finset.range n, (if iq ≤ j then t * d j else 0) * J j k = t * ∑ j ∈ Finset.Ico iq n, d j * J j k := by
      rw [Finset.mul_sum, ← sub]
      exact Finset.sum_congr rfl fun j _ => by split_ifs <;> ring
    rw [e2]
    ring

/-- What a move changes in the value of an active constraint. -/
theorem Rounded.move_active (h : o.Rounded m u g) (hp : Par u g N σ β Y Rm) (hσ : 0 < σ) {J : ℕ → Fin n → ℝ} {R : ℕ → ℕ → ℝ} {r : ℕ} (hr : r ≤ Rm)
    (hJ : JOk u N σ Y r J) (hlo : σ / 2 ≤ lo u σ Y r - g * Y) {d : ℕ → ℝ} {iq k : ℕ} (hk : k < iq) {t X : ℝ} (hX : 0 ≤ X)
    {x : Fin n → ℝ} (hx : ∑ k, x k ^ 2 ≤ X ^ 2) (hx' : ∑ i, o.mulAdd t (o.gemv J d iq i) (x i) ^ 2 ≤ X ^ 2) {e : (Fin n → ℝ) × ℝ}
    (he : ∑ i, e.1 i ^ 2 ≤ β ^ 2) (hE : sqE e.1 J (colR R k) ≤ dl u g (β * Y) r ^ 2) :
    |val e (fun i => o.mulAdd t (o.gemv J d iq i) (x i)) - val e x| ≤ 5 * X / σ * (dl u g (β * Y) r + g * (β * Y)) + 3.2 * u * (β * X) := by
  obtain ⟨m1, m2⟩ := h.move hp.u0 hp.u1 hX hx hx'
  have hlen := h.move_len hp hσ hr hJ hlo hX m2
  have hD0 : 0 ≤ ∑ j ∈ Finset.Ico iq n, (t * d j) ^ 2 := Finset.sum_nonneg fun _ _ => sq_nonneg _
  have hD := Real.sq_sqrt hD0
  have hDn := Real.sqrt_nonneg (∑ j ∈ Finset.Ico iq n, (t * d j) ^ 2)
  generalize Real.sqrt (∑ j ∈ Finset.Ico iq n, (t * d j) ^ 2) = D at *
  have hY : sqJ J ≤ Y ^ 2 := le_trans hJ.sq (hp.sq r hr)
  have hge := h.gemv_err hp.g0 hY (t := t) (d := d) (iq := iq) hD.ge
  have b1 := abs_sum_mul_le Finset.univ e.1 (fun i => o.mulAdd t (o.gemv J d iq i) (x i) - (x i + t * o.gemv J d iq i)) hp.β0
    (by have := hp.u0; positivity) he m1
  have b2 := abs_sum_mul_le Finset.univ e.1 (fun i => t * (o.gemv J d iq i - ∑ j ∈ Finset.Ico iq n, d j * J j i)) hp.β0
    (mul_nonneg hp.g0 (mul_nonneg hDn hp.Y0)) he hge
  have hcol : ∑ j ∈ Finset.Ico iq n, (∑ i, e.1 i * J j i) ^ 2 ≤ dl u g (β * Y) r ^ 2 := by
    refine le_trans ?_ hE
    unfold sqE
    calc ∑ j ∈ Finset.Ico iq n, (∑ i, e.1 i * J j i) ^ 2 = ∑ j ∈ Finset.Ico iq n, (∑ i, e.1 i * J j i - colR R k j) ^ 2 := by
          refine Finset.sum_congr rfl fun j hj => ?_
          have := (Finset.mem_Ico.mp hj).1
          unfold colR
          rw [if_neg (by omega), sub_zero]
      _ ≤ _ := Finset.sum_le_sum_of_subset_of_nonneg (fun j hj => Finset.mem_range.mpr (Finset.mem_Ico.mp hj).2) fun _ _ _ => sq_nonneg _
  have hd0 := dl_nonneg hp.u0 hp.g0 hp.Q0 r
  have b3 := abs_sum_mul_le (Finset.Ico iq n) (fun j => t * d j) (fun j => ∑ i, e.1 i * J j i) hDn hd0 hD.ge hcol
  have split : val e (fun i => o.mulAdd t (o.gemv J d iq i) (x i)) - val e x =
      ∑ i, e.1 i * (o.mulAdd t (o.gemv J d iq i) (x i) - (x i + t * o.gemv J d iq i)) +
      (∑ i, e.1 i * (t * (o.gemv J d iq i - ∑ j ∈ Finset.Ico iq n, d j * J j i)) + ∑ j ∈ Finset.Ico iq n, t * d j * ∑ i, e.1 i * J j i) := by
    have e1 : ∑ j ∈ Finset.Ico iq n, t * d j * ∑ i, e.1 i * J j i = ∑ i, e.1 i * (t * ∑ j ∈ Finset.Ico iq n, d j * J j i) := by
      simp only [Finset.mul_sum]
      rw [Finset.sum_comm]
      exact Finset.sum_congr rfl fun i _ => Finset.sum_congr rfl fun j _ => by ring
    rw [e1]
    unfold val
    rw [add_sub_add_right_eq_sub, ← Finset.sum_sub_distrib, ← Finset.sum_add_distrib, ← Finset.sum_add_distrib]
    exact Finset.sum_congr rfl fun i _ => by ring
  rw [split]
  refine le_trans (abs_add_le _ _) (le_trans (add_le_add b1 (le_trans (abs_add_le _ _) (add_le_add b2 b3))) ?_)
  have hQ := mul_nonneg hp.g0 hp.Q0
  have := mul_le_mul_of_nonneg_right hlen (add_nonneg hd0 hQ)
  linarith

/-- The computed curvature along the step is positive. -/
theorem Rounded.dot_pos (h : o.Rounded m u g) (hp : Par u g N σ β Y Rm) {J : ℕ → Fin n → ℝ} {r : ℕ} (hr : r ≤ Rm)
    (hJ : JOk u N σ Y r J) {np : Fin n → ℝ} (hnp : ∑ k, np k ^ 2 ≤ β ^ 2) {iq : ℕ} (heps : 10 * (g * β * Y ^ 2) ^ 2 ≤ o.eps)
    (hfar : o.far (o.updateZ J (o.gemvT J np) iq)) : 0 < o.dot (o.gemv J (o.gemvT J np) iq) np := by
  obtain ⟨hiq, hf⟩ := h.far_d hp.g0 hp.g1 hfar
  have hY : sqJ J ≤ Y ^ 2 := le_trans hJ.sq (hp.sq r hr)
  have hg0 := hp.g0
  have hg1 := hp.g1
  have hQ0 := hp.Q0
  have hEr := h.gemvT_err hp hY hnp
  generalize o.gemvT J np = d at *
  have hD0 : 0 ≤ ∑ j ∈ Finset.Ico iq n, d j ^ 2 := Finset.sum_nonneg fun _ _ => sq_nonneg _
  have hD := Real.sq_sqrt hD0
  have hDn := Real.sqrt_nonneg (∑ j ∈ Finset.Ico iq n, d j ^ 2)
  generalize Real.sqrt (∑ j ∈ Finset.Ico iq n, d j ^ 2) = D at *
  have hge := h.gemv_err hg0 hY (t := 1) (d := d) (iq := iq) (D := D) (by simpa only [one_mul] using hD.ge)
  simp only [one_mul] at hge
  have hDY : 0 ≤ D * Y := mul_nonneg hDn hp.Y0
  have b2 := abs_sum_mul_le Finset.univ np (fun i => o.gemv J d iq i - ∑ j ∈ Finset.Ico iq n, d j * J j i) hp.β0 (mul_nonneg hg0 hDY) hnp hge
  have hcol : ∑ j ∈ Finset.Ico iq n, (∑ i, np i * J j i - d j) ^ 2 ≤ (g * (β * Y)) ^ 2 := by
    refine le_trans ?_ hEr
    unfold sqE
    exact Finset.sum_le_sum_of_subset_of_nonneg (fun j hj => Finset.mem_range.mpr (Finset.mem_Ico.mp hj).2) fun _ _ _ => sq_nonneg _
  have b3 := abs_sum_mul_le (Finset.Ico iq n) d (fun j => ∑ i, np i * J j i - d j) hDn (mul_nonneg hg0 hQ0) hD.ge hcol
  have hz : ∑ i, o.gemv J d iq i ^ 2 ≤ (1.01 * (D * Y)) ^ 2 := by
    refine le_trans (h.gemv_sq hg0 J d iq) ?_
    rw [← hD]
    have k1 : (1 + g) ^ 2 ≤ 1.01 ^ 2 := pow_le_pow_left₀ (by linarith) (by linarith) 2
    calc (1 + g) ^ 2 * (D ^ 2 * sqJ J) ≤ 1.01 ^ 2 * (D ^ 2 * Y ^ 2) :=
          mul_le_mul k1 (mul_le_mul_of_nonneg_left hY (sq_nonneg _)) (mul_nonneg (sq_nonneg _) (sqJ_nonneg J)) (by norm_num)
      _ = _ := by ring
  have b4 := abs_sum_abs_le Finset.univ (o.gemv J d iq) np (by positivity) hp.β0 hz hnp
  have b5 := h.dot (o.gemv J d iq) np
  have split : ∑ i, o.gemv J d iq i * np i = D ^ 2 + ∑ j ∈ Finset.Ico iq n, d j * (∑ i, np i * J j i - d j) +
      ∑ i, np i * (o.gemv J d iq i - ∑ j ∈ Finset.Ico iq n, d j * J j i) := by
    have e1 : ∑ i, np i * ∑ j ∈ Finset.Ico iq n, d j * J j i = ∑ j ∈ Finset.Ico iq n, d j * ∑ i, np i * J j i := by
      simp only [Finset.mul_sum]
      rw [Finset.sum_comm]
      exact Finset.sum_congr rfl fun i _ => Finset.sum_congr rfl fun j _ => by ring
    simp only [mul_sub, Finset.sum_sub_distrib]
    rw [e1, hD]
    have e2 : ∑ j ∈ Finset.Ico iq n, d j * d j = ∑ j ∈ Finset.Ico iq n, d j ^ 2 := Finset.sum_congr rfl fun j _ => (pow_two _).symm
    have e3 : ∑ i, np i * o.gemv J d iq i = ∑ i, o.gemv J d iq i * np i := Finset.sum_congr rfl fun j _ => mul_comm _ _
    rw [e2, e3]
    ring
  rw [← hD] at hf
  -- the size of the tail of `d`
  have hbig : 3.1 * (g * (β * Y)) < D := by
    by_contra hcon
    have hc := not_lt.mp hcon
    have k1 : D ^ 2 ≤ (3.1 * (g * (β * Y))) ^ 2 := pow_le_pow_left₀ hDn hc 2
    have k2 : D ^ 2 * sqJ J ≤ (3.1 * (g * (β * Y))) ^ 2 * Y ^ 2 := mul_le_mul k1 hY (sqJ_nonneg J) (sq_nonneg _)
    have k3 : 0 ≤ (g * β * Y ^ 2) ^ 2 := sq_nonneg _
    nlinarith
  have hDpos : 0 < D := lt_of_le_of_lt (by positivity) hbig
  have c2 := (abs_le.mp b2).1
  have c3 := (abs_le.mp b3).1
  have c5 := (abs_le.mp b5).1
  have c6 := mul_le_mul_of_nonneg_left b4 hg0
  rw [split] at c5
  have hfin := mul_pos hDpos (sub_pos.mpr hbig)
  have hq : 0 ≤ g * (β * Y) * D := by positivity
  nlinarith

/-- The value of the constraint that a full step adds. -/
theorem Rounded.move_new (h : o.Rounded m u g) (hp : Par u g N σ β Y Rm) {z : Fin n → ℝ} {e : (Fin n → ℝ) × ℝ} (he : ∑ k, e.1 k ^ 2 ≤ β ^ 2)
    (hdot : o.dot z e.1 ≠ 0) {s X M : ℝ} (hX : 0 ≤ X) {x : Fin n → ℝ} (hx : ∑ k, x k ^ 2 ≤ X ^ 2)
    (hx' : ∑ k, o.mulAdd (o.div (-s) (o.dot z e.1)) (z k) (x k) ^ 2 ≤ X ^ 2) (hM : mag e x ≤ M) (hβX : β * X ≤ M)
    (hs : |s - val e x| ≤ (g + 1.01 * u) * M) :
    |val e fun k => o.mulAdd (o.div (-s) (o.dot z e.1)) (z k) (x k)| ≤ 6 * (g + u) * M := by
  have hu0 := hp.u0
  have hu := hp.u1
  have hg0 := hp.g0
  have hg := hp.g1
  have hdiv := h.div (-s) (o.dot z e.1)
  have hdt := h.dot z e.1
  generalize o.div (-s) (o.dot z e.1) = t at *
  generalize o.dot z e.1 = D at *
  obtain ⟨m1, m2⟩ := h.move hu0 hu hX hx hx'
  have b1 := abs_sum_mul_le Finset.univ e.1 (fun i => o.mulAdd t (z i) (x i) - (x i + t * z i)) hp.β0 (by positivity) he m1
  have b2 := abs_sum_abs_le Finset.univ (fun k => t * z k) e.1 (by positivity) hp.β0 m2 he
  have htD : |t * D + s| ≤ u * |s| := by
    have : t * D + s = (t - -s / D) * D := by field_simp; ring
    rw [this, abs_mul]
    refine le_trans (mul_le_mul_of_nonneg_right hdiv (abs_nonneg D)) (le_of_eq ?_)
    rw [abs_div, abs_neg, mul_assoc, div_mul_cancel₀ _ (abs_ne_zero.mpr hdot)]
  have htz : |t * ∑ k, z k * e.1 k - t * D| ≤ g * (2.01 * X * β) := by
    rw [← mul_sub, abs_mul, abs_sub_comm]
    refine le_trans (mul_le_mul_of_nonneg_left hdt (abs_nonneg t)) ?_
    rw [mul_left_comm, Finset.mul_sum]
    refine mul_le_mul_of_nonneg_left (le_trans (le_of_eq ?_) b2) hg0
    exact Finset.sum_congr rfl fun k _ => by rw [abs_mul, abs_mul, abs_mul, mul_assoc]
  have hM0 : 0 ≤ M := le_trans (mul_nonneg hp.β0 hX) hβX
  have hval := le_trans (abs_val_le e x) hM
  have hsM : |s| ≤ 1.02 * M := by
    have := abs_sub_abs_le_abs_sub s (val e x)
    nlinarith
  have split : val e (fun k => o.mulAdd t (z k) (x k)) = -(s - val e x) + ((t * D + s) + ((t * ∑ k, z k * e.1 k - t * D) +
      ∑ i, e.1 i * (o.mulAdd t (z i) (x i) - (x i + t * z i)))) := by
    unfold val
    have e1 : ∑ i, e.1 i * (o.mulAdd t (z i) (x i) - (x i + t * z i)) =
        ∑ i, e.1 i * o.mulAdd t (z i) (x i) - (∑ i, e.1 i * x i + t * ∑ k, z k * e.1 k) := by
      rw [Finset.mul_sum, ← Finset.sum_add_distrib, ← Finset.sum_sub_distrib]
      exact Finset.sum_congr rfl fun i _ => by ring
    rw [e1]
    ring
  rw [split]
  have a1 := abs_add_le (-(s - val e x)) ((t * D + s) + ((t * ∑ k, z k * e.1 k - t * D) + ∑ i, e.1 i * (o.mulAdd t (z i) (x i) - (x i + t * z i))))
  have a2 := abs_add_le (t * D + s) ((t * ∑ k, z k * e.1 k - t * D) + ∑ i, e.1 i * (o.mulAdd t (z i) (x i) - (x i + t * z i)))
  have a3 := abs_add_le (t * ∑ k, z k * e.1 k - t * D) (∑ i, e.1 i * (o.mulAdd t (z i) (x i) - (x i + t * z i)))
  rw [abs_neg] at a1
  have k1 := mul_le_mul_of_nonneg_left hsM hu0
  have k2 := mul_le_mul_of_nonneg_left hβX hg0
  have k3 := mul_le_mul_of_nonneg_left hβX hu0
  have k4 := mul_nonneg hg0 hM0
  have k5 := mul_nonneg hu0 hM0
  linarith

end

end Arith

end Verif
