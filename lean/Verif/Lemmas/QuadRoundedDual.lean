import Verif.Lemmas.QuadRoundedGram
import Verif.Lemmas.QuadRoundedInf
import Verif.Lemmas.QuadFpDual

/-! The point and the multipliers under rounding: one step. -/

namespace Verif

variable {n : ℕ}

namespace Arith

/-- `a - b * c` is rounded like the other expressions. -/
def SubMulRounded (o : Arith ℝ n) (u : ℝ) : Prop :=
  ∀ a b c, |o.subMul a b c - (a - b * c)| ≤ u * |a - b * c| + u * (1 + u) * |b * c|

variable {o : Arith ℝ n} {m : ℕ} {u g : ℝ}

theorem gram_add (J : ℕ → Fin n → ℝ) (v v' w : Fin n → ℝ) : gram J (fun i => v i + v' i) w = gram J v w + gram J v' w := by
  unfold gram
  rw [← Finset.sum_add_distrib]
  refine Finset.sum_congr rfl fun j _ => ?_
  simp only [add_mul, Finset.sum_add_distrib]

theorem gram_smul (J : ℕ → Fin n → ℝ) (t : ℝ) (v w : Fin n → ℝ) : gram J (fun i => t * v i) w = t * gram J v w := by
  unfold gram
  rw [Finset.mul_sum]
  refine Finset.sum_congr rfl fun j _ => ?_
  simp only [mul_assoc, ← Finset.mul_sum]

theorem gram_le {J : ℕ → Fin n → ℝ} {v w : Fin n → ℝ} {V W Y : ℝ} (hV : 0 ≤ V) (hW : 0 ≤ W) (hY : 0 ≤ Y) (hJ : sqJ J ≤ Y ^ 2)
    (hv : ∑ k, v k ^ 2 ≤ V ^ 2) (hw : ∑ k, w k ^ 2 ≤ W ^ 2) : |gram J v w| ≤ V * W * Y ^ 2 := by
  refine le_trans (abs_sum_mul_le (Finset.range n) _ _ (mul_nonneg hV hY) (mul_nonneg hW hY) (sq_dot_le hv hJ) (sq_dot_le hw hJ)) (le_of_eq ?_)
  ring

/-- The size of a combination. -/
theorem comb_sq_le {act : ℕ → Fin n → ℝ} {β : ℝ} (hβ : 0 ≤ β) {q : ℕ} (hact : ∀ k < q, ∑ i, act k i ^ 2 ≤ β ^ 2) (c : ℕ → ℝ) :
    ∑ i, (∑ k ∈ Finset.range q, c k * act k i) ^ 2 ≤ ((∑ k ∈ Finset.range q, |c k|) * β) ^ 2 := by
  rw [Finset.sum_mul]
  refine sum_sq_sum Finset.univ (fun k i => c k * act k i) (fun k => |c k| * β) q (fun k _ => by positivity) fun k hk => ?_
  simp only [mul_pow, sq_abs]
  rw [← Finset.mul_sum]
  exact mul_le_mul_of_nonneg_left (hact k hk) (sq_nonneg _)

/-- `x - x0 = J0 J0' c` up to `E`. -/
def Stat (J0 : ℕ → Fin n → ℝ) (x0 x c : Fin n → ℝ) (E : ℝ) : Prop :=
  ∀ (w : Fin n → ℝ) (W : ℝ), 0 ≤ W → ∑ k, w k ^ 2 ≤ W ^ 2 → |∑ i, (x i - x0 i) * w i - gram J0 c w| ≤ E * W

theorem Stat.mono {J0 : ℕ → Fin n → ℝ} {x0 x c : Fin n → ℝ} {E E' : ℝ} (h : Stat J0 x0 x c E) (hE : E ≤ E') : Stat J0 x0 x c E' := fun w W hW hw =>
  le_trans (h w W hW hw) (mul_le_mul_of_nonneg_right hE hW)

/-- Another point and another combination. -/
theorem Stat.move {J0 : ℕ → Fin n → ℝ} {x0 x x' c c' : Fin n → ℝ} {E D : ℝ} (h : Stat J0 x0 x c E)
    (hD : ∀ (w : Fin n → ℝ) (W : ℝ), 0 ≤ W → ∑ k, w k ^ 2 ≤ W ^ 2 → |∑ i, (x' i - x i) * w i - gram J0 (fun i => c' i - c i) w| ≤ D * W) :
    Stat J0 x0 x' c' (E + D) := by
  intro w W hW hw
  have h1 := h w W hW hw
  have h2 := hD w W hW hw
  have e : gram J0 c' w = gram J0 c w + gram J0 (fun i => c' i - c i) w := by
    rw [← gram_add]
    congr 1
    funext i
    ring
  have e2 : ∑ i, (x' i - x0 i) * w i = ∑ i, (x i - x0 i) * w i + ∑ i, (x' i - x i) * w i := by
    rw [← Finset.sum_add_distrib]
    exact Finset.sum_congr rfl fun i _ => by ring
  rw [e, e2, add_mul]
  have := abs_add_le (∑ i, (x i - x0 i) * w i - gram J0 c w) (∑ i, (x' i - x i) * w i - gram J0 (fun i => c' i - c i) w)
  refine le_trans (le_of_eq ?_) (le_trans this (add_le_add h1 h2))
  congr 1
  ring

/-- One new multiplier. -/
theorem mult_pt {y v b : ℝ} (hu0 : 0 ≤ u) (hu : u ≤ 1 / 1000) (h : |y - (v - b)| ≤ u * |v - b| + u * (1 + u) * |b|) :
    |y - (v - b)| ≤ 2.1 * u * |y| + 1.1 * u * |v| ∧ |b| ≤ 1.01 * (|v| + |y|) := by
  have h1 : |b| ≤ |v| + |v - b| := by
    have := abs_sub v (v - b)
    rwa [show v - (v - b) = b by ring] at this
  have h2 : |v - b| ≤ |y| + |y - (v - b)| := by
    have := abs_sub y (y - (v - b))
    rwa [show y - (y - (v - b)) = v - b by ring] at this
  have hy := abs_nonneg y
  have hv := abs_nonneg v
  have hb := abs_nonneg b
  have hd := abs_nonneg (v - b)
  generalize |y - (v - b)| = e at *
  generalize |v - b| = a at *
  generalize |b| = B at *
  generalize |v| = V at *
  generalize |y| = Z at *
  have k1 : u * (1 + u) * B ≤ 1.001 * u * B := by
    have : u * B * u ≤ u * B * (1 / 1000) := mul_le_mul_of_nonneg_left hu (mul_nonneg hu0 hb)
    nlinarith
  have k2 : u * a ≤ 1 / 1000 * a := mul_le_mul_of_nonneg_right hu hd
  have k3 : u * B ≤ 1 / 1000 * B := mul_le_mul_of_nonneg_right hu hb
  have k4 : a ≤ 1.0025 * Z + 0.0011 * V := by linarith
  have k5 := mul_le_mul_of_nonneg_left k4 hu0
  have k6 := mul_le_mul_of_nonneg_left h1 hu0
  have z1 := mul_nonneg hu0 hy
  have z2 := mul_nonneg hu0 hv
  constructor
  · nlinarith
  · linarith

/-- The multipliers go from `v` to `v'` by a step of length `t` in the direction `r`: the errors and the length of the step. -/
structure Moves (u U : ℝ) (v v' r : ℕ → ℝ) (iq : ℕ) (t : ℝ) : Prop where
  err : (∑ k ∈ Finset.range iq, |v' k - (v k - t * r k)|) + |v' iq - (v iq + t)| ≤ 3.3 * u * U
  len : |t| + ∑ k ∈ Finset.range iq, |t * r k| ≤ 2.04 * U

theorem SubMulRounded.moves (hsm : o.SubMulRounded u) (hu0 : 0 ≤ u) (hu : u ≤ 1 / 1000) {v v' r : ℕ → ℝ} {iq : ℕ} {t U : ℝ}
    (hlt : ∀ k < iq, v' k = o.subMul (v k) t (r k))
    (p2 : |v' iq - (v iq + t)| ≤ 2.1 * u * |v' iq| + 1.1 * u * |v iq| ∧ |t| ≤ 1.01 * (|v iq| + |v' iq|))
    (hv : ∑ k ∈ Finset.range (iq + 1), |v k| ≤ U) (hv' : ∑ k ∈ Finset.range (iq + 1), |v' k| ≤ 1.01 * U) : Moves u U v v' r iq t := by
  have p1 : ∀ k ∈ Finset.range iq, |v' k - (v k - t * r k)| ≤ 2.1 * u * |v' k| + 1.1 * u * |v k| ∧
      |t * r k| ≤ 1.01 * (|v k| + |v' k|) := fun k hk => by
    rw [hlt k (Finset.mem_range.mp hk)]
    exact mult_pt hu0 hu (hsm (v k) t (r k))
  have hU0 : 0 ≤ U := le_trans (Finset.sum_nonneg fun _ _ => abs_nonneg _) hv
  have s1 := Finset.sum_le_sum fun k hk => (p1 k hk).1
  have s2 := Finset.sum_le_sum fun k hk => (p1 k hk).2
  rw [Finset.sum_add_distrib, ← Finset.mul_sum, ← Finset.mul_sum] at s1
  rw [← Finset.mul_sum, Finset.sum_add_distrib] at s2
  rw [Finset.sum_range_succ] at hv hv'
  clear hlt p1
  generalize ∑ k ∈ Finset.range iq, |v k| = a at *
  generalize ∑ k ∈ Finset.range iq, |v' k| = b at *
  have k1 := mul_le_mul_of_nonneg_left hv hu0
  have k2 := mul_le_mul_of_nonneg_left hv' hu0
  have hU : 0 ≤ u * U := mul_nonneg hu0 hU0
  constructor
  · generalize |v' iq| = b' at *
    generalize |v iq| = a' at *
    nlinarith [p2.1]
  · linarith [p2.2]

/-- The move of the multipliers in the inner loop. -/
theorem Rounded.moveU_sum (h : o.Rounded m u g) (hsm : o.SubMulRounded u) (hu0 : 0 ≤ u) (hu : u ≤ 1 / 1000) {v r : ℕ → ℝ} {iq : ℕ} {t U : ℝ}
    (hv : ∑ k ∈ Finset.range (iq + 1), |v k| ≤ U) (hv' : ∑ k ∈ Finset.range (iq + 1), |o.moveU v r iq t k| ≤ 1.01 * U) :
    Moves u U v (o.moveU v r iq t) r iq t := by
  have hlt : ∀ k < iq, o.moveU v r iq t k = o.subMul (v k) t (r k) := fun k hk => by
    unfold moveU
    rw [if_neg (by omega), if_pos hk]
  have heq : o.moveU v r iq t iq = o.add (v iq) t := by
    unfold moveU
    rw [if_pos rfl]
  refine hsm.moves hu0 hu hlt ?_ hv hv'
  rw [heq]
  have := mult_pt (y := o.add (v iq) t) (v := v iq) (b := -t) hu0 hu (by
    have h1 := h.add (v iq) t
    rw [sub_neg_eq_add]
    have : 0 ≤ u * (1 + u) * |-t| := by positivity
    linarith)
  rwa [sub_neg_eq_add, abs_neg] at this

/-- The move of the multipliers in the loop over the equalities. -/
theorem SubMulRounded.moveEq (hsm : o.SubMulRounded u) (hu0 : 0 ≤ u) (hu : u ≤ 1 / 1000) {v v' r : ℕ → ℝ} {iq : ℕ} {t U : ℝ}
    (hlt : ∀ k < iq, v' k = o.subMul (v k) t (r k)) (h0 : v iq = 0) (ht : v' iq = t)
    (hv : ∑ k ∈ Finset.range (iq + 1), |v k| ≤ U) (hv' : ∑ k ∈ Finset.range (iq + 1), |v' k| ≤ 1.01 * U) : Moves u U v v' r iq t := by
  refine hsm.moves hu0 hu hlt ?_ hv hv'
  rw [h0, ht, zero_add, sub_self, abs_zero]
  constructor
  · positivity
  · linarith [abs_nonneg t]

/-- The multiplier of the dropped constraint is small. -/
theorem Rounded.moveU_drop (h : o.Rounded m u g) (hsm : o.SubMulRounded u) (hu0 : 0 ≤ u) (hu : u ≤ 1 / 1000) {v r : ℕ → ℝ} {iq k : ℕ}
    (hk : k < iq) (hr : 0 < r k) : |o.moveU v r iq (o.div (v k) (r k)) k| ≤ 2.1 * u * |v k| := by
  have e : o.moveU v r iq (o.div (v k) (r k)) k = o.subMul (v k) (o.div (v k) (r k)) (r k) := by
    unfold moveU
    rw [if_neg (by omega), if_pos hk]
  rw [e]
  have h1 := hsm (v k) (o.div (v k) (r k)) (r k)
  have h2 := h.div (v k) (r k)
  have h3 : |v k - o.div (v k) (r k) * r k| ≤ u * |v k| := by
    have e1 : v k - o.div (v k) (r k) * r k = -((o.div (v k) (r k) - v k / r k) * r k) := by
      field_simp
      ring
    rw [e1, abs_neg, abs_mul]
    refine le_trans (mul_le_mul_of_nonneg_right h2 (abs_nonneg _)) (le_of_eq ?_)
    rw [abs_div, mul_assoc, div_mul_cancel₀ _ (abs_ne_zero.mpr hr.ne')]
  generalize o.subMul (v k) (o.div (v k) (r k)) (r k) = y at *
  generalize o.div (v k) (r k) * r k = b at *
  have hv := abs_nonneg (v k)
  have h5 : |b| ≤ |v k| + |v k - b| := by
    have := abs_sub (v k) (v k - b)
    rwa [show v k - (v k - b) = b by ring] at this
  have h6 : |y| ≤ |y - (v k - b)| + |v k - b| := by
    have := abs_add_le (y - (v k - b)) (v k - b)
    rwa [sub_add_cancel] at this
  generalize |v k| = V at *
  generalize |y - (v k - b)| = e1 at *
  generalize |v k - b| = a at *
  generalize |b| = B at *
  have k1 : u * V ≤ 1 / 1000 * V := mul_le_mul_of_nonneg_right hu hv
  have k2 : B ≤ 1.001 * V := by linarith
  have k3 : u * (1 + u) * B ≤ u * (1.001 * (1.001 * V)) := by
    rw [mul_assoc]
    refine mul_le_mul_of_nonneg_left ?_ hu0
    exact le_trans (mul_le_mul_of_nonneg_left k2 (by linarith)) (mul_le_mul_of_nonneg_right (by linarith) (by linarith))
  have k4 : u * a ≤ u * (1 / 1000 * V) := mul_le_mul_of_nonneg_left (le_trans h3 k1) hu0
  have := mul_nonneg hu0 hv
  linarith

section
variable {N σ β Y : ℝ} {Rm : ℕ}

/-- The error of the direction against the change of the combination. -/
theorem Rounded.dir (h : o.Rounded m u g) (hp : Par u g N σ β Y Rm) {J J0 : ℕ → Fin n → ℝ} {R : ℕ → ℕ → ℝ} {r : ℕ} (hr : r ≤ Rm)
    (hJ : JOk u N σ Y r J) (hG : Gr u Y r J0 J) {iq : ℕ} (hiq : iq ≤ n) {act : ℕ → Fin n → ℝ} (hF : Fac u g (β * Y) r act J R iq)
    (hact : ∀ k < iq, ∑ i, act k i ^ 2 ≤ β ^ 2) {np : Fin n → ℝ} (hnp : ∑ k, np k ^ 2 ≤ β ^ 2)
    {γ : ℝ} (hγ : 0 ≤ γ) (htri : o.TriRounded γ) (hdiag : ∀ k < iq, R k k ≠ 0) {t T : ℝ}
    (hT : |t| + ∑ k ∈ Finset.range iq, |t * o.triSolve R (o.gemvT J np) iq k| ≤ T) {w : Fin n → ℝ} {W : ℝ} (hW : 0 ≤ W) (hw : ∑ k, w k ^ 2 ≤ W ^ 2) :
    |∑ i, t * (∑ j ∈ Finset.Ico iq n, o.gemvT J np j * J j i) * w i -
        gram J0 (fun i => t * (np i - ∑ j ∈ Finset.range iq, o.triSolve R (o.gemvT J np) iq j * act j i)) w| ≤
      T * (Y * (g * (β * Y) + (dl u g (β * Y) r + γ * (β * Y + dl u g (β * Y) r))) + 180 * u * r * (β * Y ^ 2)) * W := by
  obtain ⟨f, hsum, hf⟩ := h.comb_split hp hr hJ hiq hF hact hnp hγ htri hdiag
  have hYJ : sqJ J ≤ Y ^ 2 := le_trans hJ.sq (hp.sq r hr)
  generalize o.gemvT J np = d at *
  generalize o.triSolve R d iq = ρ at *
  have hdl := dl_nonneg hp.u0 hp.g0 hp.Q0 r
  generalize dl u g (β * Y) r = δ at *
  have hQ := hp.Q0
  have hg0 := hp.g0
  have hY0 := hp.Y0
  have hβ := hp.β0
  have hu0 := hp.u0
  have hS : 0 ≤ ∑ j ∈ Finset.range iq, |ρ j| := Finset.sum_nonneg fun _ _ => abs_nonneg _
  have ht0 := abs_nonneg t
  have eT : ∑ k ∈ Finset.range iq, |t * ρ k| = |t| * ∑ k ∈ Finset.range iq, |ρ k| := by
    rw [Finset.mul_sum]
    exact Finset.sum_congr rfl fun k _ => abs_mul _ _
  rw [eT] at hT
  -- the size of the change
  have hv : ∑ i, (t * (np i - ∑ j ∈ Finset.range iq, ρ j * act j i)) ^ 2 ≤ (T * β) ^ 2 := by
    have h1 := comb_sq_le hβ hact ρ
    have h2 := sum_sq_add Finset.univ np (fun i => -∑ j ∈ Finset.range iq, ρ j * act j i) hβ (mul_nonneg hS hβ) hnp (by simpa only [neg_sq] using h1)
    have h3 : ∑ i, (t * (np i - ∑ j ∈ Finset.range iq, ρ j * act j i)) ^ 2 ≤ (|t| * (β + (∑ j ∈ Finset.range iq, |ρ j|) * β)) ^ 2 := by
      simp only [mul_pow, ← Finset.mul_sum, sq_abs]
      exact mul_le_mul_of_nonneg_left (by simpa only [sub_eq_add_neg] using h2) (sq_nonneg _)
    refine le_trans h3 (pow_le_pow_left₀ (by positivity) ?_ 2)
    have := mul_le_mul_of_nonneg_right hT hβ
    linarith
  have hT0 : 0 ≤ T := le_trans (by positivity) hT
  have hGw := hG _ w (T * β) W (by positivity) hW hv hw
  -- through `J`
  have e1 : gram J (fun i => t * (np i - ∑ j ∈ Finset.range iq, ρ j * act j i)) w = t * ∑ i ∈ Finset.range n, f i * (∑ k, w k * J i k) +
      ∑ i, t * (∑ j ∈ Finset.Ico iq n, d j * J j i) * w i := by
    rw [gram_smul]
    unfold gram
    simp only [hsum, add_mul, Finset.sum_add_distrib, mul_add]
    congr 1
    have b1 : ∑ i ∈ Finset.range n, (if iq ≤ i then d i else 0) * ∑ k, w k * J i k = ∑ i ∈ Finset.Ico iq n, d i * ∑ k, w k * J i k := by
      have b2 : Finset.Ico iq n = (Finset.range n).filter (fun j => iq ≤ j) := by
        ext j
        simp only [Finset.mem_filter, Finset.mem_range, Finset.mem_Ico]
        tauto
      rw [b2, Finset.sum_filter]
      refine Finset.sum_congr rfl fun i _ => ?_
      split_ifs
      · rfl
      · rw [zero_mul]
    rw [b1]
    simp only [Finset.mul_sum, Finset.sum_mul]
    rw [Finset.sum_comm]
    exact Finset.sum_congr rfl fun i _ => Finset.sum_congr rfl fun k _ => by ring
  have e2 := abs_sum_mul_le (Finset.range n) f (fun i => ∑ k, w k * J i k) (by positivity) (mul_nonneg hW hY0) hf (sq_dot_le hw hYJ)
  have e3 : |t * ∑ i ∈ Finset.range n, f i * (∑ k, w k * J i k)| ≤ T * (Y * (g * (β * Y) + (δ + γ * (β * Y + δ)))) * W := by
    rw [abs_mul]
    refine le_trans (mul_le_mul_of_nonneg_left e2 ht0) ?_
    have hκ : 0 ≤ δ + γ * (β * Y + δ) := by positivity
    generalize δ + γ * (β * Y + δ) = κ at *
    have hgQ : 0 ≤ g * (β * Y) := by positivity
    generalize g * (β * Y) = G at *
    generalize ∑ j ∈ Finset.range iq, |ρ j| = S at *
    have k1 : |t| ≤ T := by nlinarith
    have k2 : |t| * S ≤ T := by nlinarith
    have k3 := mul_le_mul_of_nonneg_right k1 hgQ
    have k4 := mul_le_mul_of_nonneg_right k2 hκ
    have k5 : |t| * (G + S * κ) ≤ T * (G + κ) := by linarith
    have k6 := mul_le_mul_of_nonneg_right k5 (mul_nonneg hW hY0)
    linarith
  have k := abs_sub (gram J (fun i => t * (np i - ∑ j ∈ Finset.range iq, ρ j * act j i)) w -
    gram J0 (fun i => t * (np i - ∑ j ∈ Finset.range iq, ρ j * act j i)) w) (t * ∑ i ∈ Finset.range n, f i * (∑ k, w k * J i k))
  refine le_trans (le_of_eq ?_) (le_trans k ?_)
  · congr 1
    rw [e1]
    ring
  · linarith

/-- The bound of the change of the error in one step. -/
noncomputable def statD (u g eps γ σ β Y X U : ℝ) (r : ℕ) : ℝ :=
  3.2 * u * X + g * (5 * X / σ * Y) +
    2.04 * U * (Y * (g * (β * Y) + (dl u g (β * Y) r + γ * (β * Y + dl u g (β * Y) r))) + 180 * u * r * (β * Y ^ 2)) +
    5.4 * u * U * (β * Y ^ 2) + 5.4 * U * Y * Real.sqrt eps / σ

/-- The change of the combination of the normals: the ideal change and the errors of the multipliers. -/
theorem comb_change {act : ℕ → Fin n → ℝ} {np : Fin n → ℝ} {iq : ℕ} (hlast : act iq = np) (v v' ρ : ℕ → ℝ) (t : ℝ) (i : Fin n) :
    ∑ k ∈ Finset.range (iq + 1), v' k * act k i - ∑ k ∈ Finset.range (iq + 1), v k * act k i =
      t * (np i - ∑ j ∈ Finset.range iq, ρ j * act j i) +
        (∑ k ∈ Finset.range iq, (v' k - (v k - t * ρ k)) * act k i + (v' iq - (v iq + t)) * act iq i) := by
  rw [Finset.sum_range_succ, Finset.sum_range_succ, hlast]
  simp only [sub_mul, Finset.sum_sub_distrib, mul_sub, Finset.mul_sum]
  have e : ∑ k ∈ Finset.range iq, t * ρ k * act k i = ∑ k ∈ Finset.range iq, t * (ρ k * act k i) :=
    Finset.sum_congr rfl fun k _ => by ring
  rw [e]
  ring

/-- The errors of the multipliers. -/
theorem mult_err {J0 : ℕ → Fin n → ℝ} (hβ : 0 ≤ β) (hY0 : 0 ≤ Y) (hJ0 : sqJ J0 ≤ Y ^ 2) {act : ℕ → Fin n → ℝ} {iq : ℕ}
    (hact : ∀ k < iq + 1, ∑ i, act k i ^ 2 ≤ β ^ 2) (c : ℕ → ℝ) (c' : ℝ) {M : ℝ} (hM : (∑ k ∈ Finset.range iq, |c k|) + |c'| ≤ M)
    {w : Fin n → ℝ} {W : ℝ} (hW : 0 ≤ W) (hw : ∑ k, w k ^ 2 ≤ W ^ 2) :
    |gram J0 (fun i => ∑ k ∈ Finset.range iq, c k * act k i + c' * act iq i) w| ≤ M * (β * Y ^ 2) * W := by
  have h1 := comb_sq_le hβ hact (fun k => if k = iq then c' else c k)
  have e1 : ∀ f : ℕ → ℝ → ℝ, ∑ k ∈ Finset.range (iq + 1), f k (if k = iq then c' else c k) = ∑ k ∈ Finset.range iq, f k (c k) + f iq c' := by
    intro f
    rw [Finset.sum_range_succ, if_pos rfl]
    congr 1
    refine Finset.sum_congr rfl fun k hk => ?_
    rw [if_neg (Finset.mem_range.mp hk).ne]
  have e2 := e1 fun _ y => |y|
  have e3 := fun i => e1 fun k y => y * act k i
  simp only [e2, e3] at h1
  have hS : 0 ≤ (∑ k ∈ Finset.range iq, |c k|) + |c'| := by positivity
  refine le_trans (gram_le (mul_nonneg hS hβ) hW hY0 hJ0 h1 hw) ?_
  have := mul_le_mul_of_nonneg_right hM (by positivity : 0 ≤ β * Y ^ 2 * W)
  linarith

end

section
variable {maxIter : ℕ} {P : FQP ℝ n} {J0 : ℕ → Fin n → ℝ} {ν σ β b X U : ℝ}

/-- The combination of the normals of the first `q` active constraints. -/
noncomputable def comb (P : FQP ℝ n) (A : ℕ → ℤ) (v : ℕ → ℝ) (q : ℕ) : Fin n → ℝ := fun i => ∑ k ∈ Finset.range q, v k * (active P A k).1 i

/-- The constraint of normal `np` enters the active set. -/
structure Enters (P : FQP ℝ n) (β : ℝ) (st : FState ℝ n) (np : Fin n → ℝ) : Prop where
  le_n : st.iq ≤ n
  rows : ∀ k < st.iq, ∑ i, (active P st.A k).1 i ^ 2 ≤ β ^ 2
  last : (active P st.A st.iq).1 = np
  norm : ∑ i, np i ^ 2 ≤ β ^ 2

theorem Enters.all {P : FQP ℝ n} {st : FState ℝ n} {np : Fin n → ℝ} (h : Enters P β st np) : ∀ k < st.iq + 1, ∑ i, (active P st.A k).1 i ^ 2 ≤ β ^ 2 :=
  fun k hk => by
    rcases Nat.lt_succ_iff_lt_or_eq.mp hk with hlt | rfl
    · exact h.rows k hlt
    · rw [h.last]
      exact h.norm

theorem ScaledFp.enters (hC : ScaledFp o u g maxIter P J0 ν σ β b) {st : FState ℝ n} (hgood : Good2a P st) : Enters P β st (o.row P st.ip).1 := by
  obtain ⟨hact, g1, g2, g3⟩ := hgood
  rw [row_eq o g1]
  refine ⟨hact.le_n, fun k hk => hC.active_le hact.rng hk, ?_, hC.cond.ci _ (getD_mem g1 _)⟩
  unfold active
  rw [if_neg (by have := hact.ne_le; omega), g2, Int.toNat_natCast]

theorem ScaledFp.enters_eq (hC : ScaledFp o u g maxIter P J0 ν σ β b) {i : ℕ} {st : FState ℝ n} (hgood : Good o P (.eq i st)) (hi : i < P.CE.length) :
    Enters P β st (P.CE.getD i (0, 0)).1 := by
  obtain ⟨g1, g2, g3, -⟩ := hgood
  refine ⟨by omega, fun k hk => hC.active_le (fun k h1 h2 => by omega) hk, ?_, hC.cond.ce _ (getD_mem hi _)⟩
  unfold active
  rw [if_pos (by omega), g1]

/-- The part of the error that does not depend on the move of the point. -/
theorem ScaledFp.comb_err (hC : ScaledFp o u g maxIter P J0 ν σ β b) (h : o.Rounded m u g) {γ : ℝ} (hγ : 0 ≤ γ)
    (htri : o.TriRounded γ) {c : ℕ} (hc : n * c ≤ rots n maxIter P) {st : FState ℝ n} (hB : Resid u g (rots n maxIter P) P ν σ β b X c st)
    {np : Fin n → ℝ} (hent : Enters P β st np) (hG : Gr u (1.07 * ν) (n * c) J0 st.J) (hdiag : ∀ k < st.iq, st.R k k ≠ 0) {t : ℝ} {d r : ℕ → ℝ}
    (hd : o.gemvT st.J np = d) (hr : o.triSolve st.R d st.iq = r)
    {v v' : ℕ → ℝ} (hU : 0 ≤ U) (hmv : Moves u U v v' r st.iq t)
    {w : Fin n → ℝ} {W : ℝ} (hW : 0 ≤ W) (hw : ∑ k, w k ^ 2 ≤ W ^ 2) :
    |t| ≤ 2.04 * U ∧
    |∑ i, t * (∑ j ∈ Finset.Ico st.iq n, d j * st.J j i) * w i -
        gram J0 (fun i => comb P st.A v' (st.iq + 1) i - comb P st.A v (st.iq + 1) i) w| ≤
      (2.04 * U * ((1.07 * ν) * (g * (β * (1.07 * ν)) + (dl u g (β * (1.07 * ν)) (rots n maxIter P) +
          γ * (β * (1.07 * ν) + dl u g (β * (1.07 * ν)) (rots n maxIter P)))) + 180 * u * rots n maxIter P * (β * (1.07 * ν) ^ 2)) +
        3.3 * u * U * (β * (1.07 * ν) ^ 2)) * W := by
  have hp := hC.par
  subst hd
  subst hr
  obtain ⟨m1, m2⟩ := hmv
  have hS : 0 ≤ ∑ k ∈ Finset.range st.iq, |t * o.triSolve st.R (o.gemvT st.J np) st.iq k| := Finset.sum_nonneg fun _ _ => abs_nonneg _
  refine ⟨by linarith, ?_⟩
  have hJ0 : sqJ J0 ≤ (1.07 * ν) ^ 2 := by
    have := hp.sq 0 (Nat.zero_le _)
    rw [pow_zero, one_mul] at this
    exact le_trans hC.cond.sum this
  have k1 := h.dir hp hc hB.J hG hent.le_n (act := fun k => (active P st.A k).1) hB.F hent.rows hent.norm hγ htri hdiag m2 hW hw
  have k2 := mult_err hp.β0 hp.Y0 hJ0 (act := fun k => (active P st.A k).1) hent.all
    (fun k => v' k - (v k - t * o.triSolve st.R (o.gemvT st.J np) st.iq k)) _ m1 hW hw
  have e := funext (comb_change (act := fun k => (active P st.A k).1) hent.last v v' (o.triSolve st.R (o.gemvT st.J np) st.iq) t)
  unfold comb
  rw [e, gram_add, ← sub_sub]
  refine le_trans (abs_sub _ _) ?_
  rw [add_mul]
  refine add_le_add (le_trans k1 ?_) k2
  have hdm := dl_mono hp.u0 hp.g0 hp.Q0 hc
  have hrr : ((n * c : ℕ) : ℝ) ≤ (rots n maxIter P : ℝ) := Nat.cast_le.mpr hc
  have := hp.u0
  have := hp.Y0
  have := hp.β0
  have := hp.Q0
  gcongr

theorem ScaledFp.full_stat (hC : ScaledFp o u g maxIter P J0 ν σ β b) (h : o.Rounded m u g) {γ : ℝ} (hγ : 0 ≤ γ)
    (htri : o.TriRounded γ) {c : ℕ} (hc : n * c ≤ rots n maxIter P) (hX : 0 ≤ X) {st : FState ℝ n} (hB : Resid u g (rots n maxIter P) P ν σ β b X c st)
    {np : Fin n → ℝ} (hent : Enters P β st np) (hG : Gr u (1.07 * ν) (n * c) J0 st.J) (hdiag : ∀ k < st.iq, st.R k k ≠ 0) {t : ℝ} {d r : ℕ → ℝ} {z : Fin n → ℝ}
    (hd : o.gemvT st.J np = d) (hr : o.triSolve st.R d st.iq = r) (hz : o.updateZ st.J d st.iq = z) (hiq : st.iq < n)
    (hx : ∑ k, st.x k ^ 2 ≤ X ^ 2) (hx' : ∑ i, o.mulAdd t (z i) (st.x i) ^ 2 ≤ X ^ 2)
    {v v' : ℕ → ℝ} (hU : 0 ≤ U) (hmv : Moves u U v v' r st.iq t)
    {w : Fin n → ℝ} {W : ℝ} (hW : 0 ≤ W) (hw : ∑ k, w k ^ 2 ≤ W ^ 2) :
    |∑ i, (o.mulAdd t (z i) (st.x i) - st.x i) * w i -
        gram J0 (fun i => comb P st.A v' (st.iq + 1) i - comb P st.A v (st.iq + 1) i) w| ≤
      (3.2 * u * X + g * (5 * X / σ * (1.07 * ν)) + (2.04 * U * ((1.07 * ν) * (g * (β * (1.07 * ν)) + (dl u g (β * (1.07 * ν)) (rots n maxIter P) +
          γ * (β * (1.07 * ν) + dl u g (β * (1.07 * ν)) (rots n maxIter P)))) + 180 * u * rots n maxIter P * (β * (1.07 * ν) ^ 2)) +
        3.3 * u * U * (β * (1.07 * ν) ^ 2))) * W := by
  have hp := hC.par
  obtain ⟨-, k1⟩ := hC.comb_err h hγ htri hc hB hent hG hdiag hd hr hU hmv hW hw
  generalize (2.04 * U * ((1.07 * ν) * (g * (β * (1.07 * ν)) + (dl u g (β * (1.07 * ν)) (rots n maxIter P) +
          γ * (β * (1.07 * ν) + dl u g (β * (1.07 * ν)) (rots n maxIter P)))) + 180 * u * rots n maxIter P * (β * (1.07 * ν) ^ 2)) +
        3.3 * u * U * (β * (1.07 * ν) ^ 2)) = T at *
  have hz' : z = o.gemv st.J d st.iq := by
    rw [← hz]
    unfold updateZ
    rw [if_pos hiq]
  subst hz'
  obtain ⟨m1, m2⟩ := h.move hp.u0 hp.u1 hX hx hx'
  have hlen := h.move_len hp hC.σ0 hc hB.J (hC.lo_ge hc) hX m2
  have hσ := hC.σ0
  have hD := (Real.sqrt_le_left (by positivity)).mp hlen
  have m3 := h.gemv_err hp.g0 (le_trans hB.J.sq (hp.sq _ hc)) hD
  have hY := hp.Y0
  have hg0 := hp.g0
  have hu0 := hp.u0
  have n1 := abs_sum_mul_le Finset.univ _ w (by positivity) hW m1 hw
  have n2 := abs_sum_mul_le Finset.univ _ w (by positivity) hW m3 hw
  have e : ∑ i, (o.mulAdd t (o.gemv st.J d st.iq i) (st.x i) - st.x i) * w i =
      ∑ i, (o.mulAdd t (o.gemv st.J d st.iq i) (st.x i) - (st.x i + t * o.gemv st.J d st.iq i)) * w i +
      ∑ i, t * (o.gemv st.J d st.iq i - ∑ j ∈ Finset.Ico st.iq n, d j * st.J j i) * w i +
      ∑ i, t * (∑ j ∈ Finset.Ico st.iq n, d j * st.J j i) * w i := by
    rw [← Finset.sum_add_distrib, ← Finset.sum_add_distrib]
    exact Finset.sum_congr rfl fun i _ => by ring
  rw [e, add_sub_assoc]
  refine le_trans (abs_add_le _ _) ?_
  rw [add_mul, add_mul]
  exact add_le_add (le_trans (abs_add_le _ _) (add_le_add n1 n2)) k1

theorem ScaledFp.dual_stat (hC : ScaledFp o u g maxIter P J0 ν σ β b) (h : o.Rounded m u g) {γ : ℝ} (hγ : 0 ≤ γ)
    (htri : o.TriRounded γ) {c : ℕ} (hc : n * c ≤ rots n maxIter P) {st : FState ℝ n} (hB : Resid u g (rots n maxIter P) P ν σ β b X c st)
    {np : Fin n → ℝ} (hent : Enters P β st np) (hG : Gr u (1.07 * ν) (n * c) J0 st.J) (hdiag : ∀ k < st.iq, st.R k k ≠ 0) {t : ℝ} {d r : ℕ → ℝ}
    (hd : o.gemvT st.J np = d) (hr : o.triSolve st.R d st.iq = r) (hz : ¬ o.far (o.updateZ st.J d st.iq))
    {v v' : ℕ → ℝ} (hU : 0 ≤ U) (hmv : Moves u U v v' r st.iq t)
    {w : Fin n → ℝ} {W : ℝ} (hW : 0 ≤ W) (hw : ∑ k, w k ^ 2 ≤ W ^ 2) :
    |gram J0 (fun i => comb P st.A v' (st.iq + 1) i - comb P st.A v (st.iq + 1) i) w| ≤
      (5.4 * U * (1.07 * ν) * Real.sqrt o.eps / σ + (2.04 * U * ((1.07 * ν) * (g * (β * (1.07 * ν)) + (dl u g (β * (1.07 * ν)) (rots n maxIter P) +
          γ * (β * (1.07 * ν) + dl u g (β * (1.07 * ν)) (rots n maxIter P)))) + 180 * u * rots n maxIter P * (β * (1.07 * ν) ^ 2)) +
        3.3 * u * U * (β * (1.07 * ν) ^ 2))) * W := by
  have hp := hC.par
  obtain ⟨ht, k1⟩ := hC.comb_err h hγ htri hc hB hent hG hdiag hd hr hU hmv hW hw
  generalize (2.04 * U * ((1.07 * ν) * (g * (β * (1.07 * ν)) + (dl u g (β * (1.07 * ν)) (rots n maxIter P) +
          γ * (β * (1.07 * ν) + dl u g (β * (1.07 * ν)) (rots n maxIter P)))) + 180 * u * rots n maxIter P * (β * (1.07 * ν) ^ 2)) +
        3.3 * u * U * (β * (1.07 * ν) ^ 2)) = T at *
  have hY := hp.Y0
  have hσ := hC.σ0
  have m1 := h.near_d hp hσ hc hB.J (hC.lo_ge hc) hz
  have hYJ : sqJ st.J ≤ (1.07 * ν) ^ 2 := le_trans hB.J.sq (hp.sq _ hc)
  have m2 : ∑ j ∈ Finset.Ico st.iq n, (∑ k, w k * st.J j k) ^ 2 ≤ (W * (1.07 * ν)) ^ 2 := by
    refine le_trans (Finset.sum_le_sum_of_subset_of_nonneg (fun j hj => ?_) fun _ _ _ => sq_nonneg _) (sq_dot_le hw hYJ)
    exact Finset.mem_range.mpr (Finset.mem_Ico.mp hj).2
  have m3 := abs_sum_mul_le (Finset.Ico st.iq n) _ _ (by positivity) (mul_nonneg hW hY) m1 m2
  have e : ∑ i, t * (∑ j ∈ Finset.Ico st.iq n, d j * st.J j i) * w i = t * ∑ j ∈ Finset.Ico st.iq n, d j * ∑ k, w k * st.J j k := by
    simp only [Finset.mul_sum, Finset.sum_mul]
    rw [Finset.sum_comm]
    exact Finset.sum_congr rfl fun i _ => Finset.sum_congr rfl fun k _ => by ring
  have m4 : |∑ i, t * (∑ j ∈ Finset.Ico st.iq n, d j * st.J j i) * w i| ≤ 5.4 * U * (1.07 * ν) * Real.sqrt o.eps / σ * W := by
    rw [e, abs_mul]
    refine le_trans (mul_le_mul ht m3 (abs_nonneg _) (by positivity)) ?_
    have e2 : 2.04 * U * (2.6 * Real.sqrt o.eps / σ * (W * (1.07 * ν))) = 5.304 * (U * (1.07 * ν) * Real.sqrt o.eps / σ * W) := by ring
    have e3 : 5.4 * U * (1.07 * ν) * Real.sqrt o.eps / σ * W = 5.4 * (U * (1.07 * ν) * Real.sqrt o.eps / σ * W) := by ring
    rw [e2, e3]
    exact mul_le_mul_of_nonneg_right (by norm_num) (by positivity)
  rw [add_mul]
  have := abs_sub (∑ i, t * (∑ j ∈ Finset.Ico st.iq n, d j * st.J j i) * w i) (∑ i, t * (∑ j ∈ Finset.Ico st.iq n, d j * st.J j i) * w i -
    gram J0 (fun i => comb P st.A v' (st.iq + 1) i - comb P st.A v (st.iq + 1) i) w)
  rw [sub_sub_cancel] at this
  exact le_trans this (add_le_add m4 k1)

end

end Arith

end Verif
