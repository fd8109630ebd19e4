import Verif.Lemmas.QuadRounded

/-! An arithmetic that rounds every operation and adds from left to right. -/

namespace Verif

variable {n : ℕ}

/-- Sum from left to right with a rounding after every addition. -/
def flSum (fl : ℝ → ℝ) (s : ℝ) (l : List ℝ) : ℝ := l.foldl (fun s p => fl (s + p)) s

/-- Every operation is rounded by `fl`; sums are computed from left to right. The triangular solver is arbitrary. -/
noncomputable def flArith (fl : ℝ → ℝ) (eps : ℝ) (tri : (ℕ → ℕ → ℝ) → (ℕ → ℝ) → ℕ → ℕ → ℝ) (n : ℕ) : Arith ℝ n where
  zero := 0
  one := 1
  two := 2
  half := 1 / 2
  hundred := 100
  eps := eps
  ofNat k := k
  neg a := -a
  abs a := |a|
  sqrt a := fl (Real.sqrt a)
  add a b := fl (a + b)
  sub a b := fl (a - b)
  mul a b := fl (a * b)
  div a b := fl (a / b)
  mulAdd a b c := fl (fl (a * b) + c)
  mulSub a b c := fl (fl (a * b) - c)
  subMul a b c := fl (a - fl (b * c))
  lin2 a b c d := fl (fl (a * b) + fl (c * d))
  dot a b := flSum fl 0 (List.ofFn fun i => fl (a i * b i))
  gemvT J v j := flSum fl 0 (List.ofFn fun i => fl (J j i * v i))
  gemv J d iq k := flSum fl 0 ((List.range' iq (n - iq)).map fun j => fl (d j * J j k))
  triSolve := tri
  slacks CI x i := flSum fl (CI.getD i (0, 0)).2 (List.ofFn fun k => fl ((CI.getD i (0, 0)).1 k * x k))
  sumNeg s k := flSum fl 0 ((List.range k).map fun i => min 0 (s i))
  trace d := flSum fl 0 (List.ofFn d)
  lt a b := a < b
  le a b := a ≤ b
  eq a b := a = b
  ltInf _ := True
  geInf _ := False

variable {fl : ℝ → ℝ} {u : ℝ}

theorem sum_map_range' (f : ℕ → ℝ) (a : ℕ) : ∀ k, ((List.range' a k).map f).sum = ∑ i ∈ Finset.range k, f (a + i)
  | 0 => rfl
  | k + 1 => by
    rw [List.range'_concat, List.map_append, List.sum_append, sum_map_range' f a k, Finset.sum_range_succ]
    simp

theorem flSum_error (hu : 0 ≤ u) (hfl : ∀ x, |fl x - x| ≤ u * |x|) : ∀ (l : List ℝ) (s : ℝ),
    |flSum fl s l - (s + l.sum)| ≤ ((1 + u) ^ l.length - 1) * (|s| + (l.map abs).sum)
  | [], s => by simp [flSum]
  | p :: l, s => by
    have ih := flSum_error hu hfl l (fl (s + p))
    have h1 := hfl (s + p)
    have h2 := abs_add_le s p
    have h3 := abs_sub_abs_le_abs_sub (fl (s + p)) (s + p)
    have hS : 0 ≤ (l.map abs).sum := List.sum_nonneg fun x hx => by
      obtain ⟨y, -, rfl⟩ := List.mem_map.mp hx
      exact abs_nonneg y
    have hK : 1 ≤ (1 + u) ^ l.length := one_le_pow₀ (by linarith)
    have h4 : u * |s + p| ≤ u * (|s| + |p|) := mul_le_mul_of_nonneg_left h2 hu
    have h5 : |fl (s + p)| ≤ (1 + u) * (|s| + |p|) := by linarith
    have h6 : ((1 + u) ^ l.length - 1) * |fl (s + p)| ≤ ((1 + u) ^ l.length - 1) * ((1 + u) * (|s| + |p|)) :=
      mul_le_mul_of_nonneg_left h5 (by linarith)
    have e : flSum fl s (p :: l) = flSum fl (fl (s + p)) l := rfl
    rw [e, List.sum_cons, List.map_cons, List.sum_cons, List.length_cons, pow_succ]
    have h7 : |flSum fl (fl (s + p)) l - (s + (p + l.sum))| ≤
        |flSum fl (fl (s + p)) l - (fl (s + p) + l.sum)| + |fl (s + p) - (s + p)| := by
      have := abs_add_le (flSum fl (fl (s + p)) l - (fl (s + p) + l.sum)) (fl (s + p) - (s + p))
      rwa [show flSum fl (fl (s + p)) l - (fl (s + p) + l.sum) + (fl (s + p) - (s + p)) =
        flSum fl (fl (s + p)) l - (s + (p + l.sum)) by ring] at this
    have h8 : 0 ≤ ((1 + u) ^ l.length * u) * (l.map abs).sum := by positivity
    nlinarith

/-- A sum of rounded products. -/
theorem flSum_prod_error (hu : 0 ≤ u) (hfl : ∀ x, |fl x - x| ≤ u * |x|) {N : ℕ} (l : List ℝ) (s : ℝ) (hN : l.length ≤ N) :
    |flSum fl s (l.map fl) - (s + l.sum)| ≤ ((1 + u) ^ (N + 1) - 1) * (|s| + (l.map abs).sum) := by
  have h1 := flSum_error hu hfl (l.map fl) s
  rw [List.length_map] at h1
  have h2 : |(l.map fl).sum - l.sum| ≤ u * (l.map abs).sum ∧ ((l.map fl).map abs).sum ≤ (1 + u) * (l.map abs).sum ∧
      0 ≤ (l.map abs).sum := by
    clear h1 hN
    induction l with
    | nil => simp
    | cons p l ih =>
      obtain ⟨i1, i2, i3⟩ := ih
      simp only [List.map_cons, List.sum_cons]
      have k1 := hfl p
      have k2 := abs_sub_abs_le_abs_sub (fl p) p
      have k3 := abs_nonneg p
      refine ⟨?_, by linarith, by linarith⟩
      have := abs_add_le (fl p - p) ((l.map fl).sum - l.sum)
      rw [show fl p - p + ((l.map fl).sum - l.sum) = fl p + (l.map fl).sum - (p + l.sum) by ring] at this
      linarith
  obtain ⟨i1, i2, i3⟩ := h2
  have hK1 : 1 ≤ (1 + u) ^ l.length := one_le_pow₀ (by linarith)
  have hK : (1 + u) ^ l.length ≤ (1 + u) ^ N := pow_le_pow_right₀ (by linarith) hN
  have h3 : |flSum fl s (l.map fl) - (s + l.sum)| ≤ |flSum fl s (l.map fl) - (s + (l.map fl).sum)| + |(l.map fl).sum - l.sum| := by
    have := abs_add_le (flSum fl s (l.map fl) - (s + (l.map fl).sum)) ((l.map fl).sum - l.sum)
    rwa [show flSum fl s (l.map fl) - (s + (l.map fl).sum) + ((l.map fl).sum - l.sum) = flSum fl s (l.map fl) - (s + l.sum) by ring] at this
  have hs := abs_nonneg s
  have h4 : ((1 + u) ^ l.length - 1) * (|s| + ((l.map fl).map abs).sum) ≤
      ((1 + u) ^ l.length - 1) * ((1 + u) * (|s| + (l.map abs).sum)) :=
    mul_le_mul_of_nonneg_left (by nlinarith) (by linarith)
  have h5 : (1 + u) ^ l.length * (1 + u) * (|s| + (l.map abs).sum) ≤ (1 + u) ^ N * (1 + u) * (|s| + (l.map abs).sum) :=
    mul_le_mul_of_nonneg_right (mul_le_mul_of_nonneg_right hK (by linarith)) (by linarith)
  rw [pow_succ]
  nlinarith

/-- The arithmetic is rounded. -/
theorem flArith_rounded (hu : 0 ≤ u) (hfl : ∀ x, |fl x - x| ≤ u * |x|) {eps : ℝ} (heps : 0 ≤ eps)
    (tri : (ℕ → ℕ → ℝ) → (ℕ → ℝ) → ℕ → ℕ → ℝ) {m N : ℕ} (hn : n ≤ N) (hm : m ≤ N) :
    (flArith fl eps tri n).Rounded m u ((1 + u) ^ (N + 1) - 1) := by
  have two : ∀ p c : ℝ, |fl (fl p + c) - (p + c)| ≤ u * |p + c| + u * (1 + u) * |p| := by
    intro p c
    have h1 := hfl p
    have h2 := hfl (fl p + c)
    have h3 : |fl p + c| ≤ |p + c| + u * |p| := by
      have := abs_add_le (p + c) (fl p - p)
      rw [show p + c + (fl p - p) = fl p + c by ring] at this
      linarith
    have h4 := abs_add_le (fl (fl p + c) - (fl p + c)) (fl p - p)
    rw [show fl (fl p + c) - (fl p + c) + (fl p - p) = fl (fl p + c) - (p + c) by ring] at h4
    have h5 := mul_le_mul_of_nonneg_left h3 hu
    nlinarith
  have dot : ∀ (s : ℝ) (f : Fin n → ℝ), |flSum fl s (List.ofFn fun i => fl (f i)) - (s + ∑ i, f i)| ≤
      ((1 + u) ^ (N + 1) - 1) * (|s| + ∑ i, |f i|) := by
    intro s f
    have := flSum_prod_error (N := N) hu hfl (List.ofFn f) s (by rw [List.length_ofFn]; exact hn)
    rw [List.map_ofFn, List.map_ofFn, List.sum_ofFn, List.sum_ofFn] at this
    exact this
  have dot0 : ∀ f : Fin n → ℝ, |flSum fl 0 (List.ofFn fun i => fl (f i)) - ∑ i, f i| ≤ ((1 + u) ^ (N + 1) - 1) * ∑ i, |f i| := by
    intro f
    have := dot 0 f
    rwa [zero_add, abs_zero, zero_add] at this
  have hpow : ∀ k ≤ N, (1 + u) ^ k - 1 ≤ (1 + u) ^ (N + 1) - 1 := fun k hk => by
    have := pow_le_pow_right₀ (by linarith : (1 : ℝ) ≤ 1 + u) (by omega : k ≤ N + 1)
    linarith
  exact {
    zero := rfl, one := rfl, two := rfl, hundred := rfl, eps := heps, ofNat := fun _ => rfl, neg := fun _ => rfl, abs := fun _ => rfl
    sqrt := fun a => by
      have := hfl (Real.sqrt a)
      rwa [abs_of_nonneg (Real.sqrt_nonneg a)] at this
    add := fun a b => hfl _
    sub := fun a b => hfl _
    mul := fun a b => hfl _
    div := fun a b => hfl _
    mulAdd := fun a b c => two (a * b) c
    mulSub := fun a b c => by
      have := two (a * b) (-c)
      rw [← sub_eq_add_neg, ← sub_eq_add_neg] at this
      exact this
    lin2 := fun a b c d => by
      show |fl (fl (a * b) + fl (c * d)) - (a * b + c * d)| ≤ _
      have h1 := hfl (a * b)
      have h2 := hfl (c * d)
      have h3 := hfl (fl (a * b) + fl (c * d))
      generalize a * b = p at *
      generalize c * d = q at *
      have h4 : |fl p + fl q| ≤ |p + q| + (u * |p| + u * |q|) := by
        have k1 := abs_add_le (p + q) ((fl p - p) + (fl q - q))
        have k2 := abs_add_le (fl p - p) (fl q - q)
        rw [show p + q + ((fl p - p) + (fl q - q)) = fl p + fl q by ring] at k1
        linarith
      have h5 := mul_le_mul_of_nonneg_left h4 hu
      have k1 := abs_add_le (fl (fl p + fl q) - (fl p + fl q)) ((fl p - p) + (fl q - q))
      have k2 := abs_add_le (fl p - p) (fl q - q)
      rw [show fl (fl p + fl q) - (fl p + fl q) + ((fl p - p) + (fl q - q)) = fl (fl p + fl q) - (p + q) by ring] at k1
      nlinarith
    dot := fun a b => dot0 fun i => a i * b i
    gemvT := fun J v j _ => dot0 fun i => J j i * v i
    gemv := fun J d iq k => by
      show |flSum fl 0 ((List.range' iq (n - iq)).map fun j => fl (d j * J j k)) - _| ≤ _
      have h1 := flSum_prod_error hu hfl ((List.range' iq (n - iq)).map fun j => d j * J j k) 0
        (N := N) (by rw [List.length_map, List.length_range']; omega)
      rw [List.map_map, List.map_map, zero_add, abs_zero, zero_add] at h1
      have e : ∀ f : ℕ → ℝ, ((List.range' iq (n - iq)).map f).sum = ∑ j ∈ Finset.Ico iq n, f j := by
        intro f
        rw [Finset.sum_Ico_eq_sum_range, sum_map_range']
      rw [e, e] at h1
      exact h1
    slacks := fun CI x i _ => by
      have := dot (CI.getD i (0, 0)).2 fun k => (CI.getD i (0, 0)).1 k * x k
      rwa [add_comm (CI.getD i (0, 0)).2, add_comm |(CI.getD i (0, 0)).2|] at this
    sumNeg := fun s k hk => by
      show |flSum fl 0 ((List.range k).map fun i => min 0 (s i)) - _| ≤ _
      have h1 := flSum_error hu hfl ((List.range k).map fun i => min 0 (s i)) 0
      have e : ∀ f : ℕ → ℝ, ((List.range k).map f).sum = ∑ j ∈ Finset.range k, f j := fun f => by
        rw [List.range_eq_range', sum_map_range']; simp
      rw [List.map_map, List.length_map, List.length_range, zero_add, abs_zero, zero_add, e, e] at h1
      exact le_trans h1 (mul_le_mul_of_nonneg_right (hpow k (by omega)) (Finset.sum_nonneg fun _ _ => abs_nonneg _))
    trace := fun d => by
      show |flSum fl 0 (List.ofFn d) - _| ≤ _
      have h1 := flSum_error hu hfl (List.ofFn d) 0
      rw [List.map_ofFn, List.sum_ofFn, List.sum_ofFn, List.length_ofFn, zero_add, abs_zero, zero_add] at h1
      exact le_trans h1 (mul_le_mul_of_nonneg_right (hpow n hn) (Finset.sum_nonneg fun _ _ => abs_nonneg _))
    lt := fun _ _ => Iff.rfl, le := fun _ _ => Iff.rfl, eq := fun _ _ => Iff.rfl, ltInf := fun _ => trivial, geInf := fun _ => id }

end Verif
