import Verif.Props.C81Ex
import Verif.Props.C02

/-!
# C82: coefficients of the curve with rounded arithmetic
-/

set_option linter.unusedSimpArgs false

namespace Verif
open FExp


/-- What the two expressions of a query give together. -/
theorem pair_error {u : ℝ} (h0 : 0 ≤ u) {N : ℕ} (hN : 0 < N) (hu : N * u < 1) {ρ σ : Var → ℝ} {e1 e2 : FExp} {r1 r2 x M B : ℝ}
    (c1 : e1.Computes u ρ r1) (c2 : e2.Computes u ρ r2) (s1 : e1.Safe ρ) (s2 : e2.Safe ρ) (o1 : e1.ops ≤ N) (o2 : e2.ops ≤ N)
    (hσ : ∀ v, |ρ v| ≤ |σ v|) (d1 : ∀ b ∈ e1.dens, b.exact ρ = b.exact σ) (d2 : ∀ b ∈ e2.dens, b.exact ρ = b.exact σ)
    (hx : |x| ≤ M) (hB : e1.mag σ * M + e2.mag σ ≤ B) :
    |r1 * x + r2 - (e1.exact ρ * x + e2.exact ρ)| ≤ gam N u * B := by
  have hg := gam_nonneg h0 hu
  have b1 := (c1.error h0 hN hu s1 o1).trans (mul_le_mul_of_nonneg_left (mag_mono hσ e1 d1) hg)
  have b2 := (c2.error h0 hN hu s2 o2).trans (mul_le_mul_of_nonneg_left (mag_mono hσ e2 d2) hg)
  have h3 := abs_add_le ((r1 - e1.exact ρ) * x) (r2 - e2.exact ρ)
  rw [abs_mul, show (r1 - e1.exact ρ) * x + (r2 - e2.exact ρ) = r1 * x + r2 - (e1.exact ρ * x + e2.exact ρ) by ring] at h3
  have h4 := mul_le_mul b1 hx (abs_nonneg _) ((abs_nonneg _).trans b1)
  have h5 := mul_le_mul_of_nonneg_left hB hg
  calc _ ≤ _ := h3
    _ ≤ gam N u * e1.mag σ * M + gam N u * e2.mag σ := add_le_add h4 b2
    _ = gam N u * (e1.mag σ * M + e2.mag σ) := by ring
    _ ≤ _ := h5

theorem env_bound (d : BC) {pts : List V3} {g : V3} {T t M : ℝ} (hM : ∀ i k, |nth pts i k| ≤ M) (h0 : 0 ≤ t) (h1 : t ≤ 1) :
    ∀ v, |env d (nth pts) g T t v| ≤ |env d (fun _ _ => M) g T 1 v| := by
  have hM0 : 0 ≤ M := (abs_nonneg _).trans (hM 0 0)
  intro v
  cases v with
  | pi i k => simpa [env, abs_of_nonneg hM0] using hM i k
  | t => simpa [env, abs_of_nonneg h0] using h1
  | _ => exact le_rfl

set_option maxHeartbeats 4000000 in
/-- C82. For each of the seven CoM constraint sets the pair `(a,s)` returned by `evaluateCurveAtTime` with rounded arithmetic
gives the point of the curve up to the relative error of 30 roundings of `3 ^ n M`, where `n` is the degree of the curve and
`M` bounds the control points. -/
theorem C82_position {u : ℝ} (h0 : 0 ≤ u) (hu : (30 : ℕ) * u < 1) (flag : Flag) (hf : flag ∈ comFlags) (pts : List V3)
    (hl : pts.length = degreeOf flag + 1) (t : ℝ) (ht0 : 0 ≤ t) (ht1 : t ≤ 1) (M : ℝ) (hM : ∀ p ∈ pts, ∀ k, |p k| ≤ M)
    (co : Coefs) (h : EvaluateCurveFp u flag pts t co) (x : V3) (hx : ∀ k, |x k| ≤ M) (k : Fin 3) :
    |co.first * x k + co.second k - bez (degreeOf flag) (fill flag (nth pts) x) t k| ≤ gam 30 u * (3 ^ degreeOf flag * M) := by
  have hM0 : 0 ≤ M := (abs_nonneg _).trans (hx 0)
  have hM' := nth_bound hM0 hM
  obtain ⟨co', hc', hb⟩ := C02_position_coefs_partial flag hf pts hl t
  rw [← hb x]
  obtain ⟨n, es, hes, hn, H⟩ := h
  obtain ⟨H1, H2⟩ := H k ⟨0, 0, 0, 0, 0, 0, 0, 0⟩ 0 1
  have hσ := env_bound (g := 0) (T := 1) ⟨0, 0, 0, 0, 0, 0, 0, 0⟩ hM' ht0 ht1
  simp only [comFlags, List.mem_cons, List.not_mem_nil, or_false] at hf
  rcases hf with rfl | rfl | rfl | rfl | rfl | rfl | rfl
  · simp [curveFp] at hes
    obtain ⟨rfl, rfl⟩ := hes
    simp [evaluateCurveAtTime, withPts, show pts.length = 4 from hl] at hc'
    subst hc'
    refine (le_of_eq ?_).trans (pair_error h0 (by norm_num) hu H1 H2 (by simp [Fp.c0_dc0_c1.evaluateCurveAtTime, Fp.t])
      (by simp [Fp.c0_dc0_c1.evaluateCurveAtTime, Fp.t, Fp.pi]) (by simp [Fp.c0_dc0_c1.evaluateCurveAtTime, Fp.t, Fp.T]) (by simp [Fp.c0_dc0_c1.evaluateCurveAtTime, Fp.t, Fp.pi, Fp.T]) hσ
      (by simp [Fp.c0_dc0_c1.evaluateCurveAtTime, Fp.t]) (by simp [Fp.c0_dc0_c1.evaluateCurveAtTime, Fp.t, Fp.pi]) (hx k) (le_of_eq ?_))
    · simp [Fp.c0_dc0_c1.evaluateCurveAtTime, c0_dc0_c1.evaluateCurveAtTime, Fp.t, Fp.pi, env]
    · simp [Fp.c0_dc0_c1.evaluateCurveAtTime, Fp.t, Fp.pi, env, abs_of_nonneg hM0, degreeOf]
      ring
  · simp [curveFp] at hes
    obtain ⟨rfl, rfl⟩ := hes
    simp [evaluateCurveAtTime, withPts, show pts.length = 4 from hl] at hc'
    subst hc'
    refine (le_of_eq ?_).trans (pair_error h0 (by norm_num) hu H1 H2 (by simp [Fp.c0_dc0_dc1.evaluateCurveAtTime, Fp.t])
      (by simp [Fp.c0_dc0_dc1.evaluateCurveAtTime, Fp.t, Fp.pi]) (by simp [Fp.c0_dc0_dc1.evaluateCurveAtTime, Fp.t, Fp.T]) (by simp [Fp.c0_dc0_dc1.evaluateCurveAtTime, Fp.t, Fp.pi, Fp.T]) hσ
      (by simp [Fp.c0_dc0_dc1.evaluateCurveAtTime, Fp.t]) (by simp [Fp.c0_dc0_dc1.evaluateCurveAtTime, Fp.t, Fp.pi]) (hx k) ?_)
    · simp [Fp.c0_dc0_dc1.evaluateCurveAtTime, c0_dc0_dc1.evaluateCurveAtTime, Fp.t, Fp.pi, env]
    · simp [Fp.c0_dc0_dc1.evaluateCurveAtTime, Fp.t, Fp.pi, env, abs_of_nonneg hM0, degreeOf]
      ring_nf
      linarith
  · simp [curveFp] at hes
    obtain ⟨rfl, rfl⟩ := hes
    simp [evaluateCurveAtTime, withPts, show pts.length = 5 from hl] at hc'
    subst hc'
    refine (le_of_eq ?_).trans (pair_error h0 (by norm_num) hu H1 H2 (by simp [Fp.c0_dc0_dc1_c1.evaluateCurveAtTime, Fp.t])
      (by simp [Fp.c0_dc0_dc1_c1.evaluateCurveAtTime, Fp.t, Fp.pi]) (by simp [Fp.c0_dc0_dc1_c1.evaluateCurveAtTime, Fp.t, Fp.T]) (by simp [Fp.c0_dc0_dc1_c1.evaluateCurveAtTime, Fp.t, Fp.pi, Fp.T]) hσ
      (by simp [Fp.c0_dc0_dc1_c1.evaluateCurveAtTime, Fp.t]) (by simp [Fp.c0_dc0_dc1_c1.evaluateCurveAtTime, Fp.t, Fp.pi]) (hx k) (le_of_eq ?_))
    · simp [Fp.c0_dc0_dc1_c1.evaluateCurveAtTime, c0_dc0_dc1_c1.evaluateCurveAtTime, Fp.t, Fp.pi, env]
    · simp [Fp.c0_dc0_dc1_c1.evaluateCurveAtTime, Fp.t, Fp.pi, env, abs_of_nonneg hM0, degreeOf]
      ring
  · simp [curveFp] at hes
    obtain ⟨rfl, rfl⟩ := hes
    simp [evaluateCurveAtTime, withPts, show pts.length = 4 from hl] at hc'
    subst hc'
    refine (le_of_eq ?_).trans (pair_error h0 (by norm_num) hu H1 H2 (by simp [Fp.c0_dc0_ddc0.evaluateCurveAtTime, Fp.t])
      (by simp [Fp.c0_dc0_ddc0.evaluateCurveAtTime, Fp.t, Fp.pi]) (by simp [Fp.c0_dc0_ddc0.evaluateCurveAtTime, Fp.t, Fp.T]) (by simp [Fp.c0_dc0_ddc0.evaluateCurveAtTime, Fp.t, Fp.pi, Fp.T]) hσ
      (by simp [Fp.c0_dc0_ddc0.evaluateCurveAtTime, Fp.t]) (by simp [Fp.c0_dc0_ddc0.evaluateCurveAtTime, Fp.t, Fp.pi]) (hx k) (le_of_eq ?_))
    · simp [Fp.c0_dc0_ddc0.evaluateCurveAtTime, c0_dc0_ddc0.evaluateCurveAtTime, Fp.t, Fp.pi, env]
    · simp [Fp.c0_dc0_ddc0.evaluateCurveAtTime, Fp.t, Fp.pi, env, abs_of_nonneg hM0, degreeOf]
      ring
  · simp [curveFp] at hes
    obtain ⟨rfl, rfl⟩ := hes
    simp [evaluateCurveAtTime, withPts, show pts.length = 5 from hl] at hc'
    subst hc'
    refine (le_of_eq ?_).trans (pair_error h0 (by norm_num) hu H1 H2 (by simp [Fp.c0_dc0_ddc0_c1.evaluateCurveAtTime, Fp.t])
      (by simp [Fp.c0_dc0_ddc0_c1.evaluateCurveAtTime, Fp.t, Fp.pi]) (by simp [Fp.c0_dc0_ddc0_c1.evaluateCurveAtTime, Fp.t, Fp.T]) (by simp [Fp.c0_dc0_ddc0_c1.evaluateCurveAtTime, Fp.t, Fp.pi, Fp.T]) hσ
      (by simp [Fp.c0_dc0_ddc0_c1.evaluateCurveAtTime, Fp.t]) (by simp [Fp.c0_dc0_ddc0_c1.evaluateCurveAtTime, Fp.t, Fp.pi]) (hx k) (le_of_eq ?_))
    · simp [Fp.c0_dc0_ddc0_c1.evaluateCurveAtTime, c0_dc0_ddc0_c1.evaluateCurveAtTime, Fp.t, Fp.pi, env]
    · simp [Fp.c0_dc0_ddc0_c1.evaluateCurveAtTime, Fp.t, Fp.pi, env, abs_of_nonneg hM0, degreeOf]
      ring
  · simp [curveFp] at hes
    obtain ⟨rfl, rfl⟩ := hes
    simp [evaluateCurveAtTime, withPts, show pts.length = 6 from hl] at hc'
    subst hc'
    refine (le_of_eq ?_).trans (pair_error h0 (by norm_num) hu H1 H2 (by simp [Fp.c0_dc0_ddc0_dc1_c1.evaluateCurveAtTime, Fp.t])
      (by simp [Fp.c0_dc0_ddc0_dc1_c1.evaluateCurveAtTime, Fp.t, Fp.pi]) (by simp [Fp.c0_dc0_ddc0_dc1_c1.evaluateCurveAtTime, Fp.t, Fp.T]) (by simp [Fp.c0_dc0_ddc0_dc1_c1.evaluateCurveAtTime, Fp.t, Fp.pi, Fp.T]) hσ
      (by simp [Fp.c0_dc0_ddc0_dc1_c1.evaluateCurveAtTime, Fp.t]) (by simp [Fp.c0_dc0_ddc0_dc1_c1.evaluateCurveAtTime, Fp.t, Fp.pi]) (hx k) (le_of_eq ?_))
    · simp [Fp.c0_dc0_ddc0_dc1_c1.evaluateCurveAtTime, c0_dc0_ddc0_dc1_c1.evaluateCurveAtTime, Fp.t, Fp.pi, env]
    · simp [Fp.c0_dc0_ddc0_dc1_c1.evaluateCurveAtTime, Fp.t, Fp.pi, env, abs_of_nonneg hM0, degreeOf]
      ring
  · simp [curveFp] at hes
    obtain ⟨rfl, rfl⟩ := hes
    simp [evaluateCurveAtTime, withPts, show pts.length = 7 from hl] at hc'
    subst hc'
    refine (le_of_eq ?_).trans (pair_error h0 (by norm_num) hu H1 H2 (by simp [Fp.c0_dc0_ddc0_ddc1_dc1_c1.evaluateCurveAtTime, Fp.t])
      (by simp [Fp.c0_dc0_ddc0_ddc1_dc1_c1.evaluateCurveAtTime, Fp.t, Fp.pi]) (by simp [Fp.c0_dc0_ddc0_ddc1_dc1_c1.evaluateCurveAtTime, Fp.t, Fp.T]) (by simp [Fp.c0_dc0_ddc0_ddc1_dc1_c1.evaluateCurveAtTime, Fp.t, Fp.pi, Fp.T]) hσ
      (by simp [Fp.c0_dc0_ddc0_ddc1_dc1_c1.evaluateCurveAtTime, Fp.t]) (by simp [Fp.c0_dc0_ddc0_ddc1_dc1_c1.evaluateCurveAtTime, Fp.t, Fp.pi]) (hx k) (le_of_eq ?_))
    · simp [Fp.c0_dc0_ddc0_ddc1_dc1_c1.evaluateCurveAtTime, c0_dc0_ddc0_ddc1_dc1_c1.evaluateCurveAtTime, Fp.t, Fp.pi, env]
    · simp [Fp.c0_dc0_ddc0_ddc1_dc1_c1.evaluateCurveAtTime, Fp.t, Fp.pi, env, abs_of_nonneg hM0, degreeOf]
      ring

set_option maxHeartbeats 4000000 in
/-- C82, acceleration: the error is at most that of 30 roundings of `4 n (n - 1) 3 ^ (n - 2) M / T²`. -/
theorem C82_acceleration {u : ℝ} (h0 : 0 ≤ u) (hu : (30 : ℕ) * u < 1) (flag : Flag) (hf : flag ∈ comFlags) (pts : List V3)
    (hl : pts.length = degreeOf flag + 1) (T : ℝ) (hT : 0 < T) (M : ℝ) (hM : ∀ p ∈ pts, ∀ k, |p k| ≤ M) (x : V3) (hx : ∀ k, |x k| ≤ M) :
    ∃ v a, IsDeriv (curve (degreeOf flag) (fill flag (nth pts) x) T) v ∧ IsDeriv v a ∧
      ∀ t, 0 ≤ t → t ≤ 1 → ∀ co, EvaluateAccelerationFp u flag pts T t co → ∀ k,
        |co.first * x k + co.second k - a (t * T) k| ≤
          gam 30 u * (4 * degreeOf flag * (degreeOf flag - 1) * 3 ^ (degreeOf flag - 2) * M / T ^ 2) := by
  have hM0 : 0 ≤ M := (abs_nonneg _).trans (hx 0)
  have hM' := nth_bound hM0 hM
  obtain ⟨v, a, hv, ha, hb⟩ := C03_acceleration_coefs_partial flag hf pts hl T hT.ne' x
  refine ⟨v, a, hv, ha, fun t ht0 ht1 co h k => ?_⟩
  obtain ⟨co', hc', hb⟩ := hb t
  rw [← hb]
  obtain ⟨n, es, hes, hn, H⟩ := h
  obtain ⟨H1, H2⟩ := H k ⟨0, 0, 0, 0, 0, 0, 0, 0⟩ 0
  have hσ := env_bound (g := 0) (T := T) ⟨0, 0, 0, 0, 0, 0, 0, 0⟩ hM' ht0 ht1
  have hT' := hT.ne'
  simp only [comFlags, List.mem_cons, List.not_mem_nil, or_false] at hf
  rcases hf with rfl | rfl | rfl | rfl | rfl | rfl | rfl
  · simp [accelerationFp] at hes
    obtain ⟨rfl, rfl⟩ := hes
    simp [evaluateAccelerationCurveAtTime, withPts, show pts.length = 4 from hl] at hc'
    subst hc'
    refine (le_of_eq ?_).trans (pair_error h0 (by norm_num) hu H1 H2 (by simp [Fp.c0_dc0_c1.evaluateAccelerationCurveAtTime, Fp.t, Fp.T, env, hT'])
      (by simp [Fp.c0_dc0_c1.evaluateAccelerationCurveAtTime, Fp.t, Fp.pi, Fp.T, env, hT']) (by simp [Fp.c0_dc0_c1.evaluateAccelerationCurveAtTime, Fp.t, Fp.T]) (by simp [Fp.c0_dc0_c1.evaluateAccelerationCurveAtTime, Fp.t, Fp.pi, Fp.T]) hσ
      (by simp [Fp.c0_dc0_c1.evaluateAccelerationCurveAtTime, Fp.t, Fp.T, env]) (by simp [Fp.c0_dc0_c1.evaluateAccelerationCurveAtTime, Fp.t, Fp.pi, Fp.T, env]) (hx k) (le_of_eq ?_))
    · simp [Fp.c0_dc0_c1.evaluateAccelerationCurveAtTime, c0_dc0_c1.evaluateAccelerationCurveAtTime, Fp.t, Fp.pi, Fp.T, env]
    · simp [Fp.c0_dc0_c1.evaluateAccelerationCurveAtTime, Fp.t, Fp.pi, Fp.T, env, abs_of_nonneg hM0, abs_of_pos hT, degreeOf]
      field_simp
      ring
  · simp [accelerationFp] at hes
    obtain ⟨rfl, rfl⟩ := hes
    simp [evaluateAccelerationCurveAtTime, withPts, show pts.length = 4 from hl] at hc'
    subst hc'
    refine (le_of_eq ?_).trans (pair_error h0 (by norm_num) hu H1 H2 (by simp [Fp.c0_dc0_dc1.evaluateAccelerationCurveAtTime, Fp.t, Fp.T, env, hT'])
      (by simp [Fp.c0_dc0_dc1.evaluateAccelerationCurveAtTime, Fp.t, Fp.pi, Fp.T, env, hT']) (by simp [Fp.c0_dc0_dc1.evaluateAccelerationCurveAtTime, Fp.t, Fp.T]) (by simp [Fp.c0_dc0_dc1.evaluateAccelerationCurveAtTime, Fp.t, Fp.pi, Fp.T]) hσ
      (by simp [Fp.c0_dc0_dc1.evaluateAccelerationCurveAtTime, Fp.t, Fp.T, env]) (by simp [Fp.c0_dc0_dc1.evaluateAccelerationCurveAtTime, Fp.t, Fp.pi, Fp.T, env]) (hx k) ?_)
    · simp [Fp.c0_dc0_dc1.evaluateAccelerationCurveAtTime, c0_dc0_dc1.evaluateAccelerationCurveAtTime, Fp.t, Fp.pi, Fp.T, env]
    · refine (le_of_eq (b := 60 * M / T ^ 2) ?_).trans ?_
      · simp [Fp.c0_dc0_dc1.evaluateAccelerationCurveAtTime, Fp.t, Fp.pi, Fp.T, env, abs_of_nonneg hM0, abs_of_pos hT, degreeOf]
        field_simp
        ring
      · simp [degreeOf]
        exact div_le_div_of_nonneg_right (by linarith) (by positivity)
  · simp [accelerationFp] at hes
    obtain ⟨rfl, rfl⟩ := hes
    simp [evaluateAccelerationCurveAtTime, withPts, show pts.length = 5 from hl] at hc'
    subst hc'
    refine (le_of_eq ?_).trans (pair_error h0 (by norm_num) hu H1 H2 (by simp [Fp.c0_dc0_dc1_c1.evaluateAccelerationCurveAtTime, Fp.t, Fp.T, env, hT'])
      (by simp [Fp.c0_dc0_dc1_c1.evaluateAccelerationCurveAtTime, Fp.t, Fp.pi, Fp.T, env, hT']) (by simp [Fp.c0_dc0_dc1_c1.evaluateAccelerationCurveAtTime, Fp.t, Fp.T]) (by simp [Fp.c0_dc0_dc1_c1.evaluateAccelerationCurveAtTime, Fp.t, Fp.pi, Fp.T]) hσ
      (by simp [Fp.c0_dc0_dc1_c1.evaluateAccelerationCurveAtTime, Fp.t, Fp.T, env]) (by simp [Fp.c0_dc0_dc1_c1.evaluateAccelerationCurveAtTime, Fp.t, Fp.pi, Fp.T, env]) (hx k) (le_of_eq ?_))
    · simp [Fp.c0_dc0_dc1_c1.evaluateAccelerationCurveAtTime, c0_dc0_dc1_c1.evaluateAccelerationCurveAtTime, Fp.t, Fp.pi, Fp.T, env]
    · simp [Fp.c0_dc0_dc1_c1.evaluateAccelerationCurveAtTime, Fp.t, Fp.pi, Fp.T, env, abs_of_nonneg hM0, abs_of_pos hT, degreeOf]
      field_simp
      ring
  · simp [accelerationFp] at hes
    obtain ⟨rfl, rfl⟩ := hes
    simp [evaluateAccelerationCurveAtTime, withPts, show pts.length = 4 from hl] at hc'
    subst hc'
    refine (le_of_eq ?_).trans (pair_error h0 (by norm_num) hu H1 H2 (by simp [Fp.c0_dc0_ddc0.evaluateAccelerationCurveAtTime, Fp.t, Fp.T, env, hT'])
      (by simp [Fp.c0_dc0_ddc0.evaluateAccelerationCurveAtTime, Fp.t, Fp.pi, Fp.T, env, hT']) (by simp [Fp.c0_dc0_ddc0.evaluateAccelerationCurveAtTime, Fp.t, Fp.T]) (by simp [Fp.c0_dc0_ddc0.evaluateAccelerationCurveAtTime, Fp.t, Fp.pi, Fp.T]) hσ
      (by simp [Fp.c0_dc0_ddc0.evaluateAccelerationCurveAtTime, Fp.t, Fp.T, env]) (by simp [Fp.c0_dc0_ddc0.evaluateAccelerationCurveAtTime, Fp.t, Fp.pi, Fp.T, env]) (hx k) (le_of_eq ?_))
    · simp [Fp.c0_dc0_ddc0.evaluateAccelerationCurveAtTime, c0_dc0_ddc0.evaluateAccelerationCurveAtTime, Fp.t, Fp.pi, Fp.T, env]
    · simp [Fp.c0_dc0_ddc0.evaluateAccelerationCurveAtTime, Fp.t, Fp.pi, Fp.T, env, abs_of_nonneg hM0, abs_of_pos hT, degreeOf]
      field_simp
      ring
  · simp [accelerationFp] at hes
    obtain ⟨rfl, rfl⟩ := hes
    simp [evaluateAccelerationCurveAtTime, withPts, show pts.length = 5 from hl] at hc'
    subst hc'
    refine (le_of_eq ?_).trans (pair_error h0 (by norm_num) hu H1 H2 (by simp [Fp.c0_dc0_ddc0_c1.evaluateAccelerationCurveAtTime, Fp.t, Fp.T, env, hT'])
      (by simp [Fp.c0_dc0_ddc0_c1.evaluateAccelerationCurveAtTime, Fp.t, Fp.pi, Fp.T, env, hT']) (by simp [Fp.c0_dc0_ddc0_c1.evaluateAccelerationCurveAtTime, Fp.t, Fp.T]) (by simp [Fp.c0_dc0_ddc0_c1.evaluateAccelerationCurveAtTime, Fp.t, Fp.pi, Fp.T]) hσ
      (by simp [Fp.c0_dc0_ddc0_c1.evaluateAccelerationCurveAtTime, Fp.t, Fp.T, env]) (by simp [Fp.c0_dc0_ddc0_c1.evaluateAccelerationCurveAtTime, Fp.t, Fp.pi, Fp.T, env]) (hx k) (le_of_eq ?_))
    · simp [Fp.c0_dc0_ddc0_c1.evaluateAccelerationCurveAtTime, c0_dc0_ddc0_c1.evaluateAccelerationCurveAtTime, Fp.t, Fp.pi, Fp.T, env]
    · simp [Fp.c0_dc0_ddc0_c1.evaluateAccelerationCurveAtTime, Fp.t, Fp.pi, Fp.T, env, abs_of_nonneg hM0, abs_of_pos hT, degreeOf]
      field_simp
      ring
  · simp [accelerationFp] at hes
    obtain ⟨rfl, rfl⟩ := hes
    simp [evaluateAccelerationCurveAtTime, withPts, show pts.length = 6 from hl] at hc'
    subst hc'
    refine (le_of_eq ?_).trans (pair_error h0 (by norm_num) hu H1 H2 (by simp [Fp.c0_dc0_ddc0_dc1_c1.evaluateAccelerationCurveAtTime, Fp.t, Fp.T, env, hT'])
      (by simp [Fp.c0_dc0_ddc0_dc1_c1.evaluateAccelerationCurveAtTime, Fp.t, Fp.pi, Fp.T, env, hT']) (by simp [Fp.c0_dc0_ddc0_dc1_c1.evaluateAccelerationCurveAtTime, Fp.t, Fp.T]) (by simp [Fp.c0_dc0_ddc0_dc1_c1.evaluateAccelerationCurveAtTime, Fp.t, Fp.pi, Fp.T]) hσ
      (by simp [Fp.c0_dc0_ddc0_dc1_c1.evaluateAccelerationCurveAtTime, Fp.t, Fp.T, env]) (by simp [Fp.c0_dc0_ddc0_dc1_c1.evaluateAccelerationCurveAtTime, Fp.t, Fp.pi, Fp.T, env]) (hx k) (le_of_eq ?_))
    · simp [Fp.c0_dc0_ddc0_dc1_c1.evaluateAccelerationCurveAtTime, c0_dc0_ddc0_dc1_c1.evaluateAccelerationCurveAtTime, Fp.t, Fp.pi, Fp.T, env]
    · simp [Fp.c0_dc0_ddc0_dc1_c1.evaluateAccelerationCurveAtTime, Fp.t, Fp.pi, Fp.T, env, abs_of_nonneg hM0, abs_of_pos hT, degreeOf]
      field_simp
      ring
  · simp [accelerationFp] at hes
    obtain ⟨rfl, rfl⟩ := hes
    simp [evaluateAccelerationCurveAtTime, withPts, show pts.length = 7 from hl] at hc'
    subst hc'
    refine (le_of_eq ?_).trans (pair_error h0 (by norm_num) hu H1 H2 (by simp [Fp.c0_dc0_ddc0_ddc1_dc1_c1.evaluateAccelerationCurveAtTime, Fp.t, Fp.T, env, hT'])
      (by simp [Fp.c0_dc0_ddc0_ddc1_dc1_c1.evaluateAccelerationCurveAtTime, Fp.t, Fp.pi, Fp.T, env, hT']) (by simp [Fp.c0_dc0_ddc0_ddc1_dc1_c1.evaluateAccelerationCurveAtTime, Fp.t, Fp.T]) (by simp [Fp.c0_dc0_ddc0_ddc1_dc1_c1.evaluateAccelerationCurveAtTime, Fp.t, Fp.pi, Fp.T]) hσ
      (by simp [Fp.c0_dc0_ddc0_ddc1_dc1_c1.evaluateAccelerationCurveAtTime, Fp.t, Fp.T, env]) (by simp [Fp.c0_dc0_ddc0_ddc1_dc1_c1.evaluateAccelerationCurveAtTime, Fp.t, Fp.pi, Fp.T, env]) (hx k) (le_of_eq ?_))
    · simp [Fp.c0_dc0_ddc0_ddc1_dc1_c1.evaluateAccelerationCurveAtTime, c0_dc0_ddc0_ddc1_dc1_c1.evaluateAccelerationCurveAtTime, Fp.t, Fp.pi, Fp.T, env]
    · simp [Fp.c0_dc0_ddc0_ddc1_dc1_c1.evaluateAccelerationCurveAtTime, Fp.t, Fp.pi, Fp.T, env, abs_of_nonneg hM0, abs_of_pos hT, degreeOf]
      field_simp
      ring

/-- C82, final velocity: the pair `(a,s)` returned by `computeFinalVelocityPoint` gives the velocity at its end of the curve
built on the rounded waypoints, up to the relative error of 3 roundings of `2 n M / T`. -/
theorem C82_final_velocity {u : ℝ} (h0 : 0 ≤ u) (hu : (3 : ℕ) * u < 1) (flag : Flag) (hf : flag ∈ comFlags) (d : BC) (T : ℝ)
    (hT : 0 < T) (pts : List V3) (co : Coefs) (h : FinalVelocityFp u flag d T pts co) (M : ℝ) (hM : ∀ p ∈ pts, ∀ k, |p k| ≤ M)
    (x : V3) (hx : ∀ k, |x k| ≤ M) :
    ∃ v, IsDeriv (curve (degreeOf flag) (fill flag (nth pts) x) T) v ∧
      ∀ k, |co.first * x k + co.second k - v T k| ≤ gam 3 u * (2 * degreeOf flag * M / T) := by
  have hM0 : 0 ≤ M := (abs_nonneg _).trans (hx 0)
  have hM' := nth_bound hM0 hM
  have hT' := hT.ne'
  obtain ⟨⟨-, ps, hps, HP⟩, es, hes, H⟩ := h
  have hσ : ∀ D : BC, (∀ k, |D.c1 k| ≤ M) → ∀ v, |env D (nth pts) 0 T 0 v| ≤ |env { D with c1 := fun _ => M } (fun _ _ => M) 0 T 0 v| := by
    intro D hc v
    cases v with
    | pi i k => simpa [env, abs_of_nonneg hM0] using hM' i k
    | c1 k => simpa [env, abs_of_nonneg hM0] using hc k
    | _ => exact le_rfl
  simp only [comFlags, List.mem_cons, List.not_mem_nil, or_false] at hf
  rcases hf with rfl | rfl | rfl | rfl | rfl | rfl | rfl
  · simp [finalVelocityFp] at hes
    simp [pointsFp] at hps
    subst hes hps
    refine ⟨_, curve_isDeriv 2 _ T, fun k => ?_⟩
    rw [curve_end _ _ _ hT']
    obtain ⟨H1, H2⟩ := H k 0 0
    have hc1 : ∀ k, nth pts 3 k = d.c1 k := fun k => (HP k).2 3 _ rfl
    have hσ' := hσ d fun k => by rw [← hc1]; exact hM' 3 k
    refine (le_of_eq ?_).trans (pair_error h0 (by norm_num) hu H1 H2 (by simp [Fp.c0_dc0_c1.computeFinalVelocityPoint, Fp.T, env, hT'])
      (by simp [Fp.c0_dc0_c1.computeFinalVelocityPoint, Fp.pi, Fp.c1, Fp.T, env, hT']) (by simp [Fp.c0_dc0_c1.computeFinalVelocityPoint, Fp.T]) (by simp [Fp.c0_dc0_c1.computeFinalVelocityPoint, Fp.pi, Fp.c1, Fp.T]) hσ'
      (by simp [Fp.c0_dc0_c1.computeFinalVelocityPoint, Fp.T, env]) (by simp [Fp.c0_dc0_c1.computeFinalVelocityPoint, Fp.pi, Fp.c1, Fp.T, env]) (hx k) ?_)
    · congr 2
      simp [Fp.c0_dc0_c1.computeFinalVelocityPoint, Fp.pi, Fp.c1, Fp.T, env, hodo, fill, freeSlots, hc1]
      ring
    · refine le_of_eq ?_
      simp [Fp.c0_dc0_c1.computeFinalVelocityPoint, Fp.pi, Fp.c1, Fp.T, env, abs_of_nonneg hM0, abs_of_pos hT, degreeOf]
      ring
  · simp [finalVelocityFp] at hes
    simp [pointsFp] at hps
    subst hes hps
    refine ⟨_, curve_isDeriv 2 _ T, fun k => ?_⟩
    rw [curve_end _ _ _ hT']
    obtain ⟨H1, H2⟩ := H k 0 0
    have e1 : co.first = 0 := by simpa [Fp.c0_dc0_dc1.computeFinalVelocityPoint, Computes] using H1
    have e2 : co.second k = 0 := by simpa [Fp.c0_dc0_dc1.computeFinalVelocityPoint, Computes] using H2
    have e3 : fill 19#32 (nth pts) x 3 = x := by simp [fill, freeSlots]
    have e4 : fill 19#32 (nth pts) x 2 = x := by simp [fill, freeSlots]
    have hg := gam_nonneg h0 hu
    simp [hodo, e1, e2, e3, e4]
    positivity
  · simp [finalVelocityFp] at hes
    simp [pointsFp] at hps
    subst hes hps
    refine ⟨_, curve_isDeriv 3 _ T, fun k => ?_⟩
    rw [curve_end _ _ _ hT']
    obtain ⟨H1, H2⟩ := H k 0 0
    have hc1 : ∀ k, nth pts 4 k = d.c1 k := fun k => (HP k).2 4 _ rfl
    have hσ' := hσ d fun k => by rw [← hc1]; exact hM' 4 k
    refine (le_of_eq ?_).trans (pair_error h0 (by norm_num) hu H1 H2 (by simp [Fp.c0_dc0_dc1_c1.computeFinalVelocityPoint, Fp.T, env, hT'])
      (by simp [Fp.c0_dc0_dc1_c1.computeFinalVelocityPoint, Fp.pi, Fp.c1, Fp.T, env, hT']) (by simp [Fp.c0_dc0_dc1_c1.computeFinalVelocityPoint, Fp.T]) (by simp [Fp.c0_dc0_dc1_c1.computeFinalVelocityPoint, Fp.pi, Fp.c1, Fp.T]) hσ'
      (by simp [Fp.c0_dc0_dc1_c1.computeFinalVelocityPoint, Fp.T, env]) (by simp [Fp.c0_dc0_dc1_c1.computeFinalVelocityPoint, Fp.pi, Fp.c1, Fp.T, env]) (hx k) ?_)
    · congr 2
      simp [Fp.c0_dc0_dc1_c1.computeFinalVelocityPoint, Fp.pi, Fp.c1, Fp.T, env, hodo, fill, freeSlots, hc1]
      ring
    · refine le_of_eq ?_
      simp [Fp.c0_dc0_dc1_c1.computeFinalVelocityPoint, Fp.pi, Fp.c1, Fp.T, env, abs_of_nonneg hM0, abs_of_pos hT, degreeOf]
      ring
  · simp [finalVelocityFp] at hes
    simp [pointsFp] at hps
    subst hes hps
    refine ⟨_, curve_isDeriv 2 _ T, fun k => ?_⟩
    rw [curve_end _ _ _ hT']
    obtain ⟨H1, H2⟩ := H k 0 0
    obtain ⟨H1, H2⟩ : _ ∧ _ := ⟨H1, H2⟩
    have H1' : (Fp.c0_dc0_ddc0.computeFinalVelocityPoint k).1.Computes u (env { d with c1 := 0 } (nth pts) 0 T 0) co.first := H1
    have H2' : (Fp.c0_dc0_ddc0.computeFinalVelocityPoint k).2.Computes u (env { d with c1 := 0 } (nth pts) 0 T 0) (co.second k) := H2
    have hσ' := hσ { d with c1 := 0 } fun k => by simpa using hM0
    refine (le_of_eq ?_).trans (pair_error h0 (by norm_num) hu H1' H2' (by simp [Fp.c0_dc0_ddc0.computeFinalVelocityPoint, Fp.T, env, hT'])
      (by simp [Fp.c0_dc0_ddc0.computeFinalVelocityPoint, Fp.pi, Fp.c1, Fp.T, env, hT']) (by simp [Fp.c0_dc0_ddc0.computeFinalVelocityPoint, Fp.T]) (by simp [Fp.c0_dc0_ddc0.computeFinalVelocityPoint, Fp.pi, Fp.c1, Fp.T]) hσ'
      (by simp [Fp.c0_dc0_ddc0.computeFinalVelocityPoint, Fp.T, env]) (by simp [Fp.c0_dc0_ddc0.computeFinalVelocityPoint, Fp.pi, Fp.c1, Fp.T, env]) (hx k) ?_)
    · congr 2
      simp [Fp.c0_dc0_ddc0.computeFinalVelocityPoint, Fp.pi, Fp.c1, Fp.T, env, hodo, fill, freeSlots]
      ring
    · refine le_of_eq ?_
      simp [Fp.c0_dc0_ddc0.computeFinalVelocityPoint, Fp.pi, Fp.c1, Fp.T, env, abs_of_nonneg hM0, abs_of_pos hT, degreeOf]
      ring
  · simp [finalVelocityFp] at hes
    simp [pointsFp] at hps
    subst hes hps
    refine ⟨_, curve_isDeriv 3 _ T, fun k => ?_⟩
    rw [curve_end _ _ _ hT']
    obtain ⟨H1, H2⟩ := H k 0 0
    have hc1 : ∀ k, nth pts 4 k = d.c1 k := fun k => (HP k).2 4 _ rfl
    have hσ' := hσ d fun k => by rw [← hc1]; exact hM' 4 k
    refine (le_of_eq ?_).trans (pair_error h0 (by norm_num) hu H1 H2 (by simp [Fp.c0_dc0_ddc0_c1.computeFinalVelocityPoint, Fp.T, env, hT'])
      (by simp [Fp.c0_dc0_ddc0_c1.computeFinalVelocityPoint, Fp.pi, Fp.c1, Fp.T, env, hT']) (by simp [Fp.c0_dc0_ddc0_c1.computeFinalVelocityPoint, Fp.T]) (by simp [Fp.c0_dc0_ddc0_c1.computeFinalVelocityPoint, Fp.pi, Fp.c1, Fp.T]) hσ'
      (by simp [Fp.c0_dc0_ddc0_c1.computeFinalVelocityPoint, Fp.T, env]) (by simp [Fp.c0_dc0_ddc0_c1.computeFinalVelocityPoint, Fp.pi, Fp.c1, Fp.T, env]) (hx k) ?_)
    · congr 2
      simp [Fp.c0_dc0_ddc0_c1.computeFinalVelocityPoint, Fp.pi, Fp.c1, Fp.T, env, hodo, fill, freeSlots, hc1]
      ring
    · refine le_of_eq ?_
      simp [Fp.c0_dc0_ddc0_c1.computeFinalVelocityPoint, Fp.pi, Fp.c1, Fp.T, env, abs_of_nonneg hM0, abs_of_pos hT, degreeOf]
      ring
  · simp [finalVelocityFp] at hes
    simp [pointsFp] at hps
    subst hes hps
    refine ⟨_, curve_isDeriv 4 _ T, fun k => ?_⟩
    rw [curve_end _ _ _ hT']
    obtain ⟨H1, H2⟩ := H k 0 0
    have hc1 : ∀ k, nth pts 5 k = d.c1 k := fun k => (HP k).2 5 _ rfl
    have hσ' := hσ d fun k => by rw [← hc1]; exact hM' 5 k
    refine (le_of_eq ?_).trans (pair_error h0 (by norm_num) hu H1 H2 (by simp [Fp.c0_dc0_ddc0_dc1_c1.computeFinalVelocityPoint, Fp.T, env, hT'])
      (by simp [Fp.c0_dc0_ddc0_dc1_c1.computeFinalVelocityPoint, Fp.pi, Fp.c1, Fp.T, env, hT']) (by simp [Fp.c0_dc0_ddc0_dc1_c1.computeFinalVelocityPoint, Fp.T]) (by simp [Fp.c0_dc0_ddc0_dc1_c1.computeFinalVelocityPoint, Fp.pi, Fp.c1, Fp.T]) hσ'
      (by simp [Fp.c0_dc0_ddc0_dc1_c1.computeFinalVelocityPoint, Fp.T, env]) (by simp [Fp.c0_dc0_ddc0_dc1_c1.computeFinalVelocityPoint, Fp.pi, Fp.c1, Fp.T, env]) (hx k) ?_)
    · congr 2
      simp [Fp.c0_dc0_ddc0_dc1_c1.computeFinalVelocityPoint, Fp.pi, Fp.c1, Fp.T, env, hodo, fill, freeSlots, hc1]
      ring
    · refine le_of_eq ?_
      simp [Fp.c0_dc0_ddc0_dc1_c1.computeFinalVelocityPoint, Fp.pi, Fp.c1, Fp.T, env, abs_of_nonneg hM0, abs_of_pos hT, degreeOf]
      ring
  · simp [finalVelocityFp] at hes
    simp [pointsFp] at hps
    subst hes hps
    refine ⟨_, curve_isDeriv 5 _ T, fun k => ?_⟩
    rw [curve_end _ _ _ hT']
    obtain ⟨H1, H2⟩ := H k 0 0
    have hc1 : ∀ k, nth pts 6 k = d.c1 k := fun k => (HP k).2 6 _ rfl
    have hσ' := hσ d fun k => by rw [← hc1]; exact hM' 6 k
    refine (le_of_eq ?_).trans (pair_error h0 (by norm_num) hu H1 H2 (by simp [Fp.c0_dc0_ddc0_ddc1_dc1_c1.computeFinalVelocityPoint, Fp.T, env, hT'])
      (by simp [Fp.c0_dc0_ddc0_ddc1_dc1_c1.computeFinalVelocityPoint, Fp.pi, Fp.c1, Fp.T, env, hT']) (by simp [Fp.c0_dc0_ddc0_ddc1_dc1_c1.computeFinalVelocityPoint, Fp.T]) (by simp [Fp.c0_dc0_ddc0_ddc1_dc1_c1.computeFinalVelocityPoint, Fp.pi, Fp.c1, Fp.T]) hσ'
      (by simp [Fp.c0_dc0_ddc0_ddc1_dc1_c1.computeFinalVelocityPoint, Fp.T, env]) (by simp [Fp.c0_dc0_ddc0_ddc1_dc1_c1.computeFinalVelocityPoint, Fp.pi, Fp.c1, Fp.T, env]) (hx k) ?_)
    · congr 2
      simp [Fp.c0_dc0_ddc0_ddc1_dc1_c1.computeFinalVelocityPoint, Fp.pi, Fp.c1, Fp.T, env, hodo, fill, freeSlots, hc1]
      ring
    · refine le_of_eq ?_
      simp [Fp.c0_dc0_ddc0_ddc1_dc1_c1.computeFinalVelocityPoint, Fp.pi, Fp.c1, Fp.T, env, abs_of_nonneg hM0, abs_of_pos hT, degreeOf]
      ring

end Verif
