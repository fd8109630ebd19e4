import Verif.Lemmas.FpSamples
import Verif.Props.C81Ex

/-!
# The curve built on waypoints that were computed with rounding
-/

namespace Verif
open FExp Matrix

theorem roundsTo_self {u : ℝ} (hu : 0 ≤ u) (x : ℝ) : RoundsTo u x x := by
  unfold RoundsTo
  rw [sub_self, abs_zero]
  positivity

/-- No rounding at all is allowed. -/
theorem computes_self {u : ℝ} (hu : 0 ≤ u) (ρ : Var → ℝ) (e : FExp) : e.Computes u ρ (e.exact ρ) := by
  induction e with
  | lit n => rfl
  | dec q => exact roundsTo_self hu _
  | var v => rfl
  | neg a ih => exact ⟨_, ih, rfl⟩
  | add a b iha ihb => exact ⟨_, _, iha, ihb, roundsTo_self hu _⟩
  | sub a b iha ihb => exact ⟨_, _, iha, ihb, roundsTo_self hu _⟩
  | mul a b iha ihb => exact ⟨_, _, iha, ihb, roundsTo_self hu _⟩
  | div a b iha ihb => exact ⟨_, _, iha, ihb, roundsTo_self hu _⟩

theorem computes_of_zero {u : ℝ} (hu : 0 ≤ u) {ρ : Var → ℝ} {e : FExp} {r : ℝ} (h : e.Computes 0 ρ r) : e.Computes u ρ r := by
  rw [computes_zero] at h
  rw [h]
  exact computes_self hu ρ e

theorem pointsFp_self {u : ℝ} (hu : 0 ≤ u) {flag : Flag} {d : BC} {T : ℝ} {pts : List V3} (h : computeConstantWaypoints flag d T = .ok pts) :
    ConstantWaypointsFp u flag d T pts := by
  obtain ⟨h0, es, hes, hk⟩ := (constantWaypointsFp_zero flag d T pts).mpr h
  exact ⟨h0, es, hes, fun k => ⟨(hk k).1, fun i e he => computes_of_zero hu ((hk k).2 i e he)⟩⟩

theorem curveFp_self {u : ℝ} (hu : 0 ≤ u) {flag : Flag} (hf : flag ∈ comFlags) {pts : List V3} {t : ℝ} {co : Coefs}
    (h : evaluateCurveAtTime flag pts t = .ok co) : EvaluateCurveFp u flag pts t co := by
  obtain ⟨n, es, h1, h2, h3⟩ := (evaluateCurveFp_zero flag hf pts t co).mpr h
  exact ⟨n, es, h1, h2, fun k d g T => ⟨computes_of_zero hu (h3 k d g T).1, computes_of_zero hu (h3 k d g T).2⟩⟩

theorem accFp_self {u : ℝ} (hu : 0 ≤ u) {flag : Flag} (hf : flag ∈ comFlags) {pts : List V3} {T t : ℝ} {co : Coefs}
    (h : evaluateAccelerationCurveAtTime flag pts T t = .ok co) : EvaluateAccelerationFp u flag pts T t co := by
  obtain ⟨n, es, h1, h2, h3⟩ := (evaluateAccelerationFp_zero flag hf pts T t co).mpr h
  exact ⟨n, es, h1, h2, fun k d g => ⟨computes_of_zero hu (h3 k d g).1, computes_of_zero hu (h3 k d g).2⟩⟩

theorem timeFp_self {u : ℝ} (hu : 0 ≤ u) {t T : ℝ} : TimeFp u t T (min (t / T) 1) := ⟨_, roundsTo_self hu _, rfl⟩

/-- The factor of the free point does not depend on the waypoints. -/
theorem curve_first {flag : Flag} (hf : flag ∈ comFlags) {pts pts' : List V3} {t : ℝ} {co co' : Coefs}
    (h : evaluateCurveAtTime flag pts t = .ok co) (h' : evaluateCurveAtTime flag pts' t = .ok co') : co.first = co'.first := by
  simp only [comFlags, List.mem_cons, List.not_mem_nil, or_false] at hf
  rcases hf with rfl | rfl | rfl | rfl | rfl | rfl | rfl <;> simp [evaluateCurveAtTime, withPts] at h h' <;>
    · split_ifs at h h'
      cases h
      cases h'
      rfl

/-- The factor of the free point in the acceleration does not depend on the waypoints. -/
theorem acc_first {flag : Flag} (hf : flag ∈ comFlags) {pts pts' : List V3} {T t : ℝ} {co co' : Coefs}
    (h : evaluateAccelerationCurveAtTime flag pts T t = .ok co) (h' : evaluateAccelerationCurveAtTime flag pts' T t = .ok co') : co.first = co'.first := by
  simp only [comFlags, List.mem_cons, List.not_mem_nil, or_false] at hf
  rcases hf with rfl | rfl | rfl | rfl | rfl | rfl | rfl <;> simp [evaluateAccelerationCurveAtTime, withPts] at h h' <;>
    · split_ifs at h h'
      cases h
      cases h'
      rfl

/-- The curve on rounded waypoints is close to the curve on the exact ones at each sample, and so is its acceleration; the distance does not depend on
the free point. -/
theorem returned_close (pData : ProblemData) (Ts : List ℝ) (g : V3) (h : Accepted pData Ts g) (l : TTime) (hl : Discretisation Ts l) :
    Ev fun u ε => ∀ pts', ConstantWaypointsFp u pData.flag pData.bc Ts.sum pts' → ∀ x c v a, Motion pData Ts.sum x c v a →
      ∃ v' a', IsDeriv (curve (degreeOf pData.flag) (fill pData.flag (nth pts') x) Ts.sum) v' ∧ IsDeriv v' a' ∧ ∀ q ∈ l, ∀ k,
        |curve (degreeOf pData.flag) (fill pData.flag (nth pts') x) Ts.sum q.1 k - c q.1 k| ≤ ε ∧ |a' q.1 k - a q.1 k| ≤ ε := by
  have hT := h.total
  obtain ⟨pts, hpts⟩ := C01_answers pData.flag h.flag pData.bc Ts.sum h.capt
  have hpl := (C01_boundary_conditions pData.flag h.flag pData.bc Ts.sum hT.ne' pts hpts 0).1
  obtain ⟨-, hb⟩ := hl.tags h.ne h.pos
  have h1 : ∀ q ∈ l, q.1 / Ts.sum ≤ 1 := fun q hq => (div_le_one hT).mpr (hb q hq).2
  have hC2 := fun t => C02_position_coefs_partial pData.flag h.flag pts hpl t
  choose CO hCO hCOx using hC2
  have hC3 := fun x => C03_acceleration_coefs_partial pData.flag h.flag pts hpl Ts.sum hT.ne' x
  obtain ⟨_, _, _, _, hA0⟩ := hC3 0
  choose AO hAO _ using hA0
  have hc := Ev.forall_list l (fun q hq => curve_near h.flag hT.ne' hpts (h1 q hq) (hCO (q.1 / Ts.sum)))
    fun q _ u ε ε' h hle pts' s co k1 k2 k3 => (h pts' s co k1 k2 k3).mono hle
  have ha := Ev.forall_list l (fun q hq => acc_near h.flag hT.ne' hpts (h1 q hq) (hAO (q.1 / Ts.sum)))
    fun q _ u ε ε' h hle pts' s co k1 k2 k3 => (h pts' s co k1 k2 k3).mono hle
  refine (Ev.and hc ha (fun u ε ε' h hle q hq pts' s co k1 k2 k3 => (h q hq pts' s co k1 k2 k3).mono hle)
    fun u ε ε' h hle q hq pts' s co k1 k2 k3 => (h q hq pts' s co k1 k2 k3).mono hle).imp 1 zero_le_one ?_
  rintro u ε hu - ⟨H1, H2⟩ pts' hp x c v a ⟨pts0, hpts0, rfl, hv, ha⟩
  rw [hpts] at hpts0
  cases hpts0
  have hpl' : pts'.length = degreeOf pData.flag + 1 := by
    obtain ⟨-, es, hes, hk⟩ := (constantWaypointsFp_zero _ _ _ pts).mpr hpts
    obtain ⟨-, es', hes', hk'⟩ := hp
    rw [hes] at hes'
    cases hes'
    rw [(hk' 0).1, ← (hk 0).1, hpl]
  obtain ⟨v', a', hv', ha', hacc'⟩ := C03_acceleration_coefs_partial pData.flag h.flag pts' hpl' Ts.sum hT.ne' x
  obtain ⟨v2, a2, hv2, ha2, hacc⟩ := hC3 x
  have e1 := deriv_unique hv hv2
  subst e1
  have e2 := deriv_unique ha ha2
  subst e2
  refine ⟨v', a', hv', ha', fun q hq k => ?_⟩
  rw [one_mul]
  have hmin : min (q.1 / Ts.sum) 1 = q.1 / Ts.sum := min_eq_left (h1 q hq)
  have htime : TimeFp u q.1 Ts.sum (q.1 / Ts.sum) := by
    have := timeFp_self hu (t := q.1) (T := Ts.sum)
    rwa [hmin] at this
  constructor
  · obtain ⟨co, hco, hx⟩ := C02_position_coefs_partial pData.flag h.flag pts' hpl' (q.1 / Ts.sum)
    have hcl := H1 q hq pts' _ co hp htime (curveFp_self hu h.flag hco)
    have hfirst := curve_first h.flag hco (hCO _)
    have e1 := congrFun (hx x) k
    have e2 := congrFun (hCOx (q.1 / Ts.sum) x) k
    simp only [Pi.add_apply, Pi.smul_apply, smul_eq_mul] at e1 e2
    unfold curve
    rw [← e1, ← e2, hfirst, add_sub_add_left_eq_sub]
    exact hcl.2 k
  · obtain ⟨co, hco, hx⟩ := hacc' (q.1 / Ts.sum)
    obtain ⟨co2, hco2, hx2⟩ := hacc (q.1 / Ts.sum)
    rw [hAO] at hco2
    cases hco2
    rw [div_mul_cancel₀ _ hT.ne'] at hx hx2
    have hcl := H2 q hq pts' _ co hp htime (accFp_self hu h.flag hco)
    have hfirst := acc_first h.flag hco (hAO _)
    have e1 := congrFun hx k
    have e2 := congrFun hx2 k
    simp only [Pi.add_apply, Pi.smul_apply, smul_eq_mul] at e1 e2
    rw [← e1, ← e2, hfirst, add_sub_add_left_eq_sub]
    exact hcl.2 k

/-! ## Wrench and position of a close curve -/

/-- A wrench changed by `m df`, `m dτ`. -/
theorem wrenchRow_shift {m ρ δ : ℝ} {r : (V3 × V3) × ℝ} {f τ df dτ : V3} {η : ℝ} (h : WrenchRowOkTol m ρ δ r f τ) (hη : ∑ k, |df k| + ∑ k, |dτ k| ≤ η) :
    WrenchRowOkTol m ρ (δ + η) r (f + m • df) (τ + m • dτ) := by
  unfold WrenchRowOkTol at *
  set N := Real.sqrt (dot r.1.1 r.1.1 + dot r.1.2 r.1.2) with hN
  have hN0 : 0 ≤ N := Real.sqrt_nonneg _
  have hle : ∀ x : ℝ, x ^ 2 ≤ dot r.1.1 r.1.1 + dot r.1.2 r.1.2 → |x| ≤ N := fun x hx => Real.le_sqrt_of_sq_le (by rwa [sq_abs])
  have b1 : ∀ k, |r.1.1 k| ≤ N := by
    intro k
    apply hle
    simp only [dot]
    fin_cases k <;> simp <;> nlinarith [sq_nonneg (r.1.1 0), sq_nonneg (r.1.1 1), sq_nonneg (r.1.1 2), sq_nonneg (r.1.2 0), sq_nonneg (r.1.2 1), sq_nonneg (r.1.2 2)]
  have b2 : ∀ k, |r.1.2 k| ≤ N := by
    intro k
    apply hle
    simp only [dot]
    fin_cases k <;> simp <;> nlinarith [sq_nonneg (r.1.1 0), sq_nonneg (r.1.1 1), sq_nonneg (r.1.1 2), sq_nonneg (r.1.2 0), sq_nonneg (r.1.2 1), sq_nonneg (r.1.2 2)]
  have key : ∀ (p d : V3), (∀ k, |p k| ≤ N) → dot p (m • d) ≤ |m| * N * ∑ k, |d k| := by
    intro p d hp
    rw [← dot_eq, dotProduct, Finset.mul_sum]
    refine Finset.sum_le_sum fun k _ => ?_
    refine (le_abs_self _).trans ?_
    rw [Pi.smul_apply, smul_eq_mul, abs_mul, abs_mul]
    have := mul_le_mul_of_nonneg_right (hp k) (mul_nonneg (abs_nonneg m) (abs_nonneg (d k)))
    linarith
  have k1 := key _ df b1
  have k2 := key _ dτ b2
  have k3 := mul_le_mul_of_nonneg_left hη (mul_nonneg (abs_nonneg m) hN0)
  have e : ∀ p y z : V3, dot p (y + z) = dot p y + dot p z := fun p y z => by simp only [dot, Pi.add_apply]; ring
  rw [e, e]
  nlinarith

theorem prod_close {a a' b b' ε M : ℝ} (ha : |a' - a| ≤ ε) (hb : |b' - b| ≤ ε) (hε : ε ≤ 1) (hM : 1 ≤ M) (hA : |a| ≤ M) (hB : |b| ≤ M) :
    |a' * b' - a * b| ≤ 3 * M * ε := by
  have hε0 : 0 ≤ ε := (abs_nonneg _).trans ha
  have e : a' * b' - a * b = (a' - a) * b + a * (b' - b) + (a' - a) * (b' - b) := by ring
  rw [e]
  have t1 : |(a' - a) * b| ≤ ε * M := by rw [abs_mul]; exact mul_le_mul ha hB (abs_nonneg _) hε0
  have t2 : |a * (b' - b)| ≤ M * ε := by rw [abs_mul]; exact mul_le_mul hA hb (abs_nonneg _) (by linarith)
  have t3 : |(a' - a) * (b' - b)| ≤ ε * ε := by rw [abs_mul]; exact mul_le_mul ha hb (abs_nonneg _) hε0
  have := abs_add_le ((a' - a) * b + a * (b' - b)) ((a' - a) * (b' - b))
  have := abs_add_le ((a' - a) * b) (a * (b' - b))
  nlinarith

theorem cross_close {c c' f f' : V3} {ε M : ℝ} (hc : ∀ k, |c' k - c k| ≤ ε) (hf : ∀ k, |f' k - f k| ≤ ε) (hε : ε ≤ 1) (hM : 1 ≤ M) (hC : ∀ k, |c k| ≤ M)
    (hF : ∀ k, |f k| ≤ M) (k : Fin 3) : |cr c' f' k - cr c f k| ≤ 6 * M * ε := by
  have key : ∀ i j, |c' i * f' j - c i * f j| ≤ 3 * M * ε := fun i j => prod_close (hc i) (hf j) hε hM (hC i) (hF j)
  have two : ∀ i j i' j', |(c' i * f' j - c' i' * f' j') - (c i * f j - c i' * f j')| ≤ 6 * M * ε := by
    intro i j i' j'
    have e : (c' i * f' j - c' i' * f' j') - (c i * f j - c i' * f j') = (c' i * f' j - c i * f j) - (c' i' * f' j' - c i' * f j') := by ring
    rw [e]
    have := abs_sub (c' i * f' j - c i * f j) (c' i' * f' j' - c i' * f j')
    have := key i j
    have := key i' j'
    linarith
  unfold cr
  rw [cross_apply, cross_apply]
  fin_cases k
  · exact two 1 2 2 1
  · exact two 2 0 0 2
  · exact two 0 1 1 0

/-- The requirements of a phase for a position and an acceleration that are close. -/
theorem phase_close {ct : ContactData} {e : Equilibrium} {ρ δw δ ε M S : ℝ} {c c' a a' : V3} (h : PhaseOkTol ct e ρ δw δ c a) (hc : ∀ k, |c' k - c k| ≤ ε)
    (ha : ∀ k, |a' k - a k| ≤ ε) (hε : ε ≤ 1) (hM : 1 ≤ M) (hC : ∀ k, |c k| ≤ M) (hF : ∀ k, |(e.gravity - a) k| ≤ M)
    (hS : ∀ K ∈ ct.Kin, ∑ k, |K k| ≤ S) : PhaseOkTol ct e ρ (δw + 21 * M * ε) (δ + S * ε) c' a' := by
  have hε0 : 0 ≤ ε := (abs_nonneg _).trans (hc 0)
  have hf : ∀ k, |(e.gravity - a') k - (e.gravity - a) k| ≤ ε := by
    intro k
    simp only [Pi.sub_apply]
    rw [sub_sub_sub_cancel_left, abs_sub_comm]
    exact ha k
  refine ⟨fun r hr => ?_, fun q hq => ?_⟩
  · have h0 := h.1 r hr
    have := wrenchRow_shift (df := a - a') (dτ := cr c' (e.gravity - a') - cr c (e.gravity - a)) (η := 21 * M * ε) h0 ?_
    · have e1 : e.mass • (e.gravity - a) + e.mass • (a - a') = e.mass • (e.gravity - a') := by rw [← smul_add]; congr 1; abel
      have e2 : e.mass • cr c (e.gravity - a) + e.mass • (cr c' (e.gravity - a') - cr c (e.gravity - a)) = e.mass • cr c' (e.gravity - a') := by
        rw [← smul_add]; congr 1; abel
      rwa [e1, e2] at this
    · have k1 : ∑ k, |(a - a') k| ≤ 3 * ε := by
        rw [Fin.sum_univ_three]
        have := fun k => (abs_sub_comm (a k) (a' k)).le.trans (ha k)
        simp only [Pi.sub_apply]
        linarith [this 0, this 1, this 2]
      have k2 : ∑ k, |(cr c' (e.gravity - a') - cr c (e.gravity - a)) k| ≤ 18 * M * ε := by
        rw [Fin.sum_univ_three]
        have := cross_close hc hf hε hM hC hF
        simp only [Pi.sub_apply] at this ⊢
        linarith [this 0, this 1, this 2]
      nlinarith
  · have h0 := h.2 q hq
    have hK := hS q.1 (List.of_mem_zip hq).1
    have e : dot q.1 c' - dot q.1 c ≤ ε * ∑ k, |q.1 k| := by
      rw [← dot_eq, ← dot_eq, dotProduct, dotProduct, ← Finset.sum_sub_distrib, Finset.mul_sum]
      refine Finset.sum_le_sum fun k _ => ?_
      rw [← mul_sub]
      refine (le_abs_self _).trans ?_
      rw [abs_mul, mul_comm]
      exact mul_le_mul_of_nonneg_right (hc k) (abs_nonneg _)
    nlinarith

end Verif
