import Verif.Props.C90
import Verif.Props.C56ForceTol
import Verif.Lemmas.QuadRoundedSep
import Mathlib.Analysis.Normed.Module.FiniteDimension
import Mathlib.Analysis.InnerProductSpace.PiL2
import Mathlib.Topology.Algebra.Order.Field

/-!
# C99: the planner with force variables and a solver that rounds
-/

namespace Verif

open Arith

variable {n : ℕ}

/-! ## Specification -/

/-- The constraints given to the solver are `D x = d` and `A x ≤ b`, with every row and every right-hand side known up to `ρ`. -/
structure GivenSystem (P : FQP ℝ n) (A b D d : Mat) (ρ : ℝ) : Prop where
  eqCount : P.CE.length = D.rows
  eqCols : D.cols = n
  eqNormal : ∀ r < D.rows, ∑ k, ((P.CE.getD r (0, 0)).1 k - D.e r k) ^ 2 ≤ ρ ^ 2
  eqOffset : ∀ r < D.rows, |(P.CE.getD r (0, 0)).2 + d.e r 0| ≤ ρ
  count : P.CI.length = A.rows
  cols : A.cols = n
  normal : ∀ r < A.rows, ∑ k, ((P.CI.getD r (0, 0)).1 k + A.e r k) ^ 2 ≤ ρ ^ 2
  offset : ∀ r < A.rows, |(P.CI.getD r (0, 0)).2 - b.e r 0| ≤ ρ

/-- The rows of `D` are independent by a margin `s`: a combination of them is at least `s` times as long as the sum of the absolute values of its
coefficients. -/
def MatSep (D : Mat) (s : ℝ) : Prop :=
  ∀ c : ℕ → ℝ, (s * ∑ r ∈ Finset.range D.rows, |c r|) ^ 2 ≤ ∑ k ∈ Finset.range D.cols, (∑ r ∈ Finset.range D.rows, c r * D.e r k) ^ 2

/-! ## The solver -/

theorem GivenSystem.sep {P : FQP ℝ n} {A b D d : Mat} {ρ s : ℝ} (h : GivenSystem P A b D d ρ) (hρ : 0 ≤ ρ) (hs : ρ ≤ s) (hD : MatSep D s) : FpEqSep P (s - ρ) := by
  intro c
  rw [h.eqCount]
  have h1 := hD c
  rw [h.eqCols, Finset.sum_range (n := n)] at h1
  have hS : 0 ≤ ∑ r ∈ Finset.range D.rows, |c r| := Finset.sum_nonneg fun _ _ => abs_nonneg _
  have h2 : ∑ k : Fin n, (∑ r ∈ Finset.range D.rows, -c r * ((P.CE.getD r (0, 0)).1 k - D.e r k)) ^ 2 ≤ (∑ r ∈ Finset.range D.rows, |c r| * ρ) ^ 2 := by
    refine sum_sq_sum Finset.univ (fun r (k : Fin n) => -c r * ((P.CE.getD r (0, 0)).1 k - D.e r k)) (fun r => |c r| * ρ) D.rows (fun r _ => by positivity) fun r hr => ?_
    simp only [mul_pow, neg_sq, sq_abs]
    rw [← Finset.mul_sum]
    exact mul_le_mul_of_nonneg_left (h.eqNormal r hr) (sq_nonneg _)
  rw [← Finset.sum_mul] at h2
  have hV0 : 0 ≤ ∑ k, (∑ r ∈ Finset.range D.rows, c r * (P.CE.getD r (0, 0)).1 k) ^ 2 := Finset.sum_nonneg fun _ _ => sq_nonneg _
  have h3 := sum_sq_add Finset.univ (fun k => ∑ r ∈ Finset.range D.rows, c r * (P.CE.getD r (0, 0)).1 k)
    (fun k => ∑ r ∈ Finset.range D.rows, -c r * ((P.CE.getD r (0, 0)).1 k - D.e r k)) (Real.sqrt_nonneg _) (by positivity) (Real.sq_sqrt hV0).ge h2
  have e : ∀ k : Fin n, ∑ r ∈ Finset.range D.rows, c r * (P.CE.getD r (0, 0)).1 k + ∑ r ∈ Finset.range D.rows, -c r * ((P.CE.getD r (0, 0)).1 k - D.e r k) =
      ∑ r ∈ Finset.range D.rows, c r * D.e r k := by
    intro k
    rw [← Finset.sum_add_distrib]
    exact Finset.sum_congr rfl fun r _ => by ring
  simp only [e] at h3
  have h4 := abs_le_of_sq_le_sq (le_trans h1 h3) (by positivity)
  have h5 := le_trans (le_abs_self _) h4
  rw [← Real.sq_sqrt hV0]
  exact pow_le_pow_left₀ (mul_nonneg (by linarith) hS) (by linarith) 2

/-- The point returned with `OPTIMAL` satisfies the given constraints up to a tolerance. -/
theorem optimal_system (o : Arith ℝ n) {m : ℕ} {u g : ℝ} (ho : o.Rounded m u g) (maxIter : ℕ) (P : FQP ℝ n)
    (hm : P.CI.length ≤ m) (J0 : ℕ → Fin n → ℝ) (x0 : Fin n → ℝ) (w : FWork ℝ n) {ν σ β b X : ℝ}
    (hC : o.ScaledFp u g maxIter P J0 ν σ β b) (hX : 0 ≤ X)
    (hx : ∀ q, o.Reach maxIter P J0 (.eq 0 (o.init P J0 x0 w)) q → ∑ k, (st q).x k ^ 2 ≤ X ^ 2)
    {A B D d : Mat} {ρ s : ℝ} (hρ : 0 ≤ ρ) (hP : GivenSystem P A B D d ρ) (hn : D.rows ≤ n) (hs : ρ ≤ s) (hD : MatSep D s)
    (hmar : SepMargin n D.rows u g o.eps ν σ β maxIter (s - ρ)) :
    ∃ r s, (∀ fuel ≥ P.CE.length + 2 + maxIter * (n + 3), o.solve maxIter P J0 x0 w fuel = .ok (r, s)) ∧ ∑ k, s.x k ^ 2 ≤ X ^ 2 ∧
      (r = .optimal → SatTol A B (fpTol o u g maxIter P J0 ν σ β b X + ρ * (X + 1)) (extN s.x) ∧
        EqSatTol D d (fpTol o u g maxIter P J0 ν σ β b X + ρ * (X + 1)) (extN s.x)) := by
  have hE : P.CE.length ≤ n := by rw [hP.eqCount]; exact hn
  have hacc := (C87_rounded o ho maxIter P hE J0 x0 w hC.cond).1
  obtain ⟨r, t, h1, h2⟩ := Arith.run_good ho.sane hacc _ (.eq 0 (o.init P J0 x0 w)) le_rfl ⟨rfl, Nat.zero_le _, hE, rfl⟩ .refl
  have hsol : ∀ fuel ≥ P.CE.length + 2 + maxIter * (n + 3), o.solve maxIter P J0 x0 w fuel = .ok (r, t) :=
    fun fuel hf => h1 fuel (by simpa [Arith.cost] using hf)
  have hxs : ∑ k, t.x k ^ 2 ≤ X ^ 2 := hx _ h2
  refine ⟨r, t, hsol, hxs, ?_⟩
  rintro rfl
  have hfar := hC.far_of_sep ho hX hE hx (hP.sep hρ hs hD) (by rw [hP.eqCount]; exact hmar)
  obtain ⟨h4, -, h3⟩ := C88_constraints o ho maxIter P hE hm J0 x0 w hC hX hx hfar _ le_rfl t (hsol _ le_rfl)
  refine ⟨fun i hi => ?_, fun i hi => ?_⟩
  · have hi' : i < P.CI.length := by rw [hP.count]; exact hi
    have k1 := h3 i hi'
    have hmem := getD_mem hi' ((0, 0) : (Fin n → ℝ) × ℝ)
    have k2 := mag_le hC.β0 hX (hC.cond.ci _ hmem) hxs (hC.ci _ hmem)
    have k3 : max (105 * P.CI.length * o.eps * (∑ i, |P.G i i|) * (∑ i : Fin n, |J0 i.val i|) + g * mag (P.CI.getD i (0, 0)) t.x)
        (6 * (g + u) * (β * X + b) + ((P.CE.length + 2 + maxIter * (n + 3) : ℕ) : ℝ) * (β * X) *
          (12 * (g + 80 * u * (n * ((P.CE.length + 2 + maxIter * (n + 3) : ℕ) : ℝ))) * (ν / σ) + 4 * u)) ≤ fpTol o u g maxIter P J0 ν σ β b X :=
      max_le_max (by have := mul_le_mul_of_nonneg_left k2 hC.cond.g0; linarith) le_rfl
    have k4 := abs_sum_mul_le Finset.univ (fun k => (P.CI.getD i (0, 0)).1 k + A.e i k) t.x hρ hX (hP.normal i hi) hxs
    have k5 := hP.offset i hi
    have e1 : ∑ c ∈ Finset.range A.cols, A.e i c * extN t.x c =
        ∑ k, ((P.CI.getD i (0, 0)).1 k + A.e i k) * t.x k - ∑ k, (P.CI.getD i (0, 0)).1 k * t.x k := by
      rw [hP.cols, Finset.sum_range, ← Finset.sum_sub_distrib]
      refine Finset.sum_congr rfl fun k _ => ?_
      unfold extN
      rw [dif_pos k.2]
      ring
    rw [e1]
    have k6 := (abs_le.mp k4).2
    have k7 := (abs_le.mp k5).2
    unfold val at k1
    linarith
  · have hi' : i < P.CE.length := by rw [hP.eqCount]; exact hi
    have k1 := le_trans (h4 i hi') (le_max_right (105 * P.CI.length * o.eps * (∑ i, |P.G i i|) * (∑ i : Fin n, |J0 i.val i|) + g * (β * X + b)) _)
    replace k1 : |val (P.CE.getD i (0, 0)) t.x| ≤ fpTol o u g maxIter P J0 ν σ β b X := k1
    have k4 := abs_sum_mul_le Finset.univ (fun k => (P.CE.getD i (0, 0)).1 k - D.e i k) t.x hρ hX (hP.eqNormal i hi) hxs
    have k5 := hP.eqOffset i hi
    have e1 : ∑ c ∈ Finset.range D.cols, D.e i c * extN t.x c - d.e i 0 = val (P.CE.getD i (0, 0)) t.x -
        ∑ k, ((P.CE.getD i (0, 0)).1 k - D.e i k) * t.x k - ((P.CE.getD i (0, 0)).2 + d.e i 0) := by
      have : ∑ c ∈ Finset.range D.cols, D.e i c * extN t.x c =
          ∑ k, (P.CE.getD i (0, 0)).1 k * t.x k - ∑ k, ((P.CE.getD i (0, 0)).1 k - D.e i k) * t.x k := by
        rw [hP.eqCols, Finset.sum_range, ← Finset.sum_sub_distrib]
        refine Finset.sum_congr rfl fun k _ => ?_
        unfold extN
        rw [dif_pos k.2]
        ring
      rw [this]
      unfold val
      ring
    rw [e1]
    refine le_trans (_root_.abs_sub _ _) ?_
    have := _root_.abs_sub (val (P.CE.getD i (0, 0)) t.x) (∑ k, ((P.CE.getD i (0, 0)).1 k - D.e i k) * t.x k)
    linarith

/-! ## The planner -/

/-- The planner with force variables and a solver that rounds, in terms of the wrench waypoints. -/
theorem force_fp (κ : ℝ) (pData : ProblemData) (Ts : List ℝ) (gr : V3) (h : AcceptedC pData Ts gr) (hr : pData.representation ≠ DOUBLE_DESCRIPTION)
    {μ Γ : ℝ} (hμ : 0 < μ) (hm : ∀ ct ∈ pData.contacts, ∀ e, ct.contactPhase = some e → μ ≤ e.mass)
    (hn : NestedPhases pData.contacts) (hΓ : GenBound pData Γ)
    (pts : List V3) (hpts : computeConstantWaypoints pData.flag pData.bc Ts.sum = .ok pts)
    (hz : ∀ i < pts.length, i ∉ freeSlots pData.flag → ∃ k, 1e-12 < |nth pts i k|) :
    ∃ S A b ws, computeConstraintsContinuous κ pData Ts = .ok S ∧ addConstraintMinBoundQuadProg S.minBounds S.A S.b = .ok (A, b) ∧
      computeWwaypoints pData.flag pData.contacts pData.bc Ts.sum = .ok ws ∧
      ∀ (o : Arith ℝ S.A.cols) (m : ℕ) (u g : ℝ) (_ : o.Rounded m u g) (maxIter : ℕ) (P : FQP ℝ S.A.cols) (_ : P.CI.length ≤ m) (J0 : ℕ → Fin S.A.cols → ℝ)
        (x0 : Fin S.A.cols → ℝ) (w : FWork ℝ S.A.cols) (ν σ β B X ρ s : ℝ) (_ : o.ScaledFp u g maxIter P J0 ν σ β B) (_ : 0 ≤ X)
        (_ : ∀ q, o.Reach maxIter P J0 (.eq 0 (o.init P J0 x0 w)) q → ∑ k, (st q).x k ^ 2 ≤ X ^ 2) (_ : 0 ≤ ρ) (_ : GivenSystem P A b S.D S.d ρ)
        (_ : S.D.rows ≤ S.A.cols) (_ : ρ ≤ s) (_ : MatSep S.D s) (_ : SepMargin S.A.cols S.D.rows u g o.eps ν σ β maxIter (s - ρ)),
      ∃ r t, (∀ fuel ≥ P.CE.length + 2 + maxIter * (S.A.cols + 3), o.solve maxIter P J0 x0 w fuel = .ok (r, t)) ∧
        ∃ res, genTraj { success := r = .optimal, cost := if r = .optimal then t.f else -1, x := List.ofFn t.x } pData Ts.sum = .ok res ∧
          (res.success = true ↔ r = .optimal) ∧
          (res.success = true → MeetsBoundary pData.flag pData.bc res.c_of_t.eval Ts.sum ∧
            res.c_of_t.eval = curve (degreeOf pData.flag) (fill pData.flag (nth pts) res.point) Ts.sum ∧
            let τ := fpTol o u g maxIter P J0 ν σ β B X + ρ * (X + 1)
            (∀ p t, InPhase Ts p t → AtPhase pData.contacts p fun ct e =>
              NearCone e (e.mass * ((Γ + 1 / μ) * τ)) (e.mass * ((Γ + 1 / μ) * τ)) (e.mass • (gr - headCurve ws res.point (t / Ts.sum)))
                (e.mass • (-tailCurve ws res.point (t / Ts.sum))) ∧
              KinOkTol ct τ (res.c_of_t.eval t)) ∧
            ∃ v a, IsDeriv res.c_of_t.eval v ∧ IsDeriv v a ∧
              ∀ p t, InPhase Ts p t → ∀ j, |κ * Ts.sum ^ 2 * a t j| ≤ pData.maxAcceleration + τ) := by
  obtain ⟨S, hS, h1, h2, h3, h4, h5, h6, h7, h8⟩ := C21_in_bounds_and_complete κ pData Ts gr h
  obtain ⟨A, b, hA, a1, a2, a3, -, a5⟩ := minBound_satTol S.minBounds S.A S.b (Or.inr (h8 hr)) h1 h2
  obtain ⟨ct0, e0, pts', ws, S', Raw⟩ := cont_raw κ pData Ts gr h
  have hSS := Raw.hS
  rw [hS] at hSS
  cases hSS
  refine ⟨S, A, b, ws, hS, hA, Raw.hws, ?_⟩
  intro o m u g ho maxIter P hm' J0 x0 w ν σ β B X ρ s hC hX hx hρ hP hrows hs hD hmar
  obtain ⟨r, t, hrun, hxs, hsat⟩ := optimal_system o ho maxIter P hm' J0 x0 w hC hX hx hρ hP hrows hs hD hmar
  refine ⟨r, t, hrun, ?_⟩
  obtain ⟨res, hres, hss, hgood⟩ := genTraj_total { success := r = .optimal, cost := if r = .optimal then t.f else -1, x := List.ofFn t.x }
    pData Ts.sum h.total pts hpts h.flag (by simp only [List.length_ofFn]; omega)
  have hiff : res.success = true ↔ r = .optimal := by rw [hss]; exact decide_eq_true_iff
  refine ⟨res, hres, hiff, fun hrs => ?_⟩
  obtain ⟨hp, -, hcurve⟩ := hgood (by rw [← hss]; exact hrs)
  refine ⟨by rw [hcurve]; exact (C01_boundary_conditions pData.flag h.flag pData.bc Ts.sum h.total.ne' pts hpts res.point).2, hcurve, ?_⟩
  intro τ
  have hτ : 0 ≤ τ := by
    have := fpTol_nonneg ho hC hX
    positivity
  obtain ⟨q1, q2⟩ := hsat (hiff.mp hrs)
  obtain ⟨q3, q4⟩ := (a5 _ _).mp q1
  replace hp : res.point = first3 (extN t.x) := by rw [← unk_ofFn]; exact hp
  obtain ⟨ws', hws', hall, v, a, hv, ha, hacc⟩ := force_along_tol κ pData Ts gr h hr (fun ct hct e he => lt_of_lt_of_le hμ (hm ct hct e he)) hn hΓ S hS pts hpts hz hτ
    (ε := τ) (ε' := 1 / μ * τ) (fun ct hct e he => by
      have := hm ct hct e he
      have h1 : 1 ≤ e.mass / μ := by rwa [le_div_iff₀ hμ, one_mul]
      calc τ ≤ τ * (e.mass / μ) := le_mul_of_one_le_right hτ h1
        _ = 1 / μ * τ * e.mass := by ring) (extN t.x) q3 q4 q2
  rw [Raw.hws] at hws'
  cases hws'
  rw [← hp, ← hcurve, ← add_mul] at hall
  rw [← hp, ← hcurve] at hv
  exact ⟨hall, v, a, hv, ha, hacc⟩

/-- C99, the five sets whose coefficients are exact. -/
theorem C99_forces (κ : ℝ) (pData : ProblemData) (Ts : List ℝ) (gr : V3) (h : AcceptedC pData Ts gr) (hr : pData.representation ≠ DOUBLE_DESCRIPTION)
    (hf : pData.flag ∈ [11#32, 19#32, 27#32, 7#32, 15#32])
    {μ Γ : ℝ} (hμ : 0 < μ) (hm : ∀ ct ∈ pData.contacts, ∀ e, ct.contactPhase = some e → μ ≤ e.mass)
    (hn : NestedPhases pData.contacts) (hΓ : GenBound pData Γ)
    (pts : List V3) (hpts : computeConstantWaypoints pData.flag pData.bc Ts.sum = .ok pts)
    (hz : ∀ i < pts.length, i ∉ freeSlots pData.flag → ∃ k, 1e-12 < |nth pts i k|) :
    ∃ S A b, computeConstraintsContinuous κ pData Ts = .ok S ∧ addConstraintMinBoundQuadProg S.minBounds S.A S.b = .ok (A, b) ∧
      ∀ (o : Arith ℝ S.A.cols) (m : ℕ) (u g : ℝ) (_ : o.Rounded m u g) (maxIter : ℕ) (P : FQP ℝ S.A.cols) (_ : P.CI.length ≤ m) (J0 : ℕ → Fin S.A.cols → ℝ)
        (x0 : Fin S.A.cols → ℝ) (w : FWork ℝ S.A.cols) (ν σ β B X ρ s : ℝ) (_ : o.ScaledFp u g maxIter P J0 ν σ β B) (_ : 0 ≤ X)
        (_ : ∀ q, o.Reach maxIter P J0 (.eq 0 (o.init P J0 x0 w)) q → ∑ k, (st q).x k ^ 2 ≤ X ^ 2) (_ : 0 ≤ ρ) (_ : GivenSystem P A b S.D S.d ρ)
        (_ : S.D.rows ≤ S.A.cols) (_ : ρ ≤ s) (_ : MatSep S.D s) (_ : SepMargin S.A.cols S.D.rows u g o.eps ν σ β maxIter (s - ρ)),
      ∃ r t, (∀ fuel ≥ P.CE.length + 2 + maxIter * (S.A.cols + 3), o.solve maxIter P J0 x0 w fuel = .ok (r, t)) ∧
        ∃ res, genTraj { success := r = .optimal, cost := if r = .optimal then t.f else -1, x := List.ofFn t.x } pData Ts.sum = .ok res ∧
          (res.success = true ↔ r = .optimal) ∧
          (res.success = true → MeetsBoundary pData.flag pData.bc res.c_of_t.eval Ts.sum ∧
            let τ := fpTol o u g maxIter P J0 ν σ β B X + ρ * (X + 1)
            ∃ v a, IsDeriv res.c_of_t.eval v ∧ IsDeriv v a ∧
              (∀ p t, InPhase Ts p t → AtPhase pData.contacts p fun ct e =>
                NearCone e (e.mass * ((Γ + 1 / μ) * τ)) (e.mass * ((Γ + 1 / μ) * τ)) (e.mass • (gr - a t))
                  (e.mass • cr (res.c_of_t.eval t) (gr - a t)) ∧
                KinOkTol ct τ (res.c_of_t.eval t)) ∧
              ∀ p t, InPhase Ts p t → ∀ j, |κ * Ts.sum ^ 2 * a t j| ≤ pData.maxAcceleration + τ) := by
  obtain ⟨S, A, b, ws, hS, hA, hws, hall⟩ := force_fp κ pData Ts gr h hr hμ hm hn hΓ pts hpts hz
  refine ⟨S, A, b, hS, hA, ?_⟩
  intro o m u g ho maxIter P hm' J0 x0 w ν σ β B X ρ s hC hX hx hρ hP hrows hs hD hmar
  obtain ⟨r, t, hrun, res, hres, hiff, hgood⟩ := hall o m u g ho maxIter P hm' J0 x0 w ν σ β B X ρ s hC hX hx hρ hP hrows hs hD hmar
  refine ⟨r, t, hrun, res, hres, hiff, fun hrs => ?_⟩
  obtain ⟨g1, hcurve, g2, v, a, hv, ha, hacc⟩ := hgood hrs
  refine ⟨g1, v, a, hv, ha, fun p t hp => ?_, hacc⟩
  have h0 : 0 < pData.contacts.length := by rw [← h.size]; exact List.length_pos_iff.mpr h.ne
  obtain ⟨ct0, rest, hrest⟩ : ∃ ct0 rest, pData.contacts = ct0 :: rest := by
    cases hcs : pData.contacts with
    | nil => rw [hcs] at h0; simp at h0
    | cons a r => exact ⟨a, r, rfl⟩
  obtain ⟨e0, he0, hg0, -⟩ := h.phases ct0 (by rw [hrest]; simp)
  obtain ⟨ws', hw', hx'⟩ := C04_wrench_waypoints_partial pData.flag hf ct0 rest e0 he0 pData.bc
    Ts.sum h.total.ne' pts hpts
  rw [← hrest, hws] at hw'
  cases hw'
  obtain ⟨v', a', hv', ha', hst⟩ := hx' res.point
  rw [← hcurve] at hv' hst
  have e1 := deriv_unique hv hv'
  subst e1
  have e2 := deriv_unique ha ha'
  subst e2
  obtain ⟨ct, e, i1, i2, i3, i4⟩ := g2 p t hp
  rw [(hst t).1, (hst t).2, hg0, neg_wrenchTail] at i3
  exact ⟨ct, e, i1, i2, i3, i4⟩

/-- C99, the two sets whose coefficients are rounded decimals: the errors of the coefficients add to the tolerance of the wrench. -/
theorem C99_forces_rounded (κ : ℝ) (pData : ProblemData) (Ts : List ℝ) (gr : V3) (h : AcceptedC pData Ts gr)
    (hr : pData.representation ≠ DOUBLE_DESCRIPTION) (hf : pData.flag ∈ [31#32, 63#32])
    {μ Γ : ℝ} (hμ : 0 < μ) (hm : ∀ ct ∈ pData.contacts, ∀ e, ct.contactPhase = some e → μ ≤ e.mass)
    (hn : NestedPhases pData.contacts) (hΓ : GenBound pData Γ)
    (pts : List V3) (hpts : computeConstantWaypoints pData.flag pData.bc Ts.sum = .ok pts)
    (hz : ∀ i < pts.length, i ∉ freeSlots pData.flag → ∃ k, 1e-12 < |nth pts i k|) :
    ∃ S A b, computeConstraintsContinuous κ pData Ts = .ok S ∧ addConstraintMinBoundQuadProg S.minBounds S.A S.b = .ok (A, b) ∧
      ∀ (o : Arith ℝ S.A.cols) (m : ℕ) (u g : ℝ) (_ : o.Rounded m u g) (maxIter : ℕ) (P : FQP ℝ S.A.cols) (_ : P.CI.length ≤ m) (J0 : ℕ → Fin S.A.cols → ℝ)
        (x0 : Fin S.A.cols → ℝ) (w : FWork ℝ S.A.cols) (ν σ β B X ρ s : ℝ) (_ : o.ScaledFp u g maxIter P J0 ν σ β B) (_ : 0 ≤ X)
        (_ : ∀ q, o.Reach maxIter P J0 (.eq 0 (o.init P J0 x0 w)) q → ∑ k, (st q).x k ^ 2 ≤ X ^ 2) (_ : 0 ≤ ρ) (_ : GivenSystem P A b S.D S.d ρ)
        (_ : S.D.rows ≤ S.A.cols) (_ : ρ ≤ s) (_ : MatSep S.D s) (_ : SepMargin S.A.cols S.D.rows u g o.eps ν σ β maxIter (s - ρ)),
      ∃ r t, (∀ fuel ≥ P.CE.length + 2 + maxIter * (S.A.cols + 3), o.solve maxIter P J0 x0 w fuel = .ok (r, t)) ∧
        ∃ res, genTraj { success := r = .optimal, cost := if r = .optimal then t.f else -1, x := List.ofFn t.x } pData Ts.sum = .ok res ∧
          (res.success = true ↔ r = .optimal) ∧
          (res.success = true → MeetsBoundary pData.flag pData.bc res.c_of_t.eval Ts.sum ∧
            let τ := fpTol o u g maxIter P J0 ν σ β B X + ρ * (X + 1)
            ∃ v a, IsDeriv res.c_of_t.eval v ∧ IsDeriv v a ∧
              (∀ M G, Sizes pData Ts.sum gr res.point M G → ∀ p t, InPhase Ts p t → AtPhase pData.contacts p fun ct e =>
                NearCone e (e.mass * ((Γ + 1 / μ) * τ + 1e-12 * M / Ts.sum ^ 2))
                  (e.mass * ((Γ + 1 / μ) * τ + 1e-12 * (M * M + Ts.sum ^ 2 * (G * M)) / Ts.sum ^ 2))
                  (e.mass • (gr - a t)) (e.mass • cr (res.c_of_t.eval t) (gr - a t)) ∧
                KinOkTol ct τ (res.c_of_t.eval t)) ∧
              ∀ p t, InPhase Ts p t → ∀ j, |κ * Ts.sum ^ 2 * a t j| ≤ pData.maxAcceleration + τ) := by
  obtain ⟨S, A, b, ws, hS, hA, hws, hall⟩ := force_fp κ pData Ts gr h hr hμ hm hn hΓ pts hpts hz
  refine ⟨S, A, b, hS, hA, ?_⟩
  intro o m u g ho maxIter P hm' J0 x0 w ν σ β B X ρ s hC hX hx hρ hP hrows hs hD hmar
  obtain ⟨r, t, hrun, res, hres, hiff, hgood⟩ := hall o m u g ho maxIter P hm' J0 x0 w ν σ β B X ρ s hC hX hx hρ hP hrows hs hD hmar
  refine ⟨r, t, hrun, res, hres, hiff, fun hrs => ?_⟩
  obtain ⟨g1, hcurve, g2, v, a, hv, ha, hacc⟩ := hgood hrs
  refine ⟨g1, v, a, hv, ha, fun M G hsz p t hp => ?_, hacc⟩
  obtain ⟨hM, hxM, hG⟩ := hsz
  have h0 : 0 < pData.contacts.length := by rw [← h.size]; exact List.length_pos_iff.mpr h.ne
  obtain ⟨ct0, rest, hrest⟩ : ∃ ct0 rest, pData.contacts = ct0 :: rest := by
    cases hcs : pData.contacts with
    | nil => rw [hcs] at h0; simp at h0
    | cons a r => exact ⟨a, r, rfl⟩
  obtain ⟨e0, he0, hg0, -⟩ := h.phases ct0 (by rw [hrest]; simp)
  obtain ⟨ws', hw', hx'⟩ := C04_wrench_waypoints_rounded_partial pData.flag hf ct0 rest e0 he0 pData.bc
    Ts.sum h.total pts hpts
  rw [← hrest, hws] at hw'
  cases hw'
  obtain ⟨v', a', hv', ha', hst⟩ := hx' res.point M G (hM pts hpts) hxM (by rw [hg0]; exact hG)
  rw [← hcurve] at hv' hst
  have e1 := deriv_unique hv hv'
  subst e1
  have e2 := deriv_unique ha ha'
  subst e2
  obtain ⟨ct, e, i1, i2, ⟨f', τ', i3, i5⟩, i4⟩ := g2 p t hp
  refine ⟨ct, e, i1, i2, ⟨f', τ', i3, fun j => ?_⟩, i4⟩
  obtain ⟨t0, t1⟩ := inPhase_bounds h.pos hp
  obtain ⟨d1, d2⟩ := hst t t0 t1 j
  rw [hg0] at d2
  have hmass := lt_of_lt_of_le hμ (hm ct (List.mem_of_getElem? i1) e i2)
  have key : ∀ (x w z E B : ℝ), |e.mass * x - z| ≤ e.mass * B → |w| ≤ E → |e.mass * (x + w) - z| ≤ e.mass * (B + E) := by
    intro x w z E B h1 h2
    have := mul_le_mul_of_nonneg_left h2 hmass.le
    rw [show e.mass * (x + w) - z = (e.mass * x - z) + e.mass * w by ring]
    refine (abs_add_le _ _).trans ?_
    rw [_root_.abs_mul, abs_of_pos hmass]
    linarith
  obtain ⟨k1, k2⟩ := i5 j
  constructor
  · have := key _ _ _ _ _ (by simpa only [Pi.smul_apply, Pi.sub_apply, smul_eq_mul] using k1) d1
    refine le_trans (le_of_eq ?_) this
    congr 1
    simp only [Pi.smul_apply, Pi.sub_apply, smul_eq_mul]; ring
  · have := key _ _ _ _ _ (by simpa only [Pi.smul_apply, Pi.neg_apply, smul_eq_mul] using k2) d2
    refine le_trans (le_of_eq ?_) this
    congr 1
    rw [← neg_wrenchTail]
    simp only [Pi.smul_apply, Pi.neg_apply, smul_eq_mul]; ring

/-! ## The hypotheses are met -/

/-- Rows none of which is a combination of the previous ones are independent by a margin. -/
theorem matSep_of_independent (D : Mat)
    (h : ∀ i < D.rows, ∀ c : ℕ → ℝ, ¬ ∀ j < D.cols, D.e i j = ∑ k ∈ Finset.range i, c k * D.e k j) :
    ∃ s, 0 < s ∧ MatSep D s := by
  let v : Fin D.rows → EuclideanSpace ℝ (Fin D.cols) := fun i => WithLp.toLp 2 fun j : Fin D.cols => D.e i j
  let f : (Fin D.rows → ℝ) →ₗ[ℝ] EuclideanSpace ℝ (Fin D.cols) := ∑ i, (LinearMap.proj i).smulRight (v i)
  have hf : ∀ c j, f c j = ∑ i : Fin D.rows, c i * D.e i j := fun c j => by
    simp [f, LinearMap.sum_apply, v]
  have hker : LinearMap.ker f = ⊥ := by
    rw [LinearMap.ker_eq_bot']
    intro c hc
    by_contra hne
    obtain ⟨i0, hi0⟩ : ∃ i, c i ≠ 0 := by
      by_contra hall
      push Not at hall
      exact hne (funext hall)
    obtain ⟨i, hi, hmax⟩ := (Finset.univ.filter fun i => c i ≠ 0).exists_max_image (fun i => i.val) ⟨i0, by simpa using hi0⟩
    have hci : c i ≠ 0 := by simpa using hi
    refine h i i.2 (fun k => if hk : k < D.rows then -(c ⟨k, hk⟩ / c i) else 0) fun j hj => ?_
    have e1 : ∑ l : Fin D.rows, c l * D.e l j = 0 := by
      have := congrArg (fun w : EuclideanSpace ℝ (Fin D.cols) => w ⟨j, hj⟩) hc
      simp only [hf] at this
      exact this
    have e2 : ∑ l : Fin D.rows, c l * D.e l j = ∑ l ∈ Finset.range D.rows, (if hl : l < D.rows then c ⟨l, hl⟩ else 0) * D.e l j := by
      rw [Finset.sum_range]
      exact Finset.sum_congr rfl fun l _ => by rw [dif_pos l.2]
    have e3 : ∑ l ∈ Finset.range D.rows, (if hl : l < D.rows then c ⟨l, hl⟩ else 0) * D.e l j =
        ∑ l ∈ Finset.range (i + 1), (if hl : l < D.rows then c ⟨l, hl⟩ else 0) * D.e l j := by
      refine (Finset.sum_subset (fun l hl => Finset.mem_range.mpr ?_) fun l hl hl' => ?_).symm
      · have := Finset.mem_range.mp hl
        omega
      · have hl := Finset.mem_range.mp hl
        rw [dif_pos hl]
        have : c ⟨l, hl⟩ = 0 := by
          by_contra hne
          have := hmax ⟨l, hl⟩ (by simpa using hne)
          exact hl' (Finset.mem_range.mpr (by simp only at this; omega))
        rw [this, zero_mul]
    rw [e2, e3, Finset.sum_range_succ, dif_pos i.2] at e1
    have e4 : D.e i j = -(∑ l ∈ Finset.range i, (if hl : l < D.rows then c ⟨l, hl⟩ else 0) * D.e l j) / c i := by
      rw [eq_div_iff hci]
      linarith
    rw [e4, ← Finset.sum_neg_distrib, Finset.sum_div]
    refine Finset.sum_congr rfl fun l hl => ?_
    have hl' : l < D.rows := by have := Finset.mem_range.mp hl; omega
    rw [dif_pos hl', dif_pos hl']
    ring
  obtain ⟨K, hK, hanti⟩ := f.exists_antilipschitzWith hker
  have hK' : (0 : ℝ) < K := hK
  refine ⟨1 / (K * (D.rows + 1)), by positivity, fun c => ?_⟩
  have h1 := hanti.le_mul_dist (fun i : Fin D.rows => c i) 0
  rw [map_zero, dist_zero_right, dist_zero_right] at h1
  have e1 : ‖f fun i : Fin D.rows => c i‖ = Real.sqrt (∑ k ∈ Finset.range D.cols, (∑ r ∈ Finset.range D.rows, c r * D.e r k) ^ 2) := by
    rw [EuclideanSpace.norm_eq, Finset.sum_range]
    congr 1
    refine Finset.sum_congr rfl fun k _ => ?_
    rw [hf, Real.norm_eq_abs, sq_abs, Finset.sum_range]
  rw [e1] at h1
  have h2 : ∑ r ∈ Finset.range D.rows, |c r| ≤ D.rows * ‖fun i : Fin D.rows => c i‖ := by
    rw [Finset.sum_range]
    refine le_trans (Finset.sum_le_card_nsmul _ _ ‖fun i : Fin D.rows => c i‖ fun i _ => ?_) (by simp)
    exact norm_le_pi_norm (fun i : Fin D.rows => c i) i
  have hV0 : 0 ≤ ∑ k ∈ Finset.range D.cols, (∑ r ∈ Finset.range D.rows, c r * D.e r k) ^ 2 := Finset.sum_nonneg fun _ _ => sq_nonneg _
  rw [← Real.sq_sqrt hV0]
  have hS : 0 ≤ ∑ r ∈ Finset.range D.rows, |c r| := Finset.sum_nonneg fun _ _ => abs_nonneg _
  refine pow_le_pow_left₀ (by positivity) ?_ 2
  rw [div_mul_eq_mul_div, one_mul, div_le_iff₀ (by positivity)]
  have hq := Real.sqrt_nonneg (∑ k ∈ Finset.range D.cols, (∑ r ∈ Finset.range D.rows, c r * D.e r k) ^ 2)
  generalize Real.sqrt (∑ k ∈ Finset.range D.cols, (∑ r ∈ Finset.range D.rows, c r * D.e r k) ^ 2) = V at *
  generalize ‖fun i : Fin D.rows => c i‖ = W at *
  have h3 : (D.rows : ℝ) * W ≤ D.rows * (K * V) := mul_le_mul_of_nonneg_left h1 (Nat.cast_nonneg _)
  have h4 : 0 ≤ (K : ℝ) * V := by positivity
  linarith

/-- Thresholds for which the rounding errors are small. -/
theorem small_system_exists (n nE maxIter M : ℕ) {ν σ β s : ℝ} (hσ : 0 < σ) (hs : 0 < s) :
    ∃ ε0 > (0 : ℝ), ∀ eps, 0 < eps → eps ≤ ε0 → 2 * eps * ν ^ 2 * max 1 (2 * ν ^ 2 * β ^ 2) ≤ 1 ∧
      ∃ u0 > (0 : ℝ), ∀ u, 0 ≤ u → u ≤ u0 → u ≤ 1 / 1000 ∧ (1 + u) ^ (M + 1) - 1 ≤ 1 / 100 ∧
        1000 * u * (n * (nE + 2 + maxIter * (n + 3) : ℕ)) ≤ 1 ∧
        200 * u * (n * (nE + 2 + maxIter * (n + 3) : ℕ)) * ν + 4 * ((1 + u) ^ (M + 1) - 1) * ν ≤ σ ∧
        14 * (((1 + u) ^ (M + 1) - 1) * β * ν ^ 2) ^ 2 ≤ eps ∧
        SepMargin n nE u ((1 + u) ^ (M + 1) - 1) eps ν σ β maxIter s := by
  have hE : ∀ᶠ e in nhds (0 : ℝ), 2 * e * ν ^ 2 * max 1 (2 * ν ^ 2 * β ^ 2) < 1 ∧ 5.2 * Real.sqrt e / σ ^ 2 < s := by
    refine Filter.Eventually.and ?_ ?_
    · have : Filter.Tendsto (fun e : ℝ => 2 * e * ν ^ 2 * max 1 (2 * ν ^ 2 * β ^ 2)) (nhds 0) (nhds (2 * 0 * ν ^ 2 * max 1 (2 * ν ^ 2 * β ^ 2))) :=
        Continuous.tendsto (by fun_prop) 0
      exact this.eventually_lt_const (by simp)
    · have : Filter.Tendsto (fun e : ℝ => 5.2 * Real.sqrt e / σ ^ 2) (nhds 0) (nhds (5.2 * Real.sqrt 0 / σ ^ 2)) :=
        Continuous.tendsto (by fun_prop) 0
      exact this.eventually_lt_const (by simpa using hs)
  obtain ⟨ε1, hε1, hall⟩ := Metric.eventually_nhds_iff.mp hE
  refine ⟨ε1 / 2, by positivity, fun eps he0 he => ?_⟩
  obtain ⟨h1, h2⟩ := hall (y := eps) (by rw [Real.dist_eq, sub_zero, abs_of_pos he0]; linarith)
  refine ⟨h1.le, ?_⟩
  have key : ∀ (f : ℝ → ℝ) (c : ℝ), Continuous f → f 0 < c → ∀ᶠ u in nhds (0 : ℝ), f u < c := fun f c hf h =>
    (hf.tendsto 0).eventually_lt_const h
  have hU := (key (fun u => u) (1 / 1000) (by fun_prop) (by norm_num)).and
    ((key (fun u => (1 + u) ^ (M + 1) - 1) (1 / 100) (by fun_prop) (by norm_num)).and
    ((key (fun u => 1000 * u * (n * (nE + 2 + maxIter * (n + 3) : ℕ))) 1 (by fun_prop) (by simp)).and
    ((key (fun u => 200 * u * (n * (nE + 2 + maxIter * (n + 3) : ℕ)) * ν + 4 * ((1 + u) ^ (M + 1) - 1) * ν) σ (by fun_prop) (by simpa using hσ)).and
    ((key (fun u => 14 * (((1 + u) ^ (M + 1) - 1) * β * ν ^ 2) ^ 2) eps (by fun_prop) (by simpa using he0)).and
    ((key (fun u => 5.2 * Real.sqrt eps / σ ^ 2 + 2.2 * ((1 + u) ^ (M + 1) - 1) * β * (ν / σ)) s (by fun_prop) (by simpa using h2)).and
    (key (fun u => 2.4 * β * (ν / σ) * (((1 + u) ^ (M + 1) - 1) + 152 * u * (n * (nE + 2 + maxIter * (n + 3) : ℕ)))) s (by fun_prop) (by simpa using hs)))))))
  obtain ⟨u1, hu1, hall⟩ := Metric.eventually_nhds_iff.mp hU
  refine ⟨u1 / 2, by positivity, fun u hu0 hu => ?_⟩
  obtain ⟨k1, k2, k3, k4, k5, k6, k7⟩ := hall (y := u) (by rw [Real.dist_eq, sub_zero, abs_of_nonneg hu0]; linarith)
  exact ⟨k1.le, k2.le, k3.le, k4.le, k5.le, k6, k7.le⟩

/-- A vector within `ρ` of one of length at most `R`. -/
theorem sq_near {x y : Fin n → ℝ} {ρ R : ℝ} (hρ : 0 ≤ ρ) (hR : 0 ≤ R) (h : ∑ k, (x k - y k) ^ 2 ≤ ρ ^ 2) (hy : ∑ k, y k ^ 2 ≤ R ^ 2) :
    ∑ k, x k ^ 2 ≤ (R + ρ) ^ 2 := by
  have := sum_sq_add Finset.univ y (fun k => x k - y k) hR hρ hy h
  simpa only [add_sub_cancel] using this

/-- The scaling hypotheses, for rows of length at most `R` and right-hand sides at most `B`, and a diagonal Cholesky factor known up to ten per cent. -/
theorem system_scaled (hn : 0 < n) {A b D d : Mat} {R B h0 h1 : ℝ} (hR : 0 ≤ R) (hB : 0 ≤ B) (hh0 : 0 < h0) (hh1 : 0 < h1)
    (hrow : ∀ r < A.rows, ∑ c ∈ Finset.range n, A.e r c ^ 2 ≤ R ^ 2) (hb : ∀ r < A.rows, |b.e r 0| ≤ B)
    (hrowE : ∀ r < D.rows, ∑ c ∈ Finset.range n, D.e r c ^ 2 ≤ R ^ 2) (hbE : ∀ r < D.rows, |d.e r 0| ≤ B)
    {fl : ℝ → ℝ} {eps : ℝ} (tri : (ℕ → ℕ → ℝ) → (ℕ → ℝ) → ℕ → ℕ → ℝ) {u ρ : ℝ} {M maxIter : ℕ} (hρ : 0 ≤ ρ) (hρ1 : ρ ≤ 1) (hu : 0 ≤ u)
    {P : FQP ℝ n} (hP : GivenSystem P A b D d ρ) (δ : ℕ → ℝ) (hδ : ∀ j < n, 0.81 ≤ h1 * δ j ^ 2 ∧ h0 * δ j ^ 2 ≤ 1.21)
    (he : 2 * eps * (1.1 * n / Real.sqrt h0) ^ 2 * max 1 (2 * (1.1 * n / Real.sqrt h0) ^ 2 * (R + 1) ^ 2) ≤ 1)
    (k1 : u ≤ 1 / 1000) (k2 : (1 + u) ^ (M + 1) - 1 ≤ 1 / 100) (k3 : 1000 * u * (n * (D.rows + 2 + maxIter * (n + 3) : ℕ)) ≤ 1)
    (k4 : 200 * u * (n * (D.rows + 2 + maxIter * (n + 3) : ℕ)) * (1.1 * n / Real.sqrt h0) + 4 * ((1 + u) ^ (M + 1) - 1) * (1.1 * n / Real.sqrt h0) ≤
      0.9 / Real.sqrt h1)
    (k5 : 14 * (((1 + u) ^ (M + 1) - 1) * (R + 1) * (1.1 * n / Real.sqrt h0) ^ 2) ^ 2 ≤ eps) :
    (flArith fl eps tri n).ScaledFp u ((1 + u) ^ (M + 1) - 1) maxIter P (fun j i => if j = i then δ j else 0) (1.1 * n / Real.sqrt h0)
      (0.9 / Real.sqrt h1) (R + 1) (B + 1) := by
  have hs0 : Real.sqrt h0 ^ 2 = h0 := Real.sq_sqrt hh0.le
  have hs1 : Real.sqrt h1 ^ 2 = h1 := Real.sq_sqrt hh1.le
  have hn1 : (1 : ℝ) ≤ n := by exact_mod_cast hn
  have hmono : (R + ρ) ^ 2 ≤ (R + 1) ^ 2 := pow_le_pow_left₀ (by positivity) (by linarith) 2
  have hg0 : 0 ≤ (1 + u) ^ (M + 1) - 1 := by
    have : (1 : ℝ) ≤ (1 + u) ^ (M + 1) := one_le_pow₀ (by linarith)
    linarith
  have hmem : ∀ e ∈ P.CI, ∃ r < A.rows, e = P.CI.getD r (0, 0) := by
    intro e he
    obtain ⟨r, hr, rfl⟩ := List.mem_iff_getElem.mp he
    exact ⟨r, by rw [← hP.count]; exact hr, by rw [List.getD_eq_getElem?_getD, List.getElem?_eq_getElem hr]; rfl⟩
  have hmemE : ∀ e ∈ P.CE, ∃ r < D.rows, e = P.CE.getD r (0, 0) := by
    intro e he
    obtain ⟨r, hr, rfl⟩ := List.mem_iff_getElem.mp he
    exact ⟨r, by rw [← hP.eqCount]; exact hr, by rw [List.getD_eq_getElem?_getD, List.getElem?_eq_getElem hr]; rfl⟩
  have hinner : ∀ (v : ℕ → ℝ) (i : Fin n), ∑ j ∈ Finset.range n, v j * (if j = (i : ℕ) then δ j else 0) = v i * δ i := by
    intro v i
    rw [Finset.sum_eq_single (i : ℕ) (fun j _ hj => by rw [if_neg hj, mul_zero]) (fun h => absurd (Finset.mem_range.mpr i.2) h), if_pos rfl]
  exact {
    cond := {
      u0 := hu, u1 := k1, g0 := hg0, g1 := k2
      steps := by rw [hP.eqCount]; exact k3
      sum := by
        have e1 : ∀ j ∈ Finset.range n, ∑ i : Fin n, (if j = (i : ℕ) then δ j else 0) ^ 2 ≤ 1.21 / h0 := by
          intro j hj
          have hj := Finset.mem_range.mp hj
          rw [Finset.sum_eq_single ⟨j, hj⟩ (fun i _ hi => by
            rw [if_neg (fun e => hi (Fin.ext e.symm))]
            norm_num) (fun h => absurd (Finset.mem_univ _) h), if_pos rfl, le_div_iff₀ hh0, mul_comm]
          exact (hδ j hj).2
        refine le_trans (Finset.sum_le_card_nsmul _ _ _ e1) ?_
        rw [Finset.card_range, nsmul_eq_mul, div_pow, hs0, mul_pow, mul_div_assoc']
        refine div_le_div_of_nonneg_right ?_ hh0.le
        nlinarith
      ce := fun e he => by
        obtain ⟨r, hr, rfl⟩ := hmemE e he
        refine le_trans (sq_near hρ hR (hP.eqNormal r hr) ?_) hmono
        rw [← Finset.sum_range (fun c => D.e r c ^ 2)]
        exact hrowE r hr
      ci := fun e he => by
        obtain ⟨r, hr, rfl⟩ := hmem e he
        refine le_trans (sq_near (y := fun k : Fin n => -A.e r k) hρ hR ?_ ?_) hmono
        · simpa only [sub_neg_eq_add] using hP.normal r hr
        · simp only [neg_sq]
          rw [← Finset.sum_range (fun c => A.e r c ^ 2)]
          exact hrow r hr
      eps := he }
    ν0 := by positivity
    β0 := by positivity
    σ0 := by positivity
    b0 := by positivity
    low := fun v => by
      simp only [hinner]
      rw [div_pow, hs1, Finset.sum_range, Finset.mul_sum]
      refine Finset.sum_le_sum fun i _ => ?_
      rw [mul_pow, mul_comm]
      refine mul_le_mul_of_nonneg_left ?_ (sq_nonneg _)
      have := (hδ i i.2).1
      rw [div_le_iff₀ hh1]
      norm_num at this ⊢
      linarith
    small := by rw [hP.eqCount]; exact k4
    eps := k5
    ce := fun e he => by
      obtain ⟨r, hr, rfl⟩ := hmemE e he
      have e1 := hP.eqOffset r hr
      have e2 := hbE r hr
      have e3 := _root_.abs_sub ((P.CE.getD r (0, 0)).2 + d.e r 0) (d.e r 0)
      rw [add_sub_cancel_right] at e3
      linarith
    ci := fun e he => by
      obtain ⟨r, hr, rfl⟩ := hmem e he
      have e1 := hP.offset r hr
      have e2 := hb r hr
      have e3 := abs_add_le ((P.CI.getD r (0, 0)).2 - b.e r 0) (b.e r 0)
      rw [sub_add_cancel] at e3
      linarith }

/-- C99, the hypotheses are met: when the generators of every phase span the space of wrenches, if the threshold `eps` of the solver is small for the
data, the relative error `u` of the arithmetic is small for the data and for `eps`, and the rows are known up to an error `ρ` that is small for the data, then the solver with all operations
rounded, sums computed from left to right and a Cholesky factor known up to ten per cent meets all hypotheses of `C99_forces` and
`C99_forces_rounded`. -/
theorem C99_scale_exists (κ : ℝ) (pData : ProblemData) (Ts : List ℝ) (gr : V3) (h : AcceptedC pData Ts gr) (hr : pData.representation ≠ DOUBLE_DESCRIPTION)
    (hsp : ∀ ct ∈ pData.contacts, ∀ e, ct.contactPhase = some e → Spans e) {k : ℝ} (hk : 0 < k) :
    ∃ S A b, computeConstraintsContinuous κ pData Ts = .ok S ∧ addConstraintMinBoundQuadProg S.minBounds S.A S.b = .ok (A, b) ∧ S.D.rows ≤ S.A.cols ∧
      ∃ ν σ β B s ρ0, 0 < ρ0 ∧ MatSep S.D s ∧ ∀ (maxIter M : ℕ), A.rows ≤ M → S.A.cols ≤ M → ∃ ε0 > (0 : ℝ), ∀ eps, 0 < eps → eps ≤ ε0 →
      ∃ u0 > (0 : ℝ), ∀ u ρ, 0 ≤ u → u ≤ u0 → 0 ≤ ρ → ρ ≤ ρ0 →
      ∀ (fl : ℝ → ℝ) (tri : (ℕ → ℕ → ℝ) → (ℕ → ℝ) → ℕ → ℕ → ℝ) (P : FQP ℝ S.A.cols) (δ : ℕ → ℝ) (x0 : Fin S.A.cols → ℝ) (w : FWork ℝ S.A.cols),
        (∀ x, |fl x - x| ≤ u * |x|) → GivenSystem P A b S.D S.d ρ →
        (∀ j < S.A.cols, 0.81 ≤ (costH (S.A.cols - 3) k).e j j * δ j ^ 2 ∧ (costH (S.A.cols - 3) k).e j j * δ j ^ 2 ≤ 1.21) →
      ∃ X, 0 ≤ X ∧ (flArith fl eps tri S.A.cols).Rounded M u ((1 + u) ^ (M + 1) - 1) ∧ P.CI.length ≤ M ∧
        (flArith fl eps tri S.A.cols).ScaledFp u ((1 + u) ^ (M + 1) - 1) maxIter P (fun j i => if j = i then δ j else 0) ν σ β B ∧
        (∀ q, (flArith fl eps tri S.A.cols).Reach maxIter P (fun j i => if j = i then δ j else 0)
          (.eq 0 ((flArith fl eps tri S.A.cols).init P (fun j i => if j = i then δ j else 0) x0 w)) q → ∑ k, (st q).x k ^ 2 ≤ X ^ 2) ∧
        ρ ≤ s ∧ SepMargin S.A.cols S.D.rows u ((1 + u) ^ (M + 1) - 1) eps ν σ β maxIter (s - ρ) := by
  obtain ⟨S, hS, h1, h2, h3, h4, h5, h6, h7, h8⟩ := C21_in_bounds_and_complete κ pData Ts gr h
  obtain ⟨A, b, hA, a1, a2, a3, -, a5⟩ := minBound_satTol S.minBounds S.A S.b (Or.inr (h8 hr)) h1 h2
  obtain ⟨hsize, hind⟩ := force_independent κ pData Ts gr h hr hsp S hS
  rw [← h5] at hind
  obtain ⟨s, hs0, hsep⟩ := matSep_of_independent S.D hind
  obtain ⟨B1, b1, hB1⟩ := nat_bound (fun r => ∑ c ∈ Finset.range S.A.cols, A.e r c ^ 2) A.rows
  obtain ⟨B2, b2, hB2⟩ := nat_bound (fun r => ∑ c ∈ Finset.range S.A.cols, S.D.e r c ^ 2) S.D.rows
  obtain ⟨B3, b3, hB3⟩ := rhs_bound b A.rows
  obtain ⟨B4, b4, hB4⟩ := rhs_bound S.d S.D.rows
  have hR : 1 ≤ max B1 B2 := b1.trans (le_max_left _ _)
  have hsq : max B1 B2 ≤ max B1 B2 ^ 2 := by nlinarith
  have hmin : 0 < min k 1e-6 := lt_min hk (by norm_num)
  have hmax : 0 < max k 1e-6 := lt_max_of_lt_left hk
  refine ⟨S, A, b, hS, hA, hsize, 1.1 * S.A.cols / Real.sqrt (min k 1e-6), 0.9 / Real.sqrt (max k 1e-6), max B1 B2 + 1, max B3 B4 + 1, s, min 1 (s / 2),
    by positivity, hsep, fun maxIter M hM hM' => ?_⟩
  obtain ⟨ε0, hε0, hall⟩ := small_system_exists S.A.cols S.D.rows maxIter M (ν := 1.1 * S.A.cols / Real.sqrt (min k 1e-6)) (σ := 0.9 / Real.sqrt (max k 1e-6))
    (β := max B1 B2 + 1) (by positivity) (half_pos hs0)
  refine ⟨ε0, hε0, fun eps he0 he => ?_⟩
  obtain ⟨he1, u0, hu0, hall⟩ := hall eps he0 he
  refine ⟨u0, hu0, fun u ρ hu hu' hρ hρ' fl tri P δ x0 w hfl hP hδ => ?_⟩
  obtain ⟨k1, k2, k3, k4, k5, k6, k7⟩ := hall u hu hu'
  have hρ1 : ρ ≤ 1 := hρ'.trans (min_le_left _ _)
  have hρs : ρ ≤ s / 2 := hρ'.trans (min_le_right _ _)
  have hC := system_scaled (n := S.A.cols) (by omega) (fl := fl) (zero_le_one.trans hR) (le_max_of_le_left b3) hmin hmax
    (fun r hr => (hB1 r hr).trans ((le_max_left _ _).trans hsq)) (fun r hr => (hB3 r hr).trans (le_max_left _ _))
    (fun r hr => (hB2 r hr).trans ((le_max_right _ _).trans hsq)) (fun r hr => (hB4 r hr).trans (le_max_right _ _)) tri hρ hρ1 hu hP δ (fun j hj => by
      obtain ⟨d1, d2⟩ := hδ j hj
      have hd := sq_nonneg (δ j)
      have hc : (costH (S.A.cols - 3) k).e j j = if j < 3 then k else 1e-6 := by simp [costH]
      rw [hc] at d1 d2
      split_ifs at d1 d2
      · exact ⟨d1.trans (mul_le_mul_of_nonneg_right (le_max_left _ _) hd), (mul_le_mul_of_nonneg_right (min_le_left _ _) hd).trans d2⟩
      · exact ⟨d1.trans (mul_le_mul_of_nonneg_right (le_max_right _ _) hd), (mul_le_mul_of_nonneg_right (min_le_right _ _) hd).trans d2⟩)
    he1 k1 k2 k3 k4 k5
  have hro := C87_left_to_right (n := S.A.cols) (m := M) (N := M) hu hfl he0.le tri hM' le_rfl
  obtain ⟨X, hX, hx⟩ := reach_radius _ hro maxIter P (by rw [hP.eqCount]; exact hsize) (fun j i => if j = i then δ j else 0) x0 w hC.cond
  exact ⟨X, hX, hro, by rw [hP.count]; exact hM, hC, hx, by linarith, by linarith, by linarith⟩

/-- The problem that the code gives to the solver, with exact rows. -/
noncomputable def systemQP (n : ℕ) (k : ℝ) (w : V3) (A b D d : Mat) : FQP ℝ n where
  G := fun i j => (costH (n - 3) k).e i j
  g := fun i => (costG (n - 3) w).e i 0
  CE := (List.range D.rows).map fun r => (fun c : Fin n => D.e r c, -d.e r 0)
  CI := (List.range A.rows).map fun r => (fun c : Fin n => -A.e r c, b.e r 0)

theorem systemQP_given (k : ℝ) (w : V3) {A D : Mat} (b d : Mat) (hA : A.cols = n) (hD : D.cols = n) : GivenSystem (systemQP n k w A b D d) A b D d 0 := by
  have hget : ∀ r < A.rows, (systemQP n k w A b D d).CI.getD r (0, 0) = (fun c : Fin n => -A.e r c, b.e r 0) := by
    intro r hr
    show (((List.range A.rows).map fun r => (fun c : Fin n => -A.e r c, b.e r 0)).getD r (0, 0)) = _
    rw [List.getD_eq_getElem?_getD, List.getElem?_map, List.getElem?_range hr]
    rfl
  have hgetE : ∀ r < D.rows, (systemQP n k w A b D d).CE.getD r (0, 0) = (fun c : Fin n => D.e r c, -d.e r 0) := by
    intro r hr
    show (((List.range D.rows).map fun r => (fun c : Fin n => D.e r c, -d.e r 0)).getD r (0, 0)) = _
    rw [List.getD_eq_getElem?_getD, List.getElem?_map, List.getElem?_range hr]
    rfl
  refine ⟨by simp [systemQP], hD, fun r hr => ?_, fun r hr => ?_, by simp [systemQP], hA, fun r hr => ?_, fun r hr => ?_⟩
  · rw [hgetE r hr]
    simp
  · rw [hgetE r hr]
    simp
  · rw [hget r hr]
    simp
  · rw [hget r hr]
    simp

/-- C99, a case: the phase whose generators span the space of wrenches meets all hypotheses of `C99_forces`, with a solver that rounds every
operation. -/
theorem C99_case (κ : ℝ) :
    ∃ pts Γ, AcceptedC gripProblem [3] ![0, 0, -10] ∧ gripProblem.representation ≠ DOUBLE_DESCRIPTION ∧ gripProblem.flag ∈ [11#32, 19#32, 27#32, 7#32, 15#32] ∧
      (∀ ct ∈ gripProblem.contacts, ∀ e, ct.contactPhase = some e → 100 ≤ e.mass) ∧
      NestedPhases gripProblem.contacts ∧ GenBound gripProblem Γ ∧ computeConstantWaypoints gripProblem.flag gripProblem.bc ([3] : List ℝ).sum = .ok pts ∧
      (∀ i < pts.length, i ∉ freeSlots gripProblem.flag → ∃ k, 1e-12 < |nth pts i k|) ∧
      ∃ S A b, computeConstraintsContinuous κ gripProblem [3] = .ok S ∧ addConstraintMinBoundQuadProg S.minBounds S.A S.b = .ok (A, b) ∧ S.D.rows ≤ S.A.cols ∧
        ∃ ν σ β B s, MatSep S.D s ∧ ∃ eps > (0 : ℝ), ∃ u > (0 : ℝ), ∃ M,
        ∀ (fl : ℝ → ℝ) (tri : (ℕ → ℕ → ℝ) → (ℕ → ℝ) → ℕ → ℕ → ℝ) (x0 : Fin S.A.cols → ℝ) (w : FWork ℝ S.A.cols), (∀ x, |fl x - x| ≤ u * |x|) →
        ∃ (P : FQP ℝ S.A.cols) (J0 : ℕ → Fin S.A.cols → ℝ) (X : ℝ), 0 ≤ X ∧ GivenSystem P A b S.D S.d 0 ∧
          (flArith fl eps tri S.A.cols).Rounded M u ((1 + u) ^ (M + 1) - 1) ∧ P.CI.length ≤ M ∧
          (flArith fl eps tri S.A.cols).ScaledFp u ((1 + u) ^ (M + 1) - 1) 1000 P J0 ν σ β B ∧
          (∀ q, (flArith fl eps tri S.A.cols).Reach 1000 P J0 (.eq 0 ((flArith fl eps tri S.A.cols).init P J0 x0 w)) q → ∑ k, (st q).x k ^ 2 ≤ X ^ 2) ∧
          0 ≤ s ∧ SepMargin S.A.cols S.D.rows u ((1 + u) ^ (M + 1) - 1) eps ν σ β 1000 (s - 0) := by
  have hacc := gripProblem_accepted
  have hrep : gripProblem.representation ≠ DOUBLE_DESCRIPTION := by simp [gripProblem, standProblem, DOUBLE_DESCRIPTION]
  have hmass : ∀ ct ∈ gripProblem.contacts, ∀ e, ct.contactPhase = some e → 100 ≤ e.mass := by
    intro ct hct e he
    simp only [gripProblem, List.mem_singleton] at hct
    subst hct
    simp only [standContact, Option.some.injEq] at he
    subst he
    norm_num
  obtain ⟨-, -, -, Γ, -, pts, -, -, -, h1, h2, h3, h4, -⟩ := gripProblem_tolerance κ
  refine ⟨pts, Γ, hacc, hrep, by simp [gripProblem, standProblem], hmass, h1, h2, h3, h4, ?_⟩
  obtain ⟨S, A, b, hS, hA, hsize, ν, σ, β, B, s, ρ0, hρ0, hsep, hall⟩ := C99_scale_exists κ gripProblem [3] _ hacc hrep gripProblem_spans (k := 1) one_pos
  obtain ⟨ε0, hε0, hall⟩ := hall 1000 (max A.rows S.A.cols) (le_max_left _ _) (le_max_right _ _)
  obtain ⟨u0, hu0, hall⟩ := hall ε0 hε0 le_rfl
  obtain ⟨S', hS', q1, q2, q3, q4, q5, -, -, q8⟩ := C21_in_bounds_and_complete κ gripProblem [3] _ hacc
  rw [hS] at hS'
  cases hS'
  obtain ⟨A', b', hA', a1, a2, -⟩ := minBound_satTol S.minBounds S.A S.b (Or.inr (q8 hrep)) q1 q2
  rw [hA] at hA'
  cases hA'
  refine ⟨S, A, b, hS, hA, hsize, ν, σ, β, B, s, hsep, ε0, hε0, u0, hu0, max A.rows S.A.cols, fun fl tri x0 w hfl => ?_⟩
  have hP := systemQP_given (n := S.A.cols) 1 0 (A := A) (D := S.D) b S.d a1 q5
  obtain ⟨X, hX, r1, r2, r3, r4, r5, r6⟩ := hall u0 0 hu0.le le_rfl le_rfl hρ0.le fl tri _ (fun j => 1 / Real.sqrt ((costH (S.A.cols - 3) 1).e j j)) x0 w hfl hP
    (fun j hj => by
      have hc : 0 < (costH (S.A.cols - 3) 1).e j j := by
        have : (costH (S.A.cols - 3) 1).e j j = if j < 3 then 1 else 1e-6 := by simp [costH]
        rw [this]
        split_ifs <;> norm_num
      rw [div_pow, Real.sq_sqrt hc.le, one_pow, mul_one_div_cancel hc.ne']
      norm_num)
  exact ⟨_, _, X, hX, hP, r1, r2, r3, r4, r5, r6⟩

end Verif
