import Verif.Props.C88
import Verif.Props.C56RoundedTol
import Verif.Lemmas.QuadFpExact
import Verif.Props.C71Ex

/-!
# C90: the planner on samples with a solver that rounds
-/

namespace Verif

open Arith

variable {n : ℕ}

/-! ## Specification -/

/-- The inequalities given to the solver are `A x ≤ b`, with every row and every right-hand side known up to `ρ`; there are no equalities. -/
structure GivenRows (P : FQP ℝ n) (A b : Mat) (ρ : ℝ) : Prop where
  noEq : P.CE = []
  count : P.CI.length = A.rows
  cols : A.cols = n
  normal : ∀ r < A.rows, ∑ k, ((P.CI.getD r (0, 0)).1 k + A.e r k) ^ 2 ≤ ρ ^ 2
  offset : ∀ r < A.rows, |(P.CI.getD r (0, 0)).2 - b.e r 0| ≤ ρ

/-- The error of the inequalities at a point returned with `OPTIMAL`, by C88. -/
noncomputable def fpTol (o : Arith ℝ n) (u g : ℝ) (maxIter : ℕ) (P : FQP ℝ n) (J0 : ℕ → Fin n → ℝ) (ν σ β b X : ℝ) : ℝ :=
  let C : ℝ := (P.CE.length + 2 + maxIter * (n + 3) : ℕ)
  max (105 * P.CI.length * o.eps * (∑ i, |P.G i i|) * (∑ i : Fin n, |J0 i.val i|) + g * (β * X + b))
    (6 * (g + u) * (β * X + b) + C * (β * X) * (12 * (g + 80 * u * (n * C)) * (ν / σ) + 4 * u))

theorem fpTol_nonneg {o : Arith ℝ n} {m : ℕ} {u g : ℝ} (ho : o.Rounded m u g) {maxIter : ℕ} {P : FQP ℝ n} {J0 : ℕ → Fin n → ℝ} {ν σ β b X : ℝ}
    (hC : o.ScaledFp u g maxIter P J0 ν σ β b) (hX : 0 ≤ X) : 0 ≤ fpTol o u g maxIter P J0 ν σ β b X := by
  have := ho.eps
  have : 0 ≤ ∑ i, |P.G i i| := Finset.sum_nonneg fun _ _ => abs_nonneg _
  have : 0 ≤ ∑ i : Fin n, |J0 i.val i| := Finset.sum_nonneg fun _ _ => abs_nonneg _
  have := hC.β0
  have := hC.b0
  have := hC.cond.g0
  refine le_trans ?_ (le_max_left _ _)
  positivity

theorem optimal_rows (o : Arith ℝ n) {m : ℕ} {u g : ℝ} (ho : o.Rounded m u g) (maxIter : ℕ) (P : FQP ℝ n)
    (hm : P.CI.length ≤ m) (J0 : ℕ → Fin n → ℝ) (x0 : Fin n → ℝ) (w : FWork ℝ n) {ν σ β b X : ℝ}
    (hC : o.ScaledFp u g maxIter P J0 ν σ β b) (hX : 0 ≤ X)
    (hx : ∀ q, o.Reach maxIter P J0 (.eq 0 (o.init P J0 x0 w)) q → ∑ k, (st q).x k ^ 2 ≤ X ^ 2)
    {A B : Mat} {ρ : ℝ} (hρ : 0 ≤ ρ) (hP : GivenRows P A B ρ) :
    ∃ r s, (∀ fuel ≥ P.CE.length + 2 + maxIter * (n + 3), o.solve maxIter P J0 x0 w fuel = .ok (r, s)) ∧ ∑ k, s.x k ^ 2 ≤ X ^ 2 ∧
      (r = .optimal → SatTol A B (fpTol o u g maxIter P J0 ν σ β b X + ρ * (X + 1)) (extN s.x)) := by
  have hE : P.CE.length ≤ n := by rw [hP.noEq]; exact Nat.zero_le _
  have hacc := (C87_rounded o ho maxIter P hE J0 x0 w hC.cond).1
  obtain ⟨r, s, h1, h2⟩ := Arith.run_good ho.sane hacc _ (.eq 0 (o.init P J0 x0 w)) le_rfl ⟨rfl, Nat.zero_le _, hE, rfl⟩ .refl
  have hs : ∀ fuel ≥ P.CE.length + 2 + maxIter * (n + 3), o.solve maxIter P J0 x0 w fuel = .ok (r, s) :=
    fun fuel hf => h1 fuel (by simpa [Arith.cost] using hf)
  have hxs : ∑ k, s.x k ^ 2 ≤ X ^ 2 := hx _ h2
  refine ⟨r, s, hs, hxs, ?_⟩
  rintro rfl
  obtain ⟨-, -, h3⟩ := C88_constraints o ho maxIter P hE hm J0 x0 w hC hX hx
    (fun i s _ hi => absurd hi (by rw [hP.noEq]; exact Nat.not_lt_zero _)) _ le_rfl s (hs _ le_rfl)
  intro i hi
  have hi' : i < P.CI.length := by rw [hP.count]; exact hi
  have k1 := h3 i hi'
  have hmem := getD_mem hi' ((0, 0) : (Fin n → ℝ) × ℝ)
  have k2 := mag_le hC.β0 hX (hC.cond.ci _ hmem) hxs (hC.ci _ hmem)
  have k3 : max (105 * P.CI.length * o.eps * (∑ i, |P.G i i|) * (∑ i : Fin n, |J0 i.val i|) + g * mag (P.CI.getD i (0, 0)) s.x)
      (6 * (g + u) * (β * X + b) + ((P.CE.length + 2 + maxIter * (n + 3) : ℕ) : ℝ) * (β * X) *
        (12 * (g + 80 * u * (n * ((P.CE.length + 2 + maxIter * (n + 3) : ℕ) : ℝ))) * (ν / σ) + 4 * u)) ≤ fpTol o u g maxIter P J0 ν σ β b X :=
    max_le_max (by have := mul_le_mul_of_nonneg_left k2 hC.cond.g0; linarith) le_rfl
  have k4 := abs_sum_mul_le Finset.univ (fun k => (P.CI.getD i (0, 0)).1 k + A.e i k) s.x hρ hX (hP.normal i hi) hxs
  have k5 := hP.offset i hi
  have e1 : ∑ c ∈ Finset.range A.cols, A.e i c * extN s.x c =
      ∑ k, ((P.CI.getD i (0, 0)).1 k + A.e i k) * s.x k - ∑ k, (P.CI.getD i (0, 0)).1 k * s.x k := by
    rw [hP.cols, Finset.sum_range, ← Finset.sum_sub_distrib]
    refine Finset.sum_congr rfl fun k _ => ?_
    unfold extN
    rw [dif_pos k.2]
    ring
  rw [e1]
  have k6 := (abs_le.mp k4).2
  have k7 := (abs_le.mp k5).2
  unfold val at k1
  linarith

theorem ext3_ofFn (x : Fin 3 → ℝ) : ext3 (first3 (unk (List.ofFn x))) = extN x := by
  funext c
  unfold ext3 extN first3 unk
  by_cases hc : c < 3
  · rw [dif_pos hc, dif_pos hc]
    show (List.ofFn x).getD c 0 = _
    simp only [List.getD_eq_getElem?_getD, List.getElem?_ofFn, dif_pos hc, Option.getD_some]
  · rw [dif_neg hc, dif_neg hc]

/-- C90, the five sets whose coefficients are exact. -/
theorem C90_samples (pData : ProblemData) (Ts : List ℝ) (gr : V3) (h : Accepted pData Ts gr)
    (hf : pData.flag ∈ [11#32, 19#32, 27#32, 7#32, 15#32]) (l : TTime) (hl : Discretisation Ts l)
    (hc : pData.costFunction = DISTANCE_TRAVELED ∨ pData.costFunction = ACCELERATION) {k R : ℝ} (hs : DataScale pData Ts.sum l gr k R) :
    ∃ A b, computeConstraintsOneStep pData Ts.length Ts.sum l = .ok (A, b) ∧
      ∀ (o : Arith ℝ 3) (m : ℕ) (u g : ℝ) (_ : o.Rounded m u g) (maxIter : ℕ) (P : FQP ℝ 3) (_ : P.CI.length ≤ m) (J0 : ℕ → Fin 3 → ℝ)
        (x0 : Fin 3 → ℝ) (w : FWork ℝ 3) (ν σ β B X ρ : ℝ) (_ : o.ScaledFp u g maxIter P J0 ν σ β B) (_ : 0 ≤ X)
        (_ : ∀ q, o.Reach maxIter P J0 (.eq 0 (o.init P J0 x0 w)) q → ∑ k, (st q).x k ^ 2 ≤ X ^ 2) (_ : 0 ≤ ρ) (_ : GivenRows P A b ρ),
      ∃ r s, (∀ fuel ≥ P.CE.length + 2 + maxIter * (3 + 3), o.solve maxIter P J0 x0 w fuel = .ok (r, s)) ∧
        ∃ res, genTraj { success := r = .optimal, cost := if r = .optimal then s.f else -1, x := List.ofFn s.x } pData Ts.sum = .ok res ∧
          (res.success = true ↔ r = .optimal) ∧
          (res.success = true → MeetsBoundary pData.flag pData.bc res.c_of_t.eval Ts.sum ∧
            ∃ v a, Motion pData Ts.sum res.point res.c_of_t.eval v a ∧
              MeetsSamplesTol pData l (R * (fpTol o u g maxIter P J0 ν σ β B X + ρ * (X + 1)))
                (fpTol o u g maxIter P J0 ν σ β B X + ρ * (X + 1)) res.c_of_t.eval a) := by
  have hgc := goodCost pData Ts h.total h.ne h.flag h.capt l hl (hc.imp_right fun hc => ⟨hc, fun e => by rw [e] at hf; simp at hf⟩)
  obtain ⟨A, b, w', K, pts, hpts, hA, hk, hgen, -, hcols, hfits, hRow, hmeet⟩ := planSamples_rows pData Ts gr h hf l hl hgc hs
  refine ⟨A, b, hA, ?_⟩
  intro o m u g ho maxIter P hm J0 x0 w ν σ β B X ρ hC hX hx hρ hP
  obtain ⟨r, s, hrun, hxs, hsat⟩ := optimal_rows o ho maxIter P hm J0 x0 w hC hX hx hρ hP
  refine ⟨r, s, hrun, ?_⟩
  obtain ⟨res, hres, hss, hgood⟩ := genTraj_total { success := r = .optimal, cost := if r = .optimal then s.f else -1, x := List.ofFn s.x }
    pData Ts.sum h.total pts hpts h.flag (by simp)
  have hiff : res.success = true ↔ r = .optimal := by rw [hss]; exact decide_eq_true_iff
  refine ⟨res, hres, hiff, fun hrs => ?_⟩
  obtain ⟨hp, -, hcurve⟩ := hgood (by rw [← hss]; exact hrs)
  refine ⟨by rw [hcurve]; exact (C01_boundary_conditions pData.flag h.flag pData.bc Ts.sum h.total.ne' pts hpts res.point).2, ?_⟩
  obtain ⟨v, a, hmo⟩ := motion_exists pData Ts.sum pts hpts h.flag h.total.ne' res.point
  rw [← hcurve] at hmo
  refine ⟨v, a, hmo, (hmeet _ _ _ _ hmo).1 _ ?_ ?_⟩
  · have := fpTol_nonneg ho hC hX
    positivity
  · have := hsat (hiff.mp hrs)
    have e : ext3 res.point = extN s.x := by
      rw [hp]
      exact ext3_ofFn s.x
    rw [e]
    exact this

/-- C90, the two sets whose coefficients are rounded decimals. -/
theorem C90_samples_rounded (pData : ProblemData) (Ts : List ℝ) (gr : V3) (h : Accepted pData Ts gr)
    (hf : pData.flag ∈ [31#32, 63#32]) (l : TTime) (hl : Discretisation Ts l)
    (hc : pData.costFunction = DISTANCE_TRAVELED ∨ pData.costFunction = ACCELERATION ∧ pData.flag ≠ 63#32) {k R : ℝ} (hs : CodedScale pData Ts.sum l k R) :
    ∃ A b, computeConstraintsOneStep pData Ts.length Ts.sum l = .ok (A, b) ∧
      ∀ (o : Arith ℝ 3) (m : ℕ) (u g : ℝ) (_ : o.Rounded m u g) (maxIter : ℕ) (P : FQP ℝ 3) (_ : P.CI.length ≤ m) (J0 : ℕ → Fin 3 → ℝ)
        (x0 : Fin 3 → ℝ) (w : FWork ℝ 3) (ν σ β B X ρ : ℝ) (_ : o.ScaledFp u g maxIter P J0 ν σ β B) (_ : 0 ≤ X)
        (_ : ∀ q, o.Reach maxIter P J0 (.eq 0 (o.init P J0 x0 w)) q → ∑ k, (st q).x k ^ 2 ≤ X ^ 2) (_ : 0 ≤ ρ) (_ : GivenRows P A b ρ),
      ∃ r s, (∀ fuel ≥ P.CE.length + 2 + maxIter * (3 + 3), o.solve maxIter P J0 x0 w fuel = .ok (r, s)) ∧
        ∃ res, genTraj { success := r = .optimal, cost := if r = .optimal then s.f else -1, x := List.ofFn s.x } pData Ts.sum = .ok res ∧
          (res.success = true ↔ r = .optimal) ∧
          (res.success = true → MeetsBoundary pData.flag pData.bc res.c_of_t.eval Ts.sum ∧
            ∃ v a, Motion pData Ts.sum res.point res.c_of_t.eval v a ∧
              ∀ M G, Sizes pData Ts.sum gr res.point M G → MeetsSamplesUpToTol pData l (roundErr M G Ts.sum) (R * (fpTol o u g maxIter P J0 ν σ β B X + ρ * (X + 1)))
                (fpTol o u g maxIter P J0 ν σ β B X + ρ * (X + 1)) res.c_of_t.eval a) := by
  have hgc := goodCost pData Ts h.total h.ne h.flag h.capt l hl hc
  obtain ⟨A, b, w', K, pts, hpts, hA, hk, hgen, -, hcols, hfits, hRow, hmeet⟩ := planCoded_rows pData Ts gr h hf l hl hgc hs
  refine ⟨A, b, hA, ?_⟩
  intro o m u g ho maxIter P hm J0 x0 w ν σ β B X ρ hC hX hx hρ hP
  obtain ⟨r, s, hrun, hxs, hsat⟩ := optimal_rows o ho maxIter P hm J0 x0 w hC hX hx hρ hP
  refine ⟨r, s, hrun, ?_⟩
  obtain ⟨res, hres, hss, hgood⟩ := genTraj_total { success := r = .optimal, cost := if r = .optimal then s.f else -1, x := List.ofFn s.x }
    pData Ts.sum h.total pts hpts h.flag (by simp)
  have hiff : res.success = true ↔ r = .optimal := by rw [hss]; exact decide_eq_true_iff
  refine ⟨res, hres, hiff, fun hrs => ?_⟩
  obtain ⟨hp, -, hcurve⟩ := hgood (by rw [← hss]; exact hrs)
  refine ⟨by rw [hcurve]; exact (C01_boundary_conditions pData.flag h.flag pData.bc Ts.sum h.total.ne' pts hpts res.point).2, ?_⟩
  obtain ⟨v, a, hmo⟩ := motion_exists pData Ts.sum pts hpts h.flag h.total.ne' res.point
  rw [← hcurve] at hmo
  refine ⟨v, a, hmo, fun M G hMG => (hmeet _ _ _ _ _ _ hmo hMG).1 _ ?_ ?_⟩
  · have := fpTol_nonneg ho hC hX
    positivity
  · have := hsat (hiff.mp hrs)
    have e : ext3 res.point = extN s.x := by
      rw [hp]
      exact ext3_ofFn s.x
    rw [e]
    exact this

/-- C90, the continuous formulation, the five sets whose coefficients are exact. `0 ≤ t ≤ T` in place of the samples. -/
theorem C90_continuous (κ : ℝ) (pData : ProblemData) (Ts : List ℝ) (gr : V3) (h : AcceptedC pData Ts gr) (hr : pData.representation = DOUBLE_DESCRIPTION)
    (hf : pData.flag ∈ [11#32, 19#32, 27#32, 7#32, 15#32])
    (hc : pData.costFunction = DISTANCE_TRAVELED ∨ pData.costFunction = ACCELERATION)
    (pts : List V3) (hpts : computeConstantWaypoints pData.flag pData.bc Ts.sum = .ok pts)
    (hz : ∀ i < pts.length, i ∉ freeSlots pData.flag → ∃ k, 1e-12 < |nth pts i k|) {k R : ℝ}
    (hs : ContScale κ pData Ts.sum (computeDiscretizedTimeFixed Ts 7) k R) :
    ∃ S, computeConstraintsContinuous κ pData Ts = .ok S ∧
      ∀ (o : Arith ℝ 3) (m : ℕ) (u g : ℝ) (_ : o.Rounded m u g) (maxIter : ℕ) (P : FQP ℝ 3) (_ : P.CI.length ≤ m) (J0 : ℕ → Fin 3 → ℝ)
        (x0 : Fin 3 → ℝ) (w : FWork ℝ 3) (ν σ β B X ρ : ℝ) (_ : o.ScaledFp u g maxIter P J0 ν σ β B) (_ : 0 ≤ X)
        (_ : ∀ q, o.Reach maxIter P J0 (.eq 0 (o.init P J0 x0 w)) q → ∑ k, (st q).x k ^ 2 ≤ X ^ 2) (_ : 0 ≤ ρ) (_ : GivenRows P S.A S.b ρ),
      ∃ r s, (∀ fuel ≥ P.CE.length + 2 + maxIter * (3 + 3), o.solve maxIter P J0 x0 w fuel = .ok (r, s)) ∧
        ∃ res, genTraj { success := r = .optimal, cost := if r = .optimal then s.f else -1, x := List.ofFn s.x } pData Ts.sum = .ok res ∧
          (res.success = true ↔ r = .optimal) ∧
          (res.success = true → MeetsBoundary pData.flag pData.bc res.c_of_t.eval Ts.sum ∧
            ∃ v a, IsDeriv res.c_of_t.eval v ∧ IsDeriv v a ∧
              (∀ p t, InPhase Ts p t → AtPhase pData.contacts p fun ct e =>
                PhaseOkTol ct e pData.reduce_h (R * (fpTol o u g maxIter P J0 ν σ β B X + ρ * (X + 1))) (fpTol o u g maxIter P J0 ν σ β B X + ρ * (X + 1))
                  (res.c_of_t.eval t) (a t)) ∧
              ∀ p t, InPhase Ts p t → ∀ j,
                |κ * Ts.sum ^ 2 * a t j| ≤ pData.maxAcceleration + (fpTol o u g maxIter P J0 ν σ β B X + ρ * (X + 1))) := by
  obtain ⟨ct, e, pts', ws, S, w', -, Raw, hlip, hk, hgen, -, hmin, hcols, hDr, hfits, hRow⟩ := cont_system κ pData Ts gr h hr (hc.imp_right fun hc => ⟨hc, fun e => by rw [e] at hf; simp at hf⟩) hs
  have hpp := Raw.hpts
  rw [hpts] at hpp
  cases hpp
  refine ⟨S, Raw.hS, ?_⟩
  intro o m u g ho maxIter P hm J0 x0 w ν σ β B X ρ hC hX hx hρ hP
  obtain ⟨r, s, hrun, hxs, hsat⟩ := optimal_rows o ho maxIter P hm J0 x0 w hC hX hx hρ hP
  refine ⟨r, s, hrun, ?_⟩
  obtain ⟨res, hres, hss, hgood⟩ := genTraj_total { success := r = .optimal, cost := if r = .optimal then s.f else -1, x := List.ofFn s.x }
    pData Ts.sum h.total pts hpts h.flag (by simp)
  have hiff : res.success = true ↔ r = .optimal := by rw [hss]; exact decide_eq_true_iff
  refine ⟨res, hres, hiff, fun hrs => ?_⟩
  obtain ⟨hp, -, hcurve⟩ := hgood (by rw [← hss]; exact hrs)
  refine ⟨by rw [hcurve]; exact (C01_boundary_conditions pData.flag h.flag pData.bc Ts.sum h.total.ne' pts hpts res.point).2, ?_⟩
  have hδ := fpTol_nonneg ho hC hX
  refine cont_meets h hr hf Raw hz hs.one hlip (by positivity) res.point ?_ hcurve
  rw [hp]
  show SatTol S.A S.b _ (ext3 (first3 (unk (List.ofFn s.x))))
  rw [ext3_ofFn]
  exact hsat (hiff.mp hrs)

/-- C90, the continuous formulation, the two sets whose coefficients are rounded decimals. -/
theorem C90_continuous_rounded (κ : ℝ) (pData : ProblemData) (Ts : List ℝ) (gr : V3) (h : AcceptedC pData Ts gr) (hr : pData.representation = DOUBLE_DESCRIPTION)
    (hf : pData.flag ∈ [31#32, 63#32])
    (hc : pData.costFunction = DISTANCE_TRAVELED ∨ pData.costFunction = ACCELERATION ∧ pData.flag ≠ 63#32)
    (pts : List V3) (hpts : computeConstantWaypoints pData.flag pData.bc Ts.sum = .ok pts)
    (hz : ∀ i < pts.length, i ∉ freeSlots pData.flag → ∃ k, 1e-12 < |nth pts i k|) {k R : ℝ}
    (hs : ContScale κ pData Ts.sum (computeDiscretizedTimeFixed Ts 7) k R) :
    ∃ S, computeConstraintsContinuous κ pData Ts = .ok S ∧
      ∀ (o : Arith ℝ 3) (m : ℕ) (u g : ℝ) (_ : o.Rounded m u g) (maxIter : ℕ) (P : FQP ℝ 3) (_ : P.CI.length ≤ m) (J0 : ℕ → Fin 3 → ℝ)
        (x0 : Fin 3 → ℝ) (w : FWork ℝ 3) (ν σ β B X ρ : ℝ) (_ : o.ScaledFp u g maxIter P J0 ν σ β B) (_ : 0 ≤ X)
        (_ : ∀ q, o.Reach maxIter P J0 (.eq 0 (o.init P J0 x0 w)) q → ∑ k, (st q).x k ^ 2 ≤ X ^ 2) (_ : 0 ≤ ρ) (_ : GivenRows P S.A S.b ρ),
      ∃ r s, (∀ fuel ≥ P.CE.length + 2 + maxIter * (3 + 3), o.solve maxIter P J0 x0 w fuel = .ok (r, s)) ∧
        ∃ res, genTraj { success := r = .optimal, cost := if r = .optimal then s.f else -1, x := List.ofFn s.x } pData Ts.sum = .ok res ∧
          (res.success = true ↔ r = .optimal) ∧
          (res.success = true → MeetsBoundary pData.flag pData.bc res.c_of_t.eval Ts.sum ∧
            ∃ v a, Motion pData Ts.sum res.point res.c_of_t.eval v a ∧
              (∀ M G, Sizes pData Ts.sum gr res.point M G → ∀ p t, InPhase Ts p t → AtPhase pData.contacts p fun ct e =>
                PhaseUpTo ct e pData.reduce_h (roundErr M G Ts.sum) (R * (fpTol o u g maxIter P J0 ν σ β B X + ρ * (X + 1))) (fpTol o u g maxIter P J0 ν σ β B X + ρ * (X + 1))
                  (res.c_of_t.eval t) (a t)) ∧
              ∀ p t, InPhase Ts p t → ∀ j,
                |κ * Ts.sum ^ 2 * a t j| ≤ pData.maxAcceleration + (fpTol o u g maxIter P J0 ν σ β B X + ρ * (X + 1))) := by
  obtain ⟨ct, e, pts', ws, S, w', -, Raw, hlip, hk, hgen, -, hmin, hcols, hDr, hfits, hRow⟩ := cont_system κ pData Ts gr h hr hc hs
  have hpp := Raw.hpts
  rw [hpts] at hpp
  cases hpp
  refine ⟨S, Raw.hS, ?_⟩
  intro o m u g ho maxIter P hm J0 x0 w ν σ β B X ρ hC hX hx hρ hP
  obtain ⟨r, s, hrun, hxs, hsat⟩ := optimal_rows o ho maxIter P hm J0 x0 w hC hX hx hρ hP
  refine ⟨r, s, hrun, ?_⟩
  obtain ⟨res, hres, hss, hgood⟩ := genTraj_total { success := r = .optimal, cost := if r = .optimal then s.f else -1, x := List.ofFn s.x }
    pData Ts.sum h.total pts hpts h.flag (by simp)
  have hiff : res.success = true ↔ r = .optimal := by rw [hss]; exact decide_eq_true_iff
  refine ⟨res, hres, hiff, fun hrs => ?_⟩
  obtain ⟨hp, -, hcurve⟩ := hgood (by rw [← hss]; exact hrs)
  refine ⟨by rw [hcurve]; exact (C01_boundary_conditions pData.flag h.flag pData.bc Ts.sum h.total.ne' pts hpts res.point).2, ?_⟩
  have hδ := fpTol_nonneg ho hC hX
  refine cont_meets_coded h hr hf Raw hz hs.one hlip (by positivity) res.point ?_ hcurve
  rw [hp]
  show SatTol S.A S.b _ (ext3 (first3 (unk (List.ofFn s.x))))
  rw [ext3_ofFn]
  exact hsat (hiff.mp hrs)

/-! ## The hypotheses are met -/

theorem reach_head {F : Type} {o : Arith F n} {maxIter : ℕ} {P : FQP F n} {J0 : ℕ → Fin n → F} {a q : FNext F n} (h : o.Reach maxIter P J0 a q) :
    q = a ∨ ∃ b, o.step maxIter P J0 a = .ok b ∧ o.Reach maxIter P J0 b q := by
  induction h with
  | refl => exact Or.inl rfl
  | @tail b c hb hs ih =>
    right
    rcases ih with rfl | ⟨b', h1, h2⟩
    · exact ⟨c, hs, .refl⟩
    · exact ⟨b', h1, h2.tail hs⟩

/-- The states of a run without rejections lie in a ball. -/
theorem run_radius {o : Arith ℝ n} (ho : o.Sane) {maxIter : ℕ} {P : FQP ℝ n} {J0 : ℕ → Fin n → ℝ} {a : FNext ℝ n}
    (hacc : ∀ st, o.Reach maxIter P J0 a (.l2a st) → o.Accepts P st) : ∀ (c : ℕ) (q : FNext ℝ n),
    Arith.cost maxIter P q ≤ c → Good o P q → o.Reach maxIter P J0 a q →
      ∃ X : ℝ, 0 ≤ X ∧ ∀ q', o.Reach maxIter P J0 q q' → ∑ k, (st q').x k ^ 2 ≤ X ^ 2 := by
  have hret : ∀ r s q', o.Reach maxIter P J0 (.ret r s) q' → q' = .ret r s := by
    intro r s q' h
    induction h with
    | refl => rfl
    | tail _ hs ih => subst ih; exact (Out.ok.inj hs).symm
  have hone : ∀ q : FNext ℝ n, ∑ k, (st q).x k ^ 2 ≤ Real.sqrt (∑ k, (st q).x k ^ 2) ^ 2 :=
    fun q => (Real.sq_sqrt (Finset.sum_nonneg fun _ _ => sq_nonneg _)).ge
  intro c
  induction c with
  | zero =>
    intro q hc hq hr
    cases q with
    | ret r s => exact ⟨_, Real.sqrt_nonneg _, fun q' h => by rw [hret r s q' h]; exact hone _⟩
    | _ => simp only [Arith.cost] at hc; omega
  | succ c ih =>
    intro q hc hq hr
    by_cases h : ∃ r s, q = .ret r s
    · obtain ⟨r, s, rfl⟩ := h
      exact ⟨_, Real.sqrt_nonneg _, fun q' h => by rw [hret r s q' h]; exact hone _⟩
    · obtain ⟨q', h1, h2, h3, -⟩ := step_good ho (maxIter := maxIter) (J0 := J0) (T := fun _ _ => True) (T' := fun _ _ => True)
        ⟨fun _ _ _ => trivial, fun _ _ _ _ _ _ _ _ _ _ => trivial, fun _ _ _ _ _ _ _ _ _ _ _ _ _ => trivial⟩ trivial hq (fun r s e => h ⟨r, s, e⟩)
        (fun st e => hacc st (e ▸ hr))
      obtain ⟨X, hX, hall⟩ := ih q' (by omega) h2 (hr.tail h1)
      refine ⟨max X (Real.sqrt (∑ k, (st q).x k ^ 2)), le_max_of_le_left hX, fun p hp => ?_⟩
      rcases reach_head hp with rfl | ⟨b, hb, hp⟩
      · exact le_trans (hone _) (pow_le_pow_left₀ (Real.sqrt_nonneg _) (le_max_right _ _) 2)
      · rw [h1] at hb
        cases hb
        exact le_trans (hall p hp) (pow_le_pow_left₀ hX (le_max_left _ _) 2)

/-- Every run of the solver with rounding on well-scaled data stays in some ball. -/
theorem reach_radius (o : Arith ℝ n) {m : ℕ} {u g : ℝ} (ho : o.Rounded m u g) (maxIter : ℕ) (P : FQP ℝ n) (hE : P.CE.length ≤ n)
    (J0 : ℕ → Fin n → ℝ) (x0 : Fin n → ℝ) (w : FWork ℝ n) {N B : ℝ} (hC : o.ConditionedFp u g maxIter P J0 N B) :
    ∃ X : ℝ, 0 ≤ X ∧ ∀ q, o.Reach maxIter P J0 (.eq 0 (o.init P J0 x0 w)) q → ∑ k, (st q).x k ^ 2 ≤ X ^ 2 :=
  run_radius ho.sane (C87_rounded o ho maxIter P hE J0 x0 w hC).1 _ (.eq 0 (o.init P J0 x0 w)) le_rfl ⟨rfl, Nat.zero_le _, hE, rfl⟩ .refl

/-- The error of a sum of `m` terms. -/
theorem pow_sub_one_le {u : ℝ} (hu : 0 ≤ u) {m : ℕ} (h : 2 * (m : ℝ) * u ≤ 1 / 100) (h1 : u ≤ 1) : (1 + u) ^ m - 1 ≤ 2 * m * u := by
  have h2 := one_add_pow_mul (x := u) m hu h1
  have h3 : (1 : ℝ) ≤ (1 + u) ^ m := one_le_pow₀ (by linarith)
  have h4 : 0 ≤ (m : ℝ) * u := by positivity
  nlinarith

/-- C90, the scaling hypotheses from bounds on the data: `k` is the curvature of the cost, `R` bounds the rows, `d` the diagonal of the inverse
Cholesky factor, at most ten per cent from `1 / √k`. -/
theorem C90_scaled {fl : ℝ → ℝ} {eps : ℝ} (tri : (ℕ → ℕ → ℝ) → (ℕ → ℝ) → ℕ → ℕ → ℝ) {A b : Mat} {k R B u ρ : ℝ} {M maxIter : ℕ} (hk : 0 < k) (hR : 0 ≤ R)
    (hB : 0 ≤ B) (hρ : 0 ≤ ρ) (hu : 0 ≤ u) (hrow : ∀ r < A.rows, ∑ c ∈ Finset.range 3, A.e r c ^ 2 ≤ R ^ 2) (hb : ∀ r < A.rows, |b.e r 0| ≤ B)
    {P : FQP ℝ 3} (hP : GivenRows P A b ρ) (d : ℕ → ℝ) (hd : ∀ j < 3, 0.81 ≤ k * d j ^ 2 ∧ k * d j ^ 2 ≤ 1.21)
    (h1 : 3000 * u * (2 + maxIter * 6 : ℕ) ≤ 1) (h2 : 2 * (M + 1 : ℕ) * u ≤ 1 / 100)
    (h3 : 14 * (2 * (M + 1 : ℕ) * u * (R + ρ) * (4 / k)) ^ 2 ≤ eps) (h4 : 2 * eps * (4 / k) * max 1 (2 * (4 / k) * (R + ρ) ^ 2) ≤ 1) :
    (flArith fl eps tri 3).ScaledFp u ((1 + u) ^ (M + 1) - 1) maxIter P (fun j i => if j = i then d j else 0) (2 / Real.sqrt k) (0.9 / Real.sqrt k) (R + ρ)
      (B + ρ) := by
  have hsk : 0 < Real.sqrt k := Real.sqrt_pos.mpr hk
  have hks : Real.sqrt k ^ 2 = k := Real.sq_sqrt hk.le
  have hν : (2 / Real.sqrt k) ^ 2 = 4 / k := by rw [div_pow, hks]; norm_num
  have hC0 : (2 : ℝ) ≤ (2 + maxIter * 6 : ℕ) := by exact_mod_cast Nat.le_add_right 2 _
  have hu1 : u ≤ 1 / 1000 := by nlinarith
  have hg : (1 + u) ^ (M + 1) - 1 ≤ 2 * (M + 1 : ℕ) * u := pow_sub_one_le hu h2 (by linarith)
  have hg0 : 0 ≤ (1 + u) ^ (M + 1) - 1 := by
    have : (1 : ℝ) ≤ (1 + u) ^ (M + 1) := one_le_pow₀ (by linarith)
    linarith
  have hlen : P.CE.length + 2 + maxIter * (3 + 3) = 2 + maxIter * 6 := by rw [hP.noEq]; simp
  have hce : ∀ e ∈ P.CE, False := fun e he => by rw [hP.noEq] at he; simp at he
  have hmem : ∀ e ∈ P.CI, ∃ r < A.rows, e = P.CI.getD r (0, 0) := by
    intro e he
    obtain ⟨r, hr, rfl⟩ := List.mem_iff_getElem.mp he
    exact ⟨r, by rw [← hP.count]; exact hr, by rw [List.getD_eq_getElem?_getD, List.getElem?_eq_getElem hr]; rfl⟩
  have hci : ∀ e ∈ P.CI, ∑ k, e.1 k ^ 2 ≤ (R + ρ) ^ 2 := by
    intro e he
    obtain ⟨r, hr, rfl⟩ := hmem e he
    have e1 := hP.normal r hr
    have e2 := hrow r hr
    rw [Finset.sum_range] at e2
    have e3 := abs_sum_mul_le Finset.univ (fun k => (P.CI.getD r (0, 0)).1 k + A.e r k) (fun k : Fin 3 => A.e r k) hρ hR e1 e2
    have e4 : ∑ k, (P.CI.getD r (0, 0)).1 k ^ 2 = ∑ k, ((P.CI.getD r (0, 0)).1 k + A.e r k) ^ 2 + ∑ k : Fin 3, A.e r k ^ 2 -
        2 * ∑ k : Fin 3, ((P.CI.getD r (0, 0)).1 k + A.e r k) * A.e r k := by
      rw [Finset.mul_sum, ← Finset.sum_add_distrib, ← Finset.sum_sub_distrib]
      exact Finset.sum_congr rfl fun k _ => by ring
    rw [e4]
    have := (abs_le.mp e3).1
    nlinarith
  have hd2 : ∀ j < 3, 0.81 / k ≤ d j ^ 2 ∧ d j ^ 2 ≤ 1.21 / k := by
    intro j hj
    obtain ⟨a, b⟩ := hd j hj
    exact ⟨by rw [div_le_iff₀ hk]; linarith, by rw [le_div_iff₀ hk]; linarith⟩
  have hinner : ∀ (v : ℕ → ℝ) (i : Fin 3), ∑ j ∈ Finset.range 3, v j * (if j = (i : ℕ) then d j else 0) = v i * d i := by
    intro v i
    rw [Finset.sum_eq_single (i : ℕ) (fun j _ hj => by rw [if_neg hj, mul_zero]) (fun h => absurd (Finset.mem_range.mpr i.2) h), if_pos rfl]
  refine {
    cond := {
      u0 := hu, u1 := hu1, g0 := hg0, g1 := by linarith
      steps := ?_
      sum := ?_
      ce := fun e he => (hce e he).elim
      ci := hci
      eps := ?_ }
    ν0 := by positivity
    β0 := by positivity
    σ0 := by positivity
    b0 := by positivity
    low := ?_
    small := ?_
    eps := ?_
    ce := fun e he => (hce e he).elim
    ci := ?_ }
  · rw [hlen]
    push_cast at h1 ⊢
    linarith
  · rw [hν]
    simp only [Finset.sum_range_succ, Finset.sum_range_zero, Fin.sum_univ_three]
    simp
    have := (hd2 0 (by norm_num)).2
    have := (hd2 1 (by norm_num)).2
    have := (hd2 2 (by norm_num)).2
    have hk' : 0 < 1 / k := by positivity
    have e1 : 1.21 / k = 1.21 * (1 / k) := by ring
    have e2 : 4 / k = 4 * (1 / k) := by ring
    linarith
  · rw [hν]
    exact h4
  · intro v
    simp only [hinner]
    rw [div_pow, hks, Finset.sum_range, Finset.mul_sum]
    refine Finset.sum_le_sum fun i _ => ?_
    rw [mul_pow, mul_comm]
    refine mul_le_mul_of_nonneg_left ?_ (sq_nonneg _)
    have := (hd2 i i.2).1
    norm_num at this ⊢
    exact this
  · rw [hlen]
    have e : 0 < 1 / Real.sqrt k := by positivity
    have e1 : 2 / Real.sqrt k = 2 * (1 / Real.sqrt k) := by ring
    have e2 : 0.9 / Real.sqrt k = 0.9 * (1 / Real.sqrt k) := by ring
    rw [e1, e2]
    have e3 : 200 * u * ((3 : ℕ) * ((2 + maxIter * 6 : ℕ) : ℝ)) ≤ 0.2 := by
      push_cast at h1 ⊢
      linarith
    have e4 : 4 * ((1 + u) ^ (M + 1) - 1) ≤ 0.04 := by linarith
    nlinarith [mul_le_mul_of_nonneg_right e3 e.le, mul_le_mul_of_nonneg_right e4 e.le]
  · rw [hν]
    refine le_trans ?_ h3
    have : ((1 + u) ^ (M + 1) - 1) * (R + ρ) * (4 / k) ≤ 2 * (M + 1 : ℕ) * u * (R + ρ) * (4 / k) :=
      mul_le_mul_of_nonneg_right (mul_le_mul_of_nonneg_right hg (by positivity)) (by positivity)
    have h0 : 0 ≤ ((1 + u) ^ (M + 1) - 1) * (R + ρ) * (4 / k) := by positivity
    nlinarith [pow_le_pow_left₀ h0 this 2]
  · intro e he
    obtain ⟨r, hr, rfl⟩ := hmem e he
    have e1 := hP.offset r hr
    have e2 := hb r hr
    have e3 := abs_add_le ((P.CI.getD r (0, 0)).2 - b.e r 0) (b.e r 0)
    rw [sub_add_cancel] at e3
    linarith

/-- The right-hand sides of finitely many rows are bounded. -/
theorem rhs_bound (b : Mat) (n : ℕ) : ∃ B, 0 ≤ B ∧ ∀ r < n, |b.e r 0| ≤ B :=
  ⟨∑ r ∈ Finset.range n, |b.e r 0|, Finset.sum_nonneg fun _ _ => abs_nonneg _,
    fun r hr => Finset.single_le_sum (f := fun r => |b.e r 0|) (fun _ _ => abs_nonneg _) (Finset.mem_range.mpr hr)⟩

/-- The problem `minimise k x·x / 2 + w·x` with `A x ≤ b`. -/
noncomputable def rowsQP (k : ℝ) (w : V3) (A b : Mat) : FQP ℝ 3 :=
  (qpOf 3 (costH 0 k) (costG 0 w) (Mat.noRows 3) (Mat.noRows 1) A.neg b).toF

theorem rowsQP_given (k : ℝ) (w : V3) {A : Mat} (b : Mat) (hA : A.cols = 3) : GivenRows (rowsQP k w A b) A b 0 := by
  have hget : ∀ r < A.rows, (rowsQP k w A b).CI.getD r (0, 0) = (A.neg.rowN 3 r, b.e r 0) := by
    intro r hr
    show (((List.range A.rows).map fun r => (A.neg.rowN 3 r, b.e r 0)).getD r (0, 0)) = _
    rw [List.getD_eq_getElem?_getD, List.getElem?_map, List.getElem?_range hr]
    rfl
  refine ⟨rfl, by simp [rowsQP, QP.toF, qpOf, Mat.neg], hA, fun r hr => ?_, fun r hr => ?_⟩
  · rw [hget r hr]
    simp [Mat.rowN, Mat.neg]
  · rw [hget r hr]
    simp

/-- C90, the hypotheses are met: for every accepted problem with one of the five sets, if the threshold `eps` of the solver is small for the data and
the relative error `u` of the arithmetic is small for the data and for `eps`, then the solver with all operations rounded, sums computed from left to
right and a Cholesky factor known up to ten per cent meets all hypotheses of `C90_samples`. -/
theorem C90_scale_exists (pData : ProblemData) (Ts : List ℝ) (gr : V3) (h : Accepted pData Ts gr)
    (hf : pData.flag ∈ [11#32, 19#32, 27#32, 7#32, 15#32]) (l : TTime) (hl : Discretisation Ts l)
    (hc : pData.costFunction = DISTANCE_TRAVELED ∨ pData.costFunction = ACCELERATION) :
    ∃ k R A b B, 0 < k ∧ 0 ≤ R ∧ DataScale pData Ts.sum l gr k R ∧ computeConstraintsOneStep pData Ts.length Ts.sum l = .ok (A, b) ∧ A.cols = 3 ∧
      ∀ (maxIter M : ℕ), A.rows ≤ M → 3 ≤ M → ∀ (eps u ρ : ℝ), 0 ≤ eps → 0 ≤ u → 0 ≤ ρ → 3000 * u * (2 + maxIter * 6 : ℕ) ≤ 1 →
        2 * (M + 1 : ℕ) * u ≤ 1 / 100 → 14 * (2 * (M + 1 : ℕ) * u * (R + ρ) * (4 / k)) ^ 2 ≤ eps →
        2 * eps * (4 / k) * max 1 (2 * (4 / k) * (R + ρ) ^ 2) ≤ 1 →
      ∀ (fl : ℝ → ℝ) (tri : (ℕ → ℕ → ℝ) → (ℕ → ℝ) → ℕ → ℕ → ℝ) (P : FQP ℝ 3) (d : ℕ → ℝ) (x0 : Fin 3 → ℝ) (w : FWork ℝ 3),
        (∀ x, |fl x - x| ≤ u * |x|) → GivenRows P A b ρ → (∀ j < 3, 0.81 ≤ k * d j ^ 2 ∧ k * d j ^ 2 ≤ 1.21) →
      ∃ X, 0 ≤ X ∧ (flArith fl eps tri 3).Rounded M u ((1 + u) ^ (M + 1) - 1) ∧ P.CI.length ≤ M ∧
        (flArith fl eps tri 3).ScaledFp u ((1 + u) ^ (M + 1) - 1) maxIter P (fun j i => if j = i then d j else 0) (2 / Real.sqrt k)
          (0.9 / Real.sqrt k) (R + ρ) (B + ρ) ∧
        ∀ q, (flArith fl eps tri 3).Reach maxIter P (fun j i => if j = i then d j else 0)
          (.eq 0 ((flArith fl eps tri 3).init P (fun j i => if j = i then d j else 0) x0 w)) q → ∑ k, (st q).x k ^ 2 ≤ X ^ 2 := by
  obtain ⟨k, R, -, hs⟩ := C56_scale_exists pData Ts gr h hf l hl hc
  have hgc := goodCost pData Ts h.total h.ne h.flag h.capt l hl (hc.imp_right fun hc => ⟨hc, fun e => by rw [e] at hf; simp at hf⟩)
  obtain ⟨A, b, w', K, pts, hpts, hA, hk, hgen, -, hcols, hfits, hRow, -⟩ := planSamples_rows pData Ts gr h hf l hl hgc hs
  obtain ⟨B, hB, hb⟩ := rhs_bound b A.rows
  refine ⟨k, R, A, b, B, hk, zero_le_one.trans hs.one, hs, hA, hcols, ?_⟩
  intro maxIter M hM hM3 eps u ρ he hu hρ h1 h2 h3 h4 fl tri P d x0 w hfl hP hd
  have hS := C90_scaled (fl := fl) tri (maxIter := maxIter) hk (zero_le_one.trans hs.one) hB hρ hu hRow hb hP d hd h1 h2 h3 h4
  have hro := C87_left_to_right (n := 3) (m := M) (N := M) hu hfl he tri hM3 le_rfl
  obtain ⟨X, hX, hx⟩ := reach_radius _ hro maxIter P (by rw [hP.noEq]; exact Nat.zero_le _) (fun j i => if j = i then d j else 0) x0 w hS.cond
  exact ⟨X, hX, hro, by rw [hP.count]; exact hM, hS, hx⟩

/-- A non-trivial case: the example of C56 in doubles, with the threshold and the number of passes of the code, and up to a hundred thousand rows. -/
theorem restPhases_doubles (n : ℕ) (hn : 0 < n) (fl : ℝ → ℝ) (hfl : ∀ x, |fl x - x| ≤ 2⁻¹ ^ 53 * |x|)
    (tri : (ℕ → ℕ → ℝ) → (ℕ → ℝ) → ℕ → ℕ → ℝ) (x0 : Fin 3 → ℝ) (w : FWork ℝ 3) (v : V3) :
    ∃ A b, computeConstraintsOneStep restPhases 2 ([1, 2] : List ℝ).sum (computeDiscretizedTimeFixed [1, 2] n) = .ok (A, b) ∧ (A.rows ≤ 100000 →
      ∃ B X r s, 0 ≤ X ∧ (∀ fuel ≥ 6002, (flArith fl (2⁻¹ ^ 52) tri 3).solve 1000 (rowsQP 1 v A b) (fun j i => if j = i then 1 else 0) x0 w fuel = .ok (r, s)) ∧
        ∃ res, genTraj { success := r = .optimal, cost := if r = .optimal then s.f else -1, x := List.ofFn s.x } restPhases ([1, 2] : List ℝ).sum = .ok res ∧
          (res.success = true ↔ r = .optimal) ∧
          (res.success = true → MeetsBoundary restPhases.flag restPhases.bc res.c_of_t.eval ([1, 2] : List ℝ).sum ∧
            ∃ v' a, Motion restPhases ([1, 2] : List ℝ).sum res.point res.c_of_t.eval v' a ∧
              let τ := fpTol (flArith fl (2⁻¹ ^ 52) tri 3) (2⁻¹ ^ 53) ((1 + 2⁻¹ ^ 53) ^ (100000 + 1) - 1) 1000 (rowsQP 1 v A b)
                (fun j i => if j = i then 1 else 0) 2 0.9 11 B X
              MeetsSamplesTol restPhases (computeDiscretizedTimeFixed [1, 2] n) (11 * τ) τ res.c_of_t.eval a)) := by
  have hD : Discretisation [1, 2] (computeDiscretizedTimeFixed [1, 2] n) := Or.inl ⟨n, hn, rfl⟩
  have hs : DataScale restPhases ([1, 2] : List ℝ).sum (computeDiscretizedTimeFixed [1, 2] n) ![0, 0, -9.81] 1 11 := by
    rw [show ([1, 2] : List ℝ).sum = 3 by norm_num]
    exact restPhases_scale _ hD
  have hf : restPhases.flag ∈ [11#32, 19#32, 27#32, 7#32, 15#32] := by simp [restPhases, twoPhases]
  have hgc := goodCost restPhases [1, 2] restPhases_accepted.total restPhases_accepted.ne restPhases_accepted.flag restPhases_accepted.capt _ hD (Or.inl rfl)
  obtain ⟨A, b, w', K, pts, hpts, hA, hk, hgen, -, hcols, hfits, hRow, -⟩ := planSamples_rows restPhases [1, 2] _ restPhases_accepted hf _ hD hgc hs
  obtain ⟨A', b', hA', hall⟩ := C90_samples restPhases [1, 2] _ restPhases_accepted hf _ hD (Or.inl rfl) hs
  rw [hA] at hA'
  cases hA'
  refine ⟨A, b, hA, fun hr => ?_⟩
  obtain ⟨B, hB, hb⟩ := rhs_bound b A.rows
  have hP := rowsQP_given 1 v b hcols
  have hS := C90_scaled (fl := fl) (eps := 2⁻¹ ^ 52) tri (M := 100000) (maxIter := 1000) one_pos (by norm_num) hB le_rfl (u := 2⁻¹ ^ 53) (by norm_num) hRow hb hP
    (fun _ => 1) (fun _ _ => by norm_num) (by norm_num) (by norm_num) (by norm_num) (by norm_num)
  simp only [Real.sqrt_one, div_one, add_zero] at hS
  have hro := C87_left_to_right (n := 3) (m := 100000) (N := 100000) (u := 2⁻¹ ^ 53) (by norm_num) hfl (eps := 2⁻¹ ^ 52) (by norm_num) tri (by norm_num) le_rfl
  obtain ⟨X, hX, hx⟩ := reach_radius _ hro 1000 (rowsQP 1 v A b) (by rw [hP.noEq]; exact Nat.zero_le _) (fun j i => if j = i then 1 else 0) x0 w hS.cond
  obtain ⟨r, s, h1, res, h2, h3, h4⟩ := hall _ _ _ _ hro 1000 (rowsQP 1 v A b) (by rw [hP.count]; exact hr) _ x0 w _ _ _ _ X 0 hS hX hx le_rfl hP
  refine ⟨B, X, r, s, hX, h1, res, h2, h3, fun hres => ?_⟩
  obtain ⟨k1, v', a, k2, k3⟩ := h4 hres
  refine ⟨k1, v', a, k2, ?_⟩
  simpa only [zero_mul, add_zero] using k3

end Verif
