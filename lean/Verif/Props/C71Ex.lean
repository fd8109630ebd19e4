import Verif.Props.C71

/-!
# C56, C71, C72: an example

The two phases of `twoPhases` with the distance as cost: the scale of its data, and a run that succeeds with the
threshold of the code.
-/

namespace Verif
open Matrix

/-- `twoPhases` with the cost `DISTANCE_TRAVELED`. -/
def restPhases : ProblemData := { twoPhases with costFunction := DISTANCE_TRAVELED }

theorem restPhases_accepted : Accepted restPhases [1, 2] ![0, 0, -9.81] := by
  obtain ⟨h1, h2, h3, h4, h5, h6⟩ := twoPhases_accepted
  exact ⟨h1, h2, h3, h4, h5, h6⟩

/-- All motions of the example. -/
theorem restPhases_motion {x : V3} {c v a : ℝ → V3} (h : Motion restPhases 3 x c v a) :
    (∀ t, c t = (3 * (t / 3) ^ 2 * (1 - t / 3)) • x) ∧ ∀ t, a t = (2 / 3 - 2 * (t / 3)) • x := by
  obtain ⟨pts, hpts, rfl, hv, ha⟩ := h
  have hp : pts = c0_dc0_c1.computeConstantWaypoints restPhases.bc 3 := by
    simp [computeConstantWaypoints, restPhases, twoPhases] at hpts
    rw [← hpts]; rfl
  have hfill : ∀ i ≤ 3, fill restPhases.flag (nth pts) x i = if i = 2 then x else 0 := by
    intro i hi
    rw [hp]
    unfold fill
    interval_cases i <;> simp [freeSlots, restPhases, twoPhases, nth, c0_dc0_c1.computeConstantWaypoints] <;>
      rfl
  have hc : ∀ t, curve (degreeOf restPhases.flag) (fill restPhases.flag (nth pts) x) 3 t
      = (3 * (t / 3) ^ 2 * (1 - t / 3)) • x := by
    intro t
    have hd : degreeOf restPhases.flag = 3 := by simp [degreeOf, restPhases, twoPhases]
    rw [hd, curve, bez]
    simp only [Finset.sum_range_succ, Finset.sum_range_zero]
    rw [hfill 0 (by norm_num), hfill 1 (by norm_num), hfill 2 (by norm_num), hfill 3 (by norm_num)]
    simp [Nat.choose]
  have e0 : curve (degreeOf restPhases.flag) (fill restPhases.flag (nth pts) x) 3
      = fun t => (3 * (t / 3) ^ 2 * (1 - t / 3)) • x := funext hc
  refine ⟨hc, ?_⟩
  have d1 : IsDeriv (fun t : ℝ => (3 * (t / 3) ^ 2 * (1 - t / 3)) • x) fun t => (2 * t / 3 - t ^ 2 / 3) • x := by
    intro t
    refine HasDerivAt.smul_const ?_ x
    have : HasDerivAt (fun t : ℝ => t ^ 2 / 3 - t ^ 3 / 9) (2 * t / 3 - t ^ 2 / 3) t := by
      refine (((hasDerivAt_pow 2 t).div_const 3).sub ((hasDerivAt_pow 3 t).div_const 9)).congr_deriv ?_
      push_cast
      ring
    refine this.congr_of_eventuallyEq (Filter.Eventually.of_forall fun t => ?_)
    ring
  have d2 : IsDeriv (fun t : ℝ => (2 * t / 3 - t ^ 2 / 3) • x) fun t => (2 / 3 - 2 * (t / 3)) • x := by
    intro t
    refine HasDerivAt.smul_const ?_ x
    have : HasDerivAt (fun t : ℝ => 2 * t / 3 - t ^ 2 / 3) (2 / 3 - 2 * t / 3) t := by
      refine ((((hasDerivAt_id t).const_mul 2).div_const 3).sub ((hasDerivAt_pow 2 t).div_const 3)).congr_deriv ?_
      push_cast
      ring
    exact this.congr_deriv (by ring)
  rw [e0] at hv
  have e1 := deriv_unique hv d1
  subst e1
  have e2 := deriv_unique ha d2
  subst e2
  intro t
  rfl

/-- The scale of the example. -/
theorem restPhases_scale (l : TTime) (hl : Discretisation [1, 2] l) :
    DataScale restPhases 3 l ![0, 0, -9.81] 1 11 := by
  refine ⟨by norm_num, ?_, ?_, ?_⟩
  · intro ct hct K hK
    simp only [restPhases, twoPhases, List.mem_cons, List.not_mem_nil, or_false, or_self] at hct
    subst hct
    simp only [pushContact, List.mem_singleton] at hK
    subst hK
    simp [dot]
  · intro x c v a x' c' v' a' hm hm' q hq
    obtain ⟨hq0, hq1⟩ := (hl.tags (by simp) (by simp)).2 q hq
    have hs : ([1, 2] : List ℝ).sum = 3 := by norm_num
    rw [hs] at hq1
    obtain ⟨c1, a1⟩ := restPhases_motion hm
    obtain ⟨c2, a2⟩ := restPhases_motion hm'
    rw [c1, c2, a1, a2]
    set s := q.1 / 3 with hsd
    have s0 : 0 ≤ s := by positivity
    have s1 : s ≤ 1 := by rw [hsd]; linarith
    set wt := 3 * s ^ 2 * (1 - s) with hw
    have hw0 : 0 ≤ wt := by rw [hw]; have : 0 ≤ 1 - s := by linarith
                            positivity
    have hw1 : wt ≤ 1 := by rw [hw]; nlinarith [sq_nonneg (s - 2 / 3), sq_nonneg s, mul_nonneg s0 (sub_nonneg.mpr s1), mul_nonneg (mul_nonneg s0 s0) (sub_nonneg.mpr s1)]
    set ac := 2 / 3 - 2 * s with hac
    have ha2 : ac ^ 2 ≤ 16 / 9 := by rw [hac]; nlinarith
    have hw2 : wt ^ 2 ≤ 1 := by nlinarith
    have key : ∀ y : V3, cr (wt • y) (![0, 0, -9.81] - ac • y) = (-9.81 * wt) • ![y 1, -y 0, 0] := by
      intro y
      funext k
      fin_cases k <;> simp [cr, cross_apply, vecHead, vecTail] <;> first | done | (right; ring) | ring
    rw [key, key]
    simp only [dot, Pi.sub_apply, Pi.smul_apply, smul_eq_mul]
    simp
    nlinarith [mul_nonneg (sub_nonneg.mpr ha2) (sq_nonneg (x 0 - x' 0)), mul_nonneg (sub_nonneg.mpr ha2) (sq_nonneg (x 1 - x' 1)),
      mul_nonneg (sub_nonneg.mpr ha2) (sq_nonneg (x 2 - x' 2)), mul_nonneg (sub_nonneg.mpr hw2) (sq_nonneg (x 0 - x' 0)),
      mul_nonneg (sub_nonneg.mpr hw2) (sq_nonneg (x 1 - x' 1)), sq_nonneg (x 0 - x' 0), sq_nonneg (x 1 - x' 1),
      sq_nonneg (x 2 - x' 2)]
  · intro x c v a x' c' v' a' c'' v'' a'' _ _ _
    have hn : restPhases.costFunction ≠ ACCELERATION := by simp [restPhases, DISTANCE_TRAVELED, ACCELERATION]
    simp only [motionCost, if_neg hn]
    simp only [restPhases, twoPhases, dot, Pi.add_apply, Pi.smul_apply, Pi.sub_apply, smul_eq_mul]
    ring

/-- The hypotheses of `C56_fixedSize_tolerance_partial` hold for the example with the threshold of the code. -/
theorem restPhases_tolerance (lib : Lib) (hL : LibOk lib) (he : lib.eps = dblEps) (n : ℕ) (hn : 0 < n) :
    ∃ A b res N, computeConstraintsOneStep restPhases 2 ([1, 2] : List ℝ).sum (computeDiscretizedTimeFixed [1, 2] n)
        = .ok (A, b) ∧
      (∀ fuel ≥ N, computeCOMTrajFixedSize lib fuel restPhases [1, 2] n = .ok res) ∧
      (res.success = true → MeetsBoundary restPhases.flag restPhases.bc res.c_of_t.eval ([1, 2] : List ℝ).sum ∧
        ∃ v a, Motion restPhases ([1, 2] : List ℝ).sum res.point res.c_of_t.eval v a ∧
          MeetsSamplesTol restPhases (computeDiscretizedTimeFixed [1, 2] n) (11 * solverTol lib.eps 1 A.rows)
            (solverTol lib.eps 1 A.rows) res.c_of_t.eval a) := by
  have hs : ([1, 2] : List ℝ).sum = 3 := by norm_num
  refine C56_fixedSize_tolerance_partial lib hL (by rw [he, dblEps]; norm_num) restPhases [1, 2] _ restPhases_accepted
    rfl (by simp [restPhases, twoPhases]) n hn (Or.inl rfl) (k := 1) (R := 11) ?_ (by rw [he, dblEps]; norm_num)
    (by rw [he, dblEps]; norm_num)
  rw [hs]
  exact restPhases_scale _ (Or.inl ⟨n, hn, rfl⟩)

/-- The example succeeds for every threshold, and returns the motion that does not move. -/
theorem restPhases_succeeds (lib : Lib) (hL : LibOk lib) (hm : 1 < lib.maxIter) (n : ℕ) (hn : 0 < n) :
    ∃ res, (∀ fuel ≥ 3, computeCOMTrajFixedSize lib fuel restPhases [1, 2] n = .ok res) ∧ res.success = true ∧
      res.point = 0 ∧ res.c_of_t.eval = fun _ => 0 := by
  have hs : ([1, 2] : List ℝ).sum = 3 := by norm_num
  have hD : Discretisation [1, 2] (computeDiscretizedTimeFixed [1, 2] n) := Or.inl ⟨n, hn, rfl⟩
  obtain ⟨pts, hpts⟩ := C01_answers restPhases.flag restPhases_accepted.flag restPhases.bc ([1, 2] : List ℝ).sum
    restPhases_accepted.capt
  obtain ⟨v, a, hmot⟩ := motion_exists restPhases ([1, 2] : List ℝ).sum pts hpts restPhases_accepted.flag
    (by rw [hs]; norm_num) 0
  have hmot' := hmot
  rw [hs] at hmot'
  obtain ⟨hc, ha⟩ := restPhases_motion hmot'
  have ec : curve (degreeOf restPhases.flag) (fill restPhases.flag (nth pts) 0) ([1, 2] : List ℝ).sum = fun _ => 0 := by
    funext t; rw [hs, hc]; simp
  rw [ec] at hmot
  have ea : a = fun _ => 0 := by funext t; rw [ha]; simp
  subst ea
  refine C72_fixedSize lib hL hm restPhases [1, 2] _ restPhases_accepted rfl
    (by simp [restPhases, twoPhases]) n hn (Or.inl rfl) hmot ⟨?_, ?_⟩ ?_
  · intro t p hc
    have hp : p < 2 := (hc.lt (hD.tags (by simp) (by simp)).1).1
    refine ⟨pushContact, _, ?_, pushContact_good.1, ?_, ?_⟩
    · interval_cases p <;> rfl
    · intro r hr
      simp only [List.mem_singleton] at hr
      subst hr
      have h1 : Real.sqrt (dot ![0, 0, 1] ![0, 0, 1] + dot (0 : V3) 0) = 1 := by
        rw [show dot ![0, 0, 1] ![0, 0, 1] + dot (0 : V3) 0 = 1 by simp [dot]]
        exact Real.sqrt_one
      simp only [WrenchRowOk, h1]
      simp [dot, restPhases, twoPhases]
      norm_num
    · intro q hq
      simp [pushContact] at hq
      subst hq
      simp [dot]
  · intro _ q _ k
    simp [restPhases, twoPhases]
  · intro x' c' v' a' _
    have hne : restPhases.costFunction ≠ ACCELERATION := by simp [restPhases, DISTANCE_TRAVELED, ACCELERATION]
    simp only [motionCost, if_neg hne]
    simp only [restPhases, twoPhases, dot, Pi.add_apply, Pi.smul_apply, Pi.sub_apply, smul_eq_mul]
    simp
    nlinarith [sq_nonneg (x' 0), sq_nonneg (x' 1), sq_nonneg (x' 2)]

end Verif
