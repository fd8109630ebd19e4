import Verif.Props.C80
import Verif.Props.C56RoundedTol

/-!
# C80 for the two sets with rounded coefficients
-/

namespace Verif
open Matrix

/-- `MarginVerdict` up to the error of the coefficients: the returned motion meets the requirements up to error and tolerance,
and no motion that meets them with the error as margin is better by more than `gap`. -/
structure MarginVerdictUpTo (lib : Lib) (pData : ProblemData) (T : ℝ) (g : V3) (l : TTime) (R k gap : ℝ) (N : ℕ)
    (A b H gr : Mat) (res : ResultDataCOMTraj) : Prop where
  found : res.success = true ∨
    ∃ o, ∀ fuel ≥ N, callQuadprog lib fuel H gr (Mat.noRows A.cols) (Mat.noRows 1).neg A.neg b = .ok (.maxIterReached, o)
  good : res.success = true → ∃ v a, Motion pData T res.point res.c_of_t.eval v a ∧
    (∀ M G, Sizes pData T g res.point M G → MeetsSamplesUpToTol pData l (roundErr M G T)
      (R * solverTol lib.eps k A.rows) (solverTol lib.eps k A.rows) res.c_of_t.eval a) ∧
    ∀ x' c' v' a' M G, Motion pData T x' c' v' a' → Sizes pData T g x' M G →
      MeetsSamplesUpTo pData l (fun e r => -roundErr M G T e r) c' a' →
      motionCost pData l res.point a ≤ motionCost pData l x' a' + gap

theorem meetsUpToTol_zero (pData : ProblemData) (l : TTime) (E : Equilibrium → (V3 × V3) × ℝ → ℝ) (c a : ℝ → V3) :
    MeetsSamplesUpToTol pData l E 0 0 c a ↔ MeetsSamplesUpTo pData l E c a := by
  simp [MeetsSamplesUpToTol, MeetsSamplesUpTo, PhaseUpTo, KinOkTol, KinOk]

theorem planCoded_margin (lib : Lib) (hL : LibOk lib) (he : 0 ≤ lib.eps) (pData : ProblemData) (Ts : List ℝ) (g : V3)
    (h : Accepted pData Ts g) (hf : pData.flag ∈ [31#32, 63#32])
    (l : TTime) (hl : Discretisation Ts l) (hc : GoodCost pData Ts.sum l) {k R : ℝ}
    (hs : CodedScale pData Ts.sum l k R) (h1 : lib.eps ≤ k) (h2 : lib.eps * R ^ 2 ≤ k ^ 2) {m : ℝ} (hm : 0 < m)
    {x : V3} {c v a : ℝ → V3} {M G : ℝ} (hx : Motion pData Ts.sum x c v a) (hsz : Sizes pData Ts.sum g x M G)
    (hmeet : MeetsSamplesUpToTol pData l (fun e r => -roundErr M G Ts.sum e r) (-(R * m)) (-m) c a)
    (hi : 1 ≤ lib.maxIter) (hmar : 32 * lib.maxIter ^ 2 * k * lib.eps * motionCost pData l x a ≤ m ^ 2) :
    ∃ A b H gr res N, computeConstraintsOneStep pData Ts.length Ts.sum l = .ok (A, b) ∧
      genCostFunction pData Ts Ts.sum l 3 = .ok (H, gr) ∧
      (∀ fuel ≥ N, planSamples lib fuel pData Ts l = .ok res) ∧
      MarginVerdictUpTo lib pData Ts.sum g l R k
        (4 * lib.maxIter ^ 2 * k * lib.eps * motionCost pData l x a ^ 2 / m ^ 2) N A b H gr res := by
  obtain ⟨A, b, w, K, pts, hpts, hA, hk, hgen, hcost, hcols, hfits, hRow, hrows⟩ :=
    planCoded_rows pData Ts g h hf l hl hc hs
  have hq : ∀ y : ℕ → ℝ, quadForm (costH 0 k) (costG 0 w) 3 y = k * dot (first3 y) (first3 y) + 2 * dot w (first3 y) := by
    intro y
    have := quadForm_head 0 k w y
    simpa using this
  have hex : ∀ x, ∃ c v a, Motion pData Ts.sum x c v a := fun x => by
    obtain ⟨v, a, h⟩ := motion_exists pData Ts.sum pts hpts h.flag h.total.ne' x
    exact ⟨_, v, a, h⟩
  obtain ⟨q, N, hrun, hxl, hfound, hgood⟩ := solve_margin lib hL he hk w hfits rfl (List.replicate 3 0) hRow h1 h2 hm
    (ext3 x) ((hrows _ _ _ _ _ _ hx hsz).2 m hm.le hmeet) (F := motionCost pData l x a) (fun y => by
      obtain ⟨c', v', a', hm'⟩ := hex (first3 y)
      rw [hq, hq, first3_ext3, hcost _ _ _ _ hx, hcost _ _ _ _ hm']
      linarith [motionCost_nonneg pData l (first3 y) a']) hi hmar
  obtain ⟨res, hres, hss, hgen'⟩ := genTraj_total q pData Ts.sum h.total pts hpts h.flag (by omega)
  refine ⟨A, b, costH 0 k, costG 0 w, res, N, hA, hgen, fun fuel hfuel => ?_, ⟨?_, fun hrs => ?_⟩⟩
  · unfold planSamples
    rw [hA, Out.ok_bind, hgen, Out.ok_bind]
    dsimp only
    rw [hrun fuel hfuel, Out.ok_bind, hres]
  · rw [hss]; exact hfound
  · rw [hss] at hrs
    obtain ⟨hp, -, hcurve⟩ := hgen' hrs
    obtain ⟨hsat, hopt⟩ := hgood hrs
    have hδ0 : 0 ≤ solverTol lib.eps k A.rows := by unfold solverTol; positivity
    obtain ⟨v', a', hm'⟩ := motion_exists pData Ts.sum pts hpts h.flag h.total.ne' res.point
    rw [← hcurve] at hm'
    refine ⟨v', a', hm', fun M G hsz' => (hrows _ _ _ _ M G hm' hsz').1 _ hδ0 (by
      rw [hp, satTol_first3 hcols]; exact hsat), ?_⟩
    intro x2 c2 v2 a2 M2 G2 hm2 hsz2 hmeet2
    have hsat2 := (hrows _ _ _ _ _ _ hm2 hsz2).2 0 le_rfl (by
      rw [mul_zero, neg_zero, meetsUpToTol_zero]; exact hmeet2)
    rw [neg_zero, satTol_zero] at hsat2
    have o := hopt (ext3 x2) hsat2
    rw [hq, hq, first3_ext3, hcost _ _ _ _ hm2] at o
    have e := hcost _ _ _ _ hm'
    rw [hp] at e ⊢
    change k * dot (first3 (unk q.x)) (first3 (unk q.x)) + 2 * dot w (first3 (unk q.x)) = _ at e
    rw [e] at o
    linarith

/-- C80, `computeCOMTrajFixedSize`, the two sets with rounded coefficients. -/
theorem C80_fixedSize_rounded (lib : Lib) (hL : LibOk lib) (he : 0 ≤ lib.eps) (pData : ProblemData)
    (Ts : List ℝ) (g : V3) (h : Accepted pData Ts g) (hr : pData.representation = DOUBLE_DESCRIPTION)
    (hf : pData.flag ∈ [31#32, 63#32]) (n : ℕ) (hn : 0 < n)
    (hc : pData.costFunction = DISTANCE_TRAVELED ∨ pData.costFunction = ACCELERATION ∧ pData.flag ≠ 63#32) {k R : ℝ}
    (hs : CodedScale pData Ts.sum (computeDiscretizedTimeFixed Ts n) k R) (h1 : lib.eps ≤ k)
    (h2 : lib.eps * R ^ 2 ≤ k ^ 2) {m : ℝ} (hm : 0 < m) {x : V3} {c v a : ℝ → V3} {M G : ℝ}
    (hx : Motion pData Ts.sum x c v a) (hsz : Sizes pData Ts.sum g x M G)
    (hmeet : MeetsSamplesUpToTol pData (computeDiscretizedTimeFixed Ts n) (fun e r => -roundErr M G Ts.sum e r)
      (-(R * m)) (-m) c a) (hi : 1 ≤ lib.maxIter)
    (hmar : 32 * lib.maxIter ^ 2 * k * lib.eps * motionCost pData (computeDiscretizedTimeFixed Ts n) x a ≤ m ^ 2) :
    ∃ A b H gr res N,
      computeConstraintsOneStep pData Ts.length Ts.sum (computeDiscretizedTimeFixed Ts n) = .ok (A, b) ∧
      genCostFunction pData Ts Ts.sum (computeDiscretizedTimeFixed Ts n) 3 = .ok (H, gr) ∧
      (∀ fuel ≥ N, computeCOMTrajFixedSize lib fuel pData Ts n = .ok res) ∧
      MarginVerdictUpTo lib pData Ts.sum g (computeDiscretizedTimeFixed Ts n) R k
        (4 * lib.maxIter ^ 2 * k * lib.eps * motionCost pData (computeDiscretizedTimeFixed Ts n) x a ^ 2 / m ^ 2)
        N A b H gr res := by
  have hD : Discretisation Ts (computeDiscretizedTimeFixed Ts n) := Or.inl ⟨n, hn, rfl⟩
  obtain ⟨A, b, H, gr, res, N, hA, hgen, hrun, hv⟩ := planCoded_margin lib hL he pData Ts g h hf _ hD
    (goodCost pData Ts h.total h.ne h.flag h.capt _ hD hc) hs h1 h2 hm hx hsz hmeet hi hmar
  refine ⟨A, b, H, gr, res, N, hA, hgen, fun fuel hfuel => ?_, hv⟩
  have := hrun fuel hfuel
  unfold planSamples at this
  unfold computeCOMTrajFixedSize
  rw [if_pos hr, if_neg (not_not.mpr h.size)]
  exact this

/-- C80, `computeCOMTraj` with a time step, the two sets with rounded coefficients. -/
theorem C80_timeStep_rounded (κ : ℝ) (lib : Lib) (hL : LibOk lib) (he : 0 ≤ lib.eps) (pData : ProblemData)
    (Ts : List ℝ) (g : V3) (h : Accepted pData Ts g) (hr : pData.representation = DOUBLE_DESCRIPTION)
    (hf : pData.flag ∈ [31#32, 63#32]) (step : ℝ) (hstep : 0 < step) {fuel₀ : ℕ} {l : TTime}
    (hl : computeDiscretizedTime Ts step fuel₀ = .ok l)
    (hc : pData.costFunction = DISTANCE_TRAVELED ∨ pData.costFunction = ACCELERATION ∧ pData.flag ≠ 63#32) {k R : ℝ}
    (hs : CodedScale pData Ts.sum l k R) (h1 : lib.eps ≤ k)
    (h2 : lib.eps * R ^ 2 ≤ k ^ 2) {m : ℝ} (hm : 0 < m) {x : V3} {c v a : ℝ → V3} {M G : ℝ}
    (hx : Motion pData Ts.sum x c v a) (hsz : Sizes pData Ts.sum g x M G)
    (hmeet : MeetsSamplesUpToTol pData l (fun e r => -roundErr M G Ts.sum e r) (-(R * m)) (-m) c a)
    (hi : 1 ≤ lib.maxIter) (hmar : 32 * lib.maxIter ^ 2 * k * lib.eps * motionCost pData l x a ≤ m ^ 2) :
    ∃ A b H gr res N, computeConstraintsOneStep pData Ts.length Ts.sum l = .ok (A, b) ∧
      genCostFunction pData Ts Ts.sum l 3 = .ok (H, gr) ∧
      (∀ fuel ≥ N, computeCOMTraj κ lib fuel pData Ts step SOLVER_QUADPROG = .ok res) ∧
      MarginVerdictUpTo lib pData Ts.sum g l R k
        (4 * lib.maxIter ^ 2 * k * lib.eps * motionCost pData l x a ^ 2 / m ^ 2) N A b H gr res := by
  have hD : Discretisation Ts l := Or.inr ⟨step, hstep, fuel₀, hl⟩
  obtain ⟨A, b, H, gr, res, N, hA, hgen, hrun, hv⟩ := planCoded_margin lib hL he pData Ts g h hf l hD
    (goodCost pData Ts h.total h.ne h.flag h.capt l hD hc) hs h1 h2 hm hx hsz hmeet hi hmar
  obtain ⟨A', b', hA', hcols, -⟩ := C18_in_bounds_and_complete pData Ts g h l hD
  rw [hA] at hA'
  cases hA'
  refine ⟨A, b, H, gr, res, max N fuel₀, hA, hgen, fun fuel hfuel => ?_, ⟨?_, hv.good⟩⟩
  · have := hrun fuel (le_trans (le_max_left _ _) hfuel)
    unfold planSamples at this
    rw [hA, Out.ok_bind] at this
    have hdet : computeDiscretizedTime Ts step fuel = .ok l := by
      exact (discFor_mono step Ts fuel₀ 0 0 [] l hl).2 fuel (le_trans (le_max_right _ _) hfuel)
    unfold computeCOMTraj comSystem
    rw [if_neg (not_not.mpr h.size), if_pos hstep, if_pos hr, hdet, Out.ok_bind, hA, Out.ok_bind]
    simp only [Out.pure_eq, Out.ok_bind, hcols] at this ⊢
    exact this
  · exact hv.found.imp_right fun ⟨o, ho⟩ => ⟨o, fun fuel hfuel => ho fuel (le_trans (le_max_left _ _) hfuel)⟩

/-- The hypotheses of `C80_fixedSize_rounded` are met by `sixPhases` and the motion that does not move, for every threshold
that is small enough: the cost of that motion is zero. -/
theorem sixPhases_margin (n : ℕ) (hn : 0 < n) : ∃ k R ε m, 0 < ε ∧ 0 < m ∧
    CodedScale sixPhases ([1, 2] : List ℝ).sum (computeDiscretizedTimeFixed [1, 2] n) k R ∧
    (∀ eps ≤ ε, eps ≤ k ∧ eps * R ^ 2 ≤ k ^ 2) ∧
    Motion sixPhases 3 0 (fun _ => 0) (fun _ => 0) (fun _ => 0) ∧ Sizes sixPhases 3 ![0, 0, -9.81] 0 0 9.81 ∧
    MeetsSamplesUpToTol sixPhases (computeDiscretizedTimeFixed [1, 2] n) (fun e r => -roundErr 0 9.81 3 e r)
      (-(R * m)) (-m) (fun _ => 0) (fun _ => 0) ∧
    ∀ (i : ℕ) (eps : ℝ), 32 * i ^ 2 * k * eps *
      motionCost sixPhases (computeDiscretizedTimeFixed [1, 2] n) 0 (fun _ => 0) ≤ m ^ 2 := by
  obtain ⟨k, R, ε, hε, hs, heps⟩ := sixPhases_tolerance n hn
  have hl : Discretisation [1, 2] (computeDiscretizedTimeFixed [1, 2] n) := Or.inl ⟨n, hn, rfl⟩
  obtain ⟨r1, r2, -⟩ := sixPhases_rest _ hl
  have hR := hs.one
  have hR0 : 0 < R := by linarith
  refine ⟨k, R, ε, 1 / (10 * R), hε, by positivity, hs, heps, r1, r2, ⟨?_, ?_⟩, fun i eps => ?_⟩
  · intro t p hc
    have hp : p < 2 := (hc.lt (hl.tags (by simp) (by simp)).1).1
    have hm : 1 / (10 * R) ≤ 1 / 10 := by
      apply one_div_le_one_div_of_le <;> linarith
    have hRm : R * (1 / (10 * R)) = 1 / 10 := by field_simp
    refine ⟨pushContact, _, ?_, pushContact_good.1, ?_, ?_⟩
    · interval_cases p <;> rfl
    · intro q hq
      simp [pushContact] at hq
      subst hq
      simp [dot]
      norm_num at hm ⊢
      linarith
    · intro r hr
      simp only [List.mem_singleton] at hr
      subst hr
      have h1 : Real.sqrt (dot ![0, 0, 1] ![0, 0, 1] + dot (0 : V3) 0) = 1 := by
        rw [show dot ![0, 0, 1] ![0, 0, 1] + dot (0 : V3) 0 = 1 by simp [dot]]
        exact Real.sqrt_one
      rw [hRm]
      simp only [h1, roundErr]
      simp [dot, sixPhases, twoPhases]
      norm_num
  · intro _ q _ k
    have hm : 1 / (10 * R) ≤ 1 / 10 := by
      apply one_div_le_one_div_of_le <;> linarith
    simp [sixPhases, twoPhases]
    norm_num at hm ⊢
    linarith
  · have : motionCost sixPhases (computeDiscretizedTimeFixed [1, 2] n) 0 (fun _ => 0) = 0 := by
      have : sixPhases.costFunction ≠ ACCELERATION := by decide
      simp [motionCost, this, dot, sixPhases, twoPhases]
    rw [this]
    rw [mul_zero]; positivity

end Verif
