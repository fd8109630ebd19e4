import Verif.Props.C80
import Verif.Props.C80Cont
import Verif.Props.C80Ex
import Verif.Props.C102
import Verif.Props.C103
import Verif.Props.C85Margin

/-!
# C105: the planners as the thresholds of the solver become small

The margin theorems C80, C100 and C103 in terms of the requested accuracy, without reference to the size of the data.
-/

namespace Verif
open Matrix

/-- A number below which finitely many products are small. -/
theorem exists_small (l : List (ℝ × ℝ)) (h : ∀ q ∈ l, 0 < q.2) :
    ∃ ε > (0 : ℝ), ∀ e, 0 ≤ e → e ≤ ε → ∀ q ∈ l, e * q.1 ≤ q.2 := by
  induction l with
  | nil => exact ⟨1, one_pos, fun e _ _ q hq => by simp at hq⟩
  | cons q l ih =>
    obtain ⟨ε, hε, hl⟩ := ih fun q' hq' => h q' (List.mem_cons_of_mem _ hq')
    have hq := h q List.mem_cons_self
    have hden : 0 < |q.1| + 1 := by positivity
    refine ⟨min ε (q.2 / (|q.1| + 1)), lt_min hε (div_pos hq hden), fun e he hle q' hq' => ?_⟩
    rcases List.mem_cons.mp hq' with rfl | hq'
    · have h2 := hle.trans (min_le_right _ _)
      rw [le_div_iff₀ hden] at h2
      have := mul_le_mul_of_nonneg_left (le_abs_self q'.1) he
      linarith
    · exact hl e he (hle.trans (min_le_left _ _)) q' hq'

theorem wrenchOkTol_mono {e : Equilibrium} {ρ δ δ' : ℝ} {f τ : V3} (h : δ ≤ δ') (hw : WrenchOkTol e ρ δ f τ) : WrenchOkTol e ρ δ' f τ := by
  intro r hr
  refine (hw r hr).trans ?_
  have : 0 ≤ |e.mass| * Real.sqrt (dot r.1.1 r.1.1 + dot r.1.2 r.1.2) := by positivity
  exact mul_le_mul_of_nonneg_right (by linarith) this

theorem phaseOkTol_mono {ct : ContactData} {e : Equilibrium} {ρ δw δw' δ δ' : ℝ} {c a : V3} (hw : δw ≤ δw') (h : δ ≤ δ')
    (hp : PhaseOkTol ct e ρ δw δ c a) : PhaseOkTol ct e ρ δw' δ' c a :=
  ⟨wrenchOkTol_mono hw hp.1, fun q hq => (hp.2 q hq).trans (by linarith)⟩

theorem meetsSamplesTol_mono {pData : ProblemData} {l : TTime} {δw δw' δ δ' : ℝ} {c a : ℝ → V3} (hw : δw ≤ δw') (h : δ ≤ δ')
    (hm : MeetsSamplesTol pData l δw δ c a) : MeetsSamplesTol pData l δw' δ' c a := by
  refine ⟨fun t p hc => ?_, fun ha q hq k => (hm.2 ha q hq k).trans (by linarith)⟩
  obtain ⟨ct, e, h1, h2, h3⟩ := hm.1 t p hc
  exact ⟨ct, e, h1, h2, phaseOkTol_mono hw h h3⟩

/-- What C105 says of the planner on the samples `l`: the run ends with `success_` or the solver answers MAX_ITER_REACHED on the assembled problem; a
returned motion meets the requirements up to `τ` and no admissible motion is cheaper by more than `τ`. -/
def NearSamples (lib : Lib) (pData : ProblemData) (T : ℝ) (l : TTime) (τ : ℝ) (A b H gr : Mat) (run : ℕ → Out ResultDataCOMTraj) : Prop :=
  ∃ res N, (∀ fuel ≥ N, run fuel = .ok res) ∧
    (res.success = true ∨
      ∃ o, ∀ fuel ≥ N, callQuadprog lib fuel H gr (Mat.noRows A.cols) (Mat.noRows 1).neg A.neg b = .ok (.maxIterReached, o)) ∧
    (res.success = true → ∃ v a, Motion pData T res.point res.c_of_t.eval v a ∧ MeetsSamplesTol pData l τ τ res.c_of_t.eval a ∧
      ∀ x' c' v' a', Motion pData T x' c' v' a' → MeetsSamples pData l c' a' → motionCost pData l res.point a ≤ motionCost pData l x' a' + τ)

/-- The thresholds that suffice for the samples `l`. -/
theorem samples_threshold (pData : ProblemData) (Ts : List ℝ) (g : V3) (h : Accepted pData Ts g)
    (hf : pData.flag ∈ [11#32, 19#32, 27#32, 7#32, 15#32]) (l : TTime) (hl : Discretisation Ts l)
    (hc : pData.costFunction = DISTANCE_TRAVELED ∨ pData.costFunction = ACCELERATION) {μ : ℝ} (hμ : 0 < μ)
    {x : V3} {c v a : ℝ → V3} (hmeet : MeetsSamplesTol pData l (-μ) (-μ) c a)
    (maxIter : ℕ) {τ : ℝ} (hτ : 0 < τ) :
    ∃ A b k R m, computeConstraintsOneStep pData Ts.length Ts.sum l = .ok (A, b) ∧ 0 < m ∧ DataScale pData Ts.sum l g k R ∧
      MeetsSamplesTol pData l (-(R * m)) (-m) c a ∧
      ∃ ε > (0 : ℝ), ∀ eps, 0 ≤ eps → eps ≤ ε → eps ≤ k ∧ eps * R ^ 2 ≤ k ^ 2 ∧
        32 * (maxIter : ℝ) ^ 2 * k * eps * motionCost pData l x a ≤ m ^ 2 ∧ R * solverTol eps k A.rows ≤ τ ∧ solverTol eps k A.rows ≤ τ ∧
        4 * (maxIter : ℝ) ^ 2 * k * eps * motionCost pData l x a ^ 2 / m ^ 2 ≤ τ := by
  obtain ⟨k, R, hk, hs⟩ := C56_scale_exists pData Ts g h hf l hl hc
  have hR : 0 < R := lt_of_lt_of_le zero_lt_one hs.one
  obtain ⟨A, b, -, -, -, -, hA, -⟩ := planSamples_rows pData Ts g h hf l hl
    (goodCost pData Ts h.total h.ne h.flag h.capt _ hl (hc.imp_right fun hc => ⟨hc, fun e => by rw [e] at hf; simp at hf⟩)) hs
  have hm : 0 < μ / R := div_pos hμ hR
  have hRm : R * (μ / R) = μ := by field_simp
  refine ⟨A, b, k, R, μ / R, hA, hm, hs, ?_, ?_⟩
  · rw [hRm]
    exact meetsSamplesTol_mono le_rfl (neg_le_neg (div_le_self hμ.le hs.one)) hmeet
  obtain ⟨ε, hε, hall⟩ := exists_small
    [(1, k), (R ^ 2, k ^ 2), (32 * (maxIter : ℝ) ^ 2 * k * motionCost pData l x a, (μ / R) ^ 2), (R * (900 * A.rows * Real.sqrt k), τ),
      (900 * A.rows * Real.sqrt k, τ), (4 * (maxIter : ℝ) ^ 2 * k * motionCost pData l x a ^ 2 / (μ / R) ^ 2, τ)] (by
      simp only [List.mem_cons, List.not_mem_nil, or_false]
      rintro q (rfl | rfl | rfl | rfl | rfl | rfl) <;> dsimp only <;> positivity)
  refine ⟨ε, hε, fun e he hle => ?_⟩
  have hq := hall e he hle
  simp only [List.mem_cons, List.not_mem_nil, or_false, forall_eq_or_imp, forall_eq] at hq
  obtain ⟨q1, q2, q3, q4, q5, q6⟩ := hq
  unfold solverTol
  refine ⟨by linarith, q2, le_trans (le_of_eq ?_) q3, le_trans (le_of_eq ?_) q4, le_trans (le_of_eq ?_) q5, le_trans (le_of_eq ?_) q6⟩ <;> ring

theorem nearSamples_of_verdict {lib : Lib} {pData : ProblemData} {T : ℝ} {l : TTime} {R k gap τ : ℝ} {N : ℕ} {A b H gr : Mat}
    {res : ResultDataCOMTraj} {run : ℕ → Out ResultDataCOMTraj} (hrun : ∀ fuel ≥ N, run fuel = .ok res)
    (hv : MarginVerdict lib pData T l R k gap N A b H gr res) (h1 : R * solverTol lib.eps k A.rows ≤ τ)
    (h2 : solverTol lib.eps k A.rows ≤ τ) (h3 : gap ≤ τ) : NearSamples lib pData T l τ A b H gr run := by
  refine ⟨res, N, hrun, hv.found, fun hs => ?_⟩
  obtain ⟨v, a, hm, ht, ho⟩ := hv.good hs
  exact ⟨v, a, hm, meetsSamplesTol_mono h1 h2 ht, fun x' c' v' a' hm' hmeet' => (ho x' c' v' a' hm' hmeet').trans (by linarith)⟩

/-- C105, `computeCOMTrajFixedSize`. If some motion meets the requirements at the samples with a margin, then for every accuracy `τ` and every limit
on the number of iterations there is a positive number such that with thresholds below it the call returns with `success_`, or the QP
solver answered MAX_ITER_REACHED on the assembled problem; a returned motion meets the requirements up to `τ`, and no admissible motion is
cheaper by more than `τ`. -/
theorem C105_fixedSize (pData : ProblemData) (Ts : List ℝ) (g : V3) (h : Accepted pData Ts g) (hr : pData.representation = DOUBLE_DESCRIPTION)
    (hf : pData.flag ∈ [11#32, 19#32, 27#32, 7#32, 15#32]) (n : ℕ) (hn : 0 < n)
    (hc : pData.costFunction = DISTANCE_TRAVELED ∨ pData.costFunction = ACCELERATION) {μ : ℝ} (hμ : 0 < μ)
    {x : V3} {c v a : ℝ → V3} (hx : Motion pData Ts.sum x c v a)
    (hmeet : MeetsSamplesTol pData (computeDiscretizedTimeFixed Ts n) (-μ) (-μ) c a)
    (maxIter : ℕ) (hi : 1 ≤ maxIter) {τ : ℝ} (hτ : 0 < τ) :
    ∃ A b H gr, computeConstraintsOneStep pData Ts.length Ts.sum (computeDiscretizedTimeFixed Ts n) = .ok (A, b) ∧
      genCostFunction pData Ts Ts.sum (computeDiscretizedTimeFixed Ts n) 3 = .ok (H, gr) ∧
      ∃ ε > (0 : ℝ), ∀ lib : Lib, LibOk lib → 0 ≤ lib.eps → lib.eps ≤ ε → lib.maxIter = maxIter →
        NearSamples lib pData Ts.sum (computeDiscretizedTimeFixed Ts n) τ A b H gr (fun fuel => computeCOMTrajFixedSize lib fuel pData Ts n) := by
  obtain ⟨A, b, k, R, m, hA, hm, hs, hmm, ε, hε, hall⟩ := samples_threshold pData Ts g h hf _ (Or.inl ⟨n, hn, rfl⟩) hc hμ (x := x) (v := v) hmeet maxIter hτ
  obtain ⟨k1, k2, k3, -⟩ := hall 0 le_rfl hε.le
  obtain ⟨A0, b0, H, gr, -, -, hA0, hgen, -⟩ := C80_fixedSize { exactLib maxIter with eps := 0 } (exactLib_ok maxIter) le_rfl pData Ts g h hr hf n hn hc hs k1 k2
    hm hx hmm hi k3
  rw [hA] at hA0
  cases hA0
  refine ⟨A, b, H, gr, hA, hgen, ε, hε, fun lib hL he hle hmi => ?_⟩
  obtain ⟨e1, e2, e3, e4, e5, e6⟩ := hall lib.eps he hle
  subst hmi
  obtain ⟨A1, b1, H1, gr1, res, N, hA1, hgen1, hrun, hv⟩ := C80_fixedSize lib hL he pData Ts g h hr hf n hn hc hs e1 e2 hm hx hmm hi e3
  rw [hA] at hA1
  cases hA1
  rw [hgen] at hgen1
  cases hgen1
  exact nearSamples_of_verdict hrun hv e4 e5 e6

/-- C105, `computeCOMTraj` with a time step. -/
theorem C105_timeStep (κ : ℝ) (pData : ProblemData) (Ts : List ℝ) (g : V3) (h : Accepted pData Ts g) (hr : pData.representation = DOUBLE_DESCRIPTION)
    (hf : pData.flag ∈ [11#32, 19#32, 27#32, 7#32, 15#32]) (step : ℝ) (hstep : 0 < step) {fuel₀ : ℕ} {l : TTime}
    (hl : computeDiscretizedTime Ts step fuel₀ = .ok l)
    (hc : pData.costFunction = DISTANCE_TRAVELED ∨ pData.costFunction = ACCELERATION) {μ : ℝ} (hμ : 0 < μ)
    {x : V3} {c v a : ℝ → V3} (hx : Motion pData Ts.sum x c v a) (hmeet : MeetsSamplesTol pData l (-μ) (-μ) c a)
    (maxIter : ℕ) (hi : 1 ≤ maxIter) {τ : ℝ} (hτ : 0 < τ) :
    ∃ A b H gr, computeConstraintsOneStep pData Ts.length Ts.sum l = .ok (A, b) ∧ genCostFunction pData Ts Ts.sum l 3 = .ok (H, gr) ∧
      ∃ ε > (0 : ℝ), ∀ lib : Lib, LibOk lib → 0 ≤ lib.eps → lib.eps ≤ ε → lib.maxIter = maxIter →
        NearSamples lib pData Ts.sum l τ A b H gr (fun fuel => computeCOMTraj κ lib fuel pData Ts step SOLVER_QUADPROG) := by
  have hD : Discretisation Ts l := Or.inr ⟨step, hstep, fuel₀, hl⟩
  obtain ⟨A, b, k, R, m, hA, hm, hs, hmm, ε, hε, hall⟩ := samples_threshold pData Ts g h hf _ hD hc hμ (x := x) (v := v) hmeet maxIter hτ
  obtain ⟨k1, k2, k3, -⟩ := hall 0 le_rfl hε.le
  obtain ⟨A0, b0, H, gr, -, -, hA0, hgen, -⟩ := C80_timeStep κ { exactLib maxIter with eps := 0 } (exactLib_ok maxIter) le_rfl pData Ts g h hr hf step hstep hl hc hs k1 k2
    hm hx hmm hi k3
  rw [hA] at hA0
  cases hA0
  refine ⟨A, b, H, gr, hA, hgen, ε, hε, fun lib hL he hle hmi => ?_⟩
  obtain ⟨e1, e2, e3, e4, e5, e6⟩ := hall lib.eps he hle
  subst hmi
  obtain ⟨A1, b1, H1, gr1, res, N, hA1, hgen1, hrun, hv⟩ := C80_timeStep κ lib hL he pData Ts g h hr hf step hstep hl hc hs e1 e2 hm hx hmm hi e3
  rw [hA] at hA1
  cases hA1
  rw [hgen] at hgen1
  cases hgen1
  exact nearSamples_of_verdict hrun hv e4 e5 e6

/-! ## The continuous formulation -/

/-- C105, `computeCOMTraj` without a time step, double description. `S` is the assembled system; the margin is not asked of rows in which the
unknown point does not occur. -/
theorem C105_continuous (κ : ℝ) (pData : ProblemData) (Ts : List ℝ) (g : V3) (h : AcceptedC pData Ts g)
    (hr : pData.representation = DOUBLE_DESCRIPTION) (step : ℝ) (hstep : step ≤ 0)
    (hc : pData.costFunction = DISTANCE_TRAVELED ∨ pData.costFunction = ACCELERATION ∧ pData.flag ≠ 63#32)
    {S : ContSystem} (hS : computeConstraintsContinuous κ pData Ts = .ok S)
    {m : ℝ} (hm : 0 < m) {x : V3} (hmeet : SatMargin S.A S.b m (ext3 x)) (maxIter : ℕ) (hi : 1 ≤ maxIter) {τ : ℝ} (hτ : 0 < τ) :
    ∃ ε > (0 : ℝ), ∀ lib : Lib, LibOk lib → 0 ≤ lib.eps → lib.eps ≤ ε → lib.maxIter = maxIter →
      ∃ H gr res N, genCostFunction pData Ts Ts.sum (computeDiscretizedTimeFixed Ts 7) 3 = .ok (H, gr) ∧
        (∀ fuel ≥ N, computeCOMTraj κ lib fuel pData Ts step SOLVER_QUADPROG = .ok res) ∧
        (res.success = true ∨
          ∃ o, ∀ fuel ≥ N, callQuadprog lib fuel H gr S.D S.d.neg S.A.neg S.b = .ok (.maxIterReached, o)) ∧
        (res.success = true → ∃ v' a', Motion pData Ts.sum res.point res.c_of_t.eval v' a' ∧ SatTol S.A S.b τ (ext3 res.point) ∧
          ∀ x' c' v'' a'', Motion pData Ts.sum x' c' v'' a'' → Sat S.A S.b (ext3 x') →
            motionCost pData (computeDiscretizedTimeFixed Ts 7) res.point a' ≤
              motionCost pData (computeDiscretizedTimeFixed Ts 7) x' a'' + τ) := by
  obtain ⟨k, R, hk, hs⟩ := C56_continuous_scale_exists κ pData Ts g h hc
  obtain ⟨pts, hpts⟩ := C01_answers pData.flag h.flag pData.bc Ts.sum h.capt
  obtain ⟨v, a, hx⟩ := motion_exists pData Ts.sum pts hpts h.flag h.total.ne' x
  set F := motionCost pData (computeDiscretizedTimeFixed Ts 7) x a with hF
  obtain ⟨ε, hε, hall⟩ := exists_small
    [(1, k), (R ^ 2, k ^ 2), (32 * (maxIter : ℝ) ^ 2 * k * F, m ^ 2), (900 * S.A.rows * Real.sqrt k, τ),
      (4 * (maxIter : ℝ) ^ 2 * k * F ^ 2 / m ^ 2, τ)] (by
      simp only [List.mem_cons, List.not_mem_nil, or_false]
      rintro q (rfl | rfl | rfl | rfl | rfl) <;> dsimp only <;> positivity)
  refine ⟨ε, hε, fun lib hL he hle hmi => ?_⟩
  have hq := hall lib.eps he hle
  simp only [List.mem_cons, List.not_mem_nil, or_false, forall_eq_or_imp, forall_eq] at hq
  obtain ⟨q1, q2, q3, q4, q5⟩ := hq
  subst hmi
  obtain ⟨H, gr, res, N, h1, h2, h3, h4⟩ := C80_continuous κ lib hL he pData Ts g h hr step hstep hc hs
    (by linarith) q2 hS hm hx hmeet hi (le_trans (le_of_eq (by ring)) q3)
  refine ⟨H, gr, res, N, h1, h2, h3, fun hsucc => ?_⟩
  obtain ⟨v', a', hm', ht, ho⟩ := h4 hsucc
  refine ⟨v', a', hm', fun i hi' => (ht i hi').trans ?_, fun x' c' v'' a'' hx' hsat => (ho x' c' v'' a'' hx' hsat).trans ?_⟩
  · have : solverTol lib.eps k S.A.rows = lib.eps * (900 * S.A.rows * Real.sqrt k) := by unfold solverTol; ring
    linarith
  · refine add_le_add_right (le_trans (le_of_eq ?_) q5) _
    ring

/-! ## The end effector planner -/

theorem endOkTol_mono {flag : Flag} {d : BC} {T : ℝ} {pi : List V3} {δ δ' : ℝ} {X : ℕ → V3} (h : δ ≤ δ') (hX : EndOkTol flag d T pi δ X) :
    EndOkTol flag d T pi δ' X := by
  obtain ⟨vel, acc, jerk, a1, a2, a3, w1, w2, w3, w4⟩ := hX
  have hmono : ∀ {K : ℕ} (ws : List (WpB K)), Within ws (fun _ => 10000 + δ) (fun _ => 10000 + δ) X →
      Within ws (fun _ => 10000 + δ') (fun _ => 10000 + δ') X := by
    intro K ws hw w hw' hd j
    obtain ⟨l, u⟩ := hw w hw' hd j
    dsimp only at *
    constructor <;> linarith
  exact ⟨vel, acc, jerk, a1, a2, a3, hmono _ w1, hmono _ w2, hmono _ w3, fun j hj => by have := w4 j hj; linarith⟩

/-- C105, `solveEndEffector`. -/
theorem C105_end (flag : Flag) (hf : flag ∈ effFlags) (d : BC) (path : ℝ → V3) (T w : ℝ) (hT : 0 < T)
    (h0 : 0 ≤ w) (h1 : w ≤ 1) {pi : List V3} (hpi : computeConstantWaypoints flag d T = .ok pi) {m : ℝ} (hm : 0 < m) {X : ℕ → V3}
    (hX : EndOkTol flag d T pi (-m) X) (maxIter : ℕ) (hi : 1 ≤ maxIter) {τ : ℝ} (hτ : 0 < τ) :
    ∃ A b c, computeEndEffectorConstraints flag d T pi = .ok (A, b) ∧ computeEndEffectorCost flag d path T w pi = .ok c ∧
      ∃ ε > (0 : ℝ), ∀ lib : Lib, LibOk lib → 0 ≤ lib.eps → lib.eps ≤ ε → lib.maxIter = maxIter → ∀ init : List ℝ,
        ∃ r N, (∀ fuel ≥ N, solveEndEffector lib fuel flag d path T w init = .ok r) ∧
          (r.success = true ∨ ∃ o, ∀ fuel ≥ N, callQuadprog lib fuel c.H c.g (Mat.noRows A.cols) (Mat.noRows 1).neg A.neg b
            = .ok (.maxIterReached, o)) ∧
          (r.success = true →
            ∃ X, r.c_of_t.T = T ∧ r.c_of_t.eval = curve (degreeOf flag) (fillMany flag (nth pi) X) T ∧
              MeetsBoundary flag d r.c_of_t.eval T ∧ EndOkTol flag d T pi τ X ∧
              ∀ X', EndOk flag d T pi X' → blockForm c.1 c.2 X ≤ blockForm c.1 c.2 X' + τ) := by
  obtain ⟨pi', A, b, c, e1, e2, e3, -⟩ := C100_end (exactLib 1) (exactLib_ok 1) le_rfl flag hf d path T w hT h0 h1 []
  rw [hpi] at e1
  cases e1
  obtain ⟨k, R, hs⟩ := C76_scale_exists flag hf d path T w hT h0 h1 hpi e3
  have hk := hs.pos
  set F : ℝ := |blockForm c.1 c.2 X| + (∑ a, sq3 (c.2 a)) / k with hF
  have hFX : ∀ X', blockForm c.1 c.2 X - blockForm c.1 c.2 X' ≤ F := by
    intro X'
    have := blockForm_ge c hk hs.cost X'
    rw [neg_div] at this
    linarith [le_abs_self (blockForm c.1 c.2 X)]
  obtain ⟨ε, hε, hall⟩ := exists_small
    [(1, k), (R ^ 2, k ^ 2), (32 * (maxIter : ℝ) ^ 2 * F, k * m ^ 2),
      (100 * A.rows * (3 * ∑ a, c.1 a a) * ((3 * dimVarPts flag : ℕ) / Real.sqrt k), τ),
      (4 * (maxIter : ℝ) ^ 2 * F ^ 2 / (k * m ^ 2), τ)] (by
      simp only [List.mem_cons, List.not_mem_nil, or_false]
      rintro q (rfl | rfl | rfl | rfl | rfl) <;> dsimp only <;> positivity)
  refine ⟨A, b, c, e2, e3, ε, hε, fun lib hL he hle hmi init => ?_⟩
  have hq := hall lib.eps he hle
  simp only [List.mem_cons, List.not_mem_nil, or_false, forall_eq_or_imp, forall_eq] at hq
  obtain ⟨q1, q2, q3, q4, q5⟩ := hq
  subst hmi
  obtain ⟨pi', A', b', c', f1, f2, f3, hend⟩ := C100_end lib hL he flag hf d path T w hT h0 h1 init
  rw [hpi] at f1
  cases f1
  rw [e2] at f2
  cases f2
  rw [e3] at f3
  cases f3
  obtain ⟨r, N, hr, hv, hok, -⟩ := hend k R hs (by linarith) q2 hi m F X hm hX hFX (le_trans (le_of_eq (by ring)) q3)
  refine ⟨r, N, hr, hv, fun hsucc => ?_⟩
  obtain ⟨Y, y1, y2, y3, y4, y5⟩ := hok hsucc
  have htol : solverTolGen lib.eps k (3 * ∑ a, c.1 a a) (3 * dimVarPts flag) A.rows
      = lib.eps * (100 * A.rows * (3 * ∑ a, c.1 a a) * ((3 * dimVarPts flag : ℕ) / Real.sqrt k)) := by
    unfold solverTolGen; ring
  refine ⟨Y, y1, y2, y3, endOkTol_mono (htol.trans_le q4) y4, fun X' hX' => (y5 X' hX').trans ?_⟩
  refine add_le_add_right (le_trans (le_of_eq ?_) q5) _
  ring

/-! ## The zero step planner -/

theorem zeroScale_exists (ct : ContactData) (e : Equilibrium) (c0 dc0 : V3) (T : ℝ) : ∃ R, ZeroScale ct e c0 dc0 T R := by
  have hk : ∃ R0, ∀ K ∈ ct.Kin, len K ≤ R0 := by
    induction ct.Kin with
    | nil => exact ⟨0, by simp⟩
    | cons K l ih =>
      obtain ⟨R0, h0⟩ := ih
      exact ⟨max (len K) R0, fun K' hK' => by
        rcases List.mem_cons.mp hK' with rfl | h
        · exact le_max_left _ _
        · exact (h0 K' h).trans (le_max_right _ _)⟩
  obtain ⟨R0, h0⟩ := hk
  exact ⟨max R0 (max (|e.mass| * (6 / (T * T) * (1 + len c0 + T * len dc0) + len e.gravity)) (3 / T)),
    fun K hK => (h0 K hK).trans (le_max_left _ _), (le_max_left _ _).trans (le_max_right _ _), (le_max_right _ _).trans (le_max_right _ _)⟩

theorem zeroAnswer_mono {pData : ProblemData} {ct : ContactData} {e : Equilibrium} {T δ δ' : ℝ} {S : ℝ → Prop} {r : ResultDataCOMTraj}
    (h : δ ≤ δ') (hz : ZeroAnswer pData ct e T δ S r) : ZeroAnswer pData ct e T δ' S r := by
  obtain ⟨v, a, h1, h2, h3, h4, h5, h6, h7, h8⟩ := hz
  refine ⟨v, a, h1, h2, h3, h4, h5, h6, fun hu => ⟨(h7 hu).1, fun q hq => ((h7 hu).2 q hq).trans (by linarith)⟩, fun t ht r hr => ?_⟩
  exact (h8 t ht r hr).trans (mul_le_mul_of_nonneg_right h (Real.sqrt_nonneg _))

/-- C105, `solve0step`. -/
theorem C105_stop (pData : ProblemData) (ct : ContactData) (e : Equilibrium) (h : ZeroContact ct e) (hct : pData.contacts = [ct])
    (hrep : pData.representation = DOUBLE_DESCRIPTION) (hkin : pData.useAngularMomentum = true → ct.kin = []) (T timeStep : ℝ)
    (hs : GoodStep T timeStep) {m : ℝ} (hm : 0 < m) {x xL : V3} {dL : ℝ → V3} (hmar : StopTol pData ct e T timeStep (-m) x xL dL)
    (maxIter : ℕ) (hi : 1 ≤ maxIter) {τ : ℝ} (hτ : 0 < τ) :
    ∃ A b, zeroStepInequalities ct pData.bc.c0 pData.bc.dc0 pData.l0 pData.useAngularMomentum T timeStep = .ok (A, b) ∧
      ∃ ε > (0 : ℝ), ∀ lib : Lib, LibOk lib → 0 ≤ lib.eps → lib.eps ≤ ε → lib.maxIter = maxIter →
        ∃ r M, (∀ fuel ≥ M, solve0step lib fuel pData [T] timeStep = .ok r) ∧
          (r.success = true ∨ ∃ o, ∀ fuel ≥ M, callQuadprog lib fuel (zeroStepCost pData.bc.c0 pData.l0 pData.useAngularMomentum).1
            (zeroStepCost pData.bc.c0 pData.l0 pData.useAngularMomentum).2 (Mat.noRows A.cols) (Mat.noRows 1).neg A.neg b
              = .ok (.maxIterReached, o)) ∧
          (r.success = true →
            ZeroAnswer pData ct e T τ
              (fun t => (timeStep ≤ 0 ∨ T < timeStep) ∧ 0 ≤ t ∧ t ≤ T ∨ ∃ N, 1 ≤ N ∧ StepCount T timeStep N ∧ ∃ i : ℕ, i ≤ N ∧ t = i * (T / N)) r ∧
            ∀ x' xL' dL', StopTol pData ct e T timeStep 0 x' xL' dL' →
              stopEffort pData T (r.c_of_t.eval T) r.dL_of_t.eval ≤ stopEffort pData T x' dL' + τ) := by
  obtain ⟨R, hR⟩ := zeroScale_exists ct e pData.bc.c0 pData.bc.dc0 T
  obtain ⟨A, b, hA, -⟩ := C103_exact pData ct e h hs hkin
  have hk : 0 < zeroCurv pData.useAngularMomentum := by unfold zeroCurv; split_ifs <;> norm_num
  obtain ⟨ε, hε, hall⟩ := exists_small
    [(1, zeroCurv pData.useAngularMomentum), (2 * R ^ 2, zeroCurv pData.useAngularMomentum ^ 2),
      (32 * (maxIter : ℝ) ^ 2 * zeroSpan pData.useAngularMomentum * stopExcess pData x xL, zeroCurv pData.useAngularMomentum * m ^ 2),
      ((if pData.useAngularMomentum then 216018 else 900) * A.rows, τ),
      (4 * (maxIter : ℝ) ^ 2 * zeroSpan pData.useAngularMomentum * stopExcess pData x xL ^ 2 / (zeroCurv pData.useAngularMomentum * m ^ 2), τ)] (by
      simp only [List.mem_cons, List.not_mem_nil, or_false]
      rintro q (rfl | rfl | rfl | rfl | rfl) <;> dsimp only <;> positivity)
  refine ⟨A, b, hA, ε, hε, fun lib hL he hle hmi => ?_⟩
  have hq := hall lib.eps he hle
  simp only [List.mem_cons, List.not_mem_nil, or_false, forall_eq_or_imp, forall_eq] at hq
  obtain ⟨q1, q2, q3, q4, q5⟩ := hq
  subst hmi
  obtain ⟨A', b', hA', r, M, hrun, hv, hok⟩ := C103_stop lib hL he pData ct e h hct hrep hkin T timeStep R hs hR (by linarith) q2 hm hmar hi
    (le_trans (le_of_eq (by ring)) q3)
  rw [hA] at hA'
  cases hA'
  refine ⟨r, M, hrun, hv, fun hsucc => ?_⟩
  obtain ⟨h1, h2⟩ := hok hsucc
  have htol : zeroTol lib.eps pData.useAngularMomentum A.rows = lib.eps * ((if pData.useAngularMomentum then 216018 else 900) * A.rows) := by
    unfold zeroTol; ring
  refine ⟨zeroAnswer_mono (htol.trans_le q4) h1, fun x' xL' dL' hst => (h2 x' xL' dL' hst).trans ?_⟩
  refine add_le_add_right (le_trans (le_of_eq ?_) q5) _
  ring

/-! ## The planner with force variables -/

theorem mass_bounded (l : List ContactData) : ∃ M > (0 : ℝ), ∀ ct ∈ l, ∀ e, ct.contactPhase = some e → |e.mass| ≤ M := by
  induction l with
  | nil => exact ⟨1, one_pos, fun ct h => by simp at h⟩
  | cons ct l ih =>
    obtain ⟨M, hM, h⟩ := ih
    cases hp : ct.contactPhase with
    | none =>
      refine ⟨M, hM, fun ct' hct' e he => ?_⟩
      rcases List.mem_cons.mp hct' with rfl | hct'
      · rw [hp] at he; cases he
      · exact h ct' hct' e he
    | some e0 =>
      refine ⟨max M |e0.mass|, lt_max_of_lt_left hM, fun ct' hct' e he => ?_⟩
      rcases List.mem_cons.mp hct' with rfl | hct'
      · rw [hp] at he; cases he; exact le_max_right _ _
      · exact (h ct' hct' e he).trans (le_max_left _ _)

theorem nearCone_mono {e : Equilibrium} {ρf ρt ρf' ρt' : ℝ} {f τ : V3} (h1 : ρf ≤ ρf') (h2 : ρt ≤ ρt') (h : NearCone e ρf ρt f τ) :
    NearCone e ρf' ρt' f τ := by
  obtain ⟨f', τ', hc, hk⟩ := h
  exact ⟨f', τ', hc, fun k => ⟨(hk k).1.trans h1, (hk k).2.trans h2⟩⟩

/-- C105, `computeCOMTraj` with force variables, the five sets whose wrench waypoints are exact. -/
theorem C105_forces (κ : ℝ) (pData : ProblemData) (Ts : List ℝ) (g : V3) (h : AcceptedC pData Ts g)
    (hr : pData.representation ≠ DOUBLE_DESCRIPTION) (hf : pData.flag ∈ [11#32, 19#32, 27#32, 7#32, 15#32]) (step : ℝ) (hstep : step ≤ 0)
    (hc : pData.costFunction = DISTANCE_TRAVELED ∨ pData.costFunction = ACCELERATION)
    (hsp : ∀ ct ∈ pData.contacts, ∀ e, ct.contactPhase = some e → Spans e)
    (hmass : ∀ ct ∈ pData.contacts, ∀ e, ct.contactPhase = some e → 0 < e.mass) (hn : NestedPhases pData.contacts)
    {S : ContSystem} (hS : computeConstraintsContinuous κ pData Ts = .ok S)
    (pts : List V3) (hpts : computeConstantWaypoints pData.flag pData.bc Ts.sum = .ok pts)
    (hz : ∀ i < pts.length, i ∉ freeSlots pData.flag → ∃ k, 1e-12 < |nth pts i k|)
    {m : ℝ} (hm : 0 < m) {y : ℕ → ℝ} (heq : EqSat S.D S.d y) (hmeet : SatMargin S.A S.b m y) (hpos : AboveBoundsTol S.minBounds (-m) y)
    (maxIter : ℕ) (hi : 1 ≤ maxIter) {τ : ℝ} (hτ : 0 < τ) :
    ∃ ε > (0 : ℝ), ∀ lib : Lib, LibOk lib → 0 ≤ lib.eps → lib.eps ≤ ε → lib.maxIter = maxIter →
      ∃ A b H gr res N, addConstraintMinBoundQuadProg S.minBounds S.A S.b = .ok (A, b) ∧
        genCostFunction pData Ts Ts.sum (computeDiscretizedTimeFixed Ts 7) S.A.cols = .ok (H, gr) ∧
        (∀ fuel ≥ N, computeCOMTraj κ lib fuel pData Ts step SOLVER_QUADPROG = .ok res) ∧
        (res.success = true ∨ ∃ o, ∀ fuel ≥ N, callQuadprog lib fuel H gr S.D S.d.neg A.neg b = .ok (.maxIterReached, o)) ∧
        (res.success = true → MeetsBoundary pData.flag pData.bc res.c_of_t.eval Ts.sum ∧
          ∃ v' a', IsDeriv res.c_of_t.eval v' ∧ IsDeriv v' a' ∧
            (∀ p t, InPhase Ts p t → AtPhase pData.contacts p fun ct e =>
              NearCone e τ τ (e.mass • (g - a' t)) (e.mass • cr (res.c_of_t.eval t) (g - a' t)) ∧ KinOkTol ct τ (res.c_of_t.eval t)) ∧
            (∀ p t, InPhase Ts p t → ∀ j, |κ * Ts.sum ^ 2 * a' t j| ≤ pData.maxAcceleration + τ) ∧
            ∀ z c'' v'' a'', Motion pData Ts.sum (first3 z) c'' v'' a'' → AllSat S.A S.b S.D S.d S.minBounds z →
              motionCost pData (computeDiscretizedTimeFixed Ts 7) res.point a' ≤
                forceCost pData (computeDiscretizedTimeFixed Ts 7) S.A.cols z a'' + τ) := by
  obtain ⟨k, R, Γ, ε1, hk, h0, hΓ, hsc⟩ := C56_force_scale_exists κ pData Ts g h hr hsp hmass
    (hc.imp_right fun hc => ⟨hc, fun e => by rw [e] at hf; simp at hf⟩) S hS
  obtain ⟨v, a, hx⟩ := motion_exists pData Ts.sum pts hpts h.flag h.total.ne' (first3 y)
  obtain ⟨M, hM, hMall⟩ := mass_bounded pData.contacts
  have hmin : 0 < min k 1e-6 := lt_min hk (by norm_num)
  set F := forceCost pData (computeDiscretizedTimeFixed Ts 7) S.A.cols y a with hF
  set tol : ℝ := 100 * (S.A.rows + S.minBounds.length : ℕ) * (3 * k + (S.A.cols - 3 : ℕ) * 1e-6) * (S.A.cols / Real.sqrt (min k 1e-6)) with htol
  have htol0 : 0 ≤ tol := by positivity
  obtain ⟨ε2, hε2, hall⟩ := exists_small
    [(32 * (maxIter : ℝ) ^ 2 * max k 1e-6 ^ 2 * F, min k 1e-6 * m ^ 2), (tol, τ), (M * (|Γ| * tol), τ),
      (4 * (maxIter : ℝ) ^ 2 * max k 1e-6 ^ 2 * F ^ 2 / (min k 1e-6 * m ^ 2), τ)] (by
      simp only [List.mem_cons, List.not_mem_nil, or_false]
      rintro q (rfl | rfl | rfl | rfl) <;> dsimp only <;> positivity)
  refine ⟨min ε1 ε2, lt_min h0 hε2, fun lib hL he hle hmi => ?_⟩
  have hq := hall lib.eps he (hle.trans (min_le_right _ _))
  simp only [List.mem_cons, List.not_mem_nil, or_false, forall_eq_or_imp, forall_eq] at hq
  obtain ⟨q1, q2, q3, q4⟩ := hq
  subst hmi
  obtain ⟨A, b, H, gr, res, N, g1, g2, g3, g4, g5⟩ := C102_forces_motion κ lib hL he pData Ts g h hr hf step hstep hc hmass hn hΓ hS pts hpts hz
    (hsc _ (hle.trans (min_le_left _ _))) hm hx heq hmeet hpos hi (le_trans (le_of_eq (by ring)) q1)
  have et : forceTol S lib.eps k = lib.eps * tol := by
    rw [htol]
    unfold forceTol solverTolGen
    ring
  rw [et] at g5
  refine ⟨A, b, H, gr, res, N, g1, g2, g3, g4, fun hsucc => ?_⟩
  obtain ⟨hb, v', a', d1, d2, d3, d4, d5⟩ := g5 hsucc
  refine ⟨hb, v', a', d1, d2, fun p t hp => ?_, fun p t hp j => (d4 p t hp j).trans (by linarith), fun z c'' v'' a'' hz' hs' => (d5 z c'' v'' a'' hz' hs').trans ?_⟩
  · obtain ⟨ct, e, e1, e2, e3, e4⟩ := d3 p t hp
    have hle' : e.mass * (Γ * (lib.eps * tol)) ≤ τ := by
      have h1 : |e.mass * (Γ * (lib.eps * tol))| ≤ M * (|Γ| * (lib.eps * tol)) := by
        rw [abs_mul, abs_mul, abs_of_nonneg (mul_nonneg he htol0)]
        exact mul_le_mul_of_nonneg_right (hMall ct (List.mem_of_getElem? e1) e e2) (mul_nonneg (abs_nonneg _) (mul_nonneg he htol0))
      have h2 := (le_abs_self _).trans h1
      refine h2.trans (le_trans (le_of_eq ?_) q3)
      ring
    exact ⟨ct, e, e1, e2, nearCone_mono hle' hle' e3, fun q hq => (e4 q hq).trans (by linarith)⟩
  · refine add_le_add_right (le_trans (le_of_eq ?_) q4) _
    ring

/-! ## The hypotheses are met -/

/-- `C105_fixedSize` on the two phase problem of `C71Ex.lean`. -/
theorem restPhases_near (n : ℕ) (hn : 0 < n) (maxIter : ℕ) (hi : 1 ≤ maxIter) {τ : ℝ} (hτ : 0 < τ) :
    ∃ A b H gr, computeConstraintsOneStep restPhases 2 ([1, 2] : List ℝ).sum (computeDiscretizedTimeFixed [1, 2] n) = .ok (A, b) ∧
      genCostFunction restPhases [1, 2] ([1, 2] : List ℝ).sum (computeDiscretizedTimeFixed [1, 2] n) 3 = .ok (H, gr) ∧
      ∃ ε > (0 : ℝ), ∀ lib : Lib, LibOk lib → 0 ≤ lib.eps → lib.eps ≤ ε → lib.maxIter = maxIter →
        NearSamples lib restPhases ([1, 2] : List ℝ).sum (computeDiscretizedTimeFixed [1, 2] n) τ A b H gr
          (fun fuel => computeCOMTrajFixedSize lib fuel restPhases [1, 2] n) := by
  obtain ⟨c, v, a, hmot, hmeet, -⟩ := restPhases_slack n hn
  exact C105_fixedSize restPhases [1, 2] _ restPhases_accepted rfl (by simp [restPhases, twoPhases]) n hn (Or.inl rfl) (μ := 1 / 2) (by norm_num) hmot
    (meetsSamplesTol_mono (by norm_num) le_rfl hmeet) maxIter hi hτ

/-- `C105_continuous` on the standing robot of `C23Ex.lean`. -/
example (κ : ℝ) : ∃ S m x, computeConstraintsContinuous κ (standProblem 1) [1, 2] = .ok S ∧ AcceptedC (standProblem 1) [1, 2] ![0, 0, -10] ∧
    0 < m ∧ SatMargin S.A S.b m (ext3 x) := by
  obtain ⟨S, hS, -⟩ := C21_in_bounds_and_complete κ _ _ _ (standProblem_accepted 1)
  obtain ⟨m, hm, hmeet⟩ := standProblem_margin κ S hS
  exact ⟨S, m, _, hS, standProblem_accepted 1, hm, hmeet⟩

/-- `C105_forces` on the gripping robot of `C56Ex.lean`. -/
theorem gripProblem_near (κ : ℝ) (maxIter : ℕ) (hi : 1 ≤ maxIter) {τ : ℝ} (hτ : 0 < τ) :
    ∃ S, computeConstraintsContinuous κ gripProblem [3] = .ok S ∧
      ∃ ε > (0 : ℝ), ∀ lib : Lib, LibOk lib → 0 ≤ lib.eps → lib.eps ≤ ε → lib.maxIter = maxIter →
        ∃ res N, (∀ fuel ≥ N, computeCOMTraj κ lib fuel gripProblem [3] (-1) SOLVER_QUADPROG = .ok res) ∧
          (res.success = true → ∃ v' a', IsDeriv res.c_of_t.eval v' ∧ IsDeriv v' a' ∧
            ∀ p t, InPhase [3] p t → AtPhase gripProblem.contacts p fun ct e =>
              NearCone e τ τ (e.mass • (![0, 0, -10] - a' t)) (e.mass • cr (res.c_of_t.eval t) (![0, 0, -10] - a' t)) ∧
                KinOkTol ct τ (res.c_of_t.eval t)) := by
  obtain ⟨S, k, R, Γ, ε0, pts, -, hS, hacc, hnest, -, hpts, hz, -⟩ := gripProblem_tolerance κ
  obtain ⟨m1, m2, m3⟩ := gripProblem_margin κ S hS
  obtain ⟨ε, hε, hall⟩ := C105_forces κ gripProblem [3] _ hacc (by simp [gripProblem, standProblem, DOUBLE_DESCRIPTION])
    (by simp [gripProblem, standProblem]) (-1) (by norm_num) (Or.inr rfl) gripProblem_spans (by
      intro ct hct e he
      simp only [gripProblem, List.mem_singleton] at hct
      subst hct
      simp only [standContact, Option.some.injEq] at he
      subst he
      norm_num) hnest hS pts hpts hz one_pos m1 m2 m3 maxIter hi hτ
  refine ⟨S, hS, ε, hε, fun lib hL he hle hmi => ?_⟩
  obtain ⟨A, b, H, gr, res, N, -, -, h3, -, h5⟩ := hall lib hL he hle hmi
  refine ⟨res, N, h3, fun hs => ?_⟩
  obtain ⟨-, v', a', d1, d2, d3, -⟩ := h5 hs
  exact ⟨v', a', d1, d2, d3⟩

/-- `C105_stop` on the robot that turns, of `C103.lean`. -/
example : ZeroContact spinContact spinPhase ∧ GoodStep 1 (-1) ∧ ∃ x xL dL, StopTol spinProblem spinContact spinPhase 1 (-1) (-(1 / 4)) x xL dL :=
  ⟨⟨rfl, rfl, rfl, by
      intro r hr
      simp [spinPhase] at hr
      subst hr
      intro h0
      have := congrFun (congrArg Prod.fst h0) 2
      simp at this, fun h => absurd rfl h⟩, Or.inl ⟨one_pos, Or.inl (by norm_num)⟩, _, _, _, spin_stop⟩

end Verif
