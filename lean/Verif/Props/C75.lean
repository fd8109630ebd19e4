import Verif.Props.C60
import Verif.Props.C71
import Verif.Props.C39Ref
import Verif.Lemmas.ZeroRows
import Verif.Lemmas.SolveTolGen

/-!
# C75: the zero step planner with the thresholds of the solver
-/

namespace Verif
open Matrix

/-! ## Specification -/

/-- Euclidean length. -/
noncomputable def len (v : V3) : ℝ := Real.sqrt (dot v v)

/-- The wrench `(f, τ)` is at distance at most `δ` from each half space of the cone. -/
def ConeTol (e : Equilibrium) (δ : ℝ) (f τ : V3) : Prop :=
  ∀ r ∈ e.poly, dot r.1.1 f + dot r.1.2 τ ≤ δ * Real.sqrt (dot r.1.1 r.1.1 + dot r.1.2 r.1.2)

/-- The kinematic constraints up to `δ`. -/
def KinTol (ct : ContactData) (δ : ℝ) (x : V3) : Prop := ∀ q ∈ ct.Kin.zip ct.kin, dot q.1 x ≤ q.2 + δ

/-- The size of the data. -/
structure ZeroScale (ct : ContactData) (e : Equilibrium) (c0 dc0 : V3) (T R : ℝ) : Prop where
  kin : ∀ K ∈ ct.Kin, len K ≤ R
  wrench : |e.mass| * (6 / (T * T) * (1 + len c0 + T * len dc0) + len e.gravity) ≤ R
  momentum : 3 / T ≤ R

/-- The smallest eigenvalue of the cost. -/
noncomputable def zeroCurv (useAng : Bool) : ℝ := if useAng then 0.0001 else 1

/-- The tolerance of the solver on the zero step problem with `rows` inequalities. -/
noncomputable def zeroTol (eps : ℝ) (useAng : Bool) (rows : ℕ) : ℝ := (if useAng then 216018 else 900) * rows * eps

/-! ## Lengths -/

theorem dot_nonneg (v : V3) : 0 ≤ dot v v := by unfold dot; nlinarith [mul_self_nonneg (v 0), mul_self_nonneg (v 1), mul_self_nonneg (v 2)]

theorem len_nonneg (v : V3) : 0 ≤ len v := Real.sqrt_nonneg _

theorem len_sq (v : V3) : len v * len v = dot v v := Real.mul_self_sqrt (dot_nonneg v)

theorem abs_dot_le (a b : V3) : |dot a b| ≤ len a * len b := by
  apply abs_le_of_sq_le_sq _ (mul_nonneg (len_nonneg a) (len_nonneg b))
  have : (len a * len b) ^ 2 = dot a a * dot b b := by rw [← len_sq, ← len_sq]; ring
  rw [this]
  unfold dot
  nlinarith [sq_nonneg (a 0 * b 1 - a 1 * b 0), sq_nonneg (a 0 * b 2 - a 2 * b 0), sq_nonneg (a 1 * b 2 - a 2 * b 1)]

theorem len_add (a b : V3) : len (a + b) ≤ len a + len b := by
  apply Real.sqrt_le_iff.mpr
  refine ⟨add_nonneg (len_nonneg a) (len_nonneg b), ?_⟩
  have h1 : dot (a + b) (a + b) = dot a a + dot b b + 2 * dot a b := by simp [dot]; ring
  have h2 := (le_abs_self _).trans (abs_dot_le a b)
  rw [h1, ← len_sq, ← len_sq]
  nlinarith

theorem len_smul (c : ℝ) (a : V3) : len (c • a) = |c| * len a := by
  unfold len
  rw [show dot (c • a) (c • a) = c ^ 2 * dot a a by simp [dot]; ring, Real.sqrt_mul (sq_nonneg c), Real.sqrt_sq_eq_abs]

theorem skew_dot_le (a v x : V3) : |dot a (skew v *ᵥ x)| ≤ len a * (len v * len x) := by
  refine (abs_dot_le _ _).trans (mul_le_mul_of_nonneg_left ?_ (len_nonneg a))
  apply Real.sqrt_le_iff.mpr
  refine ⟨mul_nonneg (len_nonneg v) (len_nonneg x), ?_⟩
  have : (len v * len x) ^ 2 = dot v v * dot x x := by rw [← len_sq, ← len_sq]; ring
  rw [this]
  simp only [dot, skew, mulVec, dotProduct, Fin.sum_univ_three]
  simp
  nlinarith [sq_nonneg (v 0 * x 0 + v 1 * x 1 + v 2 * x 2)]

/-! ## The waypoints change slowly with the end point -/

/-- Half spaces of the wrench change at most by `M` times the change of the end point. -/
def WpBound (M : ℝ) (w : Wp6) : Prop := ∀ (r : V3 × V3) (x : V3), dot r.1 r.1 + dot r.2 r.2 ≤ 1 →
  |dot r.1 (w.headAt x - w.headAt 0) + dot r.2 (w.tailAt x - w.tailAt 0)| ≤ M * len x

theorem unit_parts {r : V3 × V3} (h : dot r.1 r.1 + dot r.2 r.2 ≤ 1) : len r.1 ≤ 1 ∧ len r.2 ≤ 1 := by
  have h1 := dot_nonneg r.1
  have h2 := dot_nonneg r.2
  constructor <;> exact Real.sqrt_le_one.mpr (by linarith)

theorem wpBound_of {M c : ℝ} {v : V3} {w : Wp6} (hh : ∀ x, w.headAt x - w.headAt 0 = c • x)
    (ht : ∀ x, w.tailAt x - w.tailAt 0 = skew v *ᵥ x) (hM : |c| + len v ≤ M) : WpBound M w := by
  intro r x hr
  obtain ⟨u1, u2⟩ := unit_parts hr
  rw [hh, ht]
  have e1 : |dot r.1 (c • x)| ≤ |c| * len x := by
    refine (abs_dot_le _ _).trans ?_
    rw [len_smul]
    have := mul_nonneg (abs_nonneg c) (len_nonneg x)
    nlinarith [len_nonneg r.1]
  have e2 : |dot r.2 (skew v *ᵥ x)| ≤ len v * len x := by
    refine (skew_dot_le _ _ _).trans ?_
    have := mul_nonneg (len_nonneg v) (len_nonneg x)
    nlinarith [len_nonneg r.2]
  refine (abs_add_le _ _).trans ?_
  nlinarith [len_nonneg x]

theorem wpBound_of' {M c : ℝ} {w : Wp6} (hh : ∀ x, w.headAt x - w.headAt 0 = 0)
    (ht : ∀ x, w.tailAt x - w.tailAt 0 = c • x) (hM : |c| ≤ M) : WpBound M w := by
  intro r x hr
  obtain ⟨u1, u2⟩ := unit_parts hr
  rw [hh, ht, show dot r.1 0 = 0 by simp [dot], zero_add]
  refine (abs_dot_le _ _).trans ?_
  rw [len_smul]
  have h1 := mul_nonneg (abs_nonneg c) (len_nonneg x)
  nlinarith [len_nonneg r.2, len_nonneg x]

theorem wpBound_bez {M : ℝ} {ws : List Wp6} (hne : ws ≠ []) (h : ∀ w ∈ ws, WpBound M w) {w : Wp6} {t : ℝ} (h0 : 0 ≤ t)
    (h1 : t ≤ 1) (hw : ∀ x, w.headAt x = headCurve ws x t ∧ w.tailAt x = tailCurve ws x t) : WpBound M w := by
  intro r x hr
  have hl : 0 < ws.length := List.length_pos_iff.mpr hne
  rw [(hw x).1, (hw x).2, (hw 0).1, (hw 0).2]
  unfold headCurve tailCurve
  rw [← bez_sub, ← bez_sub, dot_bez, dot_bez, ← bez_add]
  have hi : ∀ i ≤ ws.length - 1, |dot r.1 ((ws[i]!).headAt x - (ws[i]!).headAt 0)
      + dot r.2 ((ws[i]!).tailAt x - (ws[i]!).tailAt 0)| ≤ M * len x := by
    intro i hi
    refine h _ ?_ r x hr
    rw [getElem!_pos ws i (by omega)]
    exact List.getElem_mem _
  rw [abs_le]
  constructor
  · have := bez_le (n := ws.length - 1) (b := M * len x)
      (p := fun i => (-1 : ℝ) • (dot r.1 ((ws[i]!).headAt x - (ws[i]!).headAt 0)
        + dot r.2 ((ws[i]!).tailAt x - (ws[i]!).tailAt 0))) h0 h1 fun i hi' => by
      have := (abs_le.mp (hi i hi')).1
      simp only [smul_eq_mul]
      linarith
    rw [bez_smul] at this
    simp only [smul_eq_mul] at this
    linarith
  · exact bez_le h0 h1 fun i hi' => (abs_le.mp (hi i hi')).2

theorem discretizeIf_bound {M : ℝ} {ws : List Wp6} (h5 : ws.length = 5) (h : ∀ w ∈ ws, WpBound M w) {n : ℤ} {l : List Wp6}
    (hn : n + 1 < 2 ^ 31) (hl : discretizeIf n ws = .ok l) : ∀ w ∈ l, WpBound M w := by
  by_cases h0 : 0 < n
  · obtain ⟨N, rfl⟩ := Int.eq_ofNat_of_zero_le h0.le
    have hN : 0 < N := by omega
    obtain ⟨F, hF, hx⟩ := discretize_some ws h5 hN (by omega)
    rw [hF] at hl
    cases hl
    intro w hw
    obtain ⟨i, hi, rfl⟩ := List.mem_map.mp hw
    have hi' : i ≤ N := by have := List.mem_range.mp hi; omega
    have hN' : (0 : ℝ) < N := by exact_mod_cast hN
    exact wpBound_bez (by intro h; simp [h] at h5) h (div_nonneg (by positivity) hN'.le)
      ((div_le_one hN').mpr (by exact_mod_cast hi')) (fun x => hx _ x)
  · unfold discretizeIf at hl
    rw [if_neg (by omega)] at hl
    cases hl
    exact h

theorem GoodStep.numSteps {T timeStep : ℝ} (h : GoodStep T timeStep) :
    ∃ n, computeNumSteps T timeStep = .ok n ∧ n + 1 < 2 ^ 31 := by
  rcases h with ⟨hT, h | h⟩ | ⟨N, -, h⟩
  · exact ⟨-1, numSteps_neg h, by norm_num⟩
  · exact ⟨0, numSteps_eq (N := 0) ⟨hT.trans h, by simpa using hT.le, by simpa using h, by norm_num⟩, by norm_num⟩
  · exact ⟨N, numSteps_eq h, by have := h.small; omega⟩

theorem waypoints_bound (c0 dc0 g : V3) {T timeStep : ℝ} (hs : GoodStep T timeStep) {ws : List Wp6}
    (h : ComputeAllWaypoints c0 dc0 g T timeStep = .ok ws) :
    ∀ w ∈ ws, WpBound (6 / (T * T) * (1 + len c0 + T * len dc0) + len g) w := by
  obtain ⟨n, hn, hn'⟩ := hs.numSteps
  have hT := hs.pos
  unfold ComputeAllWaypoints at h
  rw [hn, Out.ok_bind] at h
  dsimp only at h
  refine discretizeIf_bound rfl ?_ hn' h
  set α : ℝ := 1 / (T * T) with hα
  have hα0 : 0 < α := by positivity
  set p1 : V3 := fun k => dc0 k * T / 3 + c0 k with hp1
  have hp : len p1 ≤ len c0 + T / 3 * len dc0 := by
    have : p1 = c0 + (T / 3) • dc0 := by funext k; simp [hp1]; ring
    rw [this]
    refine (len_add _ _).trans ?_
    rw [len_smul, abs_of_pos (by positivity)]
  have e6 : 6 / (T * T) = 6 * α := by rw [hα]; ring
  rw [e6]
  have l0 := len_nonneg c0
  have l1 := len_nonneg dc0
  have l2 := len_nonneg g
  have l3 := len_nonneg p1
  have Tl : 0 ≤ T * len dc0 := mul_nonneg hT.le l1
  have ab : ∀ c : ℝ, 0 ≤ c → |c * α| = c * α := fun c hc => abs_of_nonneg (mul_nonneg hc hα0.le)
  have ab' : ∀ c : ℝ, 0 ≤ c → |-(c * α)| = c * α := fun c hc => by rw [abs_neg]; exact ab c hc
  have m0 := mul_nonneg hα0.le l0
  have m1 := mul_nonneg hα0.le Tl
  have m2 : α * len p1 ≤ α * len c0 + α * (T * len dc0) / 3 := by
    have := mul_le_mul_of_nonneg_left hp hα0.le
    linarith
  intro w hw
  simp only [List.mem_cons, List.not_mem_nil, or_false] at hw
  rcases hw with rfl | rfl | rfl | rfl | rfl
  · refine wpBound_of (c := 6 * α) (v := (6 * α) • c0) (fun x => ?_) (fun x => ?_) ?_
    · funext k; fin_cases k <;> simp [Wp6.headAt, w0, mulVec, dotProduct, Fin.sum_univ_three]
    · funext k; fin_cases k <;> simp [Wp6.tailAt, w0, mulVec, dotProduct, Fin.sum_univ_three, skew] <;> ring
    · rw [len_smul, ab 6 (by norm_num)]
      nlinarith
  · refine wpBound_of (c := 3 * α) (v := (4.5 * α) • p1 + (-(1.5 * α)) • c0) (fun x => ?_) (fun x => ?_) ?_
    · funext k; fin_cases k <;> simp [Wp6.headAt, w1, mulVec, dotProduct, Fin.sum_univ_three]
    · funext k; fin_cases k <;> simp [Wp6.tailAt, w1, mulVec, dotProduct, Fin.sum_univ_three, skew] <;> ring
    · have := len_add ((4.5 * α) • p1) ((-(1.5 * α)) • c0)
      rw [len_smul, len_smul, ab 4.5 (by norm_num), ab' 1.5 (by norm_num)] at this
      rw [ab 3 (by norm_num)]
      nlinarith
  · refine wpBound_of (c := 0) (v := (0.5 : ℝ) • g + ((-(3 * α)) • c0 + (3 * α) • p1)) (fun x => ?_) (fun x => ?_) ?_
    · funext k; fin_cases k <;> simp [Wp6.headAt, w2, mulVec, dotProduct, Fin.sum_univ_three]
    · funext k; fin_cases k <;> simp [Wp6.tailAt, w2, mulVec, dotProduct, Fin.sum_univ_three, skew] <;> ring
    · have h1 := len_add ((0.5 : ℝ) • g) ((-(3 * α)) • c0 + (3 * α) • p1)
      have h2 := len_add ((-(3 * α)) • c0) ((3 * α) • p1)
      rw [len_smul, abs_of_pos (by norm_num)] at h1
      rw [len_smul, len_smul, ab 3 (by norm_num), ab' 3 (by norm_num)] at h2
      rw [abs_zero]
      nlinarith
  · refine wpBound_of (c := -(3 * α)) (v := g + (-(1.5 * α)) • (p1 + c0)) (fun x => ?_) (fun x => ?_) ?_
    · funext k; fin_cases k <;> simp [Wp6.headAt, w3, mulVec, dotProduct, Fin.sum_univ_three]
    · funext k; fin_cases k <;> simp [Wp6.tailAt, w3, mulVec, dotProduct, Fin.sum_univ_three, skew] <;> ring
    · have h1 := len_add g ((-(1.5 * α)) • (p1 + c0))
      have h2 := len_add p1 c0
      rw [len_smul, ab' 1.5 (by norm_num)] at h1
      have h3 := mul_le_mul_of_nonneg_left h2 (mul_nonneg (by norm_num : (0 : ℝ) ≤ 1.5) hα0.le)
      rw [ab' 3 (by norm_num)]
      nlinarith
  · refine wpBound_of (c := -(6 * α)) (v := g + (-(6 * α)) • p1) (fun x => ?_) (fun x => ?_) ?_
    · funext k; fin_cases k <;> simp [Wp6.headAt, w4, mulVec, dotProduct, Fin.sum_univ_three]
    · funext k; fin_cases k <;> simp [Wp6.tailAt, w4, mulVec, dotProduct, Fin.sum_univ_three, skew] <;> ring
    · have h1 := len_add g ((-(6 * α)) • p1)
      rw [len_smul, ab' 6 (by norm_num)] at h1
      rw [ab' 6 (by norm_num)]
      nlinarith

theorem momentum_bound (l0 : V3) {T timeStep : ℝ} (hs : GoodStep T timeStep) {us : List Wp6}
    (h : ComputeAllWaypointsAngularMomentum l0 T timeStep = .ok us) : ∀ u ∈ us, WpBound (3 / T) u := by
  obtain ⟨n, hn, hn'⟩ := hs.numSteps
  have hT := hs.pos
  unfold ComputeAllWaypointsAngularMomentum at h
  rw [hn, Out.ok_bind] at h
  dsimp only at h
  refine discretizeIf_bound rfl ?_ hn' h
  have hα0 : 0 < 1 / T := by positivity
  have e3 : 3 / T = 3 * (1 / T) := by ring
  rw [e3]
  set α : ℝ := 1 / T with hα
  have ab : ∀ c : ℝ, 0 ≤ c → |c * α| = c * α := fun c hc => abs_of_nonneg (mul_nonneg hc hα0.le)
  have ab' : ∀ c : ℝ, 0 ≤ c → |-(c * α)| = c * α := fun c hc => by rw [abs_neg]; exact ab c hc
  intro w hw
  simp only [List.mem_cons, List.not_mem_nil, or_false] at hw
  rcases hw with rfl | rfl | rfl | rfl | rfl
  · refine wpBound_of' (c := 3 * α) (fun x => ?_) (fun x => ?_) ?_
    · simp [Wp6.headAt, u0]
    · funext k; fin_cases k <;> simp [Wp6.tailAt, u0, mulVec, dotProduct, Fin.sum_univ_three]
    · rw [ab 3 (by norm_num)]
  · refine wpBound_of' (c := 0) (fun x => ?_) (fun x => ?_) ?_
    · simp [Wp6.headAt, u1]
    · simp [Wp6.tailAt, u1]
    · rw [abs_zero]; positivity
  · refine wpBound_of' (c := -(1.5 * α)) (fun x => ?_) (fun x => ?_) ?_
    · simp [Wp6.headAt, u2]
    · funext k; fin_cases k <;> simp [Wp6.tailAt, u2, mulVec, dotProduct, Fin.sum_univ_three]
    · rw [ab' 1.5 (by norm_num)]; nlinarith
  · refine wpBound_of' (c := -(1.5 * α)) (fun x => ?_) (fun x => ?_) ?_
    · simp [Wp6.headAt, u3]
    · funext k; fin_cases k <;> simp [Wp6.tailAt, u3, mulVec, dotProduct, Fin.sum_univ_three]
    · rw [ab' 1.5 (by norm_num)]; nlinarith
  · refine wpBound_of' (c := 0) (fun x => ?_) (fun x => ?_) ?_
    · simp [Wp6.headAt, u4]
    · simp [Wp6.tailAt, u4]
    · rw [abs_zero]; positivity

/-! ## The rows -/

theorem unitRow_unit (r : V3 × V3) (hr : r ≠ 0) : dot (unitRow r).1 (unitRow r).1 + dot (unitRow r).2 (unitRow r).2 ≤ 1 := by
  have hp := norm6_pos hr
  have e : dot (unitRow r).1 (unitRow r).1 + dot (unitRow r).2 (unitRow r).2
      = (norm6 r)⁻¹ ^ 2 * (dot r.1 r.1 + dot r.2 r.2) := by
    simp only [unitRow, dot, Pi.neg_apply, Pi.smul_apply, smul_eq_mul]; ring
  have e2 : dot r.1 r.1 + dot r.2 r.2 = norm6 r ^ 2 := by
    unfold norm6
    rw [Real.sq_sqrt (by rw [dot_eq, dot_eq]; have := dot_nonneg r.1; have := dot_nonneg r.2; linarith), dot_eq, dot_eq]
  rw [e, e2, ← mul_pow, inv_mul_cancel₀ hp.ne']
  norm_num

theorem rowMul_len {M : ℝ} (hM : 0 ≤ M) {w : Wp6} (hw : WpBound M w) {u : V3 × V3} (hu : dot u.1 u.1 + dot u.2 u.2 ≤ 1) :
    len (rowMul u w) ≤ M := by
  have h := hw u (rowMul u w) hu
  have e : ∀ x, dot u.1 (w.headAt x - w.headAt 0) + dot u.2 (w.tailAt x - w.tailAt 0) = rowMul u w ⬝ᵥ x := by
    intro x
    unfold rowMul
    rw [add_dotProduct, ← dotProduct_mulVec, ← dotProduct_mulVec, dot_eq, dot_eq]
    simp only [Wp6.headAt, Wp6.tailAt, mulVec_zero, zero_add, add_sub_cancel_right]
  rw [e, dot_eq, ← len_sq, abs_of_nonneg (mul_self_nonneg _)] at h
  rcases (len_nonneg (rowMul u w)).eq_or_lt with h0 | h0
  · rw [← h0]; exact hM
  · exact le_of_mul_le_mul_right h h0

theorem sum_sq_three (a : ℕ → ℝ) : ∑ c ∈ Finset.range 3, a c ^ 2 = dot (seg3 a 0) (seg3 a 0) := by
  simp [Finset.sum_range_succ, seg3, dot]; ring

theorem sum_sq_six (a : ℕ → ℝ) : ∑ c ∈ Finset.range 6, a c ^ 2
    = dot (seg3 a 0) (seg3 a 0) + dot (seg3 a 3) (seg3 a 3) := by
  simp [Finset.sum_range_succ, seg3, dot]; ring

theorem dot_le_of_len {v : V3} {R : ℝ} (h : len v ≤ R) : dot v v ≤ R ^ 2 := by
  rw [← len_sq, sq]
  exact mul_self_le_mul_self (len_nonneg v) h

theorem len_zero : len 0 = 0 := by simp [len, dot]

/-- What the rows say, up to `δ`. -/
theorem plain_tol {m : ℝ} {g x : V3} {r : V3 × V3} (hr : r ≠ 0) {w : Wp6} {a : ℕ → ℝ} {β δ : ℝ}
    (h : LoopRow m g (unitRow r) w a β) (hs : seg3 a 0 ⬝ᵥ x ≤ β + δ) :
    dot r.1 (m • (g - w.headAt x)) + dot r.2 (m • (-w.tailAt x)) ≤ δ * Real.sqrt (dot r.1 r.1 + dot r.2 r.2) := by
  have hp := norm6_pos hr
  rw [h.fst, h.rhs] at hs
  have key : (m • rowMul (unitRow r) w) ⬝ᵥ x - m * rowDot (unitRow r) (g - w.head) (0 - w.tail)
      = (norm6 r)⁻¹ * (dot r.1 (m • (g - w.headAt x)) + dot r.2 (m • (-w.tailAt x))) := by
    unfold rowMul rowDot unitRow
    rw [smul_dotProduct, add_dotProduct, ← dotProduct_mulVec, ← dotProduct_mulVec]
    simp only [Wp6.headAt, Wp6.tailAt, dot_eq, dot, Pi.smul_apply, Pi.neg_apply, Pi.sub_apply,
      Pi.add_apply, smul_eq_mul, Pi.zero_apply]
    ring
  have h1 : (norm6 r)⁻¹ * (dot r.1 (m • (g - w.headAt x)) + dot r.2 (m • (-w.tailAt x))) ≤ δ := by linarith
  rw [inv_mul_le_iff₀ hp] at h1
  have : norm6 r = Real.sqrt (dot r.1 r.1 + dot r.2 r.2) := by unfold norm6; rw [dot_eq, dot_eq]
  rw [← this, mul_comm]
  exact h1

theorem ang_tol {m : ℝ} {g x xL : V3} {r : V3 × V3} (hr : r ≠ 0) {w u : Wp6} {a : ℕ → ℝ} {β δ : ℝ}
    (h : LoopRowAng m g (unitRow r) w u a β) (hs : seg3 a 0 ⬝ᵥ x + seg3 a 3 ⬝ᵥ xL ≤ β + δ) :
    dot r.1 (m • (g - w.headAt x) - u.headAt xL) + dot r.2 (m • (-w.tailAt x) - u.tailAt xL)
      ≤ δ * Real.sqrt (dot r.1 r.1 + dot r.2 r.2) := by
  have hp := norm6_pos hr
  rw [h.fst, h.snd, h.rhs] at hs
  have key : (m • rowMul (unitRow r) w) ⬝ᵥ x + rowMul (unitRow r) u ⬝ᵥ xL
      - (m * rowDot (unitRow r) (g - w.head) (0 - w.tail) + rowDot (unitRow r) (-u.head) (-u.tail))
      = (norm6 r)⁻¹ * (dot r.1 (m • (g - w.headAt x) - u.headAt xL) + dot r.2 (m • (-w.tailAt x) - u.tailAt xL)) := by
    unfold rowMul rowDot unitRow
    rw [smul_dotProduct, add_dotProduct, add_dotProduct, ← dotProduct_mulVec, ← dotProduct_mulVec,
      ← dotProduct_mulVec, ← dotProduct_mulVec]
    simp only [Wp6.headAt, Wp6.tailAt, dot_eq, dot, Pi.smul_apply, Pi.neg_apply, Pi.sub_apply,
      Pi.add_apply, smul_eq_mul, Pi.zero_apply]
    ring
  have h1 : (norm6 r)⁻¹ * (dot r.1 (m • (g - w.headAt x) - u.headAt xL) + dot r.2 (m • (-w.tailAt x) - u.tailAt xL)) ≤ δ := by
    linarith
  rw [inv_mul_le_iff₀ hp] at h1
  have : norm6 r = Real.sqrt (dot r.1 r.1 + dot r.2 r.2) := by unfold norm6; rw [dot_eq, dot_eq]
  rw [← this, mul_comm]
  exact h1

/-- The system of the zero step problem: sizes, norms of the rows, and what they say up to `δ`. -/
theorem zeroStep_system (ct : ContactData) (e : Equilibrium) (h : ZeroContact ct e) (c0 dc0 l0 : V3) (useAng : Bool)
    {T timeStep R : ℝ} (hs : GoodStep T timeStep) (hR : ZeroScale ct e c0 dc0 T R) {ws us : List Wp6}
    (hw : ComputeAllWaypoints c0 dc0 e.gravity T timeStep = .ok ws)
    (hu : ComputeAllWaypointsAngularMomentum l0 T timeStep = .ok us) (hlen : ws.length = us.length) :
    ∃ A b, zeroStepInequalities ct c0 dc0 l0 useAng T timeStep = .ok (A, b) ∧ A.cols = (if useAng then 6 else 3) ∧
      b.rows = A.rows ∧ b.cols = 1 ∧
      A.rows = ws.length * e.poly.length + (ct.kin.length + if useAng then ct.ang.length else 0) ∧
      (∀ r < A.rows, ∑ c ∈ Finset.range (if useAng then 6 else 3), A.e r c ^ 2 ≤ 2 * R ^ 2) ∧
      ∀ δ y, SatTol A b δ y → (∀ k (hk : k < ws.length) (hk' : k < us.length),
        ConeTol e δ (e.mass • (e.gravity - (ws[k]).headAt (first3 y)) - if useAng then (us[k]).headAt (last3 y) else 0)
          (e.mass • (-(ws[k]).tailAt (first3 y)) - if useAng then (us[k]).tailAt (last3 y) else 0)) ∧
        (useAng = false → KinTol ct δ (first3 y)) := by
  have hT := hs.pos
  have hM : 0 ≤ 6 / (T * T) * (1 + len c0 + T * len dc0) + len e.gravity := by
    have := len_nonneg c0
    have := len_nonneg dc0
    have := len_nonneg e.gravity
    positivity
  have hR0 : 0 ≤ R := le_trans (mul_nonneg (abs_nonneg _) hM) hR.wrench
  have hwb := waypoints_bound c0 dc0 e.gravity hs hw
  have hub := momentum_bound l0 hs hu
  have h4 := h.2.2.2.1
  have hwl : ∀ w ∈ ws, ∀ j (hj : j < e.poly.length), dot (e.mass • rowMul (unitRow (e.poly[j]).1) w)
      (e.mass • rowMul (unitRow (e.poly[j]).1) w) ≤ R ^ 2 := by
    intro w hw j hj
    apply dot_le_of_len
    rw [len_smul]
    exact le_trans (mul_le_mul_of_nonneg_left (rowMul_len hM (hwb w hw) (unitRow_unit _ (h4 _ (List.getElem_mem hj))))
      (abs_nonneg _)) hR.wrench
  have hkl : ∀ i, dot (ct.Kin.getD i 0) (ct.Kin.getD i 0) ≤ R ^ 2 := by
    intro i
    by_cases hi : i < ct.Kin.length
    · rw [List.getD_eq_getElem?_getD, List.getElem?_eq_getElem hi]
      exact dot_le_of_len (hR.kin _ (List.getElem_mem hi))
    · rw [List.getD_eq_getElem?_getD, List.getElem?_eq_none (by omega)]
      simp [dot]; positivity
  unfold zeroStepInequalities angularWaypoints
  rw [h.1]
  dsimp only
  rw [hw, Out.ok_bind]
  cases useAng with
  | false =>
    simp only [Bool.false_eq_true, if_false, Out.ok_bind]
    obtain ⟨A, b, hA, k1, k2, k3, k4, hst, hkin⟩ := ineq_plain_rows ct e h ws []
    refine ⟨A, b, hA, k1, k2, k3, by rw [k4, Nat.add_zero], fun r hr => ?_, fun δ y hy => ⟨fun k hk hk' p hp => ?_, fun _ => ?_⟩⟩
    · rw [sum_sq_three]
      have h0 : 0 ≤ R ^ 2 := sq_nonneg R
      by_cases hlt : r < ws.length * e.poly.length
      · obtain ⟨k, hk, j, hj, rfl⟩ := split_index hlt
        have := hst k hk j hj
        rw [zero_add, this.fst]
        linarith [hwl _ (List.getElem_mem hk) j hj]
      · obtain ⟨i, rfl⟩ : ∃ i, r = ws.length * e.poly.length + i := ⟨r - ws.length * e.poly.length, by omega⟩
        rw [(hkin i (by omega)).1]
        linarith [hkl i]
    · obtain ⟨j, hj, rfl⟩ := List.mem_iff_getElem.mp hp
      have hlt := index_lt hk hj
      rw [zero_add] at hlt
      have := hy _ (show k * e.poly.length + j < A.rows by omega)
      rw [k1, sum_first] at this
      have := plain_tol (h4 _ (List.getElem_mem hj)) (hst k hk j hj) this
      simpa using this
    · by_cases hk0 : ct.kin = []
      · intro q hq; simp [hk0] at hq
      · have hl := h.2.2.2.2 hk0
        unfold KinTol
        rw [kin_zip_iff hl fun K k => dot K (first3 y) ≤ k + δ]
        intro j hj
        have := hy _ (show ws.length * e.poly.length + j < A.rows by omega)
        rw [k1, sum_first, (hkin j hj).1, (hkin j hj).2, dot_eq] at this
        exact this
  | true =>
    simp only [if_true]
    rw [hu, Out.ok_bind]
    obtain ⟨A, b, hA, k1, k2, k3, k4, hst, hkin⟩ := ineq_ang_rows ct e h ws us hlen
    refine ⟨A, b, hA, k1, k2, k3, k4, fun r hr => ?_, fun δ y hy => ⟨fun k hk hk' p hp => ?_, fun h => by simp at h⟩⟩
    · rw [sum_sq_six]
      by_cases hlt : r < ws.length * e.poly.length
      · obtain ⟨k, hk, j, hj, rfl⟩ := split_index hlt
        have := hst k hk (by omega) j hj
        rw [zero_add, this.fst, this.snd]
        have e1 := hwl _ (List.getElem_mem hk) j hj
        have e2 : dot (rowMul (unitRow (e.poly[j]).1) us[k]) (rowMul (unitRow (e.poly[j]).1) us[k]) ≤ R ^ 2 :=
          dot_le_of_len (le_trans (rowMul_len (by positivity) (hub _ (List.getElem_mem (by omega)))
            (unitRow_unit _ (h4 _ (List.getElem_mem hj)))) hR.momentum)
        linarith
      · obtain ⟨i, rfl⟩ : ∃ i, r = ws.length * e.poly.length + i := ⟨r - ws.length * e.poly.length, by omega⟩
        obtain ⟨q1, q2, -⟩ := hkin i (by omega)
        rw [q1, q2]
        unfold angRow
        have z : dot (0 : V3) 0 ≤ R ^ 2 := by simp [dot]; positivity
        have e1 : dot (if i < ct.kin.length then ct.Kin.getD i 0 else 0) (if i < ct.kin.length then ct.Kin.getD i 0 else 0)
            ≤ R ^ 2 := by split_ifs; exacts [hkl i, z]
        have e2 : dot (if ct.ang.length ≤ i then ct.Kin.getD (i - ct.ang.length) 0 else 0)
            (if ct.ang.length ≤ i then ct.Kin.getD (i - ct.ang.length) 0 else 0) ≤ R ^ 2 := by
          split_ifs; exacts [hkl _, z]
        dsimp only
        linarith
    · obtain ⟨j, hj, rfl⟩ := List.mem_iff_getElem.mp hp
      have hlt := index_lt hk hj
      rw [zero_add] at hlt
      have := hy _ (show k * e.poly.length + j < A.rows by omega)
      rw [k1, sum_both] at this
      exact ang_tol (h4 _ (List.getElem_mem hj)) (hst k hk hk' j hj) this

theorem zeroCost_ge (c0 l0 : V3) (useAng : Bool) (n : ℕ) (v : VecN n) :
    zeroCurv useAng * (v ⬝ᵥ v) ≤ v ⬝ᵥ (fun i j : Fin n => (zeroStepCost c0 l0 useAng).1.e i j : Matrix (Fin n) (Fin n) ℝ) *ᵥ v := by
  have : (fun i j : Fin n => (zeroStepCost c0 l0 useAng).1.e i j : Matrix (Fin n) (Fin n) ℝ)
      = Matrix.diagonal fun i : Fin n => if i.val < 3 then (if useAng then (0.0001 : ℝ) else 1) else 6 / 5 := by
    ext i j
    simp only [zeroStepCost, Matrix.diagonal_apply]
    by_cases hij : i = j
    · subst hij
      by_cases h3 : i.val < 3
      · simp [h3]
      · have : 3 ≤ i.val := by omega
        simp [h3, this]
    · have hne : i.val ≠ j.val := fun h => hij (Fin.ext h)
      simp [hij, hne]
  rw [this]
  simp only [mulVec_diagonal, dotProduct]
  rw [Finset.mul_sum]
  refine Finset.sum_le_sum fun i _ => ?_
  have hc : zeroCurv useAng ≤ if i.val < 3 then (if useAng then (0.0001 : ℝ) else 1) else 6 / 5 := by
    unfold zeroCurv
    split_ifs <;> norm_num
  have := mul_le_mul_of_nonneg_right hc (mul_self_nonneg (v i))
  refine this.trans (le_of_eq ?_)
  ring

/-! ## C75 -/

theorem zeroStep_tol (lib : Lib) (hL : LibOk lib) (he : 0 ≤ lib.eps) (pData : ProblemData) (ct : ContactData)
    (e : Equilibrium) (hct : pData.contacts = [ct])
    (hrep : pData.representation = DOUBLE_DESCRIPTION) {T timeStep R : ℝ} (hs : GoodStep T timeStep)
    (h1 : lib.eps ≤ zeroCurv pData.useAngularMomentum)
    (h2 : lib.eps * (2 * R ^ 2) ≤ zeroCurv pData.useAngularMomentum ^ 2) {A b : Mat}
    (hA : zeroStepInequalities ct pData.bc.c0 pData.bc.dc0 pData.l0 pData.useAngularMomentum T timeStep = .ok (A, b))
    (hc : A.cols = if pData.useAngularMomentum then 6 else 3) (hb : b.rows = A.rows) (hb1 : b.cols = 1)
    (hrow : ∀ r < A.rows, ∑ c ∈ Finset.range (if pData.useAngularMomentum then 6 else 3), A.e r c ^ 2 ≤ 2 * R ^ 2) :
    ∃ r N, (∀ fuel ≥ N, solve0step lib fuel pData [T] timeStep = .ok r) ∧
      (r.success = true → r.x.length = (if pData.useAngularMomentum then 6 else 3) ∧
        SatTol A b (zeroTol lib.eps pData.useAngularMomentum A.rows) (unk r.x)) ∧
      (r.success = false → r = ResultDataCOMTraj.default) := by
  have hT := hs.pos
  set Hg := zeroStepCost pData.bc.c0 pData.l0 pData.useAngularMomentum with hHg
  have hrows : Hg.2.rows = if pData.useAngularMomentum then 6 else 3 := rfl
  have hfit : Fits A b (Mat.noRows A.cols) (Mat.noRows 1) Hg.1 Hg.2 :=
    ⟨⟨rfl, rfl⟩, ⟨hb, hb1, by rw [hc, hrows]⟩, ⟨rfl, by rw [hrows, ← hc]; rfl⟩⟩
  have hk : 0 < zeroCurv pData.useAngularMomentum := by unfold zeroCurv; split_ifs <;> norm_num
  have hsq : (Real.sqrt 2 * R) ^ 2 = 2 * R ^ 2 := by rw [mul_pow, Real.sq_sqrt (by norm_num)]
  obtain ⟨q, N, hrun, hlen, hok⟩ := solve_tol_gen lib hL he hk hfit rfl (zeroStepInit pData) (R := Real.sqrt 2 * R)
    (zeroCost_posDef _ _ _ _) (zeroCost_ge _ _ _ _) (by rw [hrows, hsq]; exact hrow) h1 (by rw [hsq]; exact h2)
  have htol : solverTolGen lib.eps (zeroCurv pData.useAngularMomentum)
      (∑ i ∈ Finset.range Hg.2.rows, Hg.1.e i i) Hg.2.rows A.rows = zeroTol lib.eps pData.useAngularMomentum A.rows := by
    rw [hrows, hHg]
    unfold solverTolGen zeroTol zeroCurv zeroStepCost
    cases pData.useAngularMomentum with
    | false =>
      simp only [Bool.false_eq_true, if_false, Finset.sum_range_succ, Finset.sum_range_zero]
      norm_num
      ring
    | true =>
      have : Real.sqrt 0.0001 = 0.01 := by
        rw [show (0.0001 : ℝ) = 0.01 ^ 2 by norm_num, Real.sqrt_sq (by norm_num)]
      simp only [if_true, Finset.sum_range_succ, Finset.sum_range_zero, this]
      norm_num
      ring
  rw [htol] at hok
  have hlen' : q.x.length = if pData.useAngularMomentum then 6 else 3 := by rw [hlen, hrows]
  have h3 : 3 ≤ q.x.length := by rw [hlen']; split_ifs <;> norm_num
  have hsolve : ∀ fuel ≥ N, solve0step lib fuel pData [T] timeStep = zeroStepResult pData T q := by
    intro fuel hf
    unfold solve0step
    rw [if_pos hrep, hct]
    dsimp only
    rw [hA, Out.ok_bind]
    dsimp only
    rw [hrun fuel hf, Out.ok_bind]
  by_cases hq : q.success = true
  · obtain ⟨r, hr, hrs, hrx⟩ : ∃ r, zeroStepResult pData T q = .ok r ∧ r.success = true ∧ r.x = q.x := by
      unfold zeroStepResult
      rw [if_pos hq]
      have hmk : ∀ p ps mult, mkBezier (p :: ps) T mult = .ok ⟨p :: ps, T, mult⟩ := by
        intro p ps mult
        unfold mkBezier
        rw [if_neg]
        rintro (h | h)
        · simp at h
        · linarith
      unfold computeRealCost zeroStepCurve computedL_of_T head3 tail3
      by_cases ha : pData.useAngularMomentum = true
      · simp only [if_pos ha, if_pos h3, Out.pure_eq, Out.ok_bind, hmk]
        exact ⟨_, rfl, rfl, rfl⟩
      · have h33 : q.x.length = 3 := by rw [hlen', if_neg ha]
        simp only [if_neg ha, if_pos h33, if_pos h3, Out.pure_eq, Out.ok_bind, hmk]
        exact ⟨_, rfl, rfl, rfl⟩
    refine ⟨r, N, fun fuel hf => by rw [hsolve fuel hf, hr], fun _ => ?_, fun h0 => by simp [hrs] at h0⟩
    rw [hrx]
    exact ⟨hlen', hok hq⟩
  · refine ⟨.default, N, fun fuel hf => ?_, fun h0 => by simp [ResultDataCOMTraj.default] at h0, fun _ => rfl⟩
    rw [hsolve fuel hf, zeroStepResult, if_neg hq]

/-- The tolerance cone is convex. -/
theorem coneTol_bez (e : Equilibrium) (δ : ℝ) (n : ℕ) (f τ : ℕ → V3) (u : ℝ) (h0 : 0 ≤ u) (h1 : u ≤ 1)
    (h : ∀ i ≤ n, ConeTol e δ (f i) (τ i)) : ConeTol e δ (bez n f u) (bez n τ u) := by
  intro r hr
  rw [dot_bez, dot_bez, ← bez_add]
  exact bez_le h0 h1 fun i hi => h i hi r hr

/-- What a successful answer is: starts as required, stops, momentum from `l0` to zero, kinematic constraints up to `δ`
without angular momentum, and wrench up to `δ` in the cone at the instants in `S`. -/
def ZeroAnswer (pData : ProblemData) (ct : ContactData) (e : Equilibrium) (T δ : ℝ) (S : ℝ → Prop)
    (r : ResultDataCOMTraj) : Prop :=
  ∃ v a, IsDeriv r.c_of_t.eval v ∧ IsDeriv v a ∧ r.c_of_t.eval 0 = pData.bc.c0 ∧ v 0 = pData.bc.dc0 ∧ v T = 0 ∧
    (pData.useAngularMomentum = true → ∃ L, IsDeriv L r.dL_of_t.eval ∧ L 0 = pData.l0 ∧ L T = 0) ∧
    (pData.useAngularMomentum = false → (∀ t, r.dL_of_t.eval t = 0) ∧ KinTol ct δ (r.c_of_t.eval T)) ∧
    ∀ t, S t → ConeTol e δ (e.mass • (e.gravity - a t))
      (e.mass • cr (r.c_of_t.eval t) (e.gravity - a t) - r.dL_of_t.eval t)

/-- What the wrench waypoints say: if the wrench of all waypoints is in the cone up to `δ`, so is the wrench of the motion at the instants in `S`. -/
def ConeFrom (pData : ProblemData) (e : Equilibrium) (T : ℝ) (ws us : List Wp6) (S : ℝ → Prop) : Prop :=
  ∀ δ x xL v a dL, IsDeriv (stopCurve pData.bc.c0 pData.bc.dc0 x T) v → IsDeriv v a →
    MomentumRate pData.useAngularMomentum pData.l0 xL T dL →
    (∀ k (hk : k < ws.length) (hk' : k < us.length), ConeTol e δ
      (e.mass • (e.gravity - (ws[k]).headAt x) - if pData.useAngularMomentum then (us[k]).headAt xL else 0)
      (e.mass • (-(ws[k]).tailAt x) - if pData.useAngularMomentum then (us[k]).tailAt xL else 0)) →
    ∀ t, S t → ConeTol e δ (e.mass • (e.gravity - a t))
      (e.mass • cr (stopCurve pData.bc.c0 pData.bc.dc0 x T t) (e.gravity - a t) - dL t)

theorem coneFrom_continuous (pData : ProblemData) (e : Equilibrium) {T timeStep : ℝ} (hT : 0 < T) (hst : timeStep ≤ 0 ∨ T < timeStep) :
    ∃ ws us, ComputeAllWaypoints pData.bc.c0 pData.bc.dc0 e.gravity T timeStep = .ok ws ∧
      ComputeAllWaypointsAngularMomentum pData.l0 T timeStep = .ok us ∧ ws.length = 5 ∧ us.length = 5 ∧
      ConeFrom pData e T ws us (fun t => 0 ≤ t ∧ t ≤ T) := by
  obtain ⟨ws, hws, hl, hw⟩ := C31_continuous pData.bc.c0 pData.bc.dc0 e.gravity T timeStep hT hst
  obtain ⟨us, hus, hl', hu⟩ := C32_waypoints_continuous pData.l0 T timeStep hT hst
  refine ⟨ws, us, hws, hus, hl, hl', ?_⟩
  intro δ x xL v a dL hv ha hm hcone t ⟨ht0, htT⟩
  obtain ⟨v', a', hv', ha', hW⟩ := hw x
  obtain rfl := deriv_unique hv hv'
  obtain rfl := deriv_unique ha ha'
  have := coneTol_bez e δ (ws.length - 1)
    (fun i => e.mass • (e.gravity - (ws[i]!).headAt x) - if pData.useAngularMomentum then (us[i]!).headAt xL else 0)
    (fun i => e.mass • (-(ws[i]!).tailAt x) - if pData.useAngularMomentum then (us[i]!).tailAt xL else 0)
    (t / T) (div_nonneg ht0 hT.le) ((div_le_one hT).mpr htT) (fun i hi => by
      have := hcone i (by omega) (by omega)
      rwa [getElem!_pos ws i (by omega), getElem!_pos us i (by omega)])
  have e1 := (hW t).1
  have e2 := (hW t).2
  unfold headCurve at e1
  unfold tailCurve at e2
  unfold MomentumRate at hm
  cases hang : pData.useAngularMomentum with
  | true =>
    rw [hang, if_pos rfl] at hm
    simp only [hang, if_true] at this
    obtain ⟨dL', hd', hU⟩ := hu xL
    obtain rfl := deriv_unique hm hd'
    rw [bez_sub, bez_sub, bez_affine, bez_negs] at this
    have e3 := (hU t).1
    have e4 := (hU t).2
    unfold headCurve at e3
    unfold tailCurve at e4
    rw [show us.length - 1 = ws.length - 1 by omega] at e3 e4
    rw [e1, e2, e3, e4, wTail_eq] at this
    simpa using this
  | false =>
    rw [hang, if_neg (by simp)] at hm
    simp only [hang, Bool.false_eq_true, if_false, sub_zero] at this
    rw [bez_affine, bez_negs, e1, e2, wTail_eq] at this
    rw [hm]
    simpa using this

theorem coneFrom_discretised (pData : ProblemData) (e : Equilibrium) {T timeStep : ℝ} {N : ℕ} (hN : 1 ≤ N) (hst : StepCount T timeStep N) :
    ∃ ws us, ComputeAllWaypoints pData.bc.c0 pData.bc.dc0 e.gravity T timeStep = .ok ws ∧
      ComputeAllWaypointsAngularMomentum pData.l0 T timeStep = .ok us ∧ ws.length = N + 1 ∧ us.length = N + 1 ∧
      ConeFrom pData e T ws us (fun t => ∃ i : ℕ, i ≤ N ∧ t = i * (T / N)) := by
  obtain ⟨ws, hws, hl, hw⟩ := C31_discretised pData.bc.c0 pData.bc.dc0 e.gravity T timeStep N hN hst
  obtain ⟨us, hus, hl', hu⟩ := C32_waypoints_discretised pData.l0 T timeStep N hN hst
  refine ⟨ws, us, hws, hus, hl, hl', ?_⟩
  rintro δ x xL v a dL hv ha hm hcone t ⟨i, hi, rfl⟩
  obtain ⟨v', a', hv', ha', hW⟩ := hw x
  obtain rfl := deriv_unique hv hv'
  obtain rfl := deriv_unique ha ha'
  have := hcone i (by omega) (by omega)
  rw [(hW i (by omega)).1, (hW i (by omega)).2, wTail_eq] at this
  unfold MomentumRate at hm
  cases hang : pData.useAngularMomentum with
  | true =>
    rw [hang, if_pos rfl] at hm
    simp only [hang, if_true] at this
    obtain ⟨dL', hd', hU⟩ := hu xL
    obtain rfl := deriv_unique hm hd'
    rw [(hU i (by omega)).1, (hU i (by omega)).2] at this
    simpa using this
  | false =>
    rw [hang, if_neg (by simp)] at hm
    simp only [hang, Bool.false_eq_true, if_false, sub_zero] at this
    rw [hm]
    simpa using this

/-- C75. `solve0step` returns, and a success comes with a motion that starts as required, stops, and keeps its wrench in
the cone up to the tolerance: at every instant without discretisation, at the samples with a time step. -/
theorem C75_tolerance (lib : Lib) (hL : LibOk lib) (he : 0 ≤ lib.eps) (pData : ProblemData) (ct : ContactData)
    (e : Equilibrium) (h : ZeroContact ct e) (hct : pData.contacts = [ct])
    (hrep : pData.representation = DOUBLE_DESCRIPTION) (T timeStep R : ℝ)
    (hR : ZeroScale ct e pData.bc.c0 pData.bc.dc0 T R)
    (h1 : lib.eps ≤ zeroCurv pData.useAngularMomentum)
    (h2 : lib.eps * (2 * R ^ 2) ≤ zeroCurv pData.useAngularMomentum ^ 2) :
    (0 < T → timeStep ≤ 0 ∨ T < timeStep →
      ∃ r F, (∀ fuel ≥ F, solve0step lib fuel pData [T] timeStep = .ok r) ∧ (r.success = true →
        ZeroAnswer pData ct e T (zeroTol lib.eps pData.useAngularMomentum
          (5 * e.poly.length + (ct.kin.length + if pData.useAngularMomentum then ct.ang.length else 0)))
          (fun t => 0 ≤ t ∧ t ≤ T) r)) ∧
    (∀ N, 1 ≤ N → StepCount T timeStep N →
      ∃ r F, (∀ fuel ≥ F, solve0step lib fuel pData [T] timeStep = .ok r) ∧ (r.success = true →
        ZeroAnswer pData ct e T (zeroTol lib.eps pData.useAngularMomentum
          ((N + 1) * e.poly.length + (ct.kin.length + if pData.useAngularMomentum then ct.ang.length else 0)))
          (fun t => ∃ i : ℕ, i ≤ N ∧ t = i * (T / N)) r)) := by
  -- from the unknowns to the motion
  have finish : ∀ (n : ℕ) (hs : GoodStep T timeStep) (S : ℝ → Prop) (ws us : List Wp6)
      (hw : ComputeAllWaypoints pData.bc.c0 pData.bc.dc0 e.gravity T timeStep = .ok ws)
      (hu : ComputeAllWaypointsAngularMomentum pData.l0 T timeStep = .ok us) (hl : ws.length = n) (hl' : us.length = n)
      (hS : ConeFrom pData e T ws us S),
      ∃ r F, (∀ fuel ≥ F, solve0step lib fuel pData [T] timeStep = .ok r) ∧ (r.success = true →
        ZeroAnswer pData ct e T (zeroTol lib.eps pData.useAngularMomentum
          (n * e.poly.length + (ct.kin.length + if pData.useAngularMomentum then ct.ang.length else 0))) S r) := by
    intro n hs S ws us hw hu hl hl' hS
    obtain ⟨A, b, hA, hc, hb, hb1, hrw, hnorm, hsem⟩ := zeroStep_system ct e h pData.bc.c0 pData.bc.dc0 pData.l0
      pData.useAngularMomentum hs hR hw hu (by omega)
    obtain ⟨r, F, hrun, hok, -⟩ := zeroStep_tol lib hL he pData ct e hct hrep hs h1 h2 hA hc hb hb1 hnorm
    refine ⟨r, F, hrun, fun hsucc => ?_⟩
    obtain ⟨hlen, hsat⟩ := hok hsucc
    rw [hrw, hl] at hsat
    obtain ⟨hcone, hkin⟩ := hsem _ _ hsat
    have hr := hrun F le_rfl
    obtain ⟨T', x, v, hT', -, hx, -, hev, hv, c1, c2, c3, c4⟩ := C30_stops hr hsucc
    obtain rfl : T = T' := by simpa using hT'
    have hx1 : x = first3 (unk r.x) := by
      unfold head3 at hx
      split at hx
      · simp at hx; rw [← hx]; rfl
      · simp at hx
    subst hx1
    obtain ⟨v', a, hv', ha⟩ : ∃ v a, IsDeriv (stopCurve pData.bc.c0 pData.bc.dc0 (first3 (unk r.x)) T) v ∧ IsDeriv v a :=
      ⟨_, _, curve_isDeriv 2 _ T, curve_isDeriv 1 _ T⟩
    obtain rfl : v = v' := deriv_unique (by rw [hev] at hv; exact hv) hv'
    refine ⟨v, a, hv, ha, c1, c2, c4, fun hang => ?_, fun hang => ⟨C32_none hr hsucc hang, ?_⟩, ?_⟩
    · obtain ⟨T', xL, hT2, -, hxL, -, hd, l1, l2⟩ := C32_returned hr hsucc hang
      obtain rfl : T = T' := by simpa using hT2
      exact ⟨_, hd, l1, l2⟩
    · rw [c3]; exact hkin hang
    · rw [hev]
      refine hS _ _ (last3 (unk r.x)) v a _ hv' ha ?_ hcone
      unfold MomentumRate
      cases hang : pData.useAngularMomentum with
      | true =>
        rw [if_pos rfl]
        obtain ⟨T', xL, hT2, -, hxL, -, hd, -⟩ := C32_returned hr hsucc hang
        obtain rfl : T = T' := by simpa using hT2
        have : xL = last3 (unk r.x) := by
          unfold tail3 at hxL
          rw [hlen, if_pos hang] at hxL
          simp at hxL
          rw [← hxL]
          rfl
        rw [this] at hd
        exact hd
      | false =>
        rw [if_neg (by simp)]
        funext t
        exact C32_none hr hsucc hang t
  constructor
  · intro hT hst
    obtain ⟨ws, us, hws, hus, hl, hl', hS⟩ := coneFrom_continuous pData e hT hst
    exact finish 5 (Or.inl ⟨hT, hst⟩) _ ws us hws hus hl hl' hS
  · intro N hN hst
    obtain ⟨ws, us, hws, hus, hl, hl', hS⟩ := coneFrom_discretised pData e hN hst
    exact finish (N + 1) (Or.inr ⟨N, hN, hst⟩) _ ws us hws hus hl hl' hS

/-- C75. If stopping at `c0` meets the kinematic constraints and the cone at the samples, `solve0step`
succeeds and stops exactly there, whatever the thresholds. -/
theorem C75_stays (lib : Lib) (hL : LibOk lib) (hm : 1 < lib.maxIter) (pData : ProblemData) (ct : ContactData)
    (e : Equilibrium) (h : ZeroContact ct e) (hct : pData.contacts = [ct])
    (hrep : pData.representation = DOUBLE_DESCRIPTION) (hang : pData.useAngularMomentum = false)
    (T timeStep : ℝ) (N : ℕ) (hN : 1 ≤ N) (hs : StepCount T timeStep N) {v a : ℝ → V3}
    (hv : IsDeriv (stopCurve pData.bc.c0 pData.bc.dc0 pData.bc.c0 T) v) (ha : IsDeriv v a)
    (hkin : KinOk ct pData.bc.c0)
    (hcone : ∀ i : ℕ, i ≤ N → ConeOk e (e.mass • (e.gravity - a (i * (T / N))))
      (e.mass • cr (stopCurve pData.bc.c0 pData.bc.dc0 pData.bc.c0 T (i * (T / N))) (e.gravity - a (i * (T / N))))) :
    ∃ r, (∀ fuel ≥ 3, solve0step lib fuel pData [T] timeStep = .ok r) ∧ r.success = true ∧
      r.c_of_t.eval T = pData.bc.c0 ∧ r.cost = 0 := by
  have hg : GoodStep T timeStep := Or.inr ⟨N, hN, hs⟩
  have hT := hg.pos
  obtain ⟨A, b, hA, hc, hb, hb1⟩ := zeroStep_sizes ct e h pData.bc.c0 pData.bc.dc0 pData.l0 pData.useAngularMomentum hg
  obtain ⟨A', b', hA', hrw, hC⟩ := C34_exact ct e h pData.bc.c0 pData.bc.dc0 pData.l0 T timeStep N hN hs
  rw [hang, hA'] at hA
  cases hA
  rw [hang] at hc
  set Hg := zeroStepCost pData.bc.c0 pData.l0 pData.useAngularMomentum with hHg
  have hrows : Hg.2.rows = 3 := by rw [hHg, hang]; rfl
  have hfit : Fits A b (Mat.noRows A.cols) (Mat.noRows 1) Hg.1 Hg.2 :=
    ⟨⟨rfl, rfl⟩, ⟨hb, hb1, by rw [hc, hrows]; rfl⟩, ⟨rfl, by rw [hrows]; exact hc⟩⟩
  have hext : first3 (ext3 pData.bc.c0) = pData.bc.c0 := by funext k; simp [first3, ext3]
  obtain ⟨q, hrun, hq, hlen, hz, -⟩ := solve_unconstrained lib hL hm hfit rfl (zeroStepInit pData)
    (zeroCost_posDef _ _ _ _) (ext3 pData.bc.c0) (by
      intro y
      rw [hrows, hHg, hang]
      obtain ⟨K, hK⟩ := C33_qp_distance pData.bc.c0 pData.l0
      rw [hK, hK, hext]
      have := dot_nonneg (first3 y - pData.bc.c0)
      simp [dot] at this ⊢
      linarith) (by
      rw [hC _ v a (by rw [hext]; exact hv) ha, hext]
      exact ⟨hcone, hkin⟩)
  have hx : q.x.length = 3 := by rw [hlen, hrows]
  have hfirst : first3 (unk q.x) = pData.bc.c0 := by
    rw [← hext]
    funext k
    exact hz k (by rw [hrows]; exact k.2)
  have hsolve : ∀ fuel ≥ 3, solve0step lib fuel pData [T] timeStep = zeroStepResult pData T q := by
    intro fuel hf
    unfold solve0step
    rw [if_pos hrep, hct]
    dsimp only
    rw [hang, hA', Out.ok_bind]
    dsimp only
    rw [← hang, hrun fuel hf, Out.ok_bind]
  obtain ⟨r, hr, hrs, hrx⟩ : ∃ r, zeroStepResult pData T q = .ok r ∧ r.success = true ∧ r.x = q.x := by
    unfold zeroStepResult
    rw [if_pos hq]
    have hmk : ∀ p ps mult, mkBezier (p :: ps) T mult = .ok ⟨p :: ps, T, mult⟩ := by
      intro p ps mult
      unfold mkBezier
      rw [if_neg]
      rintro (h | h)
      · simp at h
      · linarith
    unfold computeRealCost zeroStepCurve computedL_of_T head3 tail3
    have hn : ¬ pData.useAngularMomentum = true := by simp [hang]
    simp only [if_neg hn, if_pos hx, if_pos hx.ge, Out.pure_eq, Out.ok_bind, hmk]
    exact ⟨_, rfl, rfl, rfl⟩
  have hr' : solve0step lib 3 pData [T] timeStep = .ok r := by rw [hsolve 3 le_rfl, hr]
  obtain ⟨T', x, v', hT', -, hx', -, hev, -, -, -, c3, -⟩ := C30_stops hr' hrs
  obtain rfl : T = T' := by simpa using hT'
  have hx1 : x = pData.bc.c0 := by
    rw [← hfirst, ← hrx]
    unfold head3 at hx'
    split at hx'
    · simp at hx'; rw [← hx']; rfl
    · simp at hx'
  obtain ⟨x'', hx'', hcost⟩ := C33_distance hr' hrs hang
  rw [hx'] at hx''
  cases hx''
  refine ⟨r, fun fuel hf => by rw [hsolve fuel hf, hr], hrs, by rw [c3, hx1], ?_⟩
  rw [hcost, hx1]
  simp [dot]

/-! ## An instance -/

/-- With the threshold of doubles, the example of C60 meets the hypotheses, and the planner succeeds on it. -/
theorem restProblem_tolerance (lib : Lib) (hL : LibOk lib) (he : lib.eps = dblEps) (hm : 1 < lib.maxIter) :
    ∃ r F, (∀ fuel ≥ F, solve0step lib fuel restProblem [1] 0.3 = .ok r) ∧ r.success = true ∧
      ZeroAnswer restProblem (onePush []) onePushPhase 1 (zeroTol lib.eps false 5)
        (fun t => ∃ i : ℕ, i ≤ 3 ∧ t = i * (1 / ((3 : ℕ) : ℝ))) r := by
  have hl0 : len 0 = 0 := by simp [len, dot]
  have hlg : len ![0, 0, -10] = 10 := by
    rw [len, show dot ![0, 0, -10] ![0, 0, -10] = (10 : ℝ) ^ 2 by simp [dot]; norm_num, Real.sqrt_sq (by norm_num)]
  have hR : ZeroScale (onePush []) onePushPhase restProblem.bc.c0 restProblem.bc.dc0 1 32 := by
    refine ⟨?_, ?_, by norm_num⟩
    · intro K hK
      simp [onePush] at hK
      subst hK
      simp [len, dot]
    · simp only [onePushPhase, restProblem, hl0, hlg]
      norm_num
  obtain ⟨r, F, hrun, hok⟩ := (C75_tolerance lib hL (by rw [he, dblEps]; norm_num) restProblem (onePush [])
    onePushPhase (onePush_ok []) rfl rfl 1 0.3 32 hR (by rw [he, dblEps, zeroCurv]; norm_num [restProblem])
    (by rw [he, dblEps, zeroCurv]; norm_num [restProblem])).2 3 (by norm_num) stepCount_example
  have hz : stopCurve 0 0 0 1 = fun _ => 0 := by
    funext s k
    rw [stopCurve, curve, bez_apply, bezS3]
    simp
  have h0 : IsDeriv (fun _ : ℝ => (0 : V3)) fun _ => 0 := fun t => hasDerivAt_const t _
  obtain ⟨r', hrun', hs', -⟩ := C75_stays lib hL hm restProblem (onePush []) onePushPhase (onePush_ok []) rfl rfl rfl 1
    0.3 3 (by norm_num) stepCount_example (v := fun _ => 0) (a := fun _ => 0)
    (by simp only [restProblem]; rw [hz]; exact h0) h0 (by
      intro q hq
      simp [onePush] at hq
      subst hq
      simp [dot, restProblem]) (by
      intro i _ r hr
      simp only [restProblem]
      rw [hz]
      simp [onePushPhase] at hr
      subst hr
      simp [dot, onePushPhase, cr])
  have : r = r' := by
    have a := hrun (max F 3) (le_max_left _ _)
    rw [hrun' _ (le_max_right _ _)] at a
    cases a
    rfl
  subst this
  exact ⟨r, F, hrun, hs', hok hs'⟩

end Verif
