import Verif.Model.ZeroStep
import Verif.Lemmas.OneStepSem
import Verif.Lemmas.ZeroStep
import Verif.Props.C26
import Mathlib.Analysis.SpecialFunctions.Integrals.Basic

/-!
# C30–C33: the zero step problem
-/

namespace Verif
open Matrix

/-! ## Specification -/

/-- The cubic curve over `[0, T]` that starts at `c0` with velocity `dc0` and stops at `x`. -/
noncomputable def stopCurve (c0 dc0 x : V3) (T : ℝ) : ℝ → V3 :=
  curve 3 (fun i => [c0, c0 + (T / 3) • dc0, x, x].getD i 0) T

/-- The cubic curve over `[0, T]` that starts at `l0`, ends at zero with derivative zero, and has the second
control point `xL`. -/
noncomputable def momentumCurve (l0 xL : V3) (T : ℝ) : ℝ → V3 :=
  curve 3 (fun i => [l0, xL, 0, 0].getD i 0) T

/-- What the names promise. -/
theorem stopCurve_spec (c0 dc0 x : V3) (T : ℝ) (hT : T ≠ 0) :
    ∃ v, IsDeriv (stopCurve c0 dc0 x T) v ∧ stopCurve c0 dc0 x T 0 = c0 ∧ v 0 = dc0 ∧
      stopCurve c0 dc0 x T T = x ∧ v T = 0 := by
  refine ⟨_, curve_isDeriv 2 _ T, ?_, ?_, ?_, ?_⟩
  · simp [stopCurve, curve, bez_at_zero]
  · funext k
    simp [curve, bez_at_zero, hodo]
    field_simp
  · simp [stopCurve, curve, div_self hT, bez_at_one]
  · simp [curve, div_self hT, bez_at_one, hodo]

theorem momentumCurve_spec (l0 xL : V3) (T : ℝ) (hT : T ≠ 0) :
    ∃ d, IsDeriv (momentumCurve l0 xL T) d ∧ momentumCurve l0 xL T 0 = l0 ∧
      momentumCurve l0 xL T T = 0 ∧ d T = 0 := by
  refine ⟨_, curve_isDeriv 2 _ T, ?_, ?_, ?_⟩
  · simp [momentumCurve, curve, bez_at_zero]
  · simp [momentumCurve, curve, div_self hT, bez_at_one]
  · simp [curve, div_self hT, bez_at_one, hodo]

/-! ## C30: the returned curve -/

theorem mkBezier_ok {pts : List V3} {T mult : ℝ} {c : Bezier} (h : mkBezier pts T mult = .ok c) :
    0 < T ∧ c = ⟨pts, T, mult⟩ := by
  unfold mkBezier at h
  split at h
  · simp at h
  · rename_i hn
    push Not at hn
    simp at h
    exact ⟨hn.2, h.symm⟩

/-- What a successful run returns. -/
theorem solve0step_success {lib : Lib} {fuel : ℕ} {pData : ProblemData} {Ts : List ℝ} {timeStep : ℝ}
    {r : ResultDataCOMTraj} (h : solve0step lib fuel pData Ts timeStep = .ok r) (hs : r.success = true) :
    ∃ T x ct, pData.contacts = [ct] ∧ Ts = [T] ∧ 0 < T ∧ head3 r.x = .ok x ∧
      r.c_of_t = ⟨[pData.bc.c0, fun k => pData.bc.dc0 k * T / 3 + pData.bc.c0 k, x, x], T, 1⟩ ∧
      computedL_of_T pData T r.x = .ok r.dL_of_t ∧ computeRealCost pData r.x = .ok r.cost := by
  unfold solve0step at h
  split at h
  · split at h
    · rename_i ct T hct
      simp only [Out.bind_eq_ok] at h
      obtain ⟨Ab, -, q, -, h⟩ := h
      unfold zeroStepResult at h
      split at h
      · simp only [Out.bind_eq_ok, Out.pure_eq, Out.ok.injEq] at h
        obtain ⟨cost, h1, c, h2, dL, h3, rfl⟩ := h
        unfold zeroStepCurve at h2
        simp only [Out.bind_eq_ok] at h2
        obtain ⟨x, hx, h2⟩ := h2
        obtain ⟨hT, rfl⟩ := mkBezier_ok h2
        exact ⟨T, x, ct, by assumption, rfl, hT, hx, rfl, h3, h1⟩
      · simp at h
        subst h
        simp [ResultDataCOMTraj.default] at hs
    · simp at h
  · simp at h

/-- C30. The curve returned by a successful `solve0step` is defined over `[0, T]`, starts at `c0` with velocity `dc0`
and ends at the point `x` found by the solver with zero velocity. -/
theorem C30_stops {lib : Lib} {fuel : ℕ} {pData : ProblemData} {Ts : List ℝ} {timeStep : ℝ}
    {r : ResultDataCOMTraj} (h : solve0step lib fuel pData Ts timeStep = .ok r) (hs : r.success = true) :
    ∃ T x v, Ts = [T] ∧ 0 < T ∧ head3 r.x = .ok x ∧ r.c_of_t.T = T ∧
      r.c_of_t.eval = stopCurve pData.bc.c0 pData.bc.dc0 x T ∧
      IsDeriv r.c_of_t.eval v ∧ r.c_of_t.eval 0 = pData.bc.c0 ∧ v 0 = pData.bc.dc0 ∧
      r.c_of_t.eval T = x ∧ v T = 0 := by
  obtain ⟨T, x, ct, -, hTs, hT, hx, hc, -⟩ := solve0step_success h hs
  have e : r.c_of_t.eval = stopCurve pData.bc.c0 pData.bc.dc0 x T := by
    rw [hc]
    funext t
    simp only [Bezier.eval, one_smul, List.length_cons, List.length_nil, stopCurve, curve]
    congr 2
    funext i
    have : (fun k => pData.bc.dc0 k * T / 3 + pData.bc.c0 k) = pData.bc.c0 + (T / 3) • pData.bc.dc0 := by
      funext k; simp; ring
    rw [this]
  obtain ⟨v, h1, h2, h3, h4, h5⟩ := stopCurve_spec pData.bc.c0 pData.bc.dc0 x T hT.ne'
  exact ⟨T, x, v, hTs, hT, hx, by rw [hc], e, by rw [e]; exact h1, by rw [e]; exact h2, h3, by rw [e]; exact h4, h5⟩

/-! ## C31: wrench waypoints -/

theorem stop_head (p0 dc0 g x : V3) (T t : ℝ) (hT : T ≠ 0) :
    headCurve [w0 p0 (fun k => dc0 k * T / 3 + p0 k) g (1 / (T * T)), w1 p0 (fun k => dc0 k * T / 3 + p0 k) g (1 / (T * T)),
      w2 p0 (fun k => dc0 k * T / 3 + p0 k) g (1 / (T * T)), w3 p0 (fun k => dc0 k * T / 3 + p0 k) g (1 / (T * T)),
      w4 (fun k => dc0 k * T / 3 + p0 k) g (1 / (T * T))] x t
      = bez 1 (accPt 3 (fun i => [p0, p0 + (T / 3) • dc0, x, x].getD i 0) T) t := by
  funext k
  rw [headCurve, show ([w0 p0 (fun k => dc0 k * T / 3 + p0 k) g (1 / (T * T)), w1 p0 (fun k => dc0 k * T / 3 + p0 k) g (1 / (T * T)),
      w2 p0 (fun k => dc0 k * T / 3 + p0 k) g (1 / (T * T)), w3 p0 (fun k => dc0 k * T / 3 + p0 k) g (1 / (T * T)),
      w4 (fun k => dc0 k * T / 3 + p0 k) g (1 / (T * T))]).length - 1 = 4 from rfl, bez_apply, bez_apply, bezS4, bezS1]
  fin_cases k <;>
    simp [w0, w1, w2, w3, w4, Wp6.headAt, accPt, hodo, mulVec, dotProduct, Fin.sum_univ_three, skew,
      Matrix.one_apply] <;> field_simp <;> ring

theorem stop_tail (p0 dc0 g x : V3) (T t : ℝ) (hT : T ≠ 0) :
    tailCurve [w0 p0 (fun k => dc0 k * T / 3 + p0 k) g (1 / (T * T)), w1 p0 (fun k => dc0 k * T / 3 + p0 k) g (1 / (T * T)),
      w2 p0 (fun k => dc0 k * T / 3 + p0 k) g (1 / (T * T)), w3 p0 (fun k => dc0 k * T / 3 + p0 k) g (1 / (T * T)),
      w4 (fun k => dc0 k * T / 3 + p0 k) g (1 / (T * T))] x t
      = wrenchTail g (bez 3 (fun i => [p0, p0 + (T / 3) • dc0, x, x].getD i 0) t)
          (bez 1 (accPt 3 (fun i => [p0, p0 + (T / 3) • dc0, x, x].getD i 0) T) t) := by
  funext k
  rw [tailCurve, show ([w0 p0 (fun k => dc0 k * T / 3 + p0 k) g (1 / (T * T)), w1 p0 (fun k => dc0 k * T / 3 + p0 k) g (1 / (T * T)),
      w2 p0 (fun k => dc0 k * T / 3 + p0 k) g (1 / (T * T)), w3 p0 (fun k => dc0 k * T / 3 + p0 k) g (1 / (T * T)),
      w4 (fun k => dc0 k * T / 3 + p0 k) g (1 / (T * T))]).length - 1 = 4 from rfl, bez_apply, bezS4,
      wrenchTail, cr, cr, cross_apply, cross_apply]
  fin_cases k <;>
    simp [w0, w1, w2, w3, w4, Wp6.tailAt, accPt, hodo, mulVec, dotProduct, Fin.sum_univ_three, skew, eigenCross,
      Matrix.one_apply, bez_apply, bezS3, bezS1] <;> field_simp <;> ring

theorem mom_tail (l0 xL : V3) (T t : ℝ) (hT : T ≠ 0) :
    tailCurve [u0 l0 (1 / T), u1 l0 (1 / T), u2 l0 (1 / T), u3 (1 / T), u4] xL t
      = bez 2 (hodo 3 (fun i => [l0, xL, 0, 0].getD i 0) T) t := by
  funext k
  rw [tailCurve, show ([u0 l0 (1 / T), u1 l0 (1 / T), u2 l0 (1 / T), u3 (1 / T), u4]).length - 1 = 4 from rfl,
    bez_apply, bez_apply, bezS4, bezS2]
  fin_cases k <;>
    simp [u0, u1, u2, u3, u4, Wp6.tailAt, hodo, mulVec, dotProduct, Fin.sum_univ_three, Matrix.one_apply] <;>
    field_simp <;> ring

theorem mom_head (l0 xL : V3) (T t : ℝ) :
    headCurve [u0 l0 (1 / T), u1 l0 (1 / T), u2 l0 (1 / T), u3 (1 / T), u4] xL t = 0 := by
  funext k
  rw [headCurve, show ([u0 l0 (1 / T), u1 l0 (1 / T), u2 l0 (1 / T), u3 (1 / T), u4]).length - 1 = 4 from rfl,
    bez_apply, bezS4]
  simp [u0, u1, u2, u3, u4, Wp6.headAt]

/-- The number of steps: `N` steps fit in the duration. -/
structure StepCount (T timeStep : ℝ) (N : ℕ) : Prop where
  pos : 0 < timeStep
  lo : N * timeStep ≤ T
  hi : T < (N + 1) * timeStep
  small : N + 1 < 2 ^ 31

theorem numSteps_eq {T timeStep : ℝ} {N : ℕ} (h : StepCount T timeStep N) :
    computeNumSteps T timeStep = .ok (N : ℤ) := by
  have h0 : (N : ℝ) ≤ T / timeStep := (le_div_iff₀ h.pos).mpr h.lo
  have h1 : T / timeStep < N + 1 := (div_lt_iff₀ h.pos).mpr h.hi
  have hf : ⌊T / timeStep⌋ = (N : ℤ) := by
    rw [Int.floor_eq_iff]
    exact ⟨by exact_mod_cast h0, by exact_mod_cast h1⟩
  have := h.small
  unfold computeNumSteps
  rw [if_pos h.pos]
  simp only [if_pos (le_trans (Nat.cast_nonneg N) h0), hf]
  rw [if_pos ⟨by omega, by omega⟩]

theorem numSteps_neg {T timeStep : ℝ} (h : timeStep ≤ 0) : computeNumSteps T timeStep = .ok (-1) := by
  unfold computeNumSteps
  rw [if_neg (not_lt.mpr h)]

theorem discretize_none (wps : List Wp6) {n : ℤ} (h : n ≤ 0) : discretizeIf n wps = .ok wps := by
  unfold discretizeIf
  rw [if_neg (by omega)]

theorem discretize_some (wps : List Wp6) (h5 : wps.length = 5) {N : ℕ} (h0 : 0 < N) (hN : N + 1 < 2 ^ 31) :
    ∃ F : ℝ → Wp6, discretizeIf N wps = .ok ((List.range (N + 1)).map fun i : ℕ => F ((i : ℝ) / N)) ∧
      ∀ t x, (F t).headAt x = headCurve wps x t ∧ (F t).tailAt x = tailCurve wps x t := by
  obtain ⟨bs, hbs, F, hF⟩ := wSample wps (by intro h; simp [h] at h5) (by omega)
  rw [h5] at hbs
  have hb5 : bs.length = 5 := by
    rw [bern_list _ (by norm_num)] at hbs
    simp at hbs
    rw [← hbs]; simp
  refine ⟨F, ?_, fun t x => (hF t).2 x⟩
  unfold discretizeIf
  rw [if_pos (by omega)]
  have e : (4#32 : BitVec 32) = BitVec.ofNat 32 (5 - 1) := rfl
  rw [e, hbs, Out.ok_bind]
  unfold ComputeDiscretizedWaypoints
  rw [if_neg (by rw [h5, hb5]; simp; omega)]
  refine mapList_ok _ _ _ fun i _ => ?_
  rw [List.take_of_length_le (by omega), (hF _).1]
  simp [div_eq_mul_inv]

/-- The control points of the wrench (`a` is the acceleration, `c x a + g x c` the moment). -/
def WrenchCtrl (ws : List Wp6) (g x : V3) (T : ℝ) (c a : ℝ → V3) : Prop :=
  ∀ s, headCurve ws x (s / T) = a s ∧ tailCurve ws x (s / T) = wrenchTail g (c s) (a s)

/-- C31. Without discretisation (no time step, or one longer than the motion) the five waypoints are, for every end
point `x`, the control points of the gravito-inertial wrench of the curve that stops at `x`. -/
theorem C31_continuous (c0 dc0 g : V3) (T timeStep : ℝ) (hT : 0 < T) (h : timeStep ≤ 0 ∨ T < timeStep) :
    ∃ ws, ComputeAllWaypoints c0 dc0 g T timeStep = .ok ws ∧ ws.length = 5 ∧ ∀ x, ∃ v a,
      IsDeriv (stopCurve c0 dc0 x T) v ∧ IsDeriv v a ∧ WrenchCtrl ws g x T (stopCurve c0 dc0 x T) a := by
  have hn : ∃ n, computeNumSteps T timeStep = .ok n ∧ n ≤ 0 := by
    rcases h with h | h
    · exact ⟨-1, numSteps_neg h, by norm_num⟩
    · exact ⟨0, numSteps_eq (N := 0) ⟨hT.trans h, by simpa using hT.le, by simpa using h, by norm_num⟩, le_rfl⟩
  obtain ⟨n, hn, hn0⟩ := hn
  refine ⟨_, by rw [ComputeAllWaypoints, hn, Out.ok_bind]; exact discretize_none _ hn0, rfl, fun x =>
    ⟨_, _, curve_isDeriv 2 _ T, curve_isDeriv 1 _ T, fun s => ⟨?_, ?_⟩⟩⟩
  · exact stop_head _ _ _ _ _ _ hT.ne'
  · exact stop_tail _ _ _ _ _ _ hT.ne'

/-- C31. With a time step that fits `N ≥ 1` times in the duration there are `N + 1` waypoints: for every end point `x`
they are the gravito-inertial wrench of the curve that stops at `x` at the instants `0, T/N, 2T/N, …, T`. -/
theorem C31_discretised (c0 dc0 g : V3) (T timeStep : ℝ) (N : ℕ) (hN : 1 ≤ N) (h : StepCount T timeStep N) :
    ∃ ws, ComputeAllWaypoints c0 dc0 g T timeStep = .ok ws ∧ ws.length = N + 1 ∧ ∀ x, ∃ v a,
      IsDeriv (stopCurve c0 dc0 x T) v ∧ IsDeriv v a ∧ ∀ i (hi : i < ws.length),
        (ws[i]).headAt x = a (i * (T / N)) ∧
        (ws[i]).tailAt x = wrenchTail g (stopCurve c0 dc0 x T (i * (T / N))) (a (i * (T / N))) := by
  have hN' : (0 : ℝ) < N := by exact_mod_cast hN
  have hT : 0 < T := lt_of_lt_of_le (mul_pos hN' h.pos) h.lo
  obtain ⟨F, hF, hx⟩ := discretize_some [w0 c0 (fun k => dc0 k * T / 3 + c0 k) g (1 / (T * T)),
    w1 c0 (fun k => dc0 k * T / 3 + c0 k) g (1 / (T * T)), w2 c0 (fun k => dc0 k * T / 3 + c0 k) g (1 / (T * T)),
    w3 c0 (fun k => dc0 k * T / 3 + c0 k) g (1 / (T * T)), w4 (fun k => dc0 k * T / 3 + c0 k) g (1 / (T * T))]
    rfl hN h.small
  refine ⟨_, by rw [ComputeAllWaypoints, numSteps_eq h, Out.ok_bind]; exact hF, by simp, fun x =>
    ⟨_, _, curve_isDeriv 2 _ T, curve_isDeriv 1 _ T, fun i hi => ?_⟩⟩
  have e : (i : ℝ) * (T / N) / T = i / N := by field_simp
  simp only [List.getElem_map, List.getElem_range, stopCurve, curve]
  rw [(hx _ x).1, (hx _ x).2, e, stop_head _ _ _ _ _ _ hT.ne', stop_tail _ _ _ _ _ _ hT.ne']
  exact ⟨rfl, rfl⟩

/-- Non-vacuity of C31: a step of 0.3 s fits three times in one second. -/
theorem stepCount_example : StepCount 1 0.3 3 := ⟨by norm_num, by norm_num, by norm_num, by norm_num⟩

/-! ## C32: angular momentum -/

/-- C32. The constraint waypoints without discretisation describe the derivative of the momentum curve. -/
theorem C32_waypoints_continuous (l0 : V3) (T timeStep : ℝ) (hT : 0 < T) (h : timeStep ≤ 0 ∨ T < timeStep) :
    ∃ us, ComputeAllWaypointsAngularMomentum l0 T timeStep = .ok us ∧ us.length = 5 ∧ ∀ xL, ∃ dL,
      IsDeriv (momentumCurve l0 xL T) dL ∧ ∀ s, headCurve us xL (s / T) = 0 ∧ tailCurve us xL (s / T) = dL s := by
  have hn : ∃ n, computeNumSteps T timeStep = .ok n ∧ n ≤ 0 := by
    rcases h with h | h
    · exact ⟨-1, numSteps_neg h, by norm_num⟩
    · exact ⟨0, numSteps_eq (N := 0) ⟨hT.trans h, by simpa using hT.le, by simpa using h, by norm_num⟩, le_rfl⟩
  obtain ⟨n, hn, hn0⟩ := hn
  refine ⟨_, by rw [ComputeAllWaypointsAngularMomentum, hn, Out.ok_bind]; exact discretize_none _ hn0, rfl, fun xL =>
    ⟨_, curve_isDeriv 2 _ T, fun s => ⟨?_, ?_⟩⟩⟩
  · exact mom_head _ _ _ _
  · exact mom_tail _ _ _ _ hT.ne'

/-- C32. With discretisation, its values at `0, T/N, …, T`. -/
theorem C32_waypoints_discretised (l0 : V3) (T timeStep : ℝ) (N : ℕ) (hN : 1 ≤ N) (h : StepCount T timeStep N) :
    ∃ us, ComputeAllWaypointsAngularMomentum l0 T timeStep = .ok us ∧ us.length = N + 1 ∧ ∀ xL, ∃ dL,
      IsDeriv (momentumCurve l0 xL T) dL ∧ ∀ i (hi : i < us.length),
        (us[i]).headAt xL = 0 ∧ (us[i]).tailAt xL = dL (i * (T / N)) := by
  have hN' : (0 : ℝ) < N := by exact_mod_cast hN
  have hT : 0 < T := lt_of_lt_of_le (mul_pos hN' h.pos) h.lo
  obtain ⟨F, hF, hx⟩ := discretize_some [u0 l0 (1 / T), u1 l0 (1 / T), u2 l0 (1 / T), u3 (1 / T), u4] rfl hN h.small
  refine ⟨_, by rw [ComputeAllWaypointsAngularMomentum, numSteps_eq h, Out.ok_bind]; exact hF, by simp, fun xL =>
    ⟨_, curve_isDeriv 2 _ T, fun i hi => ?_⟩⟩
  have e : (i : ℝ) * (T / N) / T = i / N := by field_simp
  simp only [List.getElem_map, List.getElem_range, curve]
  rw [(hx _ xL).1, (hx _ xL).2, e, mom_head, mom_tail _ _ _ _ hT.ne']
  exact ⟨rfl, rfl⟩

/-- C32. With angular momentum, the curve `dL_of_t` returned by a successful `solve0step` is the derivative of the
momentum curve for the last three unknowns `xL`, which goes from `l0` to zero. -/
theorem C32_returned {lib : Lib} {fuel : ℕ} {pData : ProblemData} {Ts : List ℝ} {timeStep : ℝ}
    {r : ResultDataCOMTraj} (h : solve0step lib fuel pData Ts timeStep = .ok r) (hs : r.success = true)
    (hang : pData.useAngularMomentum = true) :
    ∃ T xL, Ts = [T] ∧ 0 < T ∧ tail3 r.x = .ok xL ∧ r.dL_of_t.T = T ∧
      IsDeriv (momentumCurve pData.l0 xL T) r.dL_of_t.eval ∧
      momentumCurve pData.l0 xL T 0 = pData.l0 ∧ momentumCurve pData.l0 xL T T = 0 := by
  obtain ⟨T, x, ct, -, hTs, hT, -, -, hL, -⟩ := solve0step_success h hs
  unfold computedL_of_T at hL
  rw [if_pos hang, Out.bind_eq_ok] at hL
  obtain ⟨xL, hxL, hL⟩ := hL
  obtain ⟨-, hb⟩ := mkBezier_ok hL
  obtain ⟨-, -, e0, eT, -⟩ := momentumCurve_spec pData.l0 xL T hT.ne'
  refine ⟨T, xL, hTs, hT, hxL, by rw [hb], ?_, e0, eT⟩
  have := curve_isDeriv 2 (fun i => [pData.l0, xL, 0, 0].getD i 0) T
  have e : r.dL_of_t.eval = curve 2 (hodo (2 + 1) (fun i => [pData.l0, xL, 0, 0].getD i 0) T) T := ?_
  · rw [e]; exact this
  funext t
  rw [hb]
  simp only [Bezier.eval, List.length_cons, List.length_nil, curve]
  rw [← bez_smul]
  apply bez_congr
  intro i hi
  interval_cases i <;> funext k <;> simp [hodo] <;> ring

/-- C32. Without angular momentum the returned derivative is zero. -/
theorem C32_none {lib : Lib} {fuel : ℕ} {pData : ProblemData} {Ts : List ℝ} {timeStep : ℝ}
    {r : ResultDataCOMTraj} (h : solve0step lib fuel pData Ts timeStep = .ok r) (hs : r.success = true)
    (hang : pData.useAngularMomentum = false) (t : ℝ) : r.dL_of_t.eval t = 0 := by
  obtain ⟨T, x, ct, -, hTs, hT, -, -, hL, -⟩ := solve0step_success h hs
  unfold computedL_of_T at hL
  rw [if_neg (by simp [hang])] at hL
  simp at hL
  rw [← hL]
  simp [Bezier.zero, Bezier.eval, bez]

/-! ## C33: costs -/

theorem integral_poly4 (a b c d e : ℝ) :
    ∫ u in (0 : ℝ)..1, (a + b * u + c * u ^ 2 + d * u ^ 3 + e * u ^ 4) = a + b / 2 + c / 3 + d / 4 + e / 5 := by
  have : (fun u : ℝ => a + b * u + c * u ^ 2 + d * u ^ 3 + e * u ^ 4)
      = fun u => ∑ i ∈ Finset.range 5, [a, b, c, d, e].getD i 0 * u ^ i := by
    funext u; simp [Finset.sum_range_succ]
  rw [this, intervalIntegral.integral_finset_sum]
  · simp only [intervalIntegral.integral_const_mul, integral_pow]
    simp [Finset.sum_range_succ]
    ring
  · intro i _
    exact (Continuous.intervalIntegrable (by fun_prop) _ _)

/-- The squared norm of the derivative of the momentum curve as a polynomial in `t / T`. -/
noncomputable def momPoly (l xL : V3) (T u : ℝ) : ℝ :=
  (9 / T ^ 2 * dot (xL - l) (xL - l))
  + (9 / T ^ 2 * (-4 * dot (xL - l) (xL - l) - 4 * dot (xL - l) xL)) * u
  + (9 / T ^ 2 * (6 * dot (xL - l) (xL - l) + 12 * dot (xL - l) xL + 4 * dot xL xL)) * u ^ 2
  + (9 / T ^ 2 * (-4 * dot (xL - l) (xL - l) - 12 * dot (xL - l) xL - 8 * dot xL xL)) * u ^ 3
  + (9 / T ^ 2 * (dot (xL - l) (xL - l) + 4 * dot (xL - l) xL + 4 * dot xL xL)) * u ^ 4

/-- C33. With angular momentum the reported cost is `T` times the integral of the squared norm of the returned
derivative of the momentum. -/
theorem C33_angular {lib : Lib} {fuel : ℕ} {pData : ProblemData} {Ts : List ℝ} {timeStep : ℝ}
    {r : ResultDataCOMTraj} (h : solve0step lib fuel pData Ts timeStep = .ok r) (hs : r.success = true)
    (hang : pData.useAngularMomentum = true) :
    ∃ T, Ts = [T] ∧ r.cost = T * ∫ t in (0 : ℝ)..T, dot (r.dL_of_t.eval t) (r.dL_of_t.eval t) := by
  obtain ⟨T, x, ct, -, hTs, hT, -, -, hL, hc⟩ := solve0step_success h hs
  refine ⟨T, hTs, ?_⟩
  unfold computedL_of_T at hL
  rw [if_pos hang, Out.bind_eq_ok] at hL
  obtain ⟨xL, hxL, hL⟩ := hL
  obtain ⟨-, hb⟩ := mkBezier_ok hL
  unfold computeRealCost at hc
  rw [if_pos hang, hxL, Out.ok_bind] at hc
  simp only [Out.pure_eq, Out.ok.injEq] at hc
  rw [← hc, hb]
  set l := pData.l0 with hl
  have e : ∀ t, dot (Bezier.eval ⟨[fun k => 3 * (xL k - l k), fun k => 3 * -xL k, 0], T, 1 / T⟩ t)
        (Bezier.eval ⟨[fun k => 3 * (xL k - l k), fun k => 3 * -xL k, 0], T, 1 / T⟩ t) = momPoly l xL T (t / T) := by
    intro t
    simp only [Bezier.eval, List.length_cons, List.length_nil, momPoly]
    generalize t / T = u
    simp [dot, bez_apply, bezS2]
    ring
  simp only [e]
  rw [intervalIntegral.integral_comp_div (momPoly l xL T) hT.ne', zero_div, div_self hT.ne']
  unfold momPoly
  rw [integral_poly4]
  simp [dot, dotProduct, Fin.sum_univ_three]
  field_simp
  ring

/-- C33. Without angular momentum the reported cost is the distance from `c0` to the point where the motion stops. -/
theorem C33_distance {lib : Lib} {fuel : ℕ} {pData : ProblemData} {Ts : List ℝ} {timeStep : ℝ}
    {r : ResultDataCOMTraj} (h : solve0step lib fuel pData Ts timeStep = .ok r) (hs : r.success = true)
    (hang : pData.useAngularMomentum = false) :
    ∃ x, head3 r.x = .ok x ∧ r.cost = Real.sqrt (dot (pData.bc.c0 - x) (pData.bc.c0 - x)) := by
  obtain ⟨T, x, ct, -, hTs, hT, hx, -, -, hc⟩ := solve0step_success h hs
  refine ⟨x, hx, ?_⟩
  unfold computeRealCost at hc
  rw [if_neg (by simp [hang])] at hc
  split at hc
  · rename_i h3
    simp at hc
    unfold head3 at hx
    rw [if_pos (by omega)] at hx
    simp at hx
    rw [← hc, ← hx]
    simp [eNorm, dot, dotProduct, Fin.sum_univ_three]
  · simp at hc

/-- Integral of the squared norm of the derivative of the momentum curve, times `T`. -/
noncomputable def angularCost (l0 xL : V3) : ℝ := 1 / 5 * (9 * dot l0 l0 - 9 * dot l0 xL + 6 * dot xL xL)

/-- C33. The QP minimises (up to a constant and a factor two) the reported cost plus the squared distance from `c0`
with weight 0.0001. -/
theorem C33_qp_angular (c0 l0 : V3) :
    ∃ K, ∀ y, quadForm (zeroStepCost c0 l0 true).1 (zeroStepCost c0 l0 true).2 6 y
      = angularCost l0 (last3 y) + 0.0001 * dot (first3 y - c0) (first3 y - c0) - K := by
  refine ⟨9 / 5 * dot l0 l0 + 0.0001 * dot c0 c0, fun y => ?_⟩
  simp [quadForm, zeroStepCost, angularCost, Finset.sum_range_succ, V3.get, first3, last3, dot]
  ring

/-- C33. Without angular momentum the QP minimises (up to a constant and a factor two) the squared distance from `c0`. -/
theorem C33_qp_distance (c0 l0 : V3) :
    ∃ K, ∀ y, quadForm (zeroStepCost c0 l0 false).1 (zeroStepCost c0 l0 false).2 3 y
      = dot (first3 y - c0) (first3 y - c0) - K := by
  refine ⟨dot c0 c0, fun y => ?_⟩
  simp [quadForm, zeroStepCost, Finset.sum_range_succ, V3.get, first3, dot]
  ring

end Verif
