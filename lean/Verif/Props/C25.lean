import Verif.Props.C23

/-!
# C21–C25 for the continuous formulation: consequences, counterexamples and examples
-/

namespace Verif
open Matrix

/-- Every time of the trajectory is in some phase. -/
theorem inPhase_exists (Ts : List ℝ) (hne : Ts ≠ []) (t : ℝ) (h0 : 0 ≤ t) (h1 : t ≤ Ts.sum) :
    ∃ p, InPhase Ts p t := by
  have key : ∀ n ≤ Ts.length, t ≤ (Ts.take n).sum → 0 < n → ∃ p, InPhase Ts p t := by
    intro n
    induction n with
    | zero => intro _ _ h; omega
    | succ n ih =>
      intro hn ht _
      by_cases hc : (Ts.take n).sum ≤ t
      · exact ⟨n, by omega, hc, ht⟩
      · rcases Nat.eq_zero_or_pos n with rfl | hpos
        · simp at hc; linarith
        · exact ih (by omega) (le_of_lt (not_le.mp hc)) hpos
  exact key Ts.length le_rfl (by simpa using h1) (List.length_pos_iff.mpr hne)

/-- C25, continuous formulation: if the control points of the derivative curve carry the true factor
`1 / T ^ 2`, every component of the acceleration is bounded at all times. -/
theorem C25_scaled (pData : ProblemData) (Ts : List ℝ) (g : V3) (h : AcceptedC pData Ts g) (S : ContSystem)
    (hS : computeConstraintsContinuous (1 / Ts.sum ^ 2) pData Ts = .ok S) (y : ℕ → ℝ)
    (hy : Sat S.A S.b y)
    (pts : List V3) (hpts : computeConstantWaypoints pData.flag pData.bc Ts.sum = .ok pts)
    (hz : ∀ i < pts.length, i ∉ freeSlots pData.flag → ∃ k, 1e-12 < |nth pts i k|) :
    ∃ v a, IsDeriv (curve (degreeOf pData.flag) (fill pData.flag (nth pts) (first3 y)) Ts.sum) v ∧
      IsDeriv v a ∧ ∀ t, 0 ≤ t → t ≤ Ts.sum → ∀ k, |a t k| ≤ pData.maxAcceleration := by
  obtain ⟨v, a, hv, ha, hb⟩ := C25_every_instant _ pData Ts g h S hS y hy pts hpts hz
  refine ⟨v, a, hv, ha, fun t h0 h1 k => ?_⟩
  obtain ⟨p, hp⟩ := inPhase_exists Ts h.ne t h0 h1
  have := hb p t hp k
  have hT := h.total
  rwa [show 1 / Ts.sum ^ 2 * Ts.sum ^ 2 * a t k = a t k by field_simp] at this

/-- C25, continuous formulation: with bare control points (what the library most likely returns) the
acceleration is bounded for trajectories of at least one second; see `C25_refuted_short` for shorter
ones. -/
theorem C25_bare (pData : ProblemData) (Ts : List ℝ) (g : V3) (h : AcceptedC pData Ts g) (S : ContSystem)
    (hT : 1 ≤ Ts.sum)
    (hS : computeConstraintsContinuous 1 pData Ts = .ok S) (y : ℕ → ℝ)
    (hy : Sat S.A S.b y)
    (pts : List V3) (hpts : computeConstantWaypoints pData.flag pData.bc Ts.sum = .ok pts)
    (hz : ∀ i < pts.length, i ∉ freeSlots pData.flag → ∃ k, 1e-12 < |nth pts i k|) :
    ∃ v a, IsDeriv (curve (degreeOf pData.flag) (fill pData.flag (nth pts) (first3 y)) Ts.sum) v ∧
      IsDeriv v a ∧ ∀ t, 0 ≤ t → t ≤ Ts.sum → ∀ k, |a t k| ≤ pData.maxAcceleration := by
  obtain ⟨v, a, hv, ha, hb⟩ := C25_every_instant _ pData Ts g h S hS y hy pts hpts hz
  refine ⟨v, a, hv, ha, fun t h0 h1 k => ?_⟩
  obtain ⟨p, hp⟩ := inPhase_exists Ts h.ne t h0 h1
  have := hb p t hp k
  rw [abs_mul, one_mul, abs_of_nonneg (by positivity)] at this
  refine le_trans ?_ this
  have h2 : 1 ≤ Ts.sum ^ 2 := one_le_pow₀ hT
  nlinarith [abs_nonneg (a t k)]

/-! ## Sub-curves of simple curves -/

theorem subCoefs_map (P : List Coefs) (T t D : ℝ) (x : V3) : (subCoefs P T t D).map (·.at x)
      = extractCtrl (P.map (·.at x)) (t / T) (((D + t) / T - t / T) / (1 - t / T)) := by
  rw [subCoefs, List.map_map]
  have := extractCtrl_map (coefsAt x) (P.map Coefs.toProd) (t / T)
    (((D + t) / T - t / T) / (1 - t / T))
  rw [List.map_map] at this
  exact this

theorem subWp6_map_ctrl (f : (M3 × M3 × V3 × V3) →ₗ[ℝ] V3) (g : Wp6 → V3)
    (hg : ∀ w, g w = f w.toProd) (P : List Wp6) (T t D : ℝ) : (subWp6 P T t D).map g
      = extractCtrl (P.map g) (t / T) (((D + t) / T - t / T) / (1 - t / T)) := by
  rw [subWp6, List.map_map]
  have := extractCtrl_map f (P.map Wp6.toProd) (t / T) (((D + t) / T - t / T) / (1 - t / T))
  rw [List.map_map] at this
  have e1 : (f ∘ Wp6.toProd) = g := by funext w; exact (hg w).symm
  have e2 : (g ∘ Wp6.ofProd) = f := by funext w; rw [Function.comp, hg]; rfl
  rw [e2]
  rw [e1] at this
  exact this

/-- Linear precision: equally spaced control points. -/
theorem bez_linear (n : ℕ) (α β : V3) (u : ℝ) :
    bez n (fun i => α + (i : ℝ) • β) u = α + ((n : ℝ) * u) • β := by
  induction n generalizing α with
  | zero => simp [bez_zero]
  | succ n ih =>
    rw [bez_succ, ih]
    have : bez n (fun i => α + ((i + 1 : ℕ) : ℝ) • β) u = (α + β) + ((n : ℝ) * u) • β := by
      rw [← ih (α + β)]
      refine bez_congr fun i _ => ?_
      push_cast; module
    rw [this]
    push_cast
    module

/-- The sub-curve of equally spaced control points. -/
theorem extractCtrl_linear (P : List V3) (α β : V3) (hP : ∀ i < P.length, P.getD i 0 = α + (i : ℝ) • β)
    (a s : ℝ) : ∀ k < P.length, (extractCtrl P a s).getD k 0
      = α + (((P.length - 1 : ℕ) : ℝ) * a + k * (s * (1 - a))) • β := by
  intro k hk
  have : (extractCtrl P a s).getD k 0
      = bez k (fun j => bez (P.length - 1 - j) (fun i => P.getD (j + i) 0) a) s := by
    simp [extractCtrl, List.getD, hk]
  rw [this]
  have e : ∀ j ≤ k, bez (P.length - 1 - j) (fun i => P.getD (j + i) 0) a
      = (α + (((P.length - 1 : ℕ) : ℝ) * a) • β) + (j : ℝ) • ((1 - a) • β) := by
    intro j hj
    have e1 : bez (P.length - 1 - j) (fun i => P.getD (j + i) 0) a
        = bez (P.length - 1 - j) (fun i => (α + (j : ℝ) • β) + (i : ℝ) • β) a := by
      refine bez_congr fun i hi => ?_
      rw [hP (j + i) (by omega)]
      push_cast; module
    rw [e1, bez_linear]
    rw [Nat.cast_sub (by omega)]
    module
  rw [bez_congr e, bez_linear]
  module

/-- A constant curve stays constant. -/
theorem subCoefs_const (P : List Coefs) (x c : V3) (h : ∀ co ∈ P, co.at x = c) (T t D : ℝ) :
    ∀ co ∈ subCoefs P T t D, co.at x = c := by
  intro co hco
  obtain ⟨i, hi, rfl⟩ := List.mem_iff_getElem.mp hco
  rw [← getD_map_lt _ (·.at x) i hi, subCoefs_map]
  rw [subCoefs_length] at hi
  rw [extractCtrl_linear _ c 0 (fun j hj => ?_) _ _ i (by simpa using hi)]
  · simp
  · rw [List.length_map] at hj
    rw [getD_map_lt _ _ j hj, h _ (List.getElem_mem hj)]; simp

/-- A constant curve stays constant. -/
theorem subWp6_const (f : (M3 × M3 × V3 × V3) →ₗ[ℝ] V3) (g : Wp6 → V3)
    (hg : ∀ w, g w = f w.toProd) (P : List Wp6) (c : V3) (h : ∀ co ∈ P, g co = c) (T t D : ℝ) :
    ∀ co ∈ subWp6 P T t D, g co = c := by
  intro co hco
  obtain ⟨i, hi, rfl⟩ := List.mem_iff_getElem.mp hco
  rw [← getD_map_lt _ g i hi, subWp6_map_ctrl f g hg]
  rw [subWp6_length] at hi
  rw [extractCtrl_linear _ c 0 (fun j hj => ?_) _ _ i (by simpa using hi)]
  · simp
  · rw [List.length_map] at hj
    rw [getD_map_lt _ _ j hj, h _ (List.getElem_mem hj)]; simp

/-- The sub-curve over the whole range has the same control points. -/
theorem extractCtrl_full (P : List V3) : extractCtrl P 0 1 = P := by
  apply List.ext_getElem
  · simp
  intro i h1 h2
  simp [extractCtrl, bez_at_zero, bez_at_one, List.getD, h2]

theorem subCoefs_full (P : List Coefs) (T : ℝ) (hT : 0 < T) (x : V3) :
    (subCoefs P T 0 T).map (·.at x) = P.map (·.at x) := by
  rw [subCoefs_map]
  have e1 : (0 : ℝ) / T = 0 := by simp
  have e2 : ((T + 0) / T - 0 / T) / (1 - 0 / T) = 1 := by simp [hT.ne']
  rw [e2, e1, extractCtrl_full]

theorem list4_eq {a b c d a' b' c' d' : V3} (h1 : a = a') (h2 : b = b') (h3 : c = c') (h4 : d = d') :
    [a, b, c, d] = [a', b', c', d'] := by rw [h1, h2, h3, h4]

theorem forall_map {α : Type} (l : List α) (f : α → V3) (P : V3 → Prop) :
    (∀ a ∈ l, P (f a)) ↔ ∀ v ∈ l.map f, P v := by simp

/-! ## Counterexamples -/

/-- A contact phase without any constraint. -/
def freeContact : ContactData :=
  { contactPhase := some { mass := 1, gravity := 0, poly := [], polyOk := true, isPP := true, gens := [] },
    Kin := [], kin := [], Ang := [], ang := [] }

/-- Half a second from `(1,0,0)` at rest to `(3,0,0)`, acceleration at most 6. -/
noncomputable def shortProblem : ProblemData :=
  { contacts := [freeContact], bc := ⟨![1, 0, 0], 0, 0, 0, ![3, 0, 0], 0, 0, 0⟩, l0 := 0,
    useAngularMomentum := false, flag := 11#32, constraintAcceleration := true,
    maxAcceleration := 6, reduce_h := 0, costFunction := 1, representation := 1 }

theorem shortProblem_accepted : AcceptedC shortProblem [1 / 2] 0 := by
  refine ⟨rfl, by simp, by simp, by simp [shortProblem, comFlags], by simp [shortProblem], ?_⟩
  intro ct hct
  simp only [shortProblem, List.mem_singleton] at hct
  subst hct
  exact ⟨_, rfl, rfl, rfl, fun _ => ⟨rfl, rfl, by simp, by simp, by simp [freeContact]⟩⟩

theorem symCoefs_at (pts : List V3) (x : V3) : (symCoefs pts).map (·.at x)
    = pts.map fun p => (symbolicOf 1 p).toCoefs.at x := by
  simp [symCoefs]

/-- A symbolic waypoint that is not the origin is constant. -/
theorem symbolic_at_const (p x : V3) (h : ∃ k, 1e-12 < |p k|) : (symbolicOf 1 p).toCoefs.at x = p := by
  have : ¬ eigenIsZero p := by
    obtain ⟨k, hk⟩ := h
    intro hz; exact absurd (hz k) (not_le.mpr hk)
  simp [symbolicOf, this, WpB.toCoefs, Coefs.at]

/-- A symbolic waypoint that is the origin is free. -/
theorem symbolic_at_free (x : V3) : (symbolicOf 1 (fun _ => 0)).toCoefs.at x = x := by
  have : eigenIsZero (fun _ => (0 : ℝ)) := by intro k; norm_num
  simp [symbolicOf, this, WpB.toCoefs, Coefs.at]

theorem nth_hz_iff (pts : List V3) (P : ℕ → V3 → Prop) : (∀ i < pts.length, P i (nth pts i)) ↔
    ∀ i (h : i < pts.length), P i pts[i] := by
  refine forall_congr' fun i => ⟨fun h hi => ?_, fun h hi => ?_⟩
  · have := h hi; simpa [nth, List.getD, hi] using this
  · have := h hi; simpa [nth, List.getD, hi] using this

/-- C25 fails in the continuous formulation when the library returns bare control points and the motion
lasts less than a second: all constraints are satisfied, but the acceleration at the start is four
times the bound. -/
theorem C25_refuted_short : ∃ S y pts v a, computeConstraintsContinuous 1 shortProblem [1 / 2] = .ok S ∧
    Sat S.A S.b y ∧
    computeConstantWaypoints shortProblem.flag shortProblem.bc ([1 / 2] : List ℝ).sum = .ok pts ∧
    (∀ i < pts.length, i ∉ freeSlots shortProblem.flag → ∃ k, 1e-12 < |nth pts i k|) ∧
    IsDeriv (curve (degreeOf shortProblem.flag) (fill shortProblem.flag (nth pts) (first3 y))
      ([1 / 2] : List ℝ).sum) v ∧ IsDeriv v a ∧ 4 * shortProblem.maxAcceleration ≤ |a 0 0| := by
  obtain ⟨ct, e, pts, ws, S, R⟩ := cont_raw 1 shortProblem [1 / 2] 0 shortProblem_accepted
  have hpts : pts = [![1, 0, 0], ![1, 0, 0], fun _ => 0, ![3, 0, 0]] := by
    have := R.hpts
    simp [computeConstantWaypoints, shortProblem] at this
    rw [← this]
    simp only [c0_dc0_c1.computeConstantWaypoints]
    refine list4_eq ?_ ?_ ?_ ?_ <;> funext k <;> fin_cases k <;> norm_num
  have hz1 : (symbolicOf 1 ![1, 0, 0]).toCoefs.at ![2, 0, 0] = ![1, 0, 0] :=
    symbolic_at_const _ _ ⟨0, by norm_num⟩
  have hz3 : (symbolicOf 1 ![3, 0, 0]).toCoefs.at ![2, 0, 0] = ![3, 0, 0] :=
    symbolic_at_const _ _ ⟨0, by norm_num⟩
  have hx : first3 (ext3 ![2, 0, 0]) = ![2, 0, 0] := by
    funext k; fin_cases k <;> simp [first3, ext3]
  have hfill : fill shortProblem.flag (nth pts) ![2, 0, 0]
      = fun i => ([![1, 0, 0], ![1, 0, 0], ![2, 0, 0], ![3, 0, 0]] : List V3).getD i 0 := by
    rw [hpts]
    funext i
    have : freeSlots shortProblem.flag = [2] := rfl
    match i with
    | 0 => simp [fill, this, nth]
    | 1 => simp [fill, this, nth]
    | 2 => simp [fill, this]
    | 3 => simp [fill, this, nth]
    | n + 4 => simp [fill, this, nth]
  obtain ⟨v, hv, ha⟩ := curve_second [![1, 0, 0], ![1, 0, 0], ![2, 0, 0], ![3, 0, 0]] 1 rfl
    ([1 / 2] : List ℝ).sum
  refine ⟨S, ext3 ![2, 0, 0], pts, v, _, R.hS, ?_, R.hpts, ?_, ?_, ha, ?_⟩
  · rw [R.kin]
    intro p hp
    have hp0 : p = 0 := by simpa using hp
    subst hp0
    rw [hx]
    have hct : ct 0 = freeContact := by
      have := R.hct 0 (by simp); simp [shortProblem] at this; exact this.symm
    have he : e 0 = { mass := 1, gravity := 0, poly := [], polyOk := true, isPP := true, gens := [] } := by
      have := R.he 0 (by simp); rw [hct] at this; simp [freeContact] at this; exact this.symm
    refine ⟨fun co _ q hq => ?_, fun _ w _ r hr => ?_, ?_⟩
    · rw [hct] at hq; simp [freeContact] at hq
    · rw [he] at hr; simp at hr
    · refine (forall_map _ (fun w : Coefs => w.at ![2, 0, 0])
        (fun v => ∀ k, |v k| ≤ shortProblem.maxAcceleration)).mpr ?_
      have e1 : ([1 / 2] : List ℝ).sum = 1 / 2 := by simp
      have e2 : ([1 / 2] : List ℝ).getD 0 0 = 1 / 2 := rfl
      have e3 : (([1 / 2] : List ℝ).take 0).sum = 0 := rfl
      rw [e1, e2, e3, subCoefs_full _ _ (by norm_num), secondDeriv_at, symCoefs_at, hpts]
      simp only [List.map_cons, List.map_nil, hz1, hz3, symbolic_at_free]
      intro w hw k
      simp [derivCtrl] at hw
      rcases hw with rfl | rfl <;> fin_cases k <;> simp [shortProblem] <;> norm_num
  · intro i hi hf
    have hi4 : i < 4 := by rw [hpts] at hi; exact hi
    have hf2 : i ≠ 2 := by
      intro h; apply hf; rw [h]; decide
    rw [hpts]
    have : i = 0 ∨ i = 1 ∨ i = 3 := by omega
    rcases this with rfl | rfl | rfl <;> exact ⟨0, by norm_num [nth]⟩
  · rw [hx, hfill]; exact hv
  · simp only [zero_div]
    rw [bez_at_zero]
    simp [derivCtrl, shortProblem]
    norm_num

/-- From the origin, with velocity, to `(-5,0,0)`, staying in `x ≤ -1`. -/
noncomputable def originProblem : ProblemData :=
  { contacts := [{ freeContact with Kin := [![1, 0, 0]], kin := [-1] }],
    bc := ⟨0, ![-6, 0, 0], 0, 0, ![-5, 0, 0], 0, 0, 0⟩, l0 := 0,
    useAngularMomentum := false, flag := 11#32, constraintAcceleration := true,
    maxAcceleration := 1000, reduce_h := 0, costFunction := 1, representation := 1 }

theorem originProblem_accepted : AcceptedC originProblem [1] 0 := by
  refine ⟨rfl, by simp, by simp, by simp [originProblem, comFlags], by simp [originProblem], ?_⟩
  intro ct hct
  simp only [originProblem, List.mem_singleton] at hct
  subst hct
  exact ⟨_, rfl, rfl, rfl, fun _ => ⟨rfl, rfl, by simp, by simp, by simp⟩⟩

/-- C22 fails when the motion starts at the origin: the starting point is taken for a free point, the
system is satisfied, but the trajectory is outside the kinematic polytope at time zero. -/
theorem C22_refuted_zero : ∃ S y pts, computeConstraintsContinuous 1 originProblem [1] = .ok S ∧
    Sat S.A S.b y ∧
    computeConstantWaypoints originProblem.flag originProblem.bc ([1] : List ℝ).sum = .ok pts ∧
    InPhase [1] 0 0 ∧
    ¬ AtPhase originProblem.contacts 0 fun ct _ => KinOk ct
      (curve (degreeOf originProblem.flag) (fill originProblem.flag (nth pts) (first3 y))
        ([1] : List ℝ).sum 0) := by
  obtain ⟨ct, e, pts, ws, S, R⟩ := cont_raw 1 originProblem [1] 0 originProblem_accepted
  have hpts : pts = [fun _ => 0, ![-2, 0, 0], fun _ => 0, ![-5, 0, 0]] := by
    have := R.hpts
    simp [computeConstantWaypoints, originProblem] at this
    rw [← this]
    simp only [c0_dc0_c1.computeConstantWaypoints]
    refine list4_eq ?_ ?_ ?_ ?_ <;> funext k <;> fin_cases k <;> norm_num
  have hz1 : (symbolicOf 1 ![-2, 0, 0]).toCoefs.at ![-5, 0, 0] = ![-2, 0, 0] :=
    symbolic_at_const _ _ ⟨0, by norm_num⟩
  have hz3 : (symbolicOf 1 ![-5, 0, 0]).toCoefs.at ![-5, 0, 0] = ![-5, 0, 0] :=
    symbolic_at_const _ _ ⟨0, by norm_num⟩
  have hx : first3 (ext3 ![-5, 0, 0]) = ![-5, 0, 0] := by
    funext k; fin_cases k <;> simp [first3, ext3]
  refine ⟨S, ext3 ![-5, 0, 0], pts, R.hS, ?_, R.hpts, ⟨by simp, by simp, by simp⟩, ?_⟩
  · rw [R.kin]
    intro p hp
    have hp0 : p = 0 := by simpa using hp
    subst hp0
    rw [hx]
    have hct : ct 0 = { freeContact with Kin := [![1, 0, 0]], kin := [-1] } := by
      have := R.hct 0 (by simp); simp [originProblem] at this; exact this.symm
    have he : e 0 = { mass := 1, gravity := 0, poly := [], polyOk := true, isPP := true, gens := [] } := by
      have := R.he 0 (by simp); rw [hct] at this; simp [freeContact] at this; exact this.symm
    have e1 : ([1] : List ℝ).sum = 1 := by simp
    have e2 : ([1] : List ℝ).getD 0 0 = 1 := rfl
    have e3 : (([1] : List ℝ).take 0).sum = 0 := rfl
    rw [e1, e2, e3]
    refine ⟨?_, fun _ w _ r hr => ?_, ?_⟩
    · refine (forall_map _ (fun w : Coefs => w.at ![-5, 0, 0]) (fun v => KinOk (ct 0) v)).mpr ?_
      rw [subCoefs_full _ _ (by norm_num), symCoefs_at,
        hpts, hct]
      simp only [List.map_cons, List.map_nil, hz1, hz3, symbolic_at_free]
      intro w hw q hq
      simp at hq hw
      subst hq
      rcases hw with rfl | rfl | rfl <;> simp [dot] <;> norm_num
    · rw [he] at hr; simp at hr
    · refine (forall_map _ (fun w : Coefs => w.at ![-5, 0, 0])
        (fun v => ∀ k, |v k| ≤ originProblem.maxAcceleration)).mpr ?_
      rw [subCoefs_full _ _ (by norm_num), secondDeriv_at, symCoefs_at, hpts]
      simp only [List.map_cons, List.map_nil, hz1, hz3, symbolic_at_free]
      intro w hw k
      simp [derivCtrl] at hw
      rcases hw with rfl | rfl <;> fin_cases k <;> simp [originProblem] <;> norm_num
  · rintro ⟨ct', e', h1, -, h3⟩
    rw [curve_zero, hx, hpts] at h3
    simp only [originProblem, List.getElem?_cons_zero, Option.some.injEq] at h1
    subst h1
    have := h3 (![1, 0, 0], -1) (by simp)
    have hf : freeSlots originProblem.flag = [2] := rfl
    simp [fill, hf, nth, dot] at this
    norm_num at this

end Verif
