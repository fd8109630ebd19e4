import Verif.Lemmas.ContSem

/-!
# C21, C22, C23, C24, C25 — the continuous formulation
-/

namespace Verif
open Matrix

/-- C21. For every accepted problem, with either representation, `computeConstraintsContinuous` runs to
completion: no assertion fails, no write is out of range, and the sizes of the systems agree. -/
theorem C21_in_bounds_and_complete (κ : ℝ) (pData : ProblemData) (Ts : List ℝ) (g : V3)
    (h : AcceptedC pData Ts g) :
    ∃ S, computeConstraintsContinuous κ pData Ts = .ok S ∧ S.b.rows = S.A.rows ∧ S.b.cols = 1 ∧
      S.d.rows = S.D.rows ∧ S.d.cols = 1 ∧ S.D.cols = S.A.cols ∧ 3 ≤ S.A.cols ∧
      (pData.representation = DOUBLE_DESCRIPTION → S.A.cols = 3 ∧ S.D.rows = 0 ∧ S.minBounds = []) ∧
      (pData.representation ≠ DOUBLE_DESCRIPTION → S.minBounds.length = S.A.cols) := by
  obtain ⟨ct, e, pts, ws, S, R⟩ := cont_raw κ pData Ts g h
  have h3 : 3 ≤ S.A.cols := by
    by_cases hr : pData.representation = DOUBLE_DESCRIPTION
    · exact (R.ddcols hr).1.ge
    · have := (R.eqn hr).1; omega
  refine ⟨S, R.hS, R.arows, R.bcols, R.drows, R.dcols, R.cols, h3, fun hr => ?_, fun hr => ?_⟩
  · exact ⟨(R.ddcols hr).1, (R.ddcols hr).2, by rw [R.min, if_pos hr]⟩
  · rw [R.min, if_neg hr]; simp; omega

/-- The position waypoints used by the continuous formulation are those of the trajectory, provided no
constant waypoint is (nearly) the origin. -/
theorem symCoefs_fill (flag : Flag) (hf : flag ∈ comFlags) (d : BC) (T : ℝ)
    (pts : List V3) (h : computeConstantWaypoints flag d T = .ok pts)
    (hz : ∀ i < pts.length, i ∉ freeSlots flag → ∃ k, 1e-12 < |nth pts i k|) (x : V3) (i : ℕ)
    (hi : i < pts.length) : ((symCoefs pts).map (·.at x)).getD i 0 = fill flag (nth pts) x i := by
  obtain ⟨ws, h1, -, -, h4⟩ := C53_symbolic_partial flag (by simp [hf]) d T pts h hz
  have hK : dimVarPts flag = 1 := by
    simp only [comFlags, List.mem_cons, List.not_mem_nil, or_false] at hf
    rcases hf with rfl | rfl | rfl | rfl | rfl | rfl | rfl <;> decide
  rw [symbolic_eq flag d T pts 1 h hK] at h1
  cases h1
  rw [← h4 x i hi]
  simp [symCoefs, List.getD, hi, WpB.toCoefs, Coefs.at, WpB.at]

theorem inPhase_param {Ts : List ℝ} (hpos : ∀ T ∈ Ts, 0 < T) {p : ℕ} {t : ℝ} (h : InPhase Ts p t) :
    ∃ u, 0 ≤ u ∧ u ≤ 1 ∧ t = (Ts.take p).sum + u * Ts.getD p 0 ∧ (Ts.take p).sum < Ts.sum := by
  obtain ⟨hp, h1, h2⟩ := h
  have hD : 0 < Ts.getD p 0 := by
    simp only [List.getD, List.getElem?_eq_getElem hp]
    exact hpos _ (List.getElem_mem hp)
  rw [List.sum_take_succ Ts p hp] at h2
  have e : Ts.getD p 0 = Ts[p] := by simp [List.getD, hp]
  rw [← e] at h2
  refine ⟨(t - (Ts.take p).sum) / Ts.getD p 0, by apply div_nonneg <;> linarith, ?_, ?_, ?_⟩
  · rw [div_le_one hD]; linarith
  · field_simp; ring
  · have h3 : Ts.sum = (Ts.take p).sum + (Ts.drop p).sum := by
      rw [← List.sum_append, List.take_append_drop]
    have h4 : Ts.drop p = Ts[p] :: Ts.drop (p + 1) := by rw [List.getElem_cons_drop]
    have h5 : 0 ≤ (Ts.drop (p + 1)).sum :=
      List.sum_nonneg fun T hT => (hpos T (List.mem_of_mem_drop hT)).le
    rw [h3, h4, List.sum_cons, ← e]
    linarith

/-- Admissible positions are convex, hence inherited by a curve from its control points. -/
theorem kinOk_bez (ct : ContactData) (n : ℕ) (p : ℕ → V3) (u : ℝ) (h0 : 0 ≤ u) (h1 : u ≤ 1)
    (h : ∀ i ≤ n, KinOk ct (p i)) : KinOk ct (bez n p u) :=
  fun q hq => C55_half_space n p q.1 q.2 u h0 h1 fun i hi => h i hi q hq

theorem dot_bez (a : V3) (n : ℕ) (p : ℕ → V3) (u : ℝ) : dot a (bez n p u) = bez n (fun i => dot a (p i)) u := by
  have := bez_map (E := V3) (F := ℝ)
    { toFun := fun v => dot a v
      map_add' := by intro x y; simp [dot]; ring
      map_smul' := by intro c x; simp [dot]; ring } n p u
  exact this

/-- Admissible wrenches are convex. -/
theorem wrenchOk_bez (e : Equilibrium) (ρ : ℝ) (g : V3) (n : ℕ) (p q : ℕ → V3) (u : ℝ) (h0 : 0 ≤ u)
    (h1 : u ≤ 1) (h : ∀ i ≤ n, WrenchOk e ρ (e.mass • (g - p i)) (e.mass • (-q i))) :
    WrenchOk e ρ (e.mass • (g - bez n p u)) (e.mass • (-bez n q u)) := by
  intro r hr
  unfold WrenchRowOk
  have key : ∀ a b : V3, dot r.1.1 (e.mass • (g - a)) + dot r.1.2 (e.mass • (-b))
      = e.mass * dot r.1.1 g - (e.mass * dot r.1.1 a + e.mass * dot r.1.2 b) := by
    intro a b; simp [dot]; ring
  have e1 : dot r.1.1 (e.mass • (g - bez n p u)) + dot r.1.2 (e.mass • (-bez n q u))
      = bez n (fun i => dot r.1.1 (e.mass • (g - p i)) + dot r.1.2 (e.mass • (-q i))) u := by
    simp only [key]
    rw [bez_sub, bez_const, bez_add, dot_bez, dot_bez]
    congr 2
    · exact (bez_smul n e.mass _ u).symm
    · exact (bez_smul n e.mass _ u).symm
  rw [e1]
  exact bez_le h0 h1 fun i hi => h i hi r hr

theorem mem_getD {α : Type} (l : List α) (i : ℕ) (hi : i < l.length) :
    ∃ a ∈ l, ∀ g : α → V3, (l.map g).getD i 0 = g a :=
  ⟨l[i], List.getElem_mem hi, fun g => by simp [List.getD, hi]⟩

/-- Bounds on the control points of the sub-curves of the wrench hold along the curve of the wrench. -/
theorem wrench_along {Ts : List ℝ} (hpos : ∀ T ∈ Ts, 0 < T) (hT : 0 < Ts.sum) {ws : List Wp6} (hw2 : 2 ≤ ws.length)
    (e : Equilibrium) (ρ : ℝ) (g x : V3) {p : ℕ} {t : ℝ} (hp : InPhase Ts p t)
    (hk : ∀ v ∈ subWp6 ws Ts.sum (Ts.take p).sum (Ts.getD p 0),
      WrenchOk e ρ (e.mass • (g - v.headAt x)) (e.mass • (-v.tailAt x))) :
    WrenchOk e ρ (e.mass • (g - headCurve ws x (t / Ts.sum))) (e.mass • (-tailCurve ws x (t / Ts.sum))) := by
  obtain ⟨u, u0, u1, rfl, hlt⟩ := inPhase_param hpos hp
  have hne : ws ≠ [] := by rw [← List.length_pos_iff]; omega
  rw [← subWp6_head ws hne hT hlt, ← subWp6_tail ws hne hT hlt]
  refine wrenchOk_bez _ _ _ _ _ _ _ u0 u1 fun i hi => ?_
  obtain ⟨v, hv, hva⟩ := mem_getD (subWp6 ws Ts.sum (Ts.take p).sum (Ts.getD p 0)) i
    (by rw [subWp6_length]; omega)
  rw [hva, hva]
  exact hk v hv

/-- C22, wrench part, all seven sets: with the double description every solution keeps the wrench of the
wrench waypoints admissible, with margin, at every instant of every phase. -/
theorem C22_wrench_every_instant (κ : ℝ) (pData : ProblemData) (Ts : List ℝ) (g : V3)
    (h : AcceptedC pData Ts g) (hr : pData.representation = DOUBLE_DESCRIPTION)
    (S : ContSystem) (hS : computeConstraintsContinuous κ pData Ts = .ok S) (y : ℕ → ℝ)
    (hy : Sat S.A S.b y) :
    ∃ ws, computeWwaypoints pData.flag pData.contacts pData.bc Ts.sum = .ok ws ∧
      ∀ p t, InPhase Ts p t → AtPhase pData.contacts p fun _ e =>
        WrenchOk e pData.reduce_h (e.mass • (g - headCurve ws (first3 y) (t / Ts.sum)))
          (e.mass • (-tailCurve ws (first3 y) (t / Ts.sum))) := by
  obtain ⟨ct, e, pts, ws, S', R⟩ := cont_raw κ pData Ts g h
  have hSS := R.hS
  rw [hS] at hSS
  cases hSS
  refine ⟨ws, R.hws, fun p t hp => ⟨ct p, e p, R.hct p hp.1, R.he p hp.1, ?_⟩⟩
  exact wrench_along h.pos h.total R.hw2 _ _ g _ hp (((R.kin y).mp hy p hp.1).2.1 hr)

/-- A half-space that contains the control points of the sub-curves of the position contains the curve. -/
theorem half_along {pData : ProblemData} {Ts : List ℝ} (hpos : ∀ T ∈ Ts, 0 < T) (hT : 0 < Ts.sum)
    (hf : pData.flag ∈ comFlags) (pts : List V3)
    (hpts : computeConstantWaypoints pData.flag pData.bc Ts.sum = .ok pts) (hlen : pts.length = degreeOf pData.flag + 1)
    (hz : ∀ i < pts.length, i ∉ freeSlots pData.flag → ∃ k, 1e-12 < |nth pts i k|) (x : V3) (q : V3 × ℝ)
    {p : ℕ} {t : ℝ} (hp : InPhase Ts p t)
    (hk : ∀ co ∈ subCoefs (symCoefs pts) Ts.sum (Ts.take p).sum (Ts.getD p 0), dot q.1 (co.at x) ≤ q.2) :
    dot q.1 (curve (degreeOf pData.flag) (fill pData.flag (nth pts) x) Ts.sum t) ≤ q.2 := by
  obtain ⟨u, u0, u1, rfl, hlt⟩ := inPhase_param hpos hp
  have hsl : (symCoefs pts).length - 1 = degreeOf pData.flag := by
    rw [symCoefs, List.length_map, hlen]; rfl
  have hsne : symCoefs pts ≠ [] := by
    rw [← List.length_pos_iff, symCoefs, List.length_map, hlen]; omega
  have e1 := subCoefs_bez (symCoefs pts) hsne (D := Ts.getD p 0) hT hlt x u
  rw [hsl] at e1
  have e2 : curve (degreeOf pData.flag) (fill pData.flag (nth pts) x) Ts.sum
      ((Ts.take p).sum + u * Ts.getD p 0)
      = bez (degreeOf pData.flag) (fun i => ((symCoefs pts).map (·.at x)).getD i 0)
          (((Ts.take p).sum + u * Ts.getD p 0) / Ts.sum) := by
    unfold curve
    refine bez_congr fun i hi => ?_
    rw [symCoefs_fill pData.flag hf pData.bc Ts.sum pts hpts hz x i (by omega)]
  rw [e2, ← e1]
  refine C55_half_space _ _ q.1 q.2 u u0 u1 fun i hi => ?_
  obtain ⟨v, hv, hva⟩ := mem_getD (subCoefs (symCoefs pts) Ts.sum (Ts.take p).sum (Ts.getD p 0))
    i (by rw [subCoefs_length, symCoefs, List.length_map, hlen]; omega)
  rw [hva]
  exact hk v hv

/-- C22, kinematic part: every solution keeps the centre of mass inside the kinematic polytope of the
phase at every instant, with either representation, provided no constant waypoint is (nearly) the
origin (needed, see `C22_refuted_zero`). -/
theorem C22_kinematics_every_instant (κ : ℝ) (pData : ProblemData) (Ts : List ℝ) (g : V3)
    (h : AcceptedC pData Ts g) (S : ContSystem)
    (hS : computeConstraintsContinuous κ pData Ts = .ok S) (y : ℕ → ℝ) (hy : Sat S.A S.b y)
    (pts : List V3) (hpts : computeConstantWaypoints pData.flag pData.bc Ts.sum = .ok pts)
    (hz : ∀ i < pts.length, i ∉ freeSlots pData.flag → ∃ k, 1e-12 < |nth pts i k|)
    (p : ℕ) (t : ℝ) (hp : InPhase Ts p t) :
    AtPhase pData.contacts p fun ct _ =>
      KinOk ct (curve (degreeOf pData.flag) (fill pData.flag (nth pts) (first3 y)) Ts.sum t) := by
  obtain ⟨ct, e, pts', ws, S', R⟩ := cont_raw κ pData Ts g h
  have hSS := R.hS
  rw [hS] at hSS
  cases hSS
  have hpp := R.hpts
  rw [hpts] at hpp
  cases hpp
  refine ⟨ct p, e p, R.hct p hp.1, R.he p hp.1, ?_⟩
  exact fun q hq => half_along h.pos h.total h.flag pts hpts R.hlen hz _ q hp fun co hco =>
    ((R.kin y).mp hy p hp.1).1 co hco q hq

/-- C22. Double description, the five sets with exact wrench waypoints: at every instant of every phase
the physical wrench is admissible with margin and the position reachable. -/
theorem C22_sound (κ : ℝ) (pData : ProblemData) (Ts : List ℝ) (g : V3)
    (h : AcceptedC pData Ts g) (hr : pData.representation = DOUBLE_DESCRIPTION)
    (hf : pData.flag ∈ [11#32, 19#32, 27#32, 7#32, 15#32])
    (S : ContSystem) (hS : computeConstraintsContinuous κ pData Ts = .ok S) (y : ℕ → ℝ)
    (hy : Sat S.A S.b y)
    (pts : List V3) (hpts : computeConstantWaypoints pData.flag pData.bc Ts.sum = .ok pts)
    (hz : ∀ i < pts.length, i ∉ freeSlots pData.flag → ∃ k, 1e-12 < |nth pts i k|) :
    let c := curve (degreeOf pData.flag) (fill pData.flag (nth pts) (first3 y)) Ts.sum
    ∃ v a, IsDeriv c v ∧ IsDeriv v a ∧ ∀ p t, InPhase Ts p t →
      AtPhase pData.contacts p fun ct e => PhaseOk ct e pData.reduce_h (c t) (a t) := by
  obtain ⟨ws, hws, hW⟩ := C22_wrench_every_instant κ pData Ts g h hr S hS y hy
  have h0 : 0 < pData.contacts.length := by rw [← h.size]; exact List.length_pos_iff.mpr h.ne
  obtain ⟨ct0, rest, hrest⟩ : ∃ ct0 rest, pData.contacts = ct0 :: rest := by
    cases hcs : pData.contacts with
    | nil => rw [hcs] at h0; simp at h0
    | cons a r => exact ⟨a, r, rfl⟩
  obtain ⟨e0, he0, hg0, -⟩ := h.phases ct0 (by rw [hrest]; simp)
  obtain ⟨ws', hw', hx'⟩ := C04_wrench_waypoints_partial pData.flag hf ct0 rest e0 he0 pData.bc
    Ts.sum h.total.ne' pts hpts
  rw [← hrest, hws] at hw'
  cases hw'
  obtain ⟨v, a, hv, ha, hs⟩ := hx' (first3 y)
  refine ⟨v, a, hv, ha, fun p t hp => ?_⟩
  obtain ⟨ct, e, q1, q2, q3⟩ := hW p t hp
  obtain ⟨ct', e', r1, r2, r3⟩ := C22_kinematics_every_instant κ pData Ts g h S hS y hy pts hpts hz p t hp
  rw [q1] at r1
  cases r1
  rw [q2] at r2
  cases r2
  refine ⟨ct, e, q1, q2, ?_, r3⟩
  obtain ⟨e', he', hge, -⟩ := h.phases ct (List.mem_of_getElem? q1)
  rw [q2] at he'
  cases he'
  rw [(hs t).1, (hs t).2, hg0, neg_wrenchTail] at q3
  rw [hge]
  exact q3

/-- C24, continuous formulation: a larger margin never admits a point rejected with a smaller one, and
all non-positive margins are the same. -/
theorem C24_continuous_margin (κ : ℝ) (pData pData' : ProblemData) (Ts : List ℝ) (g : V3) (ρ : ℝ)
    (h : AcceptedC pData Ts g) (hp : pData' = { pData with reduce_h := ρ })
    (hle : pData.reduce_h ≤ ρ ∨ ρ ≤ 0 ∧ pData.reduce_h ≤ 0)
    (S S' : ContSystem) (hS : computeConstraintsContinuous κ pData Ts = .ok S)
    (hS' : computeConstraintsContinuous κ pData' Ts = .ok S') (y : ℕ → ℝ) (hy : Sat S'.A S'.b y) :
    Sat S.A S.b y := by
  have h' : AcceptedC pData' Ts g := by
    subst hp; exact ⟨h.size, h.ne, h.pos, h.flag, h.capt, h.phases⟩
  obtain ⟨ct, e, pts, ws, S1, R⟩ := cont_raw κ pData Ts g h
  obtain ⟨ct', e', pts', ws', S2, R'⟩ := cont_raw κ pData' Ts g h'
  have hSS := R.hS
  rw [hS] at hSS
  cases hSS
  have hSS := R'.hS
  rw [hS'] at hSS
  cases hSS
  subst hp
  have e1 := R'.hpts
  rw [show computeConstantWaypoints _ _ _ = _ from R.hpts] at e1
  cases e1
  have e2 := R'.hws
  rw [show computeWwaypoints _ _ _ _ = _ from R.hws] at e2
  cases e2
  rw [R.kin]
  intro p hp
  have hk := (R'.kin y).mp hy p hp
  have e3 := R'.hct p hp
  rw [show pData.contacts[p]? = _ from R.hct p hp] at e3
  have e3' : ct p = ct' p := by simpa using e3
  have e4 := R'.he p hp
  rw [← e3', R.he p hp] at e4
  have e4' : e p = e' p := by simpa using e4
  rw [e3', e4']
  refine ⟨hk.1, fun hr v hv r hr' => le_trans (hk.2.1 hr v hv r hr') ?_, hk.2.2⟩
  refine mul_le_mul_of_nonneg_right ?_ (by positivity)
  have : max pData.reduce_h 0 ≤ max ρ 0 := by
    rcases hle with hle | ⟨h1, h2⟩
    · exact max_le_max_right _ hle
    · rw [max_eq_right h1, max_eq_right h2]
  exact sub_le_sub_left this _

/-- Bounds on the control points of the sub-curves of the second derivative hold along the curve. -/
theorem acc_along (κ : ℝ) {pData : ProblemData} {Ts : List ℝ} (hpos : ∀ T ∈ Ts, 0 < T) (hT : 0 < Ts.sum)
    (hf : pData.flag ∈ comFlags) (pts : List V3)
    (hpts : computeConstantWaypoints pData.flag pData.bc Ts.sum = .ok pts) (hlen : pts.length = degreeOf pData.flag + 1)
    (hz : ∀ i < pts.length, i ∉ freeSlots pData.flag → ∃ k, 1e-12 < |nth pts i k|) (x : V3) (B : ℝ)
    (hk : ∀ p < Ts.length, ∀ co ∈ subCoefs (secondDeriv κ (symCoefs pts)) Ts.sum (Ts.take p).sum (Ts.getD p 0),
      ∀ k, |co.at x k| ≤ B) :
    ∃ v a, IsDeriv (curve (degreeOf pData.flag) (fill pData.flag (nth pts) x) Ts.sum) v ∧
      IsDeriv v a ∧ ∀ p t, InPhase Ts p t → ∀ k, |κ * Ts.sum ^ 2 * a t k| ≤ B := by
  have hdeg : ∃ n, degreeOf pData.flag = n + 2 := by
    have := hf
    simp only [comFlags, List.mem_cons, List.not_mem_nil, or_false] at this
    rcases this with e | e | e | e | e | e | e <;> rw [e]
    exacts [⟨1, by decide⟩, ⟨1, by decide⟩, ⟨2, by decide⟩, ⟨1, by decide⟩, ⟨2, by decide⟩,
      ⟨3, by decide⟩, ⟨4, by decide⟩]
  obtain ⟨n, hn⟩ := hdeg
  set P := (symCoefs pts).map (·.at (x)) with hP
  have hPl : P.length = n + 3 := by rw [hP, List.length_map, symCoefs, List.length_map, hlen, hn]
  have ec : curve (degreeOf pData.flag) (fill pData.flag (nth pts) (x)) Ts.sum
      = curve (n + 2) (fun i => P.getD i 0) Ts.sum := by
    funext s
    unfold curve
    rw [hn]
    refine bez_congr fun i hi => ?_
    rw [symCoefs_fill pData.flag hf pData.bc Ts.sum pts hpts hz (x) i (by omega)]
  obtain ⟨v, hv, ha⟩ := curve_second P n hPl Ts.sum
  rw [ec]
  refine ⟨v, _, hv, ha, fun p t hp k => ?_⟩
  obtain ⟨u, u0, u1, rfl, hlt⟩ := inPhase_param hpos hp
  have hdl : (secondDeriv κ (symCoefs pts)).length = n + 1 := by
    rw [secondDeriv_length, symCoefs, List.length_map, hlen, hn]; rfl
  have e1 := subCoefs_bez (secondDeriv κ (symCoefs pts)) (by rw [← List.length_pos_iff]; omega)
    (D := Ts.getD p 0) hT hlt (x) u
  rw [hdl, Nat.add_sub_cancel, secondDeriv_at] at e1
  have e2 : bez n (fun i => ((derivCtrl (derivCtrl P)).map (κ • ·)).getD i 0)
      (((Ts.take p).sum + u * Ts.getD p 0) / Ts.sum)
      = κ • bez n (fun i => (derivCtrl (derivCtrl P)).getD i 0)
          (((Ts.take p).sum + u * Ts.getD p 0) / Ts.sum) := by
    rw [← bez_smul]
    refine bez_congr fun i hi => ?_
    have hi' : i < (derivCtrl (derivCtrl P)).length := by
      rw [derivCtrl_length, derivCtrl_length]; omega
    simp [List.getD, hi']
  rw [← hP, e2] at e1
  have e3 : κ * Ts.sum ^ 2 * ((Ts.sum ^ 2)⁻¹ • bez n (fun i => (derivCtrl (derivCtrl P)).getD i 0)
          (((Ts.take p).sum + u * Ts.getD p 0) / Ts.sum)) k
      = bez n (fun i => ((subCoefs (secondDeriv κ (symCoefs pts)) Ts.sum (Ts.take p).sum
          (Ts.getD p 0)).map (·.at (x))).getD i 0) u k := by
    rw [e1]
    simp only [Pi.smul_apply, smul_eq_mul]
    have : Ts.sum ^ 2 ≠ 0 := by positivity
    field_simp
  rw [e3, bez_apply]
  have hb : ∀ i ≤ n, |((subCoefs (secondDeriv κ (symCoefs pts)) Ts.sum (Ts.take p).sum
      (Ts.getD p 0)).map (·.at (x))).getD i 0 k| ≤ B := by
    intro i hi
    obtain ⟨w, hw, hwa⟩ := mem_getD (subCoefs (secondDeriv κ (symCoefs pts)) Ts.sum (Ts.take p).sum
      (Ts.getD p 0)) i (by rw [subCoefs_length, hdl]; omega)
    rw [hwa]
    exact hk p hp.1 w hw k
  rw [abs_le]
  exact ⟨le_bez u0 u1 fun i hi => (abs_le.mp (hb i hi)).1, bez_le u0 u1 fun i hi => (abs_le.mp (hb i hi)).2⟩


/-- C25, continuous formulation: at every time the second derivative of the trajectory, times the factor
`κ T ^ 2`, is bounded by the maximal acceleration; `κ` is the factor carried by the control points of
the derivative curve of the library. The bound is enforced whether or not it is requested. -/
theorem C25_every_instant (κ : ℝ) (pData : ProblemData) (Ts : List ℝ) (g : V3)
    (h : AcceptedC pData Ts g) (S : ContSystem)
    (hS : computeConstraintsContinuous κ pData Ts = .ok S) (y : ℕ → ℝ) (hy : Sat S.A S.b y)
    (pts : List V3) (hpts : computeConstantWaypoints pData.flag pData.bc Ts.sum = .ok pts)
    (hz : ∀ i < pts.length, i ∉ freeSlots pData.flag → ∃ k, 1e-12 < |nth pts i k|) :
    ∃ v a, IsDeriv (curve (degreeOf pData.flag) (fill pData.flag (nth pts) (first3 y)) Ts.sum) v ∧
      IsDeriv v a ∧ ∀ p t, InPhase Ts p t → ∀ k,
        |κ * Ts.sum ^ 2 * a t k| ≤ pData.maxAcceleration := by
  obtain ⟨ct, e, pts', ws, S', R⟩ := cont_raw κ pData Ts g h
  have hSS := R.hS
  rw [hS] at hSS
  cases hSS
  have hpp := R.hpts
  rw [hpts] at hpp
  cases hpp
  exact acc_along κ h.pos h.total h.flag pts hpts R.hlen hz _ _ fun p hp => ((R.kin y).mp hy p hp).2.2

end Verif
