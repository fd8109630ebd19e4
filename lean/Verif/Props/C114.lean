import Verif.Props.C110
import Verif.Lemmas.FpPoints

/-!
# C114: the continuous formulation and the origin of the frame
-/

namespace Verif
open Matrix

/-! ## Control points -/

/-- A Bernstein sum that vanishes everywhere has no control point other than zero. -/
theorem bez_zero_iff {F : Type} [NormedAddCommGroup F] [NormedSpace ℝ F] (n : ℕ) (P : ℕ → F) (h : ∀ t, bez n P t = 0) : ∀ i ≤ n, P i = 0 := by
  induction n generalizing P with
  | zero =>
    intro i hi
    obtain rfl : i = 0 := by omega
    simpa [bez_zero] using h 0
  | succ n ih =>
    have h0 : P 0 = 0 := by
      have := h 0
      rwa [bez_at_zero] at this
    have hd : ∀ t, bez n (fun i => P (i + 1) - P i) t = 0 := by
      intro t
      have h1 := bez_hasDerivAt n P t
      have h2 : HasDerivAt (bez (n + 1) P) 0 t := by
        rw [show bez (n + 1) P = fun _ => 0 from funext h]
        exact hasDerivAt_const _ _
      have h3 := h1.unique h2
      have hn : ((n : ℝ) + 1) ≠ 0 := by positivity
      exact (smul_eq_zero.mp h3).resolve_left hn
    have hs := ih _ hd
    intro i
    induction i with
    | zero => intro _; exact h0
    | succ i hi =>
      intro hle
      have := hs i (by omega)
      rw [hi (by omega), sub_zero] at this
      exact this

/-- Equal curves of the same degree have the same control points. -/
theorem bez_inj {F : Type} [NormedAddCommGroup F] [NormedSpace ℝ F] (n : ℕ) (P Q : ℕ → F) (h : ∀ t, bez n P t = bez n Q t) : ∀ i ≤ n, P i = Q i := by
  intro i hi
  have := bez_zero_iff n (fun i => P i - Q i) (fun t => by rw [bez_sub, h, sub_self]) i hi
  exact sub_eq_zero.mp this

/-- An affine relation between three lists of control points is inherited by the sub-curves. -/
theorem extractCtrl_affine (f : V3 →ₗ[ℝ] V3) (w : V3) (P P' Q : List V3) (hl : P'.length = P.length) (hq : Q.length = P.length)
    (h : ∀ i < P.length, P'.getD i 0 = P.getD i 0 + f (Q.getD i 0) + w) (a s : ℝ) :
    ∀ k < P.length, (extractCtrl P' a s).getD k 0 = (extractCtrl P a s).getD k 0 + f ((extractCtrl Q a s).getD k 0) + w := by
  intro k hk
  have e : ∀ R : List V3, R.length = P.length → (extractCtrl R a s).getD k 0
      = bez k (fun j => bez (P.length - 1 - j) (fun i => R.getD (j + i) 0) a) s := by
    intro R hR
    simp [extractCtrl, List.getD, hR, hk]
  rw [e P' hl, e P rfl, e Q hq, bez_map, ← bez_add]
  have hw : w = bez k (fun _ => w) s := (bez_const k w s).symm
  conv_rhs => rw [hw, ← bez_add]
  refine bez_congr fun j hj => ?_
  rw [bez_map, ← bez_add]
  have hw : w = bez (P.length - 1 - j) (fun _ => w) a := (bez_const _ w a).symm
  conv_rhs => rw [hw, ← bez_add]
  exact bez_congr fun i hi => h (j + i) (by omega)

theorem derivCtrl_shift (P P' : List V3) (p : V3) (hl : P'.length = P.length)
    (h : ∀ i < P.length, P'.getD i 0 = P.getD i 0 + p) : derivCtrl P' = derivCtrl P := by
  apply List.ext_getElem
  · simp [derivCtrl, hl]
  intro i h1 h2
  simp only [derivCtrl, List.length_zipWith, List.length_tail] at h1 h2
  have q1 := h i (by omega)
  have q2 := h (i + 1) (by omega)
  simp only [List.getD, List.getElem?_eq_getElem (show i < P.length by omega), List.getElem?_eq_getElem (show i < P'.length by omega),
    List.getElem?_eq_getElem (show i + 1 < P.length by omega), List.getElem?_eq_getElem (show i + 1 < P'.length by omega),
    Option.getD_some] at q1 q2
  simp only [derivCtrl, List.getElem_zipWith, List.getElem_tail, q1, q2, hl]
  congr 1
  abel

/-- A property of all values of a list, by positions. -/
theorem forall_at {α : Type} (l : List α) (f f' : α → V3) (Q : V3 → V3 → Prop) :
    (∀ a ∈ l, Q (f a) (f' a)) ↔ ∀ i < l.length, Q ((l.map f).getD i 0) ((l.map f').getD i 0) := by
  have e : ∀ f : α → V3, ∀ i (hi : i < l.length), (l.map f).getD i 0 = f l[i] := by
    intro f i hi
    simp [List.getD, hi]
  constructor
  · intro h i hi
    rw [e f i hi, e f' i hi]
    exact h _ (List.getElem_mem hi)
  · intro h v hv
    obtain ⟨i, hi, rfl⟩ := List.mem_iff_getElem.mp hv
    have := h i hi
    rwa [e f i hi, e f' i hi] at this

/-! ## The wrench waypoints -/

theorem getElem!_map_lt (ws : List Wp6) (f : Wp6 → V3) (i : ℕ) (hi : i < ws.length) : (ws.map f).getD i 0 = f ws[i]! := by
  simp [List.getD, hi]

/-- The wrench waypoints of the moved problem at the moved point. -/
theorem MovedProblem.wrenches {p : V3} {d d' : ProblemData} (hm : MovedProblem p d d') {κ : ℝ} {Ts : List ℝ} {g : V3}
    (h : AcceptedC d Ts g) (h' : AcceptedC d' Ts g) (hf : d.flag ∈ [11#32, 19#32, 27#32, 7#32, 15#32])
    {ct ct' : ℕ → ContactData} {e e' : ℕ → Equilibrium} {pts pts' : List V3} {ws ws' : List Wp6} {S S' : ContSystem}
    (R : ContRaw κ d Ts g ct e pts ws S) (R' : ContRaw κ d' Ts g ct' e' pts' ws' S') (x : V3) :
    ws'.length = ws.length ∧ ∀ i < ws.length, (ws'.map (·.headAt (x + p))).getD i 0 = (ws.map (·.headAt x)).getD i 0 ∧
      (ws'.map (·.tailAt (x + p))).getD i 0
        = (ws.map (·.tailAt x)).getD i 0 + cr p ((ws.map (·.headAt x)).getD i 0) + -cr p g := by
  have h0 : 0 < Ts.length := List.length_pos_iff.mpr h.ne
  obtain ⟨c0, r0, e1⟩ : ∃ c0 r0, d.contacts = c0 :: r0 := by
    cases hcs : d.contacts with
    | nil => have := R.hct 0 h0; rw [hcs] at this; simp at this
    | cons a r => exact ⟨a, r, rfl⟩
  obtain ⟨c0', r0', e1'⟩ : ∃ c0 r0, d'.contacts = c0 :: r0 := by
    cases hcs : d'.contacts with
    | nil => have := R'.hct 0 h0; rw [hcs] at this; simp at this
    | cons a r => exact ⟨a, r, rfl⟩
  obtain ⟨q, hq, hg, -⟩ := h.phases c0 (by rw [e1]; simp)
  obtain ⟨q', hq', hg', -⟩ := h'.phases c0' (by rw [e1']; simp)
  have hpts := R.hpts
  have hpts' := R'.hpts
  have hws := R.hws
  have hws' := R'.hws
  rw [hm.flag, hm.bc] at hpts'
  rw [e1] at hws
  rw [hm.flag, hm.bc, e1'] at hws'
  have hlen : ws'.length = ws.length := by
    obtain ⟨es, m1, m2⟩ := wws_val h.flag hq hpts hws
    obtain ⟨es', m1', m2'⟩ := wws_val h.flag hq' hpts' hws'
    rw [m1] at m1'
    cases m1'
    rw [← m2 d.bc 0, ← m2' d.bc 0]
    simp
  obtain ⟨w1, w2, w3⟩ := C04_wrench_waypoints_partial d.flag hf c0 r0 q hq d.bc Ts.sum h.total.ne' pts hpts
  obtain ⟨w1', w2', w3'⟩ := C04_wrench_waypoints_partial d.flag hf c0' r0' q' hq' _ Ts.sum h.total.ne' pts' hpts'
  rw [hws] at w2
  cases w2
  rw [hws'] at w2'
  cases w2'
  obtain ⟨v, a, hv, ha, hs⟩ := w3 x
  obtain ⟨v', a', hv', ha', hs'⟩ := w3' (x + p)
  have hc := curve_translate d.flag h.flag d.bc Ts.sum p x pts pts' hpts hpts'
  have hv2 : IsDeriv (curve (degreeOf d.flag) (fill d.flag (nth pts') (x + p)) Ts.sum) v := by
    rw [funext hc]
    exact fun s => (hv s).add_const p
  have q1 := deriv_unique hv' hv2
  subst q1
  have q2 := deriv_unique ha' ha
  subst q2
  have hT := h.total.ne'
  have H1 : ∀ u, headCurve ws' (x + p) u = headCurve ws x u := by
    intro u
    have a1 := (hs (u * Ts.sum)).1
    have a2 := (hs' (u * Ts.sum)).1
    rw [mul_div_cancel_right₀ _ hT] at a1 a2
    rw [a1, a2]
  have H2 : ∀ u, tailCurve ws' (x + p) u = tailCurve ws x u + cr p (headCurve ws x u) + -cr p g := by
    intro u
    have a0 := (hs (u * Ts.sum)).1
    have a1 := (hs (u * Ts.sum)).2
    have a2 := (hs' (u * Ts.sum)).2
    rw [mul_div_cancel_right₀ _ hT] at a0 a1 a2
    rw [a0, a1, a2, hc, hg, hg']
    ext k
    fin_cases k <;> simp [wrenchTail, cr, cross_apply] <;> ring
  unfold headCurve tailCurve at H2
  unfold headCurve at H1
  rw [hlen] at H1 H2
  refine ⟨hlen, fun i hi => ?_⟩
  rw [getElem!_map_lt _ _ _ hi, getElem!_map_lt _ _ _ (hlen ▸ hi), getElem!_map_lt _ _ _ hi, getElem!_map_lt _ _ _ (hlen ▸ hi)]
  refine ⟨bez_inj _ _ _ H1 i (by omega), ?_⟩
  refine bez_inj (ws.length - 1) (fun i => (ws'[i]!).tailAt (x + p)) (fun i => (ws[i]!).tailAt x + cr p ((ws[i]!).headAt x) + -cr p g) (fun u => ?_) i (by omega)
  rw [H2, bez_add, bez_const, bez_add]
  congr 2
  exact bez_map (crossProduct p) _ _ _

/-! ## The rows -/

theorem moved_row' (p f τ : V3) (m μ : ℝ) (u v : V3) :
    dot (μ • (u + cr p v)) (m • f) + dot (μ • v) (m • (τ + cr p f)) = μ * (dot u (m • f) + dot v (m • τ)) := by
  simp [dot, cr, cross_apply, vecHead, vecTail]
  ring

/-- Without a margin, a wrench is admissible for the moved cone when the moved wrench is. -/
theorem MovedEquilibrium.wrenchOk {p : V3} {e e' : Equilibrium} (h : MovedEquilibrium p e e') {ρ : ℝ} (hρ : ρ ≤ 0) (f τ : V3) :
    WrenchOk e' ρ (e'.mass • f) (e'.mass • (τ + cr p f)) ↔ WrenchOk e ρ (e.mass • f) (e.mass • τ) := by
  unfold WrenchOk WrenchRowOk
  rw [h.mass, max_eq_right hρ]
  have hp := h.poly
  generalize e.poly = L at hp
  generalize e'.poly = L' at hp
  induction hp with
  | nil => simp
  | @cons r r' l l' hr _ ih =>
    obtain ⟨b, b', μ, hμ, he⟩ := hr
    rw [List.forall_mem_cons, List.forall_mem_cons, he, b, b']
    refine and_congr ?_ ih
    dsimp only
    rw [moved_row', sub_zero, zero_mul, zero_mul]
    constructor
    · intro q
      nlinarith
    · intro q
      nlinarith

theorem MovedProblem.acceptedC {p : V3} {d d' : ProblemData} (hm : MovedProblem p d d') {Ts : List ℝ} {g : V3} (h : AcceptedC d Ts g)
    (hr : d.representation = DOUBLE_DESCRIPTION) : AcceptedC d' Ts g := by
  have h' := hm.accepted (h.accepted hr)
  refine ⟨h'.size, h'.ne, h'.pos, h'.flag, h'.capt, fun ct' hct' => ?_⟩
  obtain ⟨e, h1, h2⟩ := h'.good ct' hct'
  obtain ⟨i, hi⟩ := List.mem_iff_getElem?.mp hct'
  obtain ⟨ct, hct, hmc⟩ := hm.back i ct' hi
  obtain ⟨_, -, -, hl, -⟩ := h.phases ct (List.mem_of_getElem? hct)
  exact ⟨e, h1.1, h2, by rw [hmc.kin, hmc.Kin]; simp [hl], fun _ => h1⟩

/-- The assembled systems of a problem and of the moved problem. -/
theorem C114_feasible (p : V3) (d d' : ProblemData) (hm : MovedProblem p d d') (κ : ℝ) (Ts : List ℝ) (g : V3)
    (h : AcceptedC d Ts g) (hr : d.representation = DOUBLE_DESCRIPTION) (hf : d.flag ∈ [11#32, 19#32, 27#32, 7#32, 15#32])
    (hρ : d.reduce_h ≤ 0)
    (hz : ∀ q ∈ [d, d'], ∀ pts, computeConstantWaypoints q.flag q.bc Ts.sum = .ok pts →
      ∀ i < pts.length, i ∉ freeSlots q.flag → ∃ k, 1e-12 < |nth pts i k|)
    (S S' : ContSystem) (hS : computeConstraintsContinuous κ d Ts = .ok S) (hS' : computeConstraintsContinuous κ d' Ts = .ok S')
    (y y' : ℕ → ℝ) (hy : first3 y' = first3 y + p) : Sat S'.A S'.b y' ↔ Sat S.A S.b y := by
  have h' := hm.acceptedC h hr
  obtain ⟨ct, e, pts, ws, S1, R⟩ := cont_raw κ d Ts g h
  obtain ⟨ct', e', pts', ws', S1', R'⟩ := cont_raw κ d' Ts g h'
  have q1 := R.hS
  rw [hS] at q1
  cases q1
  have q2 := R'.hS
  rw [hS'] at q2
  cases q2
  rw [R.kin, R'.kin, hy]
  generalize first3 y = x
  obtain ⟨hlen, hw⟩ := hm.wrenches h h' hf R R' x
  have hpts := R.hpts
  have hpts' := R'.hpts
  rw [hm.flag, hm.bc] at hpts'
  have hl : pts'.length = pts.length := by rw [R.hlen, R'.hlen, hm.flag]
  have hP : ∀ i < ((symCoefs pts).map (·.at x)).length, ((symCoefs pts').map (·.at (x + p))).getD i 0
      = ((symCoefs pts).map (·.at x)).getD i 0 + p := by
    intro i hi
    have hi' : i < pts.length := by simpa [symCoefs] using hi
    have z' := hz d' (by simp) pts' R'.hpts
    rw [hm.flag] at z'
    rw [symCoefs_fill d.flag h.flag d.bc Ts.sum pts hpts (hz d (by simp) pts hpts) x i hi',
      symCoefs_fill d.flag h.flag _ Ts.sum pts' hpts' z' (x + p) i (hl ▸ hi')]
    exact fill_translate d.flag h.flag d.bc Ts.sum p x pts pts' hpts hpts' i (by have := R.hlen; omega)
  have hL : ((symCoefs pts').map (·.at (x + p))).length = ((symCoefs pts).map (·.at x)).length := by simp [symCoefs, hl]
  refine forall_congr' fun j => forall_congr' fun hj => ?_
  have hmc : MovedContact p (ct j) (ct' j) := by
    obtain ⟨c, hc, hmc⟩ := hm.at j _ (R.hct j hj)
    rw [R'.hct j hj] at hc
    cases hc
    exact hmc
  have hme : MovedEquilibrium p (e j) (e' j) := by
    obtain ⟨a, b, ha, hb, hab⟩ := hmc.phase
    rw [R.he j hj] at ha
    rw [R'.he j hj] at hb
    cases ha
    cases hb
    exact hab
  refine and_congr ?_ (and_congr ?_ ?_)
  · refine Iff.trans (forall_at _ (fun w : Coefs => w.at (x + p)) (fun w : Coefs => w.at (x + p)) (fun c _ => KinOk (ct' j) c))
      (Iff.trans ?_ (forall_at _ (fun w : Coefs => w.at x) (fun w : Coefs => w.at x) (fun c _ => KinOk (ct j) c)).symm)
    simp only [subCoefs_length, subCoefs_map]
    rw [show (symCoefs pts').length = (symCoefs pts).length by simp [symCoefs, hl]]
    refine forall_congr' fun i => forall_congr' fun hi => ?_
    rw [extractCtrl_affine 0 p _ _ ((symCoefs pts).map (·.at x)) hL rfl (fun i hi => by rw [hP i hi]; simp) _ _ i (by simpa using hi)]
    simp only [LinearMap.zero_apply, add_zero]
    exact hmc.kinOk _
  · rw [hm.repr]
    refine imp_congr_right fun _ => ?_
    refine Iff.trans (forall_at _ (fun w : Wp6 => w.headAt (x + p)) (fun w : Wp6 => w.tailAt (x + p))
        (fun a b => WrenchOk (e' j) d'.reduce_h ((e' j).mass • (g - a)) ((e' j).mass • (-b))))
      (Iff.trans ?_ (forall_at _ (fun w : Wp6 => w.headAt x) (fun w : Wp6 => w.tailAt x)
        (fun a b => WrenchOk (e j) d.reduce_h ((e j).mass • (g - a)) ((e j).mass • (-b)))).symm)
    simp only [subWp6_length, subWp6_map_ctrl (headLin x) (fun w => w.headAt x) (fun _ => rfl),
      subWp6_map_ctrl (tailLin x) (fun w => w.tailAt x) (fun _ => rfl),
      subWp6_map_ctrl (headLin (x + p)) (fun w => w.headAt (x + p)) (fun _ => rfl),
      subWp6_map_ctrl (tailLin (x + p)) (fun w => w.tailAt (x + p)) (fun _ => rfl), hlen, hm.margin]
    refine forall_congr' fun i => forall_congr' fun hi => ?_
    have hl1 : ∀ f f' : Wp6 → V3, (ws'.map f').length = (ws.map f).length := fun f f' => by simp [hlen]
    rw [extractCtrl_affine (crossProduct p) (-cr p g) (ws.map fun w => w.tailAt x) (ws'.map fun w => w.tailAt (x + p))
        (ws.map fun w => w.headAt x) (hl1 _ _) (by simp) (fun i hi => (hw i (by simpa using hi)).2) _ _ i (by simpa using hi),
      extractCtrl_affine 0 0 (ws.map fun w => w.headAt x) (ws'.map fun w => w.headAt (x + p))
        (ws.map fun w => w.headAt x) (hl1 _ _) rfl (fun i hi => by rw [(hw i (by simpa using hi)).1]; simp) _ _ i (by simpa using hi)]
    simp only [LinearMap.zero_apply, add_zero]
    generalize (extractCtrl (ws.map fun w => w.headAt x) _ _).getD i 0 = a
    generalize (extractCtrl (ws.map fun w => w.tailAt x) _ _).getD i 0 = b
    have e3 : -(b + (crossProduct p) a + -cr p g) = -b + cr p (g - a) := by
      simp only [cr, map_sub]
      abel
    rw [e3]
    exact hme.wrenchOk hρ (g - a) (-b)
  · have hd : (secondDeriv κ (symCoefs pts')).map (·.at (x + p)) = (secondDeriv κ (symCoefs pts)).map (·.at x) := by
      rw [secondDeriv_at, secondDeriv_at, derivCtrl_shift _ _ p hL hP]
    refine Iff.trans (forall_at _ (fun w : Coefs => w.at (x + p)) (fun w : Coefs => w.at (x + p))
        (fun c _ => ∀ k, |c k| ≤ d'.maxAcceleration))
      (Iff.trans ?_ (forall_at _ (fun w : Coefs => w.at x) (fun w : Coefs => w.at x)
        (fun c _ => ∀ k, |c k| ≤ d.maxAcceleration)).symm)
    simp only [subCoefs_length, subCoefs_map]
    rw [hd, hm.maxAcc]
    have : (secondDeriv κ (symCoefs pts')).length = (secondDeriv κ (symCoefs pts)).length := by
      simpa using congrArg List.length hd
    rw [this]

/-! ## The planner -/

/-- The minimiser over a convex set of points is unique. -/
theorem minimiser_unique (d : ProblemData) (Ts : List ℝ) (g : V3) (h : Accepted d Ts g)
    (hf : d.flag ∈ [11#32, 19#32, 27#32, 7#32, 15#32]) (l : TTime) (hl : Discretisation Ts l)
    (hc : d.costFunction = DISTANCE_TRAVELED ∨ d.costFunction = ACCELERATION) (A b : Mat) (hcols : A.cols = 3)
    (x c v a x' c' v' a') (hm : Motion d Ts.sum x c v a) (hm' : Motion d Ts.sum x' c' v' a')
    (hs : Sat A b (ext3 x)) (hs' : Sat A b (ext3 x'))
    (hmin : ∀ y cy vy ay, Motion d Ts.sum y cy vy ay → Sat A b (ext3 y) → motionCost d l x a ≤ motionCost d l y ay)
    (hmin' : ∀ y cy vy ay, Motion d Ts.sum y cy vy ay → Sat A b (ext3 y) → motionCost d l x' a' ≤ motionCost d l y ay) :
    x' = x := by
  obtain ⟨k, R, hk, hsc⟩ := C56_scale_exists d Ts g h hf l hl hc
  have hmo := hm
  obtain ⟨pts, hpts, -⟩ := hmo
  obtain ⟨v'', a'', hm''⟩ := motion_exists d Ts.sum pts hpts h.flag h.total.ne' ((1 / 2 : ℝ) • (x + x'))
  have hmid : Sat A b (ext3 ((1 / 2 : ℝ) • (x + x'))) := by
    intro r hr
    have e : ∑ q ∈ Finset.range A.cols, A.e r q * ext3 ((1 / 2 : ℝ) • (x + x')) q
        = 1 / 2 * ∑ q ∈ Finset.range A.cols, A.e r q * ext3 x q + 1 / 2 * ∑ q ∈ Finset.range A.cols, A.e r q * ext3 x' q := by
      rw [Finset.mul_sum, Finset.mul_sum, ← Finset.sum_add_distrib]
      refine Finset.sum_congr rfl fun q _ => ?_
      unfold ext3
      split_ifs
      · simp only [Pi.smul_apply, Pi.add_apply, smul_eq_mul]; ring
      · ring
    rw [e]
    have := hs r hr
    have := hs' r hr
    linarith
  have c1 := hmin _ _ _ _ hm'' hmid
  have c2 := hmin' _ _ _ _ hm'' hmid
  have c3 := hsc.curv _ _ _ _ _ _ _ _ _ _ _ hm hm' hm''
  have c4 : dot (x - x') (x - x') ≤ 0 := by
    by_contra hn
    push Not at hn
    nlinarith [mul_pos hk hn]
  have e : ∀ i, x i = x' i := by
    intro i
    have q0 := mul_self_nonneg ((x - x') 0)
    have q1 := mul_self_nonneg ((x - x') 1)
    have q2 := mul_self_nonneg ((x - x') 2)
    unfold dot at c4
    have : (x - x') i * (x - x') i ≤ 0 := by fin_cases i <;> simp only [Fin.reduceFinMk, Fin.zero_eta, Fin.isValue] <;> linarith
    have := mul_self_eq_zero.mp (le_antisymm this (mul_self_nonneg _))
    simpa [sub_eq_zero] using this
  exact (funext e).symm

/-- The continuous formulation in double description: an optimal point of the inequalities, or none. -/
theorem continuous_points (κ : ℝ) (lib : Lib) (hL : LibOk lib) (he : lib.eps = 0) (d : ProblemData) (Ts : List ℝ) (g : V3)
    (h : AcceptedC d Ts g) (hr : d.representation = DOUBLE_DESCRIPTION) (hf : d.flag ∈ [11#32, 19#32, 27#32, 7#32, 15#32])
    (step : ℝ) (hstep : step ≤ 0) (hc : d.costFunction = DISTANCE_TRAVELED ∨ d.costFunction = ACCELERATION)
    (hlim : ∀ S, computeConstraintsContinuous κ d Ts = .ok S → 2 ^ S.A.rows < lib.maxIter) :
    ∃ S res N, computeConstraintsContinuous κ d Ts = .ok S ∧ S.A.cols = 3 ∧
      (∀ fuel ≥ N, computeCOMTraj κ lib fuel d Ts step SOLVER_QUADPROG = .ok res) ∧
      (res.success = true → ∃ v a, Motion d Ts.sum res.point res.c_of_t.eval v a ∧ Sat S.A S.b (ext3 res.point) ∧
        ∀ y cy vy ay, Motion d Ts.sum y cy vy ay → Sat S.A S.b (ext3 y) →
          motionCost d (computeDiscretizedTimeFixed Ts 7) res.point a ≤ motionCost d (computeDiscretizedTimeFixed Ts 7) y ay) ∧
      (res.success = false → ∀ x, ¬ Sat S.A S.b (ext3 x)) := by
  obtain ⟨S, hS, -, -, -, -, -, -, h7, -⟩ := C21_in_bounds_and_complete κ d Ts g h
  obtain ⟨hcols, q2, q3⟩ := h7 hr
  obtain ⟨res, N, hrun, hsucc, hfail⟩ := continuous_exact κ lib hL he d Ts g h step hstep
    (hc.imp_right fun hc => ⟨hc, fun e => by rw [e] at hf; simp at hf⟩) S hS (by omega)
  have hall : ∀ z, Sat S.A S.b z → AllSat S.A S.b S.D S.d S.minBounds z := by
    intro z hz
    refine ⟨hz, fun r hr => by omega, fun c b hb => ?_⟩
    rw [q3] at hb
    simp at hb
  refine ⟨S, res, N, hS, hcols, hrun, fun hs => ?_, fun hs x hx => ?_⟩
  · obtain ⟨y, hy, hsat, v, a, hmo, hmin⟩ := hsucc hs
    have hz : Sat S.A S.b (ext3 res.point) := by
      intro r hr
      refine le_trans (le_of_eq ?_) (hsat.1 r hr)
      rw [hcols, ← hy]
      simp [Finset.sum_range_succ, ext3, first3]
    refine ⟨v, a, hmo, hz, fun z cz vz az hmz hsz => ?_⟩
    have := hmin (ext3 z) cz vz az (by rw [first3_ext3]; exact hmz) (hall _ hsz)
    rw [hcols] at this
    simpa [first3_ext3] using this
  · rcases hfail hs with q | q | ⟨i, hi, -⟩
    · rw [q3] at q
      exact absurd q (not_le.mpr (by simpa using hlim S hS))
    · exact q _ (hall _ hx)
    · omega

/-- C114. Without a margin and with no constant waypoint at the origin of either frame, the plan of the continuous formulation
does not depend on the origin of the frame. -/
theorem C114_continuous (κ : ℝ) (lib : Lib) (hL : LibOk lib) (he : lib.eps = 0) (p : V3) (d d' : ProblemData)
    (hm : MovedProblem p d d') (Ts : List ℝ) (g : V3) (h : AcceptedC d Ts g) (hr : d.representation = DOUBLE_DESCRIPTION)
    (hf : d.flag ∈ [11#32, 19#32, 27#32, 7#32, 15#32]) (hρ : d.reduce_h ≤ 0) (step : ℝ) (hstep : step ≤ 0)
    (hc : d.costFunction = DISTANCE_TRAVELED ∨ d.costFunction = ACCELERATION)
    (hz : ∀ q ∈ [d, d'], ∀ pts, computeConstantWaypoints q.flag q.bc Ts.sum = .ok pts →
      ∀ i < pts.length, i ∉ freeSlots q.flag → ∃ k, 1e-12 < |nth pts i k|)
    (hlim : ∀ q ∈ [d, d'], ∀ S, computeConstraintsContinuous κ q Ts = .ok S → 2 ^ S.A.rows < lib.maxIter) :
    ∃ res res' N, (∀ fuel ≥ N, computeCOMTraj κ lib fuel d Ts step SOLVER_QUADPROG = .ok res) ∧
      (∀ fuel ≥ N, computeCOMTraj κ lib fuel d' Ts step SOLVER_QUADPROG = .ok res') ∧ MovedResult p res res' := by
  have h' := hm.acceptedC h hr
  obtain ⟨S, res, N, hS, hcols, hrun, hsucc, hfail⟩ := continuous_points κ lib hL he d Ts g h hr hf step hstep hc (hlim d (by simp))
  obtain ⟨S', res', N', hS', hcols', hrun', hsucc', hfail'⟩ := continuous_points κ lib hL he d' Ts g h' (hm.repr.trans hr)
    (hm.flag ▸ hf) step hstep (by rw [hm.cost]; exact hc) (hlim d' (by simp))
  have key : ∀ x, Sat S'.A S'.b (ext3 (x + p)) ↔ Sat S.A S.b (ext3 x) := fun x =>
    C114_feasible p d d' hm κ Ts g h hr hf hρ hz S S' hS hS' _ _ (by rw [first3_ext3, first3_ext3])
  have hsu : res'.success = res.success := by
    cases hq : res.success with
    | true =>
      by_contra hn
      rw [Bool.not_eq_true] at hn
      obtain ⟨v, a, -, q2, -⟩ := hsucc hq
      exact hfail' hn _ ((key _).mpr q2)
    | false =>
      by_contra hn
      rw [Bool.not_eq_false] at hn
      obtain ⟨v, a, -, q2, -⟩ := hsucc' hn
      refine hfail hq (res'.point - p) ((key _).mp ?_)
      rwa [sub_add_cancel]
  have main : res.success = true → res'.point = res.point + p ∧ ∀ t, res'.c_of_t.eval t = res.c_of_t.eval t + p := by
    intro hq
    obtain ⟨v, a, q1, q2, q3⟩ := hsucc hq
    obtain ⟨v', a', r1, r2, r3⟩ := hsucc' (hsu.trans hq)
    have b1 : Motion d Ts.sum (res'.point - p) (fun t => res'.c_of_t.eval t - p) v' a' := by
      rw [hm.motion h.flag h.capt]
      simpa using r1
    have b2 : Sat S.A S.b (ext3 (res'.point - p)) := by
      rw [← key, sub_add_cancel]
      exact r2
    have hx : res'.point - p = res.point := by
      refine minimiser_unique d Ts g (h.accepted hr) hf (computeDiscretizedTimeFixed Ts 7) (Or.inl ⟨7, by norm_num, rfl⟩) hc S.A S.b
        hcols _ _ _ _ _ _ _ _ q1 b1 q2 b2 q3 fun y cy vy ay y1 y2 => ?_
      have := r3 _ _ _ _ ((hm.motion h.flag h.capt _ _ _ _ _).mp y1) ((key _).mpr y2)
      rw [hm.motionCost] at this
      have e := hm.motionCost (computeDiscretizedTimeFixed Ts 7) (res'.point - p) a'
      rw [sub_add_cancel] at e
      rw [← e]
      exact this
    refine ⟨by rw [← hx, sub_add_cancel], fun t => ?_⟩
    rw [hx] at b1
    have := congrFun (motion_unique q1 b1).1 t
    rw [← this, sub_add_cancel]
  exact ⟨res, res', max N N', fun fuel hfuel => hrun fuel (le_trans (le_max_left _ _) hfuel),
    fun fuel hfuel => hrun' fuel (le_trans (le_max_right _ _) hfuel), hsu, fun hq => (main hq).1, fun hq => (main hq).2⟩

/-! ## A waypoint at the origin -/

/-- `originProblem` seen from another point of the x axis. -/
noncomputable def awayProblem : ProblemData :=
  { originProblem with
    contacts := [{ freeContact with Kin := [![1, 0, 0]], kin := [0] }],
    bc := originProblem.bc.translate ![1, 0, 0] }

theorem away_moved : MovedProblem ![1, 0, 0] originProblem awayProblem := by
  refine ⟨.cons ⟨⟨_, _, rfl, rfl, rfl, rfl, rfl, .nil⟩, rfl, ?_, ?_⟩ .nil, rfl, rfl, rfl, rfl, rfl, rfl, rfl⟩
  · simp [dot]
  · simp

theorem away_hz (T : ℝ) (hT : T = 1) (pts : List V3)
    (h : computeConstantWaypoints awayProblem.flag awayProblem.bc T = .ok pts) :
    pts = [![1, 0, 0], ![-1, 0, 0], fun _ => 0, ![-4, 0, 0]] := by
  subst hT
  simp [computeConstantWaypoints, awayProblem, originProblem, BC.translate] at h
  rw [← h]
  simp only [c0_dc0_c1.computeConstantWaypoints]
  refine list4_eq ?_ ?_ ?_ ?_ <;> funext k <;> fin_cases k <;> norm_num

/-- C114, the limit of the claim. A motion which starts at the origin, outside the reachable polytope, is accepted by the
continuous formulation; seen from another origin it is refused. -/
theorem C114_origin_refuted : ∃ M, ∀ maxIter > M, ∃ res res' N,
    MovedProblem ![1, 0, 0] originProblem awayProblem ∧ originProblem.reduce_h ≤ 0 ∧
    (∀ fuel ≥ N, computeCOMTraj 1 (exactLib maxIter) fuel originProblem [1] (-1) SOLVER_QUADPROG = .ok res) ∧
    (∀ fuel ≥ N, computeCOMTraj 1 (exactLib maxIter) fuel awayProblem [1] (-1) SOLVER_QUADPROG = .ok res') ∧
    res.success = true ∧ res'.success = false := by
  have hacc := originProblem_accepted
  have hacc' := away_moved.acceptedC hacc rfl
  obtain ⟨S, y, -, hS, hsat, -⟩ := C22_refuted_zero
  obtain ⟨S', hS', -⟩ := C21_in_bounds_and_complete 1 awayProblem [1] 0 hacc'
  refine ⟨2 ^ S.A.rows + 2 ^ S'.A.rows, fun maxIter hM => ?_⟩
  obtain ⟨S1, res, N, hS1, hcols, hrun, -, hfail⟩ := continuous_points 1 (exactLib maxIter) (exactLib_ok _) rfl originProblem [1] 0 hacc
    rfl (by simp [originProblem]) (-1) (by norm_num) (Or.inr rfl) (by
      intro S2 h2
      rw [hS] at h2
      cases h2
      change _ < maxIter
      have : 0 < 2 ^ S'.A.rows := by positivity
      omega)
  rw [hS] at hS1
  cases hS1
  obtain ⟨S1', res', N', hS1', hcols', hrun', hsucc', -⟩ := continuous_points 1 (exactLib maxIter) (exactLib_ok _) rfl awayProblem [1] 0
    hacc' rfl (by simp [awayProblem, originProblem]) (-1) (by norm_num) (Or.inr rfl) (by
      intro S2 h2
      rw [hS'] at h2
      cases h2
      change _ < maxIter
      have : 0 < 2 ^ S.A.rows := by positivity
      omega)
  refine ⟨res, res', max N N', away_moved, le_rfl, fun fuel hfuel => hrun fuel (le_trans (le_max_left _ _) hfuel),
    fun fuel hfuel => hrun' fuel (le_trans (le_max_right _ _) hfuel), ?_, ?_⟩
  · by_contra hn
    refine hfail (by simpa using hn) (first3 y) fun r hr => ?_
    refine le_trans (le_of_eq ?_) (hsat r hr)
    rw [hcols]
    simp [Finset.sum_range_succ, ext3, first3]
  · by_contra hn
    obtain ⟨v, a, hmo, hs, -⟩ := hsucc' (by simpa using hn)
    obtain ⟨pts, hpts⟩ := C01_answers awayProblem.flag hacc'.flag awayProblem.bc ([1] : List ℝ).sum hacc'.capt
    have e := away_hz _ (by simp) pts hpts
    have hz : ∀ i < pts.length, i ∉ freeSlots awayProblem.flag → ∃ k, 1e-12 < |nth pts i k| := by
      intro i hi hf
      have hi4 : i < 4 := by rw [e] at hi; exact hi
      have hf2 : i ≠ 2 := by
        intro h; apply hf; rw [h]; decide
      rw [e]
      have : i = 0 ∨ i = 1 ∨ i = 3 := by omega
      rcases this with rfl | rfl | rfl <;> exact ⟨0, by norm_num [nth]⟩
    obtain ⟨ct, -, h1, -, h3⟩ := C22_kinematics_every_instant 1 awayProblem [1] 0 hacc' S1' hS1' _ hs pts hpts hz 0 0
      ⟨by simp, by simp, by simp⟩
    rw [curve_zero, e] at h3
    simp only [awayProblem, List.getElem?_cons_zero, Option.some.injEq] at h1
    subst h1
    have := h3 (![1, 0, 0], 0) (by simp)
    have hf : freeSlots awayProblem.flag = [2] := rfl
    simp [fill, hf, nth, dot] at this
    norm_num at this

/-! ## Example -/

/-- The standing robot, without a margin. -/
noncomputable def calmProblem : ProblemData := { standProblem 1 with reduce_h := 0 }

/-- The same, seen from another point of the x axis. -/
noncomputable def calmAway : ProblemData :=
  { calmProblem with
    contacts := calmProblem.contacts.map fun ct => { ct with kin := [3] }
    bc := calmProblem.bc.translate ![1, 0, 0] }

theorem calm_moved : MovedProblem ![1, 0, 0] calmProblem calmAway := by
  have key : ∀ gens, MovedContact ![1, 0, 0] (standContact gens) { standContact gens with kin := [3] } := by
    intro gens
    refine ⟨⟨_, _, rfl, rfl, rfl, rfl, rfl, .cons ⟨rfl, rfl, 1, one_pos, ?_⟩ .nil⟩, rfl, ?_, ?_⟩
    · ext k
      · fin_cases k <;> simp [cr, cross_apply]
      · fin_cases k <;> simp
    · simp [standContact, dot]; norm_num
    · simp [standContact]
  exact ⟨.cons (key _) (.cons (key _) .nil), rfl, rfl, rfl, rfl, rfl, rfl, rfl⟩

theorem calm_accepted : AcceptedC calmProblem [1, 2] ![0, 0, -10] :=
  let h := standProblem_accepted 1
  ⟨h.size, h.ne, h.pos, h.flag, h.capt, h.phases⟩

theorem calmAway_pts (T : ℝ) (pts : List V3)
    (h : computeConstantWaypoints calmAway.flag calmAway.bc T = .ok pts) :
    pts = [![2, 0, 1], ![2, 0, 1], fun _ => 0, ![2, 0, 1]] := by
  simp [computeConstantWaypoints, calmAway, calmProblem, standProblem, BC.translate] at h
  rw [← h]
  simp only [c0_dc0_c1.computeConstantWaypoints]
  refine list4_eq ?_ ?_ ?_ ?_ <;> funext k <;> fin_cases k <;> norm_num

/-- A non-trivial case of C114: the standing robot seen from two points. Both calls succeed. -/
example (κ : ℝ) : ∃ maxIter res res' N,
    (∀ fuel ≥ N, computeCOMTraj κ (exactLib maxIter) fuel calmProblem [1, 2] (-1) SOLVER_QUADPROG = .ok res) ∧
    (∀ fuel ≥ N, computeCOMTraj κ (exactLib maxIter) fuel calmAway [1, 2] (-1) SOLVER_QUADPROG = .ok res') ∧
    res.success = true ∧ res'.success = true ∧ res'.point = res.point + ![1, 0, 0] := by
  have hacc := calm_accepted
  have hacc' := calm_moved.acceptedC hacc rfl
  obtain ⟨S0, hS0, -⟩ := C21_in_bounds_and_complete κ _ _ _ (standProblem_accepted 1)
  obtain ⟨S, hS, -⟩ := C21_in_bounds_and_complete κ _ _ _ hacc
  obtain ⟨S', hS', -⟩ := C21_in_bounds_and_complete κ _ _ _ hacc'
  have hp : 0 < 2 ^ S.A.rows := by positivity
  have hp' : 0 < 2 ^ S'.A.rows := by positivity
  have hlim : ∀ q ∈ [calmProblem, calmAway], ∀ S1, computeConstraintsContinuous κ q [1, 2] = .ok S1 →
      2 ^ S1.A.rows < (exactLib (2 ^ S.A.rows + 2 ^ S'.A.rows)).maxIter := by
    intro q hq S1 h1
    change _ < 2 ^ S.A.rows + 2 ^ S'.A.rows
    simp only [List.mem_cons, List.not_mem_nil, or_false] at hq
    rcases hq with rfl | rfl
    · rw [hS] at h1
      cases h1
      omega
    · rw [hS'] at h1
      cases h1
      omega
  obtain ⟨res, res', N, r1, r2, r3⟩ := C114_continuous κ (exactLib (2 ^ S.A.rows + 2 ^ S'.A.rows)) (exactLib_ok _) rfl _ _ _ calm_moved _ _
    hacc rfl (by simp [calmProblem, standProblem]) le_rfl (-1) (by norm_num) (Or.inr rfl) (by
      intro q hq pts hpts
      simp only [List.mem_cons, List.not_mem_nil, or_false] at hq
      rcases hq with rfl | rfl
      · exact standProblem_hz 1 _ pts hpts
      · have e := calmAway_pts _ pts hpts
        intro i hi hf
        have hi4 : i < 4 := by rw [e] at hi; exact hi
        have hf2 : i ≠ 2 := by
          intro h; apply hf; rw [h]; decide
        rw [e]
        have : i = 0 ∨ i = 1 ∨ i = 3 := by omega
        rcases this with rfl | rfl | rfl <;> exact ⟨0, by norm_num [nth]⟩) hlim
  obtain ⟨S1, res0, N0, hS1, hcols, hrun, -, hfail⟩ := continuous_points κ (exactLib (2 ^ S.A.rows + 2 ^ S'.A.rows)) (exactLib_ok _) rfl
    calmProblem [1, 2] _ hacc rfl (by simp [calmProblem, standProblem]) (-1) (by norm_num) (Or.inr rfl)
    (hlim _ (by simp))
  rw [hS] at hS1
  cases hS1
  have e := hrun (max N N0) (le_max_right _ _)
  rw [r1 (max N N0) (le_max_left _ _)] at e
  cases e
  have hs : res.success = true := by
    by_contra hn
    have h0 := C24_continuous_margin κ calmProblem (standProblem 1) [1, 2] _ 0.1 hacc rfl
      (Or.inl (show (0 : ℝ) ≤ 0.1 by norm_num)) S S0 hS hS0 _ (standProblem_sat κ 1 S0 hS0)
    refine hfail (by simpa using hn) (first3 standSolution) fun r hr => ?_
    refine le_trans (le_of_eq ?_) (h0 r hr)
    rw [hcols]
    simp [Finset.sum_range_succ, ext3, first3]
  exact ⟨_, res, res', N, r1, r2, hs, r3.success.trans hs, r3.point hs⟩

end Verif
