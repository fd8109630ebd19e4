import Verif.Props.C109All
import Verif.Props.C115

/-!
# C121: the continuous formulation and the axes, mass, scale and units

All seven constraint sets. The continuous formulation bounds the coordinates of the acceleration in every call, and looks for the
free waypoints by comparing coordinates with a constant, so the axes may only be exchanged or turned by quarter turns and a
change of units must not move a waypoint across that constant.
-/

namespace Verif
open Matrix

/-! ## The call, in terms of its system -/

theorem cont_verdict (κ : ℝ) (lib : Lib) (hL : LibOk lib) (he : lib.eps = 0) (d : ProblemData) (Ts : List ℝ) (g : V3)
    (h : AcceptedC d Ts g) (hr : d.representation = DOUBLE_DESCRIPTION) (step : ℝ) (hstep : step ≤ 0)
    (hc : d.costFunction = DISTANCE_TRAVELED ∨ d.costFunction = ACCELERATION ∧ d.flag ≠ 63#32) :
    ∃ S res N, computeConstraintsContinuous κ d Ts = .ok S ∧
      (∀ fuel ≥ N, computeCOMTraj κ lib fuel d Ts step SOLVER_QUADPROG = .ok res) ∧
      SysVerdict d Ts.sum (computeDiscretizedTimeFixed Ts 7) S.A S.b (lib.maxIter ≤ 2 ^ S.A.rows) res := by
  obtain ⟨S, hS, -, -, -, -, -, -, h7, -⟩ := C21_in_bounds_and_complete κ d Ts g h
  obtain ⟨hcols, q2, q3⟩ := h7 hr
  obtain ⟨res, N, hrun, hsucc, hfail⟩ := continuous_exact κ lib hL he d Ts g h step hstep hc S hS (by omega)
  have hall : ∀ z, Sat S.A S.b z → AllSat S.A S.b S.D S.d S.minBounds z := by
    intro z hz
    refine ⟨hz, fun r hr => by omega, fun c b hb => ?_⟩
    rw [q3] at hb
    simp at hb
  refine ⟨S, res, N, hS, hrun, fun hs => ?_, fun hs => ?_⟩
  · obtain ⟨y, hy, hsat, v, a, hmo, hmin⟩ := hsucc hs
    have hz : Sat S.A S.b (ext3 res.point) := by
      intro r hr
      refine le_trans (le_of_eq ?_) (hsat.1 r hr)
      rw [hcols, ← hy]
      simp [Finset.sum_range_succ, ext3, first3]
    refine ⟨hz, v, a, hmo, fun z cz vz az hmz hsz => ?_⟩
    have := hmin (ext3 z) cz vz az (by rw [first3_ext3]; exact hmz) (hall _ hsz)
    rw [hcols] at this
    simpa [first3_ext3] using this
  · rcases hfail hs with q | q | ⟨i, hi, -⟩
    · rw [q3] at q
      exact Or.inl (by simpa using q)
    · exact Or.inr fun x hx => q _ (hall _ hx)
    · omega

/-! ## Systems related by linear maps -/

theorem getD_times (k : ℝ) (Ts : List ℝ) (p : ℕ) : (Ts.map (k * ·)).getD p 0 = k * Ts.getD p 0 := by
  rw [List.getD_eq_getElem?_getD, List.getD_eq_getElem?_getD, List.getElem?_map]
  cases Ts[p]? <;> simp

/-- If the control points of two problems correspond under linear maps that preserve the requirements, so do the solutions. -/
theorem ContRaw.transport {κ κ' : ℝ} {d d' : ProblemData} {Ts : List ℝ} {k : ℝ} (hk : 0 < k) {g g' : V3} {ct ct' : ℕ → ContactData}
    {e e' : ℕ → Equilibrium} {pts pts' : List V3} {ws ws' : List Wp6} {S S' : ContSystem}
    (Q : ContRaw κ d Ts g ct e pts ws S) (Q' : ContRaw κ' d' (Ts.map (k * ·)) g' ct' e' pts' ws' S')
    (hr : d.representation = DOUBLE_DESCRIPTION) (x x' : V3) (L Lh Lt La : V3 →ₗ[ℝ] V3)
    (hp : (symCoefs pts').map (·.at x') = ((symCoefs pts).map (·.at x)).map L) (ha : ∀ v, κ' • L v = La (κ • v))
    (hw : ws'.map (fun w => (w.headAt x', w.tailAt x')) = (ws.map fun w => (w.headAt x, w.tailAt x)).map (Lh.prodMap Lt))
    (kin : ∀ p < Ts.length, ∀ c, KinOk (ct p) c → KinOk (ct' p) (L c))
    (wr : ∀ p < Ts.length, ∀ f τ, WrenchOk (e p) d.reduce_h ((e p).mass • (g - f)) ((e p).mass • (-τ)) →
      WrenchOk (e' p) d'.reduce_h ((e' p).mass • (g' - Lh f)) ((e' p).mass • (-Lt τ)))
    (box : ∀ v, (∀ j, |v j| ≤ d.maxAcceleration) → ∀ j, |La v j| ≤ d'.maxAcceleration)
    (hx : Sat S.A S.b (ext3 x)) : Sat S'.A S'.b (ext3 x') := by
  rw [Q'.kin, first3_ext3]
  intro p hp'
  rw [List.length_map] at hp'
  obtain ⟨k1, k2, k3⟩ := (Q.kin _).mp hx p hp'
  rw [first3_ext3] at k1 k2 k3
  have e1 : (Ts.map (k * ·)).sum = k * Ts.sum := units_sum k Ts
  have e2 : ((Ts.map (k * ·)).take p).sum = k * (Ts.take p).sum := by
    rw [← List.map_take]; exact units_sum k _
  rw [e1, e2, getD_times]
  have r1 : ∀ t, k * t / (k * Ts.sum) = t / Ts.sum := fun t => mul_div_mul_left _ _ hk.ne'
  refine ⟨fun co hco => ?_, fun _ v hv => ?_, fun co hco => ?_⟩
  · have m : co.at x' ∈ (subCoefs (symCoefs pts') (k * Ts.sum) (k * (Ts.take p).sum) (k * Ts.getD p 0)).map (·.at x') :=
      List.mem_map_of_mem hco
    rw [subCoefs_map, hp, ← mul_add, r1, r1, ← extractCtrl_map, ← subCoefs_map] at m
    obtain ⟨q, hq, hqe⟩ := List.mem_map.mp m
    obtain ⟨co0, hco0, rfl⟩ := List.mem_map.mp hq
    rw [← hqe]
    exact kin p hp' _ (k1 co0 hco0)
  · have m : (v.headAt x', v.tailAt x') ∈ (subWp6 ws' (k * Ts.sum) (k * (Ts.take p).sum) (k * Ts.getD p 0)).map
        (fun w => (w.headAt x', w.tailAt x')) := List.mem_map_of_mem (f := fun w : Wp6 => (w.headAt x', w.tailAt x')) hv
    rw [subWp6_pair, hw, ← mul_add, r1, r1, ← extractCtrl_map, ← subWp6_pair] at m
    obtain ⟨q, hq, hqe⟩ := List.mem_map.mp m
    obtain ⟨w0, hw0, rfl⟩ := List.mem_map.mp hq
    have hqe1 := congrArg Prod.fst hqe
    have hqe2 := congrArg Prod.snd hqe
    simp only [LinearMap.prodMap_apply] at hqe1 hqe2
    rw [← hqe1, ← hqe2]
    exact wr p hp' _ _ (k2 hr w0 hw0)
  · have m : co.at x' ∈ (subCoefs (secondDeriv κ' (symCoefs pts')) (k * Ts.sum) (k * (Ts.take p).sum) (k * Ts.getD p 0)).map
        (·.at x') := List.mem_map_of_mem hco
    have hs : (secondDeriv κ' (symCoefs pts')).map (·.at x') = ((secondDeriv κ (symCoefs pts)).map (·.at x)).map La := by
      rw [secondDeriv_at, secondDeriv_at, hp, ← derivCtrl_map, ← derivCtrl_map, List.map_map, List.map_map]
      exact List.map_congr_left fun v _ => ha v
    rw [subCoefs_map, hs, ← mul_add, r1, r1, ← extractCtrl_map, ← subCoefs_map] at m
    obtain ⟨q, hq, hqe⟩ := List.mem_map.mp m
    obtain ⟨co0, hco0, rfl⟩ := List.mem_map.mp hq
    rw [← hqe]
    exact box _ (k3 co0 hco0)

theorem pairs_map {ws ws' : List Wp6} {r : Wp6 → Wp6 → Prop} (h : List.Forall₂ r ws ws') (x x' : V3) (L L' : V3 →ₗ[ℝ] V3)
    (h1 : ∀ w w', r w w' → w'.headAt x' = L (w.headAt x)) (h2 : ∀ w w', r w w' → w'.tailAt x' = L' (w.tailAt x)) :
    ws'.map (fun w => (w.headAt x', w.tailAt x')) = (ws.map fun w => (w.headAt x, w.tailAt x)).map (L.prodMap L') := by
  induction h with
  | nil => rfl
  | cons a _ ih => simp only [List.map_cons, ih, h1 _ _ a, h2 _ _ a, LinearMap.prodMap_apply]

theorem symCoefs_map (pts : List V3) (L : V3 →ₗ[ℝ] V3) (x : V3) (hz : ∀ p ∈ pts, (∀ j, |L p j| ≤ 1e-12) ↔ ∀ j, |p j| ≤ 1e-12) :
    (symCoefs (pts.map L)).map (·.at (L x)) = ((symCoefs pts).map (·.at x)).map L := by
  rw [symCoefs_at, symCoefs_at, List.map_map, List.map_map]
  refine List.map_congr_left fun p hp => ?_
  have := hz p hp
  by_cases hq : eigenIsZero p
  · have hq' : eigenIsZero (L p) := this.mpr hq
    simp [symbolicOf, hq, hq', WpB.toCoefs, Coefs.at]
  · have hq' : ¬ eigenIsZero (L p) := fun c => hq (this.mp c)
    simp [symbolicOf, hq, hq', WpB.toCoefs, Coefs.at]

theorem Accepted.acceptedC {d : ProblemData} {Ts : List ℝ} {g : V3} (h : Accepted d Ts g)
    (hk : ∀ ct ∈ d.contacts, ct.Kin.length = ct.kin.length) : AcceptedC d Ts g := by
  refine ⟨h.size, h.ne, h.pos, h.flag, h.capt, fun ct hct => ?_⟩
  obtain ⟨e, he, hg⟩ := h.good ct hct
  exact ⟨e, he.1, hg, hk ct hct, fun _ => he⟩

/-! ## Other axes -/

/-- A change of axes that exchanges the axes or reverses them. -/
def AxesToAxes (R : V3 ≃ₗ[ℝ] V3) : Prop := ∃ σ : Equiv.Perm (Fin 3), ∀ v j, |R v j| = |v (σ j)|

theorem AxesToAxes.inv {R : V3 ≃ₗ[ℝ] V3} (h : AxesToAxes R) : AxesToAxes R.symm := by
  obtain ⟨σ, hσ⟩ := h
  refine ⟨σ.symm, fun v j => ?_⟩
  have := hσ (R.symm v) (σ.symm j)
  simp only [LinearEquiv.apply_symm_apply, Equiv.apply_symm_apply] at this
  exact this.symm

theorem AxesToAxes.box {R : V3 ≃ₗ[ℝ] V3} (h : AxesToAxes R) (v : V3) (M : ℝ) : (∀ j, |R v j| ≤ M) ↔ ∀ j, |v j| ≤ M := by
  obtain ⟨σ, hσ⟩ := h
  constructor
  · intro q j
    have := q (σ.symm j)
    rwa [hσ, Equiv.apply_symm_apply] at this
  · intro q j
    rw [hσ]
    exact q _

theorem RotatedProblem.acceptedC {R : V3 ≃ₗ[ℝ] V3} {d d' : ProblemData} (hm : RotatedProblem R d d') {Ts : List ℝ} {g : V3}
    (h : AcceptedC d Ts g) (hr : d.representation = DOUBLE_DESCRIPTION) : AcceptedC d' Ts (R g) := by
  refine (hm.accepted (h.accepted hr)).acceptedC fun ct' hct' => ?_
  obtain ⟨i, hi, rfl⟩ := List.mem_iff_getElem.mp hct'
  obtain ⟨hl, H⟩ := List.forall₂_iff_get.mp hm.contacts
  have q := H i (by omega) hi
  simp only [List.get_eq_getElem] at q
  obtain ⟨-, -, -, q2, -⟩ := h.phases _ (List.getElem_mem (by omega : i < d.contacts.length))
  rw [q.Kin, q.kin, List.length_map, q2]

/-- The continuous system in the other axes has the turned solutions. -/
theorem RotatedProblem.satC {R : V3 ≃ₗ[ℝ] V3} (hR : Rotation R) (hx : AxesToAxes R) {d d' : ProblemData} (hm : RotatedProblem R d d')
    {κ : ℝ} {Ts : List ℝ} {g : V3} (h : AcceptedC d Ts g) (hr : d.representation = DOUBLE_DESCRIPTION) {S S' : ContSystem}
    (hS : computeConstraintsContinuous κ d Ts = .ok S) (hS' : computeConstraintsContinuous κ d' Ts = .ok S') (x : V3)
    (hs : Sat S.A S.b (ext3 x)) : Sat S'.A S'.b (ext3 (R x)) := by
  have h' := hm.acceptedC h hr
  obtain ⟨ct, e, pts, ws, S1, Q⟩ := cont_raw κ d Ts g h
  obtain ⟨ct', e', pts', ws', S1', Q'⟩ := cont_raw κ d' Ts _ h'
  have q1 := Q.hS
  rw [hS] at q1
  cases q1
  have q2 := Q'.hS
  rw [hS'] at q2
  cases q2
  have e1 := pts_rotate d.flag h.flag d.bc Ts.sum R pts Q.hpts
  have e2 := Q'.hpts
  rw [hm.flag, hm.bc, e1] at e2
  cases e2
  obtain ⟨F, -, hrot, -, hF⟩ := wps_pts d.flag h.flag
  have w1 := Q.hws
  rw [hF _ _ _ _ _ Q.hpts (Q.front h.ne)] at w1
  cases w1
  have w2 := Q'.hws
  rw [hm.flag, hm.bc, hF _ _ _ _ _ e1 (Q'.front h'.ne), nth_map R (map_zero R)] at w2
  cases w2
  have eT : Ts.map ((1 : ℝ) * ·) = Ts := by simp
  have hcts : ∀ p < Ts.length, RotatedContact R (ct p) (ct' p) ∧ RotatedEquilibrium R (e p) (e' p) := by
    intro p hp
    obtain ⟨hl, H⟩ := List.forall₂_iff_get.mp hm.contacts
    have hp1 : p < d.contacts.length := h.size ▸ hp
    have q := H p hp1 (by omega)
    have c1 := Q.hct p hp
    have c2 := Q'.hct p hp
    rw [List.getElem?_eq_getElem hp1] at c1
    rw [List.getElem?_eq_getElem (by omega)] at c2
    simp only [List.get_eq_getElem, Option.some.injEq] at q c1 c2
    rw [c1, c2] at q
    obtain ⟨a, a', ha, ha', hq⟩ := q.phase
    rw [Q.he p hp] at ha
    rw [Q'.he p hp] at ha'
    cases ha
    cases ha'
    exact ⟨q, hq⟩
  rw [← eT] at Q'
  refine Q.transport one_pos Q' hr x (R x) R.toLinearMap R.toLinearMap R.toLinearMap R.toLinearMap ?_ (fun v => ?_) ?_ ?_ ?_ ?_ hs
  · exact symCoefs_map pts R.toLinearMap x fun p _ => hx.box p _
  · exact (map_smul R κ v).symm
  · rw [eT]
    exact pairs_map (hrot R hR (nth pts) g Ts.sum) x (R x) _ _ (fun w w' q => q.headAt x) (fun w w' q => q.tailAt x)
  · exact fun p hp c hc => (hcts p hp).1.kinOk hR hc
  · intro p hp f τ hw
    have := (hcts p hp).2.wrenchAny hR hw
    rw [map_sub, map_neg] at this
    rw [hm.margin]
    exact this
  · intro v hv
    rw [hm.maxAcc]
    exact (hx.box v _).mpr hv

/-- C121, axes. In exact arithmetic, when the axes are exchanged or reversed by a rotation, the mass changed and the rows
rescaled, the plan of the continuous formulation is the turned plan. -/
theorem C121_axes (κ : ℝ) (lib : Lib) (hL : LibOk lib) (he : lib.eps = 0) (R : V3 ≃ₗ[ℝ] V3) (hR : Rotation R) (hx : AxesToAxes R)
    (d d' : ProblemData) (hm : RotatedProblem R d d') (Ts : List ℝ) (g : V3) (h : AcceptedC d Ts g)
    (hr : d.representation = DOUBLE_DESCRIPTION) (step : ℝ) (hstep : step ≤ 0)
    (hc : d.costFunction = DISTANCE_TRAVELED ∨ d.costFunction = ACCELERATION ∧ d.flag ≠ 63#32)
    (hlim : ∀ q ∈ [d, d'], ∀ S, computeConstraintsContinuous κ q Ts = .ok S → 2 ^ S.A.rows < lib.maxIter) :
    ∃ res res' N, (∀ fuel ≥ N, computeCOMTraj κ lib fuel d Ts step SOLVER_QUADPROG = .ok res) ∧
      (∀ fuel ≥ N, computeCOMTraj κ lib fuel d' Ts step SOLVER_QUADPROG = .ok res') ∧ RotatedResult R res res' := by
  have h' := hm.acceptedC h hr
  have hr' := hm.repr.trans hr
  obtain ⟨S, res, N, hS, hrun, hv⟩ := cont_verdict κ lib hL he d Ts g h hr step hstep hc
  obtain ⟨S', res', N', hS', hrun', hv'⟩ := cont_verdict κ lib hL he d' Ts _ h' hr' step hstep
    (by rw [hm.cost, hm.flag]; exact hc)
  exact ⟨res, res', max N N', fun fuel hfuel => hrun fuel (le_trans (le_max_left _ _) hfuel),
    fun fuel hfuel => hrun' fuel (le_trans (le_max_right _ _) hfuel),
    hm.ofSat hR (h.accepted hr) (Or.inl ⟨7, by norm_num, rfl⟩) hc (hm.satC hR hx h hr hS hS')
      (hm.inv.satC hR.inv hx.inv h' hr' hS' hS)
      (not_le.mpr (hlim d (by simp) S hS)) (not_le.mpr (hlim d' (by simp) S' hS')) hv hv'⟩

/-! ## Other units -/

theorem UnitsProblem.acceptedC {s k : ℝ} (hs : 0 < s) (hk : 0 < k) {d d' : ProblemData} (hm : UnitsProblem s k d d') {Ts : List ℝ}
    {g : V3} (h : AcceptedC d Ts g) (hr : d.representation = DOUBLE_DESCRIPTION) :
    AcceptedC d' (Ts.map (k * ·)) ((s / k ^ 2) • g) := by
  refine (hm.accepted hs hk (h.accepted hr)).acceptedC fun ct' hct' => ?_
  obtain ⟨i, hi, rfl⟩ := List.mem_iff_getElem.mp hct'
  obtain ⟨hl, H⟩ := List.forall₂_iff_get.mp hm.contacts
  have q := H i (by omega) hi
  simp only [List.get_eq_getElem] at q
  obtain ⟨-, -, -, q2, -⟩ := h.phases _ (List.getElem_mem (by omega : i < d.contacts.length))
  rw [q.Kin, q.kin, List.length_map, q2]

/-- The continuous system in the other units has the converted solutions. -/
theorem UnitsProblem.satC {s k : ℝ} (hs : 0 < s) (hk : 0 < k) {d d' : ProblemData} (hm : UnitsProblem s k d d')
    {κ κ' : ℝ} (hκ : κ' * k ^ 2 = κ) {Ts : List ℝ} {g : V3} (h : AcceptedC d Ts g) (hr : d.representation = DOUBLE_DESCRIPTION)
    (hz : ∀ pts, computeConstantWaypoints d.flag d.bc Ts.sum = .ok pts →
      ∀ p ∈ pts, (∀ j, |s * p j| ≤ 1e-12) ↔ ∀ j, |p j| ≤ 1e-12) {S S' : ContSystem}
    (hS : computeConstraintsContinuous κ d Ts = .ok S) (hS' : computeConstraintsContinuous κ' d' (Ts.map (k * ·)) = .ok S')
    (x : V3) (hx : Sat S.A S.b (ext3 x)) : Sat S'.A S'.b (ext3 (s • x)) := by
  have h' := hm.acceptedC hs hk h hr
  obtain ⟨ct, e, pts, ws, S1, Q⟩ := cont_raw κ d Ts g h
  obtain ⟨ct', e', pts', ws', S1', Q'⟩ := cont_raw κ' d' _ _ h'
  have q1 := Q.hS
  rw [hS] at q1
  cases q1
  have q2 := Q'.hS
  rw [hS'] at q2
  cases q2
  have e1 := pts_units d.flag h.flag d.bc Ts.sum (s := s) hk h.total pts Q.hpts
  have e2 := Q'.hpts
  rw [hm.flag, hm.bc, units_sum, e1] at e2
  cases e2
  obtain ⟨F, -, -, hun, hF⟩ := wps_pts d.flag h.flag
  have w1 := Q.hws
  rw [hF _ _ _ _ _ Q.hpts (Q.front h.ne)] at w1
  cases w1
  have w2 := Q'.hws
  rw [hm.flag, hm.bc, units_sum, hF _ _ _ _ _ e1 (Q'.front h'.ne), nth_map (s • ·) (smul_zero s)] at w2
  cases w2
  have hcts : ∀ p < Ts.length, UnitsContact s k d.reduce_h d'.reduce_h (ct p) (ct' p) ∧
      UnitsEquilibrium s k d.reduce_h d'.reduce_h (e p) (e' p) := by
    intro p hp
    obtain ⟨hl, H⟩ := List.forall₂_iff_get.mp hm.contacts
    have hp1 : p < d.contacts.length := h.size ▸ hp
    have hp2 : p < (Ts.map (k * ·)).length := by rw [List.length_map]; exact hp
    have q := H p hp1 (by omega)
    have c1 := Q.hct p hp
    have c2 := Q'.hct p hp2
    rw [List.getElem?_eq_getElem hp1] at c1
    rw [List.getElem?_eq_getElem (by omega)] at c2
    simp only [List.get_eq_getElem, Option.some.injEq] at q c1 c2
    rw [c1, c2] at q
    obtain ⟨a, a', ha, ha', hq⟩ := q.phase
    rw [Q.he p hp] at ha
    rw [Q'.he p hp2] at ha'
    cases ha
    cases ha'
    exact ⟨q, hq⟩
  have hp : 0 < s / k ^ 2 := by positivity
  refine Q.transport hk Q' hr x (s • x) (s • LinearMap.id) ((s / k ^ 2) • LinearMap.id) ((s ^ 2 / k ^ 2) • LinearMap.id)
    ((s / k ^ 2) • LinearMap.id) ?_ (fun v => ?_) ?_ ?_ ?_ ?_ hx
  · have := symCoefs_map pts (s • LinearMap.id) x fun p hp => by
      simpa using hz pts Q.hpts p hp
    exact this
  · simp only [LinearMap.smul_apply, LinearMap.id_apply, smul_smul]
    congr 1
    rw [← hκ]
    field_simp
  · exact pairs_map (hun s k hk (nth pts) g Ts.sum h.total) x (s • x) _ _ (fun w w' q => by simpa using q.headAt x)
      (fun w w' q => by simpa using q.tailAt x)
  · intro p hp c hc
    have := (hcts p hp).1.kinOk hs hc
    simpa using this
  · intro p hp f τ hw
    have := (hcts p hp).2.wrenchAny hs hk hw
    rw [smul_sub, smul_neg] at this
    simpa using this
  · intro v hv j
    simp only [LinearMap.smul_apply, LinearMap.id_apply, Pi.smul_apply, smul_eq_mul]
    rw [abs_mul, abs_of_pos hp, hm.maxAcc]
    exact mul_le_mul_of_nonneg_left (hv j) hp.le

/-- C121, units. In exact arithmetic, when the second derivative is taken with respect to time and no waypoint crosses the
threshold of `isZero`, the plan of the continuous formulation is the converted plan. -/
theorem C121_units (κ κ' : ℝ) (lib : Lib) (hL : LibOk lib) (he : lib.eps = 0) (s k : ℝ) (hs : 0 < s) (hk : 0 < k)
    (hκ : κ' * k ^ 2 = κ) (d d' : ProblemData) (hm : UnitsProblem s k d d') (Ts : List ℝ) (g : V3) (h : AcceptedC d Ts g)
    (hr : d.representation = DOUBLE_DESCRIPTION)
    (hz : ∀ pts, computeConstantWaypoints d.flag d.bc Ts.sum = .ok pts →
      ∀ p ∈ pts, (∀ j, |s * p j| ≤ 1e-12) ↔ ∀ j, |p j| ≤ 1e-12) (step step' : ℝ) (hstep : step ≤ 0) (hstep' : step' ≤ 0)
    (hc : d.costFunction = DISTANCE_TRAVELED ∨ d.costFunction = ACCELERATION ∧ d.flag ≠ 63#32)
    (hlim : ∀ q ∈ [(κ, d, Ts), (κ', d', Ts.map (k * ·))], ∀ S, computeConstraintsContinuous q.1 q.2.1 q.2.2 = .ok S →
      2 ^ S.A.rows < lib.maxIter) :
    ∃ res res' N, (∀ fuel ≥ N, computeCOMTraj κ lib fuel d Ts step SOLVER_QUADPROG = .ok res) ∧
      (∀ fuel ≥ N, computeCOMTraj κ' lib fuel d' (Ts.map (k * ·)) step' SOLVER_QUADPROG = .ok res') ∧ UnitsResult s k res res' := by
  have h' := hm.acceptedC hs hk h hr
  have hr' := hm.repr.trans hr
  obtain ⟨S, res, N, hS, hrun, hv⟩ := cont_verdict κ lib hL he d Ts g h hr step hstep hc
  obtain ⟨S', res', N', hS', hrun', hv'⟩ := cont_verdict κ' lib hL he d' _ _ h' hr' step' hstep'
    (by rw [hm.cost, hm.flag]; exact hc)
  have n1 := hlim (κ, d, Ts) (by simp) S hS
  have n2 := hlim (κ', d', Ts.map (k * ·)) (by simp) S' hS'
  rw [fixed_units] at hv'
  refine ⟨res, res', max N N', fun fuel hfuel => hrun fuel (le_trans (le_max_left _ _) hfuel),
    fun fuel hfuel => hrun' fuel (le_trans (le_max_right _ _) hfuel),
    hm.ofSat hs hk (h.accepted hr) (Or.inl ⟨7, by norm_num, rfl⟩) hc (hm.satC hs hk hκ h hr hz hS hS') (fun y hy => ?_)
      (not_le.mpr n1) (not_le.mpr n2) hv hv'⟩
  refine (hm.inv hs hk).satC (κ := κ') (κ' := κ) (inv_pos.mpr hs) (inv_pos.mpr hk) ?_ h' hr' (fun pts' hpts' p' hp' => ?_)
    hS' ?_ y hy
  · rw [← hκ]
    field_simp
  · obtain ⟨pts, hpts⟩ := C01_answers d.flag h.flag d.bc Ts.sum h.capt
    rw [hm.flag, hm.bc, units_sum, pts_units d.flag h.flag d.bc Ts.sum (s := s) hk h.total pts hpts] at hpts'
    cases hpts'
    obtain ⟨p, hp, rfl⟩ := List.mem_map.mp hp'
    have := hz pts hpts p hp
    simp only [Pi.smul_apply, smul_eq_mul, inv_mul_cancel_left₀ hs.ne']
    exact this.symm
  · rw [units_times hk]
    exact hS

/-! ## The limits -/

theorem third_coord (a b c : ℝ) : (![a, b, c] : V3) 2 = c := rfl

/-- `bareContact` with another gravity. -/
noncomputable def shovePhase (g : V3) : ContactData :=
  { contactPhase := some
      { mass := 1, gravity := g, poly := [], polyOk := true, isPP := true, gens := [] },
    Kin := [], kin := [], Ang := [], ang := [] }

/-- To start somewhere at rest with a given acceleration, in the continuous formulation. -/
noncomputable def shoveProblem (g c0 a0 : V3) (A : ℝ) : ProblemData :=
  { startProblem a0 A with
    contacts := [shovePhase g]
    bc := ⟨c0, 0, a0, 0, 0, 0, 0, 0⟩, constraintAcceleration := false }

theorem shove_accepted (g c0 a0 : V3) (A T : ℝ) (hT : 0 < T) : AcceptedC (shoveProblem g c0 a0 A) [T] g := by
  refine ⟨rfl, by simp, by simpa using hT, by simp [shoveProblem, startProblem, comFlags], by simp [shoveProblem, startProblem], ?_⟩
  intro ct hct
  simp only [shoveProblem, startProblem, List.mem_singleton] at hct
  subst hct
  exact ⟨_, rfl, rfl, rfl, fun _ => ⟨rfl, rfl, one_ne_zero, by simp, by simp [shovePhase]⟩⟩

/-- The system of `shoveProblem`: only the bound on the acceleration is left. -/
theorem shove_sat (κ : ℝ) (g c0 a0 : V3) (A T : ℝ) (hT : 0 < T) (S : ContSystem)
    (hS : computeConstraintsContinuous κ (shoveProblem g c0 a0 A) [T] = .ok S) (x P0 P2 : V3)
    (h0 : (symbolicOf 1 c0).toCoefs.at x = P0) (h2 : (symbolicOf 1 (c0 + (T ^ 2 / 6) • a0)).toCoefs.at x = P2) :
    Sat S.A S.b (ext3 x) ↔ (∀ j, |κ * (6 * (P2 j - P0 j))| ≤ A) ∧ ∀ j, |κ * (6 * (P0 j - 2 * P2 j + x j))| ≤ A := by
  obtain ⟨ct, e, pts, ws, S1, Q⟩ := cont_raw κ _ _ _ (shove_accepted g c0 a0 A T hT)
  have q := Q.hS
  rw [hS] at q
  cases q
  have hp : pts = [c0, c0, c0 + (T ^ 2 / 6) • a0, fun _ => 0] := by
    have := Q.hpts
    simp [computeConstantWaypoints, shoveProblem, startProblem] at this
    rw [← this]
    simp only [c0_dc0_ddc0.computeConstantWaypoints]
    refine list4_eq ?_ ?_ ?_ ?_ <;> funext k <;> simp <;> ring
  have hsym : (symCoefs pts).map (·.at x) = [P0, P0, P2, x] := by
    rw [symCoefs_at, hp]
    simp only [List.map_cons, List.map_nil, h0, h2, symbolic_at_free]
  have hc0 : ct 0 = shovePhase g := by
    have := Q.hct 0 (by simp)
    simpa [shoveProblem, startProblem] using this.symm
  have he0 : (e 0).poly = [] := by
    have := Q.he 0 (by simp)
    rw [hc0] at this
    simp only [shovePhase, Option.some.injEq] at this
    rw [← this]
  have hsec : (subCoefs (secondDeriv κ (symCoefs pts)) T 0 T).map (·.at x)
      = [κ • (fun j => 6 * (P2 j - P0 j)), κ • (fun j => 6 * (P0 j - 2 * P2 j + x j))] := by
    rw [subCoefs_full _ T hT, secondDeriv_at, hsym]
    simp [derivCtrl]
    constructor <;> congr 1 <;> funext j <;> simp <;> ring
  rw [Q.kin, first3_ext3]
  have hb : (∀ co ∈ subCoefs (secondDeriv κ (symCoefs pts)) T 0 T, ∀ j, |co.at x j| ≤ A) ↔
      (∀ j, |κ * (6 * (P2 j - P0 j))| ≤ A) ∧ ∀ j, |κ * (6 * (P0 j - 2 * P2 j + x j))| ≤ A := by
    have := forall_map (subCoefs (secondDeriv κ (symCoefs pts)) T 0 T) (·.at x) (fun v => ∀ j, |v j| ≤ A)
    rw [this, hsec]
    simp
  rw [← hb]
  constructor
  · intro hq
    have := (hq 0 (by simp)).2.2
    simpa [shoveProblem, startProblem] using this
  · intro hq p hp
    obtain rfl : p = 0 := by simpa using hp
    refine ⟨fun co _ => ?_, fun _ v _ => ?_, ?_⟩
    · rw [hc0]
      simp [KinOk, shovePhase]
    · intro r hr
      rw [he0] at hr
      simp at hr
    · simpa [shoveProblem, startProblem] using hq

/-- What the planner answers to `shoveProblem`. -/
theorem shove_run (κ : ℝ) (g c0 a0 : V3) (A T : ℝ) (hT : 0 < T) : ∃ M, ∀ maxIter > M, ∃ S res N,
    computeConstraintsContinuous κ (shoveProblem g c0 a0 A) [T] = .ok S ∧
    (∀ fuel ≥ N, computeCOMTraj κ (exactLib maxIter) fuel (shoveProblem g c0 a0 A) [T] (-1) SOLVER_QUADPROG = .ok res) ∧
    (res.success = true ↔ ∃ x, Sat S.A S.b (ext3 x)) := by
  have h := shove_accepted g c0 a0 A T hT
  obtain ⟨S0, hS0, -⟩ := C21_in_bounds_and_complete κ _ _ _ h
  refine ⟨2 ^ S0.A.rows, fun maxIter hM => ?_⟩
  obtain ⟨S, res, N, hS, hrun, hv⟩ := cont_verdict κ (exactLib maxIter) (exactLib_ok _) rfl _ _ _ h rfl (-1) (by norm_num)
    (Or.inr ⟨rfl, by simp [shoveProblem, startProblem]⟩)
  rw [hS0] at hS
  cases hS
  refine ⟨S0, res, N, hS0, hrun, fun hs => ⟨_, (hv.found hs).1⟩, fun ⟨x, hx⟩ => ?_⟩
  by_contra hn
  rw [Bool.not_eq_true] at hn
  exact ((hv.none hn).resolve_left (not_le.mpr hM)) x hx

/-- Away from the origin there is a plan exactly when the coordinates of the reported acceleration obey the bound. -/
theorem shove_iff (κ : ℝ) (g c0 a0 : V3) (A T : ℝ) (hT : 0 < T) (h0 : ∃ j, 1e-12 < |c0 j|)
    (h2 : ∃ j, 1e-12 < |(c0 + (T ^ 2 / 6) • a0) j|) : ∃ M, ∀ maxIter > M, ∃ res N,
    (∀ fuel ≥ N, computeCOMTraj κ (exactLib maxIter) fuel (shoveProblem g c0 a0 A) [T] (-1) SOLVER_QUADPROG = .ok res) ∧
    (res.success = true ↔ ∀ j, |κ * (T ^ 2 * a0 j)| ≤ A) := by
  obtain ⟨M, hM⟩ := shove_run κ g c0 a0 A T hT
  refine ⟨M, fun maxIter hmax => ?_⟩
  obtain ⟨S, res, N, hS, hrun, hs⟩ := hM maxIter hmax
  refine ⟨res, N, hrun, hs.trans ⟨fun ⟨x, hx⟩ j => ?_, fun hj => ?_⟩⟩
  · have := ((shove_sat κ g c0 a0 A T hT S hS x _ _ (symbolic_at_const _ x h0) (symbolic_at_const _ x h2)).mp hx).1 j
    have e : κ * (6 * ((c0 + (T ^ 2 / 6) • a0) j - c0 j)) = κ * (T ^ 2 * a0 j) := by
      simp only [Pi.add_apply, Pi.smul_apply, smul_eq_mul]
      ring
    rwa [e] at this
  · refine ⟨c0 + (T ^ 2 / 2) • a0, (shove_sat κ g c0 a0 A T hT S hS _ _ _ (symbolic_at_const _ _ h0)
      (symbolic_at_const _ _ h2)).mpr ⟨fun j => ?_, fun j => ?_⟩⟩
    · have e : κ * (6 * ((c0 + (T ^ 2 / 6) • a0) j - c0 j)) = κ * (T ^ 2 * a0 j) := by
        simp only [Pi.add_apply, Pi.smul_apply, smul_eq_mul]
        ring
      rw [e]
      exact hj j
    · have e : κ * (6 * (c0 j - 2 * (c0 + (T ^ 2 / 6) • a0) j + (c0 + (T ^ 2 / 2) • a0) j)) = κ * (T ^ 2 * a0 j) := by
        simp only [Pi.add_apply, Pi.smul_apply, smul_eq_mul]
        ring
      rw [e]
      exact hj j

theorem shove_rotated (R : V3 ≃ₗ[ℝ] V3) (g c0 a0 : V3) (A : ℝ) :
    RotatedProblem R (shoveProblem g c0 a0 A) (shoveProblem (R g) (R c0) (R a0) A) := by
  refine ⟨List.Forall₂.cons ⟨⟨_, _, rfl, rfl, ⟨1, one_pos, ?_⟩, rfl, rfl, .nil⟩, rfl, rfl⟩ .nil, ?_, rfl, rfl, rfl, rfl, rfl, rfl⟩
  · simp
  · simp [shoveProblem, BC.rotate]

theorem shove_units (s k : ℝ) (g c0 a0 : V3) (A : ℝ) :
    UnitsProblem s k (shoveProblem g c0 a0 A) (shoveProblem ((s / k ^ 2) • g) (s • c0) ((s / k ^ 2) • a0) (s / k ^ 2 * A)) := by
  refine ⟨List.Forall₂.cons ⟨⟨_, _, rfl, rfl, rfl, rfl, rfl, .nil⟩, rfl, rfl⟩ .nil, ?_, rfl, rfl, rfl, rfl, rfl⟩
  simp [shoveProblem, BC.units]

/-- C121, the limit of the claim on axes: the continuous formulation bounds the coordinates of the acceleration although
`constraintAcceleration_` is false, so a turn by another angle changes the verdict. -/
theorem C121_axes_refuted : ∃ (R : V3 ≃ₗ[ℝ] V3) (d d' : ProblemData), Rotation R ∧ RotatedProblem R d d' ∧
    d.constraintAcceleration = false ∧ ∃ M, ∀ maxIter > M, ∃ res res' N,
    (∀ fuel ≥ N, computeCOMTraj 1 (exactLib maxIter) fuel d [1] (-1) SOLVER_QUADPROG = .ok res) ∧
    (∀ fuel ≥ N, computeCOMTraj 1 (exactLib maxIter) fuel d' [1] (-1) SOLVER_QUADPROG = .ok res') ∧
    res.success = false ∧ res'.success = true := by
  have hcs : (3 / 5 : ℝ) * (3 / 5) + 4 / 5 * (4 / 5) = 1 := by norm_num
  refine ⟨rotZ (3 / 5) (4 / 5) hcs, shoveProblem 0 ![0, 0, 1] ![1, 0, 0] (9 / 10), _, rotZ_rotation _ _ _, shove_rotated _ _ _ _ _, rfl, ?_⟩
  obtain ⟨M, hM⟩ := shove_iff 1 0 ![0, 0, 1] ![1, 0, 0] (9 / 10) 1 one_pos ⟨2, by norm_num [third_coord]⟩ ⟨2, by norm_num [third_coord]⟩
  obtain ⟨M', hM'⟩ := shove_iff 1 (rotZ (3 / 5) (4 / 5) hcs 0) (rotZ (3 / 5) (4 / 5) hcs ![0, 0, 1])
    (rotZ (3 / 5) (4 / 5) hcs ![1, 0, 0]) (9 / 10) 1 one_pos ⟨2, by norm_num [rotZ_apply, third_coord]⟩ ⟨2, by norm_num [rotZ_apply, third_coord]⟩
  refine ⟨max M M', fun maxIter hmax => ?_⟩
  obtain ⟨m1, m2⟩ := max_lt_iff.mp hmax
  obtain ⟨res, N, r1, r2⟩ := hM maxIter m1
  obtain ⟨res', N', r1', r2'⟩ := hM' maxIter m2
  refine ⟨res, res', max N N', fun fuel hfuel => r1 fuel (le_trans (le_max_left _ _) hfuel),
    fun fuel hfuel => r1' fuel (le_trans (le_max_right _ _) hfuel), ?_, ?_⟩
  · by_contra hn
    have := r2.mp (by simpa using hn) 0
    norm_num at this
  · refine r2'.mpr fun j => ?_
    fin_cases j <;> norm_num [rotZ_apply, third_coord, abs_of_pos]

/-- C121, the limit of the claim on units: if the reported second derivative keeps the same factor whatever the duration (one of
the conventions of the curve library), a change of the unit of time changes the verdict. -/
theorem C121_factor_refuted : ∃ d d' : ProblemData, UnitsProblem 1 2 d d' ∧ ∃ M, ∀ maxIter > M, ∃ res res' N,
    (∀ fuel ≥ N, computeCOMTraj 1 (exactLib maxIter) fuel d [1] (-1) SOLVER_QUADPROG = .ok res) ∧
    (∀ fuel ≥ N, computeCOMTraj 1 (exactLib maxIter) fuel d' [2] (-1) SOLVER_QUADPROG = .ok res') ∧
    res.success = true ∧ res'.success = false := by
  refine ⟨shoveProblem 0 ![0, 0, 1] ![1, 0, 0] 1, _, shove_units _ _ _ _ _ _, ?_⟩
  obtain ⟨M, hM⟩ := shove_iff 1 0 ![0, 0, 1] ![1, 0, 0] 1 1 one_pos ⟨2, by norm_num [third_coord]⟩ ⟨2, by norm_num [third_coord]⟩
  obtain ⟨M', hM'⟩ := shove_iff 1 (((1 : ℝ) / 2 ^ 2) • (0 : V3)) ((1 : ℝ) • ![0, 0, 1]) (((1 : ℝ) / 2 ^ 2) • ![1, 0, 0])
    ((1 : ℝ) / 2 ^ 2 * 1) 2 two_pos ⟨2, by norm_num [third_coord]⟩ ⟨2, by norm_num [third_coord]⟩
  refine ⟨max M M', fun maxIter hmax => ?_⟩
  obtain ⟨m1, m2⟩ := max_lt_iff.mp hmax
  obtain ⟨res, N, r1, r2⟩ := hM maxIter m1
  obtain ⟨res', N', r1', r2'⟩ := hM' maxIter m2
  refine ⟨res, res', max N N', fun fuel hfuel => r1 fuel (le_trans (le_max_left _ _) hfuel),
    fun fuel hfuel => r1' fuel (le_trans (le_max_right _ _) hfuel), ?_, ?_⟩
  · refine r2.mpr fun j => ?_
    fin_cases j <;> norm_num
  · by_contra hn
    have := r2'.mp (by simpa using hn) 0
    norm_num at this

/-- C121, the threshold: a start at 1e-12 from the origin is taken for a free waypoint; in units twice as small it is not, and the
verdict changes. -/
theorem C121_threshold_refuted : ∃ d d' : ProblemData, UnitsProblem 2 1 d d' ∧ ∃ M, ∀ maxIter > M, ∃ res res' N,
    (∀ fuel ≥ N, computeCOMTraj 1 (exactLib maxIter) fuel d [1] (-1) SOLVER_QUADPROG = .ok res) ∧
    (∀ fuel ≥ N, computeCOMTraj 1 (exactLib maxIter) fuel d' [1] (-1) SOLVER_QUADPROG = .ok res') ∧
    res.success = true ∧ res'.success = false := by
  refine ⟨shoveProblem 0 ![1e-12, 0, 0] ![1, 0, 0] (1 / 2), _, shove_units _ _ _ _ _ _, ?_⟩
  obtain ⟨M, hM⟩ := shove_run 1 0 ![1e-12, 0, 0] ![1, 0, 0] (1 / 2) 1 one_pos
  obtain ⟨M', hM'⟩ := shove_iff 1 (((2 : ℝ) / 1 ^ 2) • (0 : V3)) ((2 : ℝ) • ![1e-12, 0, 0]) (((2 : ℝ) / 1 ^ 2) • ![1, 0, 0])
    ((2 : ℝ) / 1 ^ 2 * (1 / 2)) 1 one_pos ⟨0, by norm_num [abs_of_pos]⟩ ⟨0, by norm_num [abs_of_pos]⟩
  refine ⟨max M M', fun maxIter hmax => ?_⟩
  obtain ⟨m1, m2⟩ := max_lt_iff.mp hmax
  obtain ⟨S, res, N, hS, r1, r2⟩ := hM maxIter m1
  obtain ⟨res', N', r1', r2'⟩ := hM' maxIter m2
  refine ⟨res, res', max N N', fun fuel hfuel => r1 fuel (le_trans (le_max_left _ _) hfuel),
    fun fuel hfuel => r1' fuel (le_trans (le_max_right _ _) hfuel), ?_, ?_⟩
  · have hz : eigenIsZero (![1e-12, 0, 0] : V3) := by
      intro j
      fin_cases j <;> norm_num [abs_of_pos]
    refine r2.mpr ⟨![1e-12, 0, 0] + ((1 : ℝ) ^ 2 / 6) • ![1, 0, 0], ?_⟩
    rw [shove_sat 1 0 ![1e-12, 0, 0] ![1, 0, 0] (1 / 2) 1 one_pos S hS _ (![1e-12, 0, 0] + ((1 : ℝ) ^ 2 / 6) • ![1, 0, 0])
      (![1e-12, 0, 0] + ((1 : ℝ) ^ 2 / 6) • ![1, 0, 0]) (by simp [symbolicOf, hz, WpB.toCoefs, Coefs.at])
      (symbolic_at_const _ _ ⟨0, by norm_num [abs_of_pos]⟩)]
    constructor
    · intro j
      simp
    · intro j
      have e : ∀ q : ℝ, (1 : ℝ) * (6 * (q - 2 * q + q)) = 0 := fun q => by ring
      rw [e]
      norm_num
  · by_contra hn
    have := r2'.mp (by simpa using hn) 0
    norm_num at this

/-! ## Examples -/

theorem calm_sat (κ : ℝ) (S : ContSystem) (hS : computeConstraintsContinuous κ calmProblem [1, 2] = .ok S) :
    Sat S.A S.b (ext3 (first3 standSolution)) := by
  obtain ⟨S0, hS0, -⟩ := C21_in_bounds_and_complete κ _ _ _ (standProblem_accepted 1)
  obtain ⟨S1, hS1, -, -, -, -, -, -, h7, -⟩ := C21_in_bounds_and_complete κ _ _ _ calm_accepted
  rw [hS] at hS1
  cases hS1
  have h0 := C24_continuous_margin κ calmProblem (standProblem 1) [1, 2] _ 0.1 calm_accepted rfl
    (Or.inl (show (0 : ℝ) ≤ 0.1 by norm_num)) S S0 hS hS0 _ (standProblem_sat κ 1 S0 hS0)
  intro r hr
  refine le_trans (le_of_eq ?_) (h0 r hr)
  rw [(h7 rfl).1]
  simp [Finset.sum_range_succ, ext3, first3]

theorem calm_pts (T : ℝ) (pts : List V3) (h : computeConstantWaypoints calmProblem.flag calmProblem.bc T = .ok pts) :
    pts = [![1, 0, 1], ![1, 0, 1], fun _ => 0, ![1, 0, 1]] := by
  simp [computeConstantWaypoints, calmProblem, standProblem] at h
  rw [← h]
  simp only [c0_dc0_c1.computeConstantWaypoints]
  refine list4_eq ?_ ?_ ?_ ?_ <;> funext k <;> fin_cases k <;> norm_num

theorem quarter_axes : AxesToAxes (rotZ 0 1 (by norm_num)) := by
  refine ⟨Equiv.swap 0 1, fun v j => ?_⟩
  fin_cases j
  · simp [rotZ_apply]
  · simp [rotZ_apply]
  · have : (Equiv.swap (0 : Fin 3) 1) 2 = 2 := by decide
    simp [rotZ_apply, third_coord, this]

/-- A non-trivial case of C121, axes: the standing robot after a quarter turn. Both calls succeed. -/
theorem calm_turned (κ : ℝ) : ∃ M, ∀ maxIter > M, ∃ res res' N,
    (∀ fuel ≥ N, computeCOMTraj κ (exactLib maxIter) fuel calmProblem [1, 2] (-1) SOLVER_QUADPROG = .ok res) ∧
    (∀ fuel ≥ N, computeCOMTraj κ (exactLib maxIter) fuel (calmProblem.rotate (rotZ 0 1 (by norm_num))) [1, 2] (-1)
      SOLVER_QUADPROG = .ok res') ∧
    res.success = true ∧ res'.success = true ∧ res'.point = rotZ 0 1 (by norm_num) res.point := by
  have h := calm_accepted
  have hu := ProblemData.rotated calmProblem (rotZ 0 1 (by norm_num)) fun ct hct he => by
    obtain ⟨e, hg, -⟩ := h.phases ct hct
    rw [hg] at he
    cases he
  have h' := hu.acceptedC h rfl
  obtain ⟨S, hS, -⟩ := C21_in_bounds_and_complete κ _ _ _ h
  obtain ⟨S', hS', -⟩ := C21_in_bounds_and_complete κ _ _ _ h'
  refine ⟨max (2 ^ S.A.rows) (2 ^ S'.A.rows), fun maxIter hmax => ?_⟩
  obtain ⟨m1, m2⟩ := max_lt_iff.mp hmax
  have hflag : calmProblem.flag ≠ 63#32 := by simp [calmProblem, standProblem]
  obtain ⟨res, res', N, h1, h2, h3⟩ := C121_axes κ (exactLib maxIter) (exactLib_ok _) rfl _ (rotZ_rotation _ _ _) quarter_axes
    _ _ hu [1, 2] _ h rfl (-1) (by norm_num) (Or.inr ⟨rfl, hflag⟩) (by
      intro q hq S1 hS1
      simp only [List.mem_cons, List.not_mem_nil, or_false] at hq
      rcases hq with rfl | rfl
      · rw [hS] at hS1
        cases hS1
        exact m1
      · rw [hS'] at hS1
        cases hS1
        exact m2)
  obtain ⟨S1, r, N0, hS1, hr0, hv⟩ := cont_verdict κ (exactLib maxIter) (exactLib_ok _) rfl _ _ _ h rfl (-1) (by norm_num)
    (Or.inr ⟨rfl, hflag⟩)
  rw [hS] at hS1
  cases hS1
  have e := h1 (max N N0) (le_max_left _ _)
  rw [hr0 (max N N0) (le_max_right _ _)] at e
  cases e
  have hss : res.success = true := by
    by_contra hn
    rw [Bool.not_eq_true] at hn
    exact ((hv.none hn).resolve_left (not_le.mpr m1)) _ (calm_sat κ S hS)
  exact ⟨res, res', N, h1, h2, hss, h3.success.trans hss, h3.point hss⟩

/-- A non-trivial case of C121, units: the standing robot in other units. Both calls succeed. -/
theorem calm_units (κ s k ρ' : ℝ) (hs : 1 ≤ s) (hk : 0 < k) : ∃ M, ∀ maxIter > M, ∃ res res' N,
    (∀ fuel ≥ N, computeCOMTraj κ (exactLib maxIter) fuel calmProblem [1, 2] (-1) SOLVER_QUADPROG = .ok res) ∧
    (∀ fuel ≥ N, computeCOMTraj (κ / k ^ 2) (exactLib maxIter) fuel (calmProblem.units s k ρ') [k * 1, k * 2] (-1)
      SOLVER_QUADPROG = .ok res') ∧
    res.success = true ∧ res'.success = true ∧ res'.point = s • res.point := by
  have h := calm_accepted
  have hs0 : 0 < s := by linarith
  have hu := ProblemData.inUnits calmProblem s k ρ' hs0 [1, 2] _ (h.accepted rfl)
  have h' := hu.acceptedC hs0 hk h rfl
  obtain ⟨S, hS, -⟩ := C21_in_bounds_and_complete κ _ _ _ h
  obtain ⟨S', hS', -⟩ := C21_in_bounds_and_complete (κ / k ^ 2) _ _ _ h'
  refine ⟨max (2 ^ S.A.rows) (2 ^ S'.A.rows), fun maxIter hmax => ?_⟩
  obtain ⟨m1, m2⟩ := max_lt_iff.mp hmax
  have hflag : calmProblem.flag ≠ 63#32 := by simp [calmProblem, standProblem]
  obtain ⟨res, res', N, h1, h2, h3⟩ := C121_units κ (κ / k ^ 2) (exactLib maxIter) (exactLib_ok _) rfl s k hs0 hk (by field_simp)
    _ _ hu [1, 2] _ h rfl (by
      intro pts hpts p hp
      rw [calm_pts _ pts hpts] at hp
      simp only [List.mem_cons, List.not_mem_nil, or_false] at hp
      have key : (∀ j, |s * (![1, 0, 1] : V3) j| ≤ 1e-12) ↔ ∀ j, |(![1, 0, 1] : V3) j| ≤ 1e-12 := by
        constructor
        · intro q
          have := q 0
          simp only [cons_val_zero, mul_one] at this
          rw [abs_of_pos hs0] at this
          norm_num at this
          linarith
        · intro q
          have := q 0
          norm_num at this
      rcases hp with rfl | rfl | rfl | rfl
      · exact key
      · exact key
      · simp
      · exact key) (-1) (-1) (by norm_num) (by norm_num) (Or.inr ⟨rfl, hflag⟩) (by
      intro q hq S1 hS1
      simp only [List.mem_cons, List.not_mem_nil, or_false] at hq
      rcases hq with rfl | rfl
      · rw [hS] at hS1
        cases hS1
        exact m1
      · rw [hS'] at hS1
        cases hS1
        exact m2)
  obtain ⟨S1, r, N0, hS1, hr0, hv⟩ := cont_verdict κ (exactLib maxIter) (exactLib_ok _) rfl _ _ _ h rfl (-1) (by norm_num)
    (Or.inr ⟨rfl, hflag⟩)
  rw [hS] at hS1
  cases hS1
  have e := h1 (max N N0) (le_max_left _ _)
  rw [hr0 (max N N0) (le_max_right _ _)] at e
  cases e
  have hss : res.success = true := by
    by_contra hn
    rw [Bool.not_eq_true] at hn
    exact ((hv.none hn).resolve_left (not_le.mpr m1)) _ (calm_sat κ S hS)
  exact ⟨res, res', N, h1, h2, hss, h3.success.trans hss, h3.point hss⟩

end Verif
