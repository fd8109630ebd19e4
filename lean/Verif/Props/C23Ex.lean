import Verif.Props.C25

/-!
# C21 and C23: counterexamples; a standing robot as an example for C21–C25
-/

namespace Verif
open Matrix

/-! ## C21: problems that are not accepted -/

/-- C21 fails for a contact whose kinematic constraints were left at their default (`Kin_` with three
rows, `kin_` empty), or more generally have different numbers of rows: an Eigen assertion fails. The
discretised formulation accepts the default. -/
theorem C21_refuted_default (κ : ℝ) (pData : ProblemData) (D : ℝ) (g : V3) (ct : ContactData)
    (hc : pData.contacts = [ct])
    (h : AcceptedC { pData with contacts := [{ ct with Kin := [], kin := [] }] } [D] g)
    (hk : ct.Kin.length ≠ ct.kin.length) :
    computeConstraintsContinuous κ pData [D] = .assertFail := by
  obtain ⟨ct', e', pts, ws, S, R⟩ := cont_raw κ _ [D] g h
  obtain ⟨e, he, -, -, hdd⟩ := h.phases _ (List.mem_singleton.mpr rfl)
  have he' : ct.contactPhase = some e := he
  have hD : 0 < D := h.pos D (by simp)
  have hws : computeWwaypoints pData.flag pData.contacts pData.bc ([D] : List ℝ).sum = .ok ws := by
    have := R.hws
    rw [hc]
    simpa [computeWwaypoints, frontGravity] using this
  have hdim : dimVarPts pData.flag = 1 := by
    have := h.flag
    simp only [comFlags, List.mem_cons, List.not_mem_nil, or_false] at this
    rcases this with e | e | e | e | e | e | e <;> rw [e] <;> decide
  unfold computeConstraintsContinuous
  rw [symbolic_eq pData.flag pData.bc _ pts 1 R.hpts hdim, hws]
  simp only [Out.ok_bind]
  change contBody κ pData [D] _ ws = _
  unfold contBody
  have hsum : ([D] : List ℝ).sum = D := by simp
  have hkin : ∀ st, kinContLoop ct (subCoefs (symCoefs pts) D 0 D) st = .assertFail := by
    intro st
    have hl : 0 < (subCoefs (symCoefs pts) D 0 D).length := by
      rw [subCoefs_length, symCoefs, List.length_map, R.hlen]; omega
    cases hs : subCoefs (symCoefs pts) D 0 D with
    | nil => rw [hs] at hl; simp at hl
    | cons a l => simp [kinContLoop, hk]
  have hcl : ∀ useDD ddc st sf, contLoop pData useDD ([D] : List ℝ).sum (symCoefs pts) ddc ws [D] 0 0 0 st sf
      = .assertFail := by
    intro useDD ddc st sf
    rw [hsum, contLoop, extractCoefs_ok _ _ _ _ le_rfl hD (by simp),
      extractCoefs_ok _ _ _ _ le_rfl hD (by simp), extractWp6_ok _ _ _ _ le_rfl hD (by simp)]
    simp only [Out.ok_bind, contPhase, hc, List.getElem?_cons_zero, hkin]
    rfl
  have hmap : (List.map (symbolicOf 1) pts).map WpB.toCoefs = symCoefs pts := by
    simp [symCoefs]
  rw [hmap]
  have hni : ∀ a b, ∃ n, computeNumIneqContinuous pData.contacts [D].length a b
      (pData.representation == DOUBLE_DESCRIPTION) = .ok n := by
    intro a b
    rw [hc]
    cases hb : (pData.representation == DOUBLE_DESCRIPTION)
    · exact ⟨_, by simp [computeNumIneqContinuous, numIneqContLoop]; rfl⟩
    · exact ⟨_, by simp [computeNumIneqContinuous, numIneqContLoop, he']; rfl⟩
  obtain ⟨n, hn⟩ := hni ((symCoefs pts).length - 1) (ws.length - 1)
  have hne : ∀ a, ∃ n, computeNumEqContinuous pData.contacts a
      (!(pData.representation == DOUBLE_DESCRIPTION)) = .ok n := by
    intro a
    rw [hc]
    cases hb : (pData.representation == DOUBLE_DESCRIPTION)
    · exact ⟨_, by simp [computeNumEqContinuous, numEqLoop, he']; rfl⟩
    · exact ⟨_, by simp [computeNumEqContinuous]; rfl⟩
  obtain ⟨n', hn'⟩ := hne (ws.length - 1)
  simp only [hn, hn', Out.ok_bind, hcl]
  rfl

/-- C21 needs at least one contact phase: without any, the first contact is read past the end. -/
theorem C21_refuted_empty (κ : ℝ) (pData : ProblemData) (Ts : List ℝ) (hf : pData.flag ∈ comFlags)
    (hcapt : pData.flag = 19#32 → pData.bc.dc1 = 0) (hc : pData.contacts = []) :
    computeConstraintsContinuous κ pData Ts = .ub := by
  obtain ⟨pts, hpts⟩ := C01_answers pData.flag hf pData.bc Ts.sum hcapt
  have hdim : dimVarPts pData.flag = 1 := by
    have := hf
    simp only [comFlags, List.mem_cons, List.not_mem_nil, or_false] at this
    rcases this with e | e | e | e | e | e | e <;> rw [e] <;> decide
  unfold computeConstraintsContinuous
  rw [symbolic_eq pData.flag pData.bc _ pts 1 hpts hdim, hc]
  have : computeWwaypoints pData.flag [] pData.bc Ts.sum = .ub := by
    have := hf
    simp only [comFlags, List.mem_cons, List.not_mem_nil, or_false] at this
    rcases this with e | e | e | e | e | e | e <;> rw [e] at hpts ⊢ <;>
      simp [computeWwaypoints, frontGravity, hpts]
  rw [this]
  rfl

/-! ## A standing robot -/

/-- Generator of the gravito-inertial wrench at the point `(1,0,1)` along gravity, scaled by `s`. -/
def genDown (s : ℝ) : V3 × V3 := (![0, 0, -s], ![0, s, 0])

/-- Contact phase of mass one hundred with generators `gens`, one polytope row and one kinematic row. -/
def standContact (gens : List (V3 × V3)) : ContactData :=
  { contactPhase := some { mass := 100, gravity := ![0, 0, -10], poly := [((![0, 0, 1], 0), 0)],
                           polyOk := true, isPP := true, gens := gens },
    Kin := [![1, 0, 0]], kin := [2], Ang := [], ang := [] }

/-- Two phases, the second with one more contact; the robot stays at `(1,0,1)`. -/
def standProblem (rep : Representation) : ProblemData :=
  { contacts := [standContact [genDown 1], standContact [genDown 0.5, genDown 0.5]],
    bc := ⟨![1, 0, 1], 0, 0, 0, ![1, 0, 1], 0, 0, 0⟩, l0 := 0,
    useAngularMomentum := false, flag := 11#32, constraintAcceleration := true,
    maxAcceleration := 1, reduce_h := 0.1, costFunction := 1, representation := rep }

theorem standProblem_accepted (rep : Representation) : AcceptedC (standProblem rep) [1, 2] ![0, 0, -10] := by
  refine ⟨rfl, by simp, by simp, by simp [standProblem, comFlags], by simp [standProblem], ?_⟩
  intro ct hct
  simp only [standProblem, List.mem_cons, List.not_mem_nil, or_false] at hct
  have hne : ((![0, 0, 1], 0) : V3 × V3) ≠ 0 := by
    intro h
    have := congrFun (congrArg Prod.fst h) 2
    simp at this
  rcases hct with rfl | rfl
  · exact ⟨_, rfl, rfl, rfl, fun _ => ⟨rfl, rfl, by simp, by simpa using hne, by simp [standContact]⟩⟩
  · exact ⟨_, rfl, rfl, rfl, fun _ => ⟨rfl, rfl, by simp, by simpa using hne, by simp [standContact]⟩⟩

theorem standProblem_pts (rep : Representation) (T : ℝ) (pts : List V3)
    (h : computeConstantWaypoints (standProblem rep).flag (standProblem rep).bc T = .ok pts) :
    pts = [![1, 0, 1], ![1, 0, 1], fun _ => 0, ![1, 0, 1]] := by
  simp [computeConstantWaypoints, standProblem] at h
  rw [← h]
  simp only [c0_dc0_c1.computeConstantWaypoints]
  refine list4_eq ?_ ?_ ?_ ?_ <;> funext k <;> fin_cases k <;> norm_num

/-- No constant waypoint is the origin. -/
theorem standProblem_hz (rep : Representation) (T : ℝ) (pts : List V3)
    (h : computeConstantWaypoints (standProblem rep).flag (standProblem rep).bc T = .ok pts) :
    ∀ i < pts.length, i ∉ freeSlots (standProblem rep).flag → ∃ k, 1e-12 < |nth pts i k| := by
  rw [standProblem_pts rep T pts h]
  intro i hi hf
  have hi4 : i < 4 := hi
  have hf2 : i ≠ 2 := by
    intro h; apply hf; rw [h]; simp [standProblem, freeSlots]
  have : i = 0 ∨ i = 1 ∨ i = 3 := by omega
  rcases this with rfl | rfl | rfl <;> exact ⟨0, by norm_num [nth]⟩

/-- The unknowns: the free point stays in place, every generator has weight one thousand. -/
def standSolution (c : ℕ) : ℝ := if h : c < 3 then ![1, 0, 1] ⟨c, h⟩ else 1000

theorem standSolution_first : first3 standSolution = ![1, 0, 1] := by
  funext k; fin_cases k <;> simp [first3, standSolution]

theorem standProblem_ws (rep : Representation) (ws : List Wp6)
    (h : computeWwaypoints (standProblem rep).flag (standProblem rep).contacts (standProblem rep).bc 3
      = .ok ws) : ∀ w ∈ ws, w.headAt ![1, 0, 1] = 0 ∧ w.tailAt ![1, 0, 1] = ![0, -10, 0] := by
  obtain ⟨pts, hpts⟩ : ∃ pts, computeConstantWaypoints (standProblem rep).flag (standProblem rep).bc 3 = .ok pts :=
    C01_answers _ (standProblem_accepted rep).flag _ _ (standProblem_accepted rep).capt
  have hp := standProblem_pts rep 3 pts hpts
  have hc : (standProblem rep).contacts = standContact [genDown 1] :: [standContact [genDown 0.5, genDown 0.5]] := rfl
  simp [standProblem] at hpts
  rw [hc] at h
  simp [computeWwaypoints, standProblem, frontGravity, hpts, standContact] at h
  rw [← h, hp]
  intro w hw
  simp only [c0_dc0_c1.computeWwaypoints, List.mem_cons, List.not_mem_nil, or_false] at hw
  rcases hw with rfl | rfl | rfl | rfl <;> constructor <;> funext k <;> fin_cases k <;>
    simp [Wp6.headAt, Wp6.tailAt, nth, skew, mulVec, dotProduct, Fin.sum_univ_three, Matrix.one_apply] <;>
    norm_num

/-- The standing robot satisfies every inequality, with both representations. -/
theorem standProblem_sat (κ : ℝ) (rep : Representation) (S : ContSystem)
    (hS : computeConstraintsContinuous κ (standProblem rep) [1, 2] = .ok S) :
    Sat S.A S.b standSolution := by
  obtain ⟨ct, e, pts, ws, S', R⟩ := cont_raw κ _ [1, 2] _ (standProblem_accepted rep)
  have hSS := R.hS
  rw [hS] at hSS
  cases hSS
  have e1 : ([1, 2] : List ℝ).sum = 3 := by norm_num
  have hp := standProblem_pts rep _ pts R.hpts
  have hpt : ∀ co ∈ symCoefs pts, co.at ![1, 0, 1] = ![1, 0, 1] := by
    refine (forall_map _ (fun w : Coefs => w.at ![1, 0, 1]) (fun v => v = ![1, 0, 1])).mpr ?_
    rw [symCoefs_at, hp]
    have hz1 : (symbolicOf 1 ![1, 0, 1]).toCoefs.at ![1, 0, 1] = ![1, 0, 1] :=
      symbolic_at_const _ _ ⟨0, by norm_num⟩
    simp only [List.map_cons, List.map_nil, hz1, symbolic_at_free]
    simp
  have hacc : ∀ co ∈ secondDeriv κ (symCoefs pts), co.at ![1, 0, 1] = 0 := by
    refine (forall_map _ (fun w : Coefs => w.at ![1, 0, 1]) (fun v => v = 0)).mpr ?_
    rw [secondDeriv_at, symCoefs_at, hp]
    have hz1 : (symbolicOf 1 ![1, 0, 1]).toCoefs.at ![1, 0, 1] = ![1, 0, 1] :=
      symbolic_at_const _ _ ⟨0, by norm_num⟩
    simp only [List.map_cons, List.map_nil, hz1, symbolic_at_free]
    simp [derivCtrl]
  have hwr := standProblem_ws rep ws (by rw [← e1]; exact R.hws)
  rw [R.kin]
  intro p hp2
  rw [standSolution_first]
  obtain ⟨gens, hct⟩ : ∃ gens, ct p = standContact gens := by
    have := List.mem_of_getElem? (R.hct p hp2)
    simp only [standProblem, List.mem_cons, List.not_mem_nil, or_false] at this
    rcases this with h | h
    · exact ⟨_, h⟩
    · exact ⟨_, h⟩
  have he := R.he p hp2
  rw [hct] at he
  have he' := (Option.some.inj he).symm
  refine ⟨fun co hco => ?_, fun _ v hv => ?_, fun co hco k => ?_⟩
  · rw [subCoefs_const _ _ _ hpt _ _ _ co hco, hct]
    intro q hq
    simp [standContact] at hq
    subst hq
    simp [dot]
  · rw [subWp6_const (headLin ![1, 0, 1]) (·.headAt ![1, 0, 1]) (fun _ => rfl) ws 0
      (fun w hw => (hwr w hw).1) _ _ _ v hv,
      subWp6_const (tailLin ![1, 0, 1]) (·.tailAt ![1, 0, 1]) (fun _ => rfl) ws _
      (fun w hw => (hwr w hw).2) _ _ _ v hv, he']
    intro r hr
    simp at hr
    subst hr
    unfold WrenchRowOk
    have : Real.sqrt (dot (![0, 0, 1] : V3) ![0, 0, 1] + dot (0 : V3) 0) = 1 := by
      rw [Real.sqrt_eq_one]; simp [dot]
    rw [this]
    simp [dot, standProblem]
    norm_num
  · rw [subCoefs_const _ _ _ hacc _ _ _ co hco]
    simp [standProblem]

/-- The hypotheses of `C22_sound`, `C22_kinematics_every_instant`, `C25_every_instant` can be met. -/
example (κ : ℝ) : ∃ S pts, AcceptedC (standProblem 1) [1, 2] ![0, 0, -10] ∧
    computeConstraintsContinuous κ (standProblem 1) [1, 2] = .ok S ∧ Sat S.A S.b standSolution ∧
    computeConstantWaypoints (standProblem 1).flag (standProblem 1).bc ([1, 2] : List ℝ).sum = .ok pts ∧
    ∀ i < pts.length, i ∉ freeSlots (standProblem 1).flag → ∃ k, 1e-12 < |nth pts i k| := by
  obtain ⟨S, hS, -⟩ := C21_in_bounds_and_complete κ _ _ _ (standProblem_accepted 1)
  obtain ⟨pts, hpts⟩ := C01_answers (standProblem 1).flag (standProblem_accepted 1).flag
    (standProblem 1).bc ([1, 2] : List ℝ).sum (standProblem_accepted 1).capt
  exact ⟨S, pts, standProblem_accepted 1, hS, standProblem_sat κ 1 S hS, hpts,
    standProblem_hz 1 _ pts hpts⟩

theorem genDown_nested : ConeLe
    { mass := 100, gravity := ![0, 0, -10], poly := [((![0, 0, 1], 0), 0)], polyOk := true, isPP := true,
      gens := [genDown 1] }
    { mass := 100, gravity := ![0, 0, -10], poly := [((![0, 0, 1], 0), 0)], polyOk := true, isPP := true,
      gens := [genDown 0.5, genDown 0.5] } := by
  rintro f τ ⟨β, h1, h2, h3⟩
  refine ⟨fun _ => β 0, fun k _ => h1 0 (by simp), ?_, ?_⟩
  · rw [← h2]
    funext k
    fin_cases k <;> simp [Finset.sum_range_succ, genDown]
    ring
  · rw [← h3]
    funext k
    fin_cases k <;> simp [Finset.sum_range_succ, genDown]
    ring

/-- The contacts are added one after the other. -/
theorem standProblem_nested (rep : Representation) : NestedPhases (standProblem rep).contacts := by
  intro p ct ct' e e' h1 h2 h3 h4
  have hp : p = 0 := by
    have : p + 1 < (standProblem rep).contacts.length := by
      rw [List.getElem?_eq_some_iff] at h2; exact h2.1
    simp [standProblem] at this; exact this
  subst hp
  simp only [standProblem, List.getElem?_cons_zero, Option.some.injEq] at h1
  simp only [standProblem, zero_add, List.getElem?_cons_succ, List.getElem?_cons_zero,
    Option.some.injEq] at h2
  subst h1 h2
  simp only [standContact, Option.some.injEq] at h3 h4
  subst h3 h4
  exact ⟨by simp, fun _ => genDown_nested⟩

/-- The standing robot satisfies the equalities and bounds of the formulation with forces. -/
theorem standProblem_eqSat (κ : ℝ) (S : ContSystem)
    (hS : computeConstraintsContinuous κ (standProblem 2) [1, 2] = .ok S) :
    EqSat S.D S.d standSolution ∧ AboveBounds S.minBounds standSolution := by
  obtain ⟨ct, e, pts, ws, S', R⟩ := cont_raw κ _ [1, 2] _ (standProblem_accepted 2)
  have hSS := R.hS
  rw [hS] at hSS
  cases hSS
  have e1 : ([1, 2] : List ℝ).sum = 3 := by norm_num
  have hwr := standProblem_ws 2 ws (by rw [← e1]; exact R.hws)
  have hrep : (standProblem 2).representation ≠ DOUBLE_DESCRIPTION := by
    simp [standProblem, DOUBLE_DESCRIPTION]
  constructor
  · rw [(R.eqn hrep).2]
    intro j q hq
    have hq' := List.mem_of_getElem? hq
    have hblk : (∃ t D, q.1 ∈ subWp6 ws ([1, 2] : List ℝ).sum t D) ∧ (q.2 = e 0 ∨ q.2 = e 1) := by
      have hsub : ∀ (l : List Wp6) a b c, ∀ v ∈ forceRange l a b c, v ∈ l := by
        intro l a b c v hv
        unfold forceRange at hv
        have h2 : ∀ l' : List Wp6, (∀ v ∈ l', v ∈ l) → v ∈ (if a > 0 ∧ a < b then l'.drop 1 else l') → v ∈ l := by
          intro l' hl' hv'
          by_cases h : a > 0 ∧ a < b
          · rw [if_pos h] at hv'; exact hl' _ (List.mem_of_mem_drop hv')
          · rw [if_neg h] at hv'; exact hl' _ hv'
        refine h2 _ ?_ hv
        intro v hv
        cases c with
        | none => exact hv
        | some n =>
          by_cases h : n ≤ b
          · simp only [if_pos h] at hv; exact List.mem_of_mem_dropLast hv
          · simp only [if_neg h] at hv; exact hv
      simp only [contBlocks, List.append_nil, List.mem_append, List.mem_map] at hq'
      rcases hq' with ⟨v, hv, rfl⟩ | ⟨v, hv, rfl⟩
      · exact ⟨⟨_, _, hsub _ _ _ _ _ hv⟩, Or.inl rfl⟩
      · exact ⟨⟨_, _, hsub _ _ _ _ _ hv⟩, Or.inr rfl⟩
    obtain ⟨⟨t, D, hmem⟩, hq2⟩ := hblk
    rw [standSolution_first]
    have hh : q.1.headAt ![1, 0, 1] = 0 := subWp6_const (headLin ![1, 0, 1]) (·.headAt ![1, 0, 1])
      (fun _ => rfl) ws 0 (fun w hw => (hwr w hw).1) _ _ _ _ hmem
    have ht : q.1.tailAt ![1, 0, 1] = ![0, -10, 0] := subWp6_const (tailLin ![1, 0, 1]) (·.tailAt ![1, 0, 1])
      (fun _ => rfl) ws _ (fun w hw => (hwr w hw).2) _ _ _ _ hmem
    have hy : ∀ a b, standSolution (3 + a + b) = 1000 := by
      intro a b; unfold standSolution; rw [dif_neg (by omega)]
    simp only [hy]
    rw [hh, ht]
    have he0 : some (e 0) = (standContact [genDown 1]).contactPhase := by
      have h1 := R.he 0 (by simp)
      have h2 := R.hct 0 (by simp)
      rw [← h1]
      simp [standProblem] at h2; rw [h2]
    have he1 : some (e 1) = (standContact [genDown 0.5, genDown 0.5]).contactPhase := by
      have h1 := R.he 1 (by simp)
      have h2 := R.hct 1 (by simp)
      rw [← h1]
      simp [standProblem] at h2; rw [← h2]
    rcases hq2 with h | h
    · rw [h, Option.some.inj he0]
      constructor <;> funext k <;> fin_cases k <;> simp [genDown] <;> norm_num
    · rw [h, Option.some.inj he1]
      constructor <;> funext k <;> fin_cases k <;> simp [genDown, Finset.sum_range_succ] <;> norm_num
  · intro c b hb
    rw [R.min, if_neg hrep] at hb
    by_cases hc : c < 3
    · rw [List.getElem?_append_left (by simpa using hc), List.getElem?_replicate, if_pos hc] at hb
      cases hb
      have : c = 0 ∨ c = 1 ∨ c = 2 := by omega
      rcases this with rfl | rfl | rfl <;> simp [standSolution] <;> norm_num
    · rw [List.getElem?_append_right (by simpa using hc), List.getElem?_replicate] at hb
      split_ifs at hb with h
      cases hb
      simp [standSolution, hc]

/-- The hypotheses of `C23_sound` can be met. -/
example (κ : ℝ) : ∃ S, AcceptedC (standProblem 2) [1, 2] ![0, 0, -10] ∧
    NestedPhases (standProblem 2).contacts ∧
    computeConstraintsContinuous κ (standProblem 2) [1, 2] = .ok S ∧ Sat S.A S.b standSolution ∧
    EqSat S.D S.d standSolution ∧ AboveBounds S.minBounds standSolution := by
  obtain ⟨S, hS, -⟩ := C21_in_bounds_and_complete κ _ _ _ (standProblem_accepted 2)
  obtain ⟨h1, h2⟩ := standProblem_eqSat κ S hS
  exact ⟨S, standProblem_accepted 2, standProblem_nested 2, hS, standProblem_sat κ 2 S hS, h1, h2⟩

end Verif
