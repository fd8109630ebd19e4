import Verif.Props.C94

/-!
# C94: exact arithmetic is a case of rounded arithmetic
-/

namespace Verif
open FExp Matrix

/-! ## The assembly with the exact functions is the assembly of the exact model -/

section
variable (pData : ProblemData) (T : ℝ)

theorem exact_switchLoop (k : ℕ) (w : Wp6) (l : List ℕ) : ∀ s, (RowFns.exact pData T).switchLoop pData k w l s = switchLoop pData k w l s := by
  induction l with
  | nil => intro s; rfl
  | cons i l ih =>
    rintro ⟨p, mH, st⟩
    unfold RowFns.switchLoop switchLoop
    simp only [ih]
    rfl

theorem exact_stabLoop (g : V3) (ids : List ℕ) (ws : List Wp6) : ∀ k p mH st,
    (RowFns.exact pData T).stabLoop pData g ids ws k p mH st = stabLoop pData g ids ws k p mH st := by
  induction ws with
  | nil => intros; rfl
  | cons w ws ih =>
    intro k p mH st
    unfold RowFns.stabLoop stabLoop
    simp only [ih, exact_switchLoop]
    rfl

theorem exact_kinSwitchLoop (k : ℕ) (co : Coefs) (l : List ℕ) : ∀ i s, (RowFns.exact pData T).kinSwitchLoop pData k co l i s = kinSwitchLoop pData k co l i s := by
  induction l with
  | nil => intros; rfl
  | cons j l ih =>
    rintro i ⟨p, st⟩
    unfold RowFns.kinSwitchLoop kinSwitchLoop
    simp only [ih]
    rfl

theorem exact_kinLoop (ids : List ℕ) (cs : List Coefs) : ∀ k p st, (RowFns.exact pData T).kinLoop pData ids cs k p st = kinLoop pData ids cs k p st := by
  induction cs with
  | nil => intros; rfl
  | cons co cs ih =>
    intro k p st
    unfold RowFns.kinLoop kinLoop
    simp only [ih, exact_kinSwitchLoop]
    rfl

theorem exact_accLoop (cs : List Coefs) : ∀ st, (RowFns.exact pData T).accLoop cs st = accLoop pData.maxAcceleration cs st := by
  induction cs with
  | nil => intros; rfl
  | cons co cs ih =>
    intro st
    unfold RowFns.accLoop accLoop
    simp only [ih]
    rfl
end

/-- The values of the exact functions. -/
theorem exact_values {pData : ProblemData} {T : ℝ} {pts : List V3} {ws : List Wp6} (hpts : computeConstantWaypoints pData.flag pData.bc T = .ok pts)
    (hws : computeWwaypoints pData.flag pData.contacts pData.bc T = .ok ws) (hl : ws.length ≤ 12) :
    (∀ t, (RowFns.exact pData T).w t = wSum ws ((List.range (ws.length - 1 + 1)).map fun i => ⟨ws.length - 1, i⟩) (min (t / T) 1) ⟨0, 0, 0, 0⟩) ∧
    (∀ t, (RowFns.exact pData T).co t = evaluateCurveAtTime pData.flag pts (min (t / T) 1)) ∧
    ∀ t, (RowFns.exact pData T).ac t = evaluateAccelerationCurveAtTime pData.flag pts T (min (t / T) 1) := by
  refine ⟨fun t => ?_, fun t => ?_, fun t => ?_⟩
  · simp only [RowFns.exact, hws, Out.ok_bind, bern_list _ (show ws.length - 1 < 2 ^ 32 - 1 by omega)]
  · simp only [RowFns.exact, hpts, Out.ok_bind]
  · simp only [RowFns.exact, hpts, Out.ok_bind]

/-- C94, link: with the exact functions the assembly is `computeConstraintsOneStep` of the exact model. -/
theorem C94_exact_assembly (pData : ProblemData) (Ts : List ℝ) (g : V3) (h : Accepted pData Ts g) (l : TTime) :
    (RowFns.exact pData Ts.sum).computeConstraintsOneStep pData Ts.length l = computeConstraintsOneStep pData Ts.length Ts.sum l := by
  obtain ⟨pts, hpts⟩ := C01_answers pData.flag h.flag pData.bc Ts.sum h.capt
  obtain ⟨ct0, e0, hc0, hg0, hgr⟩ := h.phase 0 (List.length_pos_iff.mpr h.ne)
  obtain ⟨rest, hrest⟩ : ∃ rest, pData.contacts = ct0 :: rest := by
    cases hcs : pData.contacts with
    | nil => rw [hcs] at hc0; simp at hc0
    | cons a r => rw [hcs] at hc0; simp at hc0; exact ⟨r, by rw [hc0]⟩
  obtain ⟨ws, hws, hwne, hwl⟩ := wwaypoints_ok pData.flag h.flag ct0 rest e0 hg0.1 pData.bc Ts.sum pts hpts
  rw [← hrest] at hws
  obtain ⟨v1, v2, v3⟩ := exact_values hpts hws hwl
  have s1 : ∀ st ids, (RowFns.exact pData Ts.sum).assignStabilityConstraints pData st l ids = assignStabilityConstraints pData st l Ts.sum ids := by
    intro st ids
    unfold RowFns.assignStabilityConstraints assignStabilityConstraints computeDiscretizedWwaypoints
    simp only [hws, Out.ok_bind, bern_list _ (show ws.length - 1 < 2 ^ 32 - 1 by omega), v1, exact_stabLoop]
    rfl
  have s2 : ∀ st ids, (RowFns.exact pData Ts.sum).assignKinematicConstraints pData st l ids = assignKinematicConstraints pData st l Ts.sum ids := by
    intro st ids
    unfold RowFns.assignKinematicConstraints assignKinematicConstraints computeDiscretizedWaypoints
    simp only [hpts, Out.ok_bind, v2, exact_kinLoop]
  have s3 : ∀ st, (RowFns.exact pData Ts.sum).assignAccelerationConstraints pData st l = assignAccelerationConstraints pData st l Ts.sum := by
    intro st
    unfold RowFns.assignAccelerationConstraints assignAccelerationConstraints computeDiscretizedAccelerationWaypoints
    simp only [hpts, Out.ok_bind, v3, exact_accLoop]
  unfold RowFns.computeConstraintsOneStep computeConstraintsOneStep
  simp only [s1, s2, s3]

/-! ## The exact functions are allowed -/

theorem sumTo_self {u : ℝ} (hu : 0 ≤ u) (k : ℕ) {n : ℕ} (x : Fin n → ℝ) : SumTo k u x (∑ i, x i) := by
  unfold SumTo
  rw [sub_self, abs_zero]
  exact mul_nonneg (pow_one_add_nonneg k hu) (Finset.sum_nonneg fun i _ => abs_nonneg _)

theorem relTo_self {u : ℝ} (hu : 0 ≤ u) (k : ℕ) (x : ℝ) : RelTo k u x x := by
  unfold RelTo
  rw [sub_self, abs_zero]
  exact mul_nonneg (pow_one_add_nonneg k hu) (abs_nonneg _)

theorem accFp_sum {u : ℝ} (hu : 0 ≤ u) (l : List (ℝ × ℝ)) : ∀ a, AccFp u l a (a + (l.map fun q => q.1 * q.2).sum) := by
  induction l with
  | nil => intro a; simp [AccFp]
  | cons q l ih =>
    intro a
    refine ⟨q.1 * q.2, a + q.1 * q.2, roundsTo_self hu _, roundsTo_self hu _, ?_⟩
    have := ih (a + q.1 * q.2)
    rw [List.map_cons, List.sum_cons, ← add_assoc]
    exact this

theorem normalizeFp_self {u : ℝ} (hu : 0 ≤ u) (rows : List (V3 × ℝ)) : NormalizeFp u rows (Normalize rows).1 := by
  unfold NormalizeFp Normalize
  generalize removeZeroRows rows = q
  obtain ⟨l, o⟩ := q
  cases o with
  | none => rfl
  | some k =>
    refine ⟨_, ?_, rfl⟩
    rw [List.forall₂_map_right_iff]
    refine List.forall₂_same.mpr fun r _ => ⟨_, _, sumTo_self hu 3 _, roundsTo_self hu _, fun j => ?_, ?_⟩
    · rw [eNorm, dotProduct]
      exact roundsTo_self hu _
    · rw [eNorm, dotProduct]
      exact roundsTo_self hu _

theorem forall₂_map_self {α β : Type} {R : α → β → Prop} {f : α → β} (l : List α) (h : ∀ a ∈ l, R a (f a)) : List.Forall₂ R l (l.map f) := by
  induction l with
  | nil => exact List.Forall₂.nil
  | cons a l ih => exact List.Forall₂.cons (h a List.mem_cons_self) (ih fun b hb => h b (List.mem_cons_of_mem _ hb))

theorem hRow_self {u : ℝ} (hu : 0 ≤ u) (m ρ : ℝ) (r : (V3 × V3) × ℝ) : UpdateHRowFp u m ρ r (hRow m ρ r) := by
  refine ⟨fun i => -(six r.1 i * m), _, _, fun i => roundsTo_self hu _, sumTo_self hu 6 _, roundsTo_self hu _, fun i => ?_, ?_⟩
  · rw [hRow_six]
    exact roundsTo_self hu _
  · simp only [hRow]
    split_ifs
    · exact roundsTo_self hu _
    · rfl

theorem rawRow_self {u : ℝ} (hu : 0 ≤ u) (g : V3) (w : Wp6) (r : (V3 × V3) × ℝ) : StabRowFp u g w r (rawRow g w r) := by
  refine ⟨fun j => ?_, _, fun i => roundsTo_self hu _, ?_⟩
  · rw [(rawRow_sum g w r).1 j]
    exact sumTo_self hu 6 _
  · rw [(rawRow_sum g w r).2]
    exact sumTo_self hu 7 _

theorem stab_self {u : ℝ} (hu : 0 ≤ u) (H : HRows) (g : V3) (w : Wp6) : StabFp u H g w (dynamicStabilityConstraints H g w) :=
  ⟨H.map (rawRow g w), forall₂_map_self H fun r _ => rawRow_self hu g w r, normalizeFp_self hu _⟩

theorem wsum_self {u : ℝ} (hu : 0 ≤ u) {ws : List Wp6} (hne : ws ≠ []) (s : ℝ) {w : Wp6}
    (h : wSum ws ((List.range (ws.length - 1 + 1)).map fun i => ⟨ws.length - 1, i⟩) s ⟨0, 0, 0, 0⟩ = .ok w) : WSumFp u ws s w := by
  have hpos : 0 < ws.length := List.length_pos_iff.mpr hne
  rw [show ws.length - 1 + 1 = ws.length by omega] at h
  refine ⟨(List.range ws.length).map fun i => (Bern.mk (ws.length - 1) i).eval s, forall₂_map_self _ fun i _ => relTo_self hu 64 _, fun i => ?_⟩
  obtain ⟨k1, k2⟩ := wSum_mat s i ws _ _ _ h
  have z1 : ∀ j, (⟨0, 0, 0, 0⟩ : Wp6).mat i j = 0 := by intro j; fin_cases i <;> rfl
  have z2 : (⟨0, 0, 0, 0⟩ : Wp6).vec i = 0 := by fin_cases i <;> rfl
  have e : ∀ f : Wp6 → ℝ, ((List.zipWith (fun b p => (b, f p)) ((List.range ws.length).map fun i => (Bern.mk (ws.length - 1) i).eval s) ws).map fun q => q.1 * q.2) =
      List.zipWith (fun (b : Bern) p => b.eval s * f p) ((List.range ws.length).map fun i => ⟨ws.length - 1, i⟩) ws := by
    intro f
    rw [List.map_zipWith, List.zipWith_map_left, List.zipWith_map_left]
  refine ⟨fun j => ?_, ?_⟩
  · rw [k1 j, z1, ← e fun w => w.mat i j]
    exact accFp_sum hu _ 0
  · rw [k2, z2, ← e fun w => w.vec i]
    exact accFp_sum hu _ 0

/-- C94, link: the functions of the exact model are among those that `RowFns.Rounded` allows, for every unit roundoff. -/
theorem C94_exact_rounded {u : ℝ} (hu : 0 ≤ u) (pData : ProblemData) (Ts : List ℝ) (g : V3) (h : Accepted pData Ts g) :
    (RowFns.exact pData Ts.sum).Rounded u pData g Ts.sum := by
  have hT := h.total
  obtain ⟨pts, hpts⟩ := C01_answers pData.flag h.flag pData.bc Ts.sum h.capt
  have hpl := (C01_boundary_conditions pData.flag h.flag pData.bc Ts.sum hT.ne' pts hpts 0).1
  have hp := pointsFp_self hu hpts
  obtain ⟨ct0, e0, hc0, hg0, hgr⟩ := h.phase 0 (List.length_pos_iff.mpr h.ne)
  obtain ⟨rest, hrest⟩ : ∃ rest, pData.contacts = ct0 :: rest := by
    cases hcs : pData.contacts with
    | nil => rw [hcs] at hc0; simp at hc0
    | cons a r => rw [hcs] at hc0; simp at hc0; exact ⟨r, by rw [hc0]⟩
  obtain ⟨ws, hws, hwne, hwl⟩ := wwaypoints_ok pData.flag h.flag ct0 rest e0 hg0.1 pData.bc Ts.sum pts hpts
  obtain ⟨es, hes, hval⟩ := wws_val h.flag hg0.1 hpts hws
  rw [← hrest] at hws
  obtain ⟨v1, v2, v3⟩ := exact_values hpts hws hwl
  refine ⟨⟨pts, ws, hp, ⟨es, hes, ?_⟩, fun t => ?_⟩, ⟨pts, hp, fun t => ?_⟩, ⟨pts, hp, fun t => ?_⟩, ?_, ?_, ?_, ?_⟩
  · rw [← hgr, ← hval pData.bc 0]
    refine forall₂_map_self es fun e he i d t => ?_
    have hv : ∀ d t, FWp6.val (env d (nth pts) e0.gravity Ts.sum t) e = FWp6.val (env pData.bc (nth pts) e0.gravity Ts.sum 0) e := by
      intro d t
      have := (hval d t).trans (hval pData.bc 0).symm
      exact (List.map_inj_left.mp this) e he
    refine ⟨fun j => ?_, ?_⟩
    · rw [← hv d t, FWp6.val_mat]
      exact computes_self hu _ _
    · rw [← hv d t, FWp6.val_vec]
      exact computes_self hu _ _
  · obtain ⟨w, hw, -⟩ := wSum_eq ws ((List.range (ws.length - 1 + 1)).map fun i => ⟨ws.length - 1, i⟩) (min (t / Ts.sum) 1) ⟨0, 0, 0, 0⟩ (by simp; omega)
    exact ⟨_, w, timeFp_self hu, wsum_self hu hwne _ hw, by rw [v1, hw]⟩
  · obtain ⟨co, hco, -⟩ := C02_position_coefs_partial pData.flag h.flag pts hpl (min (t / Ts.sum) 1)
    exact ⟨_, co, timeFp_self hu, curveFp_self hu h.flag hco, by rw [v2, hco]⟩
  · obtain ⟨_, _, -, -, hk⟩ := C03_acceleration_coefs_partial pData.flag h.flag pts hpl Ts.sum hT.ne' 0
    obtain ⟨co, hco, -⟩ := hk (min (t / Ts.sum) 1)
    exact ⟨_, co, timeFp_self hu, accFp_self hu h.flag hco, by rw [v3, hco]⟩
  · intro ct e h1 h2 h3 h4
    have hH : updateH pData.reduce_h ct = .ok (e.poly.map (hRow e.mass pData.reduce_h)) := by
      have := updateH_rows (ρ := pData.reduce_h) (ct := { ct with kin := [] }) (e := e) ⟨h1, h2, h3, h4, fun h => absurd rfl h⟩
      exact this
    exact ⟨_, forall₂_map_self _ fun r _ => hRow_self hu _ _ r, hH⟩
  · exact fun H g w => stab_self hu H g w
  · intro ct co
    show List.Forall₂ _ _ (List.zipWith _ _ _)
    have : List.zipWith (fun (K : V3) k => (co.first • K, k - K ⬝ᵥ co.second)) ct.Kin ct.kin =
        (List.zip ct.Kin ct.kin).map fun q => (co.first • q.1, q.2 - q.1 ⬝ᵥ co.second) := by
      rw [List.zip, List.map_zipWith]
    rw [this]
    refine forall₂_map_self _ fun q _ => ⟨fun j => ?_, ?_⟩
    · show RoundsTo u _ (co.first * q.1 j)
      rw [mul_comm]
      exact roundsTo_self hu _
    · have e : q.2 - q.1 ⬝ᵥ co.second = ∑ i, (Fin.cons q.2 fun j => -(q.1 j * co.second j) : Fin 4 → ℝ) i := by
        rw [Fin.sum_univ_succ]
        simp [dotProduct, sub_eq_add_neg]
      rw [e]
      exact sumTo_self hu 4 _
  · exact fun co => ⟨_, _, fun i => roundsTo_self hu _, fun i => roundsTo_self hu _, rfl⟩

end Verif
