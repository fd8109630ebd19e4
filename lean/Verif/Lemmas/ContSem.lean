import Verif.Lemmas.Cont
import Verif.Props.C18
import Verif.Props.C53

/-!
# Meaning of the system of the continuous formulation
-/

namespace Verif
open Matrix

/-- A problem the continuous formulation accepts: one contact phase per duration, durations positive,
one of the seven constraint sets (with zero final velocity for the capturability set), every contact
phase present with as many kinematic bounds as rows and with gravity `g`; with the double description
the wrench polytope must be available and have no zero row. -/
structure AcceptedC (pData : ProblemData) (Ts : List ℝ) (g : V3) : Prop where
  size : Ts.length = pData.contacts.length
  ne : Ts ≠ []
  pos : ∀ T ∈ Ts, 0 < T
  flag : pData.flag ∈ comFlags
  capt : pData.flag = 19#32 → pData.bc.dc1 = 0
  phases : ∀ ct ∈ pData.contacts, ∃ e, ct.contactPhase = some e ∧ e.gravity = g ∧
    ct.Kin.length = ct.kin.length ∧ (pData.representation = DOUBLE_DESCRIPTION → GoodContact ct e)

theorem AcceptedC.total {pData : ProblemData} {Ts : List ℝ} {g : V3} (h : AcceptedC pData Ts g) :
    0 < Ts.sum := by
  have hne := h.ne
  have hpos := h.pos
  cases Ts with
  | nil => exact absurd rfl hne
  | cons T Ts =>
    have := List.sum_nonneg fun T hT => (hpos T (List.mem_cons_of_mem _ hT)).le
    have := hpos T List.mem_cons_self
    rw [List.sum_cons]; linarith

theorem contRows_forall (useDD : Bool) (ct : ℕ → ContactData) (e : ℕ → Equilibrium)
    (H : ℕ → HRows) (B T : ℝ) (c ddc : List Coefs) (w : List Wp6) (P : V3 × ℝ → Prop) (Ts : List ℝ) :
    ∀ i t, (∀ r ∈ contRows useDD ct e H B T c ddc w Ts i t, P r) ↔
      ∀ p < Ts.length,
        (∀ co ∈ subCoefs c T (t + (Ts.take p).sum) (Ts.getD p 0), ∀ r ∈ kinRows (ct (i + p)) co, P r) ∧
        (useDD = true → ∀ v ∈ subWp6 w T (t + (Ts.take p).sum) (Ts.getD p 0),
          ∀ r ∈ dynamicStabilityConstraints (H (i + p)) (e (i + p)).gravity v, P r) ∧
        (∀ co ∈ subCoefs ddc T (t + (Ts.take p).sum) (Ts.getD p 0), ∀ r ∈ accRows B co, P r) := by
  induction Ts with
  | nil => intro i t; simp [contRows]
  | cons D Ts ih =>
    intro i t
    have hhead : (∀ r ∈ ((subCoefs c T t D).flatMap (kinRows (ct i)) ++
      ((if useDD then (subWp6 w T t D).flatMap (dynamicStabilityConstraints (H i) (e i).gravity) else [])
        ++ (subCoefs ddc T t D).flatMap (accRows B))), P r) ↔
        (∀ co ∈ subCoefs c T t D, ∀ r ∈ kinRows (ct i) co, P r) ∧
        (useDD = true → ∀ v ∈ subWp6 w T t D,
          ∀ r ∈ dynamicStabilityConstraints (H i) (e i).gravity v, P r) ∧
        (∀ co ∈ subCoefs ddc T t D, ∀ r ∈ accRows B co, P r) := by
      simp only [List.forall_mem_append, List.mem_flatMap]
      refine and_congr ?_ (and_congr ?_ ?_)
      · exact ⟨fun h co hco r hr => h r ⟨co, hco, hr⟩, fun h r ⟨co, hco, hr⟩ => h co hco r hr⟩
      · cases useDD
        · simp
        · simp only [if_true, List.mem_flatMap, true_imp_iff]
          exact ⟨fun h co hco r hr => h r ⟨co, hco, hr⟩, fun h r ⟨co, hco, hr⟩ => h co hco r hr⟩
      · exact ⟨fun h co hco r hr => h r ⟨co, hco, hr⟩, fun h r ⟨co, hco, hr⟩ => h co hco r hr⟩
    rw [contRows, List.forall_mem_append, hhead, ih]
    constructor
    · rintro ⟨h0, h1⟩ p hp
      cases p with
      | zero => simpa using h0
      | succ p =>
        have := h1 p (by simpa using hp)
        simpa [List.take_succ_cons, add_assoc, add_comm, add_left_comm] using this
    · intro h
      refine ⟨by simpa using h 0 (by simp), fun p hp => ?_⟩
      have := h (p + 1) (by simpa using hp)
      simpa [List.take_succ_cons, add_assoc, add_comm, add_left_comm] using this

theorem range'_map_get {α : Type} (l : List α) (f : ℕ → α) (h : ∀ i < l.length, l[i]? = some (f i)) :
    l = (List.range' 0 l.length).map f := by
  apply List.ext_getElem?
  intro i
  by_cases hi : i < l.length
  · rw [h i hi]; simp [hi]
  · simp [List.getElem?_eq_none (Nat.le_of_not_lt hi), hi]

theorem wwaypoints_two (flag : Flag) (hf : flag ∈ comFlags) (cts : List ContactData) (d : BC) (T : ℝ)
    (ws : List Wp6) (h : computeWwaypoints flag cts d T = .ok ws) : 2 ≤ ws.length := by
  simp only [comFlags, List.mem_cons, List.not_mem_nil, or_false] at hf
  rcases hf with rfl | rfl | rfl | rfl | rfl | rfl | rfl <;>
    (simp [computeWwaypoints, Out.bind_eq_ok] at h
     obtain ⟨_, _, _, _, rfl⟩ := h
     simp [c0_dc0_c1.computeWwaypoints, c0_dc0_dc1.computeWwaypoints,
       c0_dc0_dc1_c1.computeWwaypoints, c0_dc0_ddc0.computeWwaypoints,
       c0_dc0_ddc0_c1.computeWwaypoints, c0_dc0_ddc0_dc1_c1.computeWwaypoints,
       c0_dc0_ddc0_ddc1_dc1_c1.computeWwaypoints])

/-- The position waypoints used by the continuous formulation. -/
noncomputable def symCoefs (pts : List V3) : List Coefs := pts.map fun p => (symbolicOf 1 p).toCoefs

/-- Everything the assembly gives, in terms of the lists of rows and blocks. -/
structure ContRaw (κ : ℝ) (pData : ProblemData) (Ts : List ℝ) (g : V3) (ct : ℕ → ContactData)
    (e : ℕ → Equilibrium) (pts : List V3) (ws : List Wp6) (S : ContSystem) : Prop where
  hct : ∀ i < Ts.length, pData.contacts[i]? = some (ct i)
  he : ∀ i < Ts.length, (ct i).contactPhase = some (e i)
  hg : ∀ i < Ts.length, (e i).gravity = g
  hpts : computeConstantWaypoints pData.flag pData.bc Ts.sum = .ok pts
  hlen : pts.length = degreeOf pData.flag + 1
  hws : computeWwaypoints pData.flag pData.contacts pData.bc Ts.sum = .ok ws
  hw2 : 2 ≤ ws.length
  hS : computeConstraintsContinuous κ pData Ts = .ok S
  arows : S.b.rows = S.A.rows
  bcols : S.b.cols = 1
  drows : S.d.rows = S.D.rows
  dcols : S.d.cols = 1
  cols : S.D.cols = S.A.cols
  ddcols : pData.representation = DOUBLE_DESCRIPTION → S.A.cols = 3 ∧ S.D.rows = 0
  min : S.minBounds = if pData.representation = DOUBLE_DESCRIPTION then []
    else List.replicate 3 (-100000) ++ List.replicate (S.A.cols - 3) 0
  kin : ∀ y, Sat S.A S.b y ↔ ∀ p < Ts.length,
    (∀ co ∈ subCoefs (symCoefs pts) Ts.sum (Ts.take p).sum (Ts.getD p 0),
      KinOk (ct p) (co.at (first3 y))) ∧
    (pData.representation = DOUBLE_DESCRIPTION →
      ∀ v ∈ subWp6 ws Ts.sum (Ts.take p).sum (Ts.getD p 0),
        WrenchOk (e p) pData.reduce_h ((e p).mass • (g - v.headAt (first3 y)))
          ((e p).mass • (-v.tailAt (first3 y)))) ∧
    (∀ co ∈ subCoefs (secondDeriv κ (symCoefs pts)) Ts.sum (Ts.take p).sum (Ts.getD p 0),
      ∀ k, |co.at (first3 y) k| ≤ pData.maxAcceleration)
  rows : pData.representation = DOUBLE_DESCRIPTION → ∃ (L : List (V3 × ℝ)) (H : ℕ → HRows), S.A.rows = L.length ∧
    (∀ r q, L[r]? = some q → (∀ c < 3, S.A.e r c = V3.get q.1 c) ∧ S.b.e r 0 = q.2) ∧
    (∀ i, GoodContact (ct i) (e i) ∧ updateH pData.reduce_h (ct i) = .ok (H i)) ∧
    ∀ P : V3 × ℝ → Prop, (∀ r ∈ L, P r) ↔ ∀ p < Ts.length,
      (∀ co ∈ subCoefs (symCoefs pts) Ts.sum (Ts.take p).sum (Ts.getD p 0), ∀ r ∈ kinRows (ct p) co, P r) ∧
      (∀ v ∈ subWp6 ws Ts.sum (Ts.take p).sum (Ts.getD p 0), ∀ r ∈ dynamicStabilityConstraints (H p) g v, P r) ∧
      (∀ co ∈ subCoefs (secondDeriv κ (symCoefs pts)) Ts.sum (Ts.take p).sum (Ts.getD p 0),
        ∀ r ∈ accRows pData.maxAcceleration co, P r)
  frows : pData.representation ≠ DOUBLE_DESCRIPTION → ∃ L : List (V3 × ℝ), S.A.rows = L.length ∧
    (∀ r q, L[r]? = some q → (∀ c < 3, S.A.e r c = V3.get q.1 c) ∧ S.b.e r 0 = q.2) ∧
    (∀ r c, 3 ≤ c → S.A.e r c = 0) ∧
    ∀ P : V3 × ℝ → Prop, (∀ r ∈ L, P r) ↔ ∀ p < Ts.length,
      (∀ co ∈ subCoefs (symCoefs pts) Ts.sum (Ts.take p).sum (Ts.getD p 0), ∀ r ∈ kinRows (ct p) co, P r) ∧
      (∀ co ∈ subCoefs (secondDeriv κ (symCoefs pts)) Ts.sum (Ts.take p).sum (Ts.getD p 0),
        ∀ r ∈ accRows pData.maxAcceleration co, P r)
  eqn : pData.representation ≠ DOUBLE_DESCRIPTION →
    S.A.cols = 3 + gcols (contBlocks e Ts.sum ws Ts 0 0 0) ∧
    ∀ y, EqSat S.D S.d y ↔ ∀ j q, (contBlocks e Ts.sum ws Ts 0 0 0)[j]? = some q →
        ∑ k ∈ Finset.range q.2.gens.length,
          y (3 + gcols ((contBlocks e Ts.sum ws Ts 0 0 0).take j) + k) • (q.2.gens.getD k 0).1
          = q.2.mass • (q.2.gravity - q.1.headAt (first3 y)) ∧
        ∑ k ∈ Finset.range q.2.gens.length,
          y (3 + gcols ((contBlocks e Ts.sum ws Ts 0 0 0).take j) + k) • (q.2.gens.getD k 0).2
          = q.2.mass • (-q.1.tailAt (first3 y))
  deqn : pData.representation ≠ DOUBLE_DESCRIPTION →
    S.D.rows = 6 * (contBlocks e Ts.sum ws Ts 0 0 0).length ∧
    ∀ j q, (contBlocks e Ts.sum ws Ts 0 0 0)[j]? = some q → ∀ r < 6, ∀ c,
      S.D.e (6 * j + r) c = blockEntry q (3 + gcols ((contBlocks e Ts.sum ws Ts 0 0 0).take j)) r c
  dval : pData.representation ≠ DOUBLE_DESCRIPTION →
    ∀ j q, (contBlocks e Ts.sum ws Ts 0 0 0)[j]? = some q → ∀ r < 6,
      S.d.e (6 * j + r) 0 = q.2.mass * (get6 q.2.gravity 0 r - get6 q.1.head q.1.tail r)

theorem cont_raw (κ : ℝ) (pData : ProblemData) (Ts : List ℝ) (g : V3) (h : AcceptedC pData Ts g) :
    ∃ ct e pts ws S, ContRaw κ pData Ts g ct e pts ws S := by
  obtain ⟨pts, hpts⟩ := C01_answers pData.flag h.flag pData.bc Ts.sum h.capt
  have hlen := (C01_boundary_conditions pData.flag h.flag pData.bc Ts.sum h.total.ne' pts hpts 0).1
  have hdeg : 3 ≤ degreeOf pData.flag := by
    have := h.flag
    simp only [comFlags, List.mem_cons, List.not_mem_nil, or_false] at this
    rcases this with e | e | e | e | e | e | e <;> rw [e] <;> decide
  have hN : 0 < Ts.length := List.length_pos_iff.mpr h.ne
  have hph : ∀ i, ∃ ct e, ct.contactPhase = some e ∧ e.gravity = g ∧ ct.Kin.length = ct.kin.length ∧
      (pData.representation = DOUBLE_DESCRIPTION → GoodContact ct e) ∧
      (i < Ts.length → pData.contacts[i]? = some ct) := by
    intro i
    by_cases hi : i < pData.contacts.length
    · obtain ⟨e, h1, h2, h3, h4⟩ := h.phases pData.contacts[i] (List.getElem_mem hi)
      exact ⟨_, e, h1, h2, h3, h4, fun _ => List.getElem?_eq_getElem hi⟩
    · have h0 : 0 < pData.contacts.length := by rw [← h.size]; exact hN
      obtain ⟨e, h1, h2, h3, h4⟩ := h.phases pData.contacts[0] (List.getElem_mem h0)
      exact ⟨_, e, h1, h2, h3, h4, fun h' => absurd (h.size ▸ h') hi⟩
  choose ct e he hg hk hgood hct using hph
  have hH : ∀ i, ∃ H, pData.representation = DOUBLE_DESCRIPTION →
      updateH pData.reduce_h (ct i) = .ok H ∧ H.length = (e i).poly.length := by
    intro i
    by_cases hd : pData.representation = DOUBLE_DESCRIPTION
    · exact ⟨_, fun _ => ⟨updateH_ok (hgood i hd), by simp⟩⟩
    · exact ⟨[], fun h' => absurd h' hd⟩
  choose H hH using hH
  obtain ⟨rest, hrest⟩ : ∃ rest, pData.contacts = ct 0 :: rest := by
    have := hct 0 hN
    cases hcs : pData.contacts with
    | nil => rw [hcs] at this; simp at this
    | cons a r => rw [hcs] at this; simp at this; exact ⟨r, by rw [this]⟩
  obtain ⟨ws, hws, hwne, -⟩ := wwaypoints_ok pData.flag h.flag (ct 0) rest (e 0) (he 0) pData.bc
    Ts.sum pts hpts
  rw [← hrest] at hws
  have hw2 := wwaypoints_two _ h.flag _ _ _ _ hws
  have hK : dimVarPts pData.flag = 1 := by
    have := h.flag
    simp only [comFlags, List.mem_cons, List.not_mem_nil, or_false] at this
    rcases this with e | e | e | e | e | e | e <;> rw [e] <;> decide
  have hsym := symbolic_eq pData.flag pData.bc Ts.sum pts 1 hpts hK
  set c := symCoefs pts with hc
  have hcl : c.length = degreeOf pData.flag + 1 := by rw [hc, symCoefs, List.length_map, hlen]
  set ddc := secondDeriv κ c with hddc
  have hddl : ddc.length = degreeOf pData.flag - 1 := by rw [hddc, secondDeriv_length, hcl]; omega
  set useDD := pData.representation == DOUBLE_DESCRIPTION with huse
  have huse' : useDD = true ↔ pData.representation = DOUBLE_DESCRIPTION := by rw [huse]; simp
  set R := contRows useDD ct e H pData.maxAcceleration Ts.sum c ddc ws Ts 0 0 with hR
  set B := contBlocks e Ts.sum ws Ts 0 0 0 with hB
  have hcts : pData.contacts = (List.range' 0 Ts.length).map ct := by
    rw [h.size]
    exact range'_map_get _ _ fun i hi => hct i (by rw [h.size]; exact hi)
  have hni : computeNumIneqContinuous pData.contacts Ts.length ((c.length : ℤ) - 1) ((ws.length : ℤ) - 1)
      useDD = .ok (R.length : ℤ) := by
    rw [computeNumIneqContinuous, hcts, numIneqCont_eq useDD ct e H pData.maxAcceleration Ts.sum c ddc ws
      (by rw [← List.length_pos_iff]; omega) hwne Ts.length (fun i _ => he i) (fun i _ => hk i)
      (fun hu i _ => (hH i (huse'.mp hu)).2) Ts 0 0 (by simp), Out.ok_bind]
    have : ((ddc.length : ℕ) : ℤ) = (c.length : ℤ) - 1 - 1 := by rw [hddl, hcl]; omega
    rw [this]
    simp only [Out.pure_eq]
    congr 1
    ring
  have hne : computeNumEqContinuous pData.contacts ((ws.length : ℤ) - 1) (!useDD)
      = .ok (if useDD then (0, 0) else (6 * (B.length : ℤ), (gcols B : ℤ))) := by
    unfold computeNumEqContinuous
    cases useDD with
    | true => rfl
    | false =>
      rw [if_pos (by rfl), if_neg (by rw [hrest]; simp), hcts, numEq_eq ct e Ts.sum ws hw2 Ts.length
        (fun i _ => he i) Ts 0 0 0 (by simp)]
      rfl
  set m := 3 + (if useDD then (0, 0) else (6 * (B.length : ℤ), (gcols B : ℤ))).2.toNat with hm
  set nf := (if useDD then (0, 0) else (6 * (B.length : ℤ), (gcols B : ℤ))).1.toNat with hnf
  have hm' : m = 3 + if useDD then 0 else gcols B := by rw [hm]; split_ifs <;> simp
  have hnf' : nf = if useDD then 0 else 6 * B.length := by
    rw [hnf]; split_ifs
    · simp
    · change (6 * (B.length : ℤ)).toNat = _
      omega
  obtain ⟨st, sf, hloop, hC, hF⟩ := contLoop_eq pData useDD Ts.length ct e H hct (fun i _ => he i)
    (fun i _ => hk i) (fun hu i _ => (hH i (huse'.mp hu)).1) Ts.sum c ddc ws R.length m nf m Ts
    h.pos 0 0 0 { A := Buf.zero R.length m, b := Buf.zero R.length 1, row := 0 }
    { D := Buf.zero nf m, d := Buf.zero nf 1, row := 0, col := 3 } [] [] le_rfl (by simp) (by simp)
    ⟨rfl, rfl, by omega, rfl, rfl, rfl, by simp, fun _ _ _ => rfl, by simp⟩
    ⟨rfl, rfl, rfl, rfl, rfl, rfl, by simp, by simp, fun _ _ _ => rfl⟩
    (by simp [hR]) (by
      intro hu
      rw [hnf', hm', hu, List.nil_append]
      simp [hB])
  rw [List.nil_append] at hC hF
  obtain ⟨A, b, hA, hb, a1, a2, a3, a4, a5, a6, a7⟩ := filledC_value hC rfl
  have hBl : 6 * (if useDD then [] else B).length = nf := by rw [hnf']; split_ifs <;> simp
  have hBg : 3 + gcols (if useDD then [] else B) = m := by rw [hm']; split_ifs <;> simp [gcols]
  obtain ⟨D, d, hD, hd, d1, d2, d3, d4, de, d5⟩ := filledF_value hF hBl hBg
  refine ⟨ct, e, pts, ws, { A := A, b := b, D := D, d := d, minBounds :=
      if useDD then [] else List.replicate 3 (-100000) ++ List.replicate (gcols B) 0 },
    hct, fun i _ => he i, fun i _ => hg i, hpts, hlen, hws, hw2, ?_, by rw [a1]; exact a3, a4,
    by rw [d1]; exact d3, d4, by rw [a2]; exact d2, ?_, ?_, ?_, ?_, ?_, ?_, ?_, ?_⟩
  · unfold computeConstraintsContinuous
    rw [hsym, Out.ok_bind, hws, Out.ok_bind]
    have hc' : List.map WpB.toCoefs (List.map (symbolicOf 1) pts) = c := by
      rw [hc, symCoefs, List.map_map]; rfl
    change contBody κ pData Ts (List.map WpB.toCoefs (List.map (symbolicOf 1) pts)) ws = _
    rw [hc']
    unfold contBody
    simp only []
    rw [← hddc, ← huse, hni]
    simp only [Out.ok_bind]
    rw [hne]
    simp only [Out.ok_bind]
    rw [← hnf, ← hm, Int.toNat_natCast, hloop]
    simp only [Out.ok_bind]
    rw [if_pos ⟨by rw [hC.row, hC.ar], by rw [hC.row, hC.br], by rw [hF.col, hF.dc, hBg],
      by rw [hF.row, hF.vr, hBl]⟩, hA, hb, hD, hd]
    simp only [Out.ok_bind, Out.pure_eq]
    congr 2
    cases useDD <;> simp
  · intro hr
    have hu := huse'.mpr hr
    rw [hu] at hm' hnf'
    exact ⟨by rw [a2, hm']; rfl, by rw [d1, hnf']; rfl⟩
  · change (if useDD = true then [] else _) = _
    by_cases hr : pData.representation = DOUBLE_DESCRIPTION
    · rw [if_pos hr, if_pos (huse'.mpr hr)]
    · rw [if_neg hr, if_neg (fun hu => hr (huse'.mp hu))]
      have hu : useDD = false := by
        cases hu : useDD
        · rfl
        · exact absurd (huse'.mp hu) hr
      rw [hu] at hm'
      change _ = _ ++ List.replicate (A.cols - 3) 0
      rw [a2, hm']
      simp
  · intro y
    rw [a5 y, contRows_forall]
    refine forall₂_congr fun p hp => ?_
    simp only [zero_add]
    refine and_congr ?_ (and_congr ?_ ?_)
    · exact forall₂_congr fun co _ => kin_rows_iff co (first3 y)
    · rw [huse']
      refine imp_congr_right fun hr => forall₂_congr fun v _ => ?_
      rw [hg]
      exact stab_rows_iff (hgood p hr) (hH p hr).1 g v (first3 y)
    · exact forall₂_congr fun co _ => acc_rows_iff _ co (first3 y)
  · intro hr
    refine ⟨R, H, a1, a6, fun i => ⟨hgood i hr, (hH i hr).1⟩, fun P => ?_⟩
    rw [hR, contRows_forall]
    refine forall₂_congr fun p hp => ?_
    simp only [zero_add, huse'.mpr hr, true_imp_iff, hg]
    exact Iff.rfl
  · intro hr
    have hu : useDD ≠ true := fun hu => hr (huse'.mp hu)
    refine ⟨R, a1, a6, a7, fun P => ?_⟩
    rw [hR, contRows_forall]
    refine forall₂_congr fun p hp => ?_
    simp only [zero_add, hu, false_imp_iff, true_and, Bool.false_eq_true]
    exact Iff.rfl
  · intro hr
    have hu : useDD = false := by
      cases hu : useDD
      · rfl
      · exact absurd (huse'.mp hu) hr
    rw [hu] at hm' d5
    refine ⟨by rw [a2, hm']; rfl, fun y => ?_⟩
    rw [d5 y]
    rfl
  · intro hr
    have hu : useDD = false := by
      cases hu : useDD
      · rfl
      · exact absurd (huse'.mp hu) hr
    rw [hu] at hnf' de
    exact ⟨by rw [d1, hnf']; rfl, fun j q hq r hr => (de j q hq r hr).1⟩
  · intro hr
    have hu : useDD = false := by
      cases hu : useDD
      · rfl
      · exact absurd (huse'.mp hu) hr
    rw [hu] at de
    exact fun j q hq r hr => (de j q hq r hr).2

end Verif
