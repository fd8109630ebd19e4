import Verif.Props.C23Ex

/-!
# C23 fails for phases that are not nested
-/

namespace Verif
open Matrix

/-- A phase that can only push along `f`. -/
def pushAlong (f : V3) : ContactData :=
  { contactPhase := some { mass := 1, gravity := 0, poly := [], polyOk := true, isPP := true, gens := [(f, 0)] },
    Kin := [], kin := [], Ang := [], ang := [] }

/-- Two phases of one second without gravity: first the force can only be along `x`, then only along
`-x`. -/
noncomputable def swapProblem : ProblemData :=
  { contacts := [pushAlong ![1, 0, 0], pushAlong ![-1, 0, 0]],
    bc := ⟨![1, 0, 0], 0, 0, 0, ![8 / 15, 0, 0], 0, 0, 0⟩, l0 := 0,
    useAngularMomentum := false, flag := 11#32, constraintAcceleration := true,
    maxAcceleration := 1000, reduce_h := 0, costFunction := 1, representation := 2 }

theorem swapProblem_accepted : AcceptedC swapProblem [1, 1] 0 := by
  refine ⟨rfl, by simp, by simp, by simp [swapProblem, comFlags], by simp [swapProblem], ?_⟩
  intro ct hct
  simp only [swapProblem, List.mem_cons, List.not_mem_nil, or_false] at hct
  rcases hct with rfl | rfl
  · exact ⟨_, rfl, rfl, rfl, by simp [swapProblem, DOUBLE_DESCRIPTION]⟩
  · exact ⟨_, rfl, rfl, rfl, by simp [swapProblem, DOUBLE_DESCRIPTION]⟩

theorem swap_pts (pts : List V3)
    (h : computeConstantWaypoints swapProblem.flag swapProblem.bc 2 = .ok pts) :
    pts = [![1, 0, 0], ![1, 0, 0], fun _ => 0, ![8 / 15, 0, 0]] := by
  simp [computeConstantWaypoints, swapProblem] at h
  rw [← h]
  simp only [c0_dc0_c1.computeConstantWaypoints]
  refine list4_eq ?_ ?_ ?_ ?_ <;> funext k <;> fin_cases k <;> norm_num

/-- The wrench waypoints for the free point `(2/5,0,0)`. -/
theorem swap_ws (ws : List Wp6)
    (h : computeWwaypoints swapProblem.flag swapProblem.contacts swapProblem.bc 2 = .ok ws) :
    ws.map (·.headAt ![2 / 5, 0, 0]) = [![-9 / 10, 0, 0], ![-7 / 30, 0, 0], ![13 / 30, 0, 0], ![11 / 10, 0, 0]] ∧
    ∀ w ∈ ws, w.tailAt ![2 / 5, 0, 0] = 0 := by
  obtain ⟨pts, hpts⟩ : ∃ pts, computeConstantWaypoints swapProblem.flag swapProblem.bc 2 = .ok pts :=
    C01_answers _ swapProblem_accepted.flag _ _ swapProblem_accepted.capt
  have hp := swap_pts pts hpts
  have hc : swapProblem.contacts = pushAlong ![1, 0, 0] :: [pushAlong ![-1, 0, 0]] := rfl
  simp [swapProblem] at hpts
  rw [hc] at h
  simp [computeWwaypoints, swapProblem, frontGravity, hpts, pushAlong] at h
  rw [← h, hp]
  constructor
  · simp only [c0_dc0_c1.computeWwaypoints, List.map_cons, List.map_nil]
    refine list4_eq ?_ ?_ ?_ ?_ <;> funext k <;> fin_cases k <;>
    simp [Wp6.headAt, nth, skew, mulVec, dotProduct, Fin.sum_univ_three, Matrix.one_apply] <;>
    norm_num
  · intro w hw
    simp only [c0_dc0_c1.computeWwaypoints, List.mem_cons, List.not_mem_nil, or_false] at hw
    rcases hw with rfl | rfl | rfl | rfl <;> funext k <;> fin_cases k <;>
      simp [Wp6.tailAt, nth, skew, mulVec, dotProduct, Fin.sum_univ_three]

/-- The head of control point `k` of a sub-curve. -/
theorem swap_sub (ws : List Wp6)
    (h : computeWwaypoints swapProblem.flag swapProblem.contacts swapProblem.bc 2 = .ok ws)
    (t D : ℝ) (k : ℕ) (hk : k < ws.length) :
    ((subWp6 ws 2 t D)[k]'(by simpa using hk)).headAt ![2 / 5, 0, 0]
      = ![-9 / 10 + (3 * (t / 2) + k * ((((D + t) / 2 - t / 2) / (1 - t / 2)) * (1 - t / 2))) * (2 / 3), 0, 0] := by
  obtain ⟨h1, -⟩ := swap_ws ws h
  have hl : ws.length = 4 := by
    have := congrArg List.length h1; simpa using this
  rw [← getD_map_lt (subWp6 ws 2 t D) (fun w => w.headAt ![2 / 5, 0, 0]) k (by simpa using hk),
    subWp6_map_ctrl (headLin ![2 / 5, 0, 0]) (·.headAt ![2 / 5, 0, 0]) (fun _ => rfl), h1]
  rw [extractCtrl_linear _ ![-9 / 10, 0, 0] ![2 / 3, 0, 0] ?_ _ _ k (by rw [hl] at hk; exact hk)]
  · funext j; fin_cases j <;> simp
  · intro i hi
    have : i = 0 ∨ i = 1 ∨ i = 2 ∨ i = 3 := by
      have : i < 4 := hi
      omega
    rcases this with rfl | rfl | rfl | rfl <;> funext j <;> fin_cases j <;> norm_num

/-- C23 fails for a support that changes completely at a switch (here: force along `x` only, then along
`-x` only): all constraints of the formulation are satisfied, but at the end of the first phase the
wrench is not generated by the forces of that phase. The last control point of the first phase is
constrained with the generators of the second phase only. -/
theorem C23_refuted : ∃ S y pts v a, computeConstraintsContinuous 1 swapProblem [1, 1] = .ok S ∧
    Sat S.A S.b y ∧ EqSat S.D S.d y ∧ AboveBounds S.minBounds y ∧ first3 y = ![2 / 5, 0, 0] ∧
    computeConstantWaypoints swapProblem.flag swapProblem.bc ([1, 1] : List ℝ).sum = .ok pts ∧
    IsDeriv (curve (degreeOf swapProblem.flag) (fill swapProblem.flag (nth pts) (first3 y))
      ([1, 1] : List ℝ).sum) v ∧ IsDeriv v a ∧ InPhase [1, 1] 0 1 ∧
    ¬ AtPhase swapProblem.contacts 0 fun _ e => ∃ τ, InCone e (e.mass • (0 - a 1)) τ := by
  obtain ⟨ct, e, pts, ws, S, R⟩ := cont_raw 1 swapProblem [1, 1] 0 swapProblem_accepted
  have e1 : ([1, 1] : List ℝ).sum = 2 := by norm_num
  have hws := R.hws
  have hpts := R.hpts
  rw [e1] at hws hpts
  obtain ⟨hw1, hw2⟩ := swap_ws ws hws
  have hl : ws.length = 4 := by
    have := congrArg List.length hw1; simpa using this
  have hp := swap_pts pts hpts
  have hrep : swapProblem.representation ≠ DOUBLE_DESCRIPTION := by
    simp [swapProblem, DOUBLE_DESCRIPTION]
  have hct0 : ct 0 = pushAlong ![1, 0, 0] := by
    have h2 := R.hct 0 (by simp); simp [swapProblem] at h2; exact h2.symm
  have hct1 : ct 1 = pushAlong ![-1, 0, 0] := by
    have h2 := R.hct 1 (by simp); simp [swapProblem] at h2; exact h2.symm
  have he0 := R.he 0 (by simp)
  rw [hct0] at he0
  have he0 := (Option.some.inj he0).symm
  have he1 := R.he 1 (by simp)
  rw [hct1] at he1
  have he1 := (Option.some.inj he1).symm
  set x : V3 := ![2 / 5, 0, 0] with hx
  set B := contBlocks e ([1, 1] : List ℝ).sum ws [1, 1] 0 0 0 with hB
  -- the blocks
  have hBm : ∀ q ∈ B, q.1.tailAt x = 0 ∧
      ((q.2 = e 0 ∧ ∃ r, 0 ≤ r ∧ q.1.headAt x = ![-r, 0, 0]) ∨
       (q.2 = e 1 ∧ ∃ r, 0 ≤ r ∧ q.1.headAt x = ![r, 0, 0])) := by
    intro q hq
    have hg0 : (e 0).gens.length = 1 := by rw [he0]; rfl
    have hg1 : (e 1).gens.length = 1 := by rw [he1]; rfl
    have ht : ∀ t D, ∀ v ∈ subWp6 ws 2 t D, v.tailAt x = 0 := fun t D v hv =>
      subWp6_const (tailLin x) (·.tailAt x) (fun _ => rfl) ws 0 hw2 2 t D v hv
    rw [hB, e1] at hq
    simp only [contBlocks, List.append_nil, List.mem_append, List.mem_map, zero_add, hg0, hg1,
      nextGens, List.isEmpty_cons, List.isEmpty_nil, Bool.false_eq_true, if_false, if_true] at hq
    rcases hq with ⟨v, hv, rfl⟩ | ⟨v, hv, rfl⟩
    · simp only [forceRange, le_refl, if_true] at hv
      simp at hv
      obtain ⟨k, hk, rfl⟩ := List.mem_iff_getElem.mp hv
      rw [List.length_dropLast, subWp6_length, hl] at hk
      rw [List.getElem_dropLast]
      refine ⟨ht _ _ _ (List.getElem_mem _), Or.inl ⟨rfl, 9 / 10 - k / 3, ?_, ?_⟩⟩
      · have : (k : ℝ) ≤ 2 := by exact_mod_cast (by omega : k ≤ 2)
        linarith
      · rw [swap_sub ws hws 0 1 k (by omega)]
        funext j; fin_cases j <;> simp
        ring
    · simp [forceRange] at hv
      obtain ⟨k, hk, rfl⟩ := List.mem_iff_getElem.mp hv
      rw [subWp6_length, hl] at hk
      refine ⟨ht _ _ _ (List.getElem_mem _), Or.inr ⟨rfl, 1 / 10 + k / 3, by positivity, ?_⟩⟩
      rw [swap_sub ws hws 1 1 k (by omega)]
      funext j; fin_cases j <;> simp
      ring
  have hg : ∀ q ∈ B, q.2.gens.length = 1 := by
    intro q hq
    rcases (hBm q hq).2 with ⟨h, -⟩ | ⟨h, -⟩
    · rw [h, he0]; rfl
    · rw [h, he1]; rfl
  have hgc : ∀ j ≤ B.length, gcols (B.take j) = j := by
    intro j hj
    unfold gcols
    have : (B.take j).map (fun q => q.2.gens.length) = List.replicate j 1 := by
      rw [List.eq_replicate_iff]
      refine ⟨by simp [hj], ?_⟩
      intro n hn
      simp only [List.mem_map] at hn
      obtain ⟨q, hq, rfl⟩ := hn
      exact hg q (List.mem_of_mem_take hq)
    rw [this]; simp
  -- the solution
  set y : ℕ → ℝ := fun c => if h : c < 3 then x ⟨c, h⟩ else ((B[c - 3]?).map fun q => |q.1.headAt x 0|).getD 0 with hy
  have hyx : first3 y = x := by
    funext k; have hk := k.2; simp [first3, hy]
  have hz1 : (symbolicOf 1 ![1, 0, 0]).toCoefs.at x = ![1, 0, 0] :=
    symbolic_at_const _ _ ⟨0, by norm_num⟩
  have hz3 : (symbolicOf 1 ![8 / 15, 0, 0]).toCoefs.at x = ![8 / 15, 0, 0] :=
    symbolic_at_const _ _ ⟨0, by norm_num⟩
  have hfill : fill swapProblem.flag (nth pts) x
      = fun i => ([![1, 0, 0], ![1, 0, 0], x, ![8 / 15, 0, 0]] : List V3).getD i 0 := by
    rw [hp]
    funext i
    have : freeSlots swapProblem.flag = [2] := rfl
    match i with
    | 0 => simp [fill, this, nth]
    | 1 => simp [fill, this, nth]
    | 2 => simp [fill, this]
    | 3 => simp [fill, this, nth]
    | n + 4 => simp [fill, this, nth]
  obtain ⟨v, hv, ha⟩ := curve_second [![1, 0, 0], ![1, 0, 0], x, ![8 / 15, 0, 0]] 1 rfl 2
  have hdd : derivCtrl (derivCtrl [![1, 0, 0], ![1, 0, 0], x, ![8 / 15, 0, 0]])
      = [![-36 / 10, 0, 0], ![44 / 10, 0, 0]] := by
    simp only [derivCtrl, List.length_cons, List.length_nil, List.tail_cons, List.zipWith_cons_cons,
      List.zipWith_nil_right, hx]
    have l2 : ∀ a b a' b' : V3, a = a' → b = b' → [a, b] = [a', b'] := by rintro _ _ _ _ rfl rfl; rfl
    refine l2 _ _ _ _ ?_ ?_ <;> funext k <;> fin_cases k <;> norm_num
  refine ⟨S, y, pts, v, _, R.hS, ?_, ?_, ?_, hyx, R.hpts, ?_, ha, ⟨by simp, by simp, by simp⟩, ?_⟩
  · rw [R.kin]
    intro p hp2
    have hkp : (ct p).Kin = [] ∧ (e p).poly = [] := by
      have : p = 0 ∨ p = 1 := by
        have : p < 2 := hp2
        omega
      rcases this with rfl | rfl
      · rw [hct0, he0]; exact ⟨rfl, rfl⟩
      · rw [hct1, he1]; exact ⟨rfl, rfl⟩
    refine ⟨fun co _ q hq => ?_, fun _ w _ r hr => ?_, ?_⟩
    · rw [hkp.1] at hq; simp at hq
    · rw [hkp.2] at hr; simp at hr
    · rw [hyx]
      intro co hco k
      obtain ⟨i, hi, rfl⟩ := List.mem_iff_getElem.mp hco
      rw [← getD_map_lt _ (·.at x) i hi, subCoefs_map, secondDeriv_at, symCoefs_at, hp]
      have hi2 : i < 2 := by
        rw [subCoefs_length, secondDeriv_length, symCoefs, List.length_map, hp] at hi; exact hi
      simp only [List.map_cons, List.map_nil, hz1, hz3, symbolic_at_free, hdd]
      rw [extractCtrl_linear _ ![-36 / 10, 0, 0] ![8, 0, 0] ?_ _ _ i (by simpa using hi2)]
      · have hp01 : p = 0 ∨ p = 1 := by
          have : p < 2 := hp2
          omega
        have hi01 : i = 0 ∨ i = 1 := by omega
        rw [e1]
        rcases hp01 with rfl | rfl <;> rcases hi01 with rfl | rfl <;> fin_cases k <;>
          simp [swapProblem] <;> norm_num [abs_le]
      · intro j hj
        have hj2 : j < 2 := hj
        have : j = 0 ∨ j = 1 := by omega
        rcases this with rfl | rfl <;> funext k <;> fin_cases k <;> norm_num
  · rw [(R.eqn hrep).2]
    intro j q hq
    have hjl : j < B.length := by
      rw [List.getElem?_eq_some_iff] at hq; exact hq.1
    have hmem : q ∈ B := List.mem_of_getElem? hq
    obtain ⟨htl, hhd⟩ := hBm q hmem
    have hyj : y (3 + j) = |q.1.headAt x 0| := by
      have h3 : ¬ 3 + j < 3 := by omega
      have h4 : 3 + j - 3 = j := by omega
      have hq' : B[j]? = some q := hq
      simp only [hy, h3, dif_neg, not_false_iff, h4, hq', Option.map_some, Option.getD_some]
    rw [hg q hmem, Finset.sum_range_one, Finset.sum_range_one, hyx, htl, hgc j hjl.le, add_zero, hyj]
    rcases hhd with ⟨hq2, r, hr, hqr⟩ | ⟨hq2, r, hr, hqr⟩
    · rw [hqr, hq2, he0]
      constructor <;> funext k <;> fin_cases k <;> simp [abs_of_nonneg hr]
    · rw [hqr, hq2, he1]
      constructor <;> funext k <;> fin_cases k <;> simp [abs_of_nonneg hr]
  · intro c b hb
    rw [R.min, if_neg hrep] at hb
    by_cases hc : c < 3
    · rw [List.getElem?_append_left (by simpa using hc), List.getElem?_replicate, if_pos hc] at hb
      cases hb
      have : c = 0 ∨ c = 1 ∨ c = 2 := by omega
      rcases this with rfl | rfl | rfl <;> simp [hy, hx]
      norm_num
    · rw [List.getElem?_append_right (by simpa using hc), List.getElem?_replicate] at hb
      split_ifs at hb with h
      cases hb
      simp only [hy, hc, dif_neg, not_false_iff]
      cases B[c - 3]? with
      | none => simp
      | some q => simp
  · rw [hyx, hfill, e1]; exact hv
  · rintro ⟨ct', e', h1, h2, τ, β, h3, h4, -⟩
    have hct' : ct' = pushAlong ![1, 0, 0] := by
      simp [swapProblem] at h1; exact h1.symm
    rw [hct'] at h2
    have he' := (Option.some.inj h2).symm
    rw [he', hdd] at h4
    rw [he'] at h3
    have := congrFun h4 0
    have hb0 : 0 ≤ β 0 := h3 0 (by simp)
    rw [bez_succ, bez_zero, bez_zero] at this
    simp at this
    norm_num at this
    linarith

end Verif
