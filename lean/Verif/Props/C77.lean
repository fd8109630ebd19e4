import Verif.Props.C02Jerk
import Verif.Props.C07
import Verif.Props.C56

/-!
# C77 — the set with jerks in the CoM planner on samples

The planner does not reject the flag 255. The assembly is in bounds, but its rows constrain other points than those
of the motion.
-/

namespace Verif
open Matrix

/-- A problem with the set with jerks that the planner accepts. -/
structure AcceptedJerk (pData : ProblemData) (Ts : List ℝ) (g : V3) : Prop where
  size : Ts.length = pData.contacts.length
  ne : Ts ≠ []
  pos : ∀ T ∈ Ts, 0 < T
  good : GoodContacts pData.contacts g
  flag : pData.flag = 255#32

/-- The control points of the set with jerks, the free one excepted, as a function of the boundary conditions. -/
noncomputable def jerkPts (d : BC) (T : ℝ) : List V3 :=
  [d.c0, d.c0 + (T / 8) • d.dc0, d.c0 + (T / 4) • d.dc0 + (T ^ 2 / 56) • d.ddc0,
    d.c0 + (3 * T / 8) • d.dc0 + (3 * T ^ 2 / 56) • d.ddc0 + (T ^ 3 / 336) • d.j0, 0,
    d.c1 - (3 * T / 8) • d.dc1 + (3 * T ^ 2 / 56) • d.ddc1 - (T ^ 3 / 336) • d.j1,
    d.c1 - (T / 4) • d.dc1 + (T ^ 2 / 56) • d.ddc1, d.c1 - (T / 8) • d.dc1, d.c1]

theorem jerkPts_eq (d : BC) (T : ℝ) : computeConstantWaypoints 255#32 d T = .ok (jerkPts d T) := by
  simp only [computeConstantWaypoints]
  simp [c0_dc0_ddc0_j0_j1_ddc1_dc1_c1.computeConstantWaypoints, jerkPts]
  refine ⟨?_, ?_, ?_, ?_, ?_, ?_, ?_⟩ <;> funext k <;> simp <;> ring

theorem AcceptedJerk.total {pData : ProblemData} {Ts : List ℝ} {g : V3} (h : AcceptedJerk pData Ts g) :
    0 < Ts.sum := by
  have hne := h.ne
  have hpos := h.pos
  cases Ts with
  | nil => exact absurd rfl hne
  | cons T Ts =>
    have := List.sum_nonneg fun T hT => (hpos T (List.mem_cons_of_mem _ hT)).le
    have := hpos T List.mem_cons_self
    rw [List.sum_cons]; linarith

/-- C77. The assembly is in bounds and complete, and `x` solves the system iff, at every constrained time `t`, the
wrench of the wrench waypoints is admissible and the point `c(t) + (1 - t/T)^8 (c1 - c0)` (not `c(t)`) is in the
kinematic polytope, and the acceleration bound holds for `c''(t) + 56/T^2 (1 - t/T)^6 (c1 - c0)`. Here `c` is the
curve on the control points of the set. -/
theorem C77_meaning (pData : ProblemData) (Ts : List ℝ) (g : V3) (h : AcceptedJerk pData Ts g) (l : TTime)
    (hl : Discretisation Ts l) :
    ∃ A b ws, computeConstraintsOneStep pData Ts.length Ts.sum l = .ok (A, b) ∧ A.cols = 3 ∧ b.rows = A.rows ∧
      b.cols = 1 ∧ computeWwaypoints pData.flag pData.contacts pData.bc Ts.sum = .ok ws ∧ ∀ x : V3,
      let c := curve 8 (fill 255#32 (nth (jerkPts pData.bc Ts.sum)) x) Ts.sum
      ∃ v a, IsDeriv c v ∧ IsDeriv v a ∧
        (Sat A b (ext3 x) ↔
          (∀ t p, Constrained l t p → AtPhase pData.contacts p fun ct e =>
            WrenchOk e pData.reduce_h (e.mass • (g - headCurve ws x (t / Ts.sum)))
              (e.mass • (-tailCurve ws x (t / Ts.sum))) ∧
            KinOk ct (c t + (1 - t / Ts.sum) ^ 8 • (pData.bc.c1 - pData.bc.c0))) ∧
          (pData.constraintAcceleration = true → ∀ q ∈ l, ∀ k,
            |(a q.1 + (56 / Ts.sum ^ 2 * (1 - q.1 / Ts.sum) ^ 6) • (pData.bc.c1 - pData.bc.c0)) k|
              ≤ pData.maxAcceleration)) := by
  obtain ⟨ht, hb⟩ := hl.tags h.ne h.pos
  have hT := h.total
  have hphase : ∀ i < Ts.length, ∃ ct e, pData.contacts[i]? = some ct ∧ GoodContact ct e ∧ e.gravity = g := by
    intro i hi
    rw [h.size] at hi
    obtain ⟨e, he, hg⟩ := h.good pData.contacts[i] (List.getElem_mem hi)
    exact ⟨_, e, List.getElem?_eq_getElem hi, he, hg⟩
  have hpts : computeConstantWaypoints pData.flag pData.bc Ts.sum = .ok (jerkPts pData.bc Ts.sum) := by
    rw [h.flag]; exact jerkPts_eq _ _
  obtain ⟨ct, e, hct, hce, -⟩ := hphase 0 ht.lt
  obtain ⟨rest, hrest⟩ : ∃ rest, pData.contacts = ct :: rest := by
    cases hcs : pData.contacts with
    | nil => rw [hcs] at hct; simp at hct
    | cons a r => rw [hcs] at hct; simp at hct; exact ⟨r, by rw [hct]⟩
  obtain ⟨ws, hws, hne, hwl⟩ : ∃ ws, computeWwaypoints pData.flag pData.contacts pData.bc Ts.sum = .ok ws ∧ ws ≠ [] ∧
      ws.length ≤ 12 := by
    rw [h.flag, hrest]
    exact ⟨_, by simp [computeWwaypoints, frontGravity, hce.1, computeConstantWaypoints]; rfl,
      by simp [c0_dc0_ddc0_j0_j1_ddc1_dc1_c1.computeWwaypoints],
      by simp [c0_dc0_ddc0_j0_j1_ddc1_dc1_c1.computeWwaypoints]⟩
  have hC2 := C02_jerk_error (jerkPts pData.bc Ts.sum) rfl
  choose CO hCO hCOx using hC2
  have hC3 := C03_jerk_error (jerkPts pData.bc Ts.sum) rfl Ts.sum hT.ne'
  obtain ⟨_, _, _, _, hA0⟩ := hC3 0
  choose AO hAO _ using hA0
  obtain ⟨A, b, L, F, h1, h2, h3, h4, h5, h6, h7, h8⟩ := oneStep_rows pData Ts.length Ts.sum hT l ht
    (fun q hq => (hb q hq).2) g hphase _ hpts ws hne hwl hws CO AO (by rw [h.flag]; exact hCO) (by rw [h.flag]; exact hAO)
  refine ⟨A, b, ws, h1, h2, h3, h4, hws, fun x => ?_⟩
  obtain ⟨v, a, hv, ha, hax⟩ := hC3 x
  refine ⟨v, a, hv, ha, ?_⟩
  refine rows_sem ht hphase h2 h5 h6 h7 h8 x
    (fun t => curve 8 (fill 255#32 (nth (jerkPts pData.bc Ts.sum)) x) Ts.sum t
      + (1 - t / Ts.sum) ^ 8 • (pData.bc.c1 - pData.bc.c0))
    (fun t => a t + (56 / Ts.sum ^ 2 * (1 - t / Ts.sum) ^ 6) • (pData.bc.c1 - pData.bc.c0)) ?_ ?_
  · intro t
    rw [hCOx]
    rfl
  · intro t
    obtain ⟨co, hco, hx⟩ := hax (t / Ts.sum)
    rw [hAO] at hco
    cases hco
    rw [hx, div_mul_cancel₀ _ hT.ne']
    rfl

/-- C77, the planner in exact arithmetic: it returns; a success satisfies the assembled system (`C77_meaning`), a
failure means that the system has no solution, or that the iteration limit is at most 2^(number of rows). The
returned curve starts at `c0`. -/
theorem C77_verdict (lib : Lib) (hL : LibOk lib) (he : lib.eps = 0) (pData : ProblemData) (Ts : List ℝ) (g : V3)
    (h : AcceptedJerk pData Ts g) (hr : pData.representation = DOUBLE_DESCRIPTION)
    (hc : pData.costFunction = DISTANCE_TRAVELED) (n : ℕ) (hn : 0 < n) :
    ∃ A b res N, computeConstraintsOneStep pData Ts.length Ts.sum (computeDiscretizedTimeFixed Ts n) = .ok (A, b) ∧
      (∀ fuel ≥ N, computeCOMTrajFixedSize lib fuel pData Ts n = .ok res) ∧
      (res.success = true → Sat A b (ext3 res.point) ∧ res.c_of_t.eval 0 = pData.bc.c0) ∧
      (res.success = false → lib.maxIter ≤ 2 ^ A.rows ∨ ∀ x', ¬ Sat A b (ext3 x')) := by
  have hT := h.total
  have hT' : ¬ Ts.sum ≤ 0 := not_le.mpr hT
  obtain ⟨A, b, -, hA, hcols, hbr, hbc, -⟩ := C77_meaning pData Ts g h _ (Or.inl ⟨n, hn, rfl⟩)
  obtain ⟨k, w, hk, hgen⟩ : ∃ k w, 0 < k ∧ genCostFunction pData Ts Ts.sum
      (computeDiscretizedTimeFixed Ts n) 3 = .ok (costH 0 k, costG 0 w) := by
    refine ⟨1, -fun k => (pData.bc.c0 k + pData.bc.c1 k) / 2, one_pos, ?_⟩
    unfold genCostFunction costGenCostFunction computeCostMidPoint
    rw [if_neg (by rw [hc]; decide), if_pos hc]
    exact cost_blocks 0 _ _
  have hfits : Fits A b (Mat.noRows A.cols) (Mat.noRows 1) (costH 0 k) (costG 0 w) :=
    ⟨⟨rfl, rfl⟩, ⟨hbr, hbc, hcols⟩, ⟨rfl, hcols⟩⟩
  obtain ⟨q, N, hrun, hxl, hsucc, hfail⟩ := solve_exact lib hL he hfits [] (List.replicate 3 0) (Or.inl rfl)
    (costH_posDef 0 k hk) (Nat.zero_le _)
  have hxl' : q.x.length = 3 := hxl
  have hall : ∀ y, AllSat A b (Mat.noRows A.cols) (Mat.noRows 1) [] y ↔ Sat A b y := by
    intro y
    unfold AllSat
    refine ⟨fun h => h.1, fun h => ⟨h, fun r hr => absurd hr (Nat.not_lt_zero _), fun c b h => by simp at h⟩⟩
  have hp : computeConstantWaypoints pData.flag pData.bc Ts.sum = .ok (jerkPts pData.bc Ts.sum) := by
    rw [h.flag]; exact jerkPts_eq _ _
  obtain ⟨c, hcv, hc0⟩ : ∃ c, computeBezierCurve pData.flag Ts.sum (jerkPts pData.bc Ts.sum) (first3 (unk q.x)) = .ok c ∧
      c.eval 0 = pData.bc.c0 := by
    rw [h.flag]
    refine ⟨_, by simp [computeBezierCurve, bezierInit, bezierEnd, mkBezier, rd, hT', Flag.has, INIT_POS, INIT_VEL,
      INIT_ACC, END_POS, END_VEL, END_ACC, jerkPts]; rfl, ?_⟩
    simp only [Bezier.eval, zero_div]
    rw [bez_at_zero]
    simp
  have hrun' : ∀ fuel ≥ N, computeCOMTrajFixedSize lib fuel pData Ts n = genTraj q pData Ts.sum := by
    intro fuel hfuel
    unfold computeCOMTrajFixedSize
    rw [if_pos hr, if_neg (not_not.mpr h.size)]
    dsimp only
    rw [hA, Out.ok_bind]
    dsimp only
    rw [hgen, Out.ok_bind]
    dsimp only
    rw [hrun fuel hfuel, Out.ok_bind]
  by_cases hq : q.success = true
  · have hh : head3 q.x = .ok (first3 (unk q.x)) := by
      unfold head3
      rw [if_pos (by omega)]
      rfl
    refine ⟨A, b, { success := true, cost := q.cost, x := List.ofFn (first3 (unk q.x)), c_of_t := c,
                    dL_of_t := Bezier.zero Ts.sum, dc1 := c.derivate c.T 1, ddc1 := c.derivate c.T 2 }, N, hA, fun fuel hfuel => ?_,
      fun _ => ⟨?_, hc0⟩, fun hs => by simp at hs⟩
    · rw [hrun' fuel hfuel]
      unfold genTraj
      rw [if_pos hq, hh, Out.ok_bind, hp, Out.ok_bind, hcv, Out.ok_bind]
      rfl
    · have hpt : (fun k : Fin 3 => (List.ofFn (first3 (unk q.x))).getD k 0) = first3 (unk q.x) := by
        funext k
        fin_cases k <;> rfl
      unfold ResultDataCOMTraj.point
      dsimp only
      rw [hpt, sat_first3 hcols]
      exact (hall _).mp (hsucc hq).1
  · refine ⟨A, b, ResultDataCOMTraj.default, N, hA, fun fuel hfuel => ?_, fun hs => ?_, fun _ => ?_⟩
    · rw [hrun' fuel hfuel]
      unfold genTraj; rw [if_neg hq]
    · simp [ResultDataCOMTraj.default] at hs
    · rcases hfail (by simpa using hq) with h1 | h1 | ⟨i, hi, -⟩
      · exact Or.inl (by simpa using h1)
      · exact Or.inr fun x' hx' => h1 _ ((hall _).mpr hx')
      · exact absurd hi (Nat.not_lt_zero _)

/-- One contact that only allows positions with `x ≤ 0`. -/
def wallContact : ContactData :=
  { contactPhase := some { mass := 1, gravity := 0, poly := [], polyOk := true, isPP := true, gens := [] },
    Kin := [![1, 0, 0]], kin := [0], Ang := [], ang := [] }

/-- From `(1,0,0)`, which is not allowed, to the origin. -/
noncomputable def wallProblem : ProblemData :=
  { contacts := [wallContact], bc := ⟨![1, 0, 0], 0, 0, 0, 0, 0, 0, 0⟩, l0 := 0, useAngularMomentum := false,
    flag := 255#32, constraintAcceleration := false, maxAcceleration := 0, reduce_h := 0, costFunction := 2,
    representation := 1 }

theorem wallProblem_accepted : AcceptedJerk wallProblem [1] 0 := by
  refine ⟨rfl, by simp, by simp, ?_, rfl⟩
  intro ct hct
  simp only [wallProblem, List.mem_singleton] at hct
  subst hct
  exact ⟨_, ⟨rfl, rfl, by norm_num, by simp, fun _ => rfl⟩, rfl⟩

/-- The intended claim is false: a problem whose start is outside the kinematic polytope, on which every call succeeds
with a motion from that start. -/
theorem C77_refuted : ∃ (pData : ProblemData) (Ts : List ℝ) (n : ℕ), AcceptedJerk pData Ts 0 ∧ 0 < n ∧
    ∃ M, ∀ maxIter > M, ∃ res N, (∀ fuel ≥ N, computeCOMTrajFixedSize (exactLib maxIter) fuel pData Ts n = .ok res) ∧
      res.success = true ∧ Constrained (computeDiscretizedTimeFixed Ts n) 0 0 ∧
      ¬ AtPhase pData.contacts 0 fun ct _ => KinOk ct (res.c_of_t.eval 0) := by
  have hl : computeDiscretizedTimeFixed [1] 1 = [(0, 0), (1, 0)] := by
    simp [computeDiscretizedTimeFixed, fixedOuter, fixedInner]
  obtain ⟨A', b', ws, hA', -, -, -, -, hm'⟩ := C77_meaning wallProblem [1] 0 wallProblem_accepted _
    (Or.inl ⟨1, one_pos, rfl⟩)
  refine ⟨wallProblem, [1], 1, wallProblem_accepted, one_pos, 2 ^ A'.rows, fun maxIter hm => ?_⟩
  obtain ⟨A, b, res, N, hA, hrun, hs, hf⟩ := C77_verdict (exactLib maxIter) (exactLib_ok maxIter) rfl wallProblem [1] 0
    wallProblem_accepted rfl rfl 1 one_pos
  rw [hA] at hA'
  cases hA'
  have hsucc : res.success = true := by
    by_contra hn
    rcases hf (by simpa using hn) with h1 | h1
    · exact absurd h1 (not_le.mpr hm)
    · apply h1 0
      obtain ⟨v, a, -, -, hiff⟩ := hm' 0
      rw [hiff]
      refine ⟨?_, by simp [wallProblem]⟩
      intro t p hp
      rw [hl] at hp
      have hp' : p = 0 ∧ (t = 0 ∨ t = 1) := by
        rcases hp with hp | ⟨l₁, i, t', l₂, he, hne⟩
        · simp at hp
          tauto
        · have h1 : (t, i) ∈ ([(0, 0), (1, 0)] : List (ℝ × ℤ)) := by rw [he]; simp
          have h2 : (t', (p : ℤ)) ∈ ([(0, 0), (1, 0)] : List (ℝ × ℤ)) := by rw [he]; simp
          simp at h1 h2
          omega
      obtain ⟨rfl, ht⟩ := hp'
      refine ⟨wallContact, _, rfl, rfl, by simp [WrenchOk], ?_⟩
      have hpt : curve 8 (fill 255#32 (nth (jerkPts wallProblem.bc ([1] : List ℝ).sum)) 0) ([1] : List ℝ).sum t
          + (1 - t / ([1] : List ℝ).sum) ^ 8 • (wallProblem.bc.c1 - wallProblem.bc.c0) = 0 := by
        rcases ht with rfl | rfl
        · simp only [curve, zero_div]
          rw [bez_at_zero]
          simp [fill, freeSlots, nth, jerkPts, wallProblem]
        · simp only [curve, List.sum_singleton, div_one]
          rw [bez_at_one]
          simp [fill, freeSlots, nth, jerkPts, wallProblem]
      rw [hpt]
      intro q hq
      simp [wallContact] at hq
      subst hq
      simp [dot]
  refine ⟨res, N, hrun, hsucc, ?_, ?_⟩
  · rw [hl]; left; simp
  · rintro ⟨ct, e, h1, h2, h3⟩
    simp [wallProblem] at h1
    subst h1
    rw [(hs hsucc).2] at h3
    have := h3 (![1, 0, 0], 0) (by simp [wallContact])
    simp [wallProblem, dot] at this
    norm_num at this

end Verif
