import Verif.Props.C91
import Verif.Props.C25
import Verif.Props.C56

/-!
# C91: problems that differ, and the exception of the midpoint cost
-/

namespace Verif
open Matrix

/-- A start at rest at the origin with nothing selected at the end, no constraints, and the cost that pulls the free
point to the middle of `c0` and `c1 = a`. -/
noncomputable def freeMove (a : V3) : ProblemData :=
  { contacts := [freeContact], bc := ⟨0, 0, 0, 0, a, 0, 0, 0⟩, l0 := 0, useAngularMomentum := false, flag := 7#32,
    constraintAcceleration := false, maxAcceleration := 0, reduce_h := 0, costFunction := 2, representation := 1 }

theorem freeMove_accepted (a : V3) : Accepted (freeMove a) [1] 0 := by
  refine ⟨rfl, by simp, by simp, ?_, by simp [freeMove, comFlags], by simp [freeMove]⟩
  intro ct hct
  simp only [freeMove, List.mem_singleton] at hct
  subst hct
  exact ⟨_, ⟨rfl, rfl, by norm_num, by simp, by simp [freeContact]⟩, rfl⟩

theorem freeMove_point (a : V3) : ∃ M, ∀ maxIter > M, ∃ res N,
    (∀ fuel ≥ N, computeCOMTrajFixedSize (exactLib maxIter) fuel (freeMove a) [1] 1 = .ok res) ∧
      res.success = true ∧ res.point = (1 / 2 : ℝ) • a := by
  have hl : Discretisation [1] (computeDiscretizedTimeFixed [1] 1) := Or.inl ⟨1, one_pos, rfl⟩
  have hacc := freeMove_accepted a
  obtain ⟨A, b, hA, -⟩ := C18_in_bounds_and_complete _ _ _ hacc _ hl
  obtain ⟨pts, ws, hpts, hws, hsat⟩ := C19_meaning _ _ _ hacc _ hl A b hA
  have hall : ∀ x : V3, Sat A b (ext3 x) := by
    intro x
    obtain ⟨v, a', -, -, h⟩ := hsat x
    refine h.mpr ⟨fun t p hc => ?_, fun h => by simp [freeMove] at h⟩
    have hp : p < 1 := (hc.lt (hl.tags (by simp) (by simp)).1).1
    refine ⟨freeContact, _, ?_, rfl, ?_, ?_⟩
    · interval_cases p; rfl
    · intro r hr; simp at hr
    · intro r hr; simp [freeContact] at hr
  refine ⟨2 ^ A.rows, fun maxIter hM => ?_⟩
  obtain ⟨A', b', res, N, hA', hrun, hok, hfail⟩ := planSamples_exact (exactLib maxIter) (exactLib_ok maxIter) rfl
    _ _ _ hacc _ hl (Or.inl rfl)
  rw [hA] at hA'
  cases hA'
  have hs : res.success = true := by
    by_contra hs
    rcases hfail (by simpa using hs) with h1 | h1
    · change maxIter ≤ _ at h1
      omega
    · exact h1 0 (hall 0)
  refine ⟨res, N, fun fuel hfuel => ?_, hs, ?_⟩
  · have := hrun fuel hfuel
    unfold planSamples at this
    unfold computeCOMTrajFixedSize
    rw [if_pos (show (freeMove a).representation = DOUBLE_DESCRIPTION from rfl), if_neg (not_not.mpr hacc.size)]
    exact this
  · obtain ⟨-, v, a', hm, hopt⟩ := hok hs
    obtain ⟨v', a'', hm'⟩ := motion_exists (freeMove a) ([1] : List ℝ).sum pts hpts hacc.flag (by simp)
      ((1 / 2 : ℝ) • a)
    have h := hopt _ _ _ _ hm' (hall _)
    unfold motionCost at h
    rw [if_neg (by simp [freeMove, ACCELERATION]), if_neg (by simp [freeMove, ACCELERATION])] at h
    have e : (1 / 2 : ℝ) • ((freeMove a).bc.c0 + (freeMove a).bc.c1) = (1 / 2 : ℝ) • a := by simp [freeMove]
    rw [e, sub_self] at h
    have hz : dot (res.point - (1 / 2 : ℝ) • a) (res.point - (1 / 2 : ℝ) • a) ≤ 0 := h.trans (by simp [dot])
    funext k
    simp only [dot, Fin.sum_univ_three] at hz
    refine sub_eq_zero.mp (pow_eq_zero_iff (two_ne_zero)|>.mp ?_)
    have e0 := mul_self_nonneg ((res.point - (1 / 2 : ℝ) • a) 0)
    have e1 := mul_self_nonneg ((res.point - (1 / 2 : ℝ) • a) 1)
    have e2 := mul_self_nonneg ((res.point - (1 / 2 : ℝ) • a) 2)
    change (res.point - (1 / 2 : ℝ) • a) k ^ 2 = 0
    rw [sq]
    fin_cases k <;> dsimp only [Fin.zero_eta, Fin.mk_one, Fin.reduceFinMk] at * <;> linarith

/-- C91, the exception: with the cost `DISTANCE_TRAVELED` a final position that is not selected does change the
trajectory. -/
theorem C91_midpoint_reads : ∃ p p' : ProblemData, p' = { p with bc := { p.bc with c1 := p'.bc.c1 } } ∧
    p.flag.has END_POS = false ∧ ∃ M, ∀ maxIter > M, ∃ r r' N, ∀ fuel ≥ N,
      computeCOMTrajFixedSize (exactLib maxIter) fuel p [1] 1 = .ok r ∧
      computeCOMTrajFixedSize (exactLib maxIter) fuel p' [1] 1 = .ok r' ∧
      r.success = true ∧ r'.success = true ∧ r.x ≠ r'.x := by
  refine ⟨freeMove 0, freeMove ![2, 0, 0], rfl, by decide, ?_⟩
  obtain ⟨M, h⟩ := freeMove_point 0
  obtain ⟨M', h'⟩ := freeMove_point ![2, 0, 0]
  refine ⟨max M M', fun maxIter hm => ?_⟩
  obtain ⟨r, N, h1, h2, h3⟩ := h maxIter (lt_of_le_of_lt (le_max_left _ _) hm)
  obtain ⟨r', N', h1', h2', h3'⟩ := h' maxIter (lt_of_le_of_lt (le_max_right _ _) hm)
  refine ⟨r, r', max N N', fun fuel hf => ⟨h1 _ ((le_max_left _ _).trans hf), h1' _ ((le_max_right _ _).trans hf),
    h2, h2', fun hx => ?_⟩⟩
  have : r.point = r'.point := by
    unfold ResultDataCOMTraj.point
    rw [hx]
  rw [h3, h3'] at this
  have := congrFun this 0
  simp at this

/-- Two problems that differ in every field `SameCom` leaves free, with the double description. -/
noncomputable def pushA : ProblemData :=
  { contacts := [{ contactPhase := some { mass := 70, gravity := ![0, 0, -10], poly := [((![0, 0, 1], 0), 0)],
                                          polyOk := true, isPP := true, gens := [(![0, 0, 1], 0)] },
                   Kin := [![1, 0, 0]], kin := [1], Ang := [], ang := [] }],
    bc := ⟨![1, 0, 0], ![0, 1, 0], ![5, 5, 5], 1, ![2, 0, 0], ![6, 6, 6], 2, 3⟩, l0 := 0, useAngularMomentum := false,
    flag := 11#32, constraintAcceleration := false, maxAcceleration := 5, reduce_h := 0.1, costFunction := 1,
    representation := 1 }

/-- See `pushA`. -/
noncomputable def pushB : ProblemData :=
  { contacts := [{ contactPhase := some { mass := 70, gravity := ![0, 0, -10], poly := [((![0, 0, 1], 0), 0)],
                                          polyOk := true, isPP := false, gens := [] },
                   Kin := [![1, 0, 0]], kin := [1], Ang := [![1, 1, 1]], ang := [4] }],
    bc := ⟨![1, 0, 0], ![0, 1, 0], 0, 0, ![2, 0, 0], 0, 0, 0⟩, l0 := ![7, 7, 7], useAngularMomentum := true,
    flag := 11#32, constraintAcceleration := false, maxAcceleration := 5, reduce_h := 0.1, costFunction := 1,
    representation := 1 }

example : SameCom pushA pushB := by
  refine ⟨List.Forall₂.cons ⟨.some ⟨rfl, rfl, fun _ => ⟨rfl, rfl⟩, fun h => absurd rfl h⟩, rfl, rfl⟩ .nil, rfl,
    ⟨fun _ => rfl, fun _ => rfl, fun h => absurd h (by decide), fun h => absurd h (by decide), fun _ => rfl,
      fun h => absurd h (by decide), fun h => absurd h (by decide), fun h => absurd h (by decide)⟩,
    fun h => absurd h (by decide), rfl, rfl, rfl, rfl, rfl⟩

example : SameZero { pushA with l0 := ![1, 2, 3] } { pushA with l0 := ![3, 2, 1] } :=
  ⟨List.Forall₂.cons ⟨.some ⟨rfl, rfl, rfl, rfl, rfl⟩, rfl, rfl, fun _ => rfl⟩ .nil, rfl, rfl, rfl,
    fun h => absurd h (by simp [pushA]), rfl⟩

end Verif
