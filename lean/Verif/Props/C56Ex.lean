import Verif.Props.C56
import Verif.Props.C23Ex

/-!
# C56: problems on which the planner succeeds

The hypotheses of the theorems of `C56.lean` can be met, with runs that succeed.
-/

namespace Verif
open Matrix

/-- The two phases of `twoPhases`, any number of points per phase, an iteration limit that is large enough. -/
theorem twoPhases_succeeds (n : ℕ) (hn : 0 < n) : ∃ M, ∀ maxIter > M, ∃ res N,
    (∀ fuel ≥ N, computeCOMTrajFixedSize (exactLib maxIter) fuel twoPhases [1, 2] n = .ok res) ∧
      res.success = true := by
  have hl : Discretisation [1, 2] (computeDiscretizedTimeFixed [1, 2] n) := Or.inl ⟨n, hn, rfl⟩
  obtain ⟨A, b, hA, hsat⟩ := twoPhases_solution _ hl
  have hacc := twoPhases_accepted
  refine ⟨2 ^ A.rows, fun maxIter hM => ?_⟩
  obtain ⟨A', b', res, N, hA', hrun, -, hfail⟩ := planSamples_exact (exactLib maxIter) (exactLib_ok maxIter) rfl
    twoPhases [1, 2] _ hacc _ hl (goodCost twoPhases [1, 2] hacc.total hacc.ne hacc.flag hacc.capt _ hl
      (Or.inr ⟨rfl, by simp [twoPhases]⟩))
  have e : computeConstraintsOneStep twoPhases ([1, 2] : List ℝ).length ([1, 2] : List ℝ).sum
      (computeDiscretizedTimeFixed [1, 2] n) = .ok (A, b) := hA
  rw [e] at hA'
  cases hA'
  refine ⟨res, N, fun fuel hfuel => ?_, ?_⟩
  · have := hrun fuel hfuel
    unfold planSamples at this
    unfold computeCOMTrajFixedSize
    rw [if_pos (show twoPhases.representation = DOUBLE_DESCRIPTION from rfl), if_neg (not_not.mpr hacc.size)]
    exact this
  · by_contra hs
    rcases hfail (by simpa using hs) with h1 | h1
    · change maxIter ≤ _ at h1
      omega
    · exact h1 0 hsat

/-- The standing robot, continuous formulation. -/
theorem standProblem_succeeds (κ : ℝ) : ∃ M, ∀ maxIter > M, ∃ res N,
    (∀ fuel ≥ N, computeCOMTraj κ (exactLib maxIter) fuel (standProblem 1) [1, 2] (-1) SOLVER_QUADPROG = .ok res) ∧
      res.success = true := by
  obtain ⟨S, hS, -⟩ := C21_in_bounds_and_complete κ _ _ _ (standProblem_accepted 1)
  obtain ⟨pts, hpts⟩ := C01_answers (standProblem 1).flag (standProblem_accepted 1).flag
    (standProblem 1).bc ([1, 2] : List ℝ).sum (standProblem_accepted 1).capt
  refine ⟨2 ^ S.A.rows, fun maxIter hM => ?_⟩
  obtain ⟨S', res, N, hS', hrun, -, hfail⟩ := C56_continuous_partial κ (exactLib maxIter) (exactLib_ok maxIter) rfl
    _ _ _ (standProblem_accepted 1) rfl (by simp [standProblem]) (-1) (by norm_num) (Or.inr rfl) pts hpts
    (standProblem_hz 1 _ pts hpts)
  rw [hS] at hS'
  cases hS'
  refine ⟨res, N, hrun, ?_⟩
  by_contra hs
  rcases hfail (by simpa using hs) with h1 | h1
  · change maxIter ≤ _ at h1
    omega
  · exact h1 _ (standProblem_sat κ 1 S hS)

/-- Six pairs of opposite generators. -/
def axes6 : List (V3 × V3) :=
  [(![1, 0, 0], 0), (![-1, 0, 0], 0), (![0, 1, 0], 0), (![0, -1, 0], 0), (![0, 0, 1], 0), (![0, 0, -1], 0),
   (0, ![1, 0, 0]), (0, ![-1, 0, 0]), (0, ![0, 1, 0]), (0, ![0, -1, 0]), (0, ![0, 0, 1]), (0, ![0, 0, -1])]

/-- One phase whose generators span the space of wrenches. -/
def gripProblem : ProblemData :=
  { standProblem 2 with contacts := [standContact (genDown 1 :: axes6)] }

theorem gripProblem_accepted : AcceptedC gripProblem [3] ![0, 0, -10] := by
  refine ⟨rfl, by simp, by simp, by simp [gripProblem, standProblem, comFlags], by simp [gripProblem, standProblem], ?_⟩
  intro ct hct
  simp only [gripProblem, List.mem_singleton] at hct
  subst hct
  exact ⟨_, rfl, rfl, rfl, fun h => by simp [gripProblem, standProblem, DOUBLE_DESCRIPTION] at h⟩

theorem gripProblem_spans : ∀ ct ∈ gripProblem.contacts, ∀ e, ct.contactPhase = some e → Spans e := by
  intro ct hct e he u v h
  simp only [gripProblem, List.mem_singleton] at hct
  subst hct
  simp only [standContact, Option.some.injEq] at he
  subst he
  have a0 := h (![1, 0, 0], 0) (by simp [axes6])
  have a1 := h (![0, 1, 0], 0) (by simp [axes6])
  have a2 := h (![0, 0, 1], 0) (by simp [axes6])
  have b0 := h (0, ![1, 0, 0]) (by simp [axes6])
  have b1 := h (0, ![0, 1, 0]) (by simp [axes6])
  have b2 := h (0, ![0, 0, 1]) (by simp [axes6])
  simp [dot] at a0 a1 a2 b0 b1 b2
  constructor <;> funext k <;> fin_cases k <;> assumption

theorem gripProblem_sat (κ : ℝ) (S : ContSystem)
    (hS : computeConstraintsContinuous κ gripProblem [3] = .ok S) :
    AllSat S.A S.b S.D S.d S.minBounds standSolution := by
  obtain ⟨ct, e, pts, ws, S', R⟩ := cont_raw κ _ [3] _ gripProblem_accepted
  have hSS := R.hS
  rw [hS] at hSS
  cases hSS
  have e1 : ([3] : List ℝ).sum = 3 := by norm_num
  have hp := standProblem_pts 2 _ pts R.hpts
  have hpt : ∀ co ∈ symCoefs pts, co.at ![1, 0, 1] = ![1, 0, 1] := by
    refine (forall_map _ (fun w : Coefs => w.at ![1, 0, 1]) (fun v => v = ![1, 0, 1])).mpr ?_
    rw [symCoefs_at, hp]
    have hz1 : (symbolicOf 1 ![1, 0, 1]).toCoefs.at ![1, 0, 1] = ![1, 0, 1] :=
      symbolic_at_const _ _ ⟨0, by norm_num⟩
    simp only [List.map_cons, List.map_nil, hz1, symbolic_at_free]
    simp
  have hacc : ∀ co ∈ secondDeriv κ (symCoefs pts), co.at ![1, 0, 1] = 0 := by
    refine (forall_map _ (fun w : Coefs => w.at ![1, 0, 1]) (fun v => v = 0)).mpr ?_
    rw [secondDeriv_at, symCoefs_at, hp]
    have hz1 : (symbolicOf 1 ![1, 0, 1]).toCoefs.at ![1, 0, 1] = ![1, 0, 1] :=
      symbolic_at_const _ _ ⟨0, by norm_num⟩
    simp only [List.map_cons, List.map_nil, hz1, symbolic_at_free]
    simp [derivCtrl]
  have hrep : gripProblem.representation ≠ DOUBLE_DESCRIPTION := by
    simp [gripProblem, standProblem, DOUBLE_DESCRIPTION]
  have hct : ct 0 = standContact (genDown 1 :: axes6) := by
    have := R.hct 0 (by simp); simp [gripProblem] at this; exact this.symm
  have he0 : e 0 = { mass := 100, gravity := ![0, 0, -10], poly := [((![0, 0, 1], 0), 0)],
                     polyOk := true, isPP := true, gens := genDown 1 :: axes6 } := by
    have := R.he 0 (by simp); rw [hct] at this; exact (Option.some.inj this).symm
  have hwr : ∀ w ∈ ws, w.headAt ![1, 0, 1] = 0 ∧ w.tailAt ![1, 0, 1] = ![0, -10, 0] := by
    refine standProblem_ws 2 ws ?_
    rw [← e1, ← R.hws]
    rfl
  refine ⟨?_, ?_, ?_⟩
  · rw [R.kin]
    intro p hp2
    have hp0 : p = 0 := by simpa using hp2
    subst hp0
    rw [standSolution_first]
    refine ⟨fun co hco => ?_, fun h => absurd h hrep, fun co hco k => ?_⟩
    · rw [subCoefs_const _ _ _ hpt _ _ _ co hco, hct]
      intro q hq
      simp [standContact] at hq
      subst hq
      simp [dot]
    · rw [subCoefs_const _ _ _ hacc _ _ _ co hco]
      simp [gripProblem, standProblem]
  · rw [(R.eqn hrep).2]
    intro j q hq
    have hq' := List.mem_of_getElem? hq
    simp only [contBlocks, List.append_nil, List.mem_map, forceRange, nextGens] at hq'
    simp at hq'
    obtain ⟨v, hv, rfl⟩ := hq'
    rw [standSolution_first]
    have hh : v.headAt ![1, 0, 1] = 0 := subWp6_const (headLin ![1, 0, 1]) (·.headAt ![1, 0, 1])
      (fun _ => rfl) ws 0 (fun w hw => (hwr w hw).1) _ _ _ _ hv
    have ht : v.tailAt ![1, 0, 1] = ![0, -10, 0] := subWp6_const (tailLin ![1, 0, 1]) (·.tailAt ![1, 0, 1])
      (fun _ => rfl) ws _ (fun w hw => (hwr w hw).2) _ _ _ _ hv
    have hy : ∀ a b, standSolution (3 + a + b) = 1000 := by
      intro a b; unfold standSolution; rw [dif_neg (by omega)]
    simp only [hy]
    rw [hh, ht, he0]
    constructor <;> funext k <;> fin_cases k <;>
      simp [genDown, axes6, Finset.sum_range_succ] <;> norm_num
  · intro c b hb
    rw [R.min, if_neg hrep] at hb
    by_cases hc : c < 3
    · rw [List.getElem?_append_left (by simpa using hc), List.getElem?_replicate, if_pos hc] at hb
      cases hb
      have : c = 0 ∨ c = 1 ∨ c = 2 := by omega
      rcases this with rfl | rfl | rfl <;> simp [standSolution] <;> norm_num
    · rw [List.getElem?_append_right (by simpa using hc), List.getElem?_replicate] at hb
      split_ifs at hb with h
      cases hb
      simp [standSolution, hc]

/-- Formulation with forces. -/
theorem gripProblem_succeeds (κ : ℝ) : ∃ M, ∀ maxIter > M, ∃ res N,
    (∀ fuel ≥ N, computeCOMTraj κ (exactLib maxIter) fuel gripProblem [3] (-1) SOLVER_QUADPROG = .ok res) ∧
      res.success = true := by
  obtain ⟨S, hS, -⟩ := C21_in_bounds_and_complete κ _ _ _ gripProblem_accepted
  obtain ⟨pts, hpts⟩ := C01_answers gripProblem.flag gripProblem_accepted.flag
    gripProblem.bc ([3] : List ℝ).sum gripProblem_accepted.capt
  refine ⟨2 ^ (S.A.rows + S.minBounds.length), fun maxIter hM => ?_⟩
  obtain ⟨S', res, N, hS', hrun, -, hfail⟩ := C56_force_spans_partial κ (exactLib maxIter) (exactLib_ok maxIter) rfl
    _ _ _ gripProblem_accepted (by simp [gripProblem, standProblem, DOUBLE_DESCRIPTION])
    (by simp [gripProblem, standProblem]) (-1) (by norm_num) (Or.inr rfl)
    (by
      intro ct hct e he
      simp only [gripProblem, List.mem_singleton] at hct
      subst hct
      simp only [standContact, Option.some.injEq] at he
      subst he
      norm_num)
    gripProblem_spans (by
      intro p ct ct' e e' h1 h2
      simp [gripProblem] at h2) pts hpts
    (standProblem_hz 2 _ pts hpts)
  rw [hS] at hS'
  cases hS'
  refine ⟨res, N, hrun, ?_⟩
  by_contra hs
  rcases hfail (by simpa using hs) with h1 | h1
  · change maxIter ≤ _ at h1
    omega
  · exact h1 _ (gripProblem_sat κ S hS)

end Verif
