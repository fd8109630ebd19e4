import Verif.Props.C80
import Verif.Props.C23Ex

/-!
# C80: the continuous formulation; threshold and example
-/

namespace Verif
open Matrix

/-- C80, continuous formulation in double description: if some point has a margin, every threshold of the solver that is
small enough returns the curve, unless the limit on the number of iterations is reached. -/
theorem C80_continuous_threshold_exists (κ : ℝ) (pData : ProblemData) (Ts : List ℝ) (g : V3) (h : AcceptedC pData Ts g)
    (hr : pData.representation = DOUBLE_DESCRIPTION) (step : ℝ) (hstep : step ≤ 0)
    (hc : pData.costFunction = DISTANCE_TRAVELED ∨ pData.costFunction = ACCELERATION ∧ pData.flag ≠ 63#32)
    {S : ContSystem} (hS : computeConstraintsContinuous κ pData Ts = .ok S)
    {m : ℝ} (hm : 0 < m) {x : V3} (hmeet : SatMargin S.A S.b m (ext3 x)) (maxIter : ℕ) (hi : 1 ≤ maxIter) :
    ∃ ε > (0 : ℝ), ∀ lib : Lib, LibOk lib → 0 ≤ lib.eps → lib.eps ≤ ε → lib.maxIter = maxIter →
      ∃ H gr res N, genCostFunction pData Ts Ts.sum (computeDiscretizedTimeFixed Ts 7) 3 = .ok (H, gr) ∧
        (∀ fuel ≥ N, computeCOMTraj κ lib fuel pData Ts step SOLVER_QUADPROG = .ok res) ∧
        (res.success = true ∨
          ∃ o, ∀ fuel ≥ N, callQuadprog lib fuel H gr S.D S.d.neg S.A.neg S.b = .ok (.maxIterReached, o)) := by
  obtain ⟨k, R, hk, hs⟩ := C56_continuous_scale_exists κ pData Ts g h hc
  obtain ⟨pts, hpts⟩ := C01_answers pData.flag h.flag pData.bc Ts.sum h.capt
  obtain ⟨v, a, hx⟩ := motion_exists pData Ts.sum pts hpts h.flag h.total.ne' x
  have hR : 0 < R := lt_of_lt_of_le zero_lt_one hs.one
  set F := motionCost pData (computeDiscretizedTimeFixed Ts 7) x a with hF
  have hF0 : 0 ≤ F := motionCost_nonneg _ _ _ _
  have hi' : (1 : ℝ) ≤ maxIter := by exact_mod_cast hi
  have hden : 0 < 32 * (maxIter : ℝ) ^ 2 * k * (F + 1) := by positivity
  refine ⟨min (min k (k ^ 2 / R ^ 2)) (m ^ 2 / (32 * maxIter ^ 2 * k * (F + 1))), by positivity,
    fun lib hL he hle hmi => ?_⟩
  have hle1 := hle.trans (min_le_left _ _)
  have hle2 := hle.trans (min_le_right _ _)
  rw [le_div_iff₀ hden] at hle2
  have hle3 := hle1.trans (min_le_right _ _)
  rw [le_div_iff₀ (by positivity)] at hle3
  obtain ⟨H, gr, res, N, h1, h2, h3, -⟩ := C80_continuous κ lib hL he pData Ts g h hr step hstep hc hs
    (hle1.trans (min_le_left _ _)) hle3 hS hm hx hmeet (by omega) (by
      rw [hmi]
      refine le_trans ?_ hle2
      have : 32 * (maxIter : ℝ) ^ 2 * k * lib.eps * F ≤ 32 * (maxIter : ℝ) ^ 2 * k * lib.eps * (F + 1) :=
        mul_le_mul_of_nonneg_left (by linarith) (by positivity)
      refine this.trans (le_of_eq ?_)
      ring)
  exact ⟨H, gr, res, N, h1, h2, h3⟩

/-- The standing robot keeps a margin. -/
theorem standProblem_margin (κ : ℝ) (S : ContSystem)
    (hS : computeConstraintsContinuous κ (standProblem 1) [1, 2] = .ok S) :
    ∃ m > 0, SatMargin S.A S.b m (ext3 ![1, 0, 1]) := by
  have hrep : (standProblem 1).representation = DOUBLE_DESCRIPTION := rfl
  have hacc0 := standProblem_accepted 1
  obtain ⟨k, R, hk, hs⟩ := C56_continuous_scale_exists κ _ _ _ hacc0 (by
    simp [standProblem, DISTANCE_TRAVELED, ACCELERATION])
  obtain ⟨ct, e, pts, ws, S', w, K, Raw, hlip, -, -, -, -, hcols, -⟩ := cont_system κ _ _ _ hacc0 hrep (by
    simp [standProblem, DISTANCE_TRAVELED, ACCELERATION]) hs
  have hSS := Raw.hS
  rw [hS] at hSS
  cases hSS
  have hR0 : 0 < R := lt_of_lt_of_le zero_lt_one hs.one
  have hm0 : 0 < R⁻¹ := inv_pos.mpr hR0
  have hm1 : R⁻¹ ≤ 1 := inv_le_one_of_one_le₀ hs.one
  have e1 : ([1, 2] : List ℝ).sum = 3 := by norm_num
  have hp := standProblem_pts 1 _ pts Raw.hpts
  have hz1 : (symbolicOf 1 ![1, 0, 1]).toCoefs.at ![1, 0, 1] = ![1, 0, 1] := symbolic_at_const _ _ ⟨0, by norm_num⟩
  have hpt : ∀ co ∈ symCoefs pts, co.at ![1, 0, 1] = ![1, 0, 1] := by
    refine (forall_map _ (fun w : Coefs => w.at ![1, 0, 1]) (fun v => v = ![1, 0, 1])).mpr ?_
    rw [symCoefs_at, hp]
    simp only [List.map_cons, List.map_nil, hz1, symbolic_at_free]
    simp
  have hacc : ∀ co ∈ secondDeriv κ (symCoefs pts), co.at ![1, 0, 1] = 0 := by
    refine (forall_map _ (fun w : Coefs => w.at ![1, 0, 1]) (fun v => v = 0)).mpr ?_
    rw [secondDeriv_at, symCoefs_at, hp]
    simp only [List.map_cons, List.map_nil, hz1, symbolic_at_free]
    simp [derivCtrl]
  have hwr := standProblem_ws 1 ws (by rw [← e1]; exact Raw.hws)
  obtain ⟨L, H, hAr, hrow, hgood, hall⟩ := Raw.rows hrep
  refine ⟨R⁻¹, hm0, SatMargin.of_satTol ?_⟩
  rw [rows_satTol hAr hcols hrow, hall fun r => r.1 ⬝ᵥ ![1, 0, 1] ≤ r.2 + -R⁻¹]
  intro p hp2
  obtain ⟨gens, hct⟩ : ∃ gens, ct p = standContact gens := by
    have := List.mem_of_getElem? (Raw.hct p hp2)
    simp only [standProblem, List.mem_cons, List.not_mem_nil, or_false] at this
    rcases this with h | h
    · exact ⟨_, h⟩
    · exact ⟨_, h⟩
  have he := Raw.he p hp2
  rw [hct] at he
  have he' := (Option.some.inj he).symm
  refine ⟨fun co hco => kin_rows_tol_of co _ _ ?_, fun v hv => ?_, fun co hco => acc_rows_tol_of _ co _ _ fun j => ?_⟩
  · have := subCoefs_const _ _ _ hpt _ _ _ co hco
    unfold Coefs.at at this
    rw [this, hct]
    intro q hq
    simp [standContact] at hq
    subst hq
    simp [dot]
    linarith
  · simp only [← sub_eq_add_neg]
    refine stab_rows_margin (hgood p).1 (hgood p).2 _ v hs.one (sub_lip hacc0.pos hp2 ws R hlip v hv) hm0.le _ ?_
    rw [subWp6_const (headLin ![1, 0, 1]) (·.headAt ![1, 0, 1]) (fun _ => rfl) ws 0
      (fun w hw => (hwr w hw).1) _ _ _ v hv,
      subWp6_const (tailLin ![1, 0, 1]) (·.tailAt ![1, 0, 1]) (fun _ => rfl) ws _
      (fun w hw => (hwr w hw).2) _ _ _ v hv, he', mul_inv_cancel₀ hR0.ne']
    intro r hr
    simp at hr
    subst hr
    unfold WrenchRowOkTol
    have : Real.sqrt (dot (![0, 0, 1] : V3) ![0, 0, 1] + dot (0 : V3) 0) = 1 := by
      rw [Real.sqrt_eq_one]; simp [dot]
    rw [this]
    simp [dot, standProblem]
    norm_num
  · have := subCoefs_const _ _ _ hacc _ _ _ co hco
    unfold Coefs.at at this
    rw [this]
    simp [standProblem]
    linarith

/-- The standing robot with every threshold that is small enough. -/
theorem standProblem_plans (κ : ℝ) (maxIter : ℕ) (hi : 1 ≤ maxIter) :
    ∃ S, computeConstraintsContinuous κ (standProblem 1) [1, 2] = .ok S ∧ ∃ ε > (0 : ℝ), ∀ lib : Lib, LibOk lib →
      0 ≤ lib.eps → lib.eps ≤ ε → lib.maxIter = maxIter →
      ∃ H gr res N, genCostFunction (standProblem 1) [1, 2] ([1, 2] : List ℝ).sum (computeDiscretizedTimeFixed [1, 2] 7) 3 = .ok (H, gr) ∧
        (∀ fuel ≥ N, computeCOMTraj κ lib fuel (standProblem 1) [1, 2] (-1) SOLVER_QUADPROG = .ok res) ∧
        (res.success = true ∨
          ∃ o, ∀ fuel ≥ N, callQuadprog lib fuel H gr S.D S.d.neg S.A.neg S.b = .ok (.maxIterReached, o)) := by
  obtain ⟨S, hS, -⟩ := C21_in_bounds_and_complete κ _ _ _ (standProblem_accepted 1)
  obtain ⟨m, hm, hmeet⟩ := standProblem_margin κ S hS
  exact ⟨S, hS, C80_continuous_threshold_exists κ _ _ _ (standProblem_accepted 1) rfl (-1) (by norm_num)
    (by simp [standProblem, DISTANCE_TRAVELED, ACCELERATION]) hS hm hmeet maxIter hi⟩

end Verif
