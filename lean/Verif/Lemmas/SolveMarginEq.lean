import Verif.Lemmas.SolveTolFull
import Verif.Lemmas.SolveMarginGen

/-!
# The solver front end on problems with a margin: equations and bounds
-/

namespace Verif
open Matrix

/-- The rows and the bounds hold with a margin: so do the rows with the bounds appended. -/
theorem minBound_margin {mb : List ℝ} {A b A' b' : Mat} (hm : mb.length = A.cols) (hb : b.rows = A.rows) (hb1 : b.cols = 1)
    (h : addConstraintMinBoundQuadProg mb A b = .ok (A', b')) {m : ℝ} {y : ℕ → ℝ} (hy : SatMargin A b m y)
    (hy' : AboveBoundsTol mb (-m) y) : SatMargin A' b' m y := by
  rcases eq_or_ne mb [] with rfl | hne
  · simp [addConstraintMinBoundQuadProg] at h
    obtain ⟨rfl, rfl⟩ := h
    exact hy
  · obtain ⟨A1, b1, h1, h2, h3, -, h5, h6⟩ := minBound_ok mb A b hm hne hb hb1
    rw [h] at h1
    cases h1
    intro r hr
    rcases lt_or_ge r A.rows with hlt | hge
    · rw [h3, (h5 r hlt).2, Finset.sum_congr rfl fun c hc => by rw [(h5 r hlt).1 c (Finset.mem_range.mp hc)]]
      exact (hy r hlt).imp_right fun hz => ⟨fun c hc => by rw [(h5 r hlt).1 c hc]; exact hz.1 c hc, hz.2⟩
    · obtain ⟨k, rfl⟩ := Nat.exists_eq_add_of_le hge
      have hk : k < A.cols := by omega
      left
      rw [h3, sum_single hk _ y (-1) (fun c hc => (h6 k hk).1 c hc), (h6 k hk).2]
      have hk' : k < mb.length := by omega
      have := hy' k mb[k] (List.getElem?_eq_getElem hk')
      rw [List.getD_eq_getElem?_getD, List.getElem?_eq_getElem hk', Option.getD_some]
      linarith

/-- `solve` without bounds, with equations independent by a margin, rows that hold at a solution `y` of the equations
with the margin `m`: the call succeeds, or the QP solver used up its iterations; no point that satisfies the equations and the rows is
better by more than the given amount. -/
theorem solve_margin_eq (lib : Lib) (hL : LibOk lib) (he : 0 ≤ lib.eps) {A b D d Hess g : Mat} {k Λ R : ℝ} (hk : 0 < k)
    (h : Fits A b D d Hess g) (init : List ℝ)
    (hpd : Matrix.PosDef (fun i j : Fin g.rows => Hess.e i j : Matrix (Fin g.rows) (Fin g.rows) ℝ))
    (hess : ∀ v : VecN g.rows, k * (v ⬝ᵥ v) ≤ v ⬝ᵥ (fun i j => Hess.e i j : Matrix (Fin g.rows) (Fin g.rows) ℝ) *ᵥ v)
    (hΛ : 0 ≤ Λ) (hessLe : ∀ v : VecN g.rows, (fun i j => Hess.e i j : Matrix (Fin g.rows) (Fin g.rows) ℝ) *ᵥ v ⬝ᵥ
      (fun i j => Hess.e i j : Matrix (Fin g.rows) (Fin g.rows) ℝ) *ᵥ v ≤ Λ * (v ⬝ᵥ v))
    (hE : D.rows ≤ g.rows) (hR1 : 1 ≤ R)
    (hR : ∀ r < A.rows, ∑ c ∈ Finset.range g.rows, A.e r c ^ 2 ≤ R ^ 2)
    (hD : ∀ r < D.rows, ∑ c ∈ Finset.range g.rows, D.e r c ^ 2 ≤ R ^ 2) (hsep : RowsSep D (lib.eps * Λ))
    (h1 : lib.eps ≤ k) (h2 : lib.eps * R ^ 2 ≤ k ^ 2) {m F : ℝ} (hm : 0 < m) (y : ℕ → ℝ) (hye : EqSat D d y)
    (hy : SatMargin A b m y) (hF : ∀ x, EqSat D d x → quadForm Hess g g.rows y - quadForm Hess g g.rows x ≤ F)
    (hi : 1 ≤ lib.maxIter) (hc : 32 * lib.maxIter ^ 2 * Λ * lib.eps * F ≤ k * m ^ 2) :
    ∃ q N, (∀ fuel ≥ N, solversSolve lib fuel A b D d Hess g init [] [] SOLVER_QUADPROG = .ok q) ∧
      q.x.length = g.rows ∧
      (q.success = true ∨
        ∃ o, ∀ fuel ≥ N, callQuadprog lib fuel Hess g D d.neg A.neg b = .ok (.maxIterReached, o)) ∧
      (q.success = true → SatTol A b (solverTolGen lib.eps k (∑ i ∈ Finset.range g.rows, Hess.e i i) g.rows A.rows) (unk q.x) ∧
        EqSat D d (unk q.x) ∧
        ∀ v, EqSat D d v → Sat A b v → quadForm Hess g g.rows (unk q.x) ≤ quadForm Hess g g.rows v
          + 4 * lib.maxIter ^ 2 * Λ * lib.eps * F ^ 2 / (k * m ^ 2)) := by
  have hAc : A.cols = g.rows := h.ineq.2.2
  have hDc : D.cols = g.rows := h.eqs.2
  obtain ⟨q, N, hrun, hxl, hsucc⟩ := solve_tol_full lib hL he hk h [] (Or.inl rfl) init hpd hess hΛ hessLe hE hR1 hR hD hsep h1 h2
  set P := qpOf g.rows Hess g D d.neg A.neg b with hP
  have hFac : Factor P.G (lib.chol g.rows P.G) := hL _ _ hpd
  have hEq : ∀ z : ℕ → ℝ, EqHolds P (fun i : Fin g.rows => z i) ↔ EqSat D d z := qpOf_eq g.rows Hess g D d A.neg b hDc
  have hlen : P.CE.length = D.rows := by simp [hP, qpOf]
  have hce : ∀ i < D.rows, ∀ j : Fin g.rows, (P.CE.getD i (0, 0)).1 j = D.e i j := by
    intro i hi j
    simp [hP, qpOf, List.getD_eq_getElem?_getD, hi, Mat.rowN]
  have hCI : ∀ δ (z : ℕ → ℝ), (∀ e ∈ P.CI, -δ ≤ e.1 ⬝ᵥ (fun i => z i) + e.2) ↔ SatTol A b δ z :=
    qpOf_ineqTol g.rows _ _ _ _ _ _ hAc
  have hC : Conditioned lib.eps k (max 1 (R ^ 2 / k)) P (lib.chol g.rows P.G) := by
    refine conditioned_of_norms hFac he hk hess (fun e he => ?_) (fun e he => ?_) h1 h2
    · simp only [hP, qpOf, List.mem_map, List.mem_range] at he
      obtain ⟨r, hr, rfl⟩ := he
      refine le_trans (le_of_eq ?_) (hD r hr)
      rw [dotProduct, Finset.sum_range]
      refine Finset.sum_congr rfl fun j _ => ?_
      simp only [Mat.rowN]; ring
    · simp only [hP, qpOf, List.mem_map, List.mem_range] at he
      obtain ⟨r, hr, rfl⟩ := he
      refine le_trans (le_of_eq ?_) (hR r hr)
      rw [dotProduct, Finset.sum_range]
      refine Finset.sum_congr rfl fun j _ => ?_
      simp only [Mat.rowN, Mat.neg]; ring
  have hS : EqSep lib.eps P := by
    refine ⟨Λ, ⟨hΛ, hessLe⟩, fun i hi c => ?_⟩
    have hi' : i < D.rows := by rw [← hlen]; exact hi
    refine lt_of_lt_of_eq (hsep i hi' c) ?_
    rw [hDc, dotProduct, Finset.sum_range]
    refine Finset.sum_congr rfl fun j _ => ?_
    have : eqRest P i c j = D.e i j - ∑ k ∈ Finset.range i, c k * D.e k j := by
      unfold eqRest
      rw [Pi.sub_apply, Finset.sum_apply, hce i hi' j]
      congr 1
      refine Finset.sum_congr rfl fun l hl => ?_
      rw [Pi.smul_apply, smul_eq_mul, hce l (lt_trans (Finset.mem_range.mp hl) hi') j]
    rw [this, sq]
  have hobj : ∀ z : ℕ → ℝ, 2 * qpObj P (fun i => z i) = quadForm Hess g g.rows z :=
    qpObj_quadForm P _ _ (fun _ _ => rfl) (fun _ => rfl)
  have hmar : ∀ e ∈ P.CI, m ≤ e.1 ⬝ᵥ (fun i : Fin g.rows => y i) + e.2 ∨ e.1 = 0 ∧ 0 ≤ e.2 := by
    intro e he
    simp only [hP, qpOf, List.mem_map, List.mem_range] at he
    obtain ⟨r, hr, rfl⟩ := he
    rcases hy r hr with hy | ⟨hz, hb⟩
    · left
      have e : (A.neg.rowN g.rows r) ⬝ᵥ (fun i : Fin g.rows => y i) = -∑ c ∈ Finset.range A.cols, A.e r c * y c := by
        rw [hAc, Finset.sum_range, dotProduct, ← Finset.sum_neg_distrib]
        refine Finset.sum_congr rfl fun j _ => ?_
        simp only [Mat.rowN, Mat.neg]; ring
      dsimp only
      rw [e]
      linarith
    · right
      refine ⟨funext fun j => ?_, hb⟩
      simp only [Mat.rowN, Mat.neg, Pi.zero_apply]
      rw [hz j (by rw [hAc]; exact j.2), neg_zero]
  obtain ⟨r, s, hok, hv⟩ := C79_equalities (m := m) (F := F / 2) (Lam := Λ) (maxIter := lib.maxIter)
    (y := fun i => y i) (lib.work g.rows) hFac hC hk (by omega) hS ((hEq y).mpr hye) ⟨hΛ, hessLe⟩ hm hmar
    (fun x hx => by
      have e1 := hF (extN x) ((hEq (extN x)).mp (by rw [extN_restrict]; exact hx))
      rw [← hobj, ← hobj, extN_restrict] at e1
      linarith) hi (by linarith)
  have hcall : ∀ fuel ≥ P.CE.length + 2 + lib.maxIter * (g.rows + 3),
      callQuadprog lib fuel Hess g D d.neg A.neg b = .ok (r, s.f, List.ofFn s.x) := by
    intro fuel hfuel
    unfold callQuadprog
    rw [if_pos ⟨h.hess.1, h.hess.2, by simp [Mat.neg, h.eqs.1], h.eqs.2, by simp [Mat.neg, h.ineq.1], by
      simp [Mat.neg, h.ineq.2.2]⟩]
    change (do
      let r ← solveQuadprog lib.eps lib.maxIter P (lib.chol g.rows P.G) (lib.work g.rows) fuel
      return (r.1, r.2.f, List.ofFn r.2.x)) = _
    rw [hok fuel hfuel]
    rfl
  set M := max N (P.CE.length + 2 + lib.maxIter * (g.rows + 3)) with hM
  have hq : q = { success := r = .optimal, cost := if r = .optimal then s.f else -1, x := List.ofFn s.x } := by
    have e := hrun M (le_max_left _ _)
    rw [solve_call, hcall M (le_max_right _ _)] at e
    exact (Out.ok.inj e).symm
  refine ⟨q, M, fun fuel hfuel => hrun fuel ((le_max_left _ _).trans hfuel), hxl, ?_,
    fun hs => ⟨(hsucc hs).1, (hsucc hs).2.2, fun v hve hv' => ?_⟩⟩
  · rcases hv with rfl | ⟨rfl, -⟩
    · exact Or.inr ⟨_, fun fuel hfuel => hcall fuel ((le_max_right _ _).trans hfuel)⟩
    · exact Or.inl (by rw [hq]; rfl)
  · rw [hq] at hs ⊢
    have hopt : r = .optimal := by simpa using hs
    rcases hv with rfl | ⟨-, -, -, hv⟩
    · cases hopt
    · have e := hv (fun i => v i) ⟨(hEq v).mpr hve, fun e he => by
        have := (hCI 0 v).mpr ((satTol_zero A b v).mpr hv') e he
        rwa [neg_zero] at this⟩
      rw [← hobj v]
      dsimp only
      rw [unk_ofFn, ← hobj, extN_restrict]
      have e3 : 4 * (lib.maxIter : ℝ) ^ 2 * Λ * lib.eps * F ^ 2 / (k * m ^ 2)
          = 2 * (8 * lib.maxIter ^ 2 * Λ * lib.eps * (F / 2) ^ 2 / (k * m ^ 2)) := by ring
      rw [e3]
      linarith

/-- `solve_margin_eq` with lower bounds that `y` exceeds by the margin. -/
theorem solve_margin_full (lib : Lib) (hL : LibOk lib) (he : 0 ≤ lib.eps) {A b D d Hess g : Mat} {k Λ R : ℝ} (hk : 0 < k)
    (h : Fits A b D d Hess g) (mb : List ℝ) (hmb : mb.length = g.rows) (init : List ℝ)
    (hpd : Matrix.PosDef (fun i j : Fin g.rows => Hess.e i j : Matrix (Fin g.rows) (Fin g.rows) ℝ))
    (hess : ∀ v : VecN g.rows, k * (v ⬝ᵥ v) ≤ v ⬝ᵥ (fun i j => Hess.e i j : Matrix (Fin g.rows) (Fin g.rows) ℝ) *ᵥ v)
    (hΛ : 0 ≤ Λ) (hessLe : ∀ v : VecN g.rows, (fun i j => Hess.e i j : Matrix (Fin g.rows) (Fin g.rows) ℝ) *ᵥ v ⬝ᵥ
      (fun i j => Hess.e i j : Matrix (Fin g.rows) (Fin g.rows) ℝ) *ᵥ v ≤ Λ * (v ⬝ᵥ v))
    (hE : D.rows ≤ g.rows) (hR1 : 1 ≤ R)
    (hR : ∀ r < A.rows, ∑ c ∈ Finset.range g.rows, A.e r c ^ 2 ≤ R ^ 2)
    (hD : ∀ r < D.rows, ∑ c ∈ Finset.range g.rows, D.e r c ^ 2 ≤ R ^ 2) (hsep : RowsSep D (lib.eps * Λ))
    (h1 : lib.eps ≤ k) (h2 : lib.eps * R ^ 2 ≤ k ^ 2) {m F : ℝ} (hm : 0 < m) (y : ℕ → ℝ) (hye : EqSat D d y)
    (hy : SatMargin A b m y) (hyb : AboveBoundsTol mb (-m) y)
    (hF : ∀ x, EqSat D d x → quadForm Hess g g.rows y - quadForm Hess g g.rows x ≤ F)
    (hi : 1 ≤ lib.maxIter) (hc : 32 * lib.maxIter ^ 2 * Λ * lib.eps * F ≤ k * m ^ 2) :
    ∃ A' b' q N, addConstraintMinBoundQuadProg mb A b = .ok (A', b') ∧
      (∀ fuel ≥ N, solversSolve lib fuel A b D d Hess g init mb [] SOLVER_QUADPROG = .ok q) ∧
      q.x.length = g.rows ∧
      (q.success = true ∨
        ∃ o, ∀ fuel ≥ N, callQuadprog lib fuel Hess g D d.neg A'.neg b' = .ok (.maxIterReached, o)) ∧
      (q.success = true →
        SatTol A b (solverTolGen lib.eps k (∑ i ∈ Finset.range g.rows, Hess.e i i) g.rows (A.rows + mb.length)) (unk q.x) ∧
        AboveBoundsTol mb (solverTolGen lib.eps k (∑ i ∈ Finset.range g.rows, Hess.e i i) g.rows (A.rows + mb.length)) (unk q.x) ∧
        EqSat D d (unk q.x) ∧
        ∀ v, AllSat A b D d mb v → quadForm Hess g g.rows (unk q.x) ≤ quadForm Hess g g.rows v
          + 4 * lib.maxIter ^ 2 * Λ * lib.eps * F ^ 2 / (k * m ^ 2)) := by
  have hAc : A.cols = g.rows := h.ineq.2.2
  obtain ⟨A', b', e1, e2, e3, e4, e5, e6⟩ := minBound_satTol mb A b (Or.inr (by rw [hAc]; exact hmb)) h.ineq.1 h.ineq.2.1
  have hbc : b'.cols = 1 := by
    rcases eq_or_ne mb [] with rfl | hne
    · simp [addConstraintMinBoundQuadProg] at e1
      obtain ⟨rfl, rfl⟩ := e1
      exact h.ineq.2.1
    · unfold addConstraintMinBoundQuadProg at e1
      rw [if_neg (by simpa using hne)] at e1
      obtain ⟨D1, -, e1⟩ := Out.bind_eq_ok.mp e1
      obtain ⟨D2, -, e1⟩ := Out.bind_eq_ok.mp e1
      obtain ⟨d1, hd1, e1⟩ := Out.bind_eq_ok.mp e1
      split_ifs at e1
      obtain ⟨d2, hd2, e1⟩ := Out.bind_eq_ok.mp e1
      obtain ⟨D3, -, e1⟩ := Out.bind_eq_ok.mp e1
      obtain ⟨d3, hd3, e1⟩ := Out.bind_eq_ok.mp e1
      cases e1
      unfold Buf.write at hd1 hd2
      unfold Buf.value at hd3
      split_ifs at hd1 hd2 hd3
      cases hd1
      cases hd2
      cases hd3
      rfl
  have hfit : Fits A' b' D d Hess g := ⟨h.hess, ⟨e3, hbc, by rw [e2]; exact hAc⟩, h.eqs⟩
  have hcall : ∀ fuel, solversSolve lib fuel A b D d Hess g init mb [] SOLVER_QUADPROG
      = solversSolve lib fuel A' b' D d Hess g init [] [] SOLVER_QUADPROG := by
    intro fuel
    have e6 : addConstraintMaxBoundQuadProg [] A' b' = .ok (A', b') := by simp [addConstraintMaxBoundQuadProg]
    rw [solve_call]
    unfold solversSolve addBoundaryConstraintsQuadProg
    rw [if_pos rfl, e1, Out.ok_bind, e6, Out.ok_bind]
  obtain ⟨q, N, hrun, hxl, hfound, hgood⟩ := solve_margin_eq lib hL he hk hfit init hpd hess hΛ hessLe hE hR1 (fun r hr => by
      rcases e5 r hr with ⟨hr', hrow⟩ | ⟨-, j, hj, hrow⟩
      · rw [← hAc, Finset.sum_congr rfl fun c hc => by rw [hrow c (Finset.mem_range.mp hc)], hAc]
        exact hR r hr'
      · rw [← hAc, Finset.sum_congr rfl fun c hc => by rw [hrow c (Finset.mem_range.mp hc)], Finset.sum_eq_single j
          (fun c _ hc => by rw [if_neg (Ne.symm hc)]; ring) (fun hc => absurd (Finset.mem_range.mpr hj) hc), if_pos rfl]
        nlinarith) hD hsep h1 h2 hm y hye
    (minBound_margin (by rw [hAc]; exact hmb) h.ineq.1 h.ineq.2.1 e1 hy hyb) hF hi hc
  refine ⟨A', b', q, N, e1, fun fuel hfuel => by rw [hcall]; exact hrun fuel hfuel, hxl, hfound, fun hs => ?_⟩
  obtain ⟨g1, g2, g3⟩ := hgood hs
  rw [e4] at g1
  obtain ⟨g4, g5⟩ := (e6 _ _).mp g1
  refine ⟨g4, g5, g2, fun v hv => g3 v hv.2.1 ?_⟩
  rw [← satTol_zero, e6, satTol_zero, aboveTol_zero]
  exact ⟨hv.1, hv.2.2⟩

end Verif
