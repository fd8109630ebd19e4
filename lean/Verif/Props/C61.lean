import Verif.Props.C46
import Verif.Lemmas.SolveExact

/-!
# C61: solving with GLPK
-/

namespace Verif

/-- There is a function that meets what is assumed of GLPK. -/
theorem glpkOk_exists : ∃ simplex, GlpkOk simplex := by
  classical
  have : ∀ lp : LP, ∃ a : LPAnswer, (a.opt = true ↔ lp.Valid ∧ ∃ y, lp.Feasible y ∧ ∀ z, lp.Feasible z → lp.value y ≤ lp.value z) ∧
      (a.opt = true → lp.Feasible a.prim ∧ a.val = lp.value a.prim ∧ ∀ z, lp.Feasible z → lp.value a.prim ≤ lp.value z) := by
    intro lp
    by_cases h : lp.Valid ∧ ∃ y, lp.Feasible y ∧ ∀ z, lp.Feasible z → lp.value y ≤ lp.value z
    · obtain ⟨y, h1, h2⟩ := h.2
      exact ⟨⟨true, lp.value y, y⟩, by simp only [true_iff]; exact h, fun _ => ⟨h1, rfl, h2⟩⟩
    · refine ⟨⟨false, 0, 0⟩, ?_, fun h => (by cases h)⟩
      constructor
      · intro h'; cases h'
      · intro h'; exact absurd h' h
  choose f hf using this
  exact ⟨f, hf⟩

/-- The point is allowed by the constraints and the bounds. -/
def LinFeasible (A b D d : Mat) (lo up : List ℝ) (y : ℕ → ℝ) : Prop := Sat A b y ∧ EqSat D d y ∧ InBox lo up y

/-- C61. `solve` with GLPK, in exact arithmetic and for a library that does what its manual says: with at most 20000
coefficients that are not zero it returns. When `success_` holds, `x` satisfies the inequalities, the equalities and the
bounds, its linear cost is the least possible and is returned as `cost_`. When it does not hold, `x` is the initial guess
and `cost_` is -1, and either no point has the least linear cost or some variable has two bounds of which the lower one is
not less than the upper one. -/
theorem C61_solves (lib : Lib) (fuel : ℕ) (simplex : LP → LPAnswer) (hlib : lib.glpk = some simplex) (hs : GlpkOk simplex)
    {A b D d Hess g : Mat} (h : Fits A b D d Hess g) (init lo up : List ℝ) (hi : init.length = g.rows)
    (h1 : 0 < D.rows + A.rows) (h2 : 0 < g.rows) (hlo : lo = [] ∨ lo.length = g.rows) (hup : up = [] ∨ up.length = g.rows)
    (hn : nonzeros A + nonzeros D ≤ 20000) :
    ∃ res, solversSolve lib fuel A b D d Hess g init lo up SOLVER_GLPK = .ok res ∧ res.x.length = g.rows ∧
      (res.success = true →
        LinFeasible A b D d lo up (fun c => res.x.getD c 0) ∧
        res.cost = ∑ c ∈ Finset.range g.rows, g.e c 0 * res.x.getD c 0 ∧
        ∀ z, LinFeasible A b D d lo up z → res.cost ≤ ∑ c ∈ Finset.range g.rows, g.e c 0 * z c) ∧
      (res.success = false → res.x = init ∧ res.cost = -1 ∧
        ((∃ (c : ℕ) (l u : ℝ), lo[c]? = some l ∧ up[c]? = some u ∧ -100000 < l ∧ u < 100000 ∧ u ≤ l) ∨
          ¬ ∃ y, LinFeasible A b D d lo up y ∧ ∀ z, LinFeasible A b D d lo up z →
            ∑ c ∈ Finset.range g.rows, g.e c 0 * y c ≤ ∑ c ∈ Finset.range g.rows, g.e c 0 * z c)) := by
  have hf : FitsLP g D d A b lo up init.length :=
    ⟨⟨h.ineq.1, by rw [h.ineq.2.2, hi]⟩, ⟨h.eqs.1, by rw [h.eqs.2, hi]⟩, hi.symm, by rw [hi]; exact hlo, by rw [hi]; exact hup, h1, by omega⟩
  obtain ⟨lp, hlp⟩ := (C46_in_bounds hf).1.mpr hn
  have hres : ∃ res, solversSolve lib fuel A b D d Hess g init lo up SOLVER_GLPK = .ok res := by
    unfold solversSolve
    rw [if_neg (by decide), hlib]
    simp only [if_true]
    rw [hlp, Out.ok_bind]
    by_cases ho : (simplex lp).opt = true
    · rw [if_pos ho]; exact ⟨_, rfl⟩
    · rw [if_neg ho]; exact ⟨_, rfl⟩
  obtain ⟨res, hres⟩ := hres
  obtain ⟨lp', hlp', s1, s2, s3⟩ := C38_glpk lib fuel simplex hlib A b D d Hess g init lo up res hres
  obtain rfl : lp' = lp := Out.ok.inj (hlp'.symm.trans hlp)
  have hsem : ∀ y : ℕ → ℝ, lp'.Feasible y ↔ LinFeasible A b D d lo up fun c => y (c + 1) := fun y => (C46_problem hf hlp y).1
  have hval : ∀ y : ℕ → ℝ, lp'.value y = ∑ c ∈ Finset.range g.rows, g.e c 0 * y (c + 1) := fun y => by
    rw [(C46_problem hf hlp y).2, hi]
  obtain ⟨k1, k2⟩ := hs lp'
  -- only the first variables matter
  have hext : ∀ y z : ℕ → ℝ, (∀ c < g.rows, y c = z c) → (LinFeasible A b D d lo up y ↔ LinFeasible A b D d lo up z) := by
    intro y z hyz
    have hsum : ∀ (M : Mat) r, M.cols = g.rows → ∑ c ∈ Finset.range M.cols, M.e r c * y c = ∑ c ∈ Finset.range M.cols, M.e r c * z c := by
      intro M r hM
      exact Finset.sum_congr rfl fun c hc => by rw [hyz c (by rw [← hM]; exact Finset.mem_range.mp hc)]
    have hrng : ∀ (l : List ℝ), l = [] ∨ l.length = g.rows → ∀ c b, l[c]? = some b → c < g.rows := by
      rintro l (rfl | e) c b hb
      · simp at hb
      · have := (List.getElem?_eq_some_iff.mp hb).1; omega
    unfold LinFeasible Sat EqSat InBox
    simp only [hsum A _ h.ineq.2.2, hsum D _ h.eqs.2]
    refine and_congr_right fun _ => and_congr_right fun _ => and_congr ?_ ?_
    · exact forall_congr' fun c => forall_congr' fun b => forall_congr' fun hb => by rw [hyz c (hrng lo hlo c b hb)]
    · exact forall_congr' fun c => forall_congr' fun b => forall_congr' fun hb => by rw [hyz c (hrng up hup c b hb)]
  refine ⟨res, hres, ?_, ?_, ?_⟩
  · by_cases ho : (simplex lp').opt = true
    · rw [(s2 ho).2.1, hi]
    · rw [(s3 (by simpa using ho)).2, hi]
  · intro hsuc
    have ho := s1.mp hsuc
    obtain ⟨c1, c2, c3⟩ := s2 ho
    obtain ⟨f1, f2, f3⟩ := k2 ho
    have hx : ∀ c < g.rows, (simplex lp').prim (c + 1) = res.x.getD c 0 := fun c hc => (c3 c (by omega)).symm
    refine ⟨(hext _ _ hx).mp ((hsem _).mp f1), ?_, fun z hz => ?_⟩
    · rw [c1, f2, hval]
      exact Finset.sum_congr rfl fun c hc => by rw [hx c (Finset.mem_range.mp hc)]
    · rw [c1, f2]
      have := f3 (fun c => z (c - 1)) ((hsem _).mpr (by simpa using hz))
      rw [hval (fun c => z (c - 1))] at this
      simpa using this
  · intro hsuc
    have ho : (simplex lp').opt = false := by
      by_contra hc
      have := s1.mpr (by simpa using hc)
      rw [hsuc] at this; cases this
    obtain ⟨c1, c2⟩ := s3 ho
    refine ⟨c2, c1, ?_⟩
    by_cases hv : lp'.Valid
    · right
      rintro ⟨y, hy1, hy2⟩
      have : (simplex lp').opt = true := k1.mpr ⟨hv, fun c => y (c - 1), (hsem _).mpr (by simpa using hy1), fun z hz => by
        rw [hval, hval]
        simpa using hy2 _ ((hsem _).mp hz)⟩
      rw [ho] at this; cases this
    · left
      rw [glpkProblem_eq hf, if_pos hn] at hlp
      obtain rfl := Out.ok.inj hlp
      by_contra hc
      push Not at hc
      apply hv
      constructor
      · intro bd hb
        simp only [List.mem_append, List.mem_map] at hb
        rcases hb with ⟨r, -, rfl⟩ | ⟨r, -, rfl⟩
        · intro e; cases e
        · intro e; cases e
      · intro bd hb
        simp only [List.mem_map, List.mem_range'] at hb
        obtain ⟨c, ⟨c', hc', rfl⟩, rfl⟩ := hb
        rw [C47_valid]
        intro l1 l2
        have hc'' : 0 + 1 * c' < g.rows := by omega
        rcases hlo with rfl | el
        · exfalso
          revert l1
          simp [List.getD_eq_getElem?_getD, hc']
        · rcases hup with rfl | eu
          · exfalso
            revert l2
            simp [List.getD_eq_getElem?_getD, hc']
          · rw [if_pos (show lo.length > 0 by omega)] at l1 ⊢
            rw [if_pos (show up.length > 0 by omega)] at l2 ⊢
            have e1 : lo[0 + 1 * c']? = some (lo.getD (0 + 1 * c') 0) := by
              rw [List.getD_eq_getElem?_getD, List.getElem?_eq_getElem (by omega)]; rfl
            have e2 : up[0 + 1 * c']? = some (up.getD (0 + 1 * c') 0) := by
              rw [List.getD_eq_getElem?_getD, List.getElem?_eq_getElem (by omega)]; rfl
            exact hc _ _ _ e1 e2 l1 l2

/-- C61. The quadratic part of the cost is not given to GLPK: whatever the library, minimising `y²/2 - y` for `0 ≤ y ≤ 2`
with GLPK succeeds with `y = 2`, where the cost is 0, although it is `-1/2` at `y = 1`. -/
theorem C61_refuted (lib : Lib) (fuel : ℕ) (simplex : LP → LPAnswer) (hlib : lib.glpk = some simplex) (hs : GlpkOk simplex) :
    ∃ (A b D d Hess g : Mat) (res : ResultData) (z : ℕ → ℝ), Fits A b D d Hess g ∧
      solversSolve lib fuel A b D d Hess g [0] [] [] SOLVER_GLPK = .ok res ∧ res.success = true ∧
      LinFeasible A b D d [] [] z ∧ quadForm Hess g 1 z < quadForm Hess g 1 (unk res.x) := by
  have h : Fits ⟨2, 1, fun r _ => if r = 0 then 1 else -1⟩ ⟨2, 1, fun r _ => if r = 0 then 2 else 0⟩ ⟨0, 1, fun _ _ => 0⟩
      ⟨0, 1, fun _ _ => 0⟩ ⟨1, 1, fun _ _ => 1⟩ ⟨1, 1, fun _ _ => -1⟩ := ⟨⟨rfl, rfl⟩, ⟨rfl, rfl, rfl⟩, ⟨rfl, rfl⟩⟩
  have hfeas : ∀ y : ℕ → ℝ, LinFeasible ⟨2, 1, fun r _ => if r = 0 then 1 else -1⟩ ⟨2, 1, fun r _ => if r = 0 then 2 else 0⟩ ⟨0, 1, fun _ _ => 0⟩
      ⟨0, 1, fun _ _ => 0⟩ [] [] y ↔ 0 ≤ y 0 ∧ y 0 ≤ 2 := by
    intro y
    unfold LinFeasible Sat EqSat InBox
    constructor
    · rintro ⟨h1, -, -⟩
      have a := h1 0 (by norm_num)
      have b := h1 1 (by norm_num)
      simp at a b
      exact ⟨b, a⟩
    · rintro ⟨h1, h2⟩
      refine ⟨fun r hr => ?_, fun r hr => absurd hr (Nat.not_lt_zero r), by simp, by simp⟩
      by_cases h0 : r = 0
      · simp [h0]; exact h2
      · simp [h0]; exact h1
  obtain ⟨res, h1, -, h2, h3⟩ := C61_solves lib fuel simplex hlib hs h [0] [] [] rfl (by norm_num) (by norm_num) (Or.inl rfl) (Or.inl rfl) (by
    have e1 : nonzeros (⟨2, 1, fun r _ => if r = 0 then 1 else -1⟩ : Mat) ≤ 2 := by
      unfold nonzeros
      exact (Finset.card_filter_le _ _).trans (by simp)
    have e2 : nonzeros (⟨0, 1, fun _ _ => 0⟩ : Mat) = 0 := by simp [nonzeros]
    omega)
  have hsuc : res.success = true := by
    by_contra hc
    obtain ⟨-, -, ⟨c, l, u, hl, -⟩ | hno⟩ := h3 (by simpa using hc)
    · simp at hl
    · apply hno
      refine ⟨fun _ => 2, (hfeas _).mpr (by norm_num), fun z hz => ?_⟩
      have := ((hfeas z).mp hz).2
      simp
      exact this
  obtain ⟨f1, f2, f3⟩ := h2 hsuc
  refine ⟨_, _, _, _, _, _, res, fun _ => 1, h, h1, hsuc, (hfeas _).mpr (by norm_num), ?_⟩
  have g1 := ((hfeas _).mp f1).2
  have g2 := f3 (fun _ => 2) ((hfeas _).mpr (by norm_num))
  rw [f2] at g2
  simp only [Finset.sum_range_one] at g2
  have : unk res.x 0 = 2 := by
    show res.x.getD 0 0 = 2
    linarith
  simp [quadForm, this]

end Verif
