import Verif.Props.C90
import Verif.Props.C80Ex
import Verif.Lemmas.BackSubst

/-!
# C96: a problem with a margin is not reported infeasible by a solver with rounded arithmetic
-/

namespace Verif

variable {n : ℕ}

namespace Arith

variable {o : Arith ℝ n} {m : ℕ} {u g : ℝ}

/-- The last step before the return of any status, when the equalities are accepted. -/
theorem reach_status {F : Type} {o : Arith F n} {maxIter : ℕ} {P : FQP F n} {J0 : ℕ → Fin n → F} {a : FNext F n}
    (hE : ∀ i s q, o.Reach maxIter P J0 a (.eq i s) → o.stepEq P i s = .ok q → ∀ r s', q ≠ .ret r s')
    (ha : ∀ r s, a ≠ .ret r s) (ho : o.Sane) (hg : ∀ st, o.Reach maxIter P J0 a (.l2a st) → Good2a P st ∧ o.Accepts P st)
    {q : FNext F n} (hr : o.Reach maxIter P J0 a q) (r : QPStatus) (s : FState F n) (hq : q = .ret r s) :
    r = .optimal ∨ r = .maxIterReached ∨ r = .unbounded ∧ o.Reach maxIter P J0 a (.l2a s) ∧
      (¬ o.far (o.updateZ s.J (o.gemvT s.J (o.row P s.ip).1) s.iq) ∧
      (∀ k, P.CE.length ≤ k → k < s.iq → ¬ o.lt o.zero (o.triSolve s.R (o.gemvT s.J (o.row P s.ip).1) s.iq k)) ∨
      ∃ t, o.geInf t ∨ ¬ o.ltInf t) := by
  classical
  induction hr with
  | refl => exact absurd hq (ha _ _)
  | @tail b c hb hs ih =>
    subst hq
    cases b with
    | ret r' s' =>
      cases hs
      exact ih rfl
    | eq i s' =>
      exfalso
      exact hE i s' _ hb hs _ _ rfl
    | l1 st =>
      replace hs : o.stepL1 maxIter P J0 st = .ok (.ret r s) := hs
      unfold stepL1 at hs
      dsimp only at hs
      split_ifs at hs
      · cases Out.ok.inj hs; exact Or.inr (Or.inl rfl)
      · cases Out.ok.inj hs; exact Or.inl rfl
      · cases Out.ok.inj hs
    | l2 st =>
      replace hs : o.stepL2 P st = .ok (.ret r s) := hs
      unfold stepL2 at hs
      dsimp only at hs
      split_ifs at hs
      · cases Out.ok.inj hs; exact Or.inl rfl
      · cases Out.ok.inj hs
    | l2a st =>
      obtain ⟨hgood, hacc⟩ := hg st hb
      rcases stepL2a_cases ho hgood hacc hs with ⟨e, h⟩ | ⟨k, r, t, st1, k1, k2, k3, e⟩ | ⟨k, t, f', u', st1, k1, k2, k3, k4, k5, e⟩ |
        ⟨t, f', u', a, k1, k2, k3, k4, k5, e⟩
      · cases e
        exact Or.inr (Or.inr ⟨rfl, hb, h⟩)
      all_goals cases e

theorem val_sub (e : (Fin n → ℝ) × ℝ) (x y : Fin n → ℝ) : val e y - val e x = ∑ k, e.1 k * (y k - x k) := by
  unfold val
  simp only [mul_sub, Finset.sum_sub_distrib]
  ring

theorem sq_sub_le {x y : Fin n → ℝ} {X Z : ℝ} (hX : 0 ≤ X) (hZ : 0 ≤ Z) (hx : ∑ k, x k ^ 2 ≤ X ^ 2) (hy : ∑ k, y k ^ 2 ≤ Z ^ 2) :
    ∑ k, (y k - x k) ^ 2 ≤ (X + Z) ^ 2 := by
  have hcs : (∑ k, x k * y k) ^ 2 ≤ (X * Z) ^ 2 := by
    refine le_trans (Finset.sum_mul_sq_le_sq_mul_sq Finset.univ x y) ?_
    rw [mul_pow]
    exact mul_le_mul hx hy (Finset.sum_nonneg fun _ _ => sq_nonneg _) (sq_nonneg _)
  have h1 := (abs_le.mp (abs_le_of_sq_le_sq hcs (mul_nonneg hX hZ))).1
  have e : ∑ k, (y k - x k) ^ 2 = ∑ k, y k ^ 2 + ∑ k, x k ^ 2 - 2 * ∑ k, x k * y k := by
    rw [Finset.mul_sum, ← Finset.sum_add_distrib, ← Finset.sum_sub_distrib]
    exact Finset.sum_congr rfl fun k _ => by ring
  rw [e]
  nlinarith

end Arith

open Arith

/-- The margin that excludes a wrong verdict: the first line bounds the error on the violated inequality, the second one that on the active inequalities. -/
def InfMargin (n : ℕ) (u g γ eps ν σ β b X Z : ℝ) (maxIter : ℕ) (μ : ℝ) : Prop :=
  6 * (g + u) * (β * X + b) + (X + Z) * (5.2 * Real.sqrt eps / σ ^ 2 + 2.2 * g * β * (ν / σ)) < μ ∧
  6 * (g + u) * (β * X + b) + (2 + maxIter * (n + 3) : ℕ) * (β * X) * (12 * (g + 80 * u * (n * (2 + maxIter * (n + 3) : ℕ))) * (ν / σ) + 4 * u) +
    (X + Z) * β * (ν / σ) * (2.4 * (1 + γ) * (g + 152 * u * (n * (2 + maxIter * (n + 3) : ℕ))) + 2.2 * γ) ≤ μ

/-- The margin that excludes a wrong verdict when there are `nE` equalities, which the given point meets up to `η`; `L` bounds the coefficients of the
equalities in the combination that yields the normal of an entering inequality. -/
def InfMarginEq (n nE : ℕ) (u g γ eps ν σ β b X Z : ℝ) (maxIter : ℕ) (L η μ : ℝ) : Prop :=
  let C : ℕ := nE + 2 + maxIter * (n + 3)
  let τ := 6 * (g + u) * (β * X + b) + C * (β * X) * (12 * (g + 80 * u * (n * C)) * (ν / σ) + 4 * u)
  let κ := (X + Z) * β * (ν / σ) * (2.4 * (1 + γ) * (g + 152 * u * (n * C)) + 2.2 * γ)
  6 * (g + u) * (β * X + b) + (X + Z) * (5.2 * Real.sqrt eps / σ ^ 2 + 2.2 * g * β * (ν / σ)) + L * (η + τ + κ) < μ ∧ τ + κ ≤ μ

/-- C96, the verdict of the solver, with equalities whose normals are far enough from each other (`hfar`): when some point of the ball of radius `Z`
meets the equalities up to `η` and all inequalities with a margin that exceeds the rounding errors, `solve_quadprog` returns `OPTIMAL` or
`MAX_ITER_REACHED`: it reports neither that the problem is infeasible (status `UNBOUNDED`, eiquadprog-fast.cpp:505) nor that the equalities are
redundant (eiquadprog-fast.cpp:363). -/
theorem C96_equalities (o : Arith ℝ n) {m : ℕ} {u g : ℝ} (ho : o.Rounded m u g) {γ : ℝ} (hγ : 0 ≤ γ) (htri : o.TriRounded γ) (maxIter : ℕ)
    (P : FQP ℝ n) (hE : P.CE.length ≤ n) (J0 : ℕ → Fin n → ℝ) (x0 : Fin n → ℝ) (w : FWork ℝ n) {ν σ β b X L : ℝ}
    (hC : o.ScaledFp u g maxIter P J0 ν σ β b) (hX : 0 ≤ X)
    (hx : ∀ q, o.Reach maxIter P J0 (.eq 0 (o.init P J0 x0 w)) q → ∑ k, (st q).x k ^ 2 ≤ X ^ 2)
    (hfar : ∀ i s, o.Reach maxIter P J0 (.eq 0 (o.init P J0 x0 w)) (.eq i s) → i < P.CE.length →
      o.far (o.updateZ s.J (o.gemvT s.J (P.CE.getD i (0, 0)).1) s.iq))
    (hL : ∀ s, o.Reach maxIter P J0 (.eq 0 (o.init P J0 x0 w)) (.l2a s) →
      ∑ k ∈ Finset.range P.CE.length, |o.triSolve s.R (o.gemvT s.J (P.CI.getD s.ip (0, 0)).1) s.iq k| ≤ L)
    (y : Fin n → ℝ) {Z η μ : ℝ} (hZ : 0 ≤ Z) (hy : ∑ k, y k ^ 2 ≤ Z ^ 2) (hη0 : 0 ≤ η) (hη : ∀ e ∈ P.CE, |val e y| ≤ η) (hμ : ∀ e ∈ P.CI, μ ≤ val e y)
    (hm : InfMarginEq n P.CE.length u g γ o.eps ν σ β b X Z maxIter L η μ) :
    ∃ r s, (∀ fuel, P.CE.length + 2 + maxIter * (n + 3) ≤ fuel → o.solve maxIter P J0 x0 w fuel = .ok (r, s)) ∧ (r = .optimal ∨ r = .maxIterReached) := by
  classical
  have hacc := (C87_rounded o ho maxIter P hE J0 x0 w hC.cond).1
  obtain ⟨r, s, h1, h2⟩ := Arith.run_good ho.sane hacc _ (.eq 0 (o.init P J0 x0 w)) le_rfl ⟨rfl, Nat.zero_le _, hE, rfl⟩ .refl
  refine ⟨r, s, fun fuel hf => h1 fuel (by simpa [Arith.cost] using hf), ?_⟩
  have hEq : ∀ i s q, o.Reach maxIter P J0 (.eq 0 (o.init P J0 x0 w)) (.eq i s) → o.stepEq P i s = .ok q → ∀ r s', q ≠ .ret r s' := by
    intro i s q hr hs r s' e
    subst e
    obtain ⟨⟨q1, q2, q3, q4⟩, c, hc, hB, -⟩ := hC.reach ho hX hE hx hfar hr
    unfold Arith.stepEq at hs
    by_cases hi : i < P.CE.length
    · have hf := hfar i s hr hi
      rw [if_pos hi, if_pos ⟨by omega, by omega⟩] at hs
      have hrow : P.CE.getD i (fun _ => o.zero, o.zero) = P.CE.getD i (0, 0) := by
        rw [List.getD_eq_getElem?_getD, List.getD_eq_getElem?_getD, List.getElem?_eq_getElem hi]; rfl
      rw [hrow] at hs
      obtain ⟨a, ha⟩ := o.addConstraint_ok (J := s.J) (R := s.R) (d := o.gemvT s.J (P.CE.getD i (0, 0)).1) (Rnorm := s.Rnorm) (show s.iq < n by omega)
      dsimp only at hs
      rw [ha] at hs
      dsimp only at hs
      rw [if_pos (hC.cond.accepts_all ho (by omega) hB _ a hf ha)] at hs
      cases hs
    · rw [if_neg hi] at hs
      cases hs
  rcases reach_status hEq (fun _ _ => by simp) ho.sane (fun st hst => ⟨(hC.reach ho hX hE hx hfar hst).1, hacc st hst⟩) h2 r s rfl with
    h | h | ⟨-, hr, h⟩
  · exact Or.inl h
  · exact Or.inr h
  · exfalso
    rcases h with ⟨hz, hneg⟩ | ⟨t, ht⟩
    · obtain ⟨⟨hact, g1, g2, g3⟩, c, hc, -, ⟨hB, -⟩⟩ := hC.reach ho hX hE hx hfar hr
      obtain ⟨hd, hval⟩ := hC.extra ho hX hE hx hfar hr
      have hp := hC.par
      have hcn : n * c ≤ rots n maxIter P := Nat.mul_le_mul_left n (by omega)
      rw [row_eq o g1] at hz hneg
      have hmem := getD_mem g1 ((0, 0) : (Fin n → ℝ) × ℝ)
      have hxs : ∑ k, s.x k ^ 2 ≤ X ^ 2 := hx _ hr
      have hW := sq_sub_le hX hZ hxs hy
      have hne := hact.ne_le
      have hmemA : ∀ k, P.CE.length ≤ k → k < s.iq → active P s.A k ∈ P.CI := fun k h0 hk => by
        have hlt := hact.rng k h0 hk
        unfold active
        rw [if_neg (by omega)]
        exact getD_mem (by omega) _
      have hmemE : ∀ k < P.CE.length, active P s.A k ∈ P.CE := fun k hk => by
        unfold active
        rw [if_pos hk]
        exact getD_mem hk _
      have hcomb := ho.normal_comb hp hC.σ0 hcn hB.J (hC.lo_ge hcn) hact.le_n hB.F (fun k hk => hC.active_le hact.rng hk) (hC.cond.ci _ hmem) hz hγ
        htri hd (add_nonneg hX hZ) hW
      have hκ0 : 0 ≤ 2 * (X + Z) / σ * (dl u g (β * (1.07 * ν)) (n * c) + γ * (β * (1.07 * ν) + dl u g (β * (1.07 * ν)) (n * c))) := by
        have := hC.σ0
        have := hC.ν0
        have := hC.β0
        have := dl_nonneg hp.u0 hp.g0 hp.Q0 (n * c)
        positivity
      have hle := hC.comb_le hγ (add_nonneg hX hZ) hcn
      have hV : ∀ k < s.iq, |val (active P s.A k) s.x| ≤ _ := fun k hk => le_trans (hB.V k hk) (hC.resid_le hX (by omega))
      obtain ⟨m1, m2⟩ := hm
      have hL := hL s hr
      have hlast := hμ _ hmem
      generalize hρ : o.triSolve s.R (o.gemvT s.J (P.CI.getD s.ip (0, 0)).1) s.iq = ρ at hcomb hneg hL
      have hρ0 : ∀ k, P.CE.length ≤ k → k < s.iq → ρ k ≤ 0 := fun k h0 hk => by
        have := hneg k h0 hk
        rw [ho.lt, ho.zero, not_lt] at this
        exact this
      have e1 : ∑ k, ((P.CI.getD s.ip (0, 0)).1 k - ∑ j ∈ Finset.range s.iq, ρ j * (active P s.A j).1 k) * (y k - s.x k) =
          (val (P.CI.getD s.ip (0, 0)) y - val (P.CI.getD s.ip (0, 0)) s.x) -
            ∑ j ∈ Finset.range s.iq, ρ j * (val (active P s.A j) y - val (active P s.A j) s.x) := by
        simp only [val_sub]
        have : ∀ j ∈ Finset.range s.iq, ρ j * ∑ k, (active P s.A j).1 k * (y k - s.x k) = ∑ k, ρ j * (active P s.A j).1 k * (y k - s.x k) := fun j hj => by
          rw [Finset.mul_sum]
          simp only [mul_assoc]
        rw [Finset.sum_congr rfl this, Finset.sum_comm, ← Finset.sum_sub_distrib]
        exact Finset.sum_congr rfl fun k _ => by rw [sub_mul, Finset.sum_mul]
      have hb := (abs_le.mp hcomb).2
      rw [e1] at hb
      clear e1 hcomb
      generalize hκ : 2 * (X + Z) / σ * (dl u g (β * (1.07 * ν)) (n * c) + γ * (β * (1.07 * ν) + dl u g (β * (1.07 * ν)) (n * c))) = κ at hκ0 hle
      generalize hτ : 6 * (g + u) * (β * X + b) + ((P.CE.length + 2 + maxIter * (n + 3) : ℕ) : ℝ) * (β * X) *
        (12 * (g + 80 * u * (n * ((P.CE.length + 2 + maxIter * (n + 3) : ℕ) : ℝ))) * (ν / σ) + 4 * u) = τ at hV m1 m2
      -- the active inequalities
      have e2 : (∑ j ∈ Finset.Ico P.CE.length s.iq, |ρ j|) * κ ≤
          -∑ j ∈ Finset.Ico P.CE.length s.iq, ρ j * (val (active P s.A j) y - val (active P s.A j) s.x) := by
        rw [Finset.sum_mul, ← Finset.sum_neg_distrib]
        refine Finset.sum_le_sum fun j hj => ?_
        obtain ⟨j1, j2⟩ := Finset.mem_Ico.mp hj
        rw [← neg_mul, ← abs_of_nonpos (hρ0 j j1 j2)]
        refine mul_le_mul_of_nonneg_left ?_ (abs_nonneg _)
        have k1 := hμ _ (hmemA j j1 j2)
        have k2 := le_trans (le_abs_self _) (hV j j2)
        linarith
      -- the equalities
      have e4 : -((∑ j ∈ Finset.range P.CE.length, |ρ j|) * (η + τ)) ≤
          -∑ j ∈ Finset.range P.CE.length, ρ j * (val (active P s.A j) y - val (active P s.A j) s.x) := by
        rw [neg_le_neg_iff, Finset.sum_mul]
        refine Finset.sum_le_sum fun j hj => ?_
        have j1 := Finset.mem_range.mp hj
        refine le_trans (le_abs_self _) ?_
        rw [_root_.abs_mul]
        refine mul_le_mul_of_nonneg_left (le_trans (_root_.abs_sub _ _) (add_le_add (hη _ (hmemE j j1)) (hV j (by omega)))) (abs_nonneg _)
      have e3 : 2 * (X + Z) / σ * (2.6 * Real.sqrt o.eps / σ + g * (β * (1.07 * ν))) ≤
          (X + Z) * (5.2 * Real.sqrt o.eps / σ ^ 2 + 2.2 * g * β * (ν / σ)) := by
        have := hC.σ0
        have := hC.ν0
        have := hC.β0
        have := hp.g0
        have e : 2 * (X + Z) / σ * (2.6 * Real.sqrt o.eps / σ + g * (β * (1.07 * ν))) =
            (X + Z) * (5.2 * Real.sqrt o.eps / σ ^ 2 + 2.14 * g * β * (ν / σ)) := by
          field_simp
          ring
        rw [e]
        refine mul_le_mul_of_nonneg_left ?_ (add_nonneg hX hZ)
        have : 0 ≤ g * β * (ν / σ) := by positivity
        linarith
      rw [mul_add (2 * (X + Z) / σ), mul_left_comm (2 * (X + Z) / σ) (∑ j ∈ Finset.range s.iq, |ρ j|), hκ] at hb
      have r1 := Finset.sum_range_add_sum_Ico (fun j => |ρ j|) hne
      have r2 := Finset.sum_range_add_sum_Ico (fun j => ρ j * (val (active P s.A j) y - val (active P s.A j) s.x)) hne
      rw [← r1, ← r2] at hb
      have hτ0 : 0 ≤ τ := by
        rw [← hτ]
        have := hC.σ0
        have := hC.ν0
        have := hC.β0
        have := hC.b0
        have := hp.g0
        have := hp.u0
        positivity
      have r3 := mul_le_mul_of_nonneg_right hL (add_nonneg (add_nonneg hη0 hτ0) hκ0)
      have hL0 : 0 ≤ L := le_trans (Finset.sum_nonneg fun _ _ => abs_nonneg _) hL
      have r4 := mul_le_mul_of_nonneg_left hle hL0
      linarith
    · rcases ht with ht | ht
      · exact ho.geInf t ht
      · exact ht (ho.ltInf t)

/-- C96, the verdict of the solver. When some point of the ball of radius `Z` meets all inequalities with a margin that exceeds the rounding errors,
`solve_quadprog` without equalities returns `OPTIMAL` or `MAX_ITER_REACHED`: it does not report that the problem is infeasible
(status `UNBOUNDED`, eiquadprog-fast.cpp:505). -/
theorem C96_margin (o : Arith ℝ n) {m : ℕ} {u g : ℝ} (ho : o.Rounded m u g) {γ : ℝ} (hγ : 0 ≤ γ) (htri : o.TriRounded γ) (maxIter : ℕ)
    (P : FQP ℝ n) (hE : P.CE = []) (J0 : ℕ → Fin n → ℝ) (x0 : Fin n → ℝ) (w : FWork ℝ n) {ν σ β b X : ℝ}
    (hC : o.ScaledFp u g maxIter P J0 ν σ β b) (hX : 0 ≤ X)
    (hx : ∀ q, o.Reach maxIter P J0 (.eq 0 (o.init P J0 x0 w)) q → ∑ k, (st q).x k ^ 2 ≤ X ^ 2)
    (y : Fin n → ℝ) {Z μ : ℝ} (hZ : 0 ≤ Z) (hy : ∑ k, y k ^ 2 ≤ Z ^ 2) (hμ : ∀ e ∈ P.CI, μ ≤ val e y)
    (hm : InfMargin n u g γ o.eps ν σ β b X Z maxIter μ) :
    ∃ r s, (∀ fuel, 2 + maxIter * (n + 3) ≤ fuel → o.solve maxIter P J0 x0 w fuel = .ok (r, s)) ∧ (r = .optimal ∨ r = .maxIterReached) := by
  have hE0 : P.CE.length = 0 := by rw [hE]; rfl
  have key := C96_equalities o ho hγ htri maxIter P (by omega) J0 x0 w hC hX hx (fun i s _ hi => by omega) (L := 0)
    (fun s _ => by rw [hE0, Finset.range_zero, Finset.sum_empty]) y hZ hy (η := 0) le_rfl (by rw [hE]; simp) hμ ?_
  · rw [hE0] at key
    simpa only [Nat.zero_add] using key
  · obtain ⟨m1, m2⟩ := hm
    unfold InfMarginEq
    rw [hE0, Nat.zero_add]
    dsimp only
    rw [zero_mul, add_zero]
    exact ⟨m1, m2⟩

/-- The rows given to the solver keep a margin. -/
theorem GivenRows.margin {P : FQP ℝ n} {A b : Mat} {ρ Z μ : ℝ} (hP : GivenRows P A b ρ) (hρ : 0 ≤ ρ) (hZ : 0 ≤ Z) {y : Fin n → ℝ}
    (hy : ∑ k, y k ^ 2 ≤ Z ^ 2) (h : SatTol A b (-(μ + ρ * (Z + 1))) (extN y)) : ∀ e ∈ P.CI, μ ≤ val e y := by
  intro e he
  obtain ⟨i, hi, rfl⟩ := List.mem_iff_getElem.mp he
  have hiA : i < A.rows := by rw [← hP.count]; exact hi
  have hg : P.CI.getD i (0, 0) = P.CI[i] := by rw [List.getD_eq_getElem?_getD, List.getElem?_eq_getElem hi]; rfl
  have k4 := abs_sum_mul_le Finset.univ (fun k => (P.CI.getD i (0, 0)).1 k + A.e i k) y hρ hZ (hP.normal i hiA) hy
  have k5 := hP.offset i hiA
  have k := h i hiA
  have e1 : ∑ c ∈ Finset.range A.cols, A.e i c * extN y c =
      ∑ k, ((P.CI.getD i (0, 0)).1 k + A.e i k) * y k - ∑ k, (P.CI.getD i (0, 0)).1 k * y k := by
    rw [hP.cols, Finset.sum_range, ← Finset.sum_sub_distrib]
    refine Finset.sum_congr rfl fun k _ => ?_
    unfold extN
    rw [dif_pos k.2]
    ring
  rw [e1] at k
  have k6 := (abs_le.mp k4).1
  have k7 := (abs_le.mp k5).1
  rw [← hg]
  unfold val
  linarith

/-- C96, the planner on samples, the five sets whose coefficients are exact: when some motion meets the requirements at the samples with a
margin that exceeds the rounding errors of the solver, the run ends with `success_`, or with `MAX_ITER_REACHED`. -/
theorem C96_samples (pData : ProblemData) (Ts : List ℝ) (gr : V3) (h : Accepted pData Ts gr)
    (hf : pData.flag ∈ [11#32, 19#32, 27#32, 7#32, 15#32]) (l : TTime) (hl : Discretisation Ts l)
    (hc : pData.costFunction = DISTANCE_TRAVELED ∨ pData.costFunction = ACCELERATION) {k R : ℝ} (hs : DataScale pData Ts.sum l gr k R)
    {x : V3} {c v a : ℝ → V3} (hx : Motion pData Ts.sum x c v a) {μ Z : ℝ} (hμ : 0 ≤ μ) (hZ : 0 ≤ Z) (hxZ : ∑ k, x k ^ 2 ≤ Z ^ 2)
    (hmeet : MeetsSamplesTol pData l (-(R * μ)) (-μ) c a) :
    ∃ A b, computeConstraintsOneStep pData Ts.length Ts.sum l = .ok (A, b) ∧
      ∀ (o : Arith ℝ 3) (m : ℕ) (u g γ : ℝ) (_ : o.Rounded m u g) (_ : 0 ≤ γ) (_ : o.TriRounded γ) (maxIter : ℕ) (P : FQP ℝ 3) (_ : P.CI.length ≤ m)
        (J0 : ℕ → Fin 3 → ℝ) (x0 : Fin 3 → ℝ) (w : FWork ℝ 3) (ν σ β B X ρ : ℝ) (_ : o.ScaledFp u g maxIter P J0 ν σ β B) (_ : 0 ≤ X)
        (_ : ∀ q, o.Reach maxIter P J0 (.eq 0 (o.init P J0 x0 w)) q → ∑ k, (st q).x k ^ 2 ≤ X ^ 2) (_ : 0 ≤ ρ) (_ : GivenRows P A b ρ)
        (_ : InfMargin 3 u g γ o.eps ν σ β B X Z maxIter (μ - ρ * (Z + 1))),
      ∃ r s, (∀ fuel ≥ 2 + maxIter * (3 + 3), o.solve maxIter P J0 x0 w fuel = .ok (r, s)) ∧ (r = .optimal ∨ r = .maxIterReached) ∧
        ∃ res, genTraj { success := r = .optimal, cost := if r = .optimal then s.f else -1, x := List.ofFn s.x } pData Ts.sum = .ok res ∧
          (res.success = true ↔ r = .optimal) ∧
          (res.success = true → MeetsBoundary pData.flag pData.bc res.c_of_t.eval Ts.sum ∧
            ∃ v a, Motion pData Ts.sum res.point res.c_of_t.eval v a ∧
              MeetsSamplesTol pData l (R * (fpTol o u g maxIter P J0 ν σ β B X + ρ * (X + 1)))
                (fpTol o u g maxIter P J0 ν σ β B X + ρ * (X + 1)) res.c_of_t.eval a) := by
  have hgc := goodCost pData Ts h.total h.ne h.flag h.capt l hl (hc.imp_right fun hc => ⟨hc, fun e => by rw [e] at hf; simp at hf⟩)
  obtain ⟨A, b, w', K, pts, hpts, hA, hk, hgen, -, hcols, hfits, hRow, hrows⟩ := planSamples_rows pData Ts gr h hf l hl hgc hs
  obtain ⟨A', b', hA', hall⟩ := C90_samples pData Ts gr h hf l hl hc hs
  rw [hA] at hA'
  cases hA'
  refine ⟨A, b, hA, ?_⟩
  intro o m u g γ ho hγ htri maxIter P hm J0 x0 w ν σ β B X ρ hC hX hxX hρ hP hmar
  have hsat : SatTol A b (-(μ - ρ * (Z + 1) + ρ * (Z + 1))) (extN x) := by
    rw [sub_add_cancel]
    exact (hrows _ _ _ _ hx).2 μ hμ hmeet
  obtain ⟨r, s, h1, h2⟩ := C96_margin o ho hγ htri maxIter P hP.noEq J0 x0 w hC hX hxX x hZ hxZ (hP.margin hρ hZ hxZ hsat) hmar
  obtain ⟨r', s', h1', h3⟩ := hall o m u g ho maxIter P hm J0 x0 w ν σ β B X ρ hC hX hxX hρ hP
  have e := h1 (P.CE.length + 2 + maxIter * (3 + 3)) (by omega)
  rw [h1' _ le_rfl] at e
  cases e
  exact ⟨r, s, h1, h2, h3⟩

/-- A non-trivial case: doubles with back substitution and one thousand passes, minimise `x² / 2` under `x ≥ 1` from `x = 0`; the point `2` has the
margin `1`. -/
example (fl : ℝ → ℝ) (hfl : ∀ x, |fl x - x| ≤ 2⁻¹ ^ 53 * |x|) (h1 : fl 1 = 1) (hm : fl (-1) = -1) (w : FWork ℝ 1) :
    ∃ r s, (∀ fuel, 2 + 1000 * (1 + 3) ≤ fuel →
      (flArith fl (2⁻¹ ^ 52) (backSubFl fl) 1).solve 1000 C88Example.prob (fun _ _ => 1) (fun _ => 0) w fuel = .ok (r, s)) ∧
      (r = .optimal ∨ r = .maxIterReached) := by
  have ho := C87_left_to_right (n := 1) (m := 1) (N := 1) (by norm_num) hfl (eps := 2⁻¹ ^ 52) (by norm_num) (backSubFl fl) le_rfl le_rfl
  refine C96_margin _ ho (γ := 3 * (((1 + 2⁻¹ ^ 53) ^ (1 + 1) - 1) + 2⁻¹ ^ 53)) (by norm_num) (flArith_tri (by norm_num) (by norm_num) hfl le_rfl (by norm_num) _)
    1000 C88Example.prob rfl (fun _ _ => 1) (fun _ => 0) w (C88Example.scaled hfl (backSubFl fl)) (X := 1) (by norm_num) (fun q hq => ?_)
    (fun _ => 2) (Z := 2) (μ := 1) (by norm_num) (by norm_num) (by simp [C88Example.prob, val]; norm_num) ?_
  · have := C88Example.inv hfl h1 hm (backSubFl fl) hq
    rw [one_pow]
    cases q with
    | ret r s => exact this.1
    | eq i s => simp [st, this.1]
    | l1 s => rcases this with this | this <;> simp [st, this.1]
    | l2 s => simp [st, this.1]
    | l2a s => simp [st, this.1]
  · have e : Real.sqrt (flArith fl (2⁻¹ ^ 52) (backSubFl fl) 1).eps = 2⁻¹ ^ 26 := by
      show Real.sqrt (2⁻¹ ^ 52) = _
      rw [show (2⁻¹ : ℝ) ^ 52 = (2⁻¹ ^ 26) ^ 2 by norm_num]
      exact Real.sqrt_sq (by norm_num)
    unfold InfMargin
    rw [e]
    constructor <;> norm_num

namespace C96Example

/-- A problem in one variable with an equality: minimise `x ^ 2 / 2` with `x = 1` and `x ≥ 0`. -/
def prob : FQP ℝ 1 := ⟨1, fun _ => 0, [(fun _ => 1, -1)], [(fun _ => 1, 0)]⟩

variable {fl : ℝ → ℝ} (hfl : ∀ x, |fl x - x| ≤ 2⁻¹ ^ 53 * |x|) (h1 : fl 1 = 1) (hm : fl (-1) = -1)
  (tri : (ℕ → ℕ → ℝ) → (ℕ → ℝ) → ℕ → ℕ → ℝ)

include hfl in
theorem scaled {maxIter : ℕ} (hi : maxIter ≤ 1000) :
    (flArith fl (2⁻¹ ^ 52) tri 1).ScaledFp (2⁻¹ ^ 53) ((1 + 2⁻¹ ^ 53) ^ (1 + 1) - 1) maxIter prob (fun _ _ => 1) 1 1 1 1 := by
  have hi' : (maxIter : ℝ) ≤ 1000 := by exact_mod_cast hi
  exact {
    cond := {
      u0 := by norm_num, u1 := by norm_num, g0 := by norm_num, g1 := by norm_num
      steps := by simp only [prob]; push_cast; norm_num; linarith
      sum := by simp
      ce := by simp [prob]
      ci := by simp [prob]
      eps := by simp only [flArith]; norm_num }
    ν0 := by norm_num
    β0 := by norm_num
    σ0 := by norm_num
    b0 := by norm_num
    low := fun v => by simp
    small := by simp only [prob]; push_cast; norm_num; linarith
    eps := by simp only [flArith]; norm_num
    ce := by simp [prob]
    ci := by simp [prob] }

/-- The state after the equality. -/
def Done (s : FState ℝ 1) : Prop := s.x = (fun _ => 1) ∧ s.iq = 1 ∧ s.u 0 = 1 ∧ |s.f| ≤ 1

/-- The states of the run. -/
def Inv : FNext ℝ 1 → Prop
  | .ret r s => Done s ∧ r = .optimal
  | .eq i s => s.iter = 0 ∧ (i = 0 ∧ s.x = (fun _ => 0) ∧ s.J = (fun _ _ => 1) ∧ s.iq = 0 ∧ s.f = 0 ∧ s.Rnorm = 1 ∨ i = 1 ∧ Done s)
  | .l1 s => s.iter = 0 ∧ Done s
  | .l2 _ => False
  | .l2a _ => False

include hfl h1 hm in
theorem inv {maxIter : ℕ} (hi2 : 2 ≤ maxIter) {w : FWork ℝ 1} {q : FNext ℝ 1}
    (hr : (flArith fl (2⁻¹ ^ 52) tri 1).Reach maxIter prob (fun _ _ => 1) (.eq 0 ((flArith fl (2⁻¹ ^ 52) tri 1).init prob (fun _ _ => 1) (fun _ => 0) w)) q) :
    Inv q ∧ (∀ i s, q = .eq i s → i < 1 →
      (flArith fl (2⁻¹ ^ 52) tri 1).far ((flArith fl (2⁻¹ ^ 52) tri 1).updateZ s.J ((flArith fl (2⁻¹ ^ 52) tri 1).gemvT s.J (prob.CE.getD i (0, 0)).1) s.iq)) := by
  have h0 := C88Example.fl_zero hfl
  have hz : (flArith fl (2⁻¹ ^ 52) tri 1).updateZ (fun _ _ => 1) ((flArith fl (2⁻¹ ^ 52) tri 1).gemvT (fun _ _ => 1) (fun _ => 1)) 0 = fun _ => 1 := by
    unfold Arith.updateZ
    rw [if_pos one_pos]
    funext i
    simp [flArith, flSum, List.ofFn_succ, h1]
  have hfar : (flArith fl (2⁻¹ ^ 52) tri 1).far fun _ => 1 := by
    simp only [Arith.far, flArith, flSum, List.ofFn_succ, List.ofFn_zero, List.foldl, mul_one, h1, zero_add, abs_one]
    norm_num
  have hinv : Inv q := by
    induction hr with
    | refl =>
      refine ⟨rfl, Or.inl ⟨rfl, rfl, rfl, rfl, ?_, rfl⟩⟩
      show fl (1 / 2 * _) = 0
      simp [prob, flArith, flSum, List.ofFn_succ, h0]
    | @tail b q' hb hs ih =>
      cases b with
      | ret r s => cases Out.ok.inj (show Out.ok (FNext.ret r s) = Out.ok q' from hs); exact ih
      | eq i s =>
        replace hs : (flArith fl (2⁻¹ ^ 52) tri 1).stepEq prob i s = .ok q' := hs
        obtain ⟨hit, ⟨i0, i1, i2, i3, i4, i5⟩ | ⟨i0, ih⟩⟩ := ih
        · subst i0
          unfold Arith.stepEq at hs
          have hrow : prob.CE.getD 0 (fun _ => (flArith fl (2⁻¹ ^ 52) tri 1).zero, (flArith fl (2⁻¹ ^ 52) tri 1).zero) = (fun _ => 1, -1) := rfl
          rw [if_pos (by simp [prob]), if_pos (by rw [i3]; simp [prob]), hrow] at hs
          dsimp only at hs
          rw [i1, i2, i3, hz] at hs
          have ht : (flArith fl (2⁻¹ ^ 52) tri 1).eqLen (fun _ => 1) (fun _ => 1) (fun _ => 0) (-1) = 1 := by
            unfold Arith.eqLen
            rw [if_pos hfar]
            simp [flArith, flSum, List.ofFn_succ, h1, h0]
          rw [ht] at hs
          obtain ⟨a, ha⟩ := (flArith fl (2⁻¹ ^ 52) tri 1).addConstraint_ok (J := fun _ _ => 1) (R := s.R)
            (d := (flArith fl (2⁻¹ ^ 52) tri 1).gemvT (fun _ _ => 1) (fun _ => 1)) (Rnorm := s.Rnorm) one_pos
          rw [ha] at hs
          dsimp only at hs
          have hdone : Done { s with
              J := a.J, R := a.R, Rnorm := a.Rnorm
              x := fun k => (flArith fl (2⁻¹ ^ 52) tri 1).mulAdd 1 1 0
              u := fun k => if k = 0 then 1 else if k < 0 then (flArith fl (2⁻¹ ^ 52) tri 1).subMul (s.u k) 1
                ((flArith fl (2⁻¹ ^ 52) tri 1).triSolve s.R ((flArith fl (2⁻¹ ^ 52) tri 1).gemvT (fun _ _ => 1) (fun _ => 1)) 0 k) else s.u k
              f := (flArith fl (2⁻¹ ^ 52) tri 1).mulAdd ((flArith fl (2⁻¹ ^ 52) tri 1).mul (flArith fl (2⁻¹ ^ 52) tri 1).half
                ((flArith fl (2⁻¹ ^ 52) tri 1).mul 1 1)) ((flArith fl (2⁻¹ ^ 52) tri 1).dot (fun _ => 1) (fun _ => 1)) s.f
              A := Function.update s.A 0 (-((0 : ℕ) : ℤ) - 1), iq := 0 + 1 } := by
            refine ⟨?_, rfl, rfl, ?_⟩
            · funext i
              simp [flArith, h1]
            · dsimp only
              rw [i4]
              simp [flArith, flSum, List.ofFn_succ, h1]
              have e0 : |(2⁻¹ : ℝ)| = 1 / 2 := by norm_num
              have step : ∀ y : ℝ, |fl y| ≤ 1.1 * |y| := fun y => by
                have := abs_sub_abs_le_abs_sub (fl y) y
                have := hfl y
                have h53 : (2⁻¹ : ℝ) ^ 53 ≤ 0.1 := by norm_num
                have := mul_le_mul_of_nonneg_right h53 (abs_nonneg y)
                linarith
              have b1 := step 2⁻¹
              have b2 := step (fl 2⁻¹)
              have b3 := step (fl (fl 2⁻¹))
              rw [e0] at b1
              norm_num at b1 b2 b3 ⊢
              linarith
          have hok : a.ok := by
            unfold Arith.addConstraint at ha
            dsimp only at ha
            rw [if_pos one_pos, i5] at ha
            cases Out.ok.inj ha
            have hd : ((flArith fl (2⁻¹ ^ 52) tri 1).addLoop 0 (1 - 1 - 0) ((fun _ _ => 1), (flArith fl (2⁻¹ ^ 52) tri 1).gemvT (fun _ _ => 1) (fun _ => 1))).2 0 = 1 := by
              show (flArith fl (2⁻¹ ^ 52) tri 1).gemvT (fun _ _ => 1) (fun _ => 1) 0 = 1
              simp [flArith, flSum, List.ofFn_succ, h1]
            show ¬ (flArith fl (2⁻¹ ^ 52) tri 1).le _ _
            rw [hd]
            show ¬ |(1 : ℝ)| ≤ fl (2⁻¹ ^ 52 * 1)
            have := (abs_le.mp (hfl (2⁻¹ ^ 52 * 1))).2
            norm_num at this ⊢
            linarith
          rw [if_pos hok] at hs
          cases Out.ok.inj hs
          exact ⟨hit, Or.inr ⟨rfl, hdone⟩⟩
        · subst i0
          unfold Arith.stepEq at hs
          rw [if_neg (by simp [prob])] at hs
          cases Out.ok.inj hs
          exact ⟨hit, ih⟩
      | l1 s =>
        replace hs : (flArith fl (2⁻¹ ^ 52) tri 1).stepL1 maxIter prob (fun _ _ => 1) s = .ok q' := hs
        unfold Arith.stepL1 at hs
        dsimp only at hs
        obtain ⟨hit, ih⟩ := ih
        have hpsi : (flArith fl (2⁻¹ ^ 52) tri 1).le ((flArith fl (2⁻¹ ^ 52) tri 1).abs ((flArith fl (2⁻¹ ^ 52) tri 1).sumNeg
            ((flArith fl (2⁻¹ ^ 52) tri 1).slacks prob.CI s.x) prob.CI.length)) ((flArith fl (2⁻¹ ^ 52) tri 1).tol prob fun _ _ => 1) := by
          have hp : ∀ a : ℝ, 0 ≤ a → 0 ≤ fl a := fun a ha => by
            have := (abs_le.mp (hfl a)).1
            rw [abs_of_nonneg ha] at this
            have h53 : (2⁻¹ : ℝ) ^ 53 ≤ 1 := by norm_num
            have := mul_le_mul_of_nonneg_right h53 ha
            linarith
          rw [ih.1]
          simp only [flArith, Arith.tol, prob, flSum, List.ofFn_succ, List.ofFn_zero, List.foldl, List.getD_cons_zero, List.length_singleton, List.range_one,
            List.map, one_mul, mul_one, h1, h0, zero_add, abs_zero, Matrix.one_apply_eq, Nat.cast_one, min_eq_left (zero_le_one (α := ℝ))]
          exact hp _ (mul_nonneg (hp _ (hp _ (hp _ (by norm_num)))) (by norm_num))
        rw [if_pos hpsi, if_neg (by omega)] at hs
        split_ifs at hs
        cases Out.ok.inj hs
        exact ⟨ih, rfl⟩
      | l2 s => exact ih.elim
      | l2a s => exact ih.elim
  refine ⟨hinv, ?_⟩
  rintro i s rfl hi
  obtain rfl : i = 0 := by omega
  obtain ⟨-, ⟨-, i1, i2, i3, i4⟩ | ⟨i0, -⟩⟩ := hinv
  · rw [i2, i3]
    show (flArith fl (2⁻¹ ^ 52) tri 1).far ((flArith fl (2⁻¹ ^ 52) tri 1).updateZ (fun _ _ => 1) ((flArith fl (2⁻¹ ^ 52) tri 1).gemvT (fun _ _ => 1) (fun _ => 1)) 0)
    rw [hz]
    exact hfar
  · omega

include hfl h1 hm in
theorem point_le {maxIter : ℕ} (hi2 : 2 ≤ maxIter) {w : FWork ℝ 1} {q : FNext ℝ 1}
    (hr : (flArith fl (2⁻¹ ^ 52) tri 1).Reach maxIter prob (fun _ _ => 1) (.eq 0 ((flArith fl (2⁻¹ ^ 52) tri 1).init prob (fun _ _ => 1) (fun _ => 0) w)) q) :
    ∑ k, (st q).x k ^ 2 ≤ (1 : ℝ) ^ 2 := by
  have h := (inv hfl h1 hm tri hi2 hr).1
  cases q with
  | ret r s => simp [st, h.1.1]
  | eq i s => rcases h.2 with h | h <;> [simp [st, h.2.1]; simp [st, h.2.1]]
  | l1 s => simp [st, h.2.1]
  | l2 s => exact h.elim
  | l2a s => exact h.elim

end C96Example

/-- A non-trivial case with an equality: doubles with back substitution and one thousand passes, minimise `x² / 2` with `x = 1` and `x ≥ 0` from `x = 0`;
the point `1` has the margin `1`. -/
example (fl : ℝ → ℝ) (hfl : ∀ x, |fl x - x| ≤ 2⁻¹ ^ 53 * |x|) (h1 : fl 1 = 1) (hm : fl (-1) = -1) (w : FWork ℝ 1) :
    ∃ r s, (∀ fuel, 1 + 2 + 1000 * (1 + 3) ≤ fuel →
      (flArith fl (2⁻¹ ^ 52) (backSubFl fl) 1).solve 1000 C96Example.prob (fun _ _ => 1) (fun _ => 0) w fuel = .ok (r, s)) ∧
      (r = .optimal ∨ r = .maxIterReached) := by
  have ho := C87_left_to_right (n := 1) (m := 1) (N := 1) (by norm_num) hfl (eps := 2⁻¹ ^ 52) (by norm_num) (backSubFl fl) le_rfl le_rfl
  refine C96_equalities _ ho (γ := 3 * (((1 + 2⁻¹ ^ 53) ^ (1 + 1) - 1) + 2⁻¹ ^ 53)) (by norm_num) (flArith_tri (by norm_num) (by norm_num) hfl le_rfl (by norm_num) _)
    1000 C96Example.prob (by simp [C96Example.prob]) (fun _ _ => 1) (fun _ => 0) w (C96Example.scaled hfl (backSubFl fl) le_rfl) (X := 1) (L := 0) (by norm_num)
    (fun q hq => C96Example.point_le hfl h1 hm (backSubFl fl) (by norm_num) hq)
    (fun i s hr hi => (C96Example.inv hfl h1 hm (backSubFl fl) (by norm_num) hr).2 i s rfl hi)
    (fun s hr => (C96Example.inv hfl h1 hm (backSubFl fl) (by norm_num) hr).1.elim)
    (fun _ => 1) (Z := 1) (η := 0) (μ := 1) (by norm_num) (by norm_num) le_rfl (by simp [C96Example.prob, val]) (by simp [C96Example.prob, val]) ?_
  have e : Real.sqrt (flArith fl (2⁻¹ ^ 52) (backSubFl fl) 1).eps = 2⁻¹ ^ 26 := by
    show Real.sqrt (2⁻¹ ^ 52) = _
    rw [show (2⁻¹ : ℝ) ^ 52 = (2⁻¹ ^ 26) ^ 2 by norm_num]
    exact Real.sqrt_sq (by norm_num)
  unfold InfMarginEq
  dsimp only
  rw [e, show C96Example.prob.CE.length = 1 from rfl]
  constructor <;> norm_num

end Verif
