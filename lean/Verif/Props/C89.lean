import Verif.Lemmas.QuadFp
import Verif.Lemmas.QuadFpExact

/-!
# C89: a `NaN` in the unconstrained minimiser is reported as `OPTIMAL`
-/

namespace Verif

variable {F : Type} {n : ℕ}

/-- `nan` behaves as in IEEE 754: it is not smaller than anything and is propagated by sums and products. -/
structure IsNaN (o : Arith F n) (nan : F) : Prop where
  lt : ∀ b, ¬ o.lt nan b
  mulAdd : ∀ a b, o.mulAdd a b nan = nan
  slacks : ∀ CI x i k, x k = nan → i < CI.length → o.slacks CI x i = nan

theorem chooseViolated_nan {o : Arith F n} {nan : F} (hn : IsNaN o nan) {s : ℕ → F} (iai : ℕ → ℤ) (iaexcl : ℕ → Bool) : ∀ (l : List ℕ) (b : F × ℕ),
    (∀ i ∈ l, s i = nan) → o.chooseViolated s iai iaexcl l b = b
  | [], b, _ => rfl
  | i :: l, b, h => by
    unfold Arith.chooseViolated
    rw [if_neg (by rw [h i List.mem_cons_self]; exact fun hh => hn.lt _ hh.1)]
    exact chooseViolated_nan hn iai iaexcl l b fun j hj => h j (List.mem_cons_of_mem _ hj)

theorem run_step {o : Arith F n} {maxIter : ℕ} {P : FQP F n} {J0 : ℕ → Fin n → F} {q q' : FNext F n} (h : o.step maxIter P J0 q = .ok q')
    (hr : ∀ r s, q ≠ .ret r s) (fuel : ℕ) : o.run maxIter P J0 (fuel + 1) q = o.run maxIter P J0 fuel q' := by
  have : o.run maxIter P J0 (fuel + 1) q = (o.step maxIter P J0 q >>= o.run maxIter P J0 fuel) := by
    cases q with
    | ret r s => exact absurd rfl (hr r s)
    | _ => rfl
  rw [this, h]
  rfl

theorem run_ret {o : Arith F n} {maxIter : ℕ} {P : FQP F n} {J0 : ℕ → Fin n → F} (r : QPStatus) (s : FState F n) (fuel : ℕ) :
    o.run maxIter P J0 fuel (.ret r s) = .ok (r, s) := by cases fuel <;> rfl

/-- C89. When a coordinate of the unconstrained minimiser is `NaN`, whatever the constraints and the other numbers,
`solve_quadprog` returns `OPTIMAL` or `REDUNDANT_EQUALITIES`, and this coordinate of the result is `NaN`; without equalities it returns
`OPTIMAL`. The status does not reveal the `NaN`. -/
theorem C89_nan_optimal (o : Arith F n) {nan : F} (hn : IsNaN o nan) (hz : o.le o.zero o.zero) (maxIter : ℕ) (hmax : 2 ≤ maxIter) (P : FQP F n)
    (hE : P.CE.length ≤ n) (J0 : ℕ → Fin n → F) (x0 : Fin n → F) (w : FWork F n) (k : Fin n) (hx : x0 k = nan) :
    ∃ r s, (∀ fuel, P.CE.length + 3 ≤ fuel → o.solve maxIter P J0 x0 w fuel = .ok (r, s)) ∧ s.x k = nan ∧
      (r = .optimal ∨ r = .redundantEqualities) ∧ (P.CE = [] → r = .optimal) := by
  classical
  have main : ∀ (c i : ℕ) (st : FState F n), i + c = P.CE.length → st.iq = i → st.iter = 0 → st.x k = nan →
      ∃ r s, (∀ fuel, c + 3 ≤ fuel → o.run maxIter P J0 fuel (.eq i st) = .ok (r, s)) ∧ s.x k = nan ∧
        (r = .optimal ∨ r = .redundantEqualities) ∧ (c = 0 → r = .optimal) := by
    intro c
    induction c with
    | zero =>
      intro i st hi hiq hit hxk
      -- the end of the loop over the equalities
      obtain ⟨st1, e1, e2, e3, e4⟩ : ∃ st1, o.step maxIter P J0 (.eq i st) = .ok (.l1 st1) ∧ st1.x = st.x ∧ st1.iq = st.iq ∧ st1.iter = 0 := by
        refine ⟨{ st with iai := fun i => (i : ℤ) }, ?_, rfl, rfl, hit⟩
        show o.stepEq P i st = _
        unfold Arith.stepEq
        rw [if_neg (by omega)]
      have hsl : ∀ j ∈ List.range P.CI.length, o.slacks P.CI st1.x j = nan := fun j hj =>
        hn.slacks _ _ _ k (by rw [e2]; exact hxk) (List.mem_range.mp hj)
      have hav : st1.iq ≤ P.CE.length + P.CI.length ∧ activeValid st1.A P.CE.length st1.iq P.CI.length :=
        ⟨by omega, fun j h1 h2 => by omega⟩
      by_cases hle : o.le (o.abs (o.sumNeg (o.slacks P.CI st1.x) P.CI.length)) (o.tol P J0)
      · obtain ⟨s, f1, f2⟩ : ∃ s, o.step maxIter P J0 (.l1 st1) = .ok (.ret .optimal s) ∧ s.x = st1.x := by
          show ∃ s, o.stepL1 maxIter P J0 st1 = .ok (.ret .optimal s) ∧ _
          unfold Arith.stepL1
          dsimp only
          rw [if_neg (by omega), if_pos hav, if_pos hle]
          exact ⟨_, rfl, rfl⟩
        refine ⟨.optimal, s, fun fuel hf => ?_, by rw [f2, e2]; exact hxk, Or.inl rfl, fun _ => rfl⟩
        obtain ⟨fuel, rfl⟩ : ∃ f, fuel = f + 2 := ⟨fuel - 2, by omega⟩
        rw [run_step e1 (by simp), run_step f1 (by simp), run_ret]
      · obtain ⟨s, f1, f2, f3, f4⟩ : ∃ s, o.step maxIter P J0 (.l1 st1) = .ok (.l2 s) ∧ s.x = st1.x ∧ s.s = o.slacks P.CI st1.x ∧
            s.ss = o.zero := by
          show ∃ s, o.stepL1 maxIter P J0 st1 = .ok (.l2 s) ∧ _
          unfold Arith.stepL1
          dsimp only
          rw [if_neg (by omega), if_pos hav, if_neg hle]
          exact ⟨_, rfl, rfl, rfl, rfl⟩
        obtain ⟨s', g1, g2⟩ : ∃ s', o.step maxIter P J0 (.l2 s) = .ok (.ret .optimal s') ∧ s'.x = s.x := by
          show ∃ s', o.stepL2 P s = .ok (.ret .optimal s') ∧ _
          unfold Arith.stepL2
          dsimp only
          rw [if_pos (by rw [chooseViolated_nan hn _ _ _ _ (by rw [f3]; exact hsl), f4]; exact hz)]
          exact ⟨_, rfl, rfl⟩
        refine ⟨.optimal, s', fun fuel hf => ?_, by rw [g2, f2, e2]; exact hxk, Or.inl rfl, fun _ => rfl⟩
        obtain ⟨fuel, rfl⟩ : ∃ f, fuel = f + 3 := ⟨fuel - 3, by omega⟩
        rw [run_step e1 (by simp), run_step f1 (by simp), run_step g1 (by simp), run_ret]
    | succ c ih =>
      intro i st hi hiq hit hxk
      obtain ⟨a, ha⟩ := o.addConstraint_ok (J := st.J) (R := st.R) (d := o.gemvT st.J (P.CE.getD i (fun _ => o.zero, o.zero)).1)
        (Rnorm := st.Rnorm) (show st.iq < n by omega)
      by_cases hok : a.ok
      · obtain ⟨s, f1, f2, f3, f4⟩ : ∃ s, o.step maxIter P J0 (.eq i st) = .ok (.eq (i + 1) s) ∧ s.iq = i + 1 ∧ s.iter = 0 ∧ s.x k = nan := by
          show ∃ s, o.stepEq P i st = .ok (.eq (i + 1) s) ∧ _
          unfold Arith.stepEq
          rw [if_pos (by omega), if_pos ⟨by omega, by omega⟩]
          dsimp only
          rw [ha]
          dsimp only
          rw [if_pos hok]
          refine ⟨_, rfl, by dsimp only; omega, hit, ?_⟩
          dsimp only
          rw [hxk]
          exact hn.mulAdd _ _
        obtain ⟨r, s', h1, h2, h3, h4⟩ := ih (i + 1) s (by omega) f2 f3 f4
        refine ⟨r, s', fun fuel hf => ?_, h2, h3, fun h => absurd h (by omega)⟩
        obtain ⟨fuel, rfl⟩ : ∃ f, fuel = f + 1 := ⟨fuel - 1, by omega⟩
        rw [run_step f1 (by simp)]
        exact h1 fuel (by omega)
      · obtain ⟨s, f1, f4⟩ : ∃ s, o.step maxIter P J0 (.eq i st) = .ok (.ret .redundantEqualities s) ∧ s.x k = nan := by
          show ∃ s, o.stepEq P i st = .ok (.ret .redundantEqualities s) ∧ _
          unfold Arith.stepEq
          rw [if_pos (by omega), if_pos ⟨by omega, by omega⟩]
          dsimp only
          rw [ha]
          dsimp only
          rw [if_neg hok]
          refine ⟨_, rfl, ?_⟩
          dsimp only
          rw [hxk]
          exact hn.mulAdd _ _
        refine ⟨.redundantEqualities, s, fun fuel hf => ?_, f4, Or.inr rfl, fun h => absurd h (by omega)⟩
        obtain ⟨fuel, rfl⟩ : ∃ f, fuel = f + 1 := ⟨fuel - 1, by omega⟩
        rw [run_step f1 (by simp), run_ret]
  obtain ⟨r, s, h1, h2, h3, h4⟩ := main P.CE.length 0 (o.init P J0 x0 w) (by omega) rfl rfl hx
  exact ⟨r, s, h1, h2, h3, fun h => h4 (by rw [h]; rfl)⟩

/-- Real numbers with one `NaN`, `none`: operations on `NaN` give `NaN`, comparisons with it are false. -/
noncomputable def nanArith (eps : ℝ) (n : ℕ) : Arith (Option ℝ) n :=
  let e := exactArith eps n
  let all {m : ℕ} (v : Fin m → Option ℝ) : Option (Fin m → ℝ) := open Classical in
    if ∀ i, (v i).isSome then some fun i => (v i).getD 0 else none
  { zero := some 0, one := some 1, two := some 2, half := some (1 / 2), hundred := some 100, eps := some eps
    ofNat := fun k => some k
    neg := Option.map e.neg, abs := Option.map e.abs
    sqrt := fun a => a.bind fun a => open Classical in if a < 0 then none else some (e.sqrt a)
    add := fun a b => a.bind fun a => b.map fun b => e.add a b
    sub := fun a b => a.bind fun a => b.map fun b => e.sub a b
    mul := fun a b => a.bind fun a => b.map fun b => e.mul a b
    div := fun a b => a.bind fun a => b.bind fun b => open Classical in if b = 0 then none else some (e.div a b)
    mulAdd := fun a b c => a.bind fun a => b.bind fun b => c.map fun c => e.mulAdd a b c
    mulSub := fun a b c => a.bind fun a => b.bind fun b => c.map fun c => e.mulSub a b c
    subMul := fun a b c => a.bind fun a => b.bind fun b => c.map fun c => e.subMul a b c
    lin2 := fun a b c d => a.bind fun a => b.bind fun b => c.bind fun c => d.map fun d => e.lin2 a b c d
    dot := fun a b => (all a).bind fun a => (all b).map fun b => e.dot a b
    gemvT := fun J v j => (all (J j)).bind fun Jj => (all v).map fun v => e.dot Jj v
    gemv := fun J d iq k => open Classical in
      if ∀ j, iq ≤ j → j < n → (d j).isSome ∧ (J j k).isSome then
        some (∑ j ∈ Finset.Ico iq n, (d j).getD 0 * (J j k).getD 0) else none
    triSolve := fun _ _ _ _ => some 0
    slacks := fun CI x i => (all (CI.getD i (fun _ => some 0, some 0)).1).bind fun a => (all x).bind fun x =>
      (CI.getD i (fun _ => some 0, some 0)).2.map fun c => e.add (e.dot a x) c
    sumNeg := fun s k => some (∑ i ∈ Finset.range k, ((s i).map fun a => min 0 a).getD 0)
    trace := fun d => (all d).map e.trace
    lt := fun a b => ∃ x y, a = some x ∧ b = some y ∧ x < y
    le := fun a b => ∃ x y, a = some x ∧ b = some y ∧ x ≤ y
    eq := fun a b => ∃ x y, a = some x ∧ b = some y ∧ x = y
    ltInf := fun a => a.isSome
    geInf := fun _ => False }

theorem nan_isNaN (eps : ℝ) (n : ℕ) : IsNaN (nanArith eps n) none := by
  refine ⟨?_, ?_, ?_⟩
  · rintro b ⟨x, y, h, -⟩
    cases h
  · intro a b
    cases a <;> cases b <;> rfl
  · intro CI x i k hk _
    have : ¬ ∀ i, (x i).isSome := fun h => by have := h k; rw [hk] at this; cases this
    simp only [nanArith]
    rw [if_neg this]
    simp

/-- A non-trivial case: `x ≥ 1` and `x ≤ 0` have no common point, yet a `NaN` is returned as optimal. -/
example (w : FWork (Option ℝ) 1) : ∃ r s, (∀ fuel, 3 ≤ fuel → (nanArith 0 1).solve 1000
    ⟨fun _ _ => some 1, fun _ => none, [], [(fun _ => some 1, some (-1)), (fun _ => some (-1), some 0)]⟩ (fun _ _ => some 1) (fun _ => none) w fuel = .ok (r, s)) ∧
    s.x 0 = none ∧ r = .optimal := by
  obtain ⟨r, s, h1, h2, -, h4⟩ := C89_nan_optimal (nanArith 0 1) (nan := none) (nan_isNaN 0 1)
    ⟨0, 0, rfl, rfl, le_rfl⟩ 1000 (by norm_num)
    ⟨fun _ _ => some 1, fun _ => none, [], [(fun _ => some 1, some (-1)), (fun _ => some (-1), some 0)]⟩ (by simp) (fun _ _ => some 1) (fun _ => none) w 0 rfl
  exact ⟨r, s, h1, h2, h4 rfl⟩

end Verif
