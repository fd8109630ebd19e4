import Verif.Props.C39
import Verif.Lemmas.QuadWell

/-!
# C39, C42–C44 with the threshold tests of the code

For every `eps ≥ 0` and conditioned data, without assuming that the tests are exact. The data of the library
are conditioned by `conditioned_of_norms`: the Hessian is at least `1e-6` times the identity and the rows have
norm at most one.
-/

namespace Verif
open Matrix

variable {n : ℕ}

/-- C42, C43. The solver returns within `nEqCon + 2 + maxIter (n + 3)` passes through its labels, without any
access outside its arrays. Missing: data that are not conditioned, where both can fail. -/
theorem C43_in_bounds_partial {eps lam B : ℝ} (maxIter : ℕ) {P : QP n} {J0 : ℕ → VecN n} (w : Work n)
    (hF : Factor P.G J0) (hC : Conditioned eps lam B P J0) (hE : P.CE.length ≤ n) :
    ∃ r s, ∀ fuel, P.CE.length + 2 + maxIter * (n + 3) ≤ fuel →
      solveQuadprog eps maxIter P J0 w fuel = .ok (r, s) := by
  obtain ⟨r, s, h, _⟩ := Sqp_ok (S := False) maxIter w hF False.elim hC hE
  exact ⟨r, s, h⟩

/-- C39. An OPTIMAL answer satisfies the inequalities up to the tolerance; the equalities hold when their
normals are independent by a margin. -/
theorem C39_feasible_conditioned_partial {eps lam B : ℝ} {maxIter : ℕ} {P : QP n} {J0 : ℕ → VecN n} {w : Work n}
    (hF : Factor P.G J0) (hC : Conditioned eps lam B P J0) (hE : P.CE.length ≤ n) {fuel : ℕ} {s : QState n}
    (h : solveQuadprog eps maxIter P J0 w fuel = .ok (.optimal, s)) :
    violation P s.x ≤ max 0 (qpTol eps P J0) ∧ (EqSep eps P → EqHolds P s.x) := by
  obtain ⟨hb, hv⟩ := Sqp_sound (S := EqSep eps P) hF id hC hE h
  refine ⟨hv, fun hS e he => ?_⟩
  obtain ⟨k, hk, rfl⟩ := List.getElem_of_mem he
  have h1 := hb.act k (fun _ => hS) (lt_of_lt_of_le hk hb.ne_le)
  rw [hb.eqs k hk, conOf_neg, List.getD_eq_getElem?_getD, List.getElem?_eq_getElem hk] at h1
  exact h1

/-- C44. REDUNDANT_EQUALITIES means that some equality normal is close to a combination of the ones before it;
normals that are independent by a margin are accepted. -/
theorem C44_redundant_conditioned_partial {eps lam B : ℝ} {maxIter : ℕ} {P : QP n} {J0 : ℕ → VecN n} {w : Work n}
    (hF : Factor P.G J0) (hC : Conditioned eps lam B P J0) (hE : P.CE.length ≤ n) {fuel : ℕ} {s : QState n}
    (h : solveQuadprog eps maxIter P J0 w fuel = .ok (.redundantEqualities, s)) :
    EqClose eps P ∧ ¬ EqSep eps P := by
  have hc : EqClose eps P := Sqp_sound (S := False) hF False.elim hC hE h
  exact ⟨hc, fun hs => hs.not_close hc⟩

/-- C39–C44 for conditioned data whose normals are separated, with the threshold tests of the code: the solver
returns, and its verdict is right. -/
theorem C40_separated_partial {eps lam B : ℝ} {maxIter : ℕ} {P : QP n} {J0 : ℕ → VecN n} (w : Work n)
    (hF : Factor P.G J0) (hE : P.CE.length ≤ n) (hC : Conditioned eps lam B P J0) (hS : Separated eps P)
    (hm : 2 ^ P.CI.length < maxIter) :
    ∃ r s, (∀ fuel, P.CE.length + 2 + maxIter * (n + 3) ≤ fuel →
        solveQuadprog eps maxIter P J0 w fuel = .ok (r, s)) ∧
      ((r = .optimal ∧ EqHolds P s.x ∧ violation P s.x ≤ max 0 (qpTol eps P J0) ∧ s.f = qpObj P s.x ∧
          ∀ y, QPFeasible P y → qpObj P s.x ≤ qpObj P y) ∨
        (r = .unbounded ∧ ∀ y, ¬ QPFeasible P y) ∨
        (r = .redundantEqualities ∧ ∃ i, i < P.CE.length ∧ EqDependent P i)) := by
  have hX : ExactRun eps maxIter P J0 w := exactRun_of_separated w hF hE hC hS
  obtain ⟨r, s, h1, h2⟩ := solveQuadprog_ok hC.eps0 hF hE hX
  refine ⟨r, s, h1, ?_⟩
  have h3 := h1 _ le_rfl
  cases r with
  | optimal =>
    obtain ⟨a, b⟩ := C39_feasible_partial hC.eps0 hF hE hX h3
    obtain ⟨c, d⟩ := C40_optimal_partial hC.eps0 hF hE hX h3
    exact Or.inl ⟨rfl, a, b, d, c⟩
  | infeasible => exact h2.elim
  | unbounded => exact Or.inr (Or.inl ⟨rfl, h2⟩)
  | maxIterReached =>
    have h2 : maxIter ≤ 2 ^ P.CI.length := h2
    omega
  | redundantEqualities => exact Or.inr (Or.inr ⟨rfl, h2⟩)

/-- C59. The active set of an OPTIMAL answer, for conditioned data: the equalities in order, then distinct inequalities that hold with equality, at most
`n` altogether. Missing: the multipliers, which need exact tests. -/
theorem C59_active_conditioned_partial {eps lam B : ℝ} {maxIter : ℕ} {P : QP n} {J0 : ℕ → VecN n} {w : Work n}
    (hF : Factor P.G J0) (hC : Conditioned eps lam B P J0) (hE : P.CE.length ≤ n) {fuel : ℕ} {s : QState n}
    (h : solveQuadprog eps maxIter P J0 w fuel = .ok (.optimal, s)) :
    P.CE.length ≤ s.iq ∧ s.iq ≤ n ∧ (∀ k, k < P.CE.length → s.A k = -(k : ℤ) - 1) ∧
      (∀ k, P.CE.length ≤ k → k < s.iq → ∃ i, s.A k = (i : ℕ) ∧ i < P.CI.length ∧ P.slack s.x i = 0) ∧
      ∀ k k', P.CE.length ≤ k → k < s.iq → P.CE.length ≤ k' → k' < s.iq → s.A k = s.A k' → k = k' := by
  obtain ⟨hb, -⟩ := Sqp_sound (S := False) hF False.elim hC hE h
  refine ⟨hb.ne_le, hb.fac.le, hb.eqs, fun k h1 h2 => ?_, hb.inj⟩
  obtain ⟨r1, r2⟩ := hb.rng k h1 h2
  obtain ⟨i, hi⟩ := Int.eq_ofNat_of_zero_le r1
  have hact := hb.act k (fun hk => absurd hk (by omega)) h2
  rw [hi, conOf_nat] at hact
  exact ⟨i, hi, by omega, hact⟩

/-- C59 for conditioned data whose normals are separated, with the threshold tests of the code. -/
theorem C59_separated_partial {eps lam B : ℝ} {maxIter : ℕ} {P : QP n} {J0 : ℕ → VecN n} {w : Work n}
    (hF : Factor P.G J0) (hE : P.CE.length ≤ n) (hC : Conditioned eps lam B P J0) (hS : Separated eps P) {fuel : ℕ} {s : QState n}
    (h : solveQuadprog eps maxIter P J0 w fuel = .ok (.optimal, s)) :
    P.CE.length ≤ s.iq ∧ s.iq ≤ n ∧ (∀ k, k < P.CE.length → s.A k = -(k : ℤ) - 1) ∧
      (∀ k, P.CE.length ≤ k → k < s.iq → ∃ i, s.A k = (i : ℕ) ∧ i < P.CI.length ∧ P.slack s.x i = 0 ∧ 0 ≤ s.u k) ∧
      P.G *ᵥ s.x + P.g = ∑ k ∈ Finset.range s.iq,
        s.u k • (if k < P.CE.length then (P.CE.getD k (0, 0)).1 else (P.row (s.A k).toNat).1) :=
  C59_multipliers_partial hC.eps0 hF hE (exactRun_of_separated w hF hE hC hS) h

end Verif
