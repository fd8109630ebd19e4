import Verif.Props.C98
import Verif.Lemmas.QuadRoundedSep

/-!
# C88, C96, C97 and C98 with equalities that are independent by a margin

The hypothesis `hfar` on the run follows from a hypothesis on the data.
-/

namespace Verif

variable {n : ℕ}

open Arith

/-- C88, with equalities whose normals are independent by a margin that exceeds the rounding errors: no hypothesis on the directions of the run. -/
theorem C88_independent (o : Arith ℝ n) {m : ℕ} {u g : ℝ} (ho : o.Rounded m u g) (maxIter : ℕ) (P : FQP ℝ n) (hE : P.CE.length ≤ n)
    (hm : P.CI.length ≤ m) (J0 : ℕ → Fin n → ℝ) (x0 : Fin n → ℝ) (w : FWork ℝ n) {ν σ β b X : ℝ}
    (hC : o.ScaledFp u g maxIter P J0 ν σ β b) (hX : 0 ≤ X)
    (hx : ∀ q, o.Reach maxIter P J0 (.eq 0 (o.init P J0 x0 w)) q → ∑ k, (st q).x k ^ 2 ≤ X ^ 2)
    {sep : ℝ} (hS : FpEqSep P sep) (hsep : SepMargin n P.CE.length u g o.eps ν σ β maxIter sep)
    (fuel : ℕ) (hf : P.CE.length + 2 + maxIter * (n + 3) ≤ fuel) (s : FState ℝ n)
    (h : o.solve maxIter P J0 x0 w fuel = .ok (.optimal, s)) :
    let C : ℝ := (P.CE.length + 2 + maxIter * (n + 3) : ℕ)
    let τ := 6 * (g + u) * (β * X + b) + C * (β * X) * (12 * (g + 80 * u * (n * C)) * (ν / σ) + 4 * u)
    (∀ i < P.CE.length, |val (P.CE.getD i (0, 0)) s.x| ≤ τ) ∧
    (∀ k, P.CE.length ≤ k → k < s.iq → |val (P.CI.getD (s.A k).toNat (0, 0)) s.x| ≤ τ) ∧
    ∀ i < P.CI.length, -max (105 * P.CI.length * o.eps * (∑ i, |P.G i i|) * (∑ i : Fin n, |J0 i.val i|) +
        g * mag (P.CI.getD i (0, 0)) s.x) τ ≤ val (P.CI.getD i (0, 0)) s.x :=
  C88_constraints o ho maxIter P hE hm J0 x0 w hC hX hx (hC.far_of_sep ho hX hE hx hS hsep) fuel hf s h

/-- C96, with equalities whose normals are independent by a margin that exceeds the rounding errors. -/
theorem C96_independent (o : Arith ℝ n) {m : ℕ} {u g : ℝ} (ho : o.Rounded m u g) {γ : ℝ} (hγ : 0 ≤ γ) (htri : o.TriRounded γ) (maxIter : ℕ)
    (P : FQP ℝ n) (hE : P.CE.length ≤ n) (J0 : ℕ → Fin n → ℝ) (x0 : Fin n → ℝ) (w : FWork ℝ n) {ν σ β b X L : ℝ}
    (hC : o.ScaledFp u g maxIter P J0 ν σ β b) (hX : 0 ≤ X)
    (hx : ∀ q, o.Reach maxIter P J0 (.eq 0 (o.init P J0 x0 w)) q → ∑ k, (st q).x k ^ 2 ≤ X ^ 2)
    {sep : ℝ} (hS : FpEqSep P sep) (hsep : SepMargin n P.CE.length u g o.eps ν σ β maxIter sep)
    (hL : ∀ s, o.Reach maxIter P J0 (.eq 0 (o.init P J0 x0 w)) (.l2a s) →
      ∑ k ∈ Finset.range P.CE.length, |o.triSolve s.R (o.gemvT s.J (P.CI.getD s.ip (0, 0)).1) s.iq k| ≤ L)
    (y : Fin n → ℝ) {Z η μ : ℝ} (hZ : 0 ≤ Z) (hy : ∑ k, y k ^ 2 ≤ Z ^ 2) (hη0 : 0 ≤ η) (hη : ∀ e ∈ P.CE, |val e y| ≤ η) (hμ : ∀ e ∈ P.CI, μ ≤ val e y)
    (hm : InfMarginEq n P.CE.length u g γ o.eps ν σ β b X Z maxIter L η μ) :
    ∃ r s, (∀ fuel, P.CE.length + 2 + maxIter * (n + 3) ≤ fuel → o.solve maxIter P J0 x0 w fuel = .ok (r, s)) ∧ (r = .optimal ∨ r = .maxIterReached) :=
  C96_equalities o ho hγ htri maxIter P hE J0 x0 w hC hX hx (hC.far_of_sep ho hX hE hx hS hsep) hL y hZ hy hη0 hη hμ hm

/-- C97, with equalities whose normals are independent by a margin that exceeds the rounding errors. -/
theorem C97_independent (o : Arith ℝ n) {m : ℕ} {u g γ : ℝ} (ho : o.Rounded m u g) (hsm : o.SubMulRounded u) (hγ : 0 ≤ γ) (htri : o.TriRounded γ)
    (maxIter : ℕ) (P : FQP ℝ n) (hE' : P.CE.length ≤ n) (hm : P.CI.length ≤ m) (J0 : ℕ → Fin n → ℝ) (x0 : Fin n → ℝ) (w : FWork ℝ n) {ν σ β b X U : ℝ}
    (hC : o.ScaledFp u g maxIter P J0 ν σ β b) (hX : 0 ≤ X) (hU : 0 ≤ U)
    (hx : ∀ q, o.Reach maxIter P J0 (.eq 0 (o.init P J0 x0 w)) q → ∑ k, (st q).x k ^ 2 ≤ X ^ 2)
    {sep : ℝ} (hS : FpEqSep P sep) (hsep : SepMargin n P.CE.length u g o.eps ν σ β maxIter sep)
    (hu : ∀ q, o.Reach maxIter P J0 (.eq 0 (o.init P J0 x0 w)) q → multSum q ≤ U)
    {Λ θ θ0 : ℝ} (hF : NearFactor P J0 x0 Λ θ θ0)
    (fuel : ℕ) (hf : P.CE.length + 2 + maxIter * (n + 3) ≤ fuel) (s : FState ℝ n) (h : o.solve maxIter P J0 x0 w fuel = .ok (.optimal, s))
    {δ η : ℝ} (hδ : 0 ≤ δ) (hs : ∀ k, P.CE.length ≤ k → k < s.iq → -δ ≤ s.u k) (v : Fin n → ℝ) {V : ℝ} (hV : 0 ≤ V) (hv : ∑ k, v k ^ 2 ≤ V ^ 2)
    (hη0 : 0 ≤ η) (hη : ∀ e ∈ P.CE, |val e v| ≤ η) (hfeas : ∀ e ∈ P.CI, 0 ≤ val e v) :
    let C : ℝ := (P.CE.length + 2 + maxIter * (n + 3) : ℕ)
    let τ := 6 * (g + u) * (β * X + b) + C * (β * X) * (12 * (g + 80 * u * (n * C)) * (ν / σ) + 4 * u)
    let E := C * statD u g o.eps γ σ β (1.07 * ν) X U (n * (P.CE.length + 2 + maxIter * (n + 3)))
    objective P s.x ≤ objective P v + (U * (τ + η) + n * δ * (β * V + b) + (θ0 + Λ * E + θ * (U * β)) * (X + V)) :=
  C97_equalities o ho hsm hγ htri maxIter P hE' hm J0 x0 w hC hX hU hx (hC.far_of_sep ho hX hE' hx hS hsep) hu hF fuel hf s h hδ hs v hV hv hη0 hη hfeas

/-- C98, with equalities whose normals are independent by a margin that exceeds the rounding errors. -/
theorem C98_independent (o : Arith ℝ n) {m : ℕ} {u g γ : ℝ} (ho : o.Rounded m u g) (hsm : o.SubMulRounded u) (hhalf : o.half = 1 / 2) (hγ : 0 ≤ γ)
    (htri : o.TriRounded γ) (maxIter : ℕ) (P : FQP ℝ n) (hE' : P.CE.length ≤ n) (J0 : ℕ → Fin n → ℝ) (x0 : Fin n → ℝ) (w : FWork ℝ n) {ν σ β b X U : ℝ}
    (hC : o.ScaledFp u g maxIter P J0 ν σ β b) (hX : 0 ≤ X) (hU : 0 ≤ U)
    (hx : ∀ q, o.Reach maxIter P J0 (.eq 0 (o.init P J0 x0 w)) q → ∑ k, (st q).x k ^ 2 ≤ X ^ 2)
    {sep : ℝ} (hS : FpEqSep P sep) (hsep : SepMargin n P.CE.length u g o.eps ν σ β maxIter sep)
    (hu : ∀ q, o.Reach maxIter P J0 (.eq 0 (o.init P J0 x0 w)) q → multSum q ≤ U)
    {Λ θ θ0 Γ Fm : ℝ} (hθ : 0 ≤ θ) (hF : NearFactor P J0 x0 Λ θ θ0) (hΓ : 0 ≤ Γ) (hPg : ∑ k, P.g k ^ 2 ≤ Γ ^ 2)
    (hf : ∀ q, o.Reach maxIter P J0 (.eq 0 (o.init P J0 x0 w)) q → |(st q).f| ≤ Fm)
    (fuel : ℕ) (hfu : P.CE.length + 2 + maxIter * (n + 3) ≤ fuel) (r : QPStatus) (s : FState ℝ n) (h : o.solve maxIter P J0 x0 w fuel = .ok (r, s)) :
    |s.f - objective P s.x| ≤ valueErrC o u g γ (P.CE.length + 2 + maxIter * (n + 3)) ν σ β X U Λ θ θ0 Γ Fm :=
  C98_equalities o ho hsm hhalf hγ htri maxIter P hE' J0 x0 w hC hX hU hx (hC.far_of_sep ho hX hE' hx hS hsep) hu hθ hF hΓ hPg hf fuel hfu r s h

end Verif
