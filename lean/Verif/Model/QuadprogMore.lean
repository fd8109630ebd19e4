import Verif.Model.Quadprog

/-!
# The QP solver: sparse variant, provided inverse, solver objects

Model of the rest of src/eiquadprog-fast.cpp. Lines 655-1069 (`solve_quadprog_sparse`) are the text of
`solve_quadprog` except for the factorisation, so they run the same machine from another start. The macros
`OPTIMIZE_HESSIAN_INVERSE` and `OPTIMIZE_UNCONSTR_MINIM` are defined (eiquadprog-fast.hpp:27-28).
-/

namespace Verif
open Matrix

/-- Before the equality loop, when the first point is `x0`. -/
noncomputable def qpInitAt {n : ℕ} (P : QP n) (J0 : ℕ → VecN n) (x0 : VecN n) (w : Work n) : QState n :=
  { qpInit P J0 w with x := x0, f := 1 / 2 * (P.g ⬝ᵥ x0) }

/-- Columns of the identity, `m_J.setIdentity`. -/
def idCols (n : ℕ) : ℕ → VecN n := fun j i => if i.val = j then 1 else 0

/-- `solve_quadprog_sparse`, eiquadprog-fast.cpp:655-1069, when no inverse is provided. Line 709 computes
`cholsp_.matrixU().solve(m_J)` without using the value, so `m_J` stays the identity. `x0` is what line 733,
`cholsp_.solve(-g0)`, returns; Eigen's `SimplicialLLT` is not modelled. -/
noncomputable def solveQuadprogSparse {n : ℕ} (eps : ℝ) (maxIter : ℕ) (P : QP n) (x0 : VecN n) (w : Work n) (fuel : ℕ) :
    Out (QPStatus × QState n) :=
  qpRun eps maxIter P (idCols n) fuel (.eq 0 (qpInitAt P (idCols n) x0 w))

/-- A solver object between two calls: the sizes of the last problem, the public members `m_J` and `is_inverse_provided_`, the
iteration limit, the active set size `q`. The other arrays are `Work`. `m_J` is stored by columns. -/
structure QPObj where
  nVars : ℕ
  nEq : ℕ
  nIneq : ℕ
  mJ : ℕ → ℕ → ℝ
  inverseProvided : Bool
  maxIter : ℕ
  q : ℕ

/-- The constructor, eiquadprog-fast.cpp:40-48; `m_J` is empty. -/
def QPObj.new : QPObj := { nVars := 0, nEq := 0, nIneq := 0, mJ := fun _ _ => 0, inverseProvided := false, maxIter := 1000, q := 0 }

/-- `setMaxIter`, eiquadprog-fast.hpp:97-101. -/
def QPObj.setMaxIter (o : QPObj) (maxIter : ℤ) : Bool × QPObj :=
  if maxIter < 0 then (false, o) else (true, { o with maxIter := maxIter.toNat })

/-- Lines 234-240: `reset` when the sizes change; it sets `m_J` to zero (line 56). -/
def QPObj.resized (o : QPObj) (n nE nI : ℕ) : QPObj :=
  if n ≠ o.nVars ∨ nE ≠ o.nEq ∨ nI ≠ o.nIneq then { o with nVars := n, nEq := nE, nIneq := nI, mJ := fun _ _ => 0 } else o

/-- `m_J` as columns of `n` coefficients. -/
def QPObj.cols (o : QPObj) (n : ℕ) : ℕ → VecN n := fun j i => o.mJ j i.val

/-- The object after a run: `m_J` is the matrix of the last state; `q` is not assigned when the equalities are
redundant (line 365). -/
def QPObj.after {n : ℕ} (o : QPObj) (r : QPStatus × QState n) : QPObj :=
  { o with mJ := fun j i => if h : i < n then r.2.J j ⟨i, h⟩ else 0,
           q := if r.1 = .redundantEqualities then o.q else r.2.iq }

/-- A call of `solve_quadprog` on an object whose `m_J` has the size of the problem when the sizes do not change. When an
inverse is provided, line 307 sets `x = m_J * (m_J' * g0)`, and the change of sign of line 316 is not compiled. -/
noncomputable def QPObj.solve {n : ℕ} (chol : Matrix (Fin n) (Fin n) ℝ → ℕ → VecN n) (eps : ℝ) (o : QPObj) (P : QP n) (w : Work n)
    (fuel : ℕ) : Out ((QPStatus × QState n) × QPObj) := do
  let o := o.resized n P.CE.length P.CI.length
  let r ← if o.inverseProvided then
      let J := o.cols n
      qpRun eps o.maxIter P J fuel (.eq 0 (qpInitAt P J (∑ j ∈ Finset.range n, (J j ⬝ᵥ P.g) • J j) w))
    else solveQuadprog eps o.maxIter P (chol P.G) w fuel
  return (r, o.after r)

end Verif
