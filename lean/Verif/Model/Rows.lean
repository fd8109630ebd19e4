import Verif.Model.Data
import Mathlib.LinearAlgebra.Matrix.DotProduct
import Mathlib.Analysis.Real.Sqrt

/-!
# Dynamic matrices, and `Normalize`

Buffers model `Eigen::MatrixXd` objects that are allocated first and filled by block assignments.
`removeZeroRows` and `Normalize` model src/common_solve_methods.cpp:56-86.
-/

namespace Verif
open Matrix

/-- An allocated matrix under construction: `none` marks a coefficient that was never assigned. -/
structure Buf where
  rows : ℕ
  cols : ℕ
  e : ℕ → ℕ → Option ℝ

/-- `MatrixXX::Zero(r, c)`. -/
def Buf.zero (r c : ℕ) : Buf := { rows := r, cols := c, e := fun _ _ => some 0 }

/-- `MatrixXX A(r, c)`: allocated, not initialised. -/
def Buf.uninit (r c : ℕ) : Buf := { rows := r, cols := c, e := fun _ _ => none }

/-- `A.block(i, j, nr, nc) = f`: undefined behaviour when the block is not inside the matrix
(an `eigen_assert` in debug builds). -/
def Buf.write (A : Buf) (i j nr nc : ℕ) (f : ℕ → ℕ → ℝ) : Out Buf :=
  if i + nr ≤ A.rows ∧ j + nc ≤ A.cols then
    .ok { A with e := fun r c =>
      if i ≤ r ∧ r < i + nr ∧ j ≤ c ∧ c < j + nc then some (f (r - i) (c - j)) else A.e r c }
  else .ub

/-- A fully assigned matrix. Coefficients are meaningful inside the sizes only. -/
structure Mat where
  rows : ℕ
  cols : ℕ
  e : ℕ → ℕ → ℝ

/-- Using a buffer as a value: undefined when a coefficient in range was never assigned. -/
noncomputable def Buf.value (A : Buf) : Out Mat :=
  open Classical in
  if ∀ r < A.rows, ∀ c < A.cols, (A.e r c).isSome then
    .ok { rows := A.rows, cols := A.cols, e := fun r c => (A.e r c).getD 0 }
  else .ub

/-- Coefficient `c` of a 3-vector (0 outside; only used inside). -/
def V3.get (v : V3) (c : ℕ) : ℝ := if h : c < 3 then v ⟨c, h⟩ else 0

/-- `A.block(i, 0, rows, 3) = M` with `M` given by its rows. -/
def Buf.writeRows (A : Buf) (i j : ℕ) (M : List V3) : Out Buf :=
  A.write i j M.length 3 fun r c => V3.get (M.getD r 0) c

/-- `b.segment(i, size) = v`; a vector is a matrix with one column. -/
def Buf.writeSeg (b : Buf) (i : ℕ) (v : List ℝ) : Out Buf :=
  b.write i 0 v.length 1 fun r _ => v.getD r 0

/-- One row of a system `A x <= b` during `removeZeroRows`: the coefficients, the bound and the
entry of the vector `empty`. -/
structure ZRow (n : ℕ) where
  a : Fin n → ℝ
  b : ℝ
  empty : Bool

/-- Swapping entries `i` and `j` (`A.row(i).swap(A.row(j))` and the two swaps after it). -/
def swapAt {α : Type} (l : List α) (i j : ℕ) : List α :=
  match l[i]?, l[j]? with
  | some x, some y => (l.set i y).set j x
  | _, _ => l

/-- Loop of `removeZeroRows`, src/common_solve_methods.cpp:59-75. `m` is `last + 1` (the C++
variable `last` is a `size_t`; it wraps around exactly when `m = 0`, and then `last + 1 = 0`).
The result `none` is the return value `-1`. The entry `empty(i)` of a row is its field `empty`.
Each iteration decreases `m - i`, given as fuel. -/
noncomputable def rzLoop {n : ℕ} : ℕ → List (ZRow n) → ℕ → ℕ → List (ZRow n) × Option ℕ
  | 0, l, _, m => (l, some m)
  | fuel + 1, l, i, m =>
    open Classical in
    if i < m then
      match l[i]? with
      | some r =>
        if r.empty then
          if r.b < 0 then (l, none)
          else rzLoop fuel (swapAt l i (m - 1)) i (m - 1)
        else rzLoop fuel l (i + 1) m
      | none => (l, some m)
    else (l, some m)

/-- A row with its entry of `empty = (A.array() == 0).rowwise().all()`,
src/common_solve_methods.cpp:57-58. -/
noncomputable def zrow {n : ℕ} (r : (Fin n → ℝ) × ℝ) : ZRow n :=
  open Classical in
  { a := r.1, b := r.2, empty := decide (∀ k, r.1 k = (0 : ℝ)) }

/-- `removeZeroRows`, src/common_solve_methods.cpp:56-76: the rows after the call and the
returned count (`none` for -1). -/
noncomputable def removeZeroRows {n : ℕ} (rows : List ((Fin n → ℝ) × ℝ)) :
    List ((Fin n → ℝ) × ℝ) × Option ℕ :=
  let l := rows.map zrow
  let res := rzLoop l.length l 0 l.length
  (res.1.map fun r => (r.a, r.b), res.2)

/-- Euclidean norm (Eigen's `norm`). -/
noncomputable def eNorm {n : ℕ} (a : Fin n → ℝ) : ℝ := Real.sqrt (a ⬝ᵥ a)

/-- `Normalize`, src/common_solve_methods.cpp:78-86. Only the first `zeroindex` rows, which are not
zero, are divided by their norm. -/
noncomputable def Normalize {n : ℕ} (rows : List ((Fin n → ℝ) × ℝ)) :
    List ((Fin n → ℝ) × ℝ) × Option ℕ :=
  match removeZeroRows rows with
  | (l, none) => (l, none)
  | (l, some k) =>
    ((l.take k).map (fun r => ((fun j => r.1 j / eNorm r.1), r.2 / eNorm r.1)) ++ l.drop k, some k)

end Verif
