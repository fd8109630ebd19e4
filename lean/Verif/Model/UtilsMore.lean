import Verif.Model.Utils
import Verif.Model.Rows

/-!
# Comparison of waypoints, and the Qhull file

The rest of include/hpp/bezier-com-traj/utils.hh and of src/utils.cpp.
-/

namespace Verif

/-- `cwiseAbs2().sum()` of a matrix with `r` rows and `c` columns. -/
noncomputable def sumSq (r c : ℕ) (e : ℕ → ℕ → ℝ) : ℝ := ∑ i ∈ Finset.range r, ∑ j ∈ Finset.range c, e i j ^ 2

/-- Eigen's `isApprox` for matrices with floating point coefficients: `|a - b|² <= prec² min(|a|², |b|²)`; the
subtraction asserts that the sizes are equal. -/
noncomputable def eigenIsApprox (r c r' c' : ℕ) (a b : ℕ → ℕ → ℝ) (prec : ℝ) : Out Bool :=
  open Classical in
  if r = r' ∧ c = c' then
    .ok (decide (sumSq r c (fun i j => a i j - b i j) ≤ prec * prec * min (sumSq r c a) (sumSq r c b)))
  else .assertFail

/-- `waypoint_t::isApprox`, utils.hh:37-42: `second` is compared when `first` agrees. -/
noncomputable def WpDyn.isApprox (w o : WpDyn) (prec : ℝ) : Out Bool := do
  let f ← eigenIsApprox w.rows w.cols o.rows o.cols w.first o.first prec
  if f then eigenIsApprox w.size 1 o.size 1 (fun i _ => w.second i) (fun i _ => o.second i) prec
  else return false

/-- `operator==`, utils.hh:44; `dummy_precision()` is 1e-12 for `double`. -/
noncomputable def WpDyn.eq (w o : WpDyn) : Out Bool := w.isApprox o 1e-12

/-- `operator!=`, utils.hh:46. -/
noncomputable def WpDyn.ne (w o : WpDyn) : Out Bool := do
  let r ← w.eq o
  return !r

/-- The numbers in the file written by `printQHullFile`: interior point, announced number of half spaces, and half
spaces as coefficients and offset. The two dimensions (`3 1` and `4`) are constant. -/
structure QHullFile where
  point : V3
  count : ℕ
  rows : List (V3 × ℝ)

/-- `printQHullFile`, src/utils.cpp:120-141. The file is in a fixed directory; `opens` says whether it can be opened. When
it cannot, nothing is written and nothing is reported. Accesses out of range violate Eigen assertions. -/
noncomputable def printQHullFile (opens : Bool) (A b : Mat) (intPoint : List ℝ) (clipZ : Bool) : Out (Option QHullFile) :=
  if 3 ≤ intPoint.length ∧ (A.rows = 0 ∨ (3 ≤ A.cols ∧ A.rows ≤ b.rows)) then
    let clip : List (V3 × ℝ) := if clipZ then [(![0, 0, 1], -3), (![0, 0, -1], -1)] else []
    .ok (if opens then some
      { point := fun k => intPoint.getD k 0
        count := if clipZ then A.rows + 2 else A.rows
        rows := ((List.range A.rows).map fun i => ((fun k : Fin 3 => A.e i k), -(b.e i 0) - 0.001)) ++ clip }
      else none)
  else .assertFail

end Verif
