import Verif.Model.OneStep

/-!
# The unused variant of the stability rows

Model of `dynamicStabilityConstraints_cross`, src/computeCOMTraj.cpp:43-60. No function of the library
calls it and no header declares it; it has external linkage.
-/

namespace Verif
open Matrix

/-- Coefficients 0 to 2 and bound of the row built from row `r` of `mH`, `h`,
src/computeCOMTraj.cpp:50-55. -/
def crossRow (g : V3) (c ddc : Coefs) (r : (V3 × V3) × ℝ) : V3 × ℝ :=
  (r.1.2 ᵥ* skew (ddc.first • c.second - c.first • ddc.second + c.first • g) + ddc.first • r.1.1,
    r.2 + r.1.1 ⬝ᵥ (g - ddc.second) + r.1.2 ⬝ᵥ (eigenCross c.second g - eigenCross c.second ddc.second))

/-- The matrix `A` when `Normalize` is called, src/computeCOMTraj.cpp:48-52: four columns, the first three
assigned. -/
def crossBuf (mH : HRows) (g : V3) (c ddc : Coefs) : Out Buf :=
  (Buf.uninit mH.length 4).writeRows 0 0 (mH.map fun r => (crossRow g c ddc r).1)

/-- The rows `A`, `b` as a list. -/
def Mat.rows4 (A : Mat) (b : List ℝ) : List ((Fin 4 → ℝ) × ℝ) :=
  (List.range A.rows).map fun i => ((fun j => A.e i j), b.getD i 0)

/-- `A.block(0, 3, dimH, 1) = Ones`, src/computeCOMTraj.cpp:58. -/
def setSlack (rows : List ((Fin 4 → ℝ) × ℝ)) : List ((Fin 4 → ℝ) × ℝ) :=
  rows.map fun r => (Function.update r.1 3 1, r.2)

/-- `dynamicStabilityConstraints_cross`, src/computeCOMTraj.cpp:43-60. `Normalize` reads all the
coefficients of `A`. -/
noncomputable def dynamicStabilityConstraints_cross (mH : HRows) (g : V3) (c ddc : Coefs) :
    Out (List ((Fin 4 → ℝ) × ℝ)) := do
  let A ← crossBuf mH g c ddc
  let A ← A.value
  return setSlack (Normalize (A.rows4 (mH.map fun r => (crossRow g c ddc r).2))).1

/-- A buffer read when unassigned coefficients hold what the memory `mem` contained before. -/
def Buf.readWith (A : Buf) (mem : ℕ → ℕ → ℝ) : Mat :=
  { rows := A.rows, cols := A.cols, e := fun r c => (A.e r c).getD (mem r c) }

/-- `dynamicStabilityConstraints_cross` on a machine where the allocated memory contains `mem` and reading it
is harmless. -/
noncomputable def crossWith (mem : ℕ → ℕ → ℝ) (mH : HRows) (g : V3) (c ddc : Coefs) :
    Out (List ((Fin 4 → ℝ) × ℝ)) := do
  let A ← crossBuf mH g c ddc
  return setSlack (Normalize ((A.readWith mem).rows4 (mH.map fun r => (crossRow g c ddc r).2))).1

end Verif
