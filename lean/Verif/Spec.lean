import Mathlib.Analysis.Calculus.Deriv.Pow
import Mathlib.Analysis.Calculus.Deriv.Add
import Mathlib.Analysis.Calculus.Deriv.Mul
import Mathlib.Analysis.Calculus.Deriv.Comp
import Mathlib.Analysis.Calculus.Deriv.Pi
import Mathlib.LinearAlgebra.CrossProduct
import Mathlib.Data.Nat.Choose.Sum
import Mathlib.Data.Real.Basic
import Mathlib.Tactic.Module
import Mathlib.Tactic.Linarith
import Mathlib.Tactic.FieldSimp
import Mathlib.Tactic.Ring
import Mathlib.Tactic.FinCases

/-!
# Specification vocabulary

Nothing in this file models code of the repository: these are the independent
mathematical notions in which the properties are stated.
-/

namespace Verif

/-- Points of R^3. -/
abbrev V3 := Fin 3 → ℝ

/-- 3x3 real matrices. -/
abbrev M3 := Matrix (Fin 3) (Fin 3) ℝ

/-- The point at parameter `t` of the Bezier curve of degree `n` with control points
`p 0, ..., p n`: the Bernstein sum. -/
noncomputable def bez {E : Type*} [AddCommGroup E] [Module ℝ E] (n : ℕ) (p : ℕ → E) (t : ℝ) : E :=
  ∑ i ∈ Finset.range (n + 1), ((n.choose i : ℝ) * t ^ i * (1 - t) ^ (n - i)) • p i

/-- `c'` is the time derivative of the curve `c`, everywhere. -/
def IsDeriv (c c' : ℝ → V3) : Prop := ∀ s, HasDerivAt c (c' s) s

/-- The curve of degree `n` with control points `p`, traversed in time `T` (time `s` runs
over `[0,T]`). -/
noncomputable def curve (n : ℕ) (p : ℕ → V3) (T : ℝ) (s : ℝ) : V3 := bez n p (s / T)

/-- Cross product of R^3, as in Mathlib. -/
noncomputable def cr (a b : V3) : V3 := crossProduct a b

/-- Scalar product of R^3. -/
def dot (a b : V3) : ℝ := a 0 * b 0 + a 1 * b 1 + a 2 * b 2

end Verif
