import Verif.Model.Basic
import Mathlib.Data.Rat.Cast.Defs

/-!
# Floating-point expressions

The arithmetic expressions of the headers of include/hpp/bezier-com-traj/waypoints as syntax trees (`FExp`), with two
meanings: the real number they denote (`FExp.exact`), and the numbers a program may obtain when every operation is
rounded with a relative error at most `u` (`FExp.Computes`). The rounding error may differ from one operation to the
other and may be zero: contraction of a product and a sum into one operation and extended precision are covered.
Overflow and underflow are not modelled.
-/

namespace Verif

/-- The quantities read by the formulas: the members of `ProblemData` (include/hpp/bezier-com-traj/data.hh:107), the control
points `pi[i]`, the gravity `g`, the duration `T`, the time `t`; `k` is the component. -/
inductive Var
  | c0 (k : Fin 3) | dc0 (k : Fin 3) | ddc0 (k : Fin 3) | j0 (k : Fin 3)
  | c1 (k : Fin 3) | dc1 (k : Fin 3) | ddc1 (k : Fin 3) | j1 (k : Fin 3)
  | pi (i : ℕ) (k : Fin 3) | g (k : Fin 3) | T | t

/-- C++ expressions of type `double`. `lit` is an integer literal (exact), `dec` a decimal literal (rounded by the
compiler). -/
inductive FExp
  | lit (n : ℕ) | dec (q : ℚ) | var (v : Var) | neg (a : FExp)
  | add (a b : FExp) | sub (a b : FExp) | mul (a b : FExp) | div (a b : FExp)

namespace FExp

instance (n : ℕ) : OfNat FExp n := ⟨.lit n⟩
instance : OfScientific FExp := ⟨fun m s e => .dec (OfScientific.ofScientific m s e)⟩
instance : Neg FExp := ⟨.neg⟩
instance : Add FExp := ⟨.add⟩
instance : Sub FExp := ⟨.sub⟩
instance : Mul FExp := ⟨.mul⟩
instance : Div FExp := ⟨.div⟩

/-- The number denoted by an expression. -/
noncomputable def exact (ρ : Var → ℝ) : FExp → ℝ
  | lit n => n
  | dec q => q
  | var v => ρ v
  | neg a => -a.exact ρ
  | add a b => a.exact ρ + b.exact ρ
  | sub a b => a.exact ρ - b.exact ρ
  | mul a b => a.exact ρ * b.exact ρ
  | div a b => a.exact ρ / b.exact ρ

section
variable (ρ : Var → ℝ) (a b : FExp)
@[simp] theorem exact_ofNat (n : ℕ) : (no_index (OfNat.ofNat n : FExp)).exact ρ = ((OfNat.ofNat n : ℕ) : ℝ) := rfl
@[simp] theorem exact_ofScientific (m : ℕ) (s : Bool) (e : ℕ) :
    (no_index (OfScientific.ofScientific m s e : FExp)).exact ρ = ((OfScientific.ofScientific m s e : ℚ) : ℝ) := rfl
@[simp] theorem exact_var (v : Var) : (var v).exact ρ = ρ v := rfl
@[simp] theorem exact_neg : (-a).exact ρ = -a.exact ρ := rfl
@[simp] theorem exact_add : (a + b).exact ρ = a.exact ρ + b.exact ρ := rfl
@[simp] theorem exact_sub : (a - b).exact ρ = a.exact ρ - b.exact ρ := rfl
@[simp] theorem exact_mul : (a * b).exact ρ = a.exact ρ * b.exact ρ := rfl
@[simp] theorem exact_div : (a / b).exact ρ = a.exact ρ / b.exact ρ := rfl
end

/-- `r` is a rounding of `x`, with a relative error at most `u`. -/
def RoundsTo (u x r : ℝ) : Prop := |r - x| ≤ u * |x|

/-- `r` may be obtained when the expression is evaluated with rounding. A change of sign is exact. -/
def Computes (u : ℝ) (ρ : Var → ℝ) : FExp → ℝ → Prop
  | lit n, r => r = n
  | dec q, r => RoundsTo u q r
  | var v, r => r = ρ v
  | neg a, r => ∃ x, a.Computes u ρ x ∧ r = -x
  | add a b, r => ∃ x y, a.Computes u ρ x ∧ b.Computes u ρ y ∧ RoundsTo u (x + y) r
  | sub a b, r => ∃ x y, a.Computes u ρ x ∧ b.Computes u ρ y ∧ RoundsTo u (x - y) r
  | mul a b, r => ∃ x y, a.Computes u ρ x ∧ b.Computes u ρ y ∧ RoundsTo u (x * y) r
  | div a b, r => ∃ x y, a.Computes u ρ x ∧ b.Computes u ρ y ∧ RoundsTo u (x / y) r

/-- The values of the variables. -/
def env (d : BC) (pi : ℕ → V3) (g : V3) (T t : ℝ) : Var → ℝ
  | .c0 k => d.c0 k
  | .dc0 k => d.dc0 k
  | .ddc0 k => d.ddc0 k
  | .j0 k => d.j0 k
  | .c1 k => d.c1 k
  | .dc1 k => d.dc1 k
  | .ddc1 k => d.ddc1 k
  | .j1 k => d.j1 k
  | .pi i k => pi i k
  | .g k => g k
  | .T => T
  | .t => t

end FExp

end Verif
