import Verif.Spec

/-!
# Outcomes and basic data types of the model
-/

namespace Verif

/-- Outcome of a C++ call. -/
inductive Out (α : Type) where
  /-- normal return -/
  | ok (a : α)
  /-- a C++ exception (`std::runtime_error`) -/
  | throw (msg : String)
  /-- `assert` / `eigen_assert` failure (debug builds abort) -/
  | assertFail
  /-- undefined behaviour: out of range access, null dereference, uninitialised read -/
  | ub
  /-- the fuel given to an unbounded loop is exhausted -/
  | diverge

namespace Out

/-- Sequencing: any outcome other than a normal return is propagated. -/
def bind {α β : Type} : Out α → (α → Out β) → Out β
  | .ok a, f => f a
  | .throw m, _ => .throw m
  | .assertFail, _ => .assertFail
  | .ub, _ => .ub
  | .diverge, _ => .diverge

instance : Monad Out where
  pure := .ok
  bind := Out.bind

@[simp] theorem pure_eq {α : Type} (a : α) : (pure a : Out α) = .ok a := rfl
@[simp] theorem ok_bind {α β : Type} (a : α) (f : α → Out β) : (Out.ok a >>= f) = f a := rfl
@[simp] theorem throw_bind {α β : Type} (m : String) (f : α → Out β) :
    ((Out.throw m : Out α) >>= f) = .throw m := rfl
@[simp] theorem assertFail_bind {α β : Type} (f : α → Out β) :
    ((Out.assertFail : Out α) >>= f) = .assertFail := rfl
@[simp] theorem ub_bind {α β : Type} (f : α → Out β) : ((Out.ub : Out α) >>= f) = .ub := rfl
@[simp] theorem diverge_bind {α β : Type} (f : α → Out β) :
    ((Out.diverge : Out α) >>= f) = .diverge := rfl

theorem bind_eq_ok {α β : Type} {x : Out α} {f : α → Out β} {b : β} :
    (x >>= f) = .ok b ↔ ∃ a, x = .ok a ∧ f a = .ok b := by
  cases x <;> simp

end Out

/-- Boundary data: the fields `c0_ ... j1_` of `ProblemData`,
include/hpp/bezier-com-traj/data.hh:105. -/
structure BC where
  c0 : V3
  dc0 : V3
  ddc0 : V3
  j0 : V3
  c1 : V3
  dc1 : V3
  ddc1 : V3
  j1 : V3

/-- `coefs_t` = `std::pair<double, point3_t>`, include/hpp/bezier-com-traj/definitions.hh. -/
structure Coefs where
  first : ℝ
  second : V3

/-- A `waypoint_t` of size 6x3: matrix split in two 3x3 blocks, vector split in head and tail. -/
structure Wp6 where
  top : M3
  bot : M3
  head : V3
  tail : V3

/-- A `waypoint_t` of size 3x(3K) all of whose 3x3 blocks are multiples of the identity
(this is the only kind the end-effector headers build): `first j` is the factor of block `j`. -/
structure WpB (K : ℕ) where
  first : Fin K → ℝ
  second : V3

/-- `skew`, src/utils.cpp:62-71: entries not assigned stay zero. -/
def skew (x : V3) : M3 :=
  ![![0, -x 2, x 1],
    ![x 2, 0, -x 0],
    ![-x 1, x 0, 0]]

/-- Eigen's `a.cross(b)` (library contract). -/
def eigenCross (a b : V3) : V3 :=
  ![a 1 * b 2 - a 2 * b 1, a 2 * b 0 - a 0 * b 2, a 0 * b 1 - a 1 * b 0]

end Verif
