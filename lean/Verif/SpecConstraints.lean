import Verif.SpecTraj
import Verif.Model.Rows

/-!
# Specification of the planning constraints

What the user asks for: wrench in the polytope of the phase (with a margin), centre of mass in
the kinematic polytope, bounded acceleration. Only data types of the model are used.
-/

namespace Verif

/-- `x` satisfies the inequality system `A x ≤ b`. -/
def Sat (A b : Mat) (x : ℕ → ℝ) : Prop :=
  ∀ r < A.rows, ∑ c ∈ Finset.range A.cols, A.e r c * x c ≤ b.e r 0

/-- `x` satisfies the inequality system `A x ≤ b` up to `δ`. -/
def SatTol (A b : Mat) (δ : ℝ) (x : ℕ → ℝ) : Prop :=
  ∀ r < A.rows, ∑ c ∈ Finset.range A.cols, A.e r c * x c ≤ b.e r 0 + δ

/-- A 3-vector seen as a sequence of unknowns. -/
def ext3 (x : V3) : ℕ → ℝ := fun c => if h : c < 3 then x ⟨c, h⟩ else 0

/-- One inequality `u · f + v · τ ≤ h` of the wrench polytope, for the wrench `(f, τ)`, with the
margin `ρ` applied after the row has been scaled to unit length (`m (u,v)` is the row actually
used; a non-positive margin is no margin). -/
def WrenchRowOk (m ρ : ℝ) (r : (V3 × V3) × ℝ) (f τ : V3) : Prop :=
  dot r.1.1 f + dot r.1.2 τ ≤ (r.2 - max ρ 0) * (|m| * Real.sqrt (dot r.1.1 r.1.1 + dot r.1.2 r.1.2))

/-- The wrench `(f, τ)` is admissible for the phase. -/
def WrenchOk (e : Equilibrium) (ρ : ℝ) (f τ : V3) : Prop :=
  ∀ r ∈ e.poly, WrenchRowOk e.mass ρ r f τ

/-- The position `c` satisfies the kinematic inequalities of the phase. -/
def KinOk (ct : ContactData) (c : V3) : Prop :=
  ∀ q ∈ List.zip ct.Kin ct.kin, dot q.1 c ≤ q.2

/-- Everything required of a position `c` with acceleration `a` in a contact phase: the
gravito-inertial wrench `(m (g - a), m c × (g - a))` is admissible and the position is reachable. -/
def PhaseOk (ct : ContactData) (e : Equilibrium) (ρ : ℝ) (c a : V3) : Prop :=
  WrenchOk e ρ (e.mass • (e.gravity - a)) (e.mass • cr c (e.gravity - a)) ∧ KinOk ct c

/-- A contact phase on which the planner can work: the polytope is available, the mass is not
zero, no polytope row is zero, and the kinematic constraints have as many bounds as rows. -/
def GoodContact (ct : ContactData) (e : Equilibrium) : Prop :=
  ct.contactPhase = some e ∧ e.polyOk = true ∧ e.mass ≠ 0 ∧ (∀ r ∈ e.poly, r.1 ≠ 0) ∧
    (ct.kin ≠ [] → ct.Kin.length = ct.kin.length)

/-- All contact phases are good and share the gravity vector `g`. -/
def GoodContacts (cts : List ContactData) (g : V3) : Prop :=
  ∀ ct ∈ cts, ∃ e, GoodContact ct e ∧ e.gravity = g

/-- `P` holds of contact phase number `p` of the problem (which must exist). -/
def AtPhase (cts : List ContactData) (p : ℕ) (P : ContactData → Equilibrium → Prop) : Prop :=
  ∃ ct e, cts[p]? = some ct ∧ ct.contactPhase = some e ∧ P ct e

/-- Phase `p` constrains time `t`: either `t` is a sample of phase `p`, or `t` is the last sample
before the samples of phase `p` (a switch time belongs to both phases). -/
def Constrained (l : List (ℝ × ℤ)) (t : ℝ) (p : ℕ) : Prop :=
  (t, (p : ℤ)) ∈ l ∨ ∃ l₁ i t' l₂, l = l₁ ++ (t, i) :: (t', (p : ℤ)) :: l₂ ∧ (p : ℤ) ≠ i

/-- `y` satisfies the equality system `D y = d`. -/
def EqSat (D d : Mat) (y : ℕ → ℝ) : Prop :=
  ∀ r < D.rows, ∑ c ∈ Finset.range D.cols, D.e r c * y c = d.e r 0

/-- The wrench `(f, τ)` is generated with the nonnegative coefficients `β` by the force generators
of the phase. -/
def Generated (e : Equilibrium) (f τ : V3) (β : ℕ → ℝ) : Prop :=
  (∀ k < e.gens.length, 0 ≤ β k) ∧
  ∑ k ∈ Finset.range e.gens.length, β k • (e.gens.getD k 0).1 = f ∧
  ∑ k ∈ Finset.range e.gens.length, β k • (e.gens.getD k 0).2 = τ

/-- The wrench `(f, τ)` is in the cone of the force generators of the phase. -/
def InCone (e : Equilibrium) (f τ : V3) : Prop := ∃ β, Generated e f τ β

/-- `y` satisfies the lower bounds (an empty vector means no bounds). -/
def AboveBounds (m : List ℝ) (y : ℕ → ℝ) : Prop := ∀ c b, m[c]? = some b → b ≤ y c

/-- `y` satisfies the lower bounds up to `δ`. -/
def AboveBoundsTol (m : List ℝ) (δ : ℝ) (y : ℕ → ℝ) : Prop := ∀ c b, m[c]? = some b → b - δ ≤ y c

/-- Time `t` lies in phase `p` (both ends included). -/
def InPhase (Ts : List ℝ) (p : ℕ) (t : ℝ) : Prop :=
  p < Ts.length ∧ (Ts.take p).sum ≤ t ∧ t ≤ (Ts.take (p + 1)).sum

end Verif
