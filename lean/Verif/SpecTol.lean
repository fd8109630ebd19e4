import Verif.SpecConstraints

/-!
# Requirements up to a tolerance

The tolerance of a wrench inequality is in the unit of the row scaled to unit length.
-/

namespace Verif

/-- `WrenchRowOk` up to `δ`. -/
def WrenchRowOkTol (m ρ δ : ℝ) (r : (V3 × V3) × ℝ) (f τ : V3) : Prop :=
  dot r.1.1 f + dot r.1.2 τ ≤ (r.2 - max ρ 0 + δ) * (|m| * Real.sqrt (dot r.1.1 r.1.1 + dot r.1.2 r.1.2))

/-- `WrenchOk` up to `δ`. -/
def WrenchOkTol (e : Equilibrium) (ρ δ : ℝ) (f τ : V3) : Prop :=
  ∀ r ∈ e.poly, WrenchRowOkTol e.mass ρ δ r f τ

/-- `KinOk` up to `δ`. -/
def KinOkTol (ct : ContactData) (δ : ℝ) (c : V3) : Prop :=
  ∀ q ∈ List.zip ct.Kin ct.kin, dot q.1 c ≤ q.2 + δ

/-- `PhaseOk` up to `δw` for the wrench and `δ` for the position. -/
def PhaseOkTol (ct : ContactData) (e : Equilibrium) (ρ δw δ : ℝ) (c a : V3) : Prop :=
  WrenchOkTol e ρ δw (e.mass • (e.gravity - a)) (e.mass • cr c (e.gravity - a)) ∧ KinOkTol ct δ c

end Verif
