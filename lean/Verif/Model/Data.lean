import Verif.Model.Basic

/-!
# Problem data

Model of include/hpp/bezier-com-traj/flags.hh and data.hh.
-/

namespace Verif

/-- `ConstraintFlag`: a C++ enum used as a set of bits (flags.hh:20-34); 32 bits. -/
abbrev Flag := BitVec 32

/-- flags.hh:21 -/
def INIT_POS : Flag := 0x00001#32
/-- flags.hh:22 -/
def INIT_VEL : Flag := 0x00002#32
/-- flags.hh:23 -/
def INIT_ACC : Flag := 0x00004#32
/-- flags.hh:24 -/
def END_POS : Flag := 0x00008#32
/-- flags.hh:25 -/
def END_VEL : Flag := 0x00010#32
/-- flags.hh:26 -/
def END_ACC : Flag := 0x00020#32
/-- flags.hh:27 -/
def INIT_JERK : Flag := 0x00040#32
/-- flags.hh:28 -/
def END_JERK : Flag := 0x00080#32
/-- flags.hh:30 -/
def TWO_FREE_VAR : Flag := 0x00100#32
/-- flags.hh:31 -/
def THREE_FREE_VAR : Flag := 0x00200#32
/-- flags.hh:32 -/
def FOUR_FREE_VAR : Flag := 0x00400#32
/-- flags.hh:33 -/
def FIVE_FREE_VAR : Flag := 0x00800#32

/-- A C++ condition `flag & b` (flags.hh:50-53, converted to `bool`). -/
def Flag.has (flag b : Flag) : Bool := flag &&& b != 0#32

/-- `centroidal_dynamics::Equilibrium` (external library, contract): mass, gravity, the
inequalities `H w <= h` describing the admissible gravito-inertial wrenches as returned by
`getPolytopeInequalities` (one pair of 3-vectors and one bound per row), whether that call returns
`LP_STATUS_OPTIMAL`, whether the algorithm is `EQUILIBRIUM_ALGORITHM_PP`, and the columns of
`m_G_centr` (force generators, 6 rows each). -/
structure Equilibrium where
  mass : ℝ
  gravity : V3
  poly : List ((V3 × V3) × ℝ)
  polyOk : Bool
  isPP : Bool
  gens : List (V3 × V3)

/-- `ContactData`, data.hh:28-57. `Kin_` is a list of rows; a null `contactPhase_` is `none`. -/
structure ContactData where
  contactPhase : Option Equilibrium
  Kin : List V3
  kin : List ℝ
  Ang : List V3
  ang : List ℝ

/-- Default constructor of `ContactData`, data.hh:29-34. -/
def ContactData.default : ContactData :=
  { contactPhase := none, Kin := [0, 0, 0], kin := [], Ang := [0, 0, 0], ang := [] }

/-- `CostFunction`, flags.hh:13-18 (any integer value may be stored in the enum). -/
abbrev CostFunction := ℕ
/-- flags.hh:14 -/
def ACCELERATION : CostFunction := 1
/-- flags.hh:15 -/
def DISTANCE_TRAVELED : CostFunction := 2
/-- flags.hh:16 -/
def TARGET_END_VELOCITY : CostFunction := 4

/-- `GIWCRepresentation`, flags.hh:36-40. -/
abbrev Representation := ℕ
/-- flags.hh:37 -/
def DOUBLE_DESCRIPTION : Representation := 1
/-- flags.hh:38 -/
def FORCE : Representation := 2

/-- `ProblemData` with its `Constraints` member, data.hh:64-114. -/
structure ProblemData where
  contacts : List ContactData
  bc : BC
  l0 : V3
  useAngularMomentum : Bool
  flag : Flag
  constraintAcceleration : Bool
  maxAcceleration : ℝ
  reduce_h : ℝ
  costFunction : CostFunction
  representation : Representation

end Verif
