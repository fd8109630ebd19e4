import Verif.BezExpand
import Verif.BezLemmas
import Verif.FlagLemmas
import Verif.Lemmas.BackSubst
import Verif.Lemmas.Cont
import Verif.Lemmas.ContSem
import Verif.Lemmas.EndCost
import Verif.Lemmas.EndEffector
import Verif.Lemmas.EndRows
import Verif.Lemmas.EndSolve
import Verif.Lemmas.Extract
import Verif.Lemmas.Factor
import Verif.Lemmas.ForceRank
import Verif.Lemmas.FpAssembly
import Verif.Lemmas.FpDefined
import Verif.Lemmas.FpError
import Verif.Lemmas.FpMargin
import Verif.Lemmas.FpNear
import Verif.Lemmas.FpPoints
import Verif.Lemmas.FpReturned
import Verif.Lemmas.FpRows
import Verif.Lemmas.FpSamples
import Verif.Lemmas.FpShapes
import Verif.Lemmas.FpWrench
import Verif.Lemmas.Givens
import Verif.Lemmas.Normalize
import Verif.Lemmas.OneStep
import Verif.Lemmas.OneStepSem
import Verif.Lemmas.QuadAlg
import Verif.Lemmas.QuadFlArith
import Verif.Lemmas.QuadFp
import Verif.Lemmas.QuadFpCases
import Verif.Lemmas.QuadFpDual
import Verif.Lemmas.QuadFpExact
import Verif.Lemmas.QuadInv
import Verif.Lemmas.QuadMove
import Verif.Lemmas.QuadRounded
import Verif.Lemmas.QuadRoundedBig
import Verif.Lemmas.QuadRoundedDual
import Verif.Lemmas.QuadRoundedFac
import Verif.Lemmas.QuadRoundedGram
import Verif.Lemmas.QuadRoundedInf
import Verif.Lemmas.QuadRoundedInv
import Verif.Lemmas.QuadRoundedRes
import Verif.Lemmas.QuadRoundedSep
import Verif.Lemmas.QuadRoundedStat
import Verif.Lemmas.QuadRun
import Verif.Lemmas.QuadShift
import Verif.Lemmas.QuadSlater
import Verif.Lemmas.QuadStep
import Verif.Lemmas.QuadStruct
import Verif.Lemmas.QuadWell
import Verif.Lemmas.Quiet
import Verif.Lemmas.SamplePhase
import Verif.Lemmas.SolveExact
import Verif.Lemmas.SolveMargin
import Verif.Lemmas.SolveMarginEq
import Verif.Lemmas.SolveMarginGen
import Verif.Lemmas.SolveTol
import Verif.Lemmas.SolveTolFull
import Verif.Lemmas.SolveTolGen
import Verif.Lemmas.SolverFront
import Verif.Lemmas.Tags
import Verif.Lemmas.Tolerance
import Verif.Lemmas.VelCost
import Verif.Lemmas.VelIntegral
import Verif.Lemmas.WaypointsFrame
import Verif.Lemmas.ZeroMargin
import Verif.Lemmas.ZeroRows
import Verif.Lemmas.ZeroStep
import Verif.Model.Basic
import Verif.Model.Com
import Verif.Model.Continuous
import Verif.Model.Cost
import Verif.Model.Cross
import Verif.Model.Data
import Verif.Model.Dispatch
import Verif.Model.EndEffector
import Verif.Model.Fp
import Verif.Model.FpVec
import Verif.Model.OneStep
import Verif.Model.OneStepFp
import Verif.Model.PySession
import Verif.Model.Python
import Verif.Model.Quadprog
import Verif.Model.QuadprogFp
import Verif.Model.QuadprogMore
import Verif.Model.Rounded
import Verif.Model.Rows
import Verif.Model.Solver
import Verif.Model.Utils
import Verif.Model.UtilsMore
import Verif.Model.WaypointsFp
import Verif.Model.ZeroStep
import Verif.Props.C01
import Verif.Props.C02
import Verif.Props.C02Jerk
import Verif.Props.C04
import Verif.Props.C06
import Verif.Props.C07
import Verif.Props.C09
import Verif.Props.C100
import Verif.Props.C101
import Verif.Props.C102
import Verif.Props.C103
import Verif.Props.C104
import Verif.Props.C105
import Verif.Props.C106
import Verif.Props.C107
import Verif.Props.C108
import Verif.Props.C109
import Verif.Props.C109All
import Verif.Props.C110
import Verif.Props.C110All
import Verif.Props.C112
import Verif.Props.C113
import Verif.Props.C114
import Verif.Props.C115
import Verif.Props.C116
import Verif.Props.C117
import Verif.Props.C118
import Verif.Props.C119
import Verif.Props.C120
import Verif.Props.C121
import Verif.Props.C122
import Verif.Props.C123
import Verif.Props.C124
import Verif.Props.C125
import Verif.Props.C126
import Verif.Props.C127
import Verif.Props.C128
import Verif.Props.C128Ten
import Verif.Props.C14
import Verif.Props.C15
import Verif.Props.C16
import Verif.Props.C18
import Verif.Props.C21
import Verif.Props.C23
import Verif.Props.C23Ex
import Verif.Props.C23Ref
import Verif.Props.C24
import Verif.Props.C25
import Verif.Props.C26
import Verif.Props.C28
import Verif.Props.C30
import Verif.Props.C34
import Verif.Props.C35
import Verif.Props.C36
import Verif.Props.C39
import Verif.Props.C39Ref
import Verif.Props.C43
import Verif.Props.C43Ex
import Verif.Props.C45
import Verif.Props.C46
import Verif.Props.C48
import Verif.Props.C49
import Verif.Props.C50
import Verif.Props.C51
import Verif.Props.C53
import Verif.Props.C56
import Verif.Props.C56ContTol
import Verif.Props.C56Ex
import Verif.Props.C56ForceTol
import Verif.Props.C56Rounded
import Verif.Props.C56RoundedTol
import Verif.Props.C56Tol
import Verif.Props.C60
import Verif.Props.C61
import Verif.Props.C62
import Verif.Props.C63
import Verif.Props.C64
import Verif.Props.C65
import Verif.Props.C67
import Verif.Props.C68
import Verif.Props.C71
import Verif.Props.C71Ex
import Verif.Props.C73
import Verif.Props.C75
import Verif.Props.C76
import Verif.Props.C77
import Verif.Props.C78
import Verif.Props.C79
import Verif.Props.C80
import Verif.Props.C80Cont
import Verif.Props.C80Ex
import Verif.Props.C80Rounded
import Verif.Props.C81
import Verif.Props.C81Ex
import Verif.Props.C82
import Verif.Props.C82Ex
import Verif.Props.C83
import Verif.Props.C84
import Verif.Props.C85
import Verif.Props.C85Margin
import Verif.Props.C86
import Verif.Props.C87
import Verif.Props.C88
import Verif.Props.C89
import Verif.Props.C90
import Verif.Props.C91
import Verif.Props.C91Ex
import Verif.Props.C92
import Verif.Props.C93
import Verif.Props.C94
import Verif.Props.C94Exact
import Verif.Props.C94Fl
import Verif.Props.C95
import Verif.Props.C96
import Verif.Props.C97
import Verif.Props.C98
import Verif.Props.C98Sep
import Verif.Props.C99
import Verif.Spec
import Verif.SpecConstraints
import Verif.SpecEnd
import Verif.SpecLP
import Verif.SpecQP
import Verif.SpecTol
import Verif.SpecTraj
import Verif.TimeProofs
import Verif.WDiff5
import Verif.WDiff6
import Verif.WExact
import Verif.WRounded5
import Verif.WRounded6
import Verif.Waypoints.Fp
import Verif.Waypoints.FpW
import Verif.Waypoints.c0_dc0_c1
import Verif.Waypoints.c0_dc0_dc1
import Verif.Waypoints.c0_dc0_dc1_c1
import Verif.Waypoints.c0_dc0_ddc0
import Verif.Waypoints.c0_dc0_ddc0_c1
import Verif.Waypoints.c0_dc0_ddc0_dc1_c1
import Verif.Waypoints.c0_dc0_ddc0_ddc1_dc1_c1
import Verif.Waypoints.c0_dc0_ddc0_j0_j1_ddc1_dc1_c1
import Verif.Waypoints.c0_dc0_ddc0_j0_x3_j1_ddc1_dc1_c1
import Verif.Waypoints.c0_dc0_ddc0_j0_x5_j1_ddc1_dc1_c1
import Verif.WpProofs
