import Verif.Waypoints.Fp
import Verif.Model.FpVec

/-!
`computeWwaypoints` of include/hpp/bezier-com-traj/waypoints as floating-point expressions, transcribed by `tools/gen_waypoints.py`.
-/

set_option linter.unusedVariables false

namespace Verif.FpW
open FExp Fp.Vec

/-- The duration. -/
def T : FExp := .var .T

namespace c0_dc0_c1

/-- `computeWwaypoints`, include/hpp/bezier-com-traj/waypoints/waypoints_c0_dc0_c1.hh:64-107. In the syntax and order of operations of the source; 3x3 products from left to right. -/
def computeWwaypoints : List FWp6 :=
  let T2 : FExp := T * T
  let alpha : FExp := 1 / (T2)
  [
    { top := (6 : FExp) * alpha * I3
      bot := (6 : FExp) * Cpi 0 * alpha
      head := ((6 : FExp) * pi 0 - (12 : FExp) * pi 1) * alpha
      tail := (1 : FExp) * ((1 : FExp) * Cg * T2 * pi 0 - (12 : FExp) * Cpi 0 * pi 1) * alpha },
    { top := FMat.zero
      bot := (1 : FExp) * (-(6 : FExp) * Cpi 0 + (6 : FExp) * Cpi 1) * alpha
      head := (1 : FExp) * ((4 : FExp) * pi 0 - (6 : FExp) * pi 1 + (2 : FExp) * pi 3) * alpha
      tail := (1 : FExp) * ((1 : FExp) * Cg * T2 * pi 1 + (2 : FExp) * Cpi 0 * pi 3) * alpha },
    { top := -(6 : FExp) * alpha * I3
      bot := (1 : FExp) * ((1 : FExp) * Cg * T2 - (6 : FExp) * Cpi 1) * alpha
      head := (1 : FExp) * ((2 : FExp) * pi 0 + (4 : FExp) * pi 3) * alpha
      tail := (1 : FExp) * (-(2 : FExp) * Cpi 0 * pi 3 + (6 : FExp) * Cpi 1 * pi 3) * alpha },
    { top := -(12 : FExp) * alpha * I3
      bot := -(12 : FExp) * Cpi 3 * alpha
      head := ((6 : FExp) * pi 1 + (6 : FExp) * pi 3) * alpha
      tail := (1 : FExp) * ((1 : FExp) * Cg * T2 * pi 3 - (6 : FExp) * Cpi 1 * pi 3) * alpha }]

end c0_dc0_c1

namespace c0_dc0_dc1

/-- `computeWwaypoints`, include/hpp/bezier-com-traj/waypoints/waypoints_c0_dc0_dc1.hh:65-113. In the syntax and order of operations of the source; 3x3 products from left to right. -/
def computeWwaypoints : List FWp6 :=
  let T2 : FExp := T * T
  let alpha : FExp := 1 / (T2)
  [
    { top := (6 : FExp) * alpha * I3
      bot := (6 : FExp) * Cpi 0 * alpha
      head := ((6 : FExp) * pi 0 - (12 : FExp) * pi 1) * alpha
      tail := (-Cpi 0) * ((12 : FExp) * pi 1 * alpha + g) },
    { top := (3 : FExp) * alpha * I3
      bot := FMat.skew ((1.5 : FExp) * ((3 : FExp) * pi 1 - pi 0)) * alpha
      head := (1.5 : FExp) * alpha * ((3 : FExp) * pi 0 - (5 : FExp) * pi 1)
      tail := FVec.cross ((3 : FExp) * alpha * pi 0) (-pi 1) + (0.25 : FExp) * (Cg * ((3 : FExp) *
            pi 1 + pi 0)) },
    { top := (0 : FExp) * alpha * I3
      bot := FMat.skew ((0.5 : FExp) * g - (3 : FExp) * alpha * pi 0 + (3 : FExp) * alpha * pi 1)
      head := (3 : FExp) * alpha * (pi 0 - pi 1)
      tail := (0.5 : FExp) * Cg * pi 1 },
    { top := -(3 : FExp) * alpha * I3
      bot := FMat.skew (g - (1.5 : FExp) * alpha * (pi 1 + pi 0))
      head := (1.5 : FExp) * alpha * (pi 1 + pi 0)
      tail := FVec.zero },
    { top := -(6 : FExp) * alpha * I3
      bot := FMat.skew (g - (6 : FExp) * alpha * pi 1)
      head := (6 : FExp) * pi 1 * alpha
      tail := FVec.zero }]

end c0_dc0_dc1

namespace c0_dc0_ddc0

/-- `computeWwaypoints`, include/hpp/bezier-com-traj/waypoints/waypoints_c0_dc0_ddc0.hh:69-116. In the syntax and order of operations of the source; 3x3 products from left to right. -/
def computeWwaypoints : List FWp6 :=
  let T2 : FExp := T * T
  let alpha : FExp := 1 / (T2)
  [
    { top := FMat.zero
      bot := FMat.zero
      head := ((6 : FExp) * pi 0 - (12 : FExp) * pi 1 + (6 : FExp) * pi 2) * alpha
      tail := (1 : FExp) * ((1 : FExp) * Cg * T2 * pi 0 - (12 : FExp) * Cpi 0 * pi 1 + (6 : FExp) *
            Cpi 0 * pi 2) * alpha },
    { top := (2 : FExp) * alpha * I3
      bot := (2 : FExp) * Cpi 0 * alpha
      head := (1 : FExp) * ((4 : FExp) * pi 0 - (6 : FExp) * pi 1) * alpha
      tail := (1 : FExp) * ((1 : FExp) * Cg * T2 * pi 1 - (6 : FExp) * Cpi 0 * pi 2 + (6 : FExp) *
            Cpi 1 * pi 2) * alpha },
    { top := (4 : FExp) * alpha * I3
      bot := (1 : FExp) * (-(2 : FExp) * Cpi 0 + (6 : FExp) * Cpi 1) * alpha
      head := (1 : FExp) * ((2 : FExp) * pi 0 - (6 : FExp) * pi 2) * alpha
      tail := (1 : FExp) * ((1 : FExp) * Cg * T2 * pi 2 - (6 : FExp) * Cpi 1 * pi 2) * alpha },
    { top := (6 : FExp) * alpha * I3
      bot := (1 : FExp) * ((1 : FExp) * Cg * T2 - (6 : FExp) * Cpi 1 + (12 : FExp) * Cpi 2) *
            alpha
      head := ((6 : FExp) * pi 1 - (12 : FExp) * pi 2) * alpha
      tail := FVec.zero }]

end c0_dc0_ddc0

namespace c0_dc0_dc1_c1

/-- `computeWwaypoints`, include/hpp/bezier-com-traj/waypoints/waypoints_c0_dc0_dc1_c1.hh:67-127. In the syntax and order of operations of the source; 3x3 products from left to right. -/
def computeWwaypoints : List FWp6 :=
  let T2 : FExp := T * T
  let alpha : FExp := 1 / (T2)
  [
    { top := (12 : FExp) * alpha * I3
      bot := (12 : FExp) * alpha * Cpi 0
      head := ((12 : FExp) * pi 0 - (24 : FExp) * pi 1) * alpha
      tail := (1 : FExp) * Cg * pi 0 - ((24 : FExp) * Cpi 0 * pi 1) * alpha },
    { top := -(2.4 : FExp) * alpha * I3
      bot := (-(12 : FExp) * Cpi 0 + (9.6 : FExp) * Cpi 1) * alpha
      head := ((7.2 : FExp) * pi 0 - (9.6 : FExp) * pi 1 + (4.8 : FExp) * pi 3) * alpha
      tail := ((0.2 : FExp) * Cg * T2 * pi 0 + (0.8 : FExp) * Cg * T2 * pi 1 + (4.8 : FExp) * Cpi 0
            * pi 3) * alpha },
    { top := -(9.6 : FExp) * alpha * I3
      bot := ((0.6 : FExp) * Cg * T2 - (9.6 : FExp) * Cpi 1) * alpha
      head := ((3.6 : FExp) * pi 0 + (4.8 : FExp) * pi 3 + (1.2 : FExp) * pi 4) * alpha
      tail := ((0.4 : FExp) * Cg * T2 * pi 1 - (4.8 : FExp) * Cpi 0 * pi 3 + (1.2 : FExp) * Cpi 0 *
            pi 4 + (9.6 : FExp) * Cpi 1 * pi 3) * alpha },
    { top := -(9.6 : FExp) * alpha * I3
      bot := ((0.6 : FExp) * Cg * T2 - (9.6 : FExp) * Cpi 3) * alpha
      head := ((1.2 : FExp) * pi 0 + (4.8 : FExp) * pi 1 + (3.6 : FExp) * pi 4) * alpha
      tail := ((0.4 : FExp) * Cg * T2 * pi 3 - (1.2 : FExp) * Cpi 0 * pi 4 - (9.6 : FExp) * Cpi 1 *
            pi 3 + (4.8 : FExp) * Cpi 1 * pi 4) * alpha },
    { top := -(2.4 : FExp) * alpha * I3
      bot := ((9.6 : FExp) * Cpi 3 - (12 : FExp) * Cpi 4) * alpha
      head := ((4.8 : FExp) * pi 1 - (9.6 : FExp) * pi 3 + (7.2 : FExp) * pi 4) * alpha
      tail := ((0.8 : FExp) * Cg * T2 * pi 3 + (0.2 : FExp) * Cg * T2 * pi 4 - (4.8 : FExp) * Cpi 1
            * pi 4) * alpha },
    { top := (12 : FExp) * alpha * I3
      bot := (12 : FExp) * Cpi 4 * alpha
      head := (-(24 : FExp) * pi 3 + (12 : FExp) * pi 4) * alpha
      tail := (Cg * T2 * pi 4 + (24 : FExp) * Cpi 3 * pi 4) * alpha }]

end c0_dc0_dc1_c1

namespace c0_dc0_ddc0_c1

/-- `computeWwaypoints`, include/hpp/bezier-com-traj/waypoints/waypoints_c0_dc0_ddc0_c1.hh:72-140. In the syntax and order of operations of the source; 3x3 products from left to right. -/
def computeWwaypoints : List FWp6 :=
  let T2 : FExp := T * T
  let alpha : FExp := 1 / (T2)
  [
    { top := FMat.zero
      bot := FMat.zero
      head := ((12 : FExp) * pi 0 - (24 : FExp) * pi 1 + (12 : FExp) * pi 2) * alpha
      tail := (1 : FExp) * ((1 : FExp) * Cg * T2 * pi 0 - (24 : FExp) * Cpi 0 * pi 1 + (12 : FExp)
            * Cpi 0 * pi 2) * alpha },
    { top := (4.8 : FExp) * alpha * I3
      bot := (4.8 : FExp) * Cpi 0 * alpha
      head := (1 : FExp) * ((7.2 : FExp) * pi 0 - (9.6 : FExp) * pi 1 - (2.4 : FExp) * pi 2) *
            alpha
      tail := (1 : FExp) * ((0.2 : FExp) * Cg * T2 * pi 0 + (0.8 : FExp) * Cg * T2 * pi 1 - (12 :
            FExp) * Cpi 0 * pi 2 + (9.6 : FExp) * Cpi 1 * pi 2) * alpha },
    { top := (4.8 : FExp) * alpha * I3
      bot := (1 : FExp) * (-(4.8 : FExp) * Cpi 0 + (9.6 : FExp) * Cpi 1) * alpha
      head := (1 : FExp) * ((3.6 : FExp) * pi 0 - (9.6 : FExp) * pi 2 + (1.2 : FExp) * pi 4) *
            alpha
      tail := (1 : FExp) * ((0.4 : FExp) * Cg * T2 * pi 1 + (0.6 : FExp) * Cg * T2 * pi 2 + (1.2 :
            FExp) * Cpi 0 * pi 4 - (9.6 : FExp) * Cpi 1 * pi 2) * alpha },
    { top := FMat.zero
      bot := (1 : FExp) * ((0.4 : FExp) * Cg * T2 - (9.6 : FExp) * Cpi 1 + (9.6 : FExp) * Cpi 2) *
            alpha
      head := (1 : FExp) * ((1.2 : FExp) * pi 0 + (4.8 : FExp) * pi 1 - (9.6 : FExp) * pi 2 + (3.6
            : FExp) * pi 4) * alpha
      tail := (1 : FExp) * ((0.6 : FExp) * Cg * T2 * pi 2 - (1.2 : FExp) * Cpi 0 * pi 4 + (4.8 :
            FExp) * Cpi 1 * pi 4) * alpha },
    { top := -(9.6 : FExp) * alpha * I3
      bot := (1 : FExp) * ((0.8 : FExp) * Cg * T2 - (9.6 : FExp) * Cpi 2) * alpha
      head := (1 : FExp) * ((4.8 : FExp) * pi 1 - (2.4 : FExp) * pi 2 + (7.2 : FExp) * pi 4) *
            alpha
      tail := (1 : FExp) * ((0.2 : FExp) * Cg * T2 * pi 4 - (4.8 : FExp) * Cpi 1 * pi 4 + (12 :
            FExp) * Cpi 2 * pi 4) * alpha },
    { top := -(24 : FExp) * alpha * I3
      bot := (1 : FExp) * (-(24 : FExp) * Cpi 4) * alpha
      head := ((12 : FExp) * pi 2 + (12 : FExp) * pi 4) * alpha
      tail := (1 : FExp) * ((1 : FExp) * Cg * T2 * pi 4 - (12 : FExp) * Cpi 2 * pi 4) * alpha }]

end c0_dc0_ddc0_c1

namespace c0_dc0_ddc0_dc1_c1

/-- `computeWwaypoints`, include/hpp/bezier-com-traj/waypoints/waypoints_c0_dc0_ddc0_dc1_c1.hh:80-207. In the syntax and order of operations of the source; 3x3 products from left to right. -/
def computeWwaypoints : List FWp6 :=
  let T2 : FExp := T * T
  let alpha : FExp := 1 / (T2)
  [
    { top := FMat.zero
      bot := FMat.zero
      head := ((20 : FExp) * pi 0 - (40 : FExp) * pi 1 + (20 : FExp) * pi 2) * alpha
      tail := (1 : FExp) * ((1 : FExp) * Cg * T2 * pi 0 - (40 : FExp) * Cpi 0 * pi 1 + (20 : FExp)
            * Cpi 0 * pi 2) * alpha },
    { top := (8.57142857142857 : FExp) * alpha * I3
      bot := (8.57142857142857 : FExp) * Cpi 0 * alpha
      head := (1 : FExp) * ((11.4285714285714 : FExp) * pi 0 - (14.2857142857143 : FExp) * pi 1 -
            (5.71428571428572 : FExp) * pi 2) * alpha
      tail := (1 : FExp) * ((0.285714285714286 : FExp) * Cg * T2 * pi 0 + (0.714285714285714 :
            FExp) * Cg * T2 * pi 1 - (20 : FExp) * Cpi 0 * pi 2 + (14.2857142857143 : FExp) *
            Cpi 1 * pi 2) * alpha },
    { top := (5.71428571428571 : FExp) * alpha * I3
      bot := (1 : FExp) * (-(8.57142857142857 : FExp) * Cpi 0 + (14.2857142857143 : FExp) * Cpi 1)
            * alpha
      head := (1 : FExp) * ((5.71428571428571 : FExp) * pi 0 - (14.2857142857143 : FExp) * pi 2 +
            (2.85714285714286 : FExp) * pi 4) * alpha
      tail := (1 : FExp) * ((0.0476190476190479 : FExp) * Cg * T2 * pi 0 + (0.476190476190476 :
            FExp) * Cg * T2 * pi 1 + (0.476190476190476 : FExp) * Cg * T2 * pi 2 +
            (2.85714285714286 : FExp) * Cpi 0 * pi 4 - (14.2857142857143 : FExp) * Cpi 1 * pi
            2) * alpha },
    { top := -(2.85714285714286 : FExp) * alpha * I3
      bot := (1 : FExp) * ((0.285714285714286 : FExp) * Cg * T2 - (14.2857142857143 : FExp) * Cpi
            1 + (11.4285714285714 : FExp) * Cpi 2) * alpha
      head := (1 : FExp) * ((2.28571428571429 : FExp) * pi 0 + (5.71428571428571 : FExp) * pi 1 -
            (11.4285714285714 : FExp) * pi 2 + (5.71428571428571 : FExp) * pi 4 +
            (0.571428571428571 : FExp) * pi 5) * alpha
      tail := (1 : FExp) * ((0.142857142857143 : FExp) * Cg * T2 * pi 1 + (0.571428571428571 :
            FExp) * Cg * T2 * pi 2 - (2.85714285714286 : FExp) * Cpi 0 * pi 4 +
            (0.571428571428571 : FExp) * Cpi 0 * pi 5 + (8.57142857142857 : FExp) * Cpi 1 * pi
            4) * alpha },
    { top := -(11.4285714285714 : FExp) * alpha * I3
      bot := (1 : FExp) * ((0.571428571428571 : FExp) * Cg * T2 - (11.4285714285714 : FExp) * Cpi
            2) * alpha
      head := (1 : FExp) * ((0.571428571428571 : FExp) * pi 0 + (5.71428571428571 : FExp) * pi 1 -
            (2.85714285714286 : FExp) * pi 2 + (5.71428571428571 : FExp) * pi 4 +
            (2.28571428571429 : FExp) * pi 5) * alpha
      tail := (1 : FExp) * ((0.285714285714286 : FExp) * Cg * T2 * pi 2 + (0.142857142857143 :
            FExp) * Cg * T2 * pi 4 - (0.571428571428572 : FExp) * Cpi 0 * pi 5 -
            (8.57142857142857 : FExp) * Cpi 1 * pi 4 + (2.85714285714286 : FExp) * Cpi 1 * pi 5
            + (14.2857142857143 : FExp) * Cpi 2 * pi 4) * alpha },
    { top := -(14.2857142857143 : FExp) * alpha * I3
      bot := (1 : FExp) * ((0.476190476190476 : FExp) * Cg * T2 - (14.2857142857143 : FExp) * Cpi
            4) * alpha
      head := (1 : FExp) * ((2.85714285714286 : FExp) * pi 1 + (5.71428571428571 : FExp) * pi 2 +
            (5.71428571428571 : FExp) * pi 5) * alpha
      tail := (1 : FExp) * ((0.476190476190476 : FExp) * Cg * T2 * pi 4 + (0.0476190476190476 :
            FExp) * Cg * T2 * pi 5 - (2.85714285714286 : FExp) * Cpi 1 * pi 5 -
            (14.2857142857143 : FExp) * Cpi 2 * pi 4 + (8.57142857142857 : FExp) * Cpi 2 * pi
            5) * alpha },
    { top := -(5.71428571428572 : FExp) * alpha * I3
      bot := (1 : FExp) * ((14.2857142857143 : FExp) * Cpi 4 - (20 : FExp) * Cpi 5) * alpha
      head := (1 : FExp) * ((8.57142857142857 : FExp) * pi 2 - (14.2857142857143 : FExp) * pi 4 +
            (11.4285714285714 : FExp) * pi 5) * alpha
      tail := (1 : FExp) * ((0.714285714285714 : FExp) * Cg * T2 * pi 4 + (0.285714285714286 :
            FExp) * Cg * T2 * pi 5 - (8.57142857142858 : FExp) * Cpi 2 * pi 5) * alpha },
    { top := (20 : FExp) * alpha * I3
      bot := (1 : FExp) * ((20 : FExp) * Cpi 5) * alpha
      head := (-(40 : FExp) * pi 4 + (20 : FExp) * pi 5) * alpha
      tail := (1 : FExp) * ((1 : FExp) * Cg * T2 * pi 5 + (40 : FExp) * Cpi 4 * pi 5) * alpha }]

end c0_dc0_ddc0_dc1_c1

namespace c0_dc0_ddc0_ddc1_dc1_c1

/-- `computeWwaypoints`, include/hpp/bezier-com-traj/waypoints/waypoints_c0_dc0_ddc0_ddc1_dc1_c1.hh:88-245. In the syntax and order of operations of the source; 3x3 products from left to right. -/
def computeWwaypoints : List FWp6 :=
  let T2 : FExp := T * T
  let alpha : FExp := 1 / (T2)
  [
    { top := FMat.zero
      bot := FMat.zero
      head := ((30 : FExp) * pi 0 - (60 : FExp) * pi 1 + (30 : FExp) * pi 2) * alpha
      tail := (1 : FExp) * ((1 : FExp) * Cg * T2 * pi 0 - (60 : FExp) * Cpi 0 * pi 1 + (30 : FExp)
            * Cpi 0 * pi 2) * alpha },
    { top := (13.3333333333333 : FExp) * alpha * I3
      bot := (13.3333333333333 : FExp) * Cpi 0 * alpha
      head := (1 : FExp) * ((16.6666666666667 : FExp) * pi 0 - (20 : FExp) * pi 1 - (10 : FExp) *
            pi 2) * alpha
      tail := (1 : FExp) * ((0.333333333333333 : FExp) * Cg * T2 * pi 0 + (0.666666666666667 :
            FExp) * Cg * T2 * pi 1 - (30 : FExp) * Cpi 0 * pi 2 + (20 : FExp) * Cpi 1 * pi 2) *
            alpha },
    { top := (6.66666666666667 : FExp) * alpha * I3
      bot := (1 : FExp) * (-(13.3333333333333 : FExp) * Cpi 0 + (20 : FExp) * Cpi 1) * alpha
      head := (1 : FExp) * ((8.33333333333333 : FExp) * pi 0 - (20 : FExp) * pi 2 + (5 : FExp) * pi
            4) * alpha
      tail := (1 : FExp) * ((0.0833333333333334 : FExp) * Cg * T2 * pi 0 + (0.5 : FExp) * Cg * T2 *
            pi 1 + (0.416666666666667 : FExp) * Cg * T2 * pi 2 + (5 : FExp) * Cpi 0 * pi 4 -
            (20 : FExp) * Cpi 1 * pi 2) * alpha },
    { top := -(5.71428571428572 : FExp) * alpha * I3
      bot := (1 : FExp) * ((0.238095238095238 : FExp) * Cg * T2 - (20 : FExp) * Cpi 1 +
            (14.2857142857143 : FExp) * Cpi 2) * alpha
      head := (1 : FExp) * ((3.57142857142857 : FExp) * pi 0 + (7.14285714285714 : FExp) * pi 1 -
            (14.2857142857143 : FExp) * pi 2 + (7.85714285714286 : FExp) * pi 4 +
            (1.42857142857143 : FExp) * pi 5) * alpha
      tail := (1 : FExp) * ((0.0119047619047619 : FExp) * Cg * T2 * pi 0 + (0.214285714285714 :
            FExp) * Cg * T2 * pi 1 + (0.535714285714286 : FExp) * Cg * T2 * pi 2 - (5 : FExp) *
            Cpi 0 * pi 4 + (1.42857142857143 : FExp) * Cpi 0 * pi 5 + (12.8571428571429 : FExp)
            * Cpi 1 * pi 4) * alpha },
    { top := -(14.2857142857143 : FExp) * alpha * I3
      bot := (1 : FExp) * ((0.476190476190476 : FExp) * Cg * T2 - (14.2857142857143 : FExp) * Cpi
            2) * alpha
      head := (1 : FExp) * ((1.19047619047619 : FExp) * pi 0 + (7.14285714285714 : FExp) * pi 1 -
            (3.57142857142857 : FExp) * pi 2 + (5 : FExp) * pi 4 + (4.28571428571429 : FExp) *
            pi 5 + (0.238095238095238 : FExp) * pi 6) * alpha
      tail := (1 : FExp) * ((0.0476190476190471 : FExp) * Cg * T2 * pi 1 + (0.357142857142857 :
            FExp) * Cg * T2 * pi 2 + (0.119047619047619 : FExp) * Cg * T2 * pi 4 -
            (1.42857142857143 : FExp) * Cpi 0 * pi 5 + (0.238095238095238 : FExp) * Cpi 0 * pi
            6 - (12.8571428571429 : FExp) * Cpi 1 * pi 4 + (5.71428571428571 : FExp) * Cpi 1 *
            pi 5 + (17.8571428571429 : FExp) * Cpi 2 * pi 4) * alpha },
    { top := -(14.2857142857143 : FExp) * alpha * I3
      bot := (1 : FExp) * ((0.476190476190476 : FExp) * Cg * T2 - (14.2857142857143 : FExp) * Cpi
            4) * alpha
      head := (1 : FExp) * ((0.238095238095238 : FExp) * pi 0 + (4.28571428571429 : FExp) * pi 1 +
            (5 : FExp) * pi 2 - (3.57142857142857 : FExp) * pi 4 + (7.14285714285714 : FExp) *
            pi 5 + (1.19047619047619 : FExp) * pi 6) * alpha
      tail := (1 : FExp) * ((0.11904761904762 : FExp) * Cg * T2 * pi 2 + (0.357142857142857 : FExp)
            * Cg * T2 * pi 4 + (0.0476190476190476 : FExp) * Cg * T2 * pi 5 -
            (0.238095238095238 : FExp) * Cpi 0 * pi 6 - (5.71428571428572 : FExp) * Cpi 1 * pi
            5 + (1.42857142857143 : FExp) * Cpi 1 * pi 6 - (17.8571428571429 : FExp) * Cpi 2 *
            pi 4 + (12.8571428571429 : FExp) * Cpi 2 * pi 5) * alpha },
    { top := -(5.71428571428571 : FExp) * alpha * I3
      bot := (1 : FExp) * ((0.238095238095238 : FExp) * Cg * T2 + (14.2857142857143 : FExp) * Cpi
            4 - (20 : FExp) * Cpi 5) * alpha
      head := (1 : FExp) * ((1.42857142857143 : FExp) * pi 1 + (7.85714285714286 : FExp) * pi 2 -
            (14.2857142857143 : FExp) * pi 4 + (7.14285714285715 : FExp) * pi 5 +
            (3.57142857142857 : FExp) * pi 6) * alpha
      tail := (1 : FExp) * ((0.535714285714286 : FExp) * Cg * T2 * pi 4 + (0.214285714285714 :
            FExp) * Cg * T2 * pi 5 + (0.0119047619047619 : FExp) * Cg * T2 * pi 6 -
            (1.42857142857143 : FExp) * Cpi 1 * pi 6 - (12.8571428571429 : FExp) * Cpi 2 * pi 5
            + (5 : FExp) * Cpi 2 * pi 6) * alpha },
    { top := (6.66666666666667 : FExp) * alpha * I3
      bot := (1 : FExp) * ((20 : FExp) * Cpi 5 - (13.3333333333333 : FExp) * Cpi 6) * alpha
      head := (1 : FExp) * ((5 : FExp) * pi 2 - (20 : FExp) * pi 4 + (8.33333333333333 : FExp) * pi
            6) * alpha
      tail := (1 : FExp) * ((0.416666666666667 : FExp) * Cg * T2 * pi 4 + (0.5 : FExp) * Cg * T2 *
            pi 5 + (0.0833333333333333 : FExp) * Cg * T2 * pi 6 - (5 : FExp) * Cpi 2 * pi 6 +
            (20 : FExp) * Cpi 4 * pi 5) * alpha },
    { top := (13.3333333333333 : FExp) * alpha * I3
      bot := (1 : FExp) * ((13.3333333333333 : FExp) * Cpi 6) * alpha
      head := (1 : FExp) * (-(9.99999999999999 : FExp) * pi 4 - (20 : FExp) * pi 5 +
            (16.6666666666667 : FExp) * pi 6) * alpha
      tail := (1 : FExp) * ((0.666666666666667 : FExp) * Cg * T2 * pi 5 + (0.333333333333333 :
            FExp) * Cg * T2 * pi 6 - (20 : FExp) * Cpi 4 * pi 5 + (30 : FExp) * Cpi 4 * pi 6) *
            alpha },
    { top := FMat.zero
      bot := FMat.zero
      head := ((30 : FExp) * pi 4 - (60 : FExp) * pi 5 + (30 : FExp) * pi 6) * alpha
      tail := (1 : FExp) * ((1 : FExp) * Cg * T2 * pi 6 - (30 : FExp) * Cpi 4 * pi 6 + (60 : FExp)
            * Cpi 5 * pi 6) * alpha }]

end c0_dc0_ddc0_ddc1_dc1_c1

end Verif.FpW
