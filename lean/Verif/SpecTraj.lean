import Verif.Model.Data

/-!
# Specification of trajectories

What a user expects from the curves: boundary conditions, position of the free control
points, wrench required by a motion. Only input data types of the model are used here.
-/

namespace Verif

/-- The curve `c`, traversed over `[0,T]`, satisfies every boundary condition requested by the
flag bits: bit 0,1,2,6 = initial position, velocity, acceleration, jerk;
bit 3,4,5,7 = final ones. -/
def MeetsBoundary (flag : BitVec 32) (d : BC) (c : ℝ → V3) (T : ℝ) : Prop :=
  ∃ v a j : ℝ → V3, IsDeriv c v ∧ IsDeriv v a ∧ IsDeriv a j ∧
    (flag.getLsbD 0 = true → c 0 = d.c0) ∧ (flag.getLsbD 1 = true → v 0 = d.dc0) ∧
    (flag.getLsbD 2 = true → a 0 = d.ddc0) ∧ (flag.getLsbD 6 = true → j 0 = d.j0) ∧
    (flag.getLsbD 3 = true → c T = d.c1) ∧ (flag.getLsbD 4 = true → v T = d.dc1) ∧
    (flag.getLsbD 5 = true → a T = d.ddc1) ∧ (flag.getLsbD 7 = true → j T = d.j1)

/-- Indices of the control points that are free, for each supported flag value (the documented
layout of the control polygon in the headers). -/
def freeSlots (flag : BitVec 32) : List ℕ :=
  if flag = 11#32 then [2]            -- c0 dc0 x c1
  else if flag = 19#32 then [2, 3]    -- c0 dc0 x x
  else if flag = 27#32 then [2]       -- c0 dc0 x dc1 c1
  else if flag = 7#32 then [3]        -- c0 dc0 ddc0 x
  else if flag = 15#32 then [3]       -- c0 dc0 ddc0 x c1
  else if flag = 31#32 then [3]       -- c0 dc0 ddc0 x dc1 c1
  else if flag = 63#32 then [3]       -- c0 dc0 ddc0 x ddc1 dc1 c1
  else if flag = 255#32 then [4]      -- ... j0 x j1 ...
  else if flag = 767#32 then [4, 5, 6]
  else if flag = 2303#32 then [4, 5, 6, 7, 8]
  else []

/-- The control polygon with all free slots set to the single free point `x`. -/
noncomputable def fill (flag : BitVec 32) (p : ℕ → V3) (x : V3) : ℕ → V3 :=
  fun i => if i ∈ freeSlots flag then x else p i

/-- The control polygon with the free slots set, in order, to the free points `X 0, X 1, ...`. -/
noncomputable def fillMany (flag : BitVec 32) (p : ℕ → V3) (X : ℕ → V3) : ℕ → V3 :=
  fun i => if i ∈ freeSlots flag then X (i - (freeSlots flag).headD 0) else p i

/-- First three rows of a 6x3 waypoint (matrix, vector), evaluated at `x`. -/
def Wp6.headAt (w : Wp6) (x : V3) : V3 := w.top.mulVec x + w.head

/-- Last three rows of a 6x3 waypoint (matrix, vector), evaluated at `x`. -/
def Wp6.tailAt (w : Wp6) (x : V3) : V3 := w.bot.mulVec x + w.tail

instance : Inhabited Wp6 := ⟨⟨0, 0, 0, 0⟩⟩

/-- The 6D Bezier curve on a list of waypoints evaluated at `x`, first three components. -/
noncomputable def headCurve (ws : List Wp6) (x : V3) (t : ℝ) : V3 :=
  bez (ws.length - 1) (fun i => (ws[i]!).headAt x) t

/-- The 6D Bezier curve on a list of waypoints evaluated at `x`, last three components. -/
noncomputable def tailCurve (ws : List Wp6) (x : V3) (t : ℝ) : V3 :=
  bez (ws.length - 1) (fun i => (ws[i]!).tailAt x) t

/-- Rotational part of the (mass-normalised) gravito-inertial wrench of a body at `c` with
acceleration `a` under gravity `g`: `c x a + g x c = c x (a - g)`. -/
noncomputable def wrenchTail (g c a : V3) : V3 := cr c a + cr g c

/-- A waypoint with `K` free points, evaluated at the free points `X 0 ... X (K-1)`. -/
noncomputable def WpB.at {K : ℕ} (w : WpB K) (X : ℕ → V3) : V3 :=
  ∑ j : Fin K, w.first j • X j.val + w.second

instance (K : ℕ) : Inhabited (WpB K) := ⟨⟨0, 0⟩⟩

/-- The Bezier curve on a list of waypoints evaluated at the free points `X`. -/
noncomputable def wpCurve {K : ℕ} (ws : List (WpB K)) (X : ℕ → V3) (t : ℝ) : V3 :=
  bez (ws.length - 1) (fun i => (ws[i]!).at X) t

/-- The seven constraint sets of the CoM planner. -/
def comFlags : List (BitVec 32) := [11#32, 19#32, 27#32, 7#32, 15#32, 31#32, 63#32]

/-- Degree of the curve of each set. -/
def degreeOf (flag : BitVec 32) : ℕ :=
  if flag = 11#32 then 3 else if flag = 19#32 then 3 else if flag = 27#32 then 4
  else if flag = 7#32 then 3 else if flag = 15#32 then 4 else if flag = 31#32 then 5
  else if flag = 63#32 then 6 else if flag = 255#32 then 8 else if flag = 767#32 then 10
  else if flag = 2303#32 then 12 else 0

end Verif
