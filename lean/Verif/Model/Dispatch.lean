import Verif.Model.Data
import Verif.Waypoints.c0_dc0_c1
import Verif.Waypoints.c0_dc0_dc1
import Verif.Waypoints.c0_dc0_dc1_c1
import Verif.Waypoints.c0_dc0_ddc0
import Verif.Waypoints.c0_dc0_ddc0_c1
import Verif.Waypoints.c0_dc0_ddc0_dc1_c1
import Verif.Waypoints.c0_dc0_ddc0_ddc1_dc1_c1
import Verif.Waypoints.c0_dc0_ddc0_j0_j1_ddc1_dc1_c1
import Verif.Waypoints.c0_dc0_ddc0_j0_x3_j1_ddc1_dc1_c1
import Verif.Waypoints.c0_dc0_ddc0_j0_x5_j1_ddc1_dc1_c1
import Mathlib.Analysis.SpecialFunctions.Pow.Real

/-!
# Dispatch on the constraint flag

Model of src/waypoints_definition.cpp: every public query looks the flag up in a table
(`std::map`, exact match) and throws when it is absent. The tables are modelled as chains of
equality tests. Written by `tools/gen_dispatch.py`.
-/

namespace Verif
open Matrix

/-- include/hpp/bezier-com-traj/waypoints/waypoints_c0_dc0_c1.hh:14. -/
def c0_dc0_c1.flag : Flag :=
  INIT_POS ||| INIT_VEL ||| END_POS

/-- include/hpp/bezier-com-traj/waypoints/waypoints_c0_dc0_dc1.hh:14. -/
def c0_dc0_dc1.flag : Flag :=
  INIT_POS ||| INIT_VEL ||| END_VEL

/-- include/hpp/bezier-com-traj/waypoints/waypoints_c0_dc0_dc1_c1.hh:14. -/
def c0_dc0_dc1_c1.flag : Flag :=
  INIT_POS ||| INIT_VEL ||| END_POS ||| END_VEL

/-- include/hpp/bezier-com-traj/waypoints/waypoints_c0_dc0_ddc0.hh:14. -/
def c0_dc0_ddc0.flag : Flag :=
  INIT_POS ||| INIT_VEL ||| INIT_ACC

/-- include/hpp/bezier-com-traj/waypoints/waypoints_c0_dc0_ddc0_c1.hh:14. -/
def c0_dc0_ddc0_c1.flag : Flag :=
  INIT_POS ||| INIT_VEL ||| INIT_ACC ||| END_POS

/-- include/hpp/bezier-com-traj/waypoints/waypoints_c0_dc0_ddc0_dc1_c1.hh:14-15. -/
def c0_dc0_ddc0_dc1_c1.flag : Flag :=
  INIT_POS ||| INIT_VEL ||| INIT_ACC ||| END_VEL ||| END_POS

/-- include/hpp/bezier-com-traj/waypoints/waypoints_c0_dc0_ddc0_ddc1_dc1_c1.hh:14-15. -/
def c0_dc0_ddc0_ddc1_dc1_c1.flag : Flag :=
  INIT_POS ||| INIT_VEL ||| INIT_ACC ||| END_ACC ||| END_VEL ||| END_POS

/-- include/hpp/bezier-com-traj/waypoints/waypoints_c0_dc0_ddc0_j0_j1_ddc1_dc1_c1.hh:14-15. -/
def c0_dc0_ddc0_j0_j1_ddc1_dc1_c1.flag : Flag :=
  INIT_POS ||| INIT_VEL ||| INIT_ACC ||| END_ACC ||| END_VEL ||| END_POS ||| INIT_JERK |||
    END_JERK

/-- include/hpp/bezier-com-traj/waypoints/waypoints_c0_dc0_ddc0_j0_x3_j1_ddc1_dc1_c1.hh:14-16. -/
def c0_dc0_ddc0_j0_x3_j1_ddc1_dc1_c1.flag : Flag :=
  INIT_POS ||| INIT_VEL ||| INIT_ACC ||| END_ACC ||| END_VEL ||| END_POS ||| INIT_JERK |||
    END_JERK ||| THREE_FREE_VAR

/-- include/hpp/bezier-com-traj/waypoints/waypoints_c0_dc0_ddc0_j0_x5_j1_ddc1_dc1_c1.hh:14-16. -/
def c0_dc0_ddc0_j0_x5_j1_ddc1_dc1_c1.flag : Flag :=
  INIT_POS ||| INIT_VEL ||| INIT_ACC ||| END_ACC ||| END_VEL ||| END_POS ||| INIT_JERK |||
    END_JERK ||| FIVE_FREE_VAR

/-- Message thrown by all dispatch functions (e.g. src/waypoints_definition.cpp:75). -/
def notImplemented : String := "Current constraints set are not implemented"

/-- Indexing `pi[i]` of a `std::vector`; only used below the length checked by `withPts`. -/
def nth (l : List V3) (i : ℕ) : V3 := l.getD i 0

/-- A formula reading `pi[0] ... pi[n-1]`: out of range access when the vector is shorter. -/
noncomputable def withPts {α : Type} (n : ℕ) (pi : List V3) (f : (ℕ → V3) → α) : Out α :=
  if pi.length < n then .ub else .ok (f (nth pi))

/-- `evaluateCurveAtTime`, src/waypoints_definition.cpp:47-78. -/
noncomputable def evaluateCurveAtTime (flag : Flag) (pi : List V3) (t : ℝ) : Out Coefs :=
  if flag = c0_dc0_c1.flag then
    withPts 4 pi (fun p => c0_dc0_c1.evaluateCurveAtTime p t)
  else if flag = c0_dc0_dc1.flag then
    withPts 2 pi (fun p => c0_dc0_dc1.evaluateCurveAtTime p t)
  else if flag = c0_dc0_dc1_c1.flag then
    withPts 5 pi (fun p => c0_dc0_dc1_c1.evaluateCurveAtTime p t)
  else if flag = c0_dc0_ddc0.flag then
    withPts 3 pi (fun p => c0_dc0_ddc0.evaluateCurveAtTime p t)
  else if flag = c0_dc0_ddc0_c1.flag then
    withPts 5 pi (fun p => c0_dc0_ddc0_c1.evaluateCurveAtTime p t)
  else if flag = c0_dc0_ddc0_dc1_c1.flag then
    withPts 6 pi (fun p => c0_dc0_ddc0_dc1_c1.evaluateCurveAtTime p t)
  else if flag = c0_dc0_ddc0_ddc1_dc1_c1.flag then
    withPts 7 pi (fun p => c0_dc0_ddc0_ddc1_dc1_c1.evaluateCurveAtTime p t)
  else if flag = c0_dc0_ddc0_j0_j1_ddc1_dc1_c1.flag then
    withPts 9 pi (fun p => c0_dc0_ddc0_j0_j1_ddc1_dc1_c1.evaluateCurveAtTime p t)
  else .throw notImplemented

/-- `evaluateAccelerationCurveAtTime`, src/waypoints_definition.cpp:80-117. -/
noncomputable def evaluateAccelerationCurveAtTime (flag : Flag) (pi : List V3) (T t : ℝ) : Out Coefs :=
  if flag = c0_dc0_c1.flag then
    withPts 4 pi (fun p => c0_dc0_c1.evaluateAccelerationCurveAtTime p T t)
  else if flag = c0_dc0_dc1.flag then
    withPts 2 pi (fun p => c0_dc0_dc1.evaluateAccelerationCurveAtTime p T t)
  else if flag = c0_dc0_dc1_c1.flag then
    withPts 5 pi (fun p => c0_dc0_dc1_c1.evaluateAccelerationCurveAtTime p T t)
  else if flag = c0_dc0_ddc0.flag then
    withPts 3 pi (fun p => c0_dc0_ddc0.evaluateAccelerationCurveAtTime p T t)
  else if flag = c0_dc0_ddc0_c1.flag then
    withPts 5 pi (fun p => c0_dc0_ddc0_c1.evaluateAccelerationCurveAtTime p T t)
  else if flag = c0_dc0_ddc0_dc1_c1.flag then
    withPts 6 pi (fun p => c0_dc0_ddc0_dc1_c1.evaluateAccelerationCurveAtTime p T t)
  else if flag = c0_dc0_ddc0_ddc1_dc1_c1.flag then
    withPts 7 pi (fun p => c0_dc0_ddc0_ddc1_dc1_c1.evaluateAccelerationCurveAtTime p T t)
  else if flag = c0_dc0_ddc0_j0_j1_ddc1_dc1_c1.flag then
    withPts 9 pi (fun p => c0_dc0_ddc0_j0_j1_ddc1_dc1_c1.evaluateAccelerationCurveAtTime p T t)
  else .throw notImplemented

/-- A `waypoint_t` whose number of free points depends on the flag. -/
abbrev WpS := Σ K : ℕ, WpB K

/-- `evaluateCurveWaypointAtTime`, src/waypoints_definition.cpp:119-151. -/
noncomputable def evaluateCurveWaypointAtTime (flag : Flag) (pi : List V3) (t : ℝ) : Out WpS :=
  if flag = c0_dc0_ddc0_j0_j1_ddc1_dc1_c1.flag then
    withPts 9 pi (fun p => ⟨1, c0_dc0_ddc0_j0_j1_ddc1_dc1_c1.evaluateCurveWaypointAtTime p t⟩)
  else if flag = c0_dc0_ddc0_j0_x3_j1_ddc1_dc1_c1.flag then
    withPts 11 pi (fun p => ⟨3, c0_dc0_ddc0_j0_x3_j1_ddc1_dc1_c1.evaluateCurveWaypointAtTime p t⟩)
  else if flag = c0_dc0_ddc0_j0_x5_j1_ddc1_dc1_c1.flag then
    withPts 13 pi (fun p => ⟨5, c0_dc0_ddc0_j0_x5_j1_ddc1_dc1_c1.evaluateCurveWaypointAtTime p t⟩)
  else .throw notImplemented

/-- `evaluateVelocityCurveWaypointAtTime`, src/waypoints_definition.cpp:152-188. -/
noncomputable def evaluateVelocityCurveWaypointAtTime (flag : Flag) (pi : List V3) (T t : ℝ) : Out WpS :=
  if flag = c0_dc0_ddc0_j0_j1_ddc1_dc1_c1.flag then
    withPts 9 pi (fun p => ⟨1, c0_dc0_ddc0_j0_j1_ddc1_dc1_c1.evaluateVelocityCurveWaypointAtTime p T t⟩)
  else if flag = c0_dc0_ddc0_j0_x3_j1_ddc1_dc1_c1.flag then
    withPts 11 pi (fun p => ⟨3, c0_dc0_ddc0_j0_x3_j1_ddc1_dc1_c1.evaluateVelocityCurveWaypointAtTime p T t⟩)
  else if flag = c0_dc0_ddc0_j0_x5_j1_ddc1_dc1_c1.flag then
    withPts 11 pi (fun p => ⟨5, c0_dc0_ddc0_j0_x5_j1_ddc1_dc1_c1.evaluateVelocityCurveWaypointAtTime p T t⟩)
  else .throw notImplemented

/-- `evaluateAccelerationCurveWaypointAtTime`, src/waypoints_definition.cpp:189-227. -/
noncomputable def evaluateAccelerationCurveWaypointAtTime (flag : Flag) (pi : List V3) (T t : ℝ) : Out WpS :=
  if flag = c0_dc0_ddc0_j0_j1_ddc1_dc1_c1.flag then
    withPts 9 pi (fun p => ⟨1, c0_dc0_ddc0_j0_j1_ddc1_dc1_c1.evaluateAccelerationCurveWaypointAtTime p T t⟩)
  else if flag = c0_dc0_ddc0_j0_x3_j1_ddc1_dc1_c1.flag then
    withPts 11 pi (fun p => ⟨3, c0_dc0_ddc0_j0_x3_j1_ddc1_dc1_c1.evaluateAccelerationCurveWaypointAtTime p T t⟩)
  else if flag = c0_dc0_ddc0_j0_x5_j1_ddc1_dc1_c1.flag then
    withPts 11 pi (fun p => ⟨5, c0_dc0_ddc0_j0_x5_j1_ddc1_dc1_c1.evaluateAccelerationCurveWaypointAtTime p T t⟩)
  else .throw notImplemented

/-- `evaluateJerkCurveWaypointAtTime`, src/waypoints_definition.cpp:228-262. -/
noncomputable def evaluateJerkCurveWaypointAtTime (flag : Flag) (pi : List V3) (T t : ℝ) : Out WpS :=
  if flag = c0_dc0_ddc0_j0_j1_ddc1_dc1_c1.flag then
    withPts 9 pi (fun p => ⟨1, c0_dc0_ddc0_j0_j1_ddc1_dc1_c1.evaluateJerkCurveWaypointAtTime p T t⟩)
  else if flag = c0_dc0_ddc0_j0_x3_j1_ddc1_dc1_c1.flag then
    withPts 11 pi (fun p => ⟨3, c0_dc0_ddc0_j0_x3_j1_ddc1_dc1_c1.evaluateJerkCurveWaypointAtTime p T t⟩)
  else if flag = c0_dc0_ddc0_j0_x5_j1_ddc1_dc1_c1.flag then
    withPts 11 pi (fun p => ⟨5, c0_dc0_ddc0_j0_x5_j1_ddc1_dc1_c1.evaluateJerkCurveWaypointAtTime p T t⟩)
  else .throw notImplemented

/-- `computeConstantWaypoints`, src/waypoints_definition.cpp:264-296. `c0_dc0_dc1` throws when `dc1_.norm() != 0` (waypoints_c0_dc0_dc1.hh:53-55). -/
noncomputable def computeConstantWaypoints (flag : Flag) (d : BC) (T : ℝ) : Out (List V3) :=
  if flag = c0_dc0_c1.flag then
    .ok (c0_dc0_c1.computeConstantWaypoints d T)
  else if flag = c0_dc0_dc1.flag then
    open Classical in
    if d.dc1 ≠ 0 then .throw "Capturability not implemented for spped different than 0"
    else .ok (c0_dc0_dc1.computeConstantWaypoints d T)
  else if flag = c0_dc0_dc1_c1.flag then
    .ok (c0_dc0_dc1_c1.computeConstantWaypoints d T)
  else if flag = c0_dc0_ddc0.flag then
    .ok (c0_dc0_ddc0.computeConstantWaypoints d T)
  else if flag = c0_dc0_ddc0_c1.flag then
    .ok (c0_dc0_ddc0_c1.computeConstantWaypoints d T)
  else if flag = c0_dc0_ddc0_dc1_c1.flag then
    .ok (c0_dc0_ddc0_dc1_c1.computeConstantWaypoints d T)
  else if flag = c0_dc0_ddc0_ddc1_dc1_c1.flag then
    .ok (c0_dc0_ddc0_ddc1_dc1_c1.computeConstantWaypoints d T)
  else if flag = c0_dc0_ddc0_j0_j1_ddc1_dc1_c1.flag then
    .ok (c0_dc0_ddc0_j0_j1_ddc1_dc1_c1.computeConstantWaypoints d T)
  else if flag = c0_dc0_ddc0_j0_x3_j1_ddc1_dc1_c1.flag then
    .ok (c0_dc0_ddc0_j0_x3_j1_ddc1_dc1_c1.computeConstantWaypoints d T)
  else if flag = c0_dc0_ddc0_j0_x5_j1_ddc1_dc1_c1.flag then
    .ok (c0_dc0_ddc0_j0_x5_j1_ddc1_dc1_c1.computeConstantWaypoints d T)
  else .throw notImplemented

/-- `dimVar`, src/waypoints_definition.cpp:30-41, divided by three (number of free points). -/
def dimVarPts (flag : Flag) : ℕ :=
  if flag.has FIVE_FREE_VAR then 5
  else if flag.has FOUR_FREE_VAR then 4
  else if flag.has THREE_FREE_VAR then 3
  else if flag.has TWO_FREE_VAR then 2
  else 1

/-- Eigen's `isZero()` on a 3-vector with the default precision `1e-12`. -/
def eigenIsZero (v : V3) : Prop := ∀ k, |v k| ≤ 1e-12

/-- One iteration of the loop of `computeConstantWaypointsSymbolic`,
src/waypoints_definition.cpp:303-312: a waypoint that is (numerically) zero becomes the rectangular
identity `MatrixXX::Identity(3, DIM_VAR)` (first block the identity, the other blocks zero). -/
noncomputable def symbolicOf (K : ℕ) (p : V3) : WpB K :=
  open Classical in
  if eigenIsZero p then { first := fun j => if j.val = 0 then 1 else 0, second := 0 }
  else { first := 0, second := p }

/-- `computeConstantWaypointsSymbolic`, src/waypoints_definition.cpp:297-314. -/
noncomputable def computeConstantWaypointsSymbolic (flag : Flag) (d : BC) (T : ℝ) :
    Out (Σ K : ℕ, List (WpB K)) := do
  let pts ← computeConstantWaypoints flag d T
  return ⟨dimVarPts flag, pts.map (symbolicOf (dimVarPts flag))⟩

/-- `computeVelocityWaypoints`, src/waypoints_definition.cpp:316-345, with the defaulting of an empty `pi` and the
assertion on its size made by the three headers. -/
noncomputable def computeVelocityWaypoints (flag : Flag) (d : BC) (T : ℝ) (pi : List V3) :
    Out (Σ K : ℕ, List (WpB K)) :=
  if flag = c0_dc0_ddc0_j0_j1_ddc1_dc1_c1.flag then
    let pi := if pi.length = 0 then c0_dc0_ddc0_j0_j1_ddc1_dc1_c1.computeConstantWaypoints d T else pi
    if pi.length = 9 then .ok ⟨1, c0_dc0_ddc0_j0_j1_ddc1_dc1_c1.computeVelocityWaypoints (nth pi) T⟩ else .assertFail
  else if flag = c0_dc0_ddc0_j0_x3_j1_ddc1_dc1_c1.flag then
    let pi := if pi.length = 0 then c0_dc0_ddc0_j0_x3_j1_ddc1_dc1_c1.computeConstantWaypoints d T else pi
    if pi.length = 11 then .ok ⟨3, c0_dc0_ddc0_j0_x3_j1_ddc1_dc1_c1.computeVelocityWaypoints (nth pi) T⟩ else .assertFail
  else if flag = c0_dc0_ddc0_j0_x5_j1_ddc1_dc1_c1.flag then
    let pi := if pi.length = 0 then c0_dc0_ddc0_j0_x5_j1_ddc1_dc1_c1.computeConstantWaypoints d T else pi
    if pi.length = 13 then .ok ⟨5, c0_dc0_ddc0_j0_x5_j1_ddc1_dc1_c1.computeVelocityWaypoints (nth pi) T⟩ else .assertFail
  else .throw notImplemented

/-- `computeAccelerationWaypoints`, src/waypoints_definition.cpp:347-376, with the defaulting of an empty `pi` and the
assertion on its size made by the three headers. -/
noncomputable def computeAccelerationWaypoints (flag : Flag) (d : BC) (T : ℝ) (pi : List V3) :
    Out (Σ K : ℕ, List (WpB K)) :=
  if flag = c0_dc0_ddc0_j0_j1_ddc1_dc1_c1.flag then
    let pi := if pi.length = 0 then c0_dc0_ddc0_j0_j1_ddc1_dc1_c1.computeConstantWaypoints d T else pi
    if pi.length = 9 then .ok ⟨1, c0_dc0_ddc0_j0_j1_ddc1_dc1_c1.computeAccelerationWaypoints (nth pi) T⟩ else .assertFail
  else if flag = c0_dc0_ddc0_j0_x3_j1_ddc1_dc1_c1.flag then
    let pi := if pi.length = 0 then c0_dc0_ddc0_j0_x3_j1_ddc1_dc1_c1.computeConstantWaypoints d T else pi
    if pi.length = 11 then .ok ⟨3, c0_dc0_ddc0_j0_x3_j1_ddc1_dc1_c1.computeAccelerationWaypoints (nth pi) T⟩ else .assertFail
  else if flag = c0_dc0_ddc0_j0_x5_j1_ddc1_dc1_c1.flag then
    let pi := if pi.length = 0 then c0_dc0_ddc0_j0_x5_j1_ddc1_dc1_c1.computeConstantWaypoints d T else pi
    if pi.length = 13 then .ok ⟨5, c0_dc0_ddc0_j0_x5_j1_ddc1_dc1_c1.computeAccelerationWaypoints (nth pi) T⟩ else .assertFail
  else .throw notImplemented

/-- `computeJerkWaypoints`, src/waypoints_definition.cpp:378-407, with the defaulting of an empty `pi` and the
assertion on its size made by the three headers. -/
noncomputable def computeJerkWaypoints (flag : Flag) (d : BC) (T : ℝ) (pi : List V3) :
    Out (Σ K : ℕ, List (WpB K)) :=
  if flag = c0_dc0_ddc0_j0_j1_ddc1_dc1_c1.flag then
    let pi := if pi.length = 0 then c0_dc0_ddc0_j0_j1_ddc1_dc1_c1.computeConstantWaypoints d T else pi
    if pi.length = 9 then .ok ⟨1, c0_dc0_ddc0_j0_j1_ddc1_dc1_c1.computeJerkWaypoints (nth pi) T⟩ else .assertFail
  else if flag = c0_dc0_ddc0_j0_x3_j1_ddc1_dc1_c1.flag then
    let pi := if pi.length = 0 then c0_dc0_ddc0_j0_x3_j1_ddc1_dc1_c1.computeConstantWaypoints d T else pi
    if pi.length = 11 then .ok ⟨3, c0_dc0_ddc0_j0_x3_j1_ddc1_dc1_c1.computeJerkWaypoints (nth pi) T⟩ else .assertFail
  else if flag = c0_dc0_ddc0_j0_x5_j1_ddc1_dc1_c1.flag then
    let pi := if pi.length = 0 then c0_dc0_ddc0_j0_x5_j1_ddc1_dc1_c1.computeConstantWaypoints d T else pi
    if pi.length = 13 then .ok ⟨5, c0_dc0_ddc0_j0_x5_j1_ddc1_dc1_c1.computeJerkWaypoints (nth pi) T⟩ else .assertFail
  else .throw notImplemented

/-- `pData.contacts_.front().contactPhase_->m_gravity` (first lines of every `computeWwaypoints`):
`front()` of an empty vector and a null pointer are undefined behaviour. -/
def frontGravity (contacts : List ContactData) : Out V3 :=
  match contacts with
  | [] => .ub
  | c :: _ => match c.contactPhase with
    | none => .ub
    | some e => .ok e.gravity

/-- `computeWwaypoints`, src/waypoints_definition.cpp:409-439. -/
noncomputable def computeWwaypoints (flag : Flag) (contacts : List ContactData) (d : BC) (T : ℝ) :
    Out (List Wp6) :=
  if flag = c0_dc0_c1.flag then do
    let pi ← computeConstantWaypoints c0_dc0_c1.flag d T
    let g ← frontGravity contacts
    return c0_dc0_c1.computeWwaypoints (nth pi) g T
  else if flag = c0_dc0_dc1.flag then do
    let pi ← computeConstantWaypoints c0_dc0_dc1.flag d T
    let g ← frontGravity contacts
    return c0_dc0_dc1.computeWwaypoints (nth pi) g T
  else if flag = c0_dc0_dc1_c1.flag then do
    let pi ← computeConstantWaypoints c0_dc0_dc1_c1.flag d T
    let g ← frontGravity contacts
    return c0_dc0_dc1_c1.computeWwaypoints (nth pi) g T
  else if flag = c0_dc0_ddc0.flag then do
    let pi ← computeConstantWaypoints c0_dc0_ddc0.flag d T
    let g ← frontGravity contacts
    return c0_dc0_ddc0.computeWwaypoints (nth pi) g T
  else if flag = c0_dc0_ddc0_c1.flag then do
    let pi ← computeConstantWaypoints c0_dc0_ddc0_c1.flag d T
    let g ← frontGravity contacts
    return c0_dc0_ddc0_c1.computeWwaypoints (nth pi) g T
  else if flag = c0_dc0_ddc0_dc1_c1.flag then do
    let pi ← computeConstantWaypoints c0_dc0_ddc0_dc1_c1.flag d T
    let g ← frontGravity contacts
    return c0_dc0_ddc0_dc1_c1.computeWwaypoints (nth pi) g T
  else if flag = c0_dc0_ddc0_ddc1_dc1_c1.flag then do
    let pi ← computeConstantWaypoints c0_dc0_ddc0_ddc1_dc1_c1.flag d T
    let g ← frontGravity contacts
    return c0_dc0_ddc0_ddc1_dc1_c1.computeWwaypoints (nth pi) g T
  else if flag = c0_dc0_ddc0_j0_j1_ddc1_dc1_c1.flag then do
    let pi ← computeConstantWaypoints c0_dc0_ddc0_j0_j1_ddc1_dc1_c1.flag d T
    let g ← frontGravity contacts
    return c0_dc0_ddc0_j0_j1_ddc1_dc1_c1.computeWwaypoints (nth pi) g T
  else .throw notImplemented

/-- `computeFinalVelocityPoint`, src/waypoints_definition.cpp:441-463. -/
noncomputable def computeFinalVelocityPoint (flag : Flag) (d : BC) (T : ℝ) : Out Coefs :=
  if flag = c0_dc0_c1.flag then
    .ok (c0_dc0_c1.computeFinalVelocityPoint d (nth []) T)
  else if flag = c0_dc0_dc1.flag then do
    let pi ← computeConstantWaypoints c0_dc0_dc1.flag d T
    return c0_dc0_dc1.computeFinalVelocityPoint d (nth pi) T
  else if flag = c0_dc0_dc1_c1.flag then do
    let pi ← computeConstantWaypoints c0_dc0_dc1_c1.flag d T
    return c0_dc0_dc1_c1.computeFinalVelocityPoint d (nth pi) T
  else if flag = c0_dc0_ddc0.flag then do
    let pi ← computeConstantWaypoints c0_dc0_ddc0.flag d T
    return c0_dc0_ddc0.computeFinalVelocityPoint d (nth pi) T
  else if flag = c0_dc0_ddc0_c1.flag then
    .ok (c0_dc0_ddc0_c1.computeFinalVelocityPoint d (nth []) T)
  else if flag = c0_dc0_ddc0_dc1_c1.flag then do
    let pi ← computeConstantWaypoints c0_dc0_ddc0_dc1_c1.flag d T
    return c0_dc0_ddc0_dc1_c1.computeFinalVelocityPoint d (nth pi) T
  else if flag = c0_dc0_ddc0_ddc1_dc1_c1.flag then do
    let pi ← computeConstantWaypoints c0_dc0_ddc0_ddc1_dc1_c1.flag d T
    return c0_dc0_ddc0_ddc1_dc1_c1.computeFinalVelocityPoint d (nth pi) T
  else .throw notImplemented

/-- `H.norm()` in the three `computeVelocityCost`: Frobenius norm of the 3Kx3K matrix whose blocks
are `H a b` times the 3x3 identity. -/
noncomputable def blockNorm {K : ℕ} (H : Matrix (Fin K) (Fin K) ℝ) : ℝ :=
  Real.sqrt (∑ a, ∑ b, 3 * H a b ^ 2)

/-- Common end of the three `computeVelocityCost` functions
(e.g. waypoints_c0_dc0_ddc0_j0_x3_j1_ddc1_dc1_c1.hh:489-494). -/
noncomputable def normalizeCost {K : ℕ} (H : Matrix (Fin K) (Fin K) ℝ) (g : Fin K → V3) :
    Matrix (Fin K) (Fin K) ℝ × (Fin K → V3) :=
  (fun a b => H a b / blockNorm H, fun a k => g a k / blockNorm H)

/-- `computeVelocityCost`, src/waypoints_definition.cpp:465-497. -/
noncomputable def computeVelocityCost (flag : Flag) (d : BC) (T : ℝ) (pi : List V3) :
    Out (Σ K : ℕ, Matrix (Fin K) (Fin K) ℝ × (Fin K → V3)) :=
  if flag = c0_dc0_ddc0_j0_j1_ddc1_dc1_c1.flag then
    withPts 9 (if pi.length = 0 then c0_dc0_ddc0_j0_j1_ddc1_dc1_c1.computeConstantWaypoints d T else pi)
      (fun p => ⟨1, normalizeCost (c0_dc0_ddc0_j0_j1_ddc1_dc1_c1.velocityCostH T) (c0_dc0_ddc0_j0_j1_ddc1_dc1_c1.velocityCostG p T)⟩)
  else if flag = c0_dc0_ddc0_j0_x3_j1_ddc1_dc1_c1.flag then
    withPts 11 (if pi.length = 0 then c0_dc0_ddc0_j0_x3_j1_ddc1_dc1_c1.computeConstantWaypoints d T else pi)
      (fun p => ⟨3, normalizeCost (c0_dc0_ddc0_j0_x3_j1_ddc1_dc1_c1.velocityCostH T) (c0_dc0_ddc0_j0_x3_j1_ddc1_dc1_c1.velocityCostG p T)⟩)
  else if flag = c0_dc0_ddc0_j0_x5_j1_ddc1_dc1_c1.flag then
    withPts 13 (if pi.length = 0 then c0_dc0_ddc0_j0_x5_j1_ddc1_dc1_c1.computeConstantWaypoints d T else pi)
      (fun p => ⟨5, normalizeCost (c0_dc0_ddc0_j0_x5_j1_ddc1_dc1_c1.velocityCostH T) (c0_dc0_ddc0_j0_x5_j1_ddc1_dc1_c1.velocityCostG p T)⟩)
  else .throw notImplemented

end Verif
