import Verif.Model.Data

/-!
# Small utilities

Model of src/utils.cpp: waypoint arithmetic, Bernstein polynomials, time discretisation;
include/hpp/bezier-com-traj/utils.hh: `computeBezierCurve`.
-/

namespace Verif

/-- `waypoint_t` with its dynamic sizes (include/hpp/bezier-com-traj/utils.hh:25-47).
Coefficients are only meaningful inside the sizes. -/
structure WpDyn where
  rows : ℕ
  cols : ℕ
  first : ℕ → ℕ → ℝ
  size : ℕ
  second : ℕ → ℝ

/-- `operator+`, src/utils.cpp:16-21. -/
def WpDyn.add (w1 w2 : WpDyn) : Out WpDyn :=
  if w1.size ≠ w2.size ∨ w1.rows ≠ w2.rows ∨ w1.cols ≠ w2.cols then
    .throw "You cannot add waypoint_t of different size."
  else .ok { rows := w1.rows, cols := w1.cols, first := fun i j => w1.first i j + w2.first i j,
             size := w1.size, second := fun i => w1.second i + w2.second i }

/-- `operator-`, src/utils.cpp:23-28. -/
def WpDyn.sub (w1 w2 : WpDyn) : Out WpDyn :=
  if w1.size ≠ w2.size ∨ w1.rows ≠ w2.rows ∨ w1.cols ≠ w2.cols then
    .throw "You cannot add waypoint_t of different size."
  else .ok { rows := w1.rows, cols := w1.cols, first := fun i j => w1.first i j - w2.first i j,
             size := w1.size, second := fun i => w1.second i - w2.second i }

/-- `operator*(double, waypoint_t)`, src/utils.cpp:30-32 and its mirror image 34-36. -/
def WpDyn.scale (k : ℝ) (w : WpDyn) : WpDyn :=
  { rows := w.rows, cols := w.cols, first := fun i j => k * w.first i j,
    size := w.size, second := fun i => k * w.second i }

/-- `initwp(rows, cols)`, src/utils.cpp:9-14. -/
def WpDyn.init (rows cols : ℕ) : WpDyn :=
  { rows := rows, cols := cols, first := fun _ _ => 0, size := rows, second := fun _ => 0 }

/-- `ndcurves::Bern<double>(m, i)` (external, contract): binomial coefficient and evaluation. -/
structure Bern where
  m : ℕ
  i : ℕ

/-- Evaluation of `ndcurves::Bern` (external, contract). -/
noncomputable def Bern.eval (b : Bern) (u : ℝ) : ℝ :=
  (b.m.choose b.i : ℝ) * u ^ b.i * (1 - u) ^ (b.m - b.i)

/-- The loop `for (unsigned int i = 0; i <= degree; ++i)` of `ComputeBersteinPolynoms`,
src/utils.cpp:76-77, on 32 bit unsigned integers (the increment wraps around). -/
def bernLoop (degree : BitVec 32) : ℕ → BitVec 32 → List Bern → Out (List Bern)
  | 0, _, _ => .diverge
  | fuel + 1, i, res =>
    if i ≤ degree then bernLoop degree fuel (i + 1) (res ++ [⟨degree.toNat, i.toNat⟩])
    else .ok res

/-- `ComputeBersteinPolynoms`, src/utils.cpp:73-79. -/
def ComputeBersteinPolynoms (degree : BitVec 32) (fuel : ℕ) : Out (List Bern) :=
  bernLoop degree fuel 0 []

/-- `T_time`: pairs (time, phase index). The index is a `size_t`; the value `size() - 1` of an empty
vector is represented by `-1`. -/
abbrev TTime := List (ℝ × ℤ)

/-- Inner loop of `computeDiscretizedTimeFixed`, src/utils.cpp:89-92: returns the advanced time and
the pairs pushed. -/
noncomputable def fixedInner (step : ℝ) (i : ℤ) : ℕ → ℝ → ℝ × TTime
  | 0, t => (t, [])
  | n + 1, t =>
    let r := fixedInner step i n (t + step)
    (r.1, (t + step, i) :: r.2)

/-- Outer loop of `computeDiscretizedTimeFixed`, src/utils.cpp:87-93. With `pointsPerPhase = 0` the
division gives an infinity that is never used; here it gives 0, never used either. -/
noncomputable def fixedOuter (pointsPerPhase : ℕ) : List ℝ → ℤ → ℝ → TTime
  | [], _, _ => []
  | T :: Ts, i, t =>
    let r := fixedInner (T / pointsPerPhase) i pointsPerPhase t
    r.2 ++ fixedOuter pointsPerPhase Ts (i + 1) r.1

/-- `computeDiscretizedTimeFixed`, src/utils.cpp:81-98. -/
noncomputable def computeDiscretizedTimeFixed (Ts : List ℝ) (pointsPerPhase : ℕ) : TTime :=
  let timeArray := (0, 0) :: fixedOuter pointsPerPhase Ts 0 0
  timeArray.dropLast ++ [(Ts.sum, (Ts.length : ℤ) - 1)]

/-- The `while` loop of `computeDiscretizedTime`, src/utils.cpp:111-114. -/
noncomputable def discWhile (timeStep currentTiming : ℝ) (i : ℤ) : ℕ → ℝ → TTime → Out TTime
  | 0, _, _ => .diverge
  | fuel + 1, t, acc =>
    open Classical in
    if t < currentTiming then
      discWhile timeStep currentTiming i fuel (t + timeStep) (acc ++ [(t, i)])
    else .ok acc

/-- The `for` loop of `computeDiscretizedTime`, src/utils.cpp:105-116. -/
noncomputable def discFor (timeStep : ℝ) (fuel : ℕ) : List ℝ → ℤ → ℝ → TTime → Out TTime
  | [], _, _, acc => .ok acc
  | T :: Ts, i, currentTiming, acc =>
    open Classical in
    if timeStep * 2 ≤ T then do
      let acc ← discWhile timeStep (currentTiming + T) i fuel currentTiming acc
      discFor timeStep fuel Ts (i + 1) (currentTiming + T) (acc ++ [(currentTiming + T, i)])
    else .assertFail

/-- `computeDiscretizedTime`, src/utils.cpp:100-118 (assertions enabled). -/
noncomputable def computeDiscretizedTime (Ts : List ℝ) (timeStep : ℝ) (fuel : ℕ) : Out TTime :=
  discFor timeStep fuel Ts 0 0 []

/-- Reading `pi[i]` of a `std::vector<Point>`; outside the vector: undefined behaviour. -/
def rd (pi : List V3) (i : ℕ) : Out V3 :=
  match pi[i]? with
  | some p => .ok p
  | none => .ub

/-- A `bezier_t` over `[0, T]` (ndcurves, external): its control points, its duration and the factor
`mult_T_` by which its values are multiplied. -/
structure Bezier where
  pts : List V3
  T : ℝ
  mult : ℝ

/-- Constructor of `bezier_t` (ndcurves, contract): rejects an empty list of points and an empty
interval. -/
noncomputable def mkBezier (pts : List V3) (T mult : ℝ) : Out Bezier :=
  open Classical in
  if pts = [] ∨ T ≤ 0 then .throw "can't create bezier min bound is higher than max bound"
  else .ok { pts := pts, T := T, mult := mult }

/-- `bezier_t::zero(3, T)` (ndcurves, contract): a constant curve. -/
def Bezier.zero (T : ℝ) : Bezier := { pts := [0], T := T, mult := 1 }

/-- Evaluation of a `bezier_t` (ndcurves, contract). -/
noncomputable def Bezier.eval (c : Bezier) (t : ℝ) : V3 :=
  c.mult • bez (c.pts.length - 1) (fun i => c.pts.getD i 0) (t / c.T)

/-- Control points of the derivative of a `bezier_t`, without the factor `1 / T` (ndcurves, contract). -/
noncomputable def Bezier.derivPts (P : List V3) : List V3 :=
  List.zipWith (fun p q => ((P.length - 1 : ℕ) : ℝ) • (q - p)) P P.tail

/-- `compute_derivate(order)` (ndcurves, contract): a curve with a single point becomes the zero curve. -/
noncomputable def Bezier.computeDerivate (c : Bezier) : ℕ → Bezier
  | 0 => c
  | k + 1 =>
    if c.pts.length ≤ 1 then { pts := [0], T := c.T, mult := c.mult }
    else Bezier.computeDerivate { pts := Bezier.derivPts c.pts, T := c.T, mult := c.mult * (1 / c.T) } k

/-- `derivate(t, order)` (ndcurves, contract). -/
noncomputable def Bezier.derivate (c : Bezier) (t : ℝ) (order : ℕ) : V3 := (c.computeDerivate order).eval t

/-- `computeBezierCurve`, include/hpp/bezier-com-traj/utils.hh:112-157: the points before `x`. -/
def bezierInit (flag : Flag) (pi : List V3) : Out (List V3) :=
  if flag.has INIT_POS then do
    let p0 ← rd pi 0
    if flag.has INIT_VEL then do
      let p1 ← rd pi 1
      if flag.has INIT_ACC then do
        let p2 ← rd pi 2
        return [p0, p1, p2]
      else return [p0, p1]
    else return [p0]
  else return []

/-- `computeBezierCurve`, utils.hh:133-155: the points after `x`; `i` is the running index. -/
def bezierEnd (flag : Flag) (pi : List V3) (x : V3) (i : ℕ) : Out (List V3) :=
  if flag.has END_VEL && !flag.has END_POS then .ok [x]
  else do
    let (w, i) ← (if flag.has END_ACC then
        if flag.has END_VEL then do
          let p ← rd pi i
          return ([p], i + 1)
        else .assertFail
      else return ([], i))
    let (w, i) ← (if flag.has END_VEL then
        if flag.has END_POS then do
          let p ← rd pi i
          return (w ++ [p], i + 1)
        else .assertFail
      else return (w, i))
    if flag.has END_POS then do
      let p ← rd pi i
      return w ++ [p]
    else return w

/-- `computeBezierCurve`, include/hpp/bezier-com-traj/utils.hh:112-157. The jerk flags are not read. -/
noncomputable def computeBezierCurve (flag : Flag) (T : ℝ) (pi : List V3) (x : V3) : Out Bezier := do
  let w0 ← bezierInit flag pi
  let w1 ← bezierEnd flag pi x (w0.length + 1)
  mkBezier (w0 ++ [x] ++ w1) T 1

end Verif
