import Verif.Model.Continuous

/-!
# Time discretisation with rounded arithmetic

The two functions of src/utils.cpp:81-118 again, with a rounding function `fl` applied to the result of every
floating-point operation. With `fl = id` they are the functions of `Verif.Model.Utils`
(`computeDiscretizedTimeFl_id`, `computeDiscretizedTimeFixedFl_id`). Overflow and underflow are not modelled.
`timeStep * 2` is exact in binary arithmetic.
-/

namespace Verif

/-- The `while` loop of `computeDiscretizedTime`, src/utils.cpp:111-114. -/
noncomputable def discWhileFl (fl : ℝ → ℝ) (timeStep currentTiming : ℝ) (i : ℤ) : ℕ → ℝ → TTime → Out TTime
  | 0, _, _ => .diverge
  | fuel + 1, t, acc =>
    open Classical in
    if t < currentTiming then
      discWhileFl fl timeStep currentTiming i fuel (fl (t + timeStep)) (acc ++ [(t, i)])
    else .ok acc

/-- The `for` loop of `computeDiscretizedTime`, src/utils.cpp:105-116. -/
noncomputable def discForFl (fl : ℝ → ℝ) (timeStep : ℝ) (fuel : ℕ) : List ℝ → ℤ → ℝ → TTime → Out TTime
  | [], _, _, acc => .ok acc
  | T :: Ts, i, currentTiming, acc =>
    open Classical in
    if timeStep * 2 ≤ T then do
      let acc ← discWhileFl fl timeStep (fl (currentTiming + T)) i fuel currentTiming acc
      discForFl fl timeStep fuel Ts (i + 1) (fl (currentTiming + T)) (acc ++ [(fl (currentTiming + T), i)])
    else .assertFail

/-- `computeDiscretizedTime`, src/utils.cpp:100-118 (assertions enabled). -/
noncomputable def computeDiscretizedTimeFl (fl : ℝ → ℝ) (Ts : List ℝ) (timeStep : ℝ) (fuel : ℕ) : Out TTime :=
  discForFl fl timeStep fuel Ts 0 0 []

/-- Inner loop of `computeDiscretizedTimeFixed`, src/utils.cpp:89-92. -/
noncomputable def fixedInnerFl (fl : ℝ → ℝ) (step : ℝ) (i : ℤ) : ℕ → ℝ → ℝ × TTime
  | 0, t => (t, [])
  | n + 1, t =>
    let r := fixedInnerFl fl step i n (fl (t + step))
    (r.1, (fl (t + step), i) :: r.2)

/-- Outer loop of `computeDiscretizedTimeFixed`, src/utils.cpp:87-93. -/
noncomputable def fixedOuterFl (fl : ℝ → ℝ) (pointsPerPhase : ℕ) : List ℝ → ℤ → ℝ → TTime
  | [], _, _ => []
  | T :: Ts, i, t =>
    let r := fixedInnerFl fl (fl (T / pointsPerPhase)) i pointsPerPhase t
    r.2 ++ fixedOuterFl fl pointsPerPhase Ts (i + 1) r.1

/-- `computeDiscretizedTimeFixed`, src/utils.cpp:81-98. The total `phaseTimings.sum()` is computed by Eigen, in an
order of its own: `total` is any value. -/
noncomputable def computeDiscretizedTimeFixedFl (fl : ℝ → ℝ) (total : ℝ) (Ts : List ℝ) (pointsPerPhase : ℕ) : TTime :=
  let timeArray := (0, 0) :: fixedOuterFl fl pointsPerPhase Ts 0 0
  timeArray.dropLast ++ [(total, (Ts.length : ℤ) - 1)]

/-- Loop over the phases of the continuous formulation, src/computeCOMTraj.cpp:461-508, with rounded times. Everything else is exact.
`T` is `Ts.sum()`, computed by Eigen in an order of its own. -/
noncomputable def contLoopFl (fl : ℝ → ℝ) (pData : ProblemData) (useDD : Bool) (T : ℝ) (c ddc : List Coefs) (w : List Wp6) :
    List ℝ → ℕ → ℝ → ℕ → Asm → AsmF → Out (Asm × AsmF)
  | [], _, _, _, st, sf => .ok (st, sf)
  | D :: Ts, i, t, cSize, st, sf => do
    let cs ← extractCoefs c T t (fl (D + t))
    let ddcs ← extractCoefs ddc T t (fl (D + t))
    let ws ← extractWp6 w T t (fl (D + t))
    let r ← contPhase pData useDD i (!Ts.isEmpty) cs ddcs ws cSize st sf
    contLoopFl fl pData useDD T c ddc w Ts (i + 1) (fl (t + D)) r.1 r.2.1 r.2.2

end Verif
