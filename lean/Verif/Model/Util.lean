import Verif.PyReal

/-!
# Model of `resdx/util.py`

The `*_string` formatters (lines 62-103) are in `Verif/Model/Formulas.lean`.
-/

namespace Resdx.Util

variable {K : Type} [Field K] [LinearOrder K]

/-- `limit_check`, resdx/util.py:4-17. -/
def limitCheck (value : K) (min max : Option K := none) : Py K :=
  let upper : Py K := match max with
    | some m => if m < value then .error .exception else .ok value
    | none => .ok value
  match min with
  | some m => if value < m then .error .exception else upper
  | none => upper

/-- `bracket`, resdx/util.py:20-29. -/
def bracket (value : K) (min max : Option K := none) : K :=
  let upper : K := match max with
    | some m => if m < value then m else value
    | none => value
  match min with
  | some m => if value < m then m else upper
  | none => upper

/-- `calc_biquad`, resdx/util.py:32-40. -/
def calcBiquad (coeff : List K) (in1 in2 : K) : Py K := do
  return (← pyGet coeff 0) + (← pyGet coeff 1) * in1 + (← pyGet coeff 2) * in1 * in1
    + (← pyGet coeff 3) * in2 + (← pyGet coeff 4) * in2 * in2 + (← pyGet coeff 5) * in1 * in2

/-- `calc_quad`, resdx/util.py:43-44. -/
def calcQuad (coeff : List K) (in1 : K) : Py K := do
  return (← pyGet coeff 0) + (← pyGet coeff 1) * in1 + (← pyGet coeff 2) * in1 * in1

/-- The loop of `find_nearest`, resdx/util.py:50-54: state `(closest_diff, closest_value)`. -/
def findNearestLoop (value : K) : List K → K × K → K × K
  | [], st => st
  | option :: rest, (closestDiff, closestValue) =>
    let diff := |option - value|
    if diff < closestDiff then findNearestLoop value rest (diff, option)
    else findNearestLoop value rest (closestDiff, closestValue)

/-- `find_nearest`, resdx/util.py:47-55. -/
def findNearest (array : List K) (value : K) : Py K := do
  let a0 ← pyGet array 0
  return (findNearestLoop value array (|a0 - value|, a0)).2

/-- `linear`, resdx/util.py:61-62. -/
def linear (x c0 c1 : K) : K := c0 + c1 * x
/-- `quadratic`, resdx/util.py:69-70. -/
def quadratic (x c0 c1 c2 : K) : K := c0 + c1 * x + c2 * x * x
/-- `cubic`, resdx/util.py:77-78. -/
def cubic (x c0 c1 c2 c3 : K) : K := c0 + c1 * x + c2 * x * x + c3 * x * x * x
/-- `quartic`, resdx/util.py:85-87. -/
def quartic (x c0 c1 c2 c3 c4 : K) : K :=
  let x2 := x * x
  c0 + c1 * x + c2 * x2 + c3 * x2 * x + c4 * x2 * x2

/-- `exponential`, resdx/util.py:94-95. -/
noncomputable def exponential (x c0 c1 c2 : ℝ) : Py ℝ := do
  return c0 + (← ppow c1 (c2 * x))

/-- `calculate_r_squared`, resdx/util.py:102-107. Series of different lengths raise (numpy broadcasting of a
length-one series is not modelled); a zero total sum of squares makes numpy produce nan or -inf. -/
def calculateRSquared (source regression : List K) : Py K := do
  if source.length ≠ regression.length then throw .value
  let residuals := List.zipWith (· - ·) source regression
  let ssRes := (residuals.map (fun r => r ^ 2)).sum
  let mean := source.sum / (source.length : K)
  let ssTot := (source.map (fun s => (s - mean) ^ 2)).sum
  if ssTot = 0 then throw .notReal
  return 1 - ssRes / ssTot

end Resdx.Util
