import Verif.Model.Nrel
import Mathlib.Data.List.Basic

/-!
# Model of `resdx/models/tabular_data.py`

Tables are objects (`PyM (Table K)`); their cells are `Option` values (`None` until filled). A speed is an arbitrary Python
integer, so `speed - 1` may be a negative (wrapping) index. `scipy`'s `RegularGridInterpolator` is modelled by `Interp`.
-/

namespace Resdx.Tabular

open Util

variable {K : Type} [Field K] [LinearOrder K]

/-- A snapshot taken by `RegularGridInterpolator((temperatures, speeds), data)`; the speeds are `1 … nSpeeds`. -/
structure Interp (K : Type) where
  temps : List K
  nSpeeds : Nat
  values : List (List K)
  deriving DecidableEq

/-- `TemperatureSpeedPerformanceTable`, resdx/models/tabular_data.py:14-29. `speeds` is always `[1, …, nSpeeds]` and never changes,
so only its length is kept. `interpolator = none`: the attribute has not been assigned. -/
structure Table (K : Type) where
  temperatures : List K
  nSpeeds : Nat
  data : List (List (Option K))
  interpolator : Option (Interp K) := none
  deriving DecidableEq

/-- `TemperatureSpeedPerformanceTable.__init__`, resdx/models/tabular_data.py:15-29. -/
def Table.init (temperatures : List K) (n : Nat) (dataIn : Option (List (List (Option K))) := none) : Table K :=
  { temperatures := temperatures
    nSpeeds := n
    data := match dataIn with
      | none => List.replicate temperatures.length (List.replicate n none)
      | some d => d }

/-- Python `l.index(x)`. -/
def pyIndex (l : List K) (x : K) : Py Nat :=
  match l with
  | [] => .error .value
  | a :: rest => if a = x then .ok 0 else do return (← pyIndex rest x) + 1

/-- `data[t][s]`. -/
def cell (data : List (List (Option K))) (t s : Int) : Py (Option K) := do
  pyGetI (← pyGetI data t) s

/-- The data after `data[t][s] = v`. -/
def setCell (data : List (List (Option K))) (t s : Int) (v : Option K) : Py (List (List (Option K))) := do
  let row ← pyGetI data t
  pySetI data t (← pySetI row s v)

/-- `a - b` on cells: `None` raises `TypeError`. -/
def osub (a b : Option K) : Py K := do return (← pyNum a) - (← pyNum b)

namespace Table

/-- `self.data[t][s] = v`. -/
def store (t s : Int) (v : Option K) : PyM (Table K) Unit := do
  let self ← PyM.get
  let d ← setCell self.data t s v
  PyM.modify fun self => { self with data := d }

/-- `set`, resdx/models/tabular_data.py:31-34. -/
def set (speed : Int) (temperature value : K) : PyM (Table K) Unit := do
  let self ← PyM.get
  let ti ← pyIndex self.temperatures temperature
  store ti (speed - 1) (some value)

/-- `get`, resdx/models/tabular_data.py:36-39. -/
def get (self : Table K) (speed : Int) (temperature : K) : Py (Option K) := do
  let ti ← pyIndex self.temperatures temperature
  cell self.data ti (speed - 1)

/-- `set_by_ratio`, resdx/models/tabular_data.py:41-55. -/
def setByRatio (speed : Int) (temperature ratio : K) : PyM (Table K) Unit := do
  let self ← PyM.get
  let si := speed - 1
  let ti ← pyIndex self.temperatures temperature
  let maxIndex : Int := (self.nSpeeds : Int) - 1
  if si = maxIndex then do
    let c ← pyNum (← cell self.data ti (si - 1))
    let v ← pdiv c ratio
    store ti si (some v)
  else do
    let c ← pyNum (← cell self.data ti maxIndex)
    store ti si (some (c * ratio))

/-- `get_ratio`, resdx/models/tabular_data.py:57-64. -/
def getRatio (self : Table K) (speed : Int) (temperature : K) : Py K := do
  let ti ← pyIndex self.temperatures temperature
  let a ← cell self.data ti (speed - 1)
  let b ← cell self.data ti ((self.nSpeeds : Int) - 1)
  pdiv (← pyNum a) (← pyNum b)

/-- The value stored by `set_by_interpolation`, resdx/models/tabular_data.py:75-79. -/
def interpolationValue (data : List (List (Option K))) (t1 t2 s0 s1 s2 : Int) : Py K := do
  let a ← cell data t1 s0
  let d21 ← osub (← cell data t2 s1) (← cell data t2 s0)
  let d22 ← osub (← cell data t2 s2) (← cell data t2 s0)
  let q ← pdiv d21 d22
  let d12 ← osub (← cell data t1 s2) (← cell data t1 s0)
  return (← pyNum a) + q * d12

/-- `set_by_interpolation`, resdx/models/tabular_data.py:66-79. -/
def setByInterpolation (speed : Int) (temperature : K) : PyM (Table K) Unit := do
  let self ← PyM.get
  let s1 := speed - 1
  let ti ← pyIndex self.temperatures temperature
  let v ← interpolationValue self.data ti ((ti : Int) + 1) (s1 - 1) s1 (s1 + 1)
  store ti s1 (some v)

end Table

/-- `bisect.bisect_right` (CPython's binary search) on positions `lo ≤ i < hi`; `fuel` bounds the iterations and is always enough
when it is at least `hi - lo`. -/
def bisectRight (l : List K) (x : K) : Nat → Nat → Nat → Nat
  | 0, lo, _ => lo
  | fuel + 1, lo, hi =>
    if lo < hi then
      if x < l.getD ((lo + hi) / 2) x then bisectRight l x fuel lo ((lo + hi) / 2)
      else bisectRight l x fuel ((lo + hi) / 2 + 1) hi
    else lo

/-- Python `l.insert(i, x)` for `i ≥ 0`. -/
def pyInsert {α : Type} (l : List α) (i : Nat) (x : α) : List α := l.take i ++ x :: l.drop i

/-- `bisect.insort`. -/
def insort (l : List K) (x : K) : List K := pyInsert l (bisectRight l x l.length 0 l.length) x

namespace Table

/-- The body of the loops of `add_temperature`: compute the value of one speed and store it. -/
def fillCell (ti : Nat) (value : List (List (Option K)) → Int → Py (Option K)) (si : Nat) : PyM (Table K) Unit := do
  let self ← PyM.get
  let v ← value self.data si
  store ti si v

/-- `for speed in self.speeds: …` of `add_temperature`. -/
def fillRow (ti : Nat) (value : List (List (Option K)) → Int → Py (Option K)) : List Nat → PyM (Table K) Unit
  | [] => pure ()
  | si :: rest => do
    fillCell ti value si
    fillRow ti value rest

/-- Value for a temperature below the table, resdx/models/tabular_data.py:103-112 (`t_i = 0`). -/
def belowValue (t0 t1 t2 : K) (extrapolate : Bool) (limit : Option K) (data : List (List (Option K))) (si : Int) : Py (Option K) :=
  if extrapolate then do
    let a ← cell data 1 si
    let d ← osub (← cell data 2 si) (← cell data 1 si)
    let q ← pdiv d (t2 - t1)
    let value := (← pyNum a) - q * (t1 - t0)
    match limit with
    | some l => return some (max value ((← pyNum (← cell data 1 si)) * l))
    | none => return some value
  else cell data 1 si

/-- Value for a temperature above the table, resdx/models/tabular_data.py:123-132. -/
def aboveValue (t tm1 tm2 : K) (ti : Nat) (extrapolate : Bool) (limit : Option K) (data : List (List (Option K)))
    (si : Int) : Py (Option K) :=
  if extrapolate then do
    let a ← cell data ((ti : Int) - 1) si
    let d ← osub (← cell data ((ti : Int) - 1) si) (← cell data ((ti : Int) - 2) si)
    let q ← pdiv d (tm1 - tm2)
    let value := (← pyNum a) + q * (t - tm1)
    match limit with
    | some l => return some (min value ((← pyNum (← cell data ((ti : Int) - 1) si)) * l))
    | none => return some value
  else cell data ((ti : Int) - 1) si

/-- Value for a temperature inside the table, resdx/models/tabular_data.py:143-145. The second abscissa is `temperatures[1]`,
as in the code. -/
def insideValue (t tm1 t1 : K) (ti : Nat) (data : List (List (Option K))) (si : Int) : Py (Option K) := do
  let a ← cell data ((ti : Int) - 1) si
  let d ← osub (← cell data ((ti : Int) + 1) si) (← cell data ((ti : Int) - 1) si)
  let q ← pdiv d (t1 - tm1)
  return some ((← pyNum a) + q * (t - tm1))

/-- The part of `add_temperature` after the insertions, resdx/models/tabular_data.py:97-145. -/
def fillNew (temperature : K) (extrapolate : Bool) (limit : Option K) (ti : Nat) : PyM (Table K) Unit := do
  let self ← PyM.get
  let temps := self.temperatures
  let speeds := List.range self.nSpeeds
  if ti = 0 then do
    let t1 ← pyGetI temps 1
    let t2 ← pyGetI temps 2
    fillRow ti (belowValue temperature t1 t2 extrapolate limit) speeds
  else if ti = temps.length - 1 then do
    let tm1 ← pyGetI temps ((ti : Int) - 1)
    let tm2 ← pyGetI temps ((ti : Int) - 2)
    fillRow ti (aboveValue temperature tm1 tm2 ti extrapolate limit) speeds
  else do
    let tm1 ← pyGetI temps ((ti : Int) - 1)
    let t1 ← pyGetI temps 1
    fillRow ti (insideValue temperature tm1 t1 ti) speeds

/-- The insertions of `add_temperature`, resdx/models/tabular_data.py:91-94. -/
def insertEmpty (temperature : K) : PyM (Table K) Nat := do
  PyM.modify fun self => { self with temperatures := insort self.temperatures temperature }
  let self ← PyM.get
  let ti ← pyIndex self.temperatures temperature
  PyM.modify fun self => { self with data := pyInsert self.data ti (List.replicate self.nSpeeds none) }
  return ti

/-- `add_temperature`, resdx/models/tabular_data.py:81-145. -/
def addTemperature (temperature : K) (extrapolate : Bool := true) (limit : Option K := none) : PyM (Table K) Unit := do
  let self ← PyM.get
  if temperature ∈ self.temperatures then PyM.raise .runtime
  else do
    let ti ← insertEmpty temperature
    fillNew temperature extrapolate limit ti

/-- `get_maintenance`, resdx/models/tabular_data.py:152-161. -/
def getMaintenance (self : Table K) (speed : Int) (temperature reference : K) : Py K := do
  let ti ← pyIndex self.temperatures temperature
  let ri ← pyIndex self.temperatures reference
  let a ← cell self.data ti (speed - 1)
  let b ← cell self.data ri (speed - 1)
  pdiv (← pyNum a) (← pyNum b)

/-- The two subclasses differ in the direction of `set_by_maintenance`. -/
inductive Kind
  /-- `TemperatureSpeedCoolingPerformanceTable` -/
  | cooling
  /-- `TemperatureSpeedHeatingPerformanceTable` -/
  | heating
  deriving DecidableEq

/-- The direction test of `set_by_maintenance`, resdx/models/tabular_data.py:192 and 209. -/
def Kind.multiplies (k : Kind) (ti ri : Nat) : Prop :=
  match k with
  | .cooling => ri < ti
  | .heating => ti < ri

instance (k : Kind) (ti ri : Nat) : Decidable (k.multiplies ti ri) := by
  cases k <;> exact inferInstanceAs (Decidable (_ < _))

/-- `set_by_maintenance`, resdx/models/tabular_data.py:185-199 (cooling) and 202-216 (heating). -/
def setByMaintenance (k : Kind) (speed : Int) (temperature reference ratio : K) : PyM (Table K) Unit := do
  let self ← PyM.get
  let si := speed - 1
  let ti ← pyIndex self.temperatures temperature
  let ri ← pyIndex self.temperatures reference
  let c ← pyNum (← cell self.data ri si)
  if k.multiplies ti ri then store ti si (some (c * ratio))
  else do
    let v ← pdiv c ratio
    store ti si (some v)

end Table

/-! ## Interpolation -/

/-- Straight line through `(x0, y0)` and `(x1, y1)` as scipy weights it: `y0·(1-w) + y1·w`, `w = (x - x0)/(x1 - x0)`. -/
def lerp (x0 x1 y0 y1 x : K) : K := y0 * (1 - (x - x0) / (x1 - x0)) + y1 * ((x - x0) / (x1 - x0))

/-- scipy's `find_interval`: the segment of the grid containing `x`, the outermost one if `x` is outside. -/
def interval (grid : List K) (x : K) : Nat := ((grid.drop 1).dropLast.takeWhile (· ≤ x)).length

/-- Linear interpolation on one axis with linear extrapolation; an axis with one point is constant. -/
def interp1 (grid values : List K) (x : K) : K :=
  if grid.length ≤ 1 then values.getD 0 0
  else
    lerp (grid.getD (interval grid x) 0) (grid.getD (interval grid x + 1) 0)
      (values.getD (interval grid x) 0) (values.getD (interval grid x + 1) 0) x

/-- The speed axis `[1, …, n]`. -/
def speedGrid (n : Nat) : List K := (List.range n).map fun (k : Nat) => (k : K) + 1

/-- `interpolator([temperature, speed])[0]`: bilinear, i.e. linear over speed in the rows and linear over temperature between them. -/
def Interp.eval (f : Interp K) (speed temperature : K) : K :=
  interp1 f.temps (f.values.map fun row => interp1 (speedGrid f.nSpeeds) row speed) temperature

/-- All cells of a row, if none is `None`. -/
def fullRow : List (Option K) → Py (List K)
  | [] => .ok []
  | none :: _ => .error .notReal
  | some v :: rest => do return v :: (← fullRow rest)

/-- All cells of the table, if none is `None` (numpy turns `None` into NaN, modelled as `notReal`). -/
def fullData : List (List (Option K)) → Py (List (List K))
  | [] => .ok []
  | row :: rest => do
    let r ← fullRow row
    return r :: (← fullData rest)

/-- `RegularGridInterpolator.__init__`: the shape of the data must match the axes, and the axes must be strictly increasing
(scipy also accepts strictly decreasing axes; not modelled). -/
def Interp.make (temps : List K) (n : Nat) (data : List (List (Option K))) : Py (Interp K) :=
  if data.length = temps.length ∧ (∀ row ∈ data, row.length = n) ∧ temps.Pairwise (· < ·) ∧ temps ≠ [] ∧ n ≠ 0 then do
    let values ← fullData data
    return { temps := temps, nSpeeds := n, values := values }
  else .error .value

namespace Table

/-- `set_interpolator`, resdx/models/tabular_data.py:163-170. -/
def setInterpolator : PyM (Table K) Unit := do
  let self ← PyM.get
  let f ← Interp.make self.temperatures self.nSpeeds self.data
  PyM.modify fun self => { self with interpolator := some f }

/-- `calculate`, resdx/models/tabular_data.py:172-173. -/
def calculate (self : Table K) (speed temperature : K) : Py K := do
  let f ← pyAttr self.interpolator
  return f.eval speed temperature

/-- One step of the correction loop, resdx/models/tabular_data.py:178-180. -/
def correctCell (fanPowers : List K) (ti si : Nat) : PyM (Table K) Unit := do
  let self ← PyM.get
  let v ← pyNum (← cell self.data ti si)
  let p ← pyGetI fanPowers si
  store ti si (some (v - p))
  if 0 < v - p then pure () else PyM.raise .assertion

/-- The correction loop in reading order. -/
def correctCells (fanPowers : List K) : List (Nat × Nat) → PyM (Table K) Unit
  | [] => pure ()
  | (ti, si) :: rest => do
    correctCell fanPowers ti si
    correctCells fanPowers rest

/-- The positions `enumerate` visits: row by row. -/
def positions (data : List (List (Option K))) : List (Nat × Nat) :=
  (data.zipIdx).flatMap fun r => (List.range r.1.length).map fun s => (r.2, s)

/-- `apply_fan_power_correction`, resdx/models/tabular_data.py:175-182. -/
def applyFanPowerCorrection (fanPowers : List K) : PyM (Table K) Unit := do
  let self ← PyM.get
  if fanPowers.length = self.nSpeeds then do
    correctCells fanPowers (positions self.data)
    setInterpolator
  else PyM.raise .assertion

end Table

/-! ## The four tables of a unit -/

/-- `TemperatureSpeedPerformance`, resdx/models/tabular_data.py:219-248. The derived counts are the sizes of the capacity tables. -/
structure Perf (K : Type) where
  coolingCapacities : Table K
  coolingPowers : Table K
  heatingCapacities : Table K
  heatingPowers : Table K
  deriving DecidableEq

namespace Perf

/-- `TemperatureSpeedPerformance.__init__`, resdx/models/tabular_data.py:221-248. -/
def init (qc pc qh ph : Table K) : Py (Perf K) :=
  if pc.nSpeeds ≠ qc.nSpeeds then .error .runtime
  else if pc.temperatures.length ≠ qc.temperatures.length then .error .runtime
  else if ph.nSpeeds ≠ qh.nSpeeds then .error .runtime
  else if ph.temperatures.length ≠ qh.temperatures.length then .error .runtime
  else .ok ⟨qc, pc, qh, ph⟩

/-- numpy division: a zero denominator gives inf or nan, modelled as `notReal`. -/
def ndiv (a b : K) : Py K := if b = 0 then .error .notReal else .ok (a / b)

/-- `cooling_capacity`, resdx/models/tabular_data.py:250-251. -/
def coolingCapacity (self : Perf K) (speed : K := 2) (temperature : K := frF 95) : Py K :=
  self.coolingCapacities.calculate speed temperature
/-- `cooling_power`, resdx/models/tabular_data.py:253-254. -/
def coolingPower (self : Perf K) (speed : K := 2) (temperature : K := frF 95) : Py K :=
  self.coolingPowers.calculate speed temperature
/-- `cooling_cop`, resdx/models/tabular_data.py:256-259. -/
def coolingCop (self : Perf K) (speed : K := 2) (temperature : K := frF 95) : Py K := do
  ndiv (← self.coolingCapacity speed temperature) (← self.coolingPower speed temperature)
/-- `heating_capacity`, resdx/models/tabular_data.py:261-262. -/
def heatingCapacity (self : Perf K) (speed : K := 2) (temperature : K := frF 47) : Py K :=
  self.heatingCapacities.calculate speed temperature
/-- `heating_power`, resdx/models/tabular_data.py:264-265. -/
def heatingPower (self : Perf K) (speed : K := 2) (temperature : K := frF 47) : Py K :=
  self.heatingPowers.calculate speed temperature
/-- `heating_cop`, resdx/models/tabular_data.py:267-270. -/
def heatingCop (self : Perf K) (speed : K := 2) (temperature : K := frF 47) : Py K := do
  ndiv (← self.heatingCapacity speed temperature) (← self.heatingPower speed temperature)

/-- Run a method of one of the four tables. -/
def onQc (m : PyM (Table K) Unit) : PyM (Perf K) Unit :=
  PyM.zoom coolingCapacities (fun t s => { s with coolingCapacities := t }) m
/-- Run a method of one of the four tables. -/
def onPc (m : PyM (Table K) Unit) : PyM (Perf K) Unit :=
  PyM.zoom coolingPowers (fun t s => { s with coolingPowers := t }) m
/-- Run a method of one of the four tables. -/
def onQh (m : PyM (Table K) Unit) : PyM (Perf K) Unit :=
  PyM.zoom heatingCapacities (fun t s => { s with heatingCapacities := t }) m
/-- Run a method of one of the four tables. -/
def onPh (m : PyM (Table K) Unit) : PyM (Perf K) Unit :=
  PyM.zoom heatingPowers (fun t s => { s with heatingPowers := t }) m

/-- `make_gross`, resdx/models/tabular_data.py:272-282. The four tables are distinct objects (they are in every builder). -/
def makeGross (coolingFanPowers heatingFanPowers : List K) : PyM (Perf K) Unit := do
  onQc (Table.applyFanPowerCorrection (coolingFanPowers.map (- ·)))
  onPc (Table.applyFanPowerCorrection coolingFanPowers)
  onQh (Table.applyFanPowerCorrection heatingFanPowers)
  onPh (Table.applyFanPowerCorrection heatingFanPowers)

end Perf

end Resdx.Tabular
