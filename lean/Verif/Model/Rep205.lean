import Verif.Model.System
import Verif.Model.DXUnit
import Verif.Model.Units

/-!
# Model of `DXUnit.generate_205_representation`

The numbers, axis values, labels and identifiers of the ASHRAE 205 representation of a unit. Constant strings, the time stamp and the
metadata copied from the unit are left out.
-/

namespace Resdx.Rep205

variable {K : Type} [Field K] [LinearOrder K]

/-- `numpy.linspace(a, b, 4).tolist()`, resdx/dx_unit.py:1442-1467 (exact arithmetic). -/
def linspace4 (a b : K) : List K := (List.range 4).map fun (k : Nat) => a + k * ((b - a) / 3)

/-- `grid_variables` of the cooling map, resdx/dx_unit.py:1469-1476. -/
structure Axes (K : Type) where
  outdoorDb : List K
  indoorRh : List K
  indoorDb : List K
  massFlow : List K
  sequence : List Nat
  pressure : List K
  deriving DecidableEq

/-- The axes, resdx/dx_unit.py:1441-1467. `n` is `number_of_cooling_speeds`, `rho` is `STANDARD_CONDITIONS.rho`. -/
def axes (u : Units K) (rho : K) (netCooling : List K) (n : Nat) : Py (Axes K) := do
  let last ← pyGetI netCooling (-1)
  let first ← pyGet netCooling 0
  return { outdoorDb := linspace4 (frF 55) (frF 125), indoorRh := linspace4 0 1, indoorDb := linspace4 (frF 65) (frF 90)
           massFlow := linspace4 (280 * (u.cfm / u.ton) * last * rho) (500 * (u.cfm / u.ton) * first * rho)
           sequence := (List.range n).map (· + 1), pressure := linspace4 57226.508 106868.78 }

/-- A `for` loop whose body appends to the lookup variables: what one pass over `l` appends. -/
def forAppend {α β : Type} (l : List α) (body : α → Py (List β)) : Py (List β) := do
  let parts ← l.mapM body
  return parts.flatten

/-- The operating condition of a grid point, resdx/dx_unit.py:1493-1503: the inside of the innermost loop up to `set_mass_airflow`. -/
def gridCondition (E : Env K) (S : Sys K) (tOut rh tIn m : K) (speed : Nat) (p : K) : Py (Conditions K) := do
  let outdoor ← Psych.init E.lib tOut p [("rel_hum", 0.4)]
  let indoor ← Psych.init E.lib tIn p [("rel_hum", rh)]
  let c ← S.makeCondition E false speed (some indoor) (some outdoor)
  let flow ← (Cond.setMassAirflow m).exec c.flow
  return { c with flow }

/-- One entry of the lookup variables. -/
structure Entry (K : Type) where
  total : K
  sensible : K
  power : K
  state : String
  deriving DecidableEq

/-- The body of the innermost loop, resdx/dx_unit.py:1493-1514. -/
def entry (E : Env K) (S : Sys K) (U : DX.Performance (Conditions K) K) (tOut rh tIn m : K) (speed : Nat) (p : K) : Py (Entry K) := do
  let c ← gridCondition E S tOut rh tIn m speed p
  let total ← U.grossTotalCoolingCapacity (some c)
  let sensible ← U.grossSensibleCoolingCapacity (some c)
  let power ← U.grossCoolingPower (some c)
  return { total, sensible, power, state := "NORMAL" }

/-- The six nested loops, resdx/dx_unit.py:1483-1514. -/
def coolingMap (E : Env K) (S : Sys K) (U : DX.Performance (Conditions K) K) (n : Nat) (A : Axes K) : Py (List (Entry K)) :=
  forAppend A.outdoorDb fun tOut =>
    forAppend A.indoorRh fun rh =>
      forAppend A.indoorDb fun tIn =>
        forAppend A.massFlow fun m =>
          forAppend (A.sequence.map fun k => n - k) fun speed =>
            forAppend A.pressure fun p => do
              let e ← entry E S U tOut rh tIn m speed p
              return [e]

/-- The attributes of the unit read by the method apart from its performance. -/
structure Attributes (K : Type) where
  /-- `number_of_cooling_speeds` -/
  nCooling : Nat
  cdCooling : K
  crankcaseSetpoint : K
  crankcaseCapacity : K
  deriving DecidableEq

/-- The numbers and labels of the representation. The lookup variables are written as one list of entries (in the source, four lists filled in
step). -/
structure Rep (K F : Type) where
  /-- capacity in kBtu/h, COP and sensible heat ratio quoted in the description -/
  capacity : K
  cop : K
  shr : K
  axes : Axes K
  map : List (Entry K)
  controlType : String
  cyclingDegradation : K
  standbyTemperature : List K
  standbyPower : List K
  fan : F
  deriving DecidableEq

/-- `generate_205_representation`, resdx/dx_unit.py:1410-1575, without the identifiers. `fan` is the result of
`self.fan.generate_205_representation()`, which is called after the cooling map. -/
def representation {F : Type} (u : Units K) (E : Env K) (S : Sys K) (U : DX.Performance (Conditions K) K) (B : Attributes K) (fan : Py F) :
    Py (Rep K F) := do
  let capacity ← U.grossTotalCoolingCapacity none
  let cop ← U.grossTotalCoolingCOP none
  let shr ← U.grossSHR none
  let A ← axes u E.rhoStd S.netCooling B.nCooling
  let map ← coolingMap E S U B.nCooling A
  let fan ← fan
  return { capacity := capacity / (1000 * u.btuh), cop, shr, axes := A, map
           controlType := if B.nCooling < 3 then "DISCRETE" else "CONTINUOUS"
           cyclingDegradation := B.cdCooling
           standbyTemperature := [B.crankcaseSetpoint + -(1 / 2), B.crankcaseSetpoint + 1 / 2]
           standbyPower := [B.crankcaseCapacity, 0], fan }

/-! ## Identifiers -/

/-- What the identifiers depend on besides the objects: Python's `random.Random` with `uuid.UUID(.., version=4)`, a function of the seed, and the
hashes of a running interpreter (`hash(unit)`, `hash(fan)` and the hash of a pair of strings). -/
structure Hashes where
  /-- identifier from an integer seed -/
  uuidOfInt : Int → String
  /-- identifier from a string seed -/
  uuidOfStr : String → String
  unit : Int
  fan : Int
  pair : String → String → Int

/-- `metadata.uuid_seed` of the unit and of its fan. -/
structure Seeds where
  unit : Option Int
  fan : Option Int
  deriving DecidableEq

/-- The identifiers of the RS0002, RS0004, RS0003 and RS0005 parts. -/
structure Ids where
  unitary : String
  coil : String
  fan : String
  motor : String
  deriving DecidableEq

/-- The first identifier of the unit, resdx/dx_unit.py:1412-1416: the seed is stored when it was `None`. -/
def coilId (H : Hashes) : PyM Seeds String := do
  let s ← PyM.get
  if s.unit = none then PyM.modify fun s => { s with unit := some H.unit }
  let seed ← pyNum (← PyM.get).unit
  return H.uuidOfInt seed

/-- The identifiers of the fan and its motor, resdx/fan.py:221-225 and 248-256. -/
def fanIds (H : Hashes) : PyM Seeds (String × String) := do
  let s ← PyM.get
  if s.fan = none then PyM.modify fun s => { s with fan := some H.fan }
  let seed ← pyNum (← PyM.get).fan
  return (H.uuidOfInt seed, H.uuidOfStr (H.uuidOfInt seed))

/-- The identifiers of a representation, resdx/dx_unit.py:1412-1416 and 1543-1549, in the order they are drawn. -/
def identifiers (H : Hashes) : PyM Seeds Ids := do
  let coil ← coilId H
  let (fan, motor) ← fanIds H
  return { unitary := H.uuidOfInt (H.pair coil fan), coil, fan, motor }

end Resdx.Rep205
