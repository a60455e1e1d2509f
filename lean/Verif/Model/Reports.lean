import Verif.Model.Hspf
import Verif.Model.System

/-!
# Model of the reports of a unit: validation tables, plot, printed information

`DXUnit.write_validation_tables`, `plot`, `print_cooling_info` and `print_heating_info` (resdx/dx_unit.py). Formatting of numbers, the CSV writer and the plotting library (colours, line widths, HTML) are left out.
-/

namespace Resdx.Reports

open BaseModel DX DX.Performance

variable {K : Type} [Field K] [LinearOrder K]

/-- `FanMotorType`, resdx/fan.py:31-34. -/
inductive Motor | psc | bpm | unknown
  deriving DecidableEq

/-- The attributes and methods of a unit its reports read. -/
structure Subject (K : Type) [Field K] [LinearOrder K] where
  u : Units K
  E : Env K
  S : Sys K
  U : Performance (Conditions K) K
  P : Points (Conditions K)
  st : Staging
  /-- the speed indices, and `number_of_cooling_speeds` and `number_of_heating_speeds` in `n` -/
  rc : Roles
  rh : Roles
  cdHeating : K
  coolingOff : K
  heatingOff : K
  /-- `none` = attribute missing -/
  heatingOn : Option K
  /-- `self.fan.fan_motor_type` -/
  motor : Motor
  /-- `self.seer()` and `self.hspf(region)` -/
  seer : Py K
  hspf : Nat → Py K

/-! ## Validation tables -/

/-- A value of the table. -/
inductive Cell (K : Type)
  | text (s : String)
  /-- Python's `None` -/
  | empty
  | flag (b : Bool)
  | num (x : K)
  deriving DecidableEq

/-- `fan_motor_type`, resdx/dx_unit.py:1761-1769. -/
def blower : Motor → Cell K
  | .psc => .text "Fixed Speed/PSC"
  | .bpm => .text "Fixed Speed/Constant Torque"
  | .unknown => .empty

section
variable (X : Subject K)

/-- `to_u(f(conditions), "Btu/h")` of a condition attribute. -/
def inBtuh (f : Option (Conditions K) → Py K) (c : Py (Conditions K)) : Py (Cell K) := do return .num ((← f (some (← c))) / X.u.btuh)
/-- `f(conditions)` in W. -/
def inWatts (f : Option (Conditions K) → Py K) (c : Py (Conditions K)) : Py (Cell K) := do return .num (← f (some (← c)))
/-- `to_u(conditions.rated_standard_volumetric_airflow, "cfm")`. -/
def inCfm (c : Py (Conditions K)) : Py (Cell K) := do return .num ((← pyAttr (← c).flow.ratedStdVol) / X.u.cfm)

/-- The dictionary `heating_data`, resdx/dx_unit.py:1776-1896, in the order its values are computed. -/
def entries : List (String × Py (Cell K)) :=
  [("compressorDesignStage", .ok (.text "Variable Speed")),
   ("indoorBlowerType", .ok (blower X.motor)),
   ("needCoilOnlyAdjust", .ok (.flag false)),
   ("isNonCommunicating", .ok (.flag false)),
   ("isMobileHomeAndSpaceConstrained", .ok (.flag false)),
   ("isNonmobileHomeAndNonSpaceConstrained", .ok (.flag false)),
   ("isSplit", .ok (.flag true)),
   ("minSpeedLimiting", .ok (.flag false)),
   ("H12Tested", .ok (.flag true)),
   ("H22Tested", .ok (.flag true)),
   ("H42Tested", .ok (.flag true)),
   ("H1NspeedMax17", .ok (.flag false)),
   ("T_off", .ok (.num (toF X.heatingOff))),
   ("T_on", do return .num (toF (← pyAttr X.heatingOn))),
   ("isDemandDefrost", .ok (.flag (X.S.defrost.control = .demand))),
   ("demandDefrostCredit", do return .num (← X.S.defrost.demandCredit X.u)),
   ("degCoeffHeat", .ok (.num X.cdHeating)),
   ("coolCapacity95Full", inBtuh X X.U.netTotalCoolingCapacity (.ok X.P.aFull)),
   ("heatCapacity62min", inBtuh X X.U.netSteadyHeatingCapacity (pyAttr X.P.h0Low)),
   ("heatCapacity47full", inBtuh X X.U.netSteadyHeatingCapacity (.ok X.P.h1Full)),
   ("heatCapacity47min", inBtuh X X.U.netSteadyHeatingCapacity (pyAttr X.P.h1Low)),
   ("heatCapacity47nominal", inBtuh X X.U.netSteadyHeatingCapacity (.ok X.P.h1Full)),
   ("heatCapacity35full", inBtuh X X.U.netIntegratedHeatingCapacity (.ok X.P.h2Full)),
   ("heatCapacity35inter", inBtuh X X.U.netIntegratedHeatingCapacity (pyAttr X.P.h2Int)),
   ("heatCapacity35min", inBtuh X X.U.netIntegratedHeatingCapacity (pyAttr X.P.h2Low)),
   ("heatCapacity17full", inBtuh X X.U.netSteadyHeatingCapacity (.ok X.P.h3Full)),
   ("heatCapacity17min", inBtuh X X.U.netSteadyHeatingCapacity (pyAttr X.P.h3Low)),
   ("heatCapacity5full", inBtuh X X.U.netSteadyHeatingCapacity (.ok X.P.h4Full)),
   ("powerConsumption62min", inWatts X.U.netSteadyHeatingPower (pyAttr X.P.h0Low)),
   ("powerConsumption47full", inWatts X.U.netSteadyHeatingPower (pyAttr X.P.h0Low)),
   ("powerConsumption47min", inWatts X.U.netSteadyHeatingPower (pyAttr X.P.h1Low)),
   ("powerConsumption47nominal", inWatts X.U.netSteadyHeatingPower (.ok X.P.h1Full)),
   ("powerConsumption35full", inWatts X.U.netIntegratedHeatingPower (.ok X.P.h2Full)),
   ("powerConsumption35inter", inWatts X.U.netIntegratedHeatingPower (pyAttr X.P.h2Int)),
   ("powerConsumption35min", inWatts X.U.netIntegratedHeatingPower (pyAttr X.P.h2Low)),
   ("powerConsumption17full", inWatts X.U.netSteadyHeatingPower (.ok X.P.h3Full)),
   ("powerConsumption17min", inWatts X.U.netSteadyHeatingPower (pyAttr X.P.h3Low)),
   ("powerConsumption5full", inWatts X.U.netSteadyHeatingPower (.ok X.P.h4Full)),
   ("scfm95full", inCfm X (.ok X.P.aFull)),
   ("scfm62min", inCfm X (pyAttr X.P.h0Low)),
   ("scfm47full", inCfm X (.ok X.P.h1Full)),
   ("scfm47min", inCfm X (pyAttr X.P.h1Low)),
   ("scfm47nominal", inCfm X (.ok X.P.h1Full)),
   ("scfm35full", inCfm X (.ok X.P.h2Full)),
   ("scfm35inter", inCfm X (pyAttr X.P.h2Int)),
   ("scfm35min", inCfm X (pyAttr X.P.h2Low)),
   ("scfm17full", inCfm X (.ok X.P.h3Full)),
   ("scfm17min", inCfm X (pyAttr X.P.h3Low)),
   ("scfm5full", inCfm X (.ok X.P.h4Full))]

/-- The computed dictionary: the first exception ends it. -/
def row : Py (List (String × Cell K)) := (entries X).mapM fun e => do return (e.1, ← e.2)

end

/-- The content of a file: some text, or the table written by `csv.DictWriter` (a header line and one row). -/
inductive Content (K : Type)
  | other (text : String)
  | table (columns : List (String × Cell K))

/-- `write_validation_tables`, resdx/dx_unit.py:1755-1901. State: the file `…-heating.csv` (`none`: there is none). For single- and two-stage units `heating_data` is unbound; it is read after the file was opened for
writing. Failures of the file system are left out. -/
def writeTables (X : Subject K) : PyM (Option (Content K)) Unit :=
  match X.st with
  | .varSpeed => do
    let r ← PyM.lift (row X)
    PyM.modify fun _ => some (.other "")
    PyM.modify fun _ => some (.table r)
  | _ => do
    PyM.modify fun _ => some (.other "")
    PyM.raise .unboundLocal

/-! ## Plot -/

/-- `DisplayDataSpec`, resdx/dx_unit.py:1616-1622. -/
structure DisplaySpec (K : Type) where
  function : Conditions K → Py K
  netOrGross : String
  version : String
  heating : Bool
  quantity : String

/-- `display_specs`, resdx/dx_unit.py:1625-1648. -/
def displaySpecs (U : Performance (Conditions K) K) : List (DisplaySpec K) :=
  [⟨fun c => U.netSteadyHeatingCapacity (some c), "Net", "Steady State", true, "Capacity"⟩,
   ⟨fun c => U.netIntegratedHeatingCapacity (some c), "Net", "Integrated", true, "Capacity"⟩,
   ⟨fun c => U.netSteadyHeatingPower (some c), "Net", "Steady State", true, "Power"⟩,
   ⟨fun c => U.netIntegratedHeatingPower (some c), "Net", "Integrated", true, "Power"⟩,
   ⟨fun c => U.netSteadyHeatingCOP (some c), "Net", "Steady State", true, "COP"⟩,
   ⟨fun c => U.netIntegratedHeatingCOP (some c), "Net", "Integrated", true, "COP"⟩,
   ⟨fun c => U.netTotalCoolingCapacity (some c), "Net", "Total", false, "Capacity"⟩,
   ⟨fun c => U.netSensibleCoolingCapacity (some c), "Net", "Sensible", false, "Capacity"⟩,
   ⟨fun c => U.netCoolingPower (some c), "Net", "", false, "Power"⟩,
   ⟨fun c => U.netTotalCoolingCOP (some c), "Net", "Total", false, "COP"⟩,
   ⟨fun c => U.netSensibleCoolingCOP (some c), "Net", "Sensible", false, "COP"⟩,
   ⟨fun c => U.grossSteadyHeatingCapacity (some c), "Gross", "Steady State", true, "Capacity"⟩,
   ⟨fun c => U.grossIntegratedHeatingCapacity (some c), "Gross", "Integrated", true, "Capacity"⟩,
   ⟨fun c => U.grossSteadyHeatingPower (some c), "Gross", "Steady State", true, "Power"⟩,
   ⟨fun c => U.grossIntegratedHeatingPower (some c), "Gross", "Integrated", true, "Power"⟩,
   ⟨fun c => U.grossSteadyHeatingCOP (some c), "Gross", "Steady State", true, "COP"⟩,
   ⟨fun c => U.grossIntegratedHeatingCOP (some c), "Gross", "Integrated", true, "COP"⟩,
   ⟨fun c => U.grossTotalCoolingCapacity (some c), "Gross", "Total", false, "Capacity"⟩,
   ⟨fun c => U.grossSensibleCoolingCapacity (some c), "Gross", "Sensible", false, "Capacity"⟩,
   ⟨fun c => U.grossCoolingPower (some c), "Gross", "", false, "Power"⟩,
   ⟨fun c => U.grossTotalCoolingCOP (some c), "Gross", "Total", false, "COP"⟩,
   ⟨fun c => U.grossSensibleCoolingCOP (some c), "Gross", "Sensible", false, "COP"⟩]

/-- A curve handed to the plotting library, resdx/dx_unit.py:1726-1750. -/
structure Curve (K : Type) where
  group : String
  name : String
  quantity : String
  visible : Bool
  xs : List K
  ys : List K

/-- `heating_temperatures` and `cooling_temperatures`, resdx/dx_unit.py:1580-1604. -/
def plotTemperatures (X : Subject K) (heating : Bool) : List K :=
  if heating then [X.heatingOff, frF 5, frF 17, frF 35, frF 47, frF 60] else [frF 60, frF 82, frF 95, X.coolingOff]

/-- The temperatures of the x axis, resdx/dx_unit.py:1606-1613. -/
def plotAxis (X : Subject K) : List K := plotTemperatures X true ++ (plotTemperatures X false).drop 1

/-- `speed_names[speed]`, resdx/dx_unit.py:1679-1700: a dictionary with the keys boost, full, intermediate, low in this order; a later entry replaces an earlier one with the same key. -/
def speedName (r : Roles) (s : Nat) : Py String :=
  if r.low = some s then .ok "Min"
  else if r.intermediate = s then .ok "Int."
  else if r.full = s then .ok "Rated"
  else if r.boost = some s then .ok "Max"
  else .error .key

/-- `PsychState(drybulb=tdb, rel_hum=0.4)` and `make_condition`, resdx/dx_unit.py:1651-1674. -/
def plotCondition (X : Subject K) (heating : Bool) (s : Nat) (t : K) : Py (Conditions K) := do
  let o ← Psych.init X.E.lib t X.E.atm [("rel_hum", 0.4)]
  X.S.makeCondition X.E heating s none (some o)

/-- The condition lists, resdx/dx_unit.py:1651-1674: one list per speed. -/
def plotConditions (X : Subject K) (heating : Bool) : Py (List (List (Conditions K))) :=
  (List.range (if heating then X.rh else X.rc).n).mapM fun s => (plotTemperatures X heating).mapM fun t => plotCondition X heating s t

/-- `group_name`, resdx/dx_unit.py:1721-1725. -/
def groupText (netOrGross version : String) (heating : Bool) (quantity : String) : String :=
  netOrGross ++ " " ++ (if version ≠ "" then version ++ " " else "") ++ (if heating then "Heating" else "Cooling") ++ " " ++ quantity

/-- The legend group of a quantity. -/
def groupName (d : DisplaySpec K) : String := groupText d.netOrGross d.version d.heating d.quantity

/-- One curve, resdx/dx_unit.py:1717-1750: the values are computed before the name. -/
def curve (X : Subject K) (d : DisplaySpec K) (s : Nat) (conditions : List (Conditions K)) : Py (Curve K) := do
  let ys ← conditions.mapM d.function
  let name ← speedName (if d.heating then X.rh else X.rc) s
  return { group := groupName d, name := name ++ " Speed", quantity := d.quantity, visible := d.netOrGross ≠ "Gross", xs := plotTemperatures X d.heating, ys }

/-- The curves of one quantity, resdx/dx_unit.py:1676-1752. -/
def curvesOf (X : Subject K) (conditions : List (List (Conditions K))) (d : DisplaySpec K) : Py (List (Curve K)) :=
  (List.range (if d.heating then X.rh else X.rc).n).mapM fun s => do curve X d s (← pyGet conditions s)

/-- `plot`, resdx/dx_unit.py:1577-1753: the curves in the order they are added. The HTML file is written after the last one. -/
def plot (X : Subject K) : Py (List (Curve K)) := do
  let hc ← plotConditions X true
  let cc ← plotConditions X false
  let cs ← (displaySpecs X.U).mapM fun d => curvesOf X (if d.heating then hc else cc) d
  return cs.flatten

/-! ## Printed information -/

/-- A printed line: label, stage (if any), value, decimals, unit (if any). -/
inductive Line (K : Type)
  | value (label : String) (stage : Option Nat) (x : K) (decimals : Nat) (unit : String)
  | blank

/-- A printed line whose value is still to be computed. -/
abbrev Pending (K : Type) := String × Option Nat × Py K × Nat × String

/-- `print(…)`: an exception while the value is computed prints nothing. -/
def say (p : Pending K) : PyM (List (Line K)) Unit := do
  let x ← PyM.lift p.2.2.1
  PyM.modify fun out => out ++ [.value p.1 p.2.1 x p.2.2.2.1 p.2.2.2.2]

/-- Several lines. -/
def sayAll : List (Pending K) → PyM (List (Line K)) Unit
  | [] => pure ()
  | p :: l => do
    say p
    sayAll l

section
variable (toU : K → String → Py K) (X : Subject K)

/-- The lines of one cooling stage, resdx/dx_unit.py:1382-1392. -/
def coolingLines (powerUnits capacityUnits : String) (s : Nat) (c : Conditions K) : List (Pending K) :=
  [("Net cooling power", some (s + 1), do toU (← X.U.netCoolingPower (some c)) powerUnits, 2, powerUnits),
   ("Net cooling capacity", some (s + 1), do toU (← X.U.netTotalCoolingCapacity (some c)) capacityUnits, 2, capacityUnits),
   ("Net cooling EER", some (s + 1), X.U.eer X.u (some c), 2, ""),
   ("Gross cooling COP", some (s + 1), X.U.grossTotalCoolingCOP (some c), 3, ""),
   ("Net SHR", some (s + 1), X.U.netSHR (some c), 3, "")]

/-- The lines of one heating stage, resdx/dx_unit.py:1399-1407. -/
def heatingLines (powerUnits capacityUnits : String) (s : Nat) (c : Conditions K) : List (Pending K) :=
  [("Net heating power", some (s + 1), do toU (← X.U.netIntegratedHeatingPower (some c)) powerUnits, 2, powerUnits),
   ("Net heating capacity", some (s + 1), do toU (← X.U.netIntegratedHeatingCapacity (some c)) capacityUnits, 2, capacityUnits),
   ("Gross heating COP", some (s + 1), X.U.grossIntegratedHeatingCOP (some c), 3, "")]

/-- The loop over the stages, resdx/dx_unit.py:1380-1392 and 1397-1407. -/
def sayStages (heating : Bool) (lines : Nat → Conditions K → List (Pending K)) : List Nat → PyM (List (Line K)) Unit
  | [] => pure ()
  | s :: l => do
    let c ← PyM.lift (X.S.makeCondition X.E heating s)
    sayAll (lines s c)
    sayStages heating lines l

/-- `print_cooling_info`, resdx/dx_unit.py:1378-1393. State: the lines printed so far. -/
def printCooling (powerUnits capacityUnits : String) : PyM (List (Line K)) Unit := do
  say ("SEER", none, X.seer, 2, "")
  sayStages X false (coolingLines toU X powerUnits capacityUnits) (List.range X.rc.n)
  PyM.modify fun out => out ++ [.blank]

/-- `print_heating_info`, resdx/dx_unit.py:1395-1408. -/
def printHeating (powerUnits capacityUnits : String) (region : Nat) : PyM (List (Line K)) Unit := do
  say ("HSPF (region " ++ toString region ++ ")", none, X.hspf region, 2, "")
  sayStages X true (heatingLines toU X powerUnits capacityUnits) (List.range X.rh.n)
  PyM.modify fun out => out ++ [.blank]

end
end Resdx.Reports
