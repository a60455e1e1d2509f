import Verif.Model.Defrost
import Verif.Model.Units
import Mathlib.Algebra.Order.Ring.Defs

/-! # Model of `resdx/idf.py`: EnergyPlus input

Texts are Lean strings. Python's number formatting (`f"{value:.{precision}f}"`, `str` of integers that are passed where a number is expected) is the parameter `fmt`.
The unit is given by the methods and attributes the writer uses. -/

namespace Resdx.Idf

variable {C K : Type}

/-- `IDFField`, resdx/idf.py:17-23, with its value already formatted. -/
structure IField where
  value : String
  name : String
  deriving DecidableEq

/-- An entry of `objects`: class and fields. -/
structure IObj where
  cls : String
  fields : List IField
  deriving DecidableEq

/-! ## Writing -/

/-- `f"{s: <{w}}"`: left-aligned in a field of width `w`. -/
def pad (s : String) (w : Nat) : String := s ++ String.ofList (List.replicate (w - s.length) ' ')

/-- `spacing`, resdx/idf.py:33; `max` of no fields raises `ValueError`. -/
def spacing (fields : List IField) : Py Nat :=
  match fields with
  | [] => .error .value
  | f :: l => .ok (max (l.foldl (fun m g => max m g.value.length) f.value.length + 3) 28)

/-- The loop over the fields and the last field, resdx/idf.py:34-39. -/
def fieldLines (w : Nat) : List IField → String
  | [] => ""
  | [f] => "  " ++ pad (f.value ++ ";") w ++ "!- " ++ f.name ++ "\n\n"
  | f :: l => "  " ++ pad (f.value ++ ",") w ++ "!- " ++ f.name ++ "\n" ++ fieldLines w l

/-- One object, resdx/idf.py:31-39. -/
def writeObject (o : IObj) : Py String := do
  let w ← spacing o.fields
  return o.cls ++ ",\n" ++ fieldLines w o.fields

/-- `write_idf_objects`, resdx/idf.py:26-41: the text written. Simplified: an exception loses the text written before it. -/
def writeObjects (objects : List IObj) : Py String := do
  let l ← objects.mapM writeObject
  return l.foldl (· ++ ·) ""

/-! ## Tables -/

section
variable [Field K] [LinearOrder K] (fmt : K → Nat → String)

/-- Numbered values, resdx/idf.py:58, 85-92. -/
def numbered (label : String) (values : List String) : List IField := values.zipIdx.map fun (v, i) => ⟨v, label ++ toString (i + 1)⟩

/-- `make_independent_variable`, resdx/idf.py:44-60. -/
def independentVariable (name unitType : String) (rated : K) (values : List K) : IObj :=
  ⟨"Table:IndependentVariable",
    [⟨name, "Name"⟩, ⟨"Linear", "Interpolation Method"⟩, ⟨"Constant", "Extrapolation Method"⟩, ⟨"", "Minimum Value"⟩, ⟨"", "Maximum Value"⟩,
     ⟨fmt rated 2, "Normalization Reference Value"⟩, ⟨unitType, "Unit Type"⟩, ⟨"", "External File Name"⟩, ⟨"", "External File Column Number"⟩,
     ⟨"", "External File Starting Row Number"⟩] ++ numbered "Value " (values.map fun v => fmt v 2)⟩

/-- `make_lookup_table`, resdx/idf.py:63-94. -/
def lookupTable (name listName unitType : String) (values : List K) (precision : Nat) (rated : Option K) : Py IObj := do
  let vs ← match rated with
    | none => (.ok values : Py (List K))
    | some r => values.mapM fun v => pdiv v r
  return ⟨"Table:Lookup",
    [⟨name, "Name"⟩, ⟨listName, "Independent Variable List Name"⟩,
     ⟨if rated.isSome then "None" else "AutomaticWithDivisor", "Normalization Method"⟩, ⟨fmt 1 2, "Normalization Divisor"⟩, ⟨"", "Minimum Output"⟩,
     ⟨"", "Maximum Output"⟩, ⟨unitType, "Output Unit Type"⟩, ⟨"", "External File Name"⟩, ⟨"", "External File Column Number"⟩,
     ⟨"", "External File Starting Row Number"⟩] ++ numbered "Output Value " (vs.map fun v => fmt v precision)⟩

/-! ## The unit -/

/-- `EnergyPlusSystemType`, resdx/idf.py:97-99. -/
inductive SystemType | unitarySystem | pthp
  deriving DecidableEq

/-- What `write_idf` reads of a unit. Conditions are made for a compressor speed and, in the tables, for an indoor temperature (°F; wet bulb in cooling, dry bulb in
heating) and an outdoor dry bulb (°F); the other psychrometric inputs are constants (resdx/idf.py:654-662, 888-893). -/
structure IdfUnit (C K : Type) where
  /-- `fan.get_speed_order_map()`, `fan.number_of_speeds`, `fan.operating_pressure`, `fan.airflow`, `fan.power`, `fan.efficiency`, `fan.airflow_ratio`,
  `fan.power_ratio` -/
  order : Py (List Nat)
  fanSpeeds : Nat
  pressure : Nat → Py K
  airflow : Nat → Py K
  power : Nat → Py K
  efficiency : Nat → Py K
  airflowRatio : Nat → Nat → Py K
  powerRatio : Nat → Nat → Py K
  /-- number of speeds and full-load speed -/
  nCool : Nat
  coolFull : Nat
  nHeat : Nat
  heatFull : Nat
  /-- `make_condition` -/
  coolCondition : Nat → Option (K × K) → Py C
  heatCondition : Nat → Option (K × K) → Py C
  /-- `condition.set_mass_airflow_ratio` -/
  setRatio : C → K → C
  /-- `condition.rated_volumetric_airflow` -/
  ratedFlow : C → K
  /-- gross capacities, COPs and SHR; without conditions at the full rating conditions -/
  coolCap : Option C → Py K
  coolCop : C → Py K
  shr : C → Py K
  heatCap : Option C → Py K
  heatCop : C → Py K
  intCap : Py K
  aFullFlow : K
  h1FullFlow : K
  cdCool : K
  cdHeat : K
  off : K
  on : Option K
  crankcase : K
  crankcaseSetpoint : K
  defrost : Defrost K
  /-- `defrost.time_fraction(H1_full_cond)` -/
  timeFraction : Py K
  /-- `NRELDXModel.get_cooling_cop60(unit.model)` -/
  cop60 : Py K

/-! ## Objects -/

/-- `"Autosize" if autosize else value`, resdx/idf.py:359 and elsewhere. -/
def auto (autosize : Bool) (v : K) : String := if autosize then "Autosize" else fmt v 2

/-- The same for a computed value. -/
def autoM (autosize : Bool) (v : Py K) : Py String :=
  if autosize then .ok "Autosize" else do
    let x ← v
    return fmt x 2

/-- The two objects of a packaged terminal heat pump, resdx/idf.py:121-191. -/
def pthpObjects (sys : String) : List IObj := [
  ⟨"ZoneHVAC:PackagedTerminalHeatPump", [⟨sys ++ "Unitary", "Name"⟩, ⟨sys ++ "Schedule", "Availability Schedule Name"⟩, ⟨sys ++ "Unitary Inlet Node", "Air Inlet Node Name"⟩,
   ⟨sys ++ "Unitary Outlet Node", "Air Outlet Node Name"⟩, ⟨"", "Outdoor Air Mixer Object Type"⟩, ⟨"", "Outdoor Air Mixer Name"⟩,
   ⟨"Autosize", "Cooling Supply Air Flow Rate {m3/s}"⟩, ⟨"Autosize", "Heating Supply Air Flow Rate {m3/s}"⟩,
   ⟨"Autosize", "No Load Supply Air Flow Rate {m3/s}"⟩, ⟨fmt 0 2, "Cooling Outdoor Air Flow Rate {m3/s}"⟩,
   ⟨fmt 0 2, "Heating Outdoor Air Flow Rate {m3/s}"⟩, ⟨fmt 0 2, "No Load Outdoor Air Flow Rate {m3/s}"⟩, ⟨"Fan:SystemModel", "Supply Fan Object Type"⟩,
   ⟨sys ++ "Supply Fan", "Supply Fan Name"⟩, ⟨"Coil:Heating:DX:VariableSpeed", "Heating Coil Object Type"⟩,
   ⟨sys ++ "Heating Coil", "Heating Coil Name"⟩, ⟨"", "Heating Convergence Tolerance"⟩, ⟨"Coil:Cooling:DX:VariableSpeed", "Cooling Coil Object Type"⟩,
   ⟨sys ++ "Cooling Coil", "Cooling Coil Name"⟩, ⟨"", "Cooling Convergence Tolerance"⟩,
   ⟨"Coil:Heating:Electric", "Supplemental Heating Coil Object Type"⟩, ⟨sys ++ "Supp Heating Coil", "Supplemental Heating Coil Name"⟩,
   ⟨"Autosize", "Maximum Supply Air Temperature from Supplemental Heater {C}"⟩,
   ⟨"", "Maximum Outdoor Dry-Bulb Temperature for Supplemental Heater Operation {C}"⟩, ⟨"DrawThrough", "Fan Placement"⟩,
   ⟨sys ++ "Fan Mode Schedule", "Supply Air Fan Operating Mode Schedule Name"⟩]⟩,
  ⟨"Coil:Heating:Electric", [⟨sys ++ "Supp Heating Coil", "Name"⟩, ⟨sys ++ "Schedule", "Availability Schedule Name"⟩, ⟨fmt 1 2, "Efficiency"⟩, ⟨fmt 0 2, "Nominal Capacity"⟩,
   ⟨sys ++ "Supply Fan Outlet Node", "Air Inlet Node Name"⟩, ⟨sys ++ "Unitary Outlet Node", "Air Outlet Node Name"⟩]⟩]

/-- The unitary system, resdx/idf.py:192-308. -/
def unitaryObject (sys : String) (ratio : K) : IObj :=
  ⟨"AirLoopHVAC:UnitarySystem", [⟨sys ++ "Unitary", "Name"⟩, ⟨"Load", "Control Type"⟩, ⟨"", "Controlling Zone or Thermostat Location"⟩, ⟨"", "Dehumidification Control Type"⟩,
   ⟨sys ++ "Schedule", "Availability Schedule Name"⟩, ⟨sys ++ "Unitary Inlet Node", "Air Inlet Node Name"⟩,
   ⟨sys ++ "Unitary Outlet Node", "Air Outlet Node Name"⟩, ⟨"Fan:SystemModel", "Supply Fan Object Type"⟩, ⟨sys ++ "Supply Fan", "Supply Fan Name"⟩,
   ⟨"DrawThrough", "Fan Placement"⟩, ⟨sys ++ "Fan Mode Schedule", "Supply Air Fan Operating Mode Schedule Name"⟩,
   ⟨"Coil:Heating:DX:VariableSpeed", "Heating Coil Object Type"⟩, ⟨sys ++ "Heating Coil", "Heating Coil Name"⟩,
   ⟨fmt ratio 2, "DX Heating Coil Sizing Ratio"⟩, ⟨"Coil:Cooling:DX:VariableSpeed", "Cooling Coil Object Type"⟩,
   ⟨sys ++ "Cooling Coil", "Cooling Coil Name"⟩, ⟨"No", "Use DOAS DX Cooling Coil"⟩, ⟨"", "Minimum Supply Air Temperature {C}"⟩,
   ⟨"", "Latent Load Control"⟩, ⟨"", "Supplemental Heating Coil Object Type"⟩, ⟨"", "Supplemental Heating Coil Name"⟩,
   ⟨"SupplyAirFlowRate", "Cooling Supply Air Flow Rate Method"⟩, ⟨"Autosize", "Cooling Supply Air Flow Rate {m3/s}"⟩,
   ⟨"", "Cooling Supply Air Flow Rate Per Floor Area {m3/s-m2}"⟩, ⟨"", "Cooling Fraction of Autosized Cooling Supply Air Flow Rate"⟩,
   ⟨"", "Cooling Supply Air Flow Rate Per Unit of Capacity {m3/s-W}"⟩, ⟨"SupplyAirFlowRate", "Heating Supply Air Flow Rate Method"⟩,
   ⟨"Autosize", "Heating Supply Air Flow Rate {m3/s}"⟩, ⟨"", "Heating Supply Air Flow Rate Per Floor Area {m3/s-m2}"⟩,
   ⟨"", "Heating Fraction of Autosized Heating Supply Air Flow Rate"⟩, ⟨"", "Heating Supply Air Flow Rate Per Unit of Capacity {m3/s-W}"⟩,
   ⟨"SupplyAirFlowRate", "No Load Supply Air Flow Rate Method"⟩, ⟨"Autosize", "No Load Supply Air Flow Rate {m3/s}"⟩,
   ⟨"", "No Load Supply Air Flow Rate Per Floor Area {m3/s-m2}"⟩, ⟨"", "No Load Fraction of Autosized Cooling Supply Air Flow Rate"⟩,
   ⟨"", "No Load Fraction of Autosized Heating Supply Air Flow Rate"⟩,
   ⟨"", "No Load Supply Air Flow Rate Per Unit of Capacity During Cooling Operation {m3/s-W}"⟩,
   ⟨"", "No Load Supply Air Flow Rate Per Unit of Capacity During Heating Operation {m3/s-W}"⟩, ⟨"Autosize", "Maximum Supply Air Temperature {C}"⟩,
   ⟨"", "Maximum Outdoor Dry-Bulb Temperature for Supplemental Heater Operation {C}"⟩, ⟨"", "Outdoor Dry-Bulb Temperature Sensor Node Name"⟩,
   ⟨"", "Maximum Cycling Rate {cycles/hr}"⟩, ⟨"", "Heat Pump Time Constant {s}"⟩, ⟨"", "Fraction of On-Cycle Power Use"⟩,
   ⟨"", "Heat Pump Fan Delay Time {s}"⟩, ⟨"", "Ancilliary On-Cycle Electric Power {W}"⟩, ⟨"", "Ancilliary Off-Cycle Electric Power {W}"⟩,
   ⟨"", "Design Heat Recovery Water Flow Rate {m3/s}"⟩, ⟨"", "Maximum Temperature for Heat Recovery {C}"⟩, ⟨"", "Heat Recovery Water Inlet Node Name"⟩,
   ⟨"", "Heat Recovery Water Outlet Node Name"⟩, ⟨"", "Design Specification Multispeed Heat Pump Object Type"⟩,
   ⟨"", "Design Specification Multispeed Heat Pump Object Name"⟩]⟩

/-- resdx/idf.py:121-310. -/
def systemObjects (sys : String) (st : SystemType) (U : IdfUnit C K) : Py (List IObj) :=
  match st with
  | .pthp => .ok (pthpObjects fmt sys)
  | .unitarySystem => do
    let h ← U.intCap
    let c ← U.coolCap none
    let ratio ← pdiv h c
    return [unitaryObject fmt sys ratio]

/-- The schedules, resdx/idf.py:312-338. -/
def schedules (sys : String) : List IObj := [
  ⟨"Schedule:Compact", [⟨sys ++ "Schedule", "Name"⟩, ⟨"Binary Control", "Schedule Type Limits Name"⟩, ⟨"Through: 12/31", ""⟩, ⟨"For: AllDays", ""⟩, ⟨"Until: 24:00", ""⟩,
   ⟨"1", "Value"⟩]⟩,
  ⟨"Schedule:Compact", [⟨sys ++ "Fan Mode Schedule", "Name"⟩, ⟨"Fan Mode Control", "Schedule Type Limits Name"⟩, ⟨"Through: 12/31", ""⟩, ⟨"For: AllDays", ""⟩,
   ⟨"Until: 24:00", ""⟩, ⟨"0", "Value"⟩]⟩]

/-- The fields of one fan speed, resdx/idf.py:388-401. -/
def fanSpeedFields (k : Nat) (flow power : K) : List IField :=
  [⟨fmt flow 2, "Speed " ++ toString k ++ " Flow Fraction"⟩, ⟨fmt power 2, "Speed " ++ toString k ++ " Electric Power Fraction"⟩]

/-- The other fields of the fan, resdx/idf.py:346-387. -/
def fanHeader (sys : String) (st : SystemType) (U : IdfUnit C K) (flow : String) (minRatio pressure : K) (power : String) (eff : K) : List IField :=
  [⟨sys ++ "Supply Fan", "Name"⟩, ⟨sys ++ "Schedule", "Availability Schedule Name"⟩, ⟨sys ++ "Heating Coil Outlet Node", "Air Inlet Node Name"⟩,
   ⟨if st = .unitarySystem then sys ++ "Unitary Outlet Node" else sys ++ "Supply Fan Outlet Node", "Air Outlet Node Name"⟩,
   ⟨flow, "Design Maximum Air Flow Rate"⟩, ⟨"Discrete", "Speed Control Method"⟩, ⟨fmt minRatio 2, "Electric Power Minimum Flow Rate Fraction"⟩,
   ⟨fmt pressure 2, "Design Pressure Rise"⟩, ⟨fmt 1 2, "Motor Efficiency"⟩, ⟨fmt 1 2, "Motor In Air Stream Fraction"⟩,
   ⟨power, "Design Electric Power Consumption"⟩, ⟨"TotalEfficiencyAndPressure", "Design Power Sizing Method"⟩,
   ⟨"", "Electric Power Per Unit Flow Rate"⟩, ⟨"", "Electric Power Per Unit Flow Rate Per Unit Pressure"⟩, ⟨fmt eff 2, "Fan Total Efficiency"⟩,
   ⟨"", "Electric Power Function of Flow Fraction Curve Name"⟩, ⟨fmt pressure 2, "Night Ventilation Mode Pressure Rise"⟩,
   ⟨"", "Night Ventilation Mode Flow Fraction"⟩, ⟨"", "Motor Loss Zone Name"⟩, ⟨"", "Motor Loss Radiative Fraction"⟩,
   ⟨"ZN-MSHP Fans", "End-Use Subcategory"⟩, ⟨toString U.fanSpeeds, "Number of Speeds"⟩]

/-- The fan, resdx/idf.py:340-403. -/
def fanObject (sys : String) (st : SystemType) (autosize : Bool) (U : IdfUnit C K) : Py IObj := do
  let order ← U.order
  let top ← pyGetI order (-1)
  let bottom ← pyGet order 0
  let pressure ← U.pressure top
  let flow ← autoM fmt autosize (U.airflow top)
  let minRatio ← U.airflowRatio bottom top
  let power ← autoM fmt autosize (U.power top)
  let eff ← U.efficiency top
  let speeds ← order.zipIdx.mapM fun (speed, i) => do
    let f ← U.airflowRatio speed top
    let p ← U.powerRatio speed top
    return fanSpeedFields fmt (i + 1) f p
  return ⟨"Fan:SystemModel", fanHeader fmt sys st U flow minRatio pressure power eff ++ speeds.flatten⟩

/-- `cooling_outdoor_dry_bulbs`, resdx/idf.py:409. -/
def coolOutdoor : List K := [55, 82, 95, 125]
/-- `cooling_indoor_wet_bulbs`, resdx/idf.py:410. -/
def coolIndoor : List K := [50, 67, 80]
/-- `heating_outdoor_dry_bulbs`, resdx/idf.py:411-417. -/
def heatOutdoor (U : IdfUnit C K) : List K := [toF U.off, 5, 17, 47, 60]
/-- `heating_indoor_dry_bulbs`, resdx/idf.py:418. -/
def heatIndoor : List K := [60, 70, 80]
/-- `flow_fractions`, resdx/idf.py:419. -/
def flowFractions : List K := [0.75, 1, 1.25]

/-- `koozie.convert(t, "°F", "°C")`. -/
def fToC (t : K) : K := toC (frF t)

/-- The table axes, resdx/idf.py:421-507. -/
def axes (sys : String) (U : IdfUnit C K) : List IObj := [
  independentVariable fmt (sys ++ "Cooling Outdoor Drybulb") "Temperature" (fToC 95) (coolOutdoor.map fToC),
  independentVariable fmt (sys ++ "Cooling Indoor Wetbulb") "Temperature" (fToC 67) (coolIndoor.map fToC),
  ⟨"Table:IndependentVariableList", [⟨sys ++ "Cooling fT List", "Name"⟩, ⟨sys ++ "Cooling Indoor Wetbulb", "Independent Variable 1 Name"⟩,
   ⟨sys ++ "Cooling Outdoor Drybulb", "Independent Variable 2 Name"⟩]⟩,
  independentVariable fmt (sys ++ "Coil Flow Fraction") "Dimensionless" 1 flowFractions,
  ⟨"Table:IndependentVariableList", [⟨sys ++ "fFF List", "Name"⟩, ⟨sys ++ "Coil Flow Fraction", "Independent Variable 1 Name"⟩]⟩,
  independentVariable fmt (sys ++ "Heating Outdoor Drybulb") "Temperature" (fToC 47) ((heatOutdoor U).map fToC),
  independentVariable fmt (sys ++ "Heating Indoor Drybulb") "Temperature" (fToC 70) (heatIndoor.map fToC),
  ⟨"Table:IndependentVariableList", [⟨sys ++ "Heating fT List", "Name"⟩, ⟨sys ++ "Heating Indoor Drybulb", "Independent Variable 1 Name"⟩,
   ⟨sys ++ "Heating Outdoor Drybulb", "Independent Variable 2 Name"⟩]⟩]

/-- The four tables of a speed, resdx/idf.py:622-685 (cooling) and 856-916 (heating): `make` makes the conditions of the speed, `cap` and `cop` are the gross capacity and
COP, `c0` is the rating condition of the speed, `q0` and `cop0` its capacity and COP. -/
def speedTables (sys mode : String) (normalize : Bool) (setRatio : C → K → C) (make : Option (K × K) → Py C) (cap cop : C → Py K) (indoor outdoor : List K)
    (c0 : C) (q0 cop0 : K) (k : Nat) : Py (List IObj) := do
  let ff ← flowFractions.mapM fun (r : K) => do
    let c := setRatio c0 r
    let q ← cap c
    let e ← cop c
    let eir ← pdiv 1 e
    return (q, eir)
  let t1 ← lookupTable fmt (sys ++ mode ++ " CapfFF " ++ toString k) (sys ++ "fFF List") "Dimensionless" (ff.map Prod.fst) 2 (if normalize then some q0 else none)
  let r0 ← if normalize then (do let x ← pdiv 1 cop0; return some x : Py (Option K)) else .ok none
  let t2 ← lookupTable fmt (sys ++ mode ++ " EIRfFF " ++ toString k) (sys ++ "fFF List") "Dimensionless" (ff.map Prod.snd) 4 r0
  let ft ← (indoor.flatMap fun (i : K) => outdoor.map fun (o : K) => (i, o)).mapM fun (x : K × K) => do
    let c ← make (some x)
    let q ← cap c
    let e ← cop c
    let eir ← pdiv 1 e
    return (q, eir)
  let t3 ← lookupTable fmt (sys ++ mode ++ " CapfT " ++ toString k) (sys ++ mode ++ " fT List") "Dimensionless" (ft.map Prod.fst) 2 (if normalize then some q0 else none)
  let t4 ← lookupTable fmt (sys ++ mode ++ " EIRfT " ++ toString k) (sys ++ mode ++ " fT List") "Dimensionless" (ft.map Prod.snd) 4 r0
  return [t1, t2, t3, t4]

/-- The fields of one speed of the cooling coil, resdx/idf.py:577-619. -/
def coolSpeedFields (sys : String) (k : Nat) (cap shr cop flow : K) : List IField :=
  [⟨fmt cap 1, "Speed " ++ toString k ++ " Reference Unit Gross Rated Total Cooling Capacity"⟩,
   ⟨fmt shr 3, "Speed " ++ toString k ++ " Reference Unit Gross Rated Sensible Heat Ratio"⟩,
   ⟨fmt cop 3, "Speed " ++ toString k ++ " Reference Unit Gross Rated Cooling COP"⟩,
   ⟨fmt flow 4, "Speed " ++ toString k ++ " Reference Unit Rated Air Flow Rate"⟩,
   ⟨"", "Speed " ++ toString k ++ " Reference Unit Rated Condenser Air Flow Rate"⟩,
   ⟨"", "Speed " ++ toString k ++ " Reference Unit Rated Pad Effectiveness of Evap Precooling"⟩,
   ⟨sys ++ "Cooling CapfT " ++ toString k, "Speed " ++ toString k ++ " Total Cooling Capacity Function of Temperature Curve Name"⟩,
   ⟨sys ++ "Cooling CapfFF " ++ toString k, "Speed " ++ toString k ++ " Total Cooling Capacity Function of Air Flow Fraction Curve Name"⟩,
   ⟨sys ++ "Cooling EIRfT " ++ toString k, "Speed " ++ toString k ++ " Energy Input Ratio Function of Temperature Curve Name"⟩,
   ⟨sys ++ "Cooling EIRfFF " ++ toString k, "Speed " ++ toString k ++ " Energy Input Ratio Function of Air Flow Fraction Curve Name"⟩]

/-- One pass of the cooling loop, resdx/idf.py:572-685: the fields added to the coil and the tables. -/
def coolSpeed (sys : String) (normalize : Bool) (U : IdfUnit C K) (speed : Nat) : Py (List IField × List IObj) := do
  let k := U.nCool - speed
  let c ← U.coolCondition speed none
  let cap ← U.coolCap (some c)
  let cop ← U.coolCop c
  let shr ← U.shr c
  let fields := coolSpeedFields fmt sys k cap shr cop (U.ratedFlow c)
  let tables ← speedTables fmt sys "Cooling" normalize U.setRatio (U.coolCondition speed) (fun c => U.coolCap (some c)) U.coolCop coolIndoor coolOutdoor c cap cop k
  return (fields, tables)

/-- The other fields of the cooling coil, resdx/idf.py:515-556. -/
def coolHeader (sys : String) (autosize : Bool) (U : IdfUnit C K) (cap : String) : List IField :=
  [⟨sys ++ "Cooling Coil", "Name"⟩, ⟨sys ++ "Unitary Inlet Node", "Air Inlet Node Name"⟩, ⟨sys ++ "Cooling Coil Outlet Node", "Air Outlet Node Name"⟩,
   ⟨toString U.nCool, "Number of Speeds"⟩, ⟨toString ((U.nCool : Int) - (U.coolFull : Int)), "Nominal Speed Level"⟩,
   ⟨cap, "Gross Rated Total Cooling Capacity at Selected Nominal Speed Level"⟩,
   ⟨auto fmt autosize U.aFullFlow, "Rated Air Flow Rate at Selected Nominal Speed Level"⟩, ⟨"", "Nominal Time for Condensate Removal to Begin"⟩,
   ⟨"", "Ratio of Initial Moisture Evaporation Rate and Steady State Latent Capacity"⟩,
   ⟨sys ++ "Cooling fPLR", "Part Load Fraction Correlation Curve Name"⟩, ⟨"", "Condenser Air Inlet Node Name"⟩, ⟨"", "Condenser Type"⟩,
   ⟨"", "Evaporative Condenser Pump Rated Power Consumption"⟩, ⟨fmt U.crankcase 2, "Crankcase Heater Capacity"⟩,
   ⟨fmt (toC U.crankcaseSetpoint) 2, "Maximum Outdoor Dry-Bulb Temperature for Crankcase Heater Operation"⟩,
   ⟨"", "Minimum Outdoor Dry-Bulb Temperature for Compressor Operation"⟩, ⟨"", "Supply Water Storage Tank Name"⟩,
   ⟨"", "Condensate Collection Water Storage Tank Name"⟩, ⟨"", "Basin Heater Capacity"⟩, ⟨"", "Basin Heater Setpoint Temperature"⟩,
   ⟨"", "Basin Heater Operating Schedule Name"⟩]

/-- The curve of the cooling coil, resdx/idf.py:558-570. -/
def coolCurve (sys : String) (U : IdfUnit C K) : IObj :=
  ⟨"Curve:Linear", [⟨sys ++ "Cooling fPLR", "Name"⟩, ⟨fmt (1 - U.cdCool) 2, "Coefficient1 Constant"⟩, ⟨fmt U.cdCool 2, "Coefficient2 x"⟩,
   ⟨fmt 0 2, "Minimum Value of x"⟩, ⟨fmt 1 2, "Maximum Value of x"⟩]⟩

/-- The fields of one speed of the heating coil, resdx/idf.py:824-853. -/
def heatSpeedFields (sys : String) (k : Nat) (cap cop flow : K) : List IField :=
  [⟨fmt cap 2, "Speed " ++ toString k ++ " Reference Unit Gross Rated Heating Capacity"⟩,
   ⟨fmt cop 3, "Speed " ++ toString k ++ " Reference Unit Gross Rated Heating COP"⟩,
   ⟨fmt flow 2, "Speed " ++ toString k ++ " Reference Unit Rated Air Flow Rate"⟩,
   ⟨sys ++ "Heating CapfT " ++ toString k, "Speed " ++ toString k ++ " Heating Capacity Function of Temperature Curve Name"⟩,
   ⟨sys ++ "Heating CapfFF " ++ toString k, "Speed " ++ toString k ++ " Heating Capacity Function of Air Flow Fraction Curve Name"⟩,
   ⟨sys ++ "Heating EIRfT " ++ toString k, "Speed " ++ toString k ++ " Energy Input Ratio Function of Temperature Curve Name"⟩,
   ⟨sys ++ "Heating EIRfFF " ++ toString k, "Speed " ++ toString k ++ " Energy Input Ratio Function of Air Flow Fraction Curve Name"⟩]

/-- One pass of the heating loop, resdx/idf.py:819-916. -/
def heatSpeed (sys : String) (normalize : Bool) (U : IdfUnit C K) (speed : Nat) : Py (List IField × List IObj) := do
  let k := U.nHeat - speed
  let c ← U.heatCondition speed none
  let cap ← U.heatCap (some c)
  let cop ← U.heatCop c
  let fields := heatSpeedFields fmt sys k cap cop (U.ratedFlow c)
  let tables ← speedTables fmt sys "Heating" normalize U.setRatio (U.heatCondition speed) (fun c => U.heatCap (some c)) U.heatCop heatIndoor (heatOutdoor U) c cap cop k
  return (fields, tables)

/-- The other fields of the heating coil, resdx/idf.py:695-774. -/
def heatHeader (sys : String) (autosize : Bool) (U : IdfUnit C K) (cap : String) (on : K) (timeFraction : String) : List IField :=
  [⟨sys ++ "Heating Coil", "Name"⟩, ⟨sys ++ "Cooling Coil Outlet Node", "Air Inlet Node Name"⟩,
   ⟨sys ++ "Heating Coil Outlet Node", "Air Outlet Node Name"⟩, ⟨toString U.nHeat, "Number of Speeds"⟩,
   ⟨toString ((U.nHeat : Int) - (U.heatFull : Int)), "Nominal Speed Level"⟩, ⟨cap, "Gross Rated Heating Capacity at Selected Nominal Speed Level"⟩,
   ⟨auto fmt autosize U.h1FullFlow, "Rated Air Flow Rate at Selected Nominal Speed Level"⟩,
   ⟨sys ++ "Heating fPLR", "Part Load Fraction Correlation Curve Name"⟩,
   ⟨sys ++ "Defrost EIR", "Defrost Energy Input Ratio Function of Temperature Curve Name"⟩,
   ⟨fmt (toC U.off) 2, "Minimum Outdoor Dry-Bulb Temperature for Compressor Operation"⟩,
   ⟨fmt (toC on) 2, "Outdoor Dry-Bulb Temperature to Turn On Compressor"⟩,
   ⟨fmt (if U.defrost.strategy ≠ .none then toC U.defrost.highTemperature else -999) 2, "Maximum Outdoor Dry-Bulb Temperature for Defrost Operation"⟩,
   ⟨fmt U.crankcase 2, "Crankcase Heater Capacity"⟩,
   ⟨fmt (toC U.crankcaseSetpoint) 2, "Maximum Outdoor Dry-Bulb Temperature for Crankcase Heater Operation"⟩,
   ⟨if U.defrost.strategy = .reverseCycle then "ReverseCycle" else "Resistive", "Defrost Strategy"⟩,
   ⟨if U.defrost.control = .timed then "Timed" else "OnDemand", "Defrost Control"⟩, ⟨timeFraction, "Defrost Time Period Fraction"⟩,
   ⟨if U.defrost.strategy = .resistive then fmt U.defrost.resistivePower 2 else "", "Resistive Defrost Heater Capacity"⟩]

/-- The curves of the heating coil, resdx/idf.py:776-817. -/
def heatCurves (sys : String) (U : IdfUnit C K) (eir : K) : List IObj := [
  ⟨"Curve:Linear", [⟨sys ++ "Heating fPLR", "Name"⟩, ⟨fmt (1 - U.cdHeat) 2, "Coefficient1 Constant"⟩, ⟨fmt U.cdHeat 2, "Coefficient2 x"⟩,
   ⟨fmt 0 2, "Minimum Value of x"⟩, ⟨fmt 1 2, "Maximum Value of x"⟩]⟩,
  ⟨"Curve:Biquadratic", [⟨sys ++ "Defrost EIR", "Name"⟩, ⟨fmt eir 4, "Coefficient1 Constant"⟩, ⟨fmt 0 2, "Coefficient2 x"⟩, ⟨fmt 0 2, "Coefficient3 x**2"⟩,
   ⟨fmt 0 2, "Coefficient4 y"⟩, ⟨fmt 0 2, "Coefficient5 y**2"⟩, ⟨fmt 0 2, "Coefficient6 x*y"⟩, ⟨fmt (toC (frF 50)) 2, "Minimum Value of x"⟩,
   ⟨fmt (toC (frF 80)) 2, "Maximum Value of x"⟩, ⟨fmt (toC U.off) 2, "Minimum Value of y"⟩,
   ⟨fmt (toC U.defrost.highTemperature) 2, "Maximum Value of y"⟩]⟩]

/-- `system_name` with its separating space, resdx/idf.py:110-113. -/
def prefixOf (systemName : Option String) : String :=
  match systemName with
  | some s => s ++ " "
  | none => ""

/-- The cooling part, resdx/idf.py:509-687, given the objects so far. -/
def addCooling (sys : String) (autosize normalize : Bool) (U : IdfUnit C K) (objects : List IObj) : Py (List IObj) := do
  let start := objects.length
  let cap ← autoM fmt autosize (U.coolCap none)
  let objects := objects ++ [coolCurve fmt sys U]
  let speeds ← (List.range U.nCool).reverse.mapM (coolSpeed fmt sys normalize U)
  let objects := objects ++ (speeds.map Prod.snd).flatten
  return objects.insertIdx start ⟨"Coil:Cooling:DX:VariableSpeed", coolHeader fmt sys autosize U cap ++ (speeds.map Prod.fst).flatten⟩

/-- The time fraction field, resdx/idf.py:758-766. -/
def timeFractionField (U : IdfUnit C K) : Py String :=
  if U.defrost.control = .timed then do
    let x ← U.timeFraction
    return fmt x 4
  else .ok ""

/-- The heating part, resdx/idf.py:689-918. -/
def addHeating (sys : String) (autosize normalize : Bool) (U : IdfUnit C K) (objects : List IObj) : Py (List IObj) := do
  let start := objects.length
  let cap ← autoM fmt autosize (U.heatCap none)
  let on ← pyAttr U.on
  let tf ← timeFractionField fmt U
  let cop60 ← U.cop60
  let eir ← pdiv 1 cop60
  let objects := objects ++ heatCurves fmt sys U eir
  let speeds ← (List.range U.nHeat).reverse.mapM (heatSpeed fmt sys normalize U)
  let objects := objects ++ (speeds.map Prod.snd).flatten
  return objects.insertIdx start ⟨"Coil:Heating:DX:VariableSpeed", heatHeader fmt sys autosize U cap on tf ++ (speeds.map Prod.fst).flatten⟩

/-- The objects written by `write_idf`, resdx/idf.py:102-918. -/
def idfObjects (systemName : Option String) (st : SystemType) (autosize normalize : Bool) (U : IdfUnit C K) : Py (List IObj) := do
  let sys := prefixOf systemName
  let system ← systemObjects fmt sys st U
  let fan ← fanObject fmt sys st autosize U
  let objects := system ++ schedules sys ++ [fan] ++ axes fmt sys U
  let objects ← addCooling fmt sys autosize normalize U objects
  addHeating fmt sys autosize normalize U objects

/-- `write_idf`, resdx/idf.py:102-920. -/
def writeIdf (systemName : Option String) (st : SystemType) (autosize normalize : Bool) (U : IdfUnit C K) : Py String := do
  let objects ← idfObjects fmt systemName st autosize normalize U
  writeObjects objects

end
end Resdx.Idf
