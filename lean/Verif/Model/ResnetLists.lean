import Verif.Model.UnitBuild
import Verif.Model.Hspf

/-!
# Model of a `DXUnit` with a `RESNETDXModel` made from lists of capacities

When the heating capacity is given as a list, `RESNETDXModel.set_net_capacities_and_fan` makes no tables (resdx/models/unified_resnet.py:300-304): the rated capacities are the given lists, the performance functions
are the NREL curves, and the COPs go through the setters of `NRELDXModel` (resdx/models/nrel.py:567-732), which default the lower speeds differently from the base class.

Simplifications: no `tabular_data` is given (supplied tables with a list of heating capacities end in an `AttributeError`, since the speed maps are only set when the capacity is no list); the degradation coefficients
are numbers; the speed index arguments and the entries of fan-speed maps are natural numbers; attributes that are only stored are left out.
-/

namespace Resdx.Nrel

open BaseModel

variable {K : Type} [Field K] [LinearOrder K]

/-- The divisor that takes the COP of the high speed to that of the low speed: `cooling_cop_low` and `heating_cop_low`, resdx/models/nrel.py:567-573. -/
def copLow (heating : Bool) : K := if heating then 0.87 else 0.91

/-- The low speed in `set_rated_net_*_cop` with a number, resdx/models/nrel.py:608-624 and 687-703. -/
def netCopLow (heating : Bool) (s : Rated K) : Py (Rated K) :=
  if s.n = 2 then do
    let gc ← pySet s.grossCop 1 (some ((← numAt s.grossCop 0) / copLow heating))
    let s := { s with grossCop := gc }
    let gp ← pySet s.grossPower 1 (some (← pdiv (← numAt s.grossCap 1) (← numAt s.grossCop 1)))
    let s := { s with grossPower := gp }
    let np ← pySet s.netPower 1 (some ((← numAt s.grossPower 1) + (← numAt s.fanPower 1)))
    let s := { s with netPower := np }
    let nc ← pySet s.netCop 1 (some (← pdiv (← pyGet s.netCap 1) (← numAt s.netPower 1)))
    return { s with netCop := nc }
  else .ok s

/-- `set_rated_net_cooling_cop` and `set_rated_net_heating_cop`, resdx/models/nrel.py:575-624 and 654-703: a list goes to all speeds as in the base class; a number only to the first speed and, with two speeds, to the
second. -/
def setNetCop (heating : Bool) (input : NumArg K) (s : Rated K) : Py (Rated K) :=
  match input with
  | .list l => BaseModel.setNetCop (.list l) s
  | .num x => do
    let nc ← pySet s.netCop 0 (some x)
    let s := { s with netCop := nc }
    let np ← pySet s.netPower 0 (some (← pdiv (← pyGet s.netCap 0) (← numAt s.netCop 0)))
    let s := { s with netPower := np }
    let gp ← pySet s.grossPower 0 (some ((← numAt s.netPower 0) - (← numAt s.fanPower 0)))
    let s := { s with grossPower := gp }
    let gc ← pySet s.grossCop 0 (some (← pdiv (← numAt s.grossCap 0) (← numAt s.grossPower 0)))
    netCopLow heating { s with grossCop := gc }

/-- The gross COPs in `set_rated_gross_*_cop`, resdx/models/nrel.py:628-635 and 707-714. -/
def grossCops (heating : Bool) (input : NumArg K) (s : Rated K) : Py (List (Option K)) :=
  match input with
  | .list l => .ok (l.map some)
  | .num x => do
    let gc ← pySet s.grossCop 0 (some x)
    if s.n = 2 then pySet gc 1 (some ((← numAt gc 0) / copLow heating)) else return gc

/-- `set_rated_gross_cooling_cop` and `set_rated_gross_heating_cop`, resdx/models/nrel.py:626-652 and 705-732: the powers and the net COP are recomputed for all speeds. -/
def setGrossCop (heating : Bool) (input : NumArg K) (s : Rated K) : Py (Rated K) := do
  let gc ← grossCops heating input s
  let s := { s with grossCop := gc }
  let gp ← comp s.n fun i => do pdiv (← numAt s.grossCap i) (← numAt s.grossCop i)
  let s := { s with grossPower := gp }
  let np ← comp s.n fun i => do return (← numAt s.grossPower i) + (← numAt s.fanPower i)
  let s := { s with netPower := np }
  let nc ← comp s.n fun i => do pdiv (← pyGet s.netCap i) (← numAt s.netPower i)
  return { s with netCop := nc }

end Resdx.Nrel

namespace Resdx.ListBuild

open BaseModel Fan ResnetFan UnitBuild

/-- The constructor arguments used, resdx/dx_unit.py:141-187 and the keyword argument `motor_type`. `none` is `None`. -/
structure Args where
  staging : Option Staging := none
  /-- `rated_net_total_cooling_capacity` -/
  cooling : NumArg ℝ
  /-- `rated_net_heating_capacity`, a list -/
  heating : List ℝ
  /-- `rated_gross_cooling_cop` -/
  grossCoolingCop : Option (NumArg ℝ) := defaultGrossCoolingCop
  /-- `rated_net_cooling_cop` -/
  netCoolingCop : Option (NumArg ℝ) := none
  /-- `rated_gross_heating_cop` -/
  grossHeatingCop : Option (NumArg ℝ) := defaultGrossHeatingCop
  /-- `rated_net_heating_cop` -/
  netHeatingCop : Option (NumArg ℝ) := none
  /-- `rated_cooling_airflow_per_rated_net_capacity` -/
  coolingPerCap : Option (NumArg ℝ) := none
  /-- `rated_heating_airflow_per_rated_net_capacity` -/
  heatingPerCap : Option (NumArg ℝ) := none
  /-- `c_d_cooling` -/
  cdCooling : Option ℝ := none
  /-- `c_d_heating` -/
  cdHeating : Option ℝ := none
  /-- `heating_off_temperature` -/
  heatingOff : Option ℝ := none
  /-- `heating_on_temperature` -/
  heatingOn : Option ℝ := none
  defrost : Defrost ℝ
  fan : Option AnyFan := none
  /-- `rated_cooling_fan_speed`, used with a supplied fan -/
  ratedCoolingFanSpeed : Option (List Nat) := none
  /-- `rated_heating_fan_speed`, used with a supplied fan -/
  ratedHeatingFanSpeed : Option (List Nat) := none
  /-- `crankcase_heater_capacity` -/
  crankcase : Option ℝ := none
  /-- `refrigerant_charge_deviation` -/
  chargeDeviation : ℝ := 0
  /-- `cycling_method` -/
  cycling : DX.Cycling := .lowFull
  coolingFullSpeed : Nat := 0
  coolingIntermediateSpeed : Option Nat := none
  heatingFullSpeed : Nat := 0
  heatingIntermediateSpeed : Option Nat := none
  /-- `is_ducted` -/
  ducted : Bool := true
  /-- `rating_standard` -/
  standard : ResnetFan.Standard := .ahri2023
  /-- `motor_type` (`true` = PSC) -/
  motorPSC : Option Bool := none

/-- `number_of_cooling_speeds`, resdx/dx_unit.py:232-240. -/
def Args.nC (a : Args) : Nat := numberOfSpeeds (some a.cooling) a.staging
/-- `number_of_heating_speeds`, resdx/dx_unit.py:242-249. -/
def Args.nH (a : Args) : Nat := a.heating.length
/-- The cooling speed indices, resdx/dx_unit.py:251-280. -/
def Args.rc (a : Args) : Roles := roles a.nC a.coolingFullSpeed a.coolingIntermediateSpeed
/-- The heating speed indices, resdx/dx_unit.py:251-280. -/
def Args.rh (a : Args) : Roles := roles a.nH a.heatingFullSpeed a.heatingIntermediateSpeed

/-- The rated airflows, fan powers and fan speeds of both modes and the power function of the fan. -/
structure FanSet where
  coolAirflow : List (Option ℝ)
  heatAirflow : List (Option ℝ)
  coolPower : List (Option ℝ)
  heatPower : List (Option ℝ)
  coolSpeed : List (Option Nat)
  heatSpeed : List (Option Nat)
  power : Int → Option ℝ → Py ℝ

/-- `set_fan(None)`: the fan of the model, resdx/models/unified_resnet.py:406-575. -/
noncomputable def ownFan (u : Units ℝ) (brentq : Brentq) (a : Args) (st : Staging) (fullESP : ℝ) (qc : List ℝ) : Py FanSet := do
  let psc := a.motorPSC.getD (defaultMotorPSC st)
  let (c, h, b) ← ResnetFan.setFan u (motorPower u brentq psc) fullESP a.coolingFullSpeed a.heatingFullSpeed (Side.start u a.nC qc a.coolingPerCap)
    (Side.start u a.nH a.heating a.heatingPerCap)
  return { coolAirflow := c.airflow, heatAirflow := h.airflow, coolPower := c.power, heatPower := h.power, coolSpeed := c.ratedFanSpeed.map (·.map Int.toNat)
           heatSpeed := h.ratedFanSpeed.map (·.map Int.toNat), power := motorPower u brentq psc b }

/-- `set_fan(fan)`, resdx/models/unified_resnet.py:390-405. -/
def givenFan (a : Args) (f : AnyFan) : Py FanSet := do
  let (ca, cp) ← resnetSupplied f a.nC a.ratedCoolingFanSpeed
  let (ha, hp) ← resnetSupplied f a.nH a.ratedHeatingFanSpeed
  return { coolAirflow := ca, heatAirflow := ha, coolPower := cp, heatPower := hp, coolSpeed := (a.ratedCoolingFanSpeed.getD []).map some
           heatSpeed := (a.ratedHeatingFanSpeed.getD []).map some, power := f.power }

/-- `set_fan`, resdx/models/unified_resnet.py:370-575. -/
noncomputable def setFan (u : Units ℝ) (brentq : Brentq) (a : Args) (st : Staging) (fullESP : ℝ) (qc : List ℝ) : Py FanSet :=
  match a.fan with
  | some f => givenFan a f
  | none => ownFan u brentq a st fullESP qc

/-- `set_lower_speed_net_capacities`, resdx/models/unified_resnet.py:335-338 and 577-668: a unit declared two-stage with one cooling capacity has placeholder lists of length one, so storing the gross capacity of the low
speed (line 587) is an `IndexError`. -/
def lowerSpeeds (st : Staging) (qc : List ℝ) : Py Unit := if st = .two ∧ qc.length = 1 then .error .index else .ok ()

/-- The attributes the performance functions read. -/
def sysOf (a : Args) (qc : List ℝ) (fullESP : ℝ) (f : FanSet) (gc gh copC copH : List (Option ℝ)) : Sys ℝ :=
  { netCooling := qc, netHeating := a.heating, coolingAirflow := f.coolAirflow, heatingAirflow := f.heatAirflow, ratedCoolingFanSpeed := f.coolSpeed, ratedHeatingFanSpeed := f.heatSpeed, fullESP
    grossCooling := gc, grossCoolingCop := copC, grossHeating := gh, grossHeatingCop := copH, chargeDeviation := a.chargeDeviation, defrost := a.defrost }

/-- `fan.power(conditions.fan_speed, conditions.external_static_pressure)`, resdx/dx_unit.py:680-683 and 978-981. -/
def fanPower (f : FanSet) (c : Conditions ℝ) : Py ℝ := do
  let i ← pyNum c.flow.fanSpeed
  let p ← pyAttr c.flow.esp
  f.power i (some p)

/-- The unit's performance functions for given coil data (`normalized_ntu`): the model has no tables. -/
noncomputable def performance (E : Env ℝ) (T : Coil.Tools) (f : FanSet) (S : Sys ℝ) (P : DX.Points (Conditions ℝ)) (ntu : List (Option ℝ)) : DX.Performance (Conditions ℝ) ℝ :=
  let U0 := Resnet.unit E S ⟨none, [], []⟩ (fun _ => .error .attribute) (fanPower f) P.aFull P.h1Full
  { U0 with sensible := fun c => Coil.sensibleFrom T c (U0.grossTotalCoolingCapacity (some c)) (Coil.bypass ntu c) }

/-- `RESNETDXModel.gross_shr`, resdx/models/unified_resnet.py:93-94: the Title-24 correlation, resdx/models/title24.py:39-61. -/
noncomputable def grossShr (u : Units ℝ) (c : Conditions ℝ) : Py ℝ := do
  let wb ← (Psych.getWb c.indoor).1
  Title24.shrAt ⟨toF wb, toF c.outdoor.db, toF c.indoor.db, (← pyAttr c.flow.stdVolPerCap) * u.ton / u.cfm⟩

/-- The crankcase heater, resdx/dx_unit.py:342-349. -/
noncomputable def crankcase (u : Units ℝ) (a : Args) (qc : List ℝ) : Py ℝ :=
  match a.crankcase with
  | some c => .ok c
  | none => do return 10 * ((← pyGet qc a.coolingFullSpeed) / u.ton)

/-- The COP part of the constructor, resdx/dx_unit.py:357-378, with the setters of resdx/models/unified_resnet.py:346-368. -/
noncomputable def cops (a : Args) (c0 h0 : Rated ℝ) : Py (Rated ℝ × Rated ℝ) :=
  if a.netCoolingCop = none ∧ a.grossCoolingCop = none then .error .runtime
  else if a.netHeatingCop = none ∧ a.grossHeatingCop = none then .error .runtime
  else do
    let c ← applyOpt (Nrel.setGrossCop false) a.grossCoolingCop (← applyOpt (Nrel.setNetCop false) a.netCoolingCop c0)
    let h ← applyOpt (Nrel.setGrossCop true) a.grossHeatingCop (← applyOpt (Nrel.setNetCop true) a.netHeatingCop h0)
    return (c, h)

/-- A constructed unit. -/
structure Built where
  st : Staging
  rc : Roles
  rh : Roles
  fan : FanSet
  sys : Sys ℝ
  points : DX.Points (Conditions ℝ)
  coil : Build.CoilData
  cool : Rated ℝ
  heat : Rated ℝ
  cdCooling : ℝ
  cdHeating : ℝ
  heatingOff : ℝ
  /-- `heating_on_temperature`; `none`: the attribute is missing -/
  heatingOn : Option ℝ
  crankcase : ℝ
  cycling : DX.Cycling
  standard : ResnetFan.Standard

/-- `rated_net_total_cooling_capacity` used as a list: a number cannot be indexed. (With a supplied fan, an exception of the fan would come first.) -/
def coolingList (a : Args) : Py (List ℝ) :=
  match a.cooling with
  | .list l => .ok l
  | .num _ => .error .type

/-- `DXUnit(model=RESNETDXModel(), rated_net_heating_capacity=[…], …)`: `DXUnit.__init__`, resdx/dx_unit.py:141-387. -/
noncomputable def build (u : Units ℝ) (E : Env ℝ) (T : Coil.Tools) (brentq : Brentq) (a : Args) : Py Built := do
  let st ← stagingOf a.nH a.staging
  let qc ← coolingList a
  let fullESP ← fullFlowPressure u a.ducted a.standard qc
  let f ← setFan u brentq a st fullESP qc
  lowerSpeeds st qc
  let gc ← Build.grossList a.nC qc f.coolPower 1
  let gh ← Build.grossList a.nH a.heating f.heatPower (-1)
  let cr ← crankcase u a qc
  let S0 := sysOf a qc fullESP f gc gh (List.replicate a.nC none) (List.replicate a.nH none)
  let P ← Ratings.setRatingConditions E S0 st a.rc a.rh
  let coil ← UnitBuild.coilData T (grossShr u, fun c => (performance E T f S0 P []).grossTotalCoolingCapacity (some c)) a.nC st a.rc P
  let (c, h) ← cops a { Rated.fresh a.nC qc f.coolPower with grossCap := gc } { Rated.fresh a.nH a.heating f.heatPower with grossCap := gh }
  finalChecks a.nC a.nH qc coil.shr h.grossCop a.heating
  return { st, rc := a.rc, rh := a.rh, fan := f, sys := sysOf a qc fullESP f gc gh c.grossCop h.grossCop, points := P, coil, cool := c, heat := h
           cdCooling := Build.cd a.cdCooling, cdHeating := Build.cd a.cdHeating, heatingOff := DX.offTemperature a.heatingOff st
           heatingOn := DX.onTemperature a.heatingOn (DX.offTemperature a.heatingOff st), crankcase := cr, cycling := a.cycling, standard := a.standard }

/-- The performance functions of a constructed unit. -/
noncomputable def Built.unit (E : Env ℝ) (T : Coil.Tools) (B : Built) : DX.Performance (Conditions ℝ) ℝ := performance E T B.fan B.sys B.points B.coil.ntu

/-- `unit.seer()`. -/
noncomputable def Built.seer (u : Units ℝ) (E : Env ℝ) (T : Coil.Tools) (B : Built) : Py ℝ := DX.seer (B.unit E T) B.points u B.st B.cdCooling B.cycling DX.coolingBins

/-- The attributes `hspf` reads besides the performance functions. -/
noncomputable def Built.heatSettings (B : Built) : DX.HeatSettings ℝ := { st := B.st, cd := B.cdHeating, cyc := B.cycling, off := B.heatingOff, on := B.heatingOn }

/-- `unit.hspf(region)`, resdx/dx_unit.py:1080-1376. -/
noncomputable def Built.hspf (u : Units ℝ) (E : Env ℝ) (T : Coil.Tools) (B : Built) (region : Nat := 4) : Py ℝ :=
  DX.hspf (B.unit E T) B.points u (match B.standard with | .ahri2017 => .ahri2017 | .ahri2023 => .ahri2023) B.heatSettings B.sys.defrost region

/-- `unit.eer()`. -/
noncomputable def Built.eer (u : Units ℝ) (E : Env ℝ) (T : Coil.Tools) (B : Built) : Py ℝ := (B.unit E T).eer u none

end Resdx.ListBuild
