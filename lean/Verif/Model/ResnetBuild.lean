import Verif.Model.Sensible
import Verif.Model.Resnet
import Verif.Model.ResnetFan
import Verif.Model.Ratings
import Verif.Model.TabularBuild
import Verif.Model.Title24
import Verif.Model.Hspf

/-!
# Model of the construction of a `DXUnit` with a `RESNETDXModel`

`DXUnit.__init__` (resdx/dx_unit.py:141-387) with `RESNETDXModel.set_net_capacities_and_fan` (resdx/models/unified_resnet.py:156-338), from the constructor arguments to the unit. An exception leaves no
unit, so the steps are functions into `Py`.

Simplifications: no fan is supplied (`fan=None`), the heating capacity is a number or `None` (a list of heating capacities makes no tables; that path is not modelled), the degradation coefficients are
numbers, and the speed index arguments are natural numbers. A missing rating that the table builder needs is reported before the builder runs (in Python the `TypeError` is raised inside it).
-/

namespace Resdx.Build

open BaseModel Fan ResnetFan

/-- The constructor arguments used with this model (resdx/dx_unit.py:141-187 and the keyword arguments of resdx/models/unified_resnet.py:32-38). `none` is `None`. The COP arguments
other than `rated_net_heating_cop` are only tested for being `None` (`RESNETDXModel.set_rated_*_cop` do nothing when there are tables). -/
structure Args where
  staging : Option Staging := none
  /-- `rated_net_total_cooling_capacity` -/
  cooling : NumArg ℝ
  /-- `rated_net_heating_capacity` -/
  heating : Option ℝ := none
  /-- `rated_gross_cooling_cop is not None` -/
  hasGrossCoolingCop : Bool := true
  /-- `rated_net_cooling_cop is not None` -/
  hasNetCoolingCop : Bool := false
  /-- `rated_gross_heating_cop is not None` -/
  hasGrossHeatingCop : Bool := true
  /-- `rated_net_heating_cop` -/
  netHeatingCop : Option ℝ := none
  /-- `rated_cooling_airflow_per_rated_net_capacity` -/
  coolingPerCap : Option (NumArg ℝ) := none
  /-- `rated_heating_airflow_per_rated_net_capacity` -/
  heatingPerCap : Option (NumArg ℝ) := none
  /-- `c_d_cooling` -/
  cdCooling : Option ℝ := none
  /-- `c_d_heating` -/
  cdHeating : Option ℝ := none
  /-- `cooling_off_temperature` -/
  coolingOff : ℝ := frF 125
  /-- `heating_off_temperature` -/
  heatingOff : Option ℝ := none
  /-- `heating_on_temperature` -/
  heatingOn : Option ℝ := none
  /-- `defrost` -/
  defrost : Defrost ℝ
  /-- `crankcase_heater_capacity` -/
  crankcase : Option ℝ := none
  /-- `refrigerant_charge_deviation` -/
  chargeDeviation : ℝ := 0
  /-- `cycling_method` -/
  cycling : DX.Cycling := .lowFull
  coolingFullSpeed : Nat := 0
  coolingIntermediateSpeed : Option Nat := none
  heatingFullSpeed : Nat := 0
  heatingIntermediateSpeed : Option Nat := none
  /-- `is_ducted` -/
  ducted : Bool := true
  /-- `rating_standard` -/
  standard : ResnetFan.Standard := .ahri2023
  /-- `input_seer` -/
  seer : Option ℝ := none
  /-- `input_eer` -/
  eer : Option ℝ := none
  /-- `input_hspf` -/
  hspf : Option ℝ := none
  /-- `rated_net_heating_capacity_17` -/
  heating17 : Option ℝ := none
  /-- `rated_net_total_cooling_cop_82_min` -/
  cop82 : Option ℝ := none
  /-- `min_net_total_cooling_capacity_ratio_95` -/
  ratio95 : Option ℝ := none
  /-- `tabular_data` -/
  tables : Option (Tabular.Perf ℝ) := none
  /-- `motor_type` (`true` = PSC) -/
  motorPSC : Option Bool := none

/-- `self.input_eer`, resdx/dx_unit.py:203-209. -/
noncomputable def inputEer (a : Args) : Option ℝ :=
  match a.eer, a.seer with
  | some e, _ => some e
  | none, some s => some (if s < 13 then 10 + 0.84 * (s - 11.5) else 11.3 + 0.57 * (s - 13))
  | none, none => none

/-- The number of speeds for a staging type, resdx/models/unified_resnet.py:163-169. -/
def speedCount (st : Staging) : Nat := if st = .varSpeed then 4 else st.value

/-- `set_c_d_cooling` and `set_c_d_heating`, resdx/models/unified_resnet.py:340-344. -/
noncomputable def cd (given : Option ℝ) : ℝ := given.getD 0.15

/-- `tabular_cooling_speed_map` and `tabular_heating_speed_map`, resdx/models/unified_resnet.py:203-205, 227-230, 265-270 (entry `i` is the value of key `i`). -/
def speedMap : Staging → List ℝ
  | .single => [1]
  | .two => [2, 1]
  | .varSpeed => [3, 2, 1.5, 1]

/-- `inverse_tabular_…_speed_map[s + 1]`, resdx/models/unified_resnet.py:272-281, 310, 314: the key whose value is the integer `s + 1`. -/
noncomputable def inverseGet (m : List ℝ) (s : Nat) : Py Nat :=
  match m.findIdx? fun v => decide (v = (s : ℝ) + 1) with
  | some k => .ok k
  | none => .error .key

/-- The speed indices after the model has set its own, resdx/models/unified_resnet.py:200-201, 221-225, 255-263. -/
def modelRoles (st : Staging) (r : Roles) : Roles :=
  match st with
  | .single => { r with full := 0 }
  | .two => { r with full := 0, low := some 1 }
  | .varSpeed => { r with boost := some 0, full := 1, intermediate := 2, low := some 3 }

/-- A number argument used in arithmetic: a list is a `TypeError`. -/
def number : NumArg ℝ → Py ℝ
  | .num x => .ok x
  | .list _ => .error .type

/-- The net heating capacity at 47 °F and its default, resdx/models/unified_resnet.py:172-184, 232-235. The default is computed even when it is not used. -/
noncomputable def heating47 (u : Units ℝ) (a : Args) (st : Staging) : Py ℝ :=
  if st = .varSpeed then do
    let q ← number a.cooling
    return a.heating.getD (q * 1.022 + 607 * u.btuh)
  else do
    let q ← pyGet (makeList a.cooling) 0
    return a.heating.getD (q * 0.98 + 180 * u.btuh)

/-- `input_hspf`, read only when no heating COP is given (resdx/models/tabular_data.py:448-449, 690-691, 828-829). -/
noncomputable def hspfFor (a : Args) : Py ℝ := if a.netHeatingCop.isSome then .ok (a.hspf.getD 0) else pyNum a.hspf

/-- `input_seer`, read by the two- and variable-speed builders only when no COP at 82 °F is given (resdx/models/tabular_data.py:344, 753). -/
noncomputable def seerFor (a : Args) : Py ℝ := if a.cop82.isSome then .ok (a.seer.getD 0) else pyNum a.seer

/-- `net_tabular_data`: the supplied tables, or those made from the ratings, resdx/models/unified_resnet.py:186-198, 207-219, 236-253. -/
noncomputable def netTables (u : Units ℝ) (a : Args) (st : Staging) (off q47 : ℝ) : Py (Tabular.Perf ℝ) :=
  match a.tables, st with
  | some d, _ => .ok d
  | none, .single => do
    let q95 ← number a.cooling
    Tabular.makeSingleSpeed u q95 (← pyNum a.seer) (← pyNum (inputEer a)) q47 a.heating17 (← hspfFor a) a.coolingOff off a.netHeatingCop (cd a.cdCooling)
  | none, .two => do
    let q95 ← number a.cooling
    Tabular.makeTwoSpeed u q95 (← seerFor a) (← pyNum (inputEer a)) q47 a.heating17 (← hspfFor a) a.coolingOff off a.cop82 a.netHeatingCop
  | none, .varSpeed => do
    let q95 ← number a.cooling
    Tabular.makeNeepStatistical u q95 (← seerFor a) (← pyNum (inputEer a)) q47 (some (a.heating17.getD (0.689 * q47))) (← hspfFor a) a.coolingOff off a.ratio95 a.cop82
      a.netHeatingCop

/-- The fan powers passed to `make_gross`, resdx/models/unified_resnet.py:308-315: one per table speed. -/
noncomputable def tableFanPowers (m : List ℝ) (n : Nat) (power : List (Option ℝ)) : Py (List ℝ) :=
  (List.range n).mapM fun s => do numAt power (← inverseGet m s)

/-- What `set_net_capacities_and_fan` leaves on the model and the unit. -/
structure Core where
  st : Staging
  rc : Roles
  rh : Roles
  net : Tabular.Perf ℝ
  gross : Tabular.Perf ℝ
  cool : Side
  heat : Side
  fan : Base
  psc : Bool
  /-- `rated_full_flow_external_static_pressure` -/
  fullESP : ℝ
  netCoolingCop : List ℝ
  grossCoolingCop : List ℝ
  netHeatingCop : List ℝ
  grossHeatingCop : List ℝ

/-- The staging type once the model has seen the tables, resdx/models/unified_resnet.py:159-162; `st` is the one chosen by the constructor. -/
def modelStaging (a : Args) (st : Staging) : Py Staging :=
  match a.tables with
  | some d => Staging.ofValue (min d.coolingCapacities.nSpeeds 3)
  | none => .ok st

/-- `set_net_capacities_and_fan`, resdx/models/unified_resnet.py:156-338, from the tables on: the rated capacities, the fan, the gross tables and the rated COPs. `set_lower_speed_net_capacities`
is never called here because two stages have two rated capacities. -/
noncomputable def core (u : Units ℝ) (brentq : Brentq) (a : Args) (st : Staging) (rc rh : Roles) (net : Tabular.Perf ℝ) : Py Core := do
  let m := speedMap st
  let qc ← m.mapM fun s => net.coolingCapacity s
  let qh ← m.mapM fun s => net.heatingCapacity s
  let fullESP ← fullFlowPressure u a.ducted a.standard qc
  let psc := a.motorPSC.getD (defaultMotorPSC st)
  let (cool, heat, fan) ← setFan u (motorPower u brentq psc) fullESP rc.full rh.full (Side.start u (speedCount st) qc a.coolingPerCap)
    (Side.start u (speedCount st) qh a.heatingPerCap)
  let cp ← tableFanPowers m net.coolingCapacities.nSpeeds cool.power
  let hp ← tableFanPowers m net.heatingCapacities.nSpeeds heat.power
  let gross ← (Tabular.Perf.makeGross cp hp).exec net
  let ncc ← m.mapM fun s => net.coolingCop s
  let gcc ← m.mapM fun s => gross.coolingCop s
  let nhc ← m.mapM fun s => net.heatingCop s
  let ghc ← m.mapM fun s => gross.heatingCop s
  return { st, rc, rh, net, gross, cool, heat, fan, psc, fullESP, netCoolingCop := ncc, grossCoolingCop := gcc, netHeatingCop := nhc, grossHeatingCop := ghc }

/-- `[net[i] ± power[i] for i in range(n)]`, resdx/dx_unit.py:330-340. -/
noncomputable def grossList (n : Nat) (caps : List ℝ) (power : List (Option ℝ)) (sign : ℝ) : Py (List (Option ℝ)) :=
  comp n fun i => do return (← pyGet caps i) + sign * (← numAt power i)

/-- The attributes read by the performance models, once the gross capacities are known (resdx/dx_unit.py:326-340). -/
noncomputable def sys (a : Args) (k : Core) : Py (Sys ℝ) := do
  let gc ← grossList (speedCount k.st) k.cool.caps k.cool.power 1
  let gh ← grossList (speedCount k.st) k.heat.caps k.heat.power (-1)
  return { netCooling := k.cool.caps, netHeating := k.heat.caps, coolingAirflow := k.cool.airflow, heatingAirflow := k.heat.airflow
           ratedCoolingFanSpeed := k.cool.ratedFanSpeed.map (·.map Int.toNat), ratedHeatingFanSpeed := k.heat.ratedFanSpeed.map (·.map Int.toNat)
           fullESP := k.fullESP, grossCooling := gc, grossCoolingCop := k.grossCoolingCop.map some, grossHeating := gh
           grossHeatingCop := k.grossHeatingCop.map some, chargeDeviation := a.chargeDeviation, defrost := a.defrost }

/-- What the model reads of its tables. -/
def data (k : Core) : Resnet.Data ℝ := { gross := some k.gross, coolingMap := speedMap k.st, heatingMap := speedMap k.st }

/-- `fan.power(conditions.fan_speed, conditions.external_static_pressure)`, resdx/dx_unit.py:680-683 and 978-981. -/
noncomputable def fanPower (u : Units ℝ) (brentq : Brentq) (k : Core) (c : Conditions ℝ) : Py ℝ := do
  let i ← pyNum c.flow.fanSpeed
  let p ← pyAttr c.flow.esp
  motorPower u brentq k.psc k.fan i (some p)

/-- The unit's performance functions for given coil data (`normalized_ntu`). -/
noncomputable def performance (u : Units ℝ) (E : Env ℝ) (T : Coil.Tools) (brentq : Brentq) (k : Core) (S : Sys ℝ) (P : DX.Points (Conditions ℝ)) (ntu : List (Option ℝ)) :
    DX.Performance (Conditions ℝ) ℝ :=
  let U0 := Resnet.unit E S (data k) (fun _ => .error .attribute) (fanPower u brentq k) P.aFull P.h1Full
  { U0 with sensible := fun c => Coil.sensibleFrom T c (U0.grossTotalCoolingCapacity (some c)) (Coil.bypass ntu c) }

/-- The coil data: `rated_gross_shr_cooling`, `rated_bypass_factor`, `normalized_ntu`. -/
structure CoilData where
  shr : List (Option ℝ)
  bf : List (Option ℝ)
  ntu : List (Option ℝ)

/-- One step of `set_sensible_cooling_variables`, resdx/dx_unit.py:482-485: the sensible heat ratio of the Title-24 correlation and the bypass factor at a condition, stored at speed `i`. -/
noncomputable def coilStep (u : Units ℝ) (T : Coil.Tools) (total : Conditions ℝ → Py ℝ) (i : Nat) (c : Conditions ℝ) (d : CoilData) : Py CoilData := do
  let wb ← (Psych.getWb c.indoor).1
  let shr ← Title24.shrAt ⟨toF wb, toF c.outdoor.db, toF c.indoor.db, (← pyAttr c.flow.stdVolPerCap) * u.ton / u.cfm⟩
  let s ← pySet d.shr i (some shr)
  let shr ← Sys.at_ s c.flow.compressorSpeed
  let r ← Coil.ratedBypass T c shr (← total c)
  let b ← pySet d.bf c.flow.compressorSpeed (some r.1)
  let n ← pySet d.ntu c.flow.compressorSpeed (some r.2)
  return { shr := s, bf := b, ntu := n }

/-- `set_sensible_cooling_variables`, resdx/dx_unit.py:481-503. -/
noncomputable def coilData (u : Units ℝ) (T : Coil.Tools) (total : Conditions ℝ → Py ℝ) (st : Staging) (r : Roles) (P : DX.Points (Conditions ℝ)) : Py CoilData := do
  let n := speedCount st
  let d ← coilStep u T total r.full P.aFull ⟨List.replicate n none, List.replicate n none, List.replicate n none⟩
  match st with
  | .single => return d
  | .two => low d
  | .varSpeed => do
    let d ← coilStep u T total r.intermediate (← pyAttr P.aInt) d
    let d ← boost d
    low d
where
  /-- Lines 494-498. -/
  boost (d : CoilData) : Py CoilData :=
    match r.boost with
    | none => .ok d
    | some b => do coilStep u T total b (← pyAttr P.aBoost) d
  /-- Lines 500-503. -/
  low (d : CoilData) : Py CoilData := do
    let i ← Ratings.speedIndex r.low
    coilStep u T total i (← pyAttr P.aLow) d

/-- A constructed unit. -/
structure Built where
  core : Core
  sys : Sys ℝ
  points : DX.Points (Conditions ℝ)
  coil : CoilData
  cdCooling : ℝ
  cdHeating : ℝ
  coolingOff : ℝ
  heatingOff : ℝ
  /-- `heating_on_temperature`; `none` = attribute missing -/
  heatingOn : Option ℝ
  crankcase : ℝ
  cycling : DX.Cycling
  standard : ResnetFan.Standard

/-- The crankcase heater, resdx/dx_unit.py:342-349. -/
noncomputable def crankcase (u : Units ℝ) (a : Args) (k : Core) : Py ℝ :=
  match a.crankcase with
  | some c => .ok c
  | none => do return 10 * ((← pyGet k.cool.caps k.rc.full) / u.ton)

/-- `DXUnit(model=RESNETDXModel(), …)`: `DXUnit.__init__`, resdx/dx_unit.py:141-387. -/
noncomputable def build (u : Units ℝ) (E : Env ℝ) (T : Coil.Tools) (brentq : Brentq) (a : Args) : Py Built := do
  let nC := numberOfSpeeds (some a.cooling) a.staging
  let nH := numberOfSpeeds (a.heating.map NumArg.num) a.staging
  let st0 ← stagingOf nH a.staging
  let off := DX.offTemperature a.heatingOff st0
  let st ← modelStaging a st0
  let q47 ← heating47 u a st
  let net ← netTables u a st off q47
  let rc := modelRoles st (roles nC a.coolingFullSpeed a.coolingIntermediateSpeed)
  let rh := modelRoles st (roles nH a.heatingFullSpeed a.heatingIntermediateSpeed)
  let k ← core u brentq a st rc rh net
  let S ← sys a k
  let cr ← crankcase u a k
  let P ← Ratings.setRatingConditions E S st rc rh
  let U := performance u E T brentq k S P []
  let coil ← coilData u T (fun c => U.grossTotalCoolingCapacity (some c)) st rc P
  if a.hasNetCoolingCop = false ∧ a.hasGrossCoolingCop = false then .error .runtime
  else if a.netHeatingCop.isNone ∧ a.hasGrossHeatingCop = false then .error .runtime
  else do
    finalChecks (speedCount st) (speedCount st) k.cool.caps coil.shr (k.grossHeatingCop.map some) k.heat.caps
    return { core := k, sys := S, points := P, coil, cdCooling := cd a.cdCooling, cdHeating := cd a.cdHeating, coolingOff := a.coolingOff, heatingOff := off
             heatingOn := DX.onTemperature a.heatingOn off, crankcase := cr, cycling := a.cycling, standard := a.standard }

/-- The performance functions of a constructed unit. -/
noncomputable def Built.unit (u : Units ℝ) (E : Env ℝ) (T : Coil.Tools) (brentq : Brentq) (B : Built) : DX.Performance (Conditions ℝ) ℝ :=
  performance u E T brentq B.core B.sys B.points B.coil.ntu

/-- `unit.seer()`. -/
noncomputable def Built.seer (u : Units ℝ) (E : Env ℝ) (T : Coil.Tools) (brentq : Brentq) (B : Built) : Py ℝ :=
  DX.seer (B.unit u E T brentq) B.points u B.core.st B.cdCooling B.cycling DX.coolingBins

/-- `unit.eer()`. -/
noncomputable def Built.eer (u : Units ℝ) (E : Env ℝ) (T : Coil.Tools) (brentq : Brentq) (B : Built) : Py ℝ := (B.unit u E T brentq).eer u none

end Resdx.Build
