import Verif.Model.ResnetBuild

/-!
# Model of the construction of a `DXUnit` with the other performance models

`DXUnit.__init__` (resdx/dx_unit.py:141-387) with `ConstantDXModel`, `CarrierDefrostModel`, `NRELDXModel` and `Title24DXModel`, and with or without a supplied fan; the keyword arguments of all models; model objects
shared by several units. An exception leaves no unit, so the steps are functions into `Py`.

Simplifications: the degradation coefficients and the other arguments that are only stored are left out; the speed index arguments and the entries of fan-speed maps are natural numbers.
-/

namespace Resdx.UnitBuild

open BaseModel Fan

/-! ## Keyword arguments -/

/-- The performance models, resdx/models. -/
inductive Class
  | constant
  | carrier
  | nrel
  | title24
  | resnet
  deriving DecidableEq

/-- `allowed_kwargs`, resdx/models/base_model.py:12, resdx/models/title24.py:15-20, resdx/models/unified_resnet.py:32-38. -/
def allowedKwargs : Class → List String
  | .title24 => ["base_model", "cap17", "cap35", "cop35", "input_cooling_efficiency_multiplier"]
  | .resnet => ["base_model", "rated_net_heating_capacity_17", "rated_net_total_cooling_cop_82_min", "min_net_total_cooling_capacity_ratio_95", "tabular_data", "motor_type"]
  | _ => ["base_model"]

/-- `DXModel.set_system`, resdx/models/base_model.py:14-21: the check of the keyword arguments (in the order they were given). -/
def setSystem (m : Class) : List String → Py Unit
  | [] => .ok ()
  | k :: ks => if k ∈ allowedKwargs m then setSystem m ks else .error .exception

/-- `DXModel.get_kwarg_value`, resdx/models/base_model.py:26-30. -/
def kwargValue {V : Type} (kwargs : List (String × V)) (name : String) : Option V := (kwargs.find? fun p => p.1 = name).map Prod.snd

/-- What `RESNETDXModel.process_kwargs` stores, resdx/models/unified_resnet.py:51-65; the other models store nothing, resdx/models/base_model.py:23-24. -/
structure ResnetKwargs (V : Type) where
  tables : Option V
  motor : Option V
  heating17 : Option V
  ratio95 : Option V
  eirRatio82 : Option V
  cop82 : Option V

/-- `RESNETDXModel.process_kwargs`, resdx/models/unified_resnet.py:51-65. -/
def processKwargs {V : Type} (kwargs : List (String × V)) : ResnetKwargs V :=
  { tables := kwargValue kwargs "tabular_data", motor := kwargValue kwargs "motor_type", heating17 := kwargValue kwargs "rated_net_heating_capacity_17"
    ratio95 := kwargValue kwargs "min_net_total_cooling_capacity_ratio_95", eirRatio82 := kwargValue kwargs "min_net_total_cooling_eir_ratio_82"
    cop82 := kwargValue kwargs "rated_net_total_cooling_cop_82_min" }

/-! ## Arguments -/

/-- A fan object as a unit uses it: `airflow(speed, pressure)` and `power(speed, pressure)`. -/
structure AnyFan where
  airflow : Int → Option ℝ → Py ℝ
  power : Int → Option ℝ → Py ℝ

/-- The constructor arguments, resdx/dx_unit.py:141-187. `none` is `None`. -/
structure Args where
  staging : Option Staging := none
  /-- `rated_net_total_cooling_capacity` -/
  cooling : NumArg ℝ
  /-- `rated_net_heating_capacity` -/
  heating : Option (NumArg ℝ) := none
  /-- `rated_gross_cooling_cop` -/
  grossCoolingCop : Option (NumArg ℝ) := defaultGrossCoolingCop
  /-- `rated_net_cooling_cop` -/
  netCoolingCop : Option (NumArg ℝ) := none
  /-- `rated_gross_heating_cop` -/
  grossHeatingCop : Option (NumArg ℝ) := defaultGrossHeatingCop
  /-- `rated_net_heating_cop` -/
  netHeatingCop : Option (NumArg ℝ) := none
  /-- `rated_cooling_airflow_per_rated_net_capacity` -/
  coolingPerCap : Option (NumArg ℝ) := none
  /-- `rated_heating_airflow_per_rated_net_capacity` -/
  heatingPerCap : Option (NumArg ℝ) := none
  defrost : Defrost ℝ
  fan : Option AnyFan := none
  coolingFanSpeed : Option (List Nat) := none
  heatingFanSpeed : Option (List Nat) := none
  ratedCoolingFanSpeed : Option (List Nat) := none
  ratedHeatingFanSpeed : Option (List Nat) := none
  /-- `crankcase_heater_capacity` -/
  crankcase : Option ℝ := none
  /-- `refrigerant_charge_deviation` -/
  chargeDeviation : ℝ := 0
  coolingFullSpeed : Nat := 0
  coolingIntermediateSpeed : Option Nat := none
  heatingFullSpeed : Nat := 0
  heatingIntermediateSpeed : Option Nat := none
  ducted : Bool := true
  standard : ResnetFan.Standard := .ahri2023
  /-- `input_seer` -/
  seer : Option ℝ := none
  /-- `input_hspf` -/
  hspf : Option ℝ := none
  /-- `c_d_heating` (a number) -/
  cdHeating : ℝ := 0.25
  /-- The keyword arguments of `Title24DXModel`. -/
  cap17 : Option (List ℝ) := none
  cap35 : Option (List ℝ) := none
  cop35 : Option (List ℝ) := none
  /-- `input_cooling_efficiency_multiplier` -/
  multiplier : Option ℝ := none
  /-- The names of all other keyword arguments. -/
  otherKwargs : List String := []

/-- The names of the keyword arguments (`kwargs`, resdx/dx_unit.py:189). Their order decides only which one an error message names. -/
def Args.kwargs (a : Args) : List String :=
  (if a.cap17.isSome then ["cap17"] else []) ++ (if a.cap35.isSome then ["cap35"] else []) ++ (if a.cop35.isSome then ["cop35"] else [])
    ++ (if a.multiplier.isSome then ["input_cooling_efficiency_multiplier"] else []) ++ a.otherKwargs

/-- `number_of_cooling_speeds`, resdx/dx_unit.py:233-240. -/
def Args.nC (a : Args) : Nat := numberOfSpeeds (some a.cooling) a.staging
/-- `number_of_heating_speeds`, resdx/dx_unit.py:242-249. -/
def Args.nH (a : Args) : Nat := numberOfSpeeds a.heating a.staging

/-- What `set_net_capacities_and_fan` leaves on the unit. `coolSpeed` and `heatSpeed` are `rated_…_fan_speed`. -/
structure Assigned where
  coolCaps : List ℝ
  heatCaps : List ℝ
  coolAirflow : List (Option ℝ)
  heatAirflow : List (Option ℝ)
  coolPower : List (Option ℝ)
  heatPower : List (Option ℝ)
  coolSpeed : Option (List Nat)
  heatSpeed : Option (List Nat)
  fan : AnyFan

/-- `set_fan(fan)` of the models other than `RESNETDXModel`, resdx/models/base_model.py:124-126, resdx/models/nrel.py:523-525, resdx/models/title24.py:562-564: only the fan is stored; the rated airflows and
fan powers stay placeholders. -/
def suppliedFan (a : Args) (fan : AnyFan) (qc qh : List ℝ) : Assigned :=
  { coolCaps := qc, heatCaps := qh, coolAirflow := List.replicate a.nC none, heatAirflow := List.replicate a.nH none, coolPower := List.replicate a.nC none
    heatPower := List.replicate a.nH none, coolSpeed := a.ratedCoolingFanSpeed, heatSpeed := a.ratedHeatingFanSpeed, fan }

/-! ## The base class: `ConstantDXModel`, `CarrierDefrostModel` -/

/-- `DXModel.set_net_capacities_and_fan`, resdx/models/base_model.py:167-172. -/
noncomputable def baseAssign (u : Units ℝ) (a : Args) : Py Assigned := do
  let qc := netCoolingCapacity a.nC a.cooling
  let qh ← netHeatingCapacity a.nH qc a.heating
  match a.fan with
  | some f => return suppliedFan a f qc qh
  | none => do
    let s ← setFan u a.nC a.nH qc qh
    return { coolCaps := qc, heatCaps := qh, coolAirflow := s.cool.airflow, heatAirflow := s.heat.airflow, coolPower := s.cool.power, heatPower := s.heat.power
             coolSpeed := some s.cool.speed, heatSpeed := some s.heat.speed, fan := ⟨s.fan.airflow, s.fan.power⟩ }

/-! ## `Title24DXModel` -/

/-- `Title24DXModel.set_net_capacities_and_fan`, resdx/models/title24.py:615-621. -/
noncomputable def title24Assign (u : Units ℝ) (a : Args) : Py Assigned := do
  let qc := netCoolingCapacity a.nC a.cooling
  let qh ← netHeatingCapacity a.nH qc a.heating
  match a.fan with
  | some f => return suppliedFan a f qc qh
  | none => do
    let s ← Title24.setFan u a.nC a.nH qc a.coolingFanSpeed.isSome a.heatingFanSpeed.isSome
    let f ← ConstEff.init s.airflows (0.2 * u.inH2O) (.list s.efficacies)
    return { coolCaps := qc, heatCaps := qh, coolAirflow := s.coolingAirflow, heatAirflow := s.heatingAirflow, coolPower := s.coolingFanPower
             heatPower := s.heatingFanPower, coolSpeed := some s.coolingFanSpeed, heatSpeed := some s.heatingFanSpeed, fan := ⟨f.airflow, f.power⟩ }

/-! ## `NRELDXModel` and `NRELFan` -/

/-- `NRELFan`, resdx/models/nrel.py:735-746. `power_ratio` and `design_power` are its own lists. -/
structure NrelFan where
  base : Base
  efficacy : Efficacies
  powerRatio : List ℝ
  designPower : List ℝ

namespace NrelFan

/-- `add_speed`, resdx/models/nrel.py:748-753: a list of efficacies cannot be multiplied by a number. -/
noncomputable def addSpeed (a : ℝ) : PyM NrelFan Unit := do
  PyM.zoom NrelFan.base (fun b s => { s with base := b }) (Base.addSpeed a)
  let s ← PyM.get
  let r ← PyM.lift (match s.base.ratio.getLast? with
    | some r => .ok r
    | none => .error .index)
  let p := r ^ 3
  PyM.modify fun s => { s with powerRatio := s.powerRatio ++ [p] }
  let a0 ← PyM.lift (pyGet s.base.airflow 0)
  match s.efficacy with
  | .list _ => PyM.raise .type
  | .scalar e => PyM.modify fun s => { s with designPower := s.designPower ++ [a0 * e * p] }

/-- `remove_speed`, resdx/models/nrel.py:755-758. -/
noncomputable def removeSpeed (i : Int) : PyM NrelFan Unit := do
  PyM.zoom NrelFan.base (fun b s => { s with base := b }) (Base.removeSpeed i)
  let r ← pyPopI (← PyM.get).powerRatio i
  PyM.modify fun s => { s with powerRatio := r }
  let d ← pyPopI (← PyM.get).designPower i
  PyM.modify fun s => { s with designPower := d }

/-- `__init__`, resdx/models/nrel.py:736-746. -/
noncomputable def init (airflows : List ℝ) (designESP : ℝ) (efficacy : Efficacies) : Py NrelFan := do
  let b ← Base.start designESP airflows
  (addAll addSpeed airflows).exec { base := b, efficacy, powerRatio := [], designPower := [] }

/-- The methods as a unit calls them, with a speed and a pressure. `airflow(self, conditions)` and `power(self, conditions)` (resdx/models/nrel.py:760-764) take one argument, so the call is a `TypeError`. -/
def asFan (_ : NrelFan) : AnyFan := { airflow := fun _ _ => .error .type, power := fun _ _ => .error .type }

/-- `airflow(conditions)`, resdx/models/nrel.py:760-761; `i` is `conditions.speed_setting`. -/
def airflowAt (s : NrelFan) (i : Int) : Py ℝ := pyGetI s.base.airflow i
/-- `power(conditions)`, resdx/models/nrel.py:763-764. -/
def powerAt (s : NrelFan) (i : Int) : Py ℝ := pyGetI s.designPower i
/-- `efficacy(conditions)`, resdx/models/nrel.py:766-767. -/
noncomputable def efficacyAt (s : NrelFan) (i : Int) : Py ℝ := do pdiv (← s.powerAt i) (← s.airflowAt i)

end NrelFan

/-- The default fan efficacy, resdx/models/nrel.py:432-446 (W/cfm to SI is division by the cfm factor). -/
noncomputable def nrelEfficacy (u : Units ℝ) : Option ℝ → ℝ
  | none => 0.25 / u.cfm
  | some s =>
    if s ≤ 14 then 0.25 / u.cfm
    else if 16 ≤ s then 0.18 / u.cfm
    else 0.25 / u.cfm + (0.18 / u.cfm - 0.25 / u.cfm) * (s - 14) / 2

/-- The attributes of one mode `NRELDXModel.set_rated_fan_characteristics` is concerned with; `eff = none`: the attribute does not exist. -/
structure NrelSide where
  eff : Option (List ℝ)
  perCap : Option (NumArg ℝ)

/-- The defaults of one mode, resdx/models/nrel.py:447-472: `one` and `two` are the airflows per capacity of one- and two-speed units, `ratio` the factor of the low speed. -/
noncomputable def nrelDefaults (e : ℝ) (n : Nat) (given : Option (NumArg ℝ)) (one two ratio : ℝ) : NrelSide :=
  { eff := some (List.replicate n e)
    perCap := if n = 1 then some (.list [one]) else if n = 2 then some (.list [two, two * ratio]) else given }

/-- `set_rated_fan_characteristics`, resdx/models/nrel.py:428-472: cooling and heating. -/
noncomputable def nrelCharacteristics (u : Units ℝ) (a : Args) : NrelSide × NrelSide :=
  match a.fan with
  | some _ => (⟨none, a.coolingPerCap⟩, ⟨none, a.heatingPerCap⟩)
  | none =>
    let e := nrelEfficacy u a.seer
    (nrelDefaults e a.nC a.coolingPerCap (394.2 * u.cfm / u.ton) (344.1 * u.cfm / u.ton) 0.86,
     nrelDefaults e a.nH a.heatingPerCap (384.1 * u.cfm / u.ton) (352.2 * u.cfm / u.ton) 0.8)

/-- `rated_…_airflow_per_rated_net_capacity[i]`: `None` and a number cannot be indexed. -/
def perCapAt (p : Option (NumArg ℝ)) (i : Nat) : Py ℝ :=
  match p with
  | some (.list l) => pyGet l i
  | _ => .error .type

/-- `rated_…_fan_efficacy[i] * rated_…_airflow_per_rated_net_capacity[i]`. -/
noncomputable def NrelSide.powerPerCap (s : NrelSide) (i : Nat) : Py ℝ := do return (← pyGet (← pyAttr s.eff) i) * (← perCapAt s.perCap i)

/-- The net capacities of `n` speeds made from one capacity, resdx/models/nrel.py:478-495 (`sign = 1`) and 503-520 (`sign = -1`): the gross capacity of the low speed is 0.72 of that of the high speed. With more
than two speeds the attribute is never set (`none`). -/
noncomputable def nrelCapacities (s : NrelSide) (n : Nat) (sign : ℝ) (q : ℝ) : Py (Option (List ℝ)) :=
  if n = 1 then .ok (some [q])
  else if n = 2 then do
    let gross0 := q + sign * (q * (← s.powerPerCap 0))
    let net1 ← pdiv (gross0 * 0.72) (1 + sign * (← s.powerPerCap 1))
    return some [q, net1]
  else .ok none

/-- `set_rated_net_total_cooling_capacity` and the last step of `set_rated_net_heating_capacity`, resdx/models/nrel.py:474-520. -/
noncomputable def nrelNetCapacity (s : NrelSide) (n : Nat) (sign : ℝ) : NumArg ℝ → Py (Option (List ℝ))
  | .list l => .ok (some l)
  | .num q => nrelCapacities s n sign q

/-- One loop of `set_fan`, resdx/models/nrel.py:538-545 and 547-554. `supplied`: a fan-speed map was given, so that `set_…_fan_speed` is unbound. -/
noncomputable def nrelFanLoop (s : NrelSide) (supplied : Bool) : List ℝ → Nat → List ℝ × List ℝ → Py (List ℝ × List ℝ)
  | [], _, acc => .ok acc
  | q :: qs, i, (airflows, efficacies) => do
    let a := q * (← perCapAt s.perCap i)
    let e ← pyGet (← pyAttr s.eff) i
    if supplied then .error .unboundLocal else nrelFanLoop s supplied qs (i + 1) (airflows ++ [a], efficacies ++ [e])

/-- `NRELDXModel.set_net_capacities_and_fan`, resdx/models/nrel.py:559-565 (with `set_fan`, 522-557). Both fan loops run over the cooling capacities. The rated fan powers and airflows stay placeholders. -/
noncomputable def nrelAssign (u : Units ℝ) (a : Args) : Py Assigned := do
  let (c, h) := nrelCharacteristics u a
  let qc? ← nrelNetCapacity c a.nC 1 a.cooling
  let d ← pyGet (← pyAttr qc?) 0
  let qh? ← nrelNetCapacity h a.nH (-1) (a.heating.getD (.num d))
  match a.fan with
  | some f => return suppliedFan a f (← pyAttr qc?) (← pyAttr qh?)
  | none => do
    let acc ← nrelFanLoop c a.coolingFanSpeed.isSome (← pyAttr qc?) 0 ([], [])
    let acc ← nrelFanLoop h a.heatingFanSpeed.isSome (← pyAttr qc?) 0 acc
    let f ← NrelFan.init acc.1 (0.2 * u.inH2O) (.list acc.2)
    return suppliedFan a f.asFan (← pyAttr qc?) (← pyAttr qh?)

/-! ## `RESNETDXModel` with a supplied fan -/

/-- `RESNETDXModel.set_fan(fan)`, resdx/models/unified_resnet.py:390-406, one mode: airflow and power of the fan at the rated fan speeds, at its operating pressure. `None` cannot be indexed. -/
def resnetSupplied (f : AnyFan) (n : Nat) (speeds : Option (List Nat)) : Py (List (Option ℝ) × List (Option ℝ)) := do
  let air ← comp n fun i => do f.airflow (← pyGet (← pyNum speeds) i : Nat) none
  let pow ← comp n fun i => do f.power (← pyGet (← pyNum speeds) i : Nat) none
  return (air, pow)

/-! ## The constructor -/

/-- The attributes of the unit once `set_net_capacities_and_fan` has run: `Assigned` and the gross capacities (resdx/dx_unit.py:326-340). -/
structure Made where
  assigned : Assigned
  fullESP : ℝ
  grossCooling : List (Option ℝ)
  grossHeating : List (Option ℝ)

/-- `DXUnit.__init__` from the call of `set_net_capacities_and_fan` to the gross capacities, resdx/dx_unit.py:322-340. -/
noncomputable def grossOf (u : Units ℝ) (a : Args) (assign : Py Assigned) : Py Made := do
  let s ← assign
  let fullESP ← ResnetFan.fullFlowPressure u a.ducted a.standard s.coolCaps
  let gc ← Build.grossList a.nC s.coolCaps s.coolPower 1
  let gh ← Build.grossList a.nH s.heatCaps s.heatPower (-1)
  return { assigned := s, fullESP, grossCooling := gc, grossHeating := gh }

/-- `set_net_capacities_and_fan` of a class. (`RESNETDXModel` is in `Verif.Model.ResnetBuild`.) -/
noncomputable def assign (u : Units ℝ) (a : Args) : Class → Py Assigned
  | .constant => baseAssign u a
  | .carrier => baseAssign u a
  | .nrel => nrelAssign u a
  | .title24 => title24Assign u a
  | .resnet => .error .notImplemented

/-- The attributes the performance models read. The COPs are placeholders until the end of the constructor. -/
def Made.sys (a : Args) (m : Made) (speedsC speedsH : List Nat) (copC copH : List (Option ℝ)) : Sys ℝ :=
  { netCooling := m.assigned.coolCaps, netHeating := m.assigned.heatCaps, coolingAirflow := m.assigned.coolAirflow, heatingAirflow := m.assigned.heatAirflow
    ratedCoolingFanSpeed := speedsC.map some, ratedHeatingFanSpeed := speedsH.map some, fullESP := m.fullESP, grossCooling := m.grossCooling, grossCoolingCop := copC
    grossHeating := m.grossHeating, grossHeatingCop := copH, chargeDeviation := a.chargeDeviation, defrost := a.defrost }

/-- The unit as `Title24DXModel` sees it. -/
def Made.unit24 (u : Units ℝ) (a : Args) (m : Made) (S : Sys ℝ) (copC copH : List (Option ℝ)) : Title24.Unit24 ℝ :=
  { sys := S, u, coolingFanPower := m.assigned.coolPower, heatingFanPower := m.assigned.heatPower, netCoolingCop := copC, netHeatingCop := copH, nHeating := a.nH
    cd := a.cdHeating, inputSeer := a.seer, inputHspf := a.hspf, cap17 := a.cap17, cap35 := a.cap35, cop35 := a.cop35, multiplier := a.multiplier }

/-- `model.gross_shr` and the unit's gross total cooling capacity of a class, as used by `set_sensible_cooling_variables`: resdx/models/constant_model.py:14-17 and 39-40, resdx/models/title24.py:39-61 and 84-127; the
`CarrierDefrostModel` implements neither (resdx/models/base_model.py:36-44). -/
noncomputable def shrAndTotal (m : Class) (S : Sys ℝ) (U : Title24.Unit24 ℝ) : (Conditions ℝ → Py ℝ) × (Conditions ℝ → Py ℝ) :=
  match m with
  | .constant => (fun _ => .ok 0.7, fun c => do Util.limitCheck ((← Constant.grossTotalCoolingCapacity S c) * 1) (min := some 0))
  | .title24 => (Title24.grossShr U, Title24.systemTotal U)
  | _ => (fun _ => .error .notImplemented, fun _ => .error .notImplemented)

/-- One step of `set_sensible_cooling_variables`, resdx/dx_unit.py:482-485. -/
noncomputable def coilStep (T : Coil.Tools) (f : (Conditions ℝ → Py ℝ) × (Conditions ℝ → Py ℝ)) (i : Nat) (c : Conditions ℝ) (d : Build.CoilData) : Py Build.CoilData := do
  let shr ← f.1 c
  let s ← pySet d.shr i (some shr)
  let shr ← Sys.at_ s c.flow.compressorSpeed
  let r ← Coil.ratedBypass T c shr (← f.2 c)
  let b ← pySet d.bf c.flow.compressorSpeed (some r.1)
  let n ← pySet d.ntu c.flow.compressorSpeed (some r.2)
  return { shr := s, bf := b, ntu := n }

/-- `set_sensible_cooling_variables`, resdx/dx_unit.py:481-503. -/
noncomputable def coilData (T : Coil.Tools) (f : (Conditions ℝ → Py ℝ) × (Conditions ℝ → Py ℝ)) (n : Nat) (st : Staging) (r : Roles) (P : DX.Points (Conditions ℝ)) : Py Build.CoilData := do
  let d ← coilStep T f r.full P.aFull ⟨List.replicate n none, List.replicate n none, List.replicate n none⟩
  match st with
  | .single => return d
  | .two => low d
  | .varSpeed => do
    let d ← coilStep T f r.intermediate (← pyAttr P.aInt) d
    let d ← boost d
    low d
where
  /-- Lines 494-498. -/
  boost (d : Build.CoilData) : Py Build.CoilData :=
    match r.boost with
    | none => .ok d
    | some b => do coilStep T f b (← pyAttr P.aBoost) d
  /-- Lines 500-503. -/
  low (d : Build.CoilData) : Py Build.CoilData := do
    let i ← Ratings.speedIndex r.low
    coilStep T f i (← pyAttr P.aLow) d

/-- A constructed unit. -/
structure Built where
  made : Made
  sys : Sys ℝ
  st : Staging
  points : DX.Points (Conditions ℝ)
  coil : Build.CoilData
  cool : Rated ℝ
  heat : Rated ℝ
  crankcase : ℝ

/-- The crankcase heater, resdx/dx_unit.py:342-349. -/
noncomputable def crankcase (u : Units ℝ) (a : Args) (s : Assigned) : Py ℝ :=
  match a.crankcase with
  | some c => .ok c
  | none => do return 10 * ((← pyGet s.coolCaps a.coolingFullSpeed) / u.ton)

/-- The COP part of the constructor for the classes that use the setters of the base class, resdx/dx_unit.py:358-378. -/
noncomputable def cops (a : Args) (m : Made) : Py (Rated ℝ × Rated ℝ) :=
  let c0 : Rated ℝ := { Rated.fresh a.nC m.assigned.coolCaps m.assigned.coolPower with grossCap := m.grossCooling }
  let h0 : Rated ℝ := { Rated.fresh a.nH m.assigned.heatCaps m.assigned.heatPower with grossCap := m.grossHeating }
  if a.netCoolingCop = none ∧ a.grossCoolingCop = none then .error .runtime
  else if a.netHeatingCop = none ∧ a.grossHeatingCop = none then .error .runtime
  else do
    let c ← applyOpt setGrossCop a.grossCoolingCop (← applyOpt setNetCop a.netCoolingCop c0)
    let h ← applyOpt setGrossCop a.grossHeatingCop (← applyOpt setNetCop a.netHeatingCop h0)
    return (c, h)

/-- `DXUnit(model=m, …)`: `DXUnit.__init__`, resdx/dx_unit.py:141-387, for the models other than `RESNETDXModel`. -/
noncomputable def build (u : Units ℝ) (E : Env ℝ) (T : Coil.Tools) (m : Class) (a : Args) : Py Built := do
  setSystem m a.kwargs
  let st ← stagingOf a.nH a.staging
  let g ← grossOf u a (assign u a m)
  let cr ← crankcase u a g.assigned
  let rc := roles a.nC a.coolingFullSpeed a.coolingIntermediateSpeed
  let rh := roles a.nH a.heatingFullSpeed a.heatingIntermediateSpeed
  let spC ← pyNum g.assigned.coolSpeed
  let spH ← pyNum g.assigned.heatSpeed
  let S0 := g.sys a spC spH (List.replicate a.nC none) (List.replicate a.nH none)
  let P ← Ratings.setRatingConditions E S0 st rc rh
  let coil ← coilData T (shrAndTotal m S0 (g.unit24 u a S0 (List.replicate a.nC none) (List.replicate a.nH none))) a.nC st rc P
  let (c, h) ← cops a g
  finalChecks a.nC a.nH g.assigned.coolCaps coil.shr h.grossCop g.assigned.heatCaps
  return { made := g, sys := g.sys a spC spH c.grossCop h.grossCop, st, points := P, coil, cool := c, heat := h, crankcase := cr }

/-- `fan.power(conditions.fan_speed, conditions.external_static_pressure)`, resdx/dx_unit.py:680-683 and 978-981. -/
def Built.fanPower (B : Built) (c : Conditions ℝ) : Py ℝ := do
  let i ← pyNum c.flow.fanSpeed
  let p ← pyAttr c.flow.esp
  B.made.assigned.fan.power i (some p)

/-- The performance functions of a unit with a `ConstantDXModel`. -/
noncomputable def Built.constant (B : Built) : DX.Performance (Conditions ℝ) ℝ := Constant.unit B.sys B.fanPower B.points.aFull B.points.h1Full

/-! ## Model objects shared by several units -/

/-- What a constructor call came to: rejected because of a keyword argument, stopped by a later exception, or a unit with rated data `d`. -/
inductive Outcome (D : Type)
  | rejected
  | failed
  | made (d : D)

/-- The rated data of the object, if it has them all. -/
def Outcome.data {D : Type} : Outcome D → Option D
  | .made d => some d
  | _ => none

/-- The objects of a program that makes units: the `DXUnit` objects in the order in which their constructors were called (`units`, including those whose constructor raised, which only a model may still refer to),
the model object of every unit (`modelOf`) and for every model object the unit it points to (`system`, resdx/models/base_model.py:11). -/
structure Objects (D : Type) where
  units : List (Outcome D)
  modelOf : List Nat
  system : Nat → Option Nat

/-- No unit yet. -/
def Objects.start (D : Type) : Objects D := { units := [], modelOf := [], system := fun _ => none }

/-- A constructor call `DXUnit(model=m, base_model=b, …)`. -/
structure Call (D : Type) where
  model : Nat
  base : Option Nat := none
  outcome : Outcome D

/-- The call as far as object identity is concerned: the new object stores its model (resdx/dx_unit.py:191); `set_system` makes the model point to it before anything is checked (resdx/models/base_model.py:15) and
makes the `base_model` point to it once the keyword arguments are accepted (lines 19-20). -/
def Objects.construct {D : Type} (o : Objects D) (c : Call D) : Objects D :=
  { units := o.units ++ [c.outcome], modelOf := o.modelOf ++ [c.model]
    system := fun k => if k = c.model then some o.units.length
      else match c.outcome with
        | .rejected => o.system k
        | _ => if c.base = some k then some o.units.length else o.system k }

/-- The calls of a program, in order. -/
def Objects.run {D : Type} : List (Call D) → Objects D → Objects D
  | [], o => o
  | c :: cs, o => run cs (o.construct c)

/-- The rated data a performance method of unit `i` works with: the model of the unit reads the attributes of the object it points to (`self.system`). -/
def Objects.dataFor {D : Type} (o : Objects D) (i : Nat) : Option D := do
  let m ← o.modelOf[i]?
  let s ← o.system m
  (← o.units[s]?).data

end Resdx.UnitBuild
