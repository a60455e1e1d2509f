import Verif.Model.BaseModel

/-!
# Model of the fan part of `resdx/models/unified_resnet.py`

`RESNETDXModel.set_fan` with no fan supplied. It runs while a unit is constructed, so an exception leaves no unit and the steps are functions into
`Py`. The attributes `set_fan` writes are grouped by mode.
-/

namespace Resdx.ResnetFan

open BaseModel Fan

/-- The attributes of one mode `set_fan` reads and writes. -/
structure Side where
  /-- `rated_net_…_capacity` -/
  caps : List ℝ
  /-- `rated_…_airflow_per_rated_net_capacity` -/
  perCap : List ℝ
  /-- `rated_…_airflow` -/
  airflow : List (Option ℝ)
  /-- `rated_…_fan_power` -/
  power : List (Option ℝ)
  /-- `rated_…_external_static_pressure` -/
  esp : List (Option ℝ)
  /-- `…_fan_speed` -/
  fanSpeed : List (Option Int)
  /-- `rated_…_fan_speed` -/
  ratedFanSpeed : List (Option Int)

/-- The side when the fan is about to be made: placeholders for `n` speeds (resdx/dx_unit.py:595-619, resdx/models/unified_resnet.py:407-418), the given net
capacities and the airflow per capacity with its default of 400 cfm/ton (resdx/models/unified_resnet.py:376-388). -/
noncomputable def Side.start (u : Units ℝ) (n : Nat) (caps : List ℝ) (perCap : Option (NumArg ℝ)) : Side :=
  { caps, perCap := makeList (setDefault perCap (.list (List.replicate n (400 * u.cfm / u.ton))) n)
    airflow := List.replicate n none, power := List.replicate n none, esp := List.replicate n none
    fanSpeed := List.replicate n none, ratedFanSpeed := List.replicate n none }

/-- `AHRIVersion`, resdx/dx_unit.py:48-50. -/
inductive Standard
  | ahri2017
  | ahri2023
  deriving DecidableEq

/-- `DXUnit.get_rated_full_flow_rated_pressure`, resdx/dx_unit.py:653-666. -/
def fullFlowPressure {K : Type} [Field K] [LinearOrder K] (u : Units K) (ducted : Bool) (std : Standard) (coolingCaps : List K) : Py K :=
  if ducted = false then .ok 0
  else match std with
    | .ahri2023 => .ok (0.5 * u.inH2O)
    | .ahri2017 => do
      let q ← pyGet coolingCaps 0
      if q ≤ 29000 * u.btuh then return 0.1 * u.inH2O
      else if q ≤ 43000 * u.btuh then return 0.15 * u.inH2O
      else return 0.2 * u.inH2O

/-- `DXUnit.calculate_rated_pressure`, resdx/dx_unit.py:668-672. -/
noncomputable def ratedPressure (fullESP a full : ℝ) : Py ℝ := do return fullESP * (← pdiv a full) ^ 2

/-- `rated_…_airflow[i] = rated_net_…_capacity[i] * rated_…_airflow_per_rated_net_capacity[i]`, resdx/models/unified_resnet.py:423-430, 517-520, 549-552. -/
noncomputable def setAirflow (s : Side) (i : Nat) : Py Side := do
  let q ← pyGet s.caps i
  let r ← pyGet s.perCap i
  let l ← pySet s.airflow i (some (q * r))
  return { s with airflow := l }

/-- `fan.add_speed(a)`. -/
noncomputable def add (b : Base) (a : ℝ) : Py Base := (Base.addSpeed a).exec b

/-- `…_fan_speed[i] = fan.number_of_speeds - 1`, e.g. resdx/models/unified_resnet.py:454-456. -/
def mark (s : Side) (b : Base) (i : Nat) : Py Side := do
  let l ← pySet s.fanSpeed i (some (b.n - 1))
  return { s with fanSpeed := l }

/-- Add the setting at the design pressure: `fan.add_speed(airflow[i]); …_fan_speed[i] = number_of_speeds - 1`, e.g. resdx/models/unified_resnet.py:521-522. -/
noncomputable def addDesign (s : Side) (b : Base) (i : Nat) : Py (Side × Base) := do
  let b ← add b (← numAt s.airflow i)
  let s ← mark s b i
  return (s, b)

/-- Add the setting at the rated pressure and store its pressure, index and power, resdx/models/unified_resnet.py:470-489, 491-509, 524-543, 556-575. RESNET
fans ignore the pressure given to `add_speed`. -/
noncomputable def addRated (power : Base → Int → Option ℝ → Py ℝ) (fullESP : ℝ) (s : Side) (b : Base) (i : Nat) (full : ℝ) :
    Py (Side × Base) := do
  let a ← numAt s.airflow i
  let p ← ratedPressure fullESP a full
  let esp ← pySet s.esp i (some p)
  let b ← add b a
  let rs ← pySet s.ratedFanSpeed i (some (b.n - 1))
  let w ← power b (b.n - 1) (some p)
  let pw ← pySet s.power i (some w)
  return ({ s with esp := esp, ratedFanSpeed := rs, power := pw }, b)

/-- The body of the loop over the speeds other than full speed, resdx/models/unified_resnet.py:515-543, 547-575. -/
noncomputable def otherSpeed (power : Base → Int → Option ℝ → Py ℝ) (fullESP : ℝ) (fs : Nat) (s : Side) (b : Base) (i : Nat) :
    Py (Side × Base) :=
  if i = fs then .ok (s, b)
  else do
    let s ← setAirflow s i
    let (s, b) ← addDesign s b i
    addRated power fullESP s b i (← numAt s.airflow 0)

/-- The loop over the speeds other than full speed, resdx/models/unified_resnet.py:512-543, 546-575. -/
noncomputable def otherSpeeds (power : Base → Int → Option ℝ → Py ℝ) (fullESP : ℝ) (fs : Nat) : List Nat → Side → Base → Py (Side × Base)
  | [], s, b => .ok (s, b)
  | i :: l, s, b => do
    let (s, b) ← otherSpeed power fullESP fs s b i
    otherSpeeds power fullESP fs l s b

/-- The full-speed settings at design pressure, resdx/models/unified_resnet.py:453-468: the fan's first setting belongs to the mode with the larger airflow. -/
noncomputable def fullSpeeds (coolingFirst : Bool) (cfs hfs : Nat) (c h : Side) (b : Base) : Py (Side × Side × Base) :=
  if coolingFirst then do
    let c ← mark c b cfs
    let (h, b) ← addDesign h b hfs
    return (c, h, b)
  else do
    let h ← mark h b hfs
    let (c, b) ← addDesign c b cfs
    return (c, h, b)

/-- `RESNETDXModel.set_fan(None)`, resdx/models/unified_resnet.py:406-575, for a fan whose power is `power` (PSC or BPM, lines 442-451); `cfs` and `hfs` are the
full-load speeds, `fullESP` is `rated_full_flow_external_static_pressure`. -/
noncomputable def setFan (u : Units ℝ) (power : Base → Int → Option ℝ → Py ℝ) (fullESP : ℝ) (cfs hfs : Nat) (c h : Side) :
    Py (Side × Side × Base) := do
  let c ← setAirflow c cfs
  let h ← setAirflow h hfs
  let ac ← numAt c.airflow cfs
  let ah ← numAt h.airflow hfs
  let design := if ah ≤ ac then ac else ah
  let b ← resnetInit u [design]
  let (c, h, b) ← fullSpeeds (decide (ah ≤ ac)) cfs hfs c h b
  let (c, b) ← addRated power fullESP c b cfs design
  let (h, b) ← addRated power fullESP h b hfs design
  let (c, b) ← otherSpeeds power fullESP cfs (List.range c.caps.length) c b
  let (h, b) ← otherSpeeds power fullESP hfs (List.range h.caps.length) h b
  return (c, h, b)

/-- `self.motor_type` when none is given, resdx/models/unified_resnet.py:442-446: PSC for one stage, BPM otherwise (`true` = PSC). -/
def defaultMotorPSC (st : Staging) : Bool := decide (st = .single)

/-- The power function of the fan made for a motor type, resdx/models/unified_resnet.py:448-451. -/
noncomputable def motorPower (u : Units ℝ) (brentq : Brentq) (psc : Bool) : Base → Int → Option ℝ → Py ℝ :=
  if psc then resnetPSCPower u else resnetBPMPower u brentq

/-- `generate_205_representation` of a RESNET fan, resdx/fan.py:219-394: its methods, the motor-power rule of lines 241-246 and the largest pressure of line 321. -/
noncomputable def fanRepresentation (u : Units ℝ) (brentq : Brentq) (argsort : List ℝ → List Nat) (psc : Bool) (b : Base) : Py Rep :=
  fanRep argsort b.airflow.length b.designESP (resnetAirflow b) (motorPower u brentq psc b) (inRps u (resnetRotationalSpeed u b)) (Fan.motorPower (motorPower u brentq psc b)) fun _ => .ok (1.2 * u.inH2O)

end Resdx.ResnetFan
