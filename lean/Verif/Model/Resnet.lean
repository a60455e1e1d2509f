import Verif.Model.Nrel
import Verif.Model.Tabular

/-!
# Model of `resdx/models/unified_resnet.py`: performance functions

Also the two small models `constant_model.py` and `carrier_defrost_model.py`.
-/

namespace Resdx.Resnet

open Nrel

variable {K : Type} [Field K] [LinearOrder K]

/-- What `RESNETDXModel` holds after construction: the gross performance tables (if any) and the dictionaries from compressor speed to
table speed (keys 0, 1, …). `net_tabular_data` and `gross_tabular_data` are set together. -/
structure Data (K : Type) where
  gross : Option (Tabular.Perf K)
  coolingMap : List K
  heatingMap : List K

/-- Dictionary lookup. -/
def mapGet (l : List K) (i : Nat) : Py K := match l[i]? with
  | some v => .ok v
  | none => .error .key

/-- `PsychState(drybulb=conditions.outdoor.db, rel_hum=0.4)`, resdx/models/unified_resnet.py:674 and 682. -/
def ratedOutdoor (E : Env K) (db : K) : Py (Psych.PsychState K) := Psych.init E.lib db E.atm [("rel_hum", 0.4)]

/-- `get_cooling_correction_factor` and `get_heating_correction_factor`, resdx/models/unified_resnet.py:670-684. -/
def correction (E : Env K) (S : Sys K) (heating : Bool) (fn : Conditions K → Py K) (c : Conditions K) : Py K := do
  let rated ← S.makeCondition E heating c.flow.compressorSpeed none (some (← ratedOutdoor E c.outdoor.db))
  pdiv (← fn c) (← fn rated)

/-- `gross_cooling_power`, resdx/models/unified_resnet.py:68-77. -/
def grossCoolingPower (E : Env K) (S : Sys K) (D : Data K) (c : Conditions K) : Py K :=
  match D.gross with
  | some g => do
    return (← g.coolingPower (← mapGet D.coolingMap c.flow.compressorSpeed) c.outdoor.db) *
      (← correction E S false (Nrel.grossCoolingPower S) c)
  | none => Nrel.grossCoolingPower S c

/-- `gross_total_cooling_capacity`, resdx/models/unified_resnet.py:79-88. -/
def grossTotalCoolingCapacity (E : Env K) (S : Sys K) (D : Data K) (c : Conditions K) : Py K :=
  match D.gross with
  | some g => do
    return (← g.coolingCapacity (← mapGet D.coolingMap c.flow.compressorSpeed) c.outdoor.db) *
      (← correction E S false (Nrel.grossTotalCoolingCapacity S) c)
  | none => Nrel.grossTotalCoolingCapacity S c

/-- `gross_steady_state_heating_capacity`, resdx/models/unified_resnet.py:96-105. -/
def grossSteadyHeatingCapacity (E : Env K) (S : Sys K) (D : Data K) (c : Conditions K) : Py K :=
  match D.gross with
  | some g => do
    return (← g.heatingCapacity (← mapGet D.heatingMap c.flow.compressorSpeed) c.outdoor.db) *
      (← correction E S true (Nrel.grossSteadyHeatingCapacity S) c)
  | none => Nrel.grossSteadyHeatingCapacity S c

/-- `gross_steady_state_heating_power`, resdx/models/unified_resnet.py:118-127. -/
def grossSteadyHeatingPower (E : Env K) (S : Sys K) (D : Data K) (c : Conditions K) : Py K :=
  match D.gross with
  | some g => do
    return (← g.heatingPower (← mapGet D.heatingMap c.flow.compressorSpeed) c.outdoor.db) *
      (← correction E S true (Nrel.grossSteadyHeatingPower S) c)
  | none => Nrel.grossSteadyHeatingPower S c

/-- The four functions the grading model chooses from. -/
def raw (E : Env K) (S : Sys K) (D : Data K) : Raw K :=
  { coolCap := grossTotalCoolingCapacity E S D, coolPow := grossCoolingPower E S D
    heatCap := grossSteadyHeatingCapacity E S D, heatPow := grossSteadyHeatingPower E S D }

/-- `fdef`, resdx/models/unified_resnet.py:109-111 and 131-133. -/
def fdef (db : K) : K := max (min (0.134 - 0.003 * toF db) 0.08) 0

/-- `gross_integrated_heating_capacity`, resdx/models/unified_resnet.py:107-116. -/
def grossIntegratedHeatingCapacity (E : Env K) (S : Sys K) (D : Data K) (c : Conditions K) : Py K :=
  if S.defrost.inDefrost c.outdoor.db then do
    return (← steadyCapacity E S (raw E S D) c) * (1 - 1.8 * fdef c.outdoor.db)
  else steadyCapacity E S (raw E S D) c

/-- `gross_integrated_heating_power`, resdx/models/unified_resnet.py:129-138: the steady-state power is the model's own, not the unit's. -/
def grossIntegratedHeatingPower (E : Env K) (S : Sys K) (D : Data K) (c : Conditions K) : Py K :=
  if S.defrost.inDefrost c.outdoor.db then do
    return (← grossSteadyHeatingPower E S D c) * (1 - 0.3 * fdef c.outdoor.db)
  else grossSteadyHeatingPower E S D c

/-- A `DXUnit` with a `RESNETDXModel`: the charge factors are those of the grading model, resdx/models/unified_resnet.py:140-141, 143-144, 146-149, 151-154. The sensible capacity
(the coil model, resdx/models/unified_resnet.py:90-91) and the fan are parameters. -/
def unit (E : Env K) (S : Sys K) (D : Data K) (sensible fanPower : Conditions K → Py K) (aFull h1Full : Conditions K) :
    DX.Performance (Conditions K) K :=
  { coolCap := grossTotalCoolingCapacity E S D, coolCapCharge := gradingModel E S (raw E S D) .capacity
    coolPow := grossCoolingPower E S D, coolPowCharge := gradingModel E S (raw E S D) .power, sensible
    heatCap := grossSteadyHeatingCapacity E S D, heatCapCharge := gradingModel E S (raw E S D) .capacity
    heatPow := grossSteadyHeatingPower E S D, heatPowCharge := gradingModel E S (raw E S D) .power
    intCap := grossIntegratedHeatingCapacity E S D, intPow := grossIntegratedHeatingPower E S D
    fanPower, db := fun c => c.outdoor.db, aFull, h1Full }

end Resdx.Resnet

namespace Resdx.Carrier

variable {K : Type} [Field K] [LinearOrder K]

/-- `defrost_temperatures`, resdx/models/carrier_defrost_model.py:15-20. -/
def temperatures : List K := [frF (-20), frF 17, frF 27, frF 37]

/-- `defrost_fractions`, resdx/models/carrier_defrost_model.py:21. -/
def fractions : List K := [0.075, 0.085, 0.11, 0.09]

/-- `scipy.interpolate.interp1d(x, y, bounds_error=False, fill_value=(below, above))` for increasing `x`: piecewise linear between the
points, the fill values outside (third-party behaviour). -/
def interp1d (below above : K) : List (K × K) → K → K
  | [], _ => above
  | [_], _ => above
  | (x0, y0) :: (x1, y1) :: rest, x =>
    if x < x0 then below
    else if x ≤ x1 then y0 + (y1 - y0) / (x1 - x0) * (x - x0)
    else interp1d below above ((x1, y1) :: rest) x

/-- `fdef`, resdx/models/carrier_defrost_model.py:34-44. -/
def fdef (db : K) : K := interp1d 0.075 0.09 (temperatures.zip fractions) db

/-- `gross_integrated_heating_capacity`, resdx/models/carrier_defrost_model.py:23-29, from the unit's steady-state capacity. -/
def grossIntegratedHeatingCapacity (S : Sys K) (steady : Conditions K → Py K) (c : Conditions K) : Py K :=
  if S.defrost.inDefrost c.outdoor.db then do return (← steady c) * (1 - fdef c.outdoor.db) else steady c

/-- `gross_integrated_heating_power`, resdx/models/carrier_defrost_model.py:31-32. -/
def grossIntegratedHeatingPower (steady : Conditions K → Py K) (c : Conditions K) : Py K := steady c

end Resdx.Carrier

namespace Resdx.Constant

variable {K : Type} [Field K] [LinearOrder K]

/-- `gross_cooling_power`, resdx/models/constant_model.py:8-12. -/
def grossCoolingPower (S : Sys K) (c : Conditions K) : Py K := do
  pdiv (← Sys.at_ S.grossCooling c.flow.compressorSpeed) (← Sys.at_ S.grossCoolingCop c.flow.compressorSpeed)

/-- `gross_total_cooling_capacity`, resdx/models/constant_model.py:14-17. -/
def grossTotalCoolingCapacity (S : Sys K) (c : Conditions K) : Py K := Sys.at_ S.grossCooling c.flow.compressorSpeed

/-- `gross_steady_state_heating_power`, resdx/models/constant_model.py:19-23. -/
def grossSteadyHeatingPower (S : Sys K) (c : Conditions K) : Py K := do
  pdiv (← Sys.at_ S.grossHeating c.flow.compressorSpeed) (← Sys.at_ S.grossHeatingCop c.flow.compressorSpeed)

/-- `gross_steady_state_heating_capacity`, resdx/models/constant_model.py:25-26. -/
def grossSteadyHeatingCapacity (S : Sys K) (c : Conditions K) : Py K := Sys.at_ S.grossHeating c.flow.compressorSpeed

/-- A `DXUnit` with a `ConstantDXModel`: charge factors are 1 (resdx/models/base_model.py:58-61, 63-66, 68-71, 73-76), integrated equals steady state
(resdx/models/constant_model.py:28-29, 31-32) and the sensible heat ratio is 0.7 (resdx/models/constant_model.py:34-37, 39-40). -/
def unit (S : Sys K) (fanPower : Conditions K → Py K) (aFull h1Full : Conditions K) : DX.Performance (Conditions K) K :=
  { coolCap := grossTotalCoolingCapacity S, coolCapCharge := fun _ => .ok 1
    coolPow := grossCoolingPower S, coolPowCharge := fun _ => .ok 1
    sensible := fun c => do return (← Util.limitCheck ((← grossTotalCoolingCapacity S c) * 1) (min := some 0)) * 0.7
    heatCap := grossSteadyHeatingCapacity S, heatCapCharge := fun _ => .ok 1
    heatPow := grossSteadyHeatingPower S, heatPowCharge := fun _ => .ok 1
    intCap := fun c => do return (← grossSteadyHeatingCapacity S c) * 1
    intPow := fun c => do return (← grossSteadyHeatingPower S c) * 1
    fanPower, db := fun c => c.outdoor.db, aFull, h1Full }

end Resdx.Constant
