import Verif.Model.Util
import Verif.Model.Units
import Verif.PyReal

/-!
# Model of the performance accessors of `resdx/dx_unit.py`

A unit is seen here through the functions its accessors call on the performance model and on the fan, each a function of the conditions. The type of conditions
`C` is arbitrary; `Verif.Model.Resnet` instantiates it. Conditions are not modified by the accessors.
-/

namespace Resdx.DX

open Util

variable {C K : Type} [Field K] [LinearOrder K]

/-- What the accessors of a `DXUnit` call: methods of `self.model`, and `self.fan.power(conditions.fan_speed, conditions.external_static_pressure)`. -/
structure Performance (C K : Type) where
  coolCap : C → Py K
  coolCapCharge : C → Py K
  coolPow : C → Py K
  coolPowCharge : C → Py K
  sensible : C → Py K
  heatCap : C → Py K
  heatCapCharge : C → Py K
  heatPow : C → Py K
  heatPowCharge : C → Py K
  intCap : C → Py K
  intPow : C → Py K
  fanPower : C → Py K
  /-- `conditions.outdoor.db` -/
  db : C → K
  /-- `self.A_full_cond` -/
  aFull : C
  /-- `self.H1_full_cond` -/
  h1Full : C

namespace Performance

/-! ## Cooling -/

/-- `cooling_fan_power`, resdx/dx_unit.py:680-683. -/
def coolingFanPower (U : Performance C K) (c : Option C) : Py K := U.fanPower (c.getD U.aFull)

/-- `cooling_fan_heat`, resdx/dx_unit.py:685-686. -/
def coolingFanHeat (U : Performance C K) (c : Option C) : Py K := U.coolingFanPower c

/-- `gross_total_cooling_capacity`, resdx/dx_unit.py:688-695. -/
def grossTotalCoolingCapacity (U : Performance C K) (c : Option C) : Py K := do
  limitCheck ((← U.coolCap (c.getD U.aFull)) * (← U.coolCapCharge (c.getD U.aFull))) (min := some 0)

/-- `gross_sensible_cooling_capacity`, resdx/dx_unit.py:697-702. -/
def grossSensibleCoolingCapacity (U : Performance C K) (c : Option C) : Py K := do
  limitCheck (← U.sensible (c.getD U.aFull)) (min := some 0)

/-- `gross_shr`, resdx/dx_unit.py:704-710. -/
def grossSHR (U : Performance C K) (c : Option C) : Py K := do
  limitCheck (← pdiv (← U.grossSensibleCoolingCapacity c) (← U.grossTotalCoolingCapacity c)) (min := some 0) (max := some 1)

/-- `gross_cooling_power`, resdx/dx_unit.py:712-719. -/
def grossCoolingPower (U : Performance C K) (c : Option C) : Py K := do
  limitCheck ((← U.coolPow (c.getD U.aFull)) * (← U.coolPowCharge (c.getD U.aFull))) (min := some 0)

/-- `net_total_cooling_capacity`, resdx/dx_unit.py:721-724. -/
def netTotalCoolingCapacity (U : Performance C K) (c : Option C) : Py K := do
  return (← U.grossTotalCoolingCapacity c) - (← U.coolingFanHeat c)

/-- `net_sensible_cooling_capacity`, resdx/dx_unit.py:726-729. -/
def netSensibleCoolingCapacity (U : Performance C K) (c : Option C) : Py K := do
  return (← U.grossSensibleCoolingCapacity c) - (← U.coolingFanHeat c)

/-- `net_shr`, resdx/dx_unit.py:731-734. -/
def netSHR (U : Performance C K) (c : Option C) : Py K := do
  pdiv (← U.netSensibleCoolingCapacity c) (← U.netTotalCoolingCapacity c)

/-- `net_cooling_power`, resdx/dx_unit.py:736-737. -/
def netCoolingPower (U : Performance C K) (c : Option C) : Py K := do
  return (← U.grossCoolingPower c) + (← U.coolingFanPower c)

/-- `gross_total_cooling_cop`, resdx/dx_unit.py:739-742. -/
def grossTotalCoolingCOP (U : Performance C K) (c : Option C) : Py K := do
  pdiv (← U.grossTotalCoolingCapacity c) (← U.grossCoolingPower c)

/-- `gross_sensible_cooling_cop`, resdx/dx_unit.py:744-747. -/
def grossSensibleCoolingCOP (U : Performance C K) (c : Option C) : Py K := do
  pdiv (← U.grossSensibleCoolingCapacity c) (← U.grossCoolingPower c)

/-- `net_total_cooling_cop`, resdx/dx_unit.py:749-752. -/
def netTotalCoolingCOP (U : Performance C K) (c : Option C) : Py K := do
  pdiv (← U.netTotalCoolingCapacity c) (← U.netCoolingPower c)

/-- `net_sensible_cooling_cop`, resdx/dx_unit.py:754-757. -/
def netSensibleCoolingCOP (U : Performance C K) (c : Option C) : Py K := do
  pdiv (← U.netSensibleCoolingCapacity c) (← U.netCoolingPower c)

/-- `eer`, resdx/dx_unit.py:824-825. -/
def eer (u : Units K) (U : Performance C K) (c : Option C) : Py K := do
  pdiv (← U.netTotalCoolingCOP c) u.btuh

/-! ## Heating -/

/-- `heating_fan_power` and `heating_fan_heat`, resdx/dx_unit.py:978-984. -/
def heatingFanPower (U : Performance C K) (c : Option C) : Py K := U.fanPower (c.getD U.h1Full)

/-- `gross_steady_state_heating_capacity`, resdx/dx_unit.py:986-991. -/
def grossSteadyHeatingCapacity (U : Performance C K) (c : Option C) : Py K := do
  return (← U.heatCap (c.getD U.h1Full)) * (← U.heatCapCharge (c.getD U.h1Full))

/-- `gross_steady_state_heating_power`, resdx/dx_unit.py:993-998. -/
def grossSteadyHeatingPower (U : Performance C K) (c : Option C) : Py K := do
  return (← U.heatPow (c.getD U.h1Full)) * (← U.heatPowCharge (c.getD U.h1Full))

/-- `gross_integrated_heating_capacity`, resdx/dx_unit.py:1000-1003. -/
def grossIntegratedHeatingCapacity (U : Performance C K) (c : Option C) : Py K := U.intCap (c.getD U.h1Full)

/-- `gross_integrated_heating_power`, resdx/dx_unit.py:1005-1008. -/
def grossIntegratedHeatingPower (U : Performance C K) (c : Option C) : Py K := U.intPow (c.getD U.h1Full)

/-- `net_steady_state_heating_capacity`, resdx/dx_unit.py:1010-1013. -/
def netSteadyHeatingCapacity (U : Performance C K) (c : Option C) : Py K := do
  return (← U.grossSteadyHeatingCapacity c) + (← U.heatingFanPower c)

/-- `net_steady_state_heating_power`, resdx/dx_unit.py:1015-1018. -/
def netSteadyHeatingPower (U : Performance C K) (c : Option C) : Py K := do
  return (← U.grossSteadyHeatingPower c) + (← U.heatingFanPower c)

/-- `net_integrated_heating_capacity`, resdx/dx_unit.py:1020-1023. -/
def netIntegratedHeatingCapacity (U : Performance C K) (c : Option C) : Py K := do
  return (← U.grossIntegratedHeatingCapacity c) + (← U.heatingFanPower c)

/-- `net_integrated_heating_power`, resdx/dx_unit.py:1025-1028. -/
def netIntegratedHeatingPower (U : Performance C K) (c : Option C) : Py K := do
  return (← U.grossIntegratedHeatingPower c) + (← U.heatingFanPower c)

/-- `gross_steady_state_heating_cop`, resdx/dx_unit.py:1030-1033. -/
def grossSteadyHeatingCOP (U : Performance C K) (c : Option C) : Py K := do
  pdiv (← U.grossSteadyHeatingCapacity c) (← U.grossSteadyHeatingPower c)

/-- `gross_integrated_heating_cop`, resdx/dx_unit.py:1035-1038. -/
def grossIntegratedHeatingCOP (U : Performance C K) (c : Option C) : Py K := do
  pdiv (← U.grossIntegratedHeatingCapacity c) (← U.grossIntegratedHeatingPower c)

/-- `net_steady_state_heating_cop`, resdx/dx_unit.py:1040-1043. -/
def netSteadyHeatingCOP (U : Performance C K) (c : Option C) : Py K := do
  pdiv (← U.netSteadyHeatingCapacity c) (← U.netSteadyHeatingPower c)

/-- `net_integrated_heating_cop`, resdx/dx_unit.py:1045-1048. -/
def netIntegratedHeatingCOP (U : Performance C K) (c : Option C) : Py K := do
  pdiv (← U.netIntegratedHeatingCapacity c) (← U.netIntegratedHeatingPower c)

/-- `gross_heating_capacity_ratio`, resdx/dx_unit.py:1050-1053. -/
def grossHeatingCapacityRatio (U : Performance C K) (c : Option C) : Py K := do
  pdiv (← U.grossIntegratedHeatingCapacity c) (← U.grossSteadyHeatingCapacity c)

/-- `net_heating_capacity_ratio`, resdx/dx_unit.py:1055-1058. -/
def netHeatingCapacityRatio (U : Performance C K) (c : Option C) : Py K := do
  pdiv (← U.netIntegratedHeatingCapacity c) (← U.netSteadyHeatingCapacity c)

/-- `gross_heating_power_ratio`, resdx/dx_unit.py:1060-1063. -/
def grossHeatingPowerRatio (U : Performance C K) (c : Option C) : Py K := do
  pdiv (← U.grossIntegratedHeatingPower c) (← U.grossSteadyHeatingPower c)

/-- `net_heating_power_ratio`, resdx/dx_unit.py:1065-1068. -/
def netHeatingPowerRatio (U : Performance C K) (c : Option C) : Py K := do
  pdiv (← U.netIntegratedHeatingPower c) (← U.netSteadyHeatingPower c)

/-- `interpolate_separate`, resdx/dx_unit.py:33-36 (`db` reads `outdoor.db`; `f(cond_1)` is evaluated twice, which changes nothing). -/
def interpolateSeparate (db : C → K) (f f2 : C → Py K) (c1 c2 : C) (x : K) : Py K := do
  let y1 ← f c1
  let y2 ← f2 c2
  return y1 + (← pdiv (y2 - y1) (db c2 - db c1)) * (x - db c1)

/-- `interpolate`, resdx/dx_unit.py:39-40. -/
def interpolate (db : C → K) (f : C → Py K) (c1 c2 : C) (x : K) : Py K := interpolateSeparate db f f c1 c2 x

end Performance

/-! ## Coil bypass factor (over ℝ) -/

/-- `calculate_rated_bypass_factor`, resdx/dx_unit.py:792-811, from the enthalpies of inlet, outlet and apparatus dew point and the mass airflow:
the rated bypass factor and the normalised NTU. -/
noncomputable def ratedBypassFactor (hIn hOut hADP mass : ℝ) : Py (ℝ × ℝ) := do
  let bf ← pdiv (hOut - hADP) (hIn - hADP)
  return (bf, -mass * (← plog bf))

/-- `bypass_factor`, resdx/dx_unit.py:813-818. -/
noncomputable def bypassFactor (ntu mass : ℝ) : Py ℝ := do return Real.exp (← pdiv (-ntu) mass)

end Resdx.DX
