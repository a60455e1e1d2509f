import Verif.Model.Units
import Verif.Model.Util
import Verif.Model.System

/-!
# Model of `resdx/models/nrel.py`: performance functions

Class constants of `NRELDXModel` are exact decimals. Constructor-time methods of the class (default fan and capacities, COP setters) are not modelled here.
-/

namespace Resdx.Nrel

variable {K : Type} [Field K]

/-- `COOLING_EIR_FT_COEFFICIENTS`, resdx/models/nrel.py:20-27. -/
def coolingEirFT : List K := [-3.400341169, 0.135184783, -0.001037932, -0.007852322, 0.000183438, -0.000142548]
/-- `COOLING_EIR_FF_COEFFICIENTS`, resdx/models/nrel.py:29. -/
def coolingEirFF : List K := [1.143487507, -0.13943972, -0.004047787]
/-- `COOLING_CAP_FT_COEFFICIENTS`, resdx/models/nrel.py:31-38. -/
def coolingCapFT : List K := [3.717717741, -0.09918866, 0.000964488, 0.005887776, -0.000012808, -0.000132822]
/-- `COOLING_CAP_FF_COEFFICIENTS`, resdx/models/nrel.py:40. -/
def coolingCapFF : List K := [0.718664047, 0.41797409, -0.136638137]
/-- `HEATING_EIR_FT_COEFFICIENTS`, resdx/models/nrel.py:42-49. -/
def heatingEirFT : List K := [0.722917608, 0.003520184, 0.000143097, -0.005760341, 0.000141736, -0.000216676]
/-- `HEATING_EIR_FF_COEFFICIENTS`, resdx/models/nrel.py:51. -/
def heatingEirFF : List K := [2.185418751, -1.942827919, 0.757409168]
/-- `HEATING_CAP_FT_COEFFICIENTS`, resdx/models/nrel.py:53-60. -/
def heatingCapFT : List K := [0.568706266, -0.000747282, -0.0000103432, 0.00945408, 0.000050812, -0.00000677828]
/-- `HEATING_CAP_FF_COEFFICIENTS`, resdx/models/nrel.py:62. -/
def heatingCapFF : List K := [0.694045465, 0.474207981, -0.168253446]

section Performance

open Util

variable [LinearOrder K]

/-- `conditions.indoor.wb` in °F, bracketed as in resdx/models/nrel.py:66-68 and 102-104. -/
def coolingIndoor (c : Conditions K) : Py K := do return bracket (toF (← (Psych.getWb c.indoor).1)) (min := some 57) (max := some 72)

/-- `conditions.outdoor.db` in °F, bracketed as in resdx/models/nrel.py:69-71 and 105-107. -/
def coolingOutdoor (c : Conditions K) : K := bracket (toF c.outdoor.db) (min := some 75)

/-- `gross_cooling_power`, resdx/models/nrel.py:64-98. -/
def grossCoolingPower (S : Sys K) (c : Conditions K) : Py K := do
  let tiwb ← coolingIndoor c
  let eirFT ← calcBiquad coolingEirFT tiwb (coolingOutdoor c)
  let eirFF ← calcQuad coolingEirFF (← pyAttr c.flow.ratio)
  let capFT ← calcBiquad coolingCapFT tiwb (coolingOutdoor c)
  let capFF ← calcQuad coolingCapFF (← pyAttr c.flow.ratio)
  limitCheck (← pdiv (eirFF * capFF * eirFT * capFT * (← Sys.at_ S.grossCooling c.flow.compressorSpeed))
    (← Sys.at_ S.grossCoolingCop c.flow.compressorSpeed)) (min := some 0)

/-- `gross_total_cooling_capacity`, resdx/models/nrel.py:100-122. -/
def grossTotalCoolingCapacity (S : Sys K) (c : Conditions K) : Py K := do
  let tiwb ← coolingIndoor c
  let capFT ← calcBiquad coolingCapFT tiwb (coolingOutdoor c)
  let capFF ← calcQuad coolingCapFF (← pyAttr c.flow.ratio)
  return capFF * capFT * (← Sys.at_ S.grossCooling c.flow.compressorSpeed)

/-- `gross_steady_state_heating_power`, resdx/models/nrel.py:124-151. -/
def grossSteadyHeatingPower (S : Sys K) (c : Conditions K) : Py K := do
  let eirFT ← calcBiquad heatingEirFT (toF c.indoor.db) (toF c.outdoor.db)
  let eirFF ← calcQuad heatingEirFF (← pyAttr c.flow.ratio)
  let capFT ← calcBiquad heatingCapFT (toF c.indoor.db) (toF c.outdoor.db)
  let capFF ← calcQuad heatingCapFF (← pyAttr c.flow.ratio)
  pdiv (eirFF * capFF * eirFT * capFT * (← Sys.at_ S.grossHeating c.flow.compressorSpeed))
    (← Sys.at_ S.grossHeatingCop c.flow.compressorSpeed)

/-- `gross_steady_state_heating_capacity`, resdx/models/nrel.py:153-169. -/
def grossSteadyHeatingCapacity (S : Sys K) (c : Conditions K) : Py K := do
  let capFT ← calcBiquad heatingCapFT (toF c.indoor.db) (toF c.outdoor.db)
  let capFF ← calcQuad heatingCapFF (← pyAttr c.flow.ratio)
  return capFF * capFT * (← Sys.at_ S.grossHeating c.flow.compressorSpeed)

/-! ## Frost (EPRI algorithm) -/

/-- `coil_diff_outdoor_air_humidity`, resdx/models/nrel.py:268-275; `satHumRatio` is `psychrolib.GetSatHumRatio`. -/
def coilHumidityDifference (lib : Psych.PsychLib K) (satHumRatio : K → K → Py K) (c : Conditions K) : Py K := do
  let sat ← satHumRatio (0.82 * toC c.outdoor.db - 8.589) c.outdoor.p
  return max 0.000001 ((← (Psych.getHr lib c.outdoor).1) - sat)

/-- `epri_defrost_time_fraction`, resdx/models/nrel.py:261-266. -/
def epriTimeFraction (lib : Psych.PsychLib K) (satHumRatio : K → K → Py K) (c : Conditions K) : Py K := do
  pdiv 1 (1 + (← pdiv 0.01446 (← coilHumidityDifference lib satHumRatio c)))

/-- The parameters of the EPRI algorithm that are not plain attributes: `defrost.time_fraction`, the humidity difference, and
the unit's own steady-state functions. -/
structure Frost (K : Type) where
  timeFraction : Conditions K → Py K
  humidity : Conditions K → Py K
  steadyCapacity : Conditions K → Py K
  steadyPower : Conditions K → Py K

/-- The capacity multiplier, resdx/models/nrel.py:175-181. -/
def capacityMultiplier (S : Sys K) (F : Frost K) (c : Conditions K) (t : K) : Py K :=
  if S.defrost.control = .timed then do return 0.909 - 107.33 * (← F.humidity c) else return 0.875 * (1 - t)

/-- The power multiplier, resdx/models/nrel.py:230-235. -/
def powerMultiplier (S : Sys K) (F : Frost K) (c : Conditions K) (t : K) : Py K :=
  if S.defrost.control = .timed then do return 0.9 - 36.45 * (← F.humidity c) else return 0.954 * (1 - t)

/-- `Q_defrost_indoor_u`, resdx/models/nrel.py:183-195. -/
def defrostLoad (S : Sys K) (c : Conditions K) : Py K :=
  if S.defrost.strategy = .reverseCycle then do
    return 0.01 * (7.222 - toC c.outdoor.db) * ((← Sys.at_ S.grossHeating c.flow.compressorSpeed) / 1.01667)
  else return 0

/-- `P_defrost`, resdx/models/nrel.py:237-252. With reverse-cycle defrost the source calls the method `get_cooling_cop60` on the class without an instance,
which raises `TypeError`. -/
def defrostPower (S : Sys K) : Py K :=
  if S.defrost.strategy = .reverseCycle then .error .type else .ok S.defrost.resistivePower

/-- `gross_integrated_heating_capacity`, resdx/models/nrel.py:171-205. -/
def grossIntegratedHeatingCapacity (S : Sys K) (F : Frost K) (c : Conditions K) : Py K :=
  if S.defrost.inDefrost c.outdoor.db then do
    let t ← F.timeFraction c
    let m ← capacityMultiplier S F c t
    let q ← defrostLoad S c
    let steady ← F.steadyCapacity c
    return steady * m * (1 - t) - q * t
  else F.steadyCapacity c

/-- `gross_integrated_heating_power`, resdx/models/nrel.py:226-259. -/
def grossIntegratedHeatingPower (S : Sys K) (F : Frost K) (c : Conditions K) : Py K :=
  if S.defrost.inDefrost c.outdoor.db then do
    let t ← F.timeFraction c
    let m ← powerMultiplier S F c t
    let p ← defrostPower S
    let steady ← F.steadyPower c
    return steady * m * (1 - t) + p * t
  else F.steadyPower c

/-! ## Refrigerant charge faults -/

/-- `FunctionType`, resdx/models/nrel.py:294-296. -/
inductive FunctionType | capacity | power
  deriving DecidableEq

/-- `charge_coeffs`, resdx/models/nrel.py:303-323. -/
def chargeCoeffs (heating : Bool) : FunctionType → List (List K)
  | .capacity => if heating then [[-0.0339, 0, 0.0203, -2.62], [-0.00295, 0, 0.000738, -0.00641]]
      else [[-0.946, 0.0493, -0.00118, -1.15], [-0.163, 0.0114, -0.00021, -0.14]]
  | .power => if heating then [[0.0616, 0, 0.00446, -0.26], [-0.0594, 0, 0.0159, 1.89]]
      else [[-0.313, 0.0115, 0.00266, -0.116], [0.219, -0.00501, 0.000989, 0.284]]

/-- `domonski_charge_factor`, resdx/models/nrel.py:325-348. -/
def chargeFactor (tidb todb f : K) (coeffs : List (List K)) : Py K := do
  let row ← pyGet coeffs (if f < 0 then 0 else 1)
  return 1 + ((← pyGet row 0) + (← pyGet row 1) * tidb + (← pyGet row 2) * todb + (← pyGet row 3) * f) * f

/-- The four model functions of which `resnet_grading_model` picks one, resdx/models/nrel.py:360-369. -/
structure Raw (K : Type) where
  coolCap : Conditions K → Py K
  coolPow : Conditions K → Py K
  heatCap : Conditions K → Py K
  heatPow : Conditions K → Py K

/-- The chosen function. -/
def Raw.pick (R : Raw K) (heating : Bool) : FunctionType → Conditions K → Py K
  | .capacity => if heating then R.heatCap else R.coolCap
  | .power => if heating then R.heatPow else R.coolPow

/-- A deep copy of a condition with `set_mass_airflow_ratio`, resdx/models/nrel.py:390-391. -/
def withRatio (c : Conditions K) (r : K) : Py (Conditions K) := do
  return { c with flow := (← (Cond.setMassAirflowRatio r).exec c.flow) }

/-- `resnet_grading_model`, resdx/models/nrel.py:350-405. -/
def gradingModel (E : Env K) (S : Sys K) (R : Raw K) (ft : FunctionType) (c : Conditions K) : Py K :=
  if S.chargeDeviation = 0 then .ok 1
  else do
    let fn := R.pick c.heating ft
    let rated ← S.makeCondition E c.heating c.flow.compressorSpeed
    let ratedValue ← fn rated
    let f ← chargeFactor c.indoor.dbC c.outdoor.dbC S.chargeDeviation (chargeCoeffs c.heating ft)
    let cf ← pdiv 1 (← chargeFactor rated.indoor.dbC rated.outdoor.dbC S.chargeDeviation (chargeCoeffs c.heating .capacity))
    let fAfChg ← pdiv (← fn (← withRatio rated cf)) ratedValue
    let fAf ← pdiv (← fn (← withRatio rated ((← pyAttr c.flow.ratio) * cf))) ratedValue
    let fCorr ← pdiv (← fn (← withRatio rated (← pyAttr c.flow.ratio))) ratedValue
    pdiv ((← pdiv f fAfChg) * fAf) fCorr

/-- The unit-level steady-state functions of a model whose charge factors are the grading model: `DXUnit.gross_steady_state_heating_capacity`,
resdx/dx_unit.py:986-991. -/
def steadyCapacity (E : Env K) (S : Sys K) (R : Raw K) (c : Conditions K) : Py K := do
  return (← R.heatCap c) * (← gradingModel E S R .capacity c)

/-- `DXUnit.gross_steady_state_heating_power`, resdx/dx_unit.py:993-998. -/
def steadyPower (E : Env K) (S : Sys K) (R : Raw K) (c : Conditions K) : Py K := do
  return (← R.heatPow c) * (← gradingModel E S R .power c)

/-- The four functions of `NRELDXModel` itself. -/
def raw (S : Sys K) : Raw K :=
  { coolCap := grossTotalCoolingCapacity S, coolPow := grossCoolingPower S
    heatCap := grossSteadyHeatingCapacity S, heatPow := grossSteadyHeatingPower S }

/-- A `DXUnit` with an `NRELDXModel`: the charge factors are those of the grading model, resdx/models/nrel.py:407-410, 412-415, 417-420, 422-425. The sensible capacity and the fan
are parameters. -/
def unit (E : Env K) (S : Sys K) (timeFraction humidity sensible fanPower : Conditions K → Py K) (aFull h1Full : Conditions K) :
    DX.Performance (Conditions K) K :=
  let F : Frost K := { timeFraction, humidity, steadyCapacity := steadyCapacity E S (raw S), steadyPower := steadyPower E S (raw S) }
  { coolCap := grossTotalCoolingCapacity S, coolCapCharge := gradingModel E S (raw S) .capacity
    coolPow := grossCoolingPower S, coolPowCharge := gradingModel E S (raw S) .power, sensible
    heatCap := grossSteadyHeatingCapacity S, heatCapCharge := gradingModel E S (raw S) .capacity
    heatPow := grossSteadyHeatingPower S, heatPowCharge := gradingModel E S (raw S) .power
    intCap := grossIntegratedHeatingCapacity S F, intPow := grossIntegratedHeatingPower S F
    fanPower, db := fun c => c.outdoor.db, aFull, h1Full }

end Performance

end Resdx.Nrel
