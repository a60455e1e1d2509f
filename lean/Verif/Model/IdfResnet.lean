import Verif.Model.RatingSolver
import Verif.Model.FanEfficiency

/-!
# The EnergyPlus file of a constructed RESNET unit

`write_idf` reads a unit through its attributes and methods (`Idf.IdfUnit`); here these are those of a unit made by `build`.
-/

namespace Resdx.Build

open BaseModel Fan ResnetFan

/-- `PsychState(drybulb=…, rel_hum=0.4)`, resdx/idf.py:661, 891-892. -/
noncomputable def humid (E : Env ℝ) (t : ℝ) : Py (Psych.PsychState ℝ) := Psych.init E.lib (frF t) E.atm [("rel_hum", 0.4)]

/-- The cooling conditions of the file, resdx/idf.py:574, 654-662: the rating condition of the speed, or 80 °F and the given wet bulb indoors. -/
noncomputable def fileCooling (E : Env ℝ) (S : Sys ℝ) (speed : Nat) : Option (ℝ × ℝ) → Py (Conditions ℝ)
  | none => S.makeCondition E false speed
  | some (wb, db) => do S.makeCondition E false speed (some (wetState E.atm (frF 80) (frF wb))) (some (← humid E db))

/-- The heating conditions of the file, resdx/idf.py:821, 888-893. -/
noncomputable def fileHeating (E : Env ℝ) (S : Sys ℝ) (speed : Nat) : Option (ℝ × ℝ) → Py (Conditions ℝ)
  | none => S.makeCondition E true speed
  | some (i, o) => do
    let indoor ← humid E i
    let outdoor ← humid E o
    S.makeCondition E true speed (some indoor) (some outdoor)

/-- `condition.set_mass_airflow_ratio`, resdx/idf.py:625 and 859. Simplified: for a condition whose airflow cannot be set the source raises; conditions made by `make_condition` can be set
(`Resdx.Build.withRatio_made`). -/
noncomputable def setRatio (c : Conditions ℝ) (r : ℝ) : Conditions ℝ :=
  match Nrel.withRatio c r with
  | .ok c' => c'
  | .error _ => c

/-- The COP at the defrost conditions: 60 °F and 48 °F wet bulb outdoors, 70 °F and 60 °F wet bulb indoors, at speed 0, resdx/models/nrel.py:214-223. -/
noncomputable def Built.defrostCop (u : Units ℝ) (E : Env ℝ) (T : Coil.Tools) (brentq : Brentq) (B : Built) : Py ℝ := do
  let c ← B.sys.makeCondition E false 0 (some (wetState E.atm (frF 70) (frF 60))) (some (wetState E.atm (frF 60) (frF 48)))
  (B.unit u E T brentq).grossTotalCoolingCOP (some c)

/-- `get_cooling_cop60`, resdx/models/nrel.py:207-224. State: the entry of the unit's `model_data`, created empty at resdx/dx_unit.py:230. -/
noncomputable def Built.coolingCop60 (u : Units ℝ) (E : Env ℝ) (T : Coil.Tools) (brentq : Brentq) (B : Built) : PyM (Option ℝ) ℝ := fun cached =>
  match cached with
  | some v => (.ok v, some v)
  | none =>
    match B.defrostCop u E T brentq with
    | .ok v => (.ok v, some v)
    | .error e => (.error e, none)

/-- What the writer cannot read from the model of the unit: the order `numpy.argsort` finds, the caller's `time_fraction` of the defrost controls (resdx/defrost.py:22) and the setpoint of the
crankcase heater (resdx/dx_unit.py:223). -/
structure FileContext where
  argsort : List ℝ → List Nat
  timeFraction : Conditions ℝ → Py ℝ
  setpoint : ℝ

/-- What `write_idf` reads of a constructed unit whose `model_data` holds `cached`. The airflow attributes of made conditions are always set. -/
noncomputable def Built.idf (u : Units ℝ) (E : Env ℝ) (T : Coil.Tools) (brentq : Brentq) (X : FileContext) (cached : Option ℝ) (B : Built) : Idf.IdfUnit (Conditions ℝ) ℝ :=
  let U := B.unit u E T brentq
  let m := resnetMethods brentq (motorPower u brentq B.core.psc) B.core.fan
  { order := speedOrderMap X.argsort m.airflow B.core.fan.airflow.length
    fanSpeeds := B.core.fan.airflow.length
    pressure := fun s => m.operating s
    airflow := fun s => m.airflow s none
    power := fun s => m.power s none
    efficiency := fun s => m.efficiency s none
    airflowRatio := fun s t => m.airflowRatio s t none
    powerRatio := fun s t => m.powerRatio s t none
    nCool := speedCount B.core.st
    coolFull := B.core.rc.full
    nHeat := speedCount B.core.st
    heatFull := B.core.rh.full
    coolCondition := fileCooling E B.sys
    heatCondition := fileHeating E B.sys
    setRatio
    ratedFlow := fun c => c.flow.ratedVol.getD 0
    coolCap := U.grossTotalCoolingCapacity
    coolCop := fun c => U.grossTotalCoolingCOP (some c)
    shr := fun c => U.grossSHR (some c)
    heatCap := U.grossSteadyHeatingCapacity
    heatCop := fun c => U.grossSteadyHeatingCOP (some c)
    intCap := U.grossIntegratedHeatingCapacity none
    aFullFlow := B.points.aFull.flow.ratedVol.getD 0
    h1FullFlow := B.points.h1Full.flow.ratedVol.getD 0
    cdCool := B.cdCooling
    cdHeat := B.cdHeating
    off := B.heatingOff
    on := B.heatingOn
    crankcase := B.crankcase
    crankcaseSetpoint := X.setpoint
    defrost := B.sys.defrost
    timeFraction := X.timeFraction B.points.h1Full
    cop60 := (B.coolingCop60 u E T brentq cached).1 }

/-- The part of `write_idf` before the defrost COP is asked for, resdx/idf.py:110-795. -/
noncomputable def beforeCop60 (fmt : ℝ → Nat → String) (name : Option String) (st : Idf.SystemType) (autosize normalize : Bool) (U : Idf.IdfUnit (Conditions ℝ) ℝ) : Py Unit := do
  let _ ← Idf.systemObjects fmt (Idf.prefixOf name) st U
  let _ ← Idf.fanObject fmt (Idf.prefixOf name) st autosize U
  let _ ← Idf.addCooling fmt (Idf.prefixOf name) autosize normalize U []
  let _ ← Idf.autoM fmt autosize (U.heatCap none)
  let _ ← pyAttr U.on
  let _ ← Idf.timeFractionField fmt U
  return ()

/-- The options of a call of `write_idf`, resdx/idf.py:102-109. -/
structure FileOptions where
  name : Option String
  type : Idf.SystemType
  autosize : Bool
  normalize : Bool

/-- `write_idf(unit, …)`, resdx/idf.py:102-920, as an operation on the unit's `model_data`. -/
noncomputable def Built.writeIdf (u : Units ℝ) (E : Env ℝ) (T : Coil.Tools) (brentq : Brentq) (X : FileContext) (fmt : ℝ → Nat → String) (B : Built) (o : FileOptions) : PyM (Option ℝ) String :=
  fun cached =>
    let U := B.idf u E T brentq X cached
    match beforeCop60 fmt o.name o.type o.autosize o.normalize U with
    | .error e => (.error e, cached)
    | .ok _ => (Idf.writeIdf fmt o.name o.type o.autosize o.normalize U, (B.coolingCop60 u E T brentq cached).2)

end Resdx.Build
