import Verif.Model.Conditions
import Verif.Model.Psychrometrics
import Verif.Model.Defrost
import Verif.Model.DXUnit

/-!
# The unit as seen by the performance models: rated data and operating conditions

`DXUnit.make_condition` and the records its callers read.
-/

namespace Resdx

variable {K : Type} [Field K] [LinearOrder K]

/-- A `CoolingConditions` or `HeatingConditions` object (`type(conditions)` is `heating`): the two air states and the airflow record of
`Verif.Model.Conditions`. Reading a `PsychState` does not change what it reports (C05), so states are values here. -/
structure Conditions (K : Type) where
  heating : Bool
  indoor : Psych.PsychState K
  outdoor : Psych.PsychState K
  flow : Cond.OpCond K
  deriving DecidableEq

/-- Third-party correlations and the constants computed from them: psychrolib, 1 atm, `STANDARD_CONDITIONS.rho`. -/
structure Env (K : Type) where
  lib : Psych.PsychLib K
  atm : K
  rhoStd : K

/-- `PsychState(drybulb=.., wetbulb=..)`: a state with only the wet bulb set, resdx/psychrometrics.py:10-29. -/
def wetState (atm db wb : K) : Psych.PsychState K := { Psych.blank db atm with wb := some wb, wbC := some (toC wb) }

/-- `CoolingConditions().indoor` / `HeatingConditions().indoor`, resdx/conditions.py:110 and 129. -/
def defaultIndoor (E : Env K) (heating : Bool) : Psych.PsychState K :=
  if heating then wetState E.atm (frF 70) (frF 60) else wetState E.atm (frF 80) (frF 67)

/-- `CoolingConditions().outdoor` / `HeatingConditions().outdoor`, resdx/conditions.py:109 and 128. -/
def defaultOutdoor (E : Env K) (heating : Bool) : Psych.PsychState K :=
  if heating then wetState E.atm (frF 47) (frF 43) else wetState E.atm (frF 95) (frF 75)

/-- Attributes of a `DXUnit` that the performance models read (resdx/dx_unit.py:141-387); one list entry per speed. Placeholder arrays
hold `None` until set. -/
structure Sys (K : Type) where
  netCooling : List K
  netHeating : List K
  coolingAirflow : List (Option K)
  heatingAirflow : List (Option K)
  ratedCoolingFanSpeed : List (Option Nat)
  ratedHeatingFanSpeed : List (Option Nat)
  fullESP : K
  grossCooling : List (Option K)
  grossCoolingCop : List (Option K)
  grossHeating : List (Option K)
  grossHeatingCop : List (Option K)
  chargeDeviation : K
  defrost : Defrost K
  deriving DecidableEq

namespace Sys

/-- An entry of a placeholder array used as a number. -/
def at_ (l : List (Option K)) (i : Nat) : Py K := do pyNum (← pyGet l i)

/-- `calculate_rated_pressure`, resdx/dx_unit.py:668-672. -/
def ratedPressure (S : Sys K) (airflow full : K) : Py K := do return S.fullESP * (← pdiv airflow full) ^ 2

/-- `make_condition`, resdx/dx_unit.py:621-651 (compressor speeds are natural numbers). -/
def makeCondition (E : Env K) (S : Sys K) (heating : Bool) (speed : Nat := 0) (indoor outdoor : Option (Psych.PsychState K) := none) :
    Py (Conditions K) := do
  let indoor := indoor.getD (defaultIndoor E heating)
  let outdoor := outdoor.getD (defaultOutdoor E heating)
  let cap ← pyGet (if heating then S.netHeating else S.netCooling) speed
  let airflow ← pyGet (if heating then S.heatingAirflow else S.coolingAirflow) speed
  let full ← pyGet (if heating then S.heatingAirflow else S.coolingAirflow) 0
  let fanSpeed ← pyGet (if heating then S.ratedHeatingFanSpeed else S.ratedCoolingFanSpeed) speed
  let pressure ← S.ratedPressure (← pyNum airflow) (← pyNum full)
  let rho ← (Psych.getRho E.lib indoor).1
  let flow ← (Cond.setRatedVolumetricAirflow (← pyNum airflow) cap).exec (Cond.init rho E.rhoStd speed fanSpeed (some pressure))
  return { heating, indoor, outdoor, flow }

end Sys
end Resdx
