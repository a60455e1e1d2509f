import Verif.Spec.Curves
import Verif.Spec.FanWatts
import Verif.Spec.SeasonStaged

/-!
# Specification of the season of units made from lists of capacities

A speed has a gross capacity `Q` and gross power `P` at the rating condition and follows the published curves at other outdoor temperatures; its fan draws `v`.
-/

namespace Resdx.Spec

variable {K : Type} [Field K] [LinearOrder K]

/-- Net heating capacity of a speed at an outdoor temperature in °F, without frost. -/
def heatingOn (Q v t : K) : K := Q * heatCapT 70 t + v

/-- Net heating power. -/
def heatingPowerOn (P v t : K) : K := P * (heatEirT 70 t * heatCapT 70 t) + v

/-- Net cooling capacity of a speed at an outdoor temperature in °F; the curves are constant below 75 °F. -/
def coolingOn (Q v t : K) : K := Q * coolCapT 67 (max 75 t) - v

/-- Net cooling power. -/
def coolingPowerOn (P v t : K) : K := P * (coolEirT 67 (max 75 t) * coolCapT 67 (max 75 t)) + v

/-- The heating tests at full speed. -/
def curveHeatTests (defrosts : Bool) (Q P v : K) : HeatTests K where
  q1 := heatingOn Q v 47
  p1 := heatingPowerOn P v 47
  q2 := frosted defrosts 0.0522 v (heatingOn Q v 35)
  p2 := frosted defrosts 0.0087 v (heatingPowerOn P v 35)
  q3 := heatingOn Q v 17
  p3 := heatingPowerOn P v 17

/-- The heating tests at low speed. -/
def curveLowTests (defrosts : Bool) (Q P v : K) : HeatLowTests K where
  q0 := heatingOn Q v 62
  p0 := heatingPowerOn P v 62
  q1 := heatingOn Q v 47
  p1 := heatingPowerOn P v 47
  q2 := frosted defrosts 0.0522 v (heatingOn Q v 35)
  p2 := frosted defrosts 0.0087 v (heatingPowerOn P v 35)
  q3 := heatingOn Q v 17
  p3 := heatingPowerOn P v 17

/-- The cooling tests: full speed `Q`, `P`, `v`, low speed `Q'`, `P'`, `v'` and intermediate speed `Qi`, `Pi`, `vi` (variable-speed units only). -/
def curveCoolTests (Q P v Q' P' v' Qi Pi vi : K) : CoolTests K where
  qA := coolingOn Q v 95
  pA := coolingPowerOn P v 95
  qB := coolingOn Q v 82
  pB := coolingPowerOn P v 82
  qBl := coolingOn Q' v' 82
  pBl := coolingPowerOn P' v' 82
  qFl := coolingOn Q' v' 67
  pFl := coolingPowerOn P' v' 67
  qE := coolingOn Qi vi 87
  pE := coolingPowerOn Pi vi 87

/-- The heating tests of a variable-speed unit: full speed `Q`, `P`, `v`, low speed `Q'`, `P'`, `v'` and intermediate speed `Qi`, `Pi`, `vi`. -/
def curveVariableTests (defrosts : Bool) (Q P v Q' P' v' Qi Pi vi : K) : VariableTests K where
  full := curveHeatTests defrosts Q P v
  low := curveLowTests defrosts Q' P' v'
  qi := frosted defrosts 0.0522 vi (heatingOn Qi vi 35)
  pi := frosted defrosts 0.0087 vi (heatingPowerOn Pi vi 35)
  q4 := heatingOn Q v 5
  p4 := heatingPowerOn P v 5

/-- Seasonal cooling performance of a two-stage unit that alternates between its stages (`alternates`) or between the high stage and off. -/
def CoolTests.twoStageSeason (T : CoolTests K) (cd : K) (alternates : Bool) : K :=
  CoolTests.total T.delivered coolingSeason / CoolTests.total (fun t => twoStageRate cd alternates (T.qLow t) (T.pLow t) (T.qFull t) (T.pFull t) (T.load t)) coolingSeason

end Resdx.Spec
