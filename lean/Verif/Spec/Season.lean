import Verif.Spec.DerivedTables
import Verif.Spec.Heating

/-!
# Specification of the tests and the heating season of a unit with known curves

From what a speed delivers and draws at each outdoor temperature to the results of its standard tests, and from these to the seasonal ratings. Temperatures of the season are in °F.
-/

namespace Resdx.Spec

variable {K : Type} [Field K] [LinearOrder K]

/-- Share of the heating capacity spent on frost and defrosting, per 1.8: it falls with the outdoor temperature, between 8 % and nothing. -/
def frostShare (tF : K) : K := if 0.134 - 0.003 * tF ≤ 0 then 0 else if 0.134 - 0.003 * tF ≤ 0.08 then 0.134 - 0.003 * tF else 0.08

/-- A net value of which all but the part `w` due to the fan is reduced by `loss` when the unit defrosts. -/
def frosted (defrosts : Bool) (loss w x : K) : K := if defrosts then (x - w) * (1 - loss) + w else x

/-- The heating tests at full speed of a unit with a rated fan power `w`; `defrosts` says if it defrosts at 35 °F. -/
def Curves.heatTests (defrosts : Bool) (w : K) (c : Curves K) : HeatTests K where
  q1 := c.heatingCapacity (frF 47)
  p1 := c.heatingPower (frF 47)
  q2 := frosted defrosts 0.0522 w (c.heatingCapacity (frF 35))
  p2 := frosted defrosts 0.0087 w (c.heatingPower (frF 35))
  q3 := c.heatingCapacity (frF 17)
  p3 := c.heatingPower (frF 17)

/-- The heating tests at low speed. -/
def Curves.lowHeatTests (defrosts : Bool) (w : K) (c : Curves K) : HeatLowTests K where
  q0 := c.heatingCapacity (frF 62)
  p0 := c.heatingPower (frF 62)
  q1 := c.heatingCapacity (frF 47)
  p1 := c.heatingPower (frF 47)
  q2 := frosted defrosts 0.0522 w (c.heatingCapacity (frF 35))
  p2 := frosted defrosts 0.0087 w (c.heatingPower (frF 35))
  q3 := c.heatingCapacity (frF 17)
  p3 := c.heatingPower (frF 17)

/-- The cooling tests of a unit whose low and full speed follow these curves, with the results `qE`, `pE` of the test at intermediate speed if there is one. -/
def Curves.coolTests (low full : Curves K) (qE pE : K) : CoolTests K where
  qA := full.coolingCapacity (frF 95)
  pA := full.coolingPower (frF 95)
  qB := full.coolingCapacity (frF 82)
  pB := full.coolingPower (frF 82)
  qBl := low.coolingCapacity (frF 82)
  pBl := low.coolingPower (frF 82)
  qFl := low.coolingCapacity (frF 67)
  pFl := low.coolingPower (frF 67)
  qE := qE
  pE := pE

/-- The temperatures of the heating season. -/
def seasonTemperatures : List K := [62, 57, 52, 47, 42, 37, 32, 27, 22, 17, 12, 7, 2, -3, -8, -13, -18, -23]

/-- Energy of the heat pump in a bin of a one-stage unit that does not run at or below the temperature `off` or when resistance heat would be better. -/
def HeatTests.oneStageEnergy (T : HeatTests K) (cd off : K) (load : K → K) (tF : K) : K :=
  runFraction off off tF (T.q tF / T.p tF) * oneStageRate cd (T.q tF) (T.p tF) (load tF)

/-- Resistance heat in the bin: what the heat pump does not deliver. -/
def HeatTests.oneStageResistance (T : HeatTests K) (off : K) (load : K → K) (tF : K) : K :=
  load tF - runFraction off off tF (T.q tF / T.p tF) * min (load tF) (T.q tF)

/-- Heat needed over energy used in a season. -/
def HeatTests.oneStageSeason (T : HeatTests K) (cd off : K) (load : K → K) (bins : List (K × K)) : K :=
  CoolTests.total load bins / (CoolTests.total (T.oneStageEnergy cd off load) bins + CoolTests.total (T.oneStageResistance off load) bins)

/-- Rated fan power of a PSC motor at 400 cfm per ton for a speed of capacity `q` when the largest full-speed capacity of the unit is `largest`: 0.414 W/cfm at the airflow of the latter, 30 % of
which is proportional to the airflow. -/
def pscRatedPower (ton largest q : K) : K := q * (400 * 0.414 / ton) * (0.3 * (q / largest) + 0.7)

/-! ## The cooling season of a two-stage unit -/

/-- Temperatures (°F) and shares of the cooling season. -/
def coolingSeason : List (K × K) := [(67, 0.214), (72, 0.231), (77, 0.216), (82, 0.161), (87, 0.104), (92, 0.052), (97, 0.018), (102, 0.004)]

/-- Capacity of the high stage per capacity at 95 °F. -/
def unitCapacity (tF : K) : K := lineAt 82 capacity82 95 1 tF

/-- Power of the high stage per power at 95 °F. -/
def unitPower (tF : K) : K := lineAt 82 (capacity82 * input82) 95 1 tF

/-- Cooling delivered in the season per capacity at 95 °F. -/
def unitDelivered : K := CoolTests.total (fun t => min (coolBuildingLoad 1 t) (unitCapacity t)) coolingSeason

/-- Power drawn in the season if only one stage drew any: `pL` and `pH` are 1 for that stage and 0 for the other. -/
def stageUse (cd pL pH : K) : K :=
  CoolTests.total (fun t => unitPower t * twoStageRate cd true (0.728 * unitCapacity t) pL (unitCapacity t) pH (coolBuildingLoad 1 t)) coolingSeason

/-- What a COP of 1 at low stage and 82 °F contributes to the energy per cooling delivered. -/
def lowStageWeight (cd : K) : K := 0.728 / input82 * stageUse cd 1 0 / unitDelivered

/-- What a COP of 1 at high stage and 95 °F contributes. -/
def highStageWeight (cd : K) : K := stageUse cd 0 1 / unitDelivered

end Resdx.Spec
