import Verif.Spec.Season

/-!
# Specification of the heating season of two-stage and variable-speed units

From the results of the tests to the seasonal rating; temperatures are in °F. The units do not run at or below the temperature `off` or when resistance heat would be better.
-/

namespace Resdx.Spec

variable {K : Type} [Field K] [LinearOrder K]

/-- The curves of a speed whose fan draws `ec` more in cooling and `eh` more in heating than its tables assume: what the fan draws more is also more heat. -/
def Curves.withFan (ec eh : K) (c : Curves K) : Curves K where
  coolingCapacity t := c.coolingCapacity t - ec
  coolingPower t := c.coolingPower t + ec
  heatingCapacity t := c.heatingCapacity t + eh
  heatingPower t := c.heatingPower t + eh

/-- Heat needed over energy used in a season. -/
def seasonRatio (load energy resistance : K → K) (bins : List (K × K)) : K := CoolTests.total load bins / (CoolTests.total energy bins + CoolTests.total resistance bins)

/-- What a two-stage unit does in a bin: it runs whenever one of its stages covers the load, and otherwise if it is allowed to. -/
def HeatTests.twoStageRun (T : HeatTests K) (TL : HeatLowTests K) (off : K) (load : K → K) (tF : K) : K :=
  if load tF < T.q tF ∨ load tF ≤ TL.q tF then 1 else runFraction off off tF (T.q tF / T.p tF)

/-- Its energy: it cycles at low stage, alternates between the stages, or runs at high stage. -/
def HeatTests.twoStageEnergy (T : HeatTests K) (TL : HeatLowTests K) (cd off : K) (load : K → K) (tF : K) : K :=
  T.twoStageRun TL off load tF * twoStageRate cd true (TL.q tF) (TL.p tF) (T.q tF) (T.p tF) (load tF)

/-- The resistance heat: what the unit does not deliver. -/
def HeatTests.twoStageResistance (T : HeatTests K) (TL : HeatLowTests K) (off : K) (load : K → K) (tF : K) : K :=
  load tF - T.twoStageRun TL off load tF * (if load tF ≤ TL.q tF then load tF else min (load tF) (T.q tF))

/-- Seasonal rating of a two-stage unit. -/
def HeatTests.twoStageSeason (T : HeatTests K) (TL : HeatLowTests K) (cd off : K) (load : K → K) (bins : List (K × K)) : K :=
  seasonRatio load (T.twoStageEnergy TL cd off load) (T.twoStageResistance TL off load) bins

/-- All tests of a variable-speed unit in heating: full speed, low speed, intermediate speed at 35 °F (`qi`, `pi`) and full speed at 5 °F (`q4`, `p4`). -/
structure VariableTests (K : Type) where
  full : HeatTests K
  low : HeatLowTests K
  qi : K
  pi : K
  q4 : K
  p4 : K

namespace VariableTests
variable (T : VariableTests K)

/-- Low-speed capacity. -/
def qLow (tF : K) : K := lineAt 47 T.low.q1 62 T.low.q0 tF
/-- Low-speed power. -/
def pLow (tF : K) : K := lineAt 47 T.low.p1 62 T.low.p0 tF
/-- Intermediate-speed capacity. -/
def qInt (tF : K) : K := intermediateLine (T.qLow 35) ((T.low.q0 - T.low.q1) / 15) T.full.q2 ((T.full.q2 - T.full.q3) / 18) T.qi tF
/-- Intermediate-speed power. -/
def pInt (tF : K) : K := intermediateLine (T.pLow 35) ((T.low.p0 - T.low.p1) / 15) T.full.p2 ((T.full.p2 - T.full.p3) / 18) T.pi tF
/-- COP while the unit modulates. -/
def cop (load : K → K) (tF : K) : K :=
  modulatedCop (T.qLow tF) (T.qLow tF / T.pLow tF) (T.qInt tF) (T.qInt tF / T.pInt tF) (T.full.q tF) (T.full.q tF / T.full.p tF) (load tF)

/-- Energy of the heat pump in a bin. Above the full-speed capacity it follows the line through the tests at 5 and 17 °F. -/
def energy (cd off : K) (load : K → K) (tF : K) : K :=
  if load tF ≤ T.qLow tF then runFraction off off tF (T.qLow tF / T.pLow tF) * cyclingRate cd (T.qLow tF) (T.pLow tF) (load tF)
  else if load tF < T.full.q tF then runFraction off off tF (T.cop load tF) * (load tF / T.cop load tF)
  else runFraction off off tF (T.full.q tF / T.full.p tF) * lineAt 5 T.p4 17 T.full.p3 tF

/-- Resistance heat in a bin. -/
def resistance (off : K) (load : K → K) (tF : K) : K :=
  load tF -
    if load tF ≤ T.qLow tF then runFraction off off tF (T.qLow tF / T.pLow tF) * load tF
    else if load tF < T.full.q tF then runFraction off off tF (T.cop load tF) * load tF
    else runFraction off off tF (T.full.q tF / T.full.p tF) * lineAt 5 T.q4 17 T.full.q3 tF

/-- Seasonal rating. -/
def season (cd off : K) (load : K → K) (bins : List (K × K)) : K := seasonRatio load (T.energy cd off load) (T.resistance off load) bins

end VariableTests

/-- The heating tests of a variable-speed unit from the curves of its low and full speed, its rated fan powers `w1`, `w`, `w3` at full, intermediate and low speed and the fan power `v` at full speed in the
tests. The intermediate test is the mean of the curves, lower by the amount by which the mean of the rated fan powers of these speeds exceeds that of the intermediate speed, and reduced by frost. -/
def Curves.variableTests (low full : Curves K) (defrosts : Bool) (w1 w w3 v : K) : VariableTests K where
  full := (full.withFan 0 (v - w1)).heatTests defrosts v
  low := low.lowHeatTests defrosts w3
  qi := frosted defrosts 0.0522 w ((low.heatingCapacity (frF 35) + full.heatingCapacity (frF 35)) / 2 - ((w1 + w3) / 2 - w))
  pi := frosted defrosts 0.0087 w ((low.heatingPower (frF 35) + full.heatingPower (frF 35)) / 2 - ((w1 + w3) / 2 - w))
  q4 := full.heatingCapacity (frF 5) + (v - w1)
  p4 := full.heatingPower (frF 5) + (v - w1)

/-- The cooling tests of a variable-speed unit from the same data. The intermediate test is the mean of the curves, higher in capacity and lower in power by the amount by which the mean of the rated fan powers of these speeds exceeds that
of the intermediate speed. -/
def Curves.variableCoolTests (low full : Curves K) (w1 w w3 v : K) : CoolTests K :=
  low.coolTests (full.withFan (v - w1) 0) ((low.coolingCapacity (frF 87) + full.coolingCapacity (frF 87)) / 2 + ((w1 + w3) / 2 - w))
    ((low.coolingPower (frF 87) + full.coolingPower (frF 87)) / 2 - ((w1 + w3) / 2 - w))

/-- Seasonal cooling performance of a variable-speed unit. -/
def CoolTests.variableSeason (T : CoolTests K) (cd : K) : K :=
  CoolTests.total T.delivered coolingSeason / CoolTests.total (fun t => varSpeedRate cd (T.qLow t) (T.pLow t) (T.qInt t) (T.pInt t) (T.qFull t) (T.pFull t) (T.load t)) coolingSeason

/-! ## Two-stage units from their ratings -/

/-- The heating tests of the high stage: capacities `q47` and `q17`, COP at 47 °F, fan power `v`, of which `e` is not in the ratings. -/
def highTests (defrosts : Bool) (q47 q17 cop e v : K) : HeatTests K where
  q1 := q47 + e
  p1 := q47 / cop + e
  q2 := frosted defrosts 0.0522 v (0.6 * q47 + 0.4 * q17 + e)
  p2 := frosted defrosts 0.0087 v (0.6 * (q47 / cop) + 0.4 * (q17 / cop * input17) + e)
  q3 := q17 + e
  p3 := q17 / cop * input17 + e

/-- The heating tests of the low stage, with its fan power `w`. -/
def lowTests (defrosts : Bool) (q47 q17 cop w : K) : HeatLowTests K where
  q0 := q47 * 0.712
  p0 := q47 / cop * (0.712 * 0.850)
  q1 := q47 * 0.712
  p1 := q47 / cop * (0.712 * 0.850)
  q2 := frosted defrosts 0.0522 w ((0.6 * q47 + 0.4 * q17) * 0.712)
  p2 := frosted defrosts 0.0087 w ((0.6 * (q47 / cop) + 0.4 * (q17 / cop * input17)) * (0.712 * 0.850))
  q3 := q17 * 0.712
  p3 := q17 / cop * input17 * (0.712 * 0.850)

/-- Seasonal cooling performance of a two-stage unit with a capacity `q95` and input `p95` at high stage and 95 °F and a COP `κ` at low stage and 82 °F, whose fan draws `e` more at high stage than its ratings assume. -/
def twoStageSeer (cd q95 p95 κ e : K) : K :=
  let qH (t : K) := q95 * unitCapacity t - e
  let load := coolBuildingLoad (q95 - e)
  CoolTests.total (fun t => min (load t) (qH t)) coolingSeason /
    CoolTests.total (fun t => twoStageRate cd true (q95 * (0.728 * unitCapacity t)) (q95 * 0.728 / (κ * input82) * unitPower t) (qH t) (p95 * unitPower t + e) (load t)) coolingSeason

/-! ## Variable-speed units from their ratings -/

/-- The heating tests of a variable-speed unit: capacities `q47` and `q17` and COP at 47 °F at full speed, rated fan powers `w1`, `w`, `w3` at full, intermediate and low speed, fan power `v` at full speed in the tests. The low speed
has 27.2 % of the highest capacity at 47 °F and 34.1 % at 17 °F; the highest capacity is 1/0.908 times the rated one at 47 °F and 1/0.817 times at 17 °F. -/
def variableHeating (defrosts : Bool) (q47 q17 cop w1 w w3 v : K) : VariableTests K :=
  let e := v - w1
  let d := (w1 + w3) / 2 - w
  let qF := 0.6 * q47 + 0.4 * q17
  let pF := 0.6 * (q47 / cop) + 0.4 * (q17 / cop * 1.351)
  let lowQ47 := q47 / 0.908 * 0.272
  let lowQ17 := q17 / 0.817 * 0.341
  let lowP47 := q47 / cop / (0.908 * 0.939) * (0.272 * 0.730)
  let lowP17 := q17 / cop * 1.351 / (0.817 * 0.902) * (0.341 * 0.798)
  { full :=
      { q1 := q47 + e, p1 := q47 / cop + e, q2 := frosted defrosts 0.0522 v (qF + e), p2 := frosted defrosts 0.0087 v (pF + e), q3 := q17 + e, p3 := q17 / cop * 1.351 + e }
    low :=
      { q0 := lowQ47, p0 := lowP47, q1 := lowQ47, p1 := lowP47, q2 := frosted defrosts 0.0522 w3 (0.6 * lowQ47 + 0.4 * lowQ17), p2 := frosted defrosts 0.0087 w3 (0.6 * lowP47 + 0.4 * lowP17), q3 := lowQ17
        p3 := lowP17 }
    qi := frosted defrosts 0.0522 w ((0.6 * lowQ47 + 0.4 * lowQ17 + qF) / 2 - d)
    pi := frosted defrosts 0.0087 w ((0.6 * lowP47 + 0.4 * lowP17 + pF) / 2 - d)
    q4 := q17 / 0.817 * 0.866 * 0.988 + e
    p4 := q17 / cop * 1.351 / (0.817 * 0.902) * (0.866 * 1.164) * 0.988 + e }

end Resdx.Spec
