import Verif.Model.Reports

/-!
# Specification of the reports

What the columns of the validation table and the labels of the plot mean, stated from their names.
-/

namespace Resdx.Spec

open DX

variable {C K : Type}

/-- The endings of the column names: outdoor temperature (°F) and speed of a heating test. -/
def heatTestNames : List String := ["62min", "47full", "47min", "47nominal", "35full", "35inter", "35min", "17full", "17min", "5full"]

/-- The test a name stands for; the nominal and the full capacity at 47 °F are the same test. -/
def heatTest (P : Points C) : String → Option C
  | "62min" => P.h0Low
  | "47full" => some P.h1Full
  | "47min" => P.h1Low
  | "47nominal" => some P.h1Full
  | "35full" => some P.h2Full
  | "35inter" => P.h2Int
  | "35min" => P.h2Low
  | "17full" => some P.h3Full
  | "17min" => P.h3Low
  | "5full" => some P.h4Full
  | _ => none

/-- The tests at 35 °F include frosting and defrosting. -/
def isFrostTest (name : String) : Bool := name ∈ ["35full", "35inter", "35min"]

variable [Field K] [LinearOrder K]

/-- The capacity measured in a test. -/
def testCapacity (U : Performance C K) (name : String) (c : C) : Py K :=
  if isFrostTest name then U.netIntegratedHeatingCapacity (some c) else U.netSteadyHeatingCapacity (some c)

/-- The power measured in a test. -/
def testPower (U : Performance C K) (name : String) (c : C) : Py K :=
  if isFrostTest name then U.netIntegratedHeatingPower (some c) else U.netSteadyHeatingPower (some c)

/-- The outdoor temperatures the heating rating calculation assumes for the tests of a variable-speed unit. -/
structure TestTemperatures (U : Performance C K) (P : Points C) : Prop where
  h1 : U.db P.h1Full = frF 47
  h2 : U.db P.h2Full = frF 35
  h3 : U.db P.h3Full = frF 17
  h4 : U.db P.h4Full = frF 5
  h0Low : ∀ c, P.h0Low = some c → U.db c = frF 62
  h1Low : ∀ c, P.h1Low = some c → U.db c = frF 47

/-! ## Plot -/

/-- What a legend group of the plot stands for. -/
def plotted (U : Performance C K) (group : String) : Option (Option C → Py K) :=
  match group with
  | "Net Steady State Heating Capacity" => some U.netSteadyHeatingCapacity
  | "Net Integrated Heating Capacity" => some U.netIntegratedHeatingCapacity
  | "Net Steady State Heating Power" => some U.netSteadyHeatingPower
  | "Net Integrated Heating Power" => some U.netIntegratedHeatingPower
  | "Net Steady State Heating COP" => some U.netSteadyHeatingCOP
  | "Net Integrated Heating COP" => some U.netIntegratedHeatingCOP
  | "Gross Steady State Heating Capacity" => some U.grossSteadyHeatingCapacity
  | "Gross Integrated Heating Capacity" => some U.grossIntegratedHeatingCapacity
  | "Gross Steady State Heating Power" => some U.grossSteadyHeatingPower
  | "Gross Integrated Heating Power" => some U.grossIntegratedHeatingPower
  | "Gross Steady State Heating COP" => some U.grossSteadyHeatingCOP
  | "Gross Integrated Heating COP" => some U.grossIntegratedHeatingCOP
  | "Net Total Cooling Capacity" => some U.netTotalCoolingCapacity
  | "Net Sensible Cooling Capacity" => some U.netSensibleCoolingCapacity
  | "Net Cooling Power" => some U.netCoolingPower
  | "Net Total Cooling COP" => some U.netTotalCoolingCOP
  | "Net Sensible Cooling COP" => some U.netSensibleCoolingCOP
  | "Gross Total Cooling Capacity" => some U.grossTotalCoolingCapacity
  | "Gross Sensible Cooling Capacity" => some U.grossSensibleCoolingCapacity
  | "Gross Cooling Power" => some U.grossCoolingPower
  | "Gross Total Cooling COP" => some U.grossTotalCoolingCOP
  | "Gross Sensible Cooling COP" => some U.grossSensibleCoolingCOP
  | _ => none

/-- The legend groups of each mode. -/
def plotGroups (heating : Bool) : List String :=
  if heating then ["Net", "Gross"].flatMap fun a => ["Steady State", "Integrated"].flatMap fun b => ["Capacity", "Power", "COP"].map fun c => a ++ " " ++ b ++ " Heating " ++ c
  else ["Net", "Gross"].flatMap fun a => ["Total Cooling Capacity", "Sensible Cooling Capacity", "Cooling Power", "Total Cooling COP", "Sensible Cooling COP"].map fun b => a ++ " " ++ b

/-- The outdoor temperatures (°F) of the plot between the two cut-off temperatures. -/
def plotSpan (heating : Bool) (off : K) : List K :=
  if heating then off :: [5, 17, 35, 47, 60].map frF else [60, 82, 95].map frF ++ [off]

/-- A curve shows a quantity at one speed: its points are the outdoor temperatures, and the values of the quantity at these temperatures, 40% relative humidity and the standard indoor conditions of the mode. -/
def Shows (X : Reports.Subject K) (heating : Bool) (speed : Nat) (f : Option (Conditions K) → Py K) (c : Reports.Curve K) : Prop :=
  c.xs = plotSpan heating (if heating then X.heatingOff else X.coolingOff) ∧
    List.Forall₂ (fun t y => ∃ o cond, Psych.init X.E.lib t X.E.atm [("rel_hum", 0.4)] = .ok o ∧ X.S.makeCondition X.E heating speed none (some o) = .ok cond ∧ f (some cond) = .ok y) c.xs c.ys

/-- The name of a speed. -/
def IsSpeedName (r : BaseModel.Roles) (speed : Nat) : String → Prop
  | "Min Speed" => r.low = some speed
  | "Int. Speed" => r.intermediate = speed
  | "Rated Speed" => r.full = speed
  | "Max Speed" => r.boost = some speed
  | _ => False

/-! ## Printed information -/

/-- Label and stage of a printed line. -/
def lineKey : Reports.Line K → String × Option Nat
  | .value l s _ _ _ => (l, s)
  | .blank => ("", none)

/-- The labels and stages of the lines of `print_cooling_info`, in order, for a unit with `n` stages. -/
def coolingKeys (n : Nat) : List (String × Option Nat) :=
  ("SEER", none) :: (List.range n).flatMap fun s => ["Net cooling power", "Net cooling capacity", "Net cooling EER", "Gross cooling COP", "Net SHR"].map fun l => (l, some (s + 1))

/-- The labels and stages of the lines of `print_heating_info`. -/
def heatingKeys (n region : Nat) : List (String × Option Nat) :=
  ("HSPF (region " ++ toString region ++ ")", none) :: (List.range n).flatMap fun s => ["Net heating power", "Net heating capacity", "Gross heating COP"].map fun l => (l, some (s + 1))

/-- The value a line of `print_cooling_info` stands for: stages are counted from 1, each at the standard conditions. -/
def coolingValue (toU : K → String → Py K) (X : Reports.Subject K) (powerUnits capacityUnits : String) : String × Option Nat → Py K
  | ("SEER", none) => X.seer
  | ("Net cooling power", some (s + 1)) => do toU (← X.U.netCoolingPower (some (← X.S.makeCondition X.E false s))) powerUnits
  | ("Net cooling capacity", some (s + 1)) => do toU (← X.U.netTotalCoolingCapacity (some (← X.S.makeCondition X.E false s))) capacityUnits
  | ("Net cooling EER", some (s + 1)) => do X.U.eer X.u (some (← X.S.makeCondition X.E false s))
  | ("Gross cooling COP", some (s + 1)) => do X.U.grossTotalCoolingCOP (some (← X.S.makeCondition X.E false s))
  | ("Net SHR", some (s + 1)) => do X.U.netSHR (some (← X.S.makeCondition X.E false s))
  | _ => .error .key

/-- The value a line of `print_heating_info` stands for. -/
def heatingValue (toU : K → String → Py K) (X : Reports.Subject K) (powerUnits capacityUnits : String) (region : Nat) : String × Option Nat → Py K
  | (_, none) => X.hspf region
  | ("Net heating power", some (s + 1)) => do toU (← X.U.netIntegratedHeatingPower (some (← X.S.makeCondition X.E true s))) powerUnits
  | ("Net heating capacity", some (s + 1)) => do toU (← X.U.netIntegratedHeatingCapacity (some (← X.S.makeCondition X.E true s))) capacityUnits
  | ("Gross heating COP", some (s + 1)) => do X.U.grossIntegratedHeatingCOP (some (← X.S.makeCondition X.E true s))
  | _ => .error .key

end Resdx.Spec
