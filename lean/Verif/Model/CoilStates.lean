import Verif.Model.Sensible

/-!
# Model of the air states a unit reports

`DXUnit.gross_cooling_outlet_state`, `adp_state` and `gross_heating_output_state` (resdx/dx_unit.py) as called by users, with the default conditions.
-/

namespace Resdx.Coil

open Psych

/-- An optional argument with its default. -/
def givenOr (g : Option ℝ) (default : Py ℝ) : Py ℝ :=
  match g with
  | some s => .ok s
  | none => default

section
variable (T : Tools) (U : DX.Performance (Conditions ℝ) ℝ)

/-- `gross_cooling_outlet_state`, resdx/dx_unit.py:759-770, with its two optional arguments. -/
noncomputable def coolingOutlet (c : Option (Conditions ℝ)) (sensible : Option ℝ) : Py (PsychState ℝ) := do
  let c := c.getD U.aFull
  let s ← givenOr sensible (U.grossSensibleCoolingCapacity (some c))
  let hIn ← (getH T.lib c.indoor).1
  let m ← pyAttr c.flow.mass
  let hOut := hIn - (← pdiv (← U.grossTotalCoolingCapacity (some c)) m)
  let db := c.indoor.db - (← pdiv s (m * cp))
  Psych.init T.lib db c.indoor.p [("enthalpy", hOut)]

/-- `adp_state`, resdx/dx_unit.py:820-822. The conditions default to `None`, of which line 822 reads the attribute `indoor`. -/
noncomputable def adpOf (c : Option (Conditions ℝ)) : Py (PsychState ℝ) := do
  let out ← coolingOutlet T U c none
  match c with
  | none => .error .attribute
  | some c => adpState T c.indoor out

/-- `gross_heating_output_state`, resdx/dx_unit.py:1070-1078. -/
noncomputable def heatingOutput (c : Option (Conditions ℝ)) : Py (PsychState ℝ) := do
  let c := c.getD U.h1Full
  let q ← U.grossSteadyHeatingCapacity (some c)
  let m ← pyAttr c.flow.mass
  let db := c.indoor.db + (← pdiv q (m * cp))
  let w ← (getHr T.lib c.indoor).1
  Psych.init T.lib db c.indoor.p [("hum_rat", w)]

end
end Resdx.Coil
