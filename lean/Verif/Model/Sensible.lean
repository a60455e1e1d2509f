import Verif.Model.System

/-!
# Model of the coil calculations behind the sensible capacity

`DXUnit.gross_cooling_outlet_state`, `calculate_adp_state`, `calculate_rated_bypass_factor`, `set_sensible_cooling_variables` (resdx/dx_unit.py) and
`NRELDXModel.gross_sensible_cooling_capacity` (resdx/models/nrel.py), which `RESNETDXModel` also uses. Reading a `PsychState` does not change what it reports (C05), so states
are values. Over ℝ because of `math.log` and `math.exp`.
-/

namespace Resdx.Coil

open Psych

/-- The further psychrolib correlations these functions call (third-party, arbitrary parameters; temperatures in °C). -/
structure CoilLib where
  humRatioFromRelHum : ℝ → ℝ → ℝ → Py ℝ
  satHumRatio : ℝ → ℝ → Py ℝ
  satAirEnthalpy : ℝ → ℝ → Py ℝ

/-- `scipy.optimize.newton(f, x0)` for a function without side effects (third-party, a parameter). -/
abbrev Newton := (ℝ → Py ℝ) → ℝ → Py ℝ

/-- What the calculations take from outside the unit. -/
structure Tools where
  lib : PsychLib ℝ
  coil : CoilLib
  newton : Newton

/-- `PsychState.C_p`, resdx/psychrometrics.py:24: 1.006 kJ/kg/K. -/
noncomputable def cp : ℝ := 1006

section
variable (T : Tools)

/-- `gross_cooling_outlet_state`, resdx/dx_unit.py:759-770, from the two gross capacities at the conditions. -/
noncomputable def outletState (c : Conditions ℝ) (total sensible : ℝ) : Py (PsychState ℝ) := do
  let hIn ← (getH T.lib c.indoor).1
  let m ← pyAttr c.flow.mass
  let hOut := hIn - (← pdiv total m)
  let db := c.indoor.db - (← pdiv sensible (m * cp))
  Psych.init T.lib db c.indoor.p [("enthalpy", hOut)]

/-- The humidity ratio on the line through inlet and outlet, resdx/dx_unit.py:780 and 784. -/
noncomputable def lineHumRatio (tIn wIn tOut wOut t : ℝ) : Py ℝ := do return wIn - (← pdiv (wIn - wOut) (tIn - tOut)) * (tIn - t)

/-- `root_function`, resdx/dx_unit.py:778-781. -/
noncomputable def adpResidual (tIn wIn tOut wOut p t : ℝ) : Py ℝ := do
  return (← T.coil.humRatioFromRelHum t 1 p) - (← lineHumRatio tIn wIn tOut wOut t)

/-- `calculate_adp_state`, resdx/dx_unit.py:772-790. -/
noncomputable def adpState (inlet outlet : PsychState ℝ) : Py (PsychState ℝ) := do
  let tIn := inlet.dbC
  let wIn ← (getHr T.lib inlet).1
  let tOut := outlet.dbC
  let wOut ← (getHr T.lib outlet).1
  let t ← T.newton (adpResidual T tIn wIn tOut wOut inlet.p) tIn
  let w ← lineHumRatio tIn wIn tOut wOut t
  if tOut < t ∨ wOut < w then .error .exception
  else Psych.init T.lib (frC t) inlet.p [("hum_rat", w)]

/-- `calculate_rated_bypass_factor`, resdx/dx_unit.py:792-811: the rated bypass factor and the normalised NTU, from the gross total capacity at the conditions and the rated sensible heat ratio. -/
noncomputable def ratedBypass (c : Conditions ℝ) (shr total : ℝ) : Py (ℝ × ℝ) := do
  let out ← outletState T c total (shr * total)
  let adp ← adpState T c.indoor out
  let hIn ← (getH T.lib c.indoor).1
  let hOut ← (getH T.lib out).1
  let hADP ← (getH T.lib adp).1
  DX.ratedBypassFactor hIn hOut hADP (← pyAttr c.flow.mass)

/-- `DXUnit.bypass_factor`, resdx/dx_unit.py:813-818; `ntu` is `normalized_ntu`. -/
noncomputable def bypass (ntu : List (Option ℝ)) (c : Conditions ℝ) : Py ℝ := do
  DX.bypassFactor (← Sys.at_ ntu c.flow.compressorSpeed) (← pyAttr c.flow.mass)

/-- `NRELDXModel.gross_sensible_cooling_capacity`, resdx/models/nrel.py:278-291, from the unit's gross total capacity at the conditions and its `bypass_factor`. -/
noncomputable def sensibleFrom (c : Conditions ℝ) (total : Py ℝ) (bypass : Py ℝ) : Py ℝ := do
  let q ← total
  let hIn ← (getH T.lib c.indoor).1
  let m ← pyAttr c.flow.mass
  let hADP := hIn - (← pdiv q (m * (1 - (← bypass))))
  let t ← T.newton (fun t => do return (← T.coil.satAirEnthalpy t c.indoor.p) - hADP) c.indoor.dbC
  let w ← T.coil.satHumRatio t c.indoor.p
  let h ← T.lib.moistAirEnthalpy c.indoor.dbC w
  pdiv (q * (h - hADP)) (hIn - hADP)

end
end Resdx.Coil
