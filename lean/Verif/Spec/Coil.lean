import Verif.Model.CoilStates

/-! # Specification vocabulary for the cooling coil (C102–C104) -/

namespace Resdx.Spec

open Psych

/-- Enthalpy of moist air in J/kg at `t` °C and humidity ratio `w` (ASHRAE Fundamentals). -/
def airEnthalpy (t w : ℝ) : ℝ := 1006 * t + w * (2501000 + 1860 * t)

/-- What psychrolib documents about the correlations used, for calls that return, and what a root finder promises. Temperatures are at least −100 °C, humidity ratios are bounded below by 10⁻⁷. -/
structure MoistAirLaws (T : Coil.Tools) : Prop where
  enthalpy : ∀ t w h, 1e-7 ≤ w → T.lib.moistAirEnthalpy t w = .ok h → h = airEnthalpy t w
  humRatio : ∀ h t w, -1000 < t → T.lib.humRatioFromEnthalpyAndTDryBulb h t = .ok w → w = max ((h - 1006 * t) / (2501000 + 1860 * t)) 1e-7
  saturated : ∀ t p w, T.coil.humRatioFromRelHum t 1 p = .ok w → T.coil.satHumRatio t p = .ok w
  satEnthalpy : ∀ t p w, T.coil.satHumRatio t p = .ok w → -100 ≤ t ∧ 1e-7 ≤ w ∧ T.coil.satAirEnthalpy t p = .ok (airEnthalpy t w)
  increasing : ∀ t t' p h h', t < t' → T.coil.satAirEnthalpy t p = .ok h → T.coil.satAirEnthalpy t' p = .ok h' → h < h'
  root : ∀ f x t, T.newton f x = .ok t → f t = .ok 0

/-- The air state `s` reports the dry-bulb temperature `t` °C, the humidity ratio `w` and the enthalpy that moist air has there. -/
structure Reports (T : Coil.Tools) (s : PsychState ℝ) (t w : ℝ) : Prop where
  db : s.db = frC t
  dbC : s.dbC = t
  hr : (getHr T.lib s).1 = .ok w
  h : (getH T.lib s).1 = .ok (airEnthalpy t w)

end Resdx.Spec
