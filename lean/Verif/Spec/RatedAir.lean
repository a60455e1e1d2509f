import Verif.Spec.Coil
import Mathlib.Analysis.Convex.Function
import Mathlib.Topology.ContinuousOn

/-!
# What psychrolib and a root finder promise at the rating conditions

Published properties of moist air between 0 and 60 °C at one pressure, and the convergence of Newton's (or the secant) method for convex functions. `Spec/Coil.lean` says what
calls that return mean; here they also return.
-/

namespace Resdx.Spec

open Set

/-- Moist air at pressure `p`, as psychrolib computes it. `sat` is the humidity ratio of saturated air. The three numbers are rounded published values: saturated air holds 8.73 g/kg at
12 °C and 9.33 g/kg at 13 °C, and air at 80 °F with a wet bulb of 67 °F holds 11.17 g/kg. -/
structure RatedAir (T : Coil.Tools) (p : ℝ) (sat : ℝ → ℝ) : Prop where
  enthalpy : ∀ t w, 0 ≤ t → t ≤ 60 → 1e-7 ≤ w → T.lib.moistAirEnthalpy t w = .ok (airEnthalpy t w)
  humRatio : ∀ h t, 0 ≤ t → t ≤ 60 → T.lib.humRatioFromEnthalpyAndTDryBulb h t = .ok (max ((h - 1006 * t) / (2501000 + 1860 * t)) 1e-7)
  saturated : ∀ t, 0 ≤ t → t ≤ 60 → T.coil.humRatioFromRelHum t 1 p = .ok (sat t)
  satHumRatio : ∀ t, 0 ≤ t → t ≤ 60 → T.coil.satHumRatio t p = .ok (sat t)
  satEnthalpy : ∀ t, 0 ≤ t → t ≤ 60 → T.coil.satAirEnthalpy t p = .ok (airEnthalpy t (sat t))
  wetBulb : ∀ t w, 0 ≤ t → t ≤ 60 → 1e-7 ≤ w → w ≤ sat t → ∃ b, T.lib.tWetBulbFromHumRatio t w p = .ok b
  wetBulbRel : ∀ t r, 0 ≤ t → t ≤ 60 → 0 ≤ r → r ≤ 1 → ∃ b, T.lib.tWetBulbFromRelHum t r p = .ok b
  humid : ∀ t b, 0 ≤ b → b ≤ t → t ≤ 60 → ∃ w, T.lib.humRatioFromTWetBulb t b p = .ok w
  density : ∀ t w, 0 ≤ t → t ≤ 60 → ∃ r, 0 < r ∧ T.lib.moistAirDensity t w p = .ok r
  increasing : MonotoneOn sat (Icc 0 60)
  convex : ConvexOn ℝ (Icc 0 60) sat
  continuous : ContinuousOn sat (Icc 0 60)
  at12 : sat 12 ≤ 0.0088
  at13 : 0.0093 ≤ sat 13
  indoor : ∃ w, 0.0111 ≤ w ∧ w ≤ 0.0112 ∧ T.lib.humRatioFromTWetBulb (toC (frF 80)) (toC (frF 67)) p = .ok w

/-- Started at a point where a convex function is positive, with a point to the left where it is negative, the method finds a zero in between. (The functions are defined up to one
degree beyond the start, where the secant method takes its second point.) -/
def FindsConvexRoots (newton : Coil.Newton) : Prop :=
  ∀ (f : ℝ → Py ℝ) (F : ℝ → ℝ) (a x : ℝ), a < x → (∀ t ∈ Icc a (x + 1), f t = .ok (F t)) → ContinuousOn F (Icc a (x + 1)) → ConvexOn ℝ (Icc a (x + 1)) F →
    F a < 0 → 0 < F x → ∃ t, newton f x = .ok t ∧ a ≤ t ∧ t ≤ x ∧ F t = 0

end Resdx.Spec
