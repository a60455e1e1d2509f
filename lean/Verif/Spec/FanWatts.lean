import Mathlib.Analysis.SpecialFunctions.Pow.Real

/-!
# Specification of the fan power of RESNET units
-/

namespace Resdx.Spec

/-- Fan power in W/cfm at the share `r` of the design airflow and `s` times the design pressure `r²` of the duct system. That of a PSC motor does not depend on the pressure. -/
noncomputable def fanWatts (psc : Bool) (r s : ℝ) : ℝ := if psc then 0.414 * (0.3 * r + 0.7) else 0.171 * r ^ 2 + (0.281 * r ^ (1.75 : ℝ) - 0.171 * r ^ 2) * s

/-- Fan power of a speed of capacity `q`, at 400 cfm per ton, of a unit whose design airflow belongs to the capacity `largest`. -/
noncomputable def unitFan (psc : Bool) (ton largest q s : ℝ) : ℝ := q * (400 / ton) * fanWatts psc (q / largest) s

end Resdx.Spec
