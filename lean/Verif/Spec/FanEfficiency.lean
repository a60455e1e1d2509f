import Mathlib.Data.Real.Basic

/-! # Specification vocabulary for the fan of an EnergyPlus file (C105) -/

namespace Resdx.Spec

/-- `r` is `x` written with two decimals. -/
def TwoDecimals (x r : ℝ) : Prop := (∃ n : ℤ, r = n / 100) ∧ |r - x| ≤ 1 / 200

/-- The design power EnergyPlus gives a `Fan:SystemModel` sized by `TotalEfficiencyAndPressure`: the power of the air over the total efficiency. -/
noncomputable def energyPlusPower (flow pressure efficiency : ℝ) : ℝ := flow * pressure / efficiency

end Resdx.Spec
