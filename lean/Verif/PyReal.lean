import Verif.Py
import Mathlib.Analysis.SpecialFunctions.Pow.Real
import Mathlib.Analysis.SpecialFunctions.Log.Basic
import Mathlib.Analysis.SpecialFunctions.Sqrt

/-!
# Python float powers, `math.exp` and `math.log` over ℝ
-/

namespace Resdx

/-- Python `a ** b` on floats: real power for positive base; `0 ** b` raises for negative `b`;
a negative base gives a complex number in general (Python returns `complex`; the case of an integral exponent,
in which Python stays real, is not modelled). -/
noncomputable def ppow (a b : ℝ) : Py ℝ :=
  if 0 < a then .ok (a ^ b)
  else if a = 0 then
    (if b < 0 then .error .zeroDivision else if b = 0 then .ok 1 else .ok 0)
  else .error .notReal

/-- Python `math.log`. -/
noncomputable def plog (a : ℝ) : Py ℝ := if 0 < a then .ok (Real.log a) else .error .value

theorem ppow_pos {a b : ℝ} (h : 0 < a) : ppow a b = .ok (a ^ b) := by simp [ppow, h]

theorem ppow_half {a : ℝ} (h : 0 ≤ a) : ppow a 0.5 = .ok (Real.sqrt a) := by
  rcases h.lt_or_eq with h | h
  · rw [ppow_pos h, Real.sqrt_eq_rpow]; norm_num
  · subst h; norm_num [ppow]

theorem ppow_half_eq_ok {a c : ℝ} : ppow a 0.5 = .ok c ↔ 0 ≤ a ∧ Real.sqrt a = c := by
  by_cases h : 0 ≤ a
  · simp [ppow_half h, h]
  · have h1 : ¬ 0 < a := fun h' => h h'.le
    have h2 : a ≠ 0 := fun h' => h h'.ge
    simp [ppow, h1, h2, h]

theorem plog_ok {a : ℝ} (h : 0 < a) : plog a = .ok (Real.log a) := by simp [plog, h]

theorem plog_eq_ok {a c : ℝ} : plog a = .ok c ↔ 0 < a ∧ Real.log a = c := by
  by_cases h : 0 < a <;> simp [plog, h]

end Resdx
