import Verif.Py

/-!
# Unit conversion (koozie `fr_u`, `to_u`)

`koozie` is a third-party package. `fr_u(x, "u")` converts to SI, `to_u(x, "u")` back. For every
multiplicative unit this is multiplication (division) by a positive factor; the factors are kept as
parameters, so no theorem depends on their numerical values. Temperatures use the exact affine maps.
-/

namespace Resdx

/-- Positive SI conversion factors of the multiplicative units used by resdx (parameters). -/
structure Units (K : Type) [Field K] [LinearOrder K] where
  /-- m³/s per cfm -/
  cfm : K
  /-- Pa per in_H2O -/
  inH2O : K
  /-- W per ton_ref -/
  ton : K
  /-- W per Btu/h -/
  btuh : K
  /-- s per min -/
  minute : K
  /-- rad/s per rpm -/
  rpm : K
  cfm_pos : 0 < cfm
  inH2O_pos : 0 < inH2O
  ton_pos : 0 < ton
  btuh_pos : 0 < btuh
  minute_pos : 0 < minute
  rpm_pos : 0 < rpm

section
variable {K : Type} [Field K]

/-- `fr_u(x, "°F")` (kelvin). -/
def frF (x : K) : K := (x + 459.67) * 5 / 9
/-- `to_u(x, "°F")`. -/
def toF (x : K) : K := x * 9 / 5 - 459.67
/-- `fr_u(x, "°C")`. -/
def frC (x : K) : K := x + 273.15
/-- `to_u(x, "°C")`. -/
def toC (x : K) : K := x - 273.15

end

section
variable {K : Type} [Field K] [LinearOrder K] [IsStrictOrderedRing K]

theorem toF_frF (x : K) : toF (frF x) = x := by unfold toF frF; ring
theorem frF_toF (x : K) : frF (toF x) = x := by unfold toF frF; ring
theorem toC_frC (x : K) : toC (frC x) = x := by unfold toC frC; ring
theorem frC_toC (x : K) : frC (toC x) = x := by unfold toC frC; ring
theorem frF_lt {x y : K} : frF x < frF y ↔ x < y := by
  unfold frF; constructor <;> intro h <;> linarith
theorem frF_le {x y : K} : frF x ≤ frF y ↔ x ≤ y := by
  unfold frF; constructor <;> intro h <;> linarith
theorem frF_inj {x y : K} : frF x = frF y ↔ x = y := by
  unfold frF; constructor <;> intro h <;> linarith
theorem frF_sub (x y : K) : frF x - frF y = (x - y) * 5 / 9 := by unfold frF; ring
theorem toF_lt {x y : K} : toF x < toF y ↔ x < y := by
  unfold toF; constructor <;> intro h <;> linarith
theorem toF_le {x y : K} : toF x ≤ toF y ↔ x ≤ y := by
  unfold toF; constructor <;> intro h <;> linarith

end

/-- A concrete instance of the parameters, used in examples only. -/
def Units.ofOnes (K : Type) [Field K] [LinearOrder K] [IsStrictOrderedRing K] : Units K :=
  { cfm := 1, inH2O := 1, ton := 1, btuh := 1, minute := 1, rpm := 1
    cfm_pos := one_pos, inH2O_pos := one_pos, ton_pos := one_pos
    btuh_pos := one_pos, minute_pos := one_pos, rpm_pos := one_pos }

end Resdx
