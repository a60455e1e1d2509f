import Mathlib.Algebra.Order.Field.Basic

/-! # Specifications for the performance models -/

namespace Resdx.Spec

variable {K : Type} [Field K] [LinearOrder K]

/-- Fraction of time in defrost in the RESNET standard, by outdoor temperature in °F: 8% below 18 °F, falling linearly to zero at 44 2/3 °F. -/
def resnetDefrostFraction (tF : K) : K := if tF ≤ 18 then 8 / 100 else if tF ≤ 134 / 3 then (134 - 3 * tF) / 1000 else 0

/-- The fault curve: `1 + (a + b·Ti + c·To + d·f)·f`. -/
def faultCurve (a b c d ti to_ f : K) : K := 1 + (a + b * ti + c * to_ + d * f) * f

/-- The published coefficients (capacity or power, cooling or heating, under- or overcharge). -/
def faultCoefficients (heating power over : Bool) : K × K × K × K :=
  match heating, power, over with
  | false, false, false => (-946 / 1000, 493 / 10000, -118 / 100000, -115 / 100)
  | false, false, true => (-163 / 1000, 114 / 10000, -21 / 100000, -14 / 100)
  | false, true, false => (-313 / 1000, 115 / 10000, 266 / 100000, -116 / 1000)
  | false, true, true => (219 / 1000, -501 / 100000, 989 / 1000000, 284 / 1000)
  | true, false, false => (-339 / 10000, 0, 203 / 10000, -262 / 100)
  | true, false, true => (-295 / 100000, 0, 738 / 1000000, -641 / 100000)
  | true, true, false => (616 / 10000, 0, 446 / 100000, -26 / 100)
  | true, true, true => (-594 / 10000, 0, 159 / 10000, 189 / 100)

/-- The fault factor at rated airflow. -/
def faultFactor (heating power : Bool) (ti to_ f : K) : K :=
  let k := faultCoefficients (K := K) heating power (decide (0 ≤ f))
  faultCurve k.1 k.2.1 k.2.2.1 k.2.2.2 ti to_ f

end Resdx.Spec
