import Mathlib.Algebra.Order.Field.Basic

/-! # The published NREL curves (temperatures in °F, airflow as a fraction of rated) -/

namespace Resdx.Spec

variable {K : Type} [Field K] [LinearOrder K]

/-- A temperature limited to `[lo, hi]`. -/
def clip (lo hi x : K) : K := max lo (min hi x)

/-- Cooling capacity by indoor wet bulb and outdoor dry bulb. -/
def coolCapT (w t : K) : K :=
  3717717741 / 10 ^ 9 - 9918866 / 10 ^ 8 * w + 964488 / 10 ^ 9 * w ^ 2 + 5887776 / 10 ^ 9 * t - 12808 / 10 ^ 9 * t ^ 2 - 132822 / 10 ^ 9 * (w * t)

/-- Cooling energy input ratio by indoor wet bulb and outdoor dry bulb. -/
def coolEirT (w t : K) : K :=
  -3400341169 / 10 ^ 9 + 135184783 / 10 ^ 9 * w - 1037932 / 10 ^ 9 * w ^ 2 - 7852322 / 10 ^ 9 * t + 183438 / 10 ^ 9 * t ^ 2 - 142548 / 10 ^ 9 * (w * t)

/-- Cooling capacity by airflow. -/
def coolCapF (r : K) : K := 718664047 / 10 ^ 9 + 41797409 / 10 ^ 8 * r - 136638137 / 10 ^ 9 * r ^ 2

/-- Cooling energy input ratio by airflow. -/
def coolEirF (r : K) : K := 1143487507 / 10 ^ 9 - 13943972 / 10 ^ 8 * r - 4047787 / 10 ^ 9 * r ^ 2

/-- Heating capacity by indoor and outdoor dry bulb. -/
def heatCapT (i t : K) : K :=
  568706266 / 10 ^ 9 - 747282 / 10 ^ 9 * i - 103432 / 10 ^ 10 * i ^ 2 + 945408 / 10 ^ 8 * t + 50812 / 10 ^ 9 * t ^ 2 - 677828 / 10 ^ 11 * (i * t)

/-- Heating energy input ratio by indoor and outdoor dry bulb. -/
def heatEirT (i t : K) : K :=
  722917608 / 10 ^ 9 + 3520184 / 10 ^ 9 * i + 143097 / 10 ^ 9 * i ^ 2 - 5760341 / 10 ^ 9 * t + 141736 / 10 ^ 9 * t ^ 2 - 216676 / 10 ^ 9 * (i * t)

/-- Heating capacity by airflow. -/
def heatCapF (r : K) : K := 694045465 / 10 ^ 9 + 474207981 / 10 ^ 9 * r - 168253446 / 10 ^ 9 * r ^ 2

/-- Heating energy input ratio by airflow. -/
def heatEirF (r : K) : K := 2185418751 / 10 ^ 9 - 1942827919 / 10 ^ 9 * r + 757409168 / 10 ^ 9 * r ^ 2

end Resdx.Spec
