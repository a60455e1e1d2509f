import Mathlib.Algebra.Order.Field.Basic
import Mathlib.Algebra.BigOperators.Group.List.Basic

/-! # Specification of the seasonal cooling rating: loads, operating points and energy use at a load. Temperatures are in °F. -/

namespace Resdx.Spec

variable {K : Type} [Field K] [LinearOrder K]

/-- The straight line through two points. -/
def lineAt (x0 y0 x1 y1 x : K) : K := y0 + (y1 - y0) * ((x - x0) / (x1 - x0))

/-- The building cooling load: zero up to 65 °F and `qA/1.1` at 95 °F. -/
def coolBuildingLoad (qA tF : K) : K := if tF ≤ 65 then 0 else qA / (11 / 10) * ((tF - 65) / 30)

/-- Power drawn on average when a load is met by switching an operating point on and off. -/
def cyclingRate (cd q p load : K) : K := load / q * p / (1 - cd * (1 - load / q))

/-- The law of a two-stage unit. -/
def twoStageRate (cd : K) (lowFull : Bool) (qL pL qF pF load : K) : K :=
  if load ≤ qL then cyclingRate cd qL pL load
  else if load < qF then (if lowFull then lineAt qL pL qF pF load else cyclingRate cd qF pF load)
  else pF

/-- The law of a variable-speed unit: the COP is piecewise linear in the load. -/
def varSpeedRate (cd qL pL qI pI qF pF load : K) : K :=
  if load ≤ qL then cyclingRate cd qL pL load
  else if load < qI then load / lineAt qL (qL / pL) qI (qI / pI) load
  else if load ≤ qF then load / lineAt qI (qI / pI) qF (qF / pF) load
  else pF

/-- Measured net capacities and powers: A and B at full speed (95 and 82 °F), B and F at low speed (82 and 67 °F), E at intermediate speed (87 °F). -/
structure CoolTests (K : Type) where
  qA : K
  pA : K
  qB : K
  pB : K
  qBl : K
  pBl : K
  qFl : K
  pFl : K
  qE : K
  pE : K

namespace CoolTests
variable (T : CoolTests K)

/-- Low-speed capacity. -/
def qLow (tF : K) : K := lineAt 67 T.qFl 82 T.qBl tF
/-- Low-speed power. -/
def pLow (tF : K) : K := lineAt 67 T.pFl 82 T.pBl tF
/-- Full-speed capacity. -/
def qFull (tF : K) : K := lineAt 82 T.qB 95 T.qA tF
/-- Full-speed power. -/
def pFull (tF : K) : K := lineAt 82 T.pB 95 T.pA tF
/-- Where the intermediate capacity lies between low and full at 87 °F. -/
def nQ : K := (T.qE - T.qLow 87) / (T.qFull 87 - T.qLow 87)
/-- The same for power. -/
def nP : K := (T.pE - T.pLow 87) / (T.pFull 87 - T.pLow 87)
/-- Intermediate capacity: the same mixture of low and full at every temperature. -/
def qInt (tF : K) : K := (1 - T.nQ) * T.qLow tF + T.nQ * T.qFull tF
/-- Intermediate power. -/
def pInt (tF : K) : K := (1 - T.nP) * T.pLow tF + T.nP * T.pFull tF
/-- The load. -/
def load (tF : K) : K := coolBuildingLoad T.qA tF
/-- Cooling delivered at a temperature. -/
def delivered (tF : K) : K := min (T.load tF) (T.qFull tF)

/-- Weighted sum over bins (°F, fraction). -/
def total (f : K → K) (bins : List (K × K)) : K := (bins.map fun b => f b.1 * b.2).sum

end CoolTests
end Resdx.Spec
