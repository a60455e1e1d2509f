import Verif.Spec.Ratings

/-! # Specification of the seasonal heating rating. Temperatures are in °F unless compared with a cut-out temperature. -/

namespace Resdx.Spec

variable {K : Type} [Field K] [LinearOrder K]

/-- The fraction of a bin in which the compressor runs: never at or below the cut-out temperature or when it would be worse than resistance heat,
always above the cut-in temperature, half the time between. -/
def runFraction (off on t cop : K) : K := if t ≤ off ∨ cop < 1 then 0 else if on < t then 1 else 1 / 2

/-- Power drawn by a unit of one capacity at a load while it is allowed to run. -/
def oneStageRate (cd q p load : K) : K := if load < q then cyclingRate cd q p load else p

/-- A load falling linearly from `full` at the design temperature to zero at the zero-load temperature. -/
def heatBuildingLoad (zeroF designF full tF : K) : K := if zeroF ≤ tF then 0 else full * ((zeroF - tF) / (zeroF - designF))

/-- Net capacities and powers measured at full speed: H1 (47 °F), H2 (35 °F, frosting), H3 (17 °F). -/
structure HeatTests (K : Type) where
  q1 : K
  p1 : K
  q2 : K
  p2 : K
  q3 : K
  p3 : K

namespace HeatTests
variable (T : HeatTests K)

/-- Full-speed capacity: frosting between 17 and 45 °F. -/
def q (tF : K) : K := if 45 ≤ tF ∨ tF ≤ 17 then lineAt 17 T.q3 47 T.q1 tF else lineAt 17 T.q3 35 T.q2 tF
/-- Full-speed power. -/
def p (tF : K) : K := if 45 ≤ tF ∨ tF ≤ 17 then lineAt 17 T.p3 47 T.p1 tF else lineAt 17 T.p3 35 T.p2 tF

end HeatTests

/-- Net capacities and powers measured at low speed: H0 (62 °F), H1 (47 °F), H2 (35 °F, frosting), H3 (17 °F). Variable-speed units have the first two only. -/
structure HeatLowTests (K : Type) where
  q0 : K
  p0 : K
  q1 : K
  p1 : K
  q2 : K
  p2 : K
  q3 : K
  p3 : K

namespace HeatLowTests
variable (T : HeatLowTests K)

/-- Low-speed capacity of a two-stage unit: frosting between 17 and 40 °F. -/
def q (tF : K) : K := if 40 ≤ tF then lineAt 47 T.q1 62 T.q0 tF else if tF ≤ 17 then lineAt 17 T.q3 47 T.q1 tF else lineAt 17 T.q3 35 T.q2 tF
/-- Low-speed power of a two-stage unit. -/
def p (tF : K) : K := if 40 ≤ tF then lineAt 47 T.p1 62 T.p0 tF else if tF ≤ 17 then lineAt 17 T.p3 47 T.p1 tF else lineAt 17 T.p3 35 T.p2 tF

end HeatLowTests

/-- The line of a quantity at intermediate speed through its value `int2` at the 35 °F test. Its slope mixes the slopes per °F at low and at full speed in the
proportion in which the intermediate test lies between the low and full speeds at 35 °F. -/
def intermediateLine (low2 lowSlope full2 fullSlope int2 tF : K) : K :=
  let w := (int2 - low2) / (full2 - low2)
  int2 + ((1 - w) * lowSlope + w * fullSlope) * (tF - 35)

/-- The COP of a variable-speed unit that modulates to meet a load between its low-speed and full-speed capacities. -/
def modulatedCop (qL copL qI copI qF copF load : K) : K :=
  if load ≤ qI then lineAt qL copL qI copI load else lineAt qI copI qF copF load

end Resdx.Spec
