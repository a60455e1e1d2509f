import Verif.Spec.Tabular
import Verif.Spec.Ratings

/-!
# Specification of the tables derived from published ratings

What each speed of a unit delivers and draws at every outdoor temperature when only the ratings are known. Nothing here refers to the builders: the values follow from the ratings by the ratios
of the representative unit, and the behaviour between and beyond the test temperatures is given as a function of the outdoor temperature.
-/

namespace Resdx.Spec

open Tabular

variable {K : Type} [Field K] [LinearOrder K]

/-- Values at the lower and at the higher of two test temperatures. -/
structure Ends (K : Type) where
  low : K
  high : K

/-- Both values times a factor. -/
def Ends.times (e : Ends K) (r : K) : Ends K := ⟨e.low * r, e.high * r⟩

/-- Cooling, tested at 82 °F and 95 °F: the straight line above 82 °F; below, the straight line to the value at 60 °F, which is not allowed to be under half of the value at 82 °F. -/
def Ends.cooling (e : Ends K) (x : K) : K :=
  if frF 82 ≤ x then lineAt (frF 82) e.low (frF 95) e.high x
  else lineAt (frF 60) (max (lineAt (frF 82) e.low (frF 95) e.high (frF 60)) (e.low / 2)) (frF 82) e.low x

/-- Heating, tested at 17 °F and 47 °F: the straight line below 47 °F, constant above. -/
def Ends.heating (e : Ends K) (x : K) : K := if x ≤ frF 47 then lineAt (frF 17) e.low (frF 47) e.high x else e.high

/-- Heating of a variable-speed unit, known at a lowest temperature, 5 °F, 17 °F and 47 °F: straight lines between these, continued below, constant above. -/
structure Cold (K : Type) where
  lowest : K
  at5 : K
  at17 : K
  at47 : K

/-- The heating values at all temperatures. -/
def Cold.heating (v : Cold K) (mn x : K) : K :=
  if x ≤ frF 5 then lineAt mn v.lowest (frF 5) v.at5 x
  else if x ≤ frF 17 then lineAt (frF 5) v.at5 (frF 17) v.at17 x
  else if x ≤ frF 47 then lineAt (frF 17) v.at17 (frF 47) v.at47 x else v.at47

/-- What a speed does at all outdoor temperatures: cooling capacity and power, heating capacity and power. -/
structure Curves (K : Type) where
  coolingCapacity : K → K
  coolingPower : K → K
  heatingCapacity : K → K
  heatingPower : K → K

/-- The speed `s` of the tables behaves like this at every outdoor temperature. -/
def Follows (d : Perf K) (s : Int) (c : Curves K) : Prop :=
  ∀ x, d.coolingCapacity (s : K) x = .ok (c.coolingCapacity x) ∧ d.coolingPower (s : K) x = .ok (c.coolingPower x) ∧
    d.heatingCapacity (s : K) x = .ok (c.heatingCapacity x) ∧ d.heatingPower (s : K) x = .ok (c.heatingPower x)

/-- Tables of `n` speeds ready for lookups: cooling known at 60, 82, 95 °F and a highest temperature, heating at a lowest temperature and 5, 17, 47 and 60 °F. -/
structure StandardTables (n : Nat) (mn mx : K) (d : Perf K) : Prop where
  qc : Fresh d.coolingCapacities
  pc : Fresh d.coolingPowers
  qh : Fresh d.heatingCapacities
  ph : Fresh d.heatingPowers
  speeds : d.coolingCapacities.nSpeeds = n ∧ d.coolingPowers.nSpeeds = n ∧ d.heatingCapacities.nSpeeds = n ∧ d.heatingPowers.nSpeeds = n
  cooling : d.coolingCapacities.temperatures = [frF 60, frF 82, frF 95, mx] ∧ d.coolingPowers.temperatures = [frF 60, frF 82, frF 95, mx]
  heating : d.heatingCapacities.temperatures = [mn, frF 5, frF 17, frF 47, frF 60] ∧ d.heatingPowers.temperatures = [mn, frF 5, frF 17, frF 47, frF 60]

/-- A speed whose fan takes at most `w` times its rated capacity: its cooling capacity is positive, its powers and its heating capacity exceed the fan power, at every temperature of the tables. -/
structure Margins (w mn mx : K) (c : Curves K) : Prop where
  coolingCapacity : ∀ x ∈ [frF 60, frF 82, frF 95, mx], 0 < c.coolingCapacity x
  coolingPower : ∀ x ∈ [frF 60, frF 82, frF 95, mx], w * c.coolingCapacity (frF 95) < c.coolingPower x
  heatingCapacity : ∀ x ∈ [mn, frF 5, frF 17, frF 47, frF 60], w * c.heatingCapacity (frF 47) < c.heatingCapacity x
  heatingPower : ∀ x ∈ [mn, frF 5, frF 17, frF 47, frF 60], w * c.heatingCapacity (frF 47) < c.heatingPower x

/-! ## The representative unit -/

/-- Capacity at 82 °F per capacity at 95 °F. -/
def capacity82 : K := 1.068616725
/-- Energy input ratio at 82 °F per energy input ratio at 95 °F. -/
def input82 : K := 0.804150540
/-- Energy input ratio at 17 °F per energy input ratio at 47 °F. -/
def input17 : K := 1.355697255

/-- The heating capacity at 17 °F: the published one or 62.6 % of that at 47 °F. -/
def heating17 (q47 : K) (q17 : Option K) : K := q17.getD (0.626 * q47)

/-- The heating COP at 47 °F: the published one or an estimate from HSPF2. -/
def heatingCop (hspf2 : K) (cop : Option K) : K := cop.getD (2.837 + 0.066 * hspf2)

/-- Heating capacities at full speed. -/
def fullHeatingCapacity (q47 : K) (q17 : Option K) : Ends K := ⟨heating17 q47 q17, q47⟩

/-- Heating powers at full speed. -/
def fullHeatingPower (q47 : K) (q17 : Option K) (cop : K) : Ends K := ⟨heating17 q47 q17 / cop * input17, q47 / cop⟩

/-- A single-stage unit: EER2 at 95 °F; at 82 °F the EER2 for which the rated SEER2 results. -/
def singleCurves (btuh q95 seer2 eer2 q47 : K) (q17 : Option K) (hspf2 : K) (cop : Option K) (cd : K) : Curves K where
  coolingCapacity := Ends.cooling ⟨q95 * capacity82, q95⟩
  coolingPower := Ends.cooling ⟨q95 * capacity82 / (seer2 * btuh) * (1 - cd / 2), q95 / (eer2 * btuh)⟩
  heatingCapacity := (fullHeatingCapacity q47 q17).heating
  heatingPower := (fullHeatingPower q47 q17 (heatingCop hspf2 cop)).heating

/-- The high stage of a two-stage unit. -/
def highCurves (btuh q95 eer2 q47 : K) (q17 : Option K) (hspf2 : K) (cop : Option K) : Curves K where
  coolingCapacity := Ends.cooling ⟨q95 * capacity82, q95⟩
  coolingPower := Ends.cooling ⟨q95 / (eer2 * btuh) * capacity82 * input82, q95 / (eer2 * btuh)⟩
  heatingCapacity := (fullHeatingCapacity q47 q17).heating
  heatingPower := (fullHeatingPower q47 q17 (heatingCop hspf2 cop)).heating

/-- The low stage: 72.8 % of the cooling capacity, at 82 °F with the given COP; 71.2 % of the heating capacity at 85 % of the energy input ratio. -/
def lowCurves (q95 seer2 q47 : K) (q17 : Option K) (hspf2 : K) (cop82 cop : Option K) : Curves K where
  coolingCapacity := Ends.cooling ⟨q95 * capacity82 * 0.728, q95 * 0.728⟩
  coolingPower := Ends.cooling ⟨q95 * capacity82 * 0.728 / cop82.getD (seer2 / 2), q95 * capacity82 * 0.728 / cop82.getD (seer2 / 2) / (capacity82 * input82)⟩
  heatingCapacity := ((fullHeatingCapacity q47 q17).times 0.712).heating
  heatingPower := ((fullHeatingPower q47 q17 (heatingCop hspf2 cop)).times (0.712 * 0.850)).heating

/-! ## Variable speed -/

/-- The value between a lowest and a highest one that divides them like `r` divides `a` and `b`. -/
def between (low high a r b : K) : K := low + (r - a) / (b - a) * (high - low)

/-- The three speeds of a variable-speed unit at one temperature. -/
structure Three (K : Type) where
  min : K
  full : K
  max : K

/-- The value of one of the speeds 1, 2, 3. -/
def Three.speed (v : Three K) (s : Int) : K := if s = 1 then v.min else if s = 2 then v.full else v.max

/-- Ratio of the energy input at lowest speed to that at highest speed, at 82 °F: from the ratings, kept within 0.2 and 1. -/
def inputRatio82 (seer2 eer2 : K) : K := max 0.2 (min 1 (1.305 - 0.324 * seer2 / eer2))

/-- Ratio of the capacity at lowest speed to that at highest speed, at 95 °F: from that ratio, kept within 0.1 and 0.934. -/
def capacityRatio95 (e : K) : K := max 0.1 (min 0.934 (0.510 - 0.119 * (e - 1.305) / (-0.324)))

/-- The ratings of a variable-speed unit that determine its cooling: rated capacity and power at 95 °F, ratio of lowest to highest capacity, COP at lowest speed and 82 °F. -/
structure VarCooling (K : Type) where
  q95 : K
  p95 : K
  ratio : K
  cop82 : K

/-- The COP at highest speed and 82 °F. -/
def maxCop82 (q95 p95 : K) : K := q95 / p95 * 0.928 * 1.326

/-- The cooling ratings with the defaults filled in. -/
def varCooling (btuh q95 seer2 eer2 : K) (ratio cop82 : Option K) : VarCooling K :=
  let p95 := q95 / (eer2 * btuh)
  let e := match cop82 with
    | some c => maxCop82 q95 p95 / c
    | none => inputRatio82 seer2 eer2
  { q95 := q95, p95 := p95, ratio := ratio.getD (capacityRatio95 e), cop82 := maxCop82 q95 p95 / e }

/-- Capacities at 95 °F. -/
def VarCooling.q95s (v : VarCooling K) : Three K := ⟨v.q95 / 0.934 * v.ratio, v.q95, v.q95 / 0.934⟩
/-- Capacities at 82 °F. -/
def VarCooling.q82s (v : VarCooling K) : Three K :=
  let lo := v.q95s.min / 0.948
  let hi := v.q95s.max / 0.940
  ⟨lo, between lo hi v.q95s.min v.q95s.full v.q95s.max, hi⟩
/-- Powers at 95 °F. -/
def VarCooling.p95s (v : VarCooling K) : Three K := ⟨v.q82s.min / v.cop82 * (0.948 * 1.315), v.p95, v.p95 / (0.934 * 0.928)⟩
/-- Powers at 82 °F. -/
def VarCooling.p82s (v : VarCooling K) : Three K :=
  let lo := v.q82s.min / v.cop82
  let hi := v.p95s.max / (0.940 * 1.326)
  ⟨lo, between lo hi v.p95s.min v.p95s.full v.p95s.max, hi⟩

/-- A quantity in heating: the values at 47, 17 and 5 °F from the rated ones, below 5 °F by factors for the lowest and the highest speed. -/
structure VarHeating (K : Type) where
  rated47 : K
  rated17 : K
  max47 : K
  min47 : K
  max17 : K
  min17 : K
  max5 : K
  full5 : K
  min5 : K
  maxLowest : K
  minLowest : K

/-- Values at 47 °F. -/
def VarHeating.at47 (v : VarHeating K) : Three K := ⟨v.rated47 / v.max47 * v.min47, v.rated47, v.rated47 / v.max47⟩
/-- Values at 17 °F. -/
def VarHeating.at17 (v : VarHeating K) : Three K := ⟨v.rated17 / v.max17 * v.min17, v.rated17, v.rated17 / v.max17⟩
/-- Values at 5 °F. -/
def VarHeating.at5 (v : VarHeating K) : Three K := ⟨v.at17.max * v.max5 * v.min5, v.at17.max * v.max5 * v.full5, v.at17.max * v.max5⟩
/-- Values at the lowest temperature. -/
def VarHeating.lowest (v : VarHeating K) : Three K :=
  let lo := v.at5.min * v.minLowest
  let hi := v.at5.max * v.maxLowest
  ⟨lo, between lo hi v.at5.min v.at5.full v.at5.max, hi⟩

/-- One speed of it. -/
def VarHeating.speed (v : VarHeating K) (s : Int) : Cold K := ⟨v.lowest.speed s, v.at5.speed s, v.at17.speed s, v.at47.speed s⟩

/-- The factor of a quantity from 5 °F to the lowest temperature, for a slope per °F. -/
def lowestFactor (slope mn : K) : K := 1 / (1 - slope * (toF (frF 5) - toF mn))

/-- Heating capacities. -/
def varHeatingCapacity (q47 q17 mn : K) : VarHeating K :=
  { rated47 := q47, rated17 := q17, max47 := 0.908, min47 := 0.272, max17 := 0.817, min17 := 0.341, max5 := 0.866, full5 := 0.988, min5 := 0.321
    maxLowest := lowestFactor (-0.025) mn, minLowest := lowestFactor (-0.024) mn }

/-- Heating powers. -/
def varHeatingPower (q47 q17 cop mn : K) : VarHeating K :=
  { rated47 := q47 / cop, rated17 := q17 / cop * 1.351, max47 := 0.908 * 0.939, min47 := 0.272 * 0.730, max17 := 0.817 * 0.902, min17 := 0.341 * 0.798, max5 := 0.866 * 1.164
    full5 := 0.988, min5 := 0.321 * 0.866, maxLowest := lowestFactor 0.012 mn * lowestFactor (-0.025) mn, minLowest := lowestFactor 0.012 mn * lowestFactor (-0.024) mn }

/-- The heating capacity of a variable-speed unit at 17 °F: the published one or 68.9 % of that at 47 °F. -/
def varHeating17 (q47 : K) (q17 : Option K) : K := q17.getD (0.689 * q47)

/-- A speed of a variable-speed unit. -/
def varCurves (btuh q95 seer2 eer2 q47 : K) (q17 : Option K) (hspf2 mn : K) (ratio cop82 cop : Option K) (s : Int) : Curves K :=
  let v := varCooling btuh q95 seer2 eer2 ratio cop82
  { coolingCapacity := Ends.cooling ⟨v.q82s.speed s, v.q95s.speed s⟩
    coolingPower := Ends.cooling ⟨v.p82s.speed s, v.p95s.speed s⟩
    heatingCapacity := ((varHeatingCapacity q47 (varHeating17 q47 q17) mn).speed s).heating mn
    heatingPower := ((varHeatingPower q47 (varHeating17 q47 q17) (heatingCop hspf2 cop) mn).speed s).heating mn }

end Resdx.Spec
