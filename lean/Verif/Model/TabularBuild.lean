import Verif.Model.Tabular

/-!
# Model of `resdx/models/tabular_data.py`: the table builders

The tables are local objects of the builders, so a builder is a `Py` computation that threads them (`exec` runs a method on a table).
All cooling statements of a builder precede all heating statements, so each builder is the composition of its cooling and its heating part.
`fr_u(x, "Btu/Wh")` is `x * u.btuh` (W per W); `fr_u(x, "1/degF")` is `x * 9 / 5`.
-/

namespace Resdx.Tabular

open Util Table

variable {K : Type} [Field K] [LinearOrder K]

/-- `table.get(speed, temperature) / x`. -/
def getOver (t : Table K) (speed : Int) (temperature x : K) : Py K := do
  pdiv (← pyNum (← t.get speed temperature)) x

/-- `Q.get(speed, t) / P.get(speed, t)`. -/
def copAt (q p : Table K) (speed : Int) (temperature : K) : Py K := do
  pdiv (← pyNum (← q.get speed temperature)) (← pyNum (← p.get speed temperature))

/-- `add_temperature(t_60, extrapolation_limit=0.5)` and `add_temperature(max_cooling_temperature)` on both cooling tables,
resdx/models/tabular_data.py:369-375, 559-563, 640-646, 776-782. -/
def coolingExtremes (maxCooling : K) (qc pc : Table K) : Py (Table K × Table K) := do
  let qc ← PyM.exec (addTemperature (frF 60) true (some 0.5)) qc
  let pc ← PyM.exec (addTemperature (frF 60) true (some 0.5)) pc
  let qc ← PyM.exec (addTemperature maxCooling true none) qc
  let pc ← PyM.exec (addTemperature maxCooling true none) pc
  return (qc, pc)

/-- The four `set_interpolator` calls and the constructor call that end every builder,
resdx/models/tabular_data.py:489-494, 584-589, 710-715, 851-856. -/
def finish (qc pc qh ph : Table K) : Py (Perf K) := do
  let qc ← PyM.exec setInterpolator qc
  let pc ← PyM.exec setInterpolator pc
  let qh ← PyM.exec setInterpolator qh
  let ph ← PyM.exec setInterpolator ph
  Perf.init qc pc qh ph

/-! ## Single speed -/

/-- The cooling part of `make_single_speed_model_data`, resdx/models/tabular_data.py:608-646. -/
def singleCooling (u : Units K) (q95 seer2 eer2 maxCooling cd : K) : Py (Table K × Table K) := do
  let qm95 ← pdiv 1 (← calcBiquad Nrel.coolingCapFT 67 82)
  let qc := Table.init [frF 82, frF 95] 1
  let pc := Table.init [frF 82, frF 95] 1
  let qc ← PyM.exec (Table.set 1 (frF 95) q95) qc
  let qc ← PyM.exec (setByMaintenance .cooling 1 (frF 82) (frF 95) qm95) qc
  let p95 ← getOver qc 1 (frF 95) (eer2 * u.btuh)
  let pc ← PyM.exec (Table.set 1 (frF 95) p95) pc
  let eer2b ← pdiv seer2 (1 - 0.5 * cd)
  let p82 ← getOver qc 1 (frF 82) (eer2b * u.btuh)
  let pc ← PyM.exec (Table.set 1 (frF 82) p82) pc
  coolingExtremes maxCooling qc pc

/-- `Qm17rated` of the three builders, resdx/models/tabular_data.py:411-414, 662-667, 800-803. -/
def qm17 (default_ q47 : K) (q17 : Option K) : Py K :=
  match q17 with
  | some q17 => pdiv q17 q47
  | none => .ok default_

/-- The default heating COP at 47 F, resdx/models/tabular_data.py:448-449, 690-691, 828-829. -/
def cop47 (hspf2 : K) (given : Option K) : K := given.getD (2.837 + 0.066 * hspf2)

/-- The three `add_temperature` calls of the single- and two-speed heating tables, resdx/models/tabular_data.py:680-687, 701-708, 818-825, 842-849. -/
def heatingExtremes (minHeating : K) (t : Table K) : Py (Table K) := do
  let t ← PyM.exec (addTemperature (frF 5) true none) t
  let t ← PyM.exec (addTemperature minHeating true none) t
  PyM.exec (addTemperature (frF 60) false none) t

/-- The heating part of `make_single_speed_model_data`, resdx/models/tabular_data.py:648-708. -/
def singleHeating (q47 : K) (q17 : Option K) (hspf2 minHeating : K) (heatingCop47 : Option K) : Py (Table K × Table K) := do
  let eirm17 ← calcBiquad Nrel.heatingEirFT 70 17
  let qm17 ← qm17 0.626 q47 q17
  let qh := Table.init [frF 17, frF 47] 1
  let ph := Table.init [frF 17, frF 47] 1
  let qh ← PyM.exec (Table.set 1 (frF 47) q47) qh
  let qh ← PyM.exec (setByMaintenance .heating 1 (frF 17) (frF 47) qm17) qh
  let qh ← heatingExtremes minHeating qh
  let p47 ← getOver qh 1 (frF 47) (cop47 hspf2 heatingCop47)
  let ph ← PyM.exec (Table.set 1 (frF 47) p47) ph
  let ph ← PyM.exec (setByMaintenance .heating 1 (frF 17) (frF 47) (qm17 * eirm17)) ph
  let ph ← heatingExtremes minHeating ph
  return (qh, ph)

/-- `make_single_speed_model_data`, resdx/models/tabular_data.py:592-715. -/
def makeSingleSpeed (u : Units K) (q95 seer2 eer2 q47 : K) (q17 : Option K) (hspf2 : K) (maxCooling : K := frF 125)
    (minHeating : K := frF (-20)) (heatingCop47 : Option K := none) (cd : K := 0.15) : Py (Perf K) := do
  let (qc, pc) ← singleCooling u q95 seer2 eer2 maxCooling cd
  let (qh, ph) ← singleHeating q47 q17 hspf2 minHeating heatingCop47
  finish qc pc qh ph

/-! ## Two speeds -/

/-- The cooling part of `make_two_speed_model_data`, resdx/models/tabular_data.py:735-782. -/
def twoCooling (u : Units K) (q95 seer2 eer2 maxCooling : K) (coolingCop82Min : Option K) : Py (Table K × Table K) := do
  let qm95 ← pdiv 1 (← calcBiquad Nrel.coolingCapFT 67 82)
  let eirm95 ← pdiv 1 (← calcBiquad Nrel.coolingEirFT 67 82)
  let qc := Table.init [frF 82, frF 95] 2
  let pc := Table.init [frF 82, frF 95] 2
  let qc ← PyM.exec (Table.set 2 (frF 95) q95) qc
  let qc ← PyM.exec (setByRatio 1 (frF 95) 0.728) qc
  let qc ← PyM.exec (setByMaintenance .cooling 2 (frF 82) (frF 95) qm95) qc
  let qc ← PyM.exec (setByRatio 1 (frF 82) 0.728) qc
  let cop82 := coolingCop82Min.getD (seer2 / 2)
  let p95 ← getOver qc 2 (frF 95) (eer2 * u.btuh)
  let pc ← PyM.exec (Table.set 2 (frF 95) p95) pc
  let pc ← PyM.exec (setByMaintenance .cooling 2 (frF 82) (frF 95) (qm95 * eirm95)) pc
  let p82 ← getOver qc 1 (frF 82) cop82
  let pc ← PyM.exec (Table.set 1 (frF 82) p82) pc
  let pc ← PyM.exec (setByMaintenance .cooling 1 (frF 95) (frF 82) (qm95 * eirm95)) pc
  coolingExtremes maxCooling qc pc

/-- The heating part of `make_two_speed_model_data`, resdx/models/tabular_data.py:784-849. -/
def twoHeating (q47 : K) (q17 : Option K) (hspf2 minHeating : K) (heatingCop47 : Option K) : Py (Table K × Table K) := do
  let eirm17 ← calcBiquad Nrel.heatingEirFT 70 17
  let qm17 ← qm17 0.626 q47 q17
  let qh := Table.init [frF 17, frF 47] 2
  let ph := Table.init [frF 17, frF 47] 2
  let qh ← PyM.exec (Table.set 2 (frF 47) q47) qh
  let qh ← PyM.exec (setByRatio 1 (frF 47) 0.712) qh
  let qh ← PyM.exec (setByMaintenance .heating 2 (frF 17) (frF 47) qm17) qh
  let qh ← PyM.exec (setByRatio 1 (frF 17) 0.712) qh
  let qh ← heatingExtremes minHeating qh
  let prH : K := 0.712 * 0.850
  let p47 ← getOver qh 2 (frF 47) (cop47 hspf2 heatingCop47)
  let ph ← PyM.exec (Table.set 2 (frF 47) p47) ph
  let ph ← PyM.exec (setByRatio 1 (frF 47) prH) ph
  let ph ← PyM.exec (setByMaintenance .heating 2 (frF 17) (frF 47) (qm17 * eirm17)) ph
  let ph ← PyM.exec (setByRatio 1 (frF 17) prH) ph
  let ph ← heatingExtremes minHeating ph
  return (qh, ph)

/-- `make_two_speed_model_data`, resdx/models/tabular_data.py:718-856. -/
def makeTwoSpeed (u : Units K) (q95 seer2 eer2 q47 : K) (q17 : Option K) (hspf2 : K) (maxCooling : K := frF 125)
    (minHeating : K := frF (-20)) (coolingCop82Min heatingCop47 : Option K := none) : Py (Perf K) := do
  let (qc, pc) ← twoCooling u q95 seer2 eer2 maxCooling coolingCop82Min
  let (qh, ph) ← twoHeating q47 q17 hspf2 minHeating heatingCop47
  finish qc pc qh ph

/-! ## Variable speed -/

/-- `EIRr82min` and `cooling_cop_82_min`, resdx/models/tabular_data.py:344-350. -/
def eirr82 (seer2 eer2 : K) (given : Option K) (qc pc : Table K) : Py (K × K) :=
  match given with
  | none => do
    let r ← pdiv (0.324 * seer2) eer2
    let e := bracket (1.305 - r) (some 0.2) (some 1)
    let c ← pdiv (← copAt qc pc 3 (frF 82)) e
    return (e, c)
  | some cop => do
    let e ← pdiv (← copAt qc pc 3 (frF 82)) cop
    return (e, cop)

/-- `Qr95min`, resdx/models/tabular_data.py:352-357. -/
def qr95min (given : Option K) (eirr82 : K) : K :=
  given.getD (bracket (0.510 - 0.119 * (eirr82 - 1.305) / (-0.324)) (some 0.1) (some 0.934))

/-- The cooling part of `make_neep_statistical_model_data`, resdx/models/tabular_data.py:305-375. -/
def neepStatCooling (u : Units K) (q95 seer2 eer2 maxCooling : K) (coolingCapacityRatio coolingCop82Min : Option K) :
    Py (Table K × Table K) := do
  let qc := Table.init [frF 82, frF 95] 3
  let pc := Table.init [frF 82, frF 95] 3
  let qc ← PyM.exec (Table.set 2 (frF 95) q95) qc
  let qc ← PyM.exec (setByRatio 3 (frF 95) 0.934) qc
  let qc ← PyM.exec (setByMaintenance .cooling 3 (frF 82) (frF 95) 0.940) qc
  let pr95rated : K := 0.934 * 0.928
  let pm95min : K := 0.948 * 1.315
  let pm95max : K := 0.940 * 1.326
  let p95 ← getOver qc 2 (frF 95) (eer2 * u.btuh)
  let pc ← PyM.exec (Table.set 2 (frF 95) p95) pc
  let pc ← PyM.exec (setByRatio 3 (frF 95) pr95rated) pc
  let pc ← PyM.exec (setByMaintenance .cooling 3 (frF 82) (frF 95) pm95max) pc
  let (eirr, cop82) ← eirr82 seer2 eer2 coolingCop82Min qc pc
  let qc ← PyM.exec (setByRatio 1 (frF 95) (qr95min coolingCapacityRatio eirr)) qc
  let qc ← PyM.exec (setByMaintenance .cooling 1 (frF 82) (frF 95) 0.948) qc
  let qc ← PyM.exec (setByInterpolation 2 (frF 82)) qc
  let p82 ← getOver qc 1 (frF 82) cop82
  let pc ← PyM.exec (Table.set 1 (frF 82) p82) pc
  let pc ← PyM.exec (setByMaintenance .cooling 1 (frF 95) (frF 82) pm95min) pc
  let pc ← PyM.exec (setByInterpolation 2 (frF 82)) pc
  coolingExtremes maxCooling qc pc

/-- `1 / (1 - fr_u(slope, "1/degF") * (t_5 - t_min))`, resdx/models/tabular_data.py:436-437, 475-476. -/
def lctFactor (slope minHeating : K) : Py K := pdiv 1 (1 - slope * 9 / 5 * (frF 5 - minHeating))

/-- The heating capacities of `make_neep_statistical_model_data`, resdx/models/tabular_data.py:377-445. -/
def neepStatHeatingQ (q47 qm17 minHeating : K) : Py (Table K) := do
  let qh := Table.init [minHeating, frF 5, frF 17, frF 47] 3
  let qh ← PyM.exec (Table.set 2 (frF 47) q47) qh
  let qh ← PyM.exec (setByRatio 3 (frF 47) 0.908) qh
  let qh ← PyM.exec (setByRatio 1 (frF 47) 0.272) qh
  let qh ← PyM.exec (setByMaintenance .heating 2 (frF 17) (frF 47) qm17) qh
  let qh ← PyM.exec (setByRatio 3 (frF 17) 0.817) qh
  let qh ← PyM.exec (setByRatio 1 (frF 17) 0.341) qh
  let qh ← PyM.exec (setByMaintenance .heating 3 (frF 5) (frF 17) 0.866) qh
  let qh ← PyM.exec (setByRatio 2 (frF 5) 0.988) qh
  let qh ← PyM.exec (setByRatio 1 (frF 5) 0.321) qh
  let qmMax ← lctFactor (-0.025) minHeating
  let qmMin ← lctFactor (-0.024) minHeating
  let qh ← PyM.exec (setByMaintenance .heating 3 minHeating (frF 5) qmMax) qh
  let qh ← PyM.exec (setByMaintenance .heating 1 minHeating (frF 5) qmMin) qh
  let qh ← PyM.exec (setByInterpolation 2 minHeating) qh
  PyM.exec (addTemperature (frF 60) false none) qh

/-- The heating powers of `make_neep_statistical_model_data`, resdx/models/tabular_data.py:447-487. -/
def neepStatHeatingP (qm17 hspf2 minHeating : K) (heatingCop47 : Option K) (qh : Table K) : Py (Table K) := do
  let ph := Table.init [minHeating, frF 5, frF 17, frF 47] 3
  let p47 ← getOver qh 2 (frF 47) (cop47 hspf2 heatingCop47)
  let ph ← PyM.exec (Table.set 2 (frF 47) p47) ph
  let ph ← PyM.exec (setByRatio 3 (frF 47) (0.908 * 0.939)) ph
  let ph ← PyM.exec (setByRatio 1 (frF 47) (0.272 * 0.730)) ph
  let ph ← PyM.exec (setByMaintenance .heating 2 (frF 17) (frF 47) (qm17 * 1.351)) ph
  let ph ← PyM.exec (setByRatio 3 (frF 17) (0.817 * 0.902)) ph
  let ph ← PyM.exec (setByRatio 1 (frF 17) (0.341 * 0.798)) ph
  let ph ← PyM.exec (setByMaintenance .heating 3 (frF 5) (frF 17) (0.866 * 1.164)) ph
  let ph ← PyM.exec (setByRatio 2 (frF 5) (0.988 * 1.000)) ph
  let ph ← PyM.exec (setByRatio 1 (frF 5) (0.321 * 0.866)) ph
  let eirMax ← lctFactor 0.012 minHeating
  let eirMin ← lctFactor 0.012 minHeating
  let pmMax := eirMax * (← qh.getMaintenance 3 minHeating (frF 5))
  let pmMin := eirMin * (← qh.getMaintenance 1 minHeating (frF 5))
  let ph ← PyM.exec (setByMaintenance .heating 3 minHeating (frF 5) pmMax) ph
  let ph ← PyM.exec (setByMaintenance .heating 1 minHeating (frF 5) pmMin) ph
  let ph ← PyM.exec (setByInterpolation 2 minHeating) ph
  PyM.exec (addTemperature (frF 60) false none) ph

/-- `make_neep_statistical_model_data`, resdx/models/tabular_data.py:285-494. -/
def makeNeepStatistical (u : Units K) (q95 seer2 eer2 q47 : K) (q17 : Option K) (hspf2 : K) (maxCooling : K := frF 125)
    (minHeating : K := frF (-20)) (coolingCapacityRatio coolingCop82Min heatingCop47 : Option K := none) : Py (Perf K) := do
  let (qc, pc) ← neepStatCooling u q95 seer2 eer2 maxCooling coolingCapacityRatio coolingCop82Min
  let qm17 ← qm17 0.689 q47 q17
  let qh ← neepStatHeatingQ q47 qm17 minHeating
  let ph ← neepStatHeatingP qm17 hspf2 minHeating heatingCop47 qh
  finish qc pc qh ph

/-! ## From measured data -/

/-- Conversion in place of one of the caller's lists, resdx/models/tabular_data.py:506-525. -/
def convertCells (factor : K) (data : List (List (Option K))) : List (List (Option K)) :=
  data.map fun row => row.map fun c => c.map (· * factor)

/-- The four lists of measured values passed to `make_neep_model_data`, in the caller's units; rows are temperatures. -/
structure Neep (K : Type) where
  coolingCapacities : List (List (Option K))
  coolingPowers : List (List (Option K))
  heatingCapacities : List (List (Option K))
  heatingPowers : List (List (Option K))
  deriving DecidableEq

/-- The lists after the in-place conversion, resdx/models/tabular_data.py:506-525. -/
def Neep.convert (u : Units K) (d : Neep K) : Neep K :=
  { coolingCapacities := convertCells u.btuh d.coolingCapacities
    coolingPowers := convertCells 1000 d.coolingPowers
    heatingCapacities := convertCells u.btuh d.heatingCapacities
    heatingPowers := convertCells 1000 d.heatingPowers }

/-- `if table.get(2, t_5) is None: table.set_by_interpolation(2, t_5)`, resdx/models/tabular_data.py:565-569. -/
def fillRated5 : PyM (Table K) Unit := do
  let self ← PyM.get
  let c ← self.get 2 (frF 5)
  match c with
  | none => setByInterpolation 2 (frF 5)
  | some _ => pure ()

/-- The body of `make_neep_model_data` after the tables are created, resdx/models/tabular_data.py:555-587. State: the four tables. -/
def neepBody (lct : Option K) (maxCooling minHeating : K) : PyM (Perf K) Unit := do
  Perf.onQc (setByInterpolation 2 (frF 82))
  Perf.onPc (setByInterpolation 2 (frF 82))
  Perf.onQc (addTemperature (frF 60) true (some 0.5))
  Perf.onPc (addTemperature (frF 60) true (some 0.5))
  Perf.onQc (addTemperature maxCooling true none)
  Perf.onPc (addTemperature maxCooling true none)
  Perf.onQh fillRated5
  Perf.onPh fillRated5
  match lct with
  | some lct => do
    Perf.onQh (setByInterpolation 2 (frF lct))
    Perf.onPh (setByInterpolation 2 (frF lct))
    if minHeating < frF lct then do
      Perf.onQh (addTemperature minHeating true none)
      Perf.onPh (addTemperature minHeating true none)
    else pure ()
  | none => do
    Perf.onQh (addTemperature minHeating true none)
    Perf.onPh (addTemperature minHeating true none)
  Perf.onQh (addTemperature (frF 60) false none)
  Perf.onPh (addTemperature (frF 60) false none)
  Perf.onQc setInterpolator
  Perf.onPc setInterpolator
  Perf.onQh setInterpolator
  Perf.onPh setInterpolator

/-- The heating temperatures, resdx/models/tabular_data.py:534-540. -/
def neepHeatingTemps (lct : Option K) : List K :=
  match lct with
  | some lct => [frF lct, frF 5, frF 17, frF 47]
  | none => [frF 5, frF 17, frF 47]

/-- The tables as created by `make_neep_model_data`, resdx/models/tabular_data.py:542-553: their `data` are the caller's lists themselves. -/
def neepTables (lct : Option K) (d : Neep K) : Perf K :=
  { coolingCapacities := Table.init [frF 82, frF 95] 3 (some d.coolingCapacities)
    coolingPowers := Table.init [frF 82, frF 95] 3 (some d.coolingPowers)
    heatingCapacities := Table.init (neepHeatingTemps lct) 3 (some d.heatingCapacities)
    heatingPowers := Table.init (neepHeatingTemps lct) 3 (some d.heatingPowers) }

/-- `make_neep_model_data`, resdx/models/tabular_data.py:497-589. State: the caller's four lists (assumed to be four distinct lists with distinct
rows), which the function converts in place and which the returned tables keep using as their data. -/
def makeNeep (u : Units K) (lct : Option K := none) (maxCooling : K := frF 125) (minHeating : K := frF 0) : PyM (Neep K) (Perf K) :=
  fun d =>
    match neepBody lct maxCooling minHeating (neepTables lct (d.convert u)) with
    | (r, tables) =>
      ((do let _ ← r; Perf.init tables.coolingCapacities tables.coolingPowers tables.heatingCapacities tables.heatingPowers),
        { coolingCapacities := tables.coolingCapacities.data
          coolingPowers := tables.coolingPowers.data
          heatingCapacities := tables.heatingCapacities.data
          heatingPowers := tables.heatingPowers.data })

end Resdx.Tabular
