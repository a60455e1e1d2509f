import Verif.Model.Seer
import Verif.Model.Defrost

/-!
# Model of `DXUnit.hspf` and the heating distributions, `resdx/dx_unit.py`

`delta_low` is a local variable that survives from one bin to the next; the loop carries it as an optional value (`none` = unbound).
-/

namespace Resdx.DX

open BaseModel Performance

variable {C K : Type} [Field K] [LinearOrder K]

/-! ## Climate -/

/-- `HeatingDistribution`, resdx/dx_unit.py:54-83. -/
structure HeatDist (K : Type) where
  design : K
  hours : List K
  c : Option K
  cVs : Option K
  zeroLoad : Option K
  deriving DecidableEq

/-- `HeatingDistribution.outdoor_drybulbs`, resdx/dx_unit.py:55-57. -/
def heatingTemperatures : List K := (List.range 18).map fun (d : Nat) => frF (62 - (d : K) * 5)

/-- `self.fractional_hours`, resdx/dx_unit.py:72-79. -/
def renormalise (hours : List K) : Py (List K) :=
  if hours.sum < 0.98 ∨ 1.02 < hours.sum then hours.mapM fun n => pdiv n hours.sum else .ok hours

/-- `HeatingDistribution.__init__`, resdx/dx_unit.py:59-83. -/
def HeatDist.make (design : K) (hours : List K) (c cVs zeroLoad : Option K) : Py (HeatDist K) := do
  let hours ← renormalise hours
  if hours.length ≠ 18 then .error .exception
  else return { design, hours, c, cVs, zeroLoad }

/-- `AHRIVersion`, resdx/dx_unit.py:48-50. -/
inductive RatingStandard | ahri2017 | ahri2023
  deriving DecidableEq

/-- The arguments of the table `regional_heating_distributions`, resdx/dx_unit.py:115-133: design temperature (°F), fractions, `c`, `c_vs`, zero-load temperature
(°F). `none` is a missing key. -/
def regionData : RatingStandard → Nat → Option (K × List K × Option (K × K × K))
  | .ahri2017, 1 => some (37, [0.291, 0.239, 0.194, 0.129, 0.081, 0.041, 0.019, 0.005, 0.001, 0, 0, 0, 0, 0, 0, 0, 0, 0], none)
  | .ahri2017, 2 => some (27, [0.215, 0.189, 0.163, 0.143, 0.112, 0.088, 0.056, 0.024, 0.008, 0.002, 0, 0, 0, 0, 0, 0, 0, 0], none)
  | .ahri2017, 3 => some (17, [0.153, 0.142, 0.138, 0.137, 0.135, 0.118, 0.092, 0.047, 0.021, 0.009, 0.005, 0.002, 0.001, 0, 0, 0, 0, 0], none)
  | .ahri2017, 4 => some (5, [0.132, 0.111, 0.103, 0.093, 0.100, 0.109, 0.126, 0.087, 0.055, 0.036, 0.026, 0.013, 0.006, 0.002, 0.001, 0, 0, 0], none)
  | .ahri2017, 5 => some (-10, [0.106, 0.092, 0.086, 0.076, 0.078, 0.087, 0.102, 0.094, 0.074, 0.055, 0.047, 0.038, 0.029, 0.018, 0.010, 0.005, 0.002, 0.001], none)
  | .ahri2017, 6 => some (30, [0.113, 0.206, 0.215, 0.204, 0.141, 0.076, 0.034, 0.008, 0.003, 0, 0, 0, 0, 0, 0, 0, 0, 0], none)
  | .ahri2023, 1 => some (37, [0, 0.239, 0.194, 0.129, 0.081, 0.041, 0.019, 0.005, 0.001, 0, 0, 0, 0, 0, 0, 0, 0, 0], some (1.10, 1.03, 58))
  | .ahri2023, 2 => some (27, [0, 0, 0.163, 0.143, 0.112, 0.088, 0.056, 0.024, 0.008, 0.002, 0, 0, 0, 0, 0, 0, 0, 0], some (1.06, 0.99, 57))
  | .ahri2023, 3 => some (17, [0, 0, 0.138, 0.137, 0.135, 0.118, 0.092, 0.047, 0.021, 0.009, 0.005, 0.002, 0.001, 0, 0, 0, 0, 0], some (1.30, 1.21, 56))
  | .ahri2023, 4 => some (5, [0, 0, 0.103, 0.093, 0.100, 0.109, 0.126, 0.087, 0.055, 0.036, 0.026, 0.013, 0.006, 0.002, 0.001, 0, 0, 0], some (1.15, 1.07, 55))
  | .ahri2023, 5 => some (-10, [0, 0, 0.086, 0.076, 0.078, 0.087, 0.102, 0.094, 0.074, 0.055, 0.047, 0.038, 0.029, 0.018, 0.010, 0.005, 0.002, 0.001],
      some (1.16, 1.08, 55))
  | .ahri2023, 6 => some (30, [0, 0, 0.215, 0.204, 0.141, 0.076, 0.034, 0.008, 0.003, 0, 0, 0, 0, 0, 0, 0, 0, 0], some (1.11, 1.03, 57))
  | _, _ => none

/-- `self.regional_heating_distributions[self.rating_standard][region]`, resdx/dx_unit.py:1086-1088. -/
def regional (std : RatingStandard) (region : Nat) : Py (HeatDist K) :=
  match regionData std region with
  | none => .error .key
  | some (d, h, none) => HeatDist.make (frF d) h none none none
  | some (d, h, some (c, cVs, z)) => HeatDist.make (frF d) h (some c) (some cVs) (some (frF z))

/-- `standard_design_heating_requirements`, resdx/dx_unit.py:137-139. -/
def designRequirements (u : Units K) : List K :=
  ((List.range 8).map fun (i : Nat) => 5000 * u.btuh + (i : K) * (5000 * u.btuh)) ++ (List.range 9).map fun (i : Nat) => 50000 * u.btuh + (i : K) * (10000 * u.btuh)

/-! ## The unit's settings -/

/-- `self.heating_off_temperature`, resdx/dx_unit.py:287-293. -/
def offTemperature (supplied : Option K) (st : Staging) : K :=
  match supplied with
  | some t => t
  | none => if st = .varSpeed then frF (-20) else frF 0

/-- `self.heating_on_temperature`, resdx/dx_unit.py:294-295: the attribute is only set when no temperature is supplied (`none` = attribute missing). -/
def onTemperature (supplied : Option K) (off : K) : Option K :=
  match supplied with
  | some _ => none
  | none => some off

/-- The attributes `hspf` reads besides the performance functions. -/
structure HeatSettings (K : Type) where
  st : Staging
  cd : K
  cyc : Cycling
  off : K
  on : Option K

/-- `delta_full`, `delta_low`, `delta_int_bin`: resdx/dx_unit.py:1187-1192, 1251-1256, 1306-1311, 1330-1335. -/
def cutFactor (off : K) (on : Option K) (t cop : K) : Py K :=
  if t ≤ off ∨ cop < 1 then .ok 0
  else do
    let on ← pyAttr on
    if on < t then return 1 else return 0.5

/-! ## Bins -/

/-- `hlf_full`, resdx/dx_unit.py:1194-1197. -/
def loadFactor (bl qFull : K) : Py K := if bl < qFull then pdiv bl qFull else .ok 1

/-- The single-stage bin, resdx/dx_unit.py:1199-1204: energy and resistance heat. -/
def heatSingleBin (cd bl qFull pFull delta hlf n : K) : Py (K × K) := do
  let plf := 1 - cd * (1 - hlf)
  return (← pdiv (pFull * hlf * delta * n) plf, (bl - qFull * hlf * delta) * n)

/-- Cycling at low speed, resdx/dx_unit.py:1258-1261, 1313-1316. -/
def heatLowBin (cd bl qLow pLow delta n : K) : Py (K × K) := do
  let hlf ← pdiv bl qLow
  let plf := 1 - cd * (1 - hlf)
  return (← pdiv (pLow * hlf * delta * n) plf, bl * (1 - delta) * n)

/-- The two-stage bin, resdx/dx_unit.py:1249-1285; the last component is `delta_low` afterwards. -/
def heatTwoBin (s : HeatSettings K) (prev : Option K) (t bl qLow pLow copLow qFull pFull delta hlf n : K) : Py ((K × K) × Option K) :=
  if bl ≤ qLow then do
    let d ← cutFactor s.off s.on t copLow
    return (← heatLowBin s.cd bl qLow pLow d n, some d)
  else if bl < qFull ∧ s.cyc = .lowFull then do
    let hlfLow ← pdiv (qFull - bl) (qFull - qLow)
    let hlfFull := 1 - hlfLow
    let d ← pyLocal prev
    return (((pLow * hlfLow + pFull * hlfFull) * d * n, bl * (1 - d) * n), prev)
  else if bl < qFull ∧ s.cyc = .offFull then do
    let hlfLow ← pdiv (qFull - bl) (qFull - qLow)
    let plf := 1 - s.cd * (1 - hlfLow)
    let e ← pdiv (pFull * hlf * delta * n) plf
    let d ← pyLocal prev
    return ((e, bl * (1 - d) * n), prev)
  else .ok ((pFull * 1 * delta * n, (bl - qFull * 1 * delta) * n), prev)
where
  /-- Reading a local variable. -/
  pyLocal (x : Option K) : Py K := match x with
    | some v => .ok v
    | none => .error .unboundLocal

/-- A load between two capacities met by modulation, resdx/dx_unit.py:1317-1338. -/
def heatModulatingBin (s : HeatSettings K) (t bl q0 cop0 q1 cop1 n : K) : Py (K × K) := do
  let cop := cop0 + (← pdiv (cop1 - cop0) (q1 - q0)) * (bl - q0)
  let d ← cutFactor s.off s.on t cop
  return ((← pdiv (bl * n) cop) * d, bl * (1 - d) * n)

/-- The variable-speed bin, resdx/dx_unit.py:1305-1367; `again` is the recomputation of the full capacity and power in the last branch. -/
def heatVarBin (s : HeatSettings K) (t bl qLow pLow copLow qInt copInt qFull copFull delta n : K) (again : Py (K × K)) : Py (K × K) :=
  if bl ≤ qLow then do
    let d ← cutFactor s.off s.on t copLow
    heatLowBin s.cd bl qLow pLow d n
  else if bl < qFull then
    if bl ≤ qInt then heatModulatingBin s t bl qLow copLow qInt copInt n
    else heatModulatingBin s t bl qInt copInt qFull copFull n
  else do
    let r ← again
    return (r.2 * 1 * delta * n, (bl - r.1 * 1 * delta) * n)

section
variable (U : Performance C K) (P : Points C)

/-- Steady-state and integrated capacity and power as functions of the conditions. -/
abbrev sCap : C → Py K := fun c => U.netSteadyHeatingCapacity (some c)
/-- See `sCap`. -/
abbrev sPow : C → Py K := fun c => U.netSteadyHeatingPower (some c)
/-- See `sCap`. -/
abbrev iCap : C → Py K := fun c => U.netIntegratedHeatingCapacity (some c)
/-- See `sCap`. -/
abbrev iPow : C → Py K := fun c => U.netIntegratedHeatingPower (some c)

/-- `q_full`, `p_full`, resdx/dx_unit.py:1156-1184. -/
def heatFull (t : K) : Py (K × K) :=
  if frF 45 ≤ t ∨ t ≤ frF 17 then do
    let q ← interpolate U.db (sCap U) P.h3Full P.h1Full t
    return (q, ← interpolate U.db (sPow U) P.h3Full P.h1Full t)
  else do
    let q ← interpolateSeparate U.db (sCap U) (iCap U) P.h3Full P.h2Full t
    return (q, ← interpolateSeparate U.db (sPow U) (iPow U) P.h3Full P.h2Full t)

/-- `q_low`, `p_low` of a two-stage unit, resdx/dx_unit.py:1206-1247. -/
def heatLowTwo (t : K) : Py (K × K) :=
  if frF 40 ≤ t then do
    let q ← interpolate U.db (sCap U) (← pyAttr P.h0Low) (← pyAttr P.h1Low) t
    return (q, ← interpolate U.db (sPow U) (← pyAttr P.h0Low) (← pyAttr P.h1Low) t)
  else if t ≤ frF 17 then do
    let q ← interpolate U.db (sCap U) (← pyAttr P.h1Low) (← pyAttr P.h3Low) t
    return (q, ← interpolate U.db (sPow U) (← pyAttr P.h1Low) (← pyAttr P.h3Low) t)
  else do
    let q ← interpolateSeparate U.db (iCap U) (sCap U) (← pyAttr P.h2Low) (← pyAttr P.h3Low) t
    return (q, ← interpolateSeparate U.db (iPow U) (sPow U) (← pyAttr P.h2Low) (← pyAttr P.h3Low) t)

/-- `q_low`, `p_low` of a variable-speed unit, resdx/dx_unit.py:1288-1299. -/
def heatLowVar (t : K) : Py (K × K) := do
  let q ← interpolate U.db (sCap U) (← pyAttr P.h0Low) (← pyAttr P.h1Low) t
  return (q, ← interpolate U.db (sPow U) (← pyAttr P.h0Low) (← pyAttr P.h1Low) t)

/-- `q_full`, `p_full` of the last variable-speed branch, resdx/dx_unit.py:1340-1364. The condition of the first case holds for every temperature; the values of
the second case (`h1`, `h3`, `h4`: capacity and power at these tests) are never used. -/
def heatFullAgain (h1 h3 h4 : K × K) (old : K × K) (t : K) : Py (K × K) :=
  if frF 5 < t ∨ t ≤ frF 17 then do
    let q ← interpolate U.db (sCap U) P.h4Full P.h3Full t
    return (q, ← interpolate U.db (sPow U) P.h4Full P.h3Full t)
  else if t < frF 5 then
    let r := (t - frF 5) / (frF 47 - frF 17)
    .ok (h4.1 + (h1.1 - h3.1) * r, h4.2 + (h1.2 - h3.2) * r)
  else .ok old

/-- The values of the H1, H3, H4 tests at full speed. -/
structure HeatIntermediate (K : Type) where
  /-- `q_H2_int`, `M_Hq` -/
  q : K
  mQ : K
  /-- `p_H2_int`, `M_HE` -/
  p : K
  mP : K
  h1 : K × K
  h3 : K × K
  h4 : K × K

/-- Value at the H2 intermediate test and slope, and the H1, H3, H4 values, resdx/dx_unit.py:1108-1125 (capacity) and 1127-1144 (power): `f` is the steady-state and
`g` the integrated quantity. -/
def heatIntermediateOf (f g : C → Py K) : Py ((K × K) × K × K × K) := do
  let h0 ← f (← pyAttr P.h0Low)
  let h1l ← f (← pyAttr P.h1Low)
  let h2i ← g (← pyAttr P.h2Int)
  let h1 ← f P.h1Full
  let h2 ← g P.h2Full
  let h3 ← f P.h3Full
  let h4 ← f P.h4Full
  let low ← interpolate U.db f (← pyAttr P.h0Low) (← pyAttr P.h1Low) (frF 35)
  let n ← pdiv (h2i - low) (h2 - low)
  return ((h2i, (h0 - h1l) / (frF 62 - frF 47) * (1 - n) + (h2 - h3) / (frF 35 - frF 17) * n), h1, h3, h4)

/-- The intermediate values of a variable-speed unit, resdx/dx_unit.py:1107-1144. -/
def heatIntermediate : Py (HeatIntermediate K) := do
  let q ← heatIntermediateOf U P (sCap U) (iCap U)
  let p ← heatIntermediateOf U P (sPow U) (iPow U)
  return { q := q.1.1, mQ := q.1.2, p := p.1.1, mP := p.1.2, h1 := (q.2.1, p.2.1), h3 := (q.2.2.1, p.2.2.1), h4 := (q.2.2.2, p.2.2.2) }

/-- The intermediate values, computed for variable-speed units only, resdx/dx_unit.py:1107. -/
def heatIntermediateFor (st : Staging) : Py (Option (HeatIntermediate K)) :=
  if st = .varSpeed then do
    let i ← heatIntermediate U P
    return some i
  else .ok none

/-- The building load as a function of the bin temperature, resdx/dx_unit.py:1089-1105, 1149-1154. -/
def heatingLoad (u : Units K) (st : Staging) (std : RatingStandard) (d : HeatDist K) : Py (K → Py K) :=
  match std with
  | .ahri2017 => do
    let dhr ← Util.findNearest (designRequirements u) ((← U.netSteadyHeatingCapacity (some P.h1Full)) * (frF 65 - d.design) / (60 * (5 / 9)))
    return fun t => do return max ((← pdiv (frF 65 - t) (frF 65 - d.design)) * 0.77 * dhr) 0
  | .ahri2023 => do
    let qA ← U.netTotalCoolingCapacity (some P.aFull)
    return fun t => do
      let z ← pyNum d.zeroLoad
      let c ← pyNum (if st = .varSpeed then d.cVs else d.c)
      return max ((← pdiv (z - t) (z - d.design)) * c * qA) 0

/-- The part of the bin that depends on the staging type, resdx/dx_unit.py:1199-1367. -/
def heatStaging (s : HeatSettings K) (I : Option (HeatIntermediate K)) (prev : Option K) (t bl qFull pFull copFull delta hlf n : K) :
    Py ((K × K) × Option K) :=
  match s.st with
  | .single => do return (← heatSingleBin s.cd bl qFull pFull delta hlf n, prev)
  | .two => do
    let low ← heatLowTwo U P t
    let copLow ← pdiv low.1 low.2
    heatTwoBin s prev t bl low.1 low.2 copLow qFull pFull delta hlf n
  | .varSpeed => do
    let I ← pyAttr I
    let low ← heatLowVar U P t
    let copLow ← pdiv low.1 low.2
    let qInt := I.q + I.mQ * (t - frF 35)
    let copInt ← pdiv qInt (I.p + I.mP * (t - frF 35))
    let r ← heatVarBin s t bl low.1 low.2 copLow qInt copInt qFull copFull delta n (heatFullAgain U P I.h1 I.h3 I.h4 (qFull, pFull) t)
    return (r, prev)

/-- One bin, resdx/dx_unit.py:1147-1371: `(n * bl, e, rh)` and `delta_low` afterwards. -/
def heatBin (s : HeatSettings K) (I : Option (HeatIntermediate K)) (load : K → Py K) (prev : Option K) (t n : K) : Py ((K × K × K) × Option K) := do
  let bl ← load t
  let full ← heatFull U P t
  let copFull ← pdiv full.1 full.2
  let delta ← cutFactor s.off s.on t copFull
  let hlf ← loadFactor bl full.1
  let r ← heatStaging U P s I prev t bl full.1 full.2 copFull delta hlf n
  return ((n * bl, r.1.1, r.1.2), r.2)

/-- The loop over the bins, resdx/dx_unit.py:1146-1371, with the accumulators `q_sum`, `e_sum`, `rh_sum`. -/
def heatLoop (f : Option K → K → K → Py ((K × K × K) × Option K)) : List (K × K) → Option K → K × K × K → Py (K × K × K)
  | [], _, acc => .ok acc
  | (t, n) :: l, prev, acc => do
    let r ← f prev t n
    heatLoop f l r.2 (acc.1 + r.1.1, acc.2.1 + r.1.2.1, acc.2.2 + r.1.2.2)

/-- `hspf`, resdx/dx_unit.py:1080-1376, for a given distribution; `credit` is `self.defrost.demand_credit()`. -/
def hspfWith (u : Units K) (std : RatingStandard) (s : HeatSettings K) (d : HeatDist K) (credit : Py K) : Py K := do
  let load ← heatingLoad U P u s.st std d
  let I ← heatIntermediateFor U P s.st
  let r ← heatLoop (heatBin U P s I load) (heatingTemperatures.zip d.hours) none (0, 0, 0)
  let f ← credit
  pdiv ((← pdiv r.1 (r.2.1 + r.2.2)) * f) u.btuh

/-- `hspf(region)`, resdx/dx_unit.py:1080-1376. -/
def hspf (u : Units K) (std : RatingStandard) (s : HeatSettings K) (defrost : Defrost K) (region : Nat) : Py K := do
  hspfWith U P u std s (← regional std region) (defrost.demandCredit u)

end
end Resdx.DX
