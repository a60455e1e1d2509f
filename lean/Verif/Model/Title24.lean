import Verif.Model.System
import Verif.Model.BaseModel

/-!
# Model of `resdx/models/title24.py`

`system.model_data` is a dictionary shared by all queries; the four entries this model uses are the state of the heating methods, and an exception leaves
the entries as they are. `scipy.optimize.newton` is an arbitrary search (`Search`): which point it evaluates next may depend on every value seen so far, and every
evaluation writes into the dictionary.
-/

namespace Resdx.Title24

open BaseModel

variable {K : Type} [Field K] [LinearOrder K]

/-! ## The unit -/

/-- The attributes of the unit this model reads besides those of `Sys`; `input_seer` and `input_hspf` may be `None`; `cap17`, `cap35`, `cop35` and
`input_cooling_efficiency_multiplier` are the optional keyword arguments (resdx/models/title24.py:13-20). `c_d_heating` is a number. -/
structure Unit24 (K : Type) [Field K] [LinearOrder K] where
  sys : Sys K
  u : Units K
  coolingFanPower : List (Option K)
  heatingFanPower : List (Option K)
  netCoolingCop : List (Option K)
  netHeatingCop : List (Option K)
  nHeating : Nat
  cd : K
  inputSeer : Option K
  inputHspf : Option K
  cap17 : Option (List K)
  cap35 : Option (List K)
  cop35 : Option (List K)
  multiplier : Option K

/-! ## Default ratings -/

/-- `eer_rated`, resdx/models/title24.py:63-70. -/
def eerRated (seer : K) : K :=
  if seer < 13 then 10 + 0.84 * (seer - 11.5) else if seer < 16 then 11.3 + 0.57 * (seer - 13) else 13

/-- `cap17_ratio_rated`, resdx/models/title24.py:269-281. -/
def cap17Ratio (hspf : K) : K :=
  if hspf < 7.5 then 0.1113 * hspf - 0.22269
  else if hspf < 9.5567 then 0.017 * hspf + 0.4804
  else if hspf < 10.408 then 0.0982 * hspf - 0.2956
  else 0.0232 * hspf + 0.485

/-- `rated_net_heating_cop` and `cop47_rated`, resdx/models/title24.py:365-367, 463-465. -/
def cop47Rated (hspf : K) : K := 0.3225 * hspf + 0.9099

/-- `c_d_heating`, resdx/models/title24.py:467-469. -/
def cdHeating (hspf : K) : K := max (min (0.25 - 0.2 * (hspf - 6.8) / (10 - 6.8)) 0.25) 0.05

/-- `MotorType`, resdx/models/title24.py:72-74. -/
inductive MotorType | psc | bpm
  deriving DecidableEq

/-- `fan_efficacy_rated`, resdx/models/title24.py:76-82. -/
def fanEfficacyRated (u : Units K) (flowPerCapacity : K) (motor : MotorType := .psc) : Py K :=
  pdiv (if motor = .psc then 500 * u.btuh / u.ton else 283 * u.btuh / u.ton) flowPerCapacity

/-! ## Cooling -/

/-- `CA_regression`, resdx/models/title24.py:22-37. The coefficient lists of the source all have twelve entries; any other list is an `IndexError` here. -/
def caRegression (coeffs : List K) (ewb odb edb v : K) : Py K :=
  match coeffs with
  | [c0, c1, c2, c3, c4, c5, c6, c7, c8, c9, c10, c11] => do
    return c0 * edb + c1 * ewb + c2 * odb + c3 * v + c4 * edb * odb + c5 * edb * v + c6 * ewb * odb + c7 * ewb * v + c8 * odb * v + c9 * ewb * ewb
      + (← pdiv c10 v) + c11
  | _ => .error .index

/-- `coeffs` of `gross_shr`, resdx/models/title24.py:46-59. -/
def shrCoeffs : List K := [0.0242020, -0.0592153, 0.0012651, 0.0016375, 0, 0, 0, -0.0000165, 0, 0.0002021, 0, 1.5085285]
/-- Capacity coefficients of a wet coil, resdx/models/title24.py:93-106 and 163-176. -/
def wetCap : List K :=
  [0, 0.009645900, 0.002536900, 0.000171500, 0, 0, -0.000095900, 0.000008180, -0.000007550, 0.000105700, -53.542300000, 0.381567150]
/-- Capacity coefficients of a dry coil, resdx/models/title24.py:108-121 and 192-205. -/
def dryCap : List K :=
  [0.009483100, 0, -0.000600600, -0.000148900, -0.000032600, 0.000011900, 0, 0, -0.000005050, 0, -52.561740000, 0.430751600]
/-- `seer_coeffs` of a wet coil, resdx/models/title24.py:149-162. -/
def wetSeer : List K :=
  [0, -0.0202256, 0.0236703, -0.0006638, 0, 0, -0.0001841, 0.0000214, -0.00000812, 0.0002971, -27.95672, 0.209951063]
/-- `seer_coeffs` of a dry coil, resdx/models/title24.py:178-191. -/
def drySeer : List K := [0.0046103, 0, 0.0125598, -0.000512, -0.0000357, 0.0000105, 0, 0, 0, 0, 0, -0.316172311]
/-- `eer_coeffs` of a wet coil, resdx/models/title24.py:219-232. -/
def wetEer : List K :=
  [0, -0.020225600, 0.023670300, -0.000663800, 0, 0, -0.000184100, 0.000021400, -0.000008120, 0.000297100, -27.956720000, 0.015003100]
/-- `eer_coeffs` of a dry coil, resdx/models/title24.py:234-247. -/
def dryEer : List K := [0.004610300, 0, 0.012559800, -0.000512000, -0.000035700, 0.000010500, 0, 0, 0, 0, 0, -0.475306500]

/-- The arguments every regression is evaluated at, resdx/models/title24.py:40-45, 86-91, 136-141: indoor wet bulb, outdoor and indoor dry bulb in °F, airflow in
cfm/ton. -/
structure Point (K : Type) where
  ewb : K
  odb : K
  edb : K
  v : K

/-- Reading them from the conditions. -/
def pointOf (U : Unit24 K) (c : Conditions K) : Py (Point K) := do
  let wb ← (Psych.getWb c.indoor).1
  return ⟨toF wb, toF c.outdoor.db, toF c.indoor.db, (← pyAttr c.flow.stdVolPerCap) * U.u.ton / U.u.cfm⟩

/-- A regression at a point. -/
def Point.regress (p : Point K) (coeffs : List K) : Py K := caRegression coeffs p.ewb p.odb p.edb p.v

/-- `gross_shr`, resdx/models/title24.py:39-61, from the point. -/
def shrAt (p : Point K) : Py K := do return min 1 (← p.regress shrCoeffs)

/-- `gross_shr`, resdx/models/title24.py:39-61. -/
def grossShr (U : Unit24 K) (c : Conditions K) : Py K := do shrAt (← pointOf U c)

/-- The capacity regression chosen by the SHR, resdx/models/title24.py:92-122. -/
def capFactor (p : Point K) (shr : K) : Py K := p.regress (if shr < 1 then wetCap else dryCap)

/-- `gross_total_cooling_capacity`, resdx/models/title24.py:84-127. -/
def grossTotal (U : Unit24 K) (c : Conditions K) : Py K := do
  let p ← pointOf U c
  let shr ← shrAt p
  return (← capFactor p shr) * (← Sys.at_ U.sys.grossCooling c.flow.compressorSpeed)

/-- `DXUnit.gross_total_cooling_capacity` for this model, resdx/dx_unit.py:688-695: the model's value times the charge factor 1.0 of the base class,
which must not be negative. -/
def systemTotal (U : Unit24 K) (c : Conditions K) : Py K := do Util.limitCheck ((← grossTotal U c) * 1) (min := some 0)

/-- `gross_sensible_cooling_capacity`, resdx/models/title24.py:129-132. -/
def grossSensible (U : Unit24 K) (c : Conditions K) : Py K := do return (← grossShr U c) * (← systemTotal U c)

/-- `seer_nf`, resdx/models/title24.py:146-213, for an outdoor temperature below 95 °F. -/
def seerNf (U : Unit24 K) (p : Point K) (shr cap95 qFan : K) : Py K := do
  let seer := (← pyNum U.inputSeer) * U.u.btuh
  let f ← pdiv (← capFactor p shr) (← p.regress (if shr < 1 then wetSeer else drySeer))
  pdiv (f * (1.09 * cap95 + qFan)) ((← pdiv (1.09 * cap95) seer) - qFan)

/-- `eer_nf`, resdx/models/title24.py:216-254, for an outdoor temperature above 82 °F. -/
def eerNf (U : Unit24 K) (p : Point K) (shr cap95 qFan : K) (speed : Nat) : Py K := do
  let eer ← Sys.at_ U.netCoolingCop speed
  let capNf ← Sys.at_ U.sys.grossCooling speed
  let f ← p.regress (if shr < 1 then wetEer else dryEer)
  pdiv capNf (f * ((← pdiv cap95 eer) - qFan / 3.413))

/-- `eer_t`, resdx/models/title24.py:146-262. -/
def eerAt (U : Unit24 K) (p : Point K) (shr cap95 qFan : K) (speed : Nat) : Py K := do
  let s ← if p.odb < 95 then seerNf U p shr cap95 qFan else .ok 0
  let e ← if 82 < p.odb then eerNf U p shr cap95 qFan speed else .ok 0
  if p.odb ≤ 82 then return s
  else if p.odb < 95 then return s + (p.odb - 82) * (e - s) / 13
  else return e

/-- `gross_cooling_power`, resdx/models/title24.py:134-267. -/
def grossCoolingPower (U : Unit24 K) (c : Conditions K) : Py K := do
  let p ← pointOf U c
  let shr ← shrAt p
  let cap95 ← pyGet U.sys.netCooling c.flow.compressorSpeed
  let qFan ← Sys.at_ U.coolingFanPower c.flow.compressorSpeed
  let e ← eerAt U p shr cap95 qFan c.flow.compressorSpeed
  pdiv (← systemTotal U c) (e * U.multiplier.getD 1)

/-! ## Heating: cached data -/

/-- The entries of `model_data` this model uses. -/
inductive Slot | cap17 | cap35 | cop17 | cop35
  deriving DecidableEq

/-- `system.model_data` (`none` = key absent, an inner `none` = `None`). -/
abbrev Data (K : Type) := Slot → Option (List (Option K))

/-- `if key not in model_data: model_data[key] = [None] * number_of_heating_speeds`, resdx/models/title24.py:288-291, 314-317, 472-480. -/
def ensure (n : Nat) (k : Slot) : PyM (Data K) Unit :=
  PyM.modify fun d => Function.update d k (some ((d k).getD (List.replicate n none)))

/-- `model_data[key][i]`. -/
def entry (k : Slot) (i : Nat) (d : Data K) : Py (Option K) :=
  match d k with
  | none => .error .key
  | some l => pyGet l i

/-- `model_data[key][i] = v`. -/
def store (k : Slot) (i : Nat) (v : K) : PyM (Data K) Unit := fun d =>
  match d k with
  | none => (.error .key, d)
  | some l => if i < l.length then (.ok (), Function.update d k (some (l.set i (some v)))) else (.error .index, d)

/-- Return the entry if there is one, otherwise compute and store it: `get_cap17` and `get_cap35`. -/
def cached (n : Nat) (k : Slot) (i : Nat) (compute : PyM (Data K) K) : PyM (Data K) K := fun d =>
  let d := (ensure n k d).2
  match entry k i d with
  | .error e => (.error e, d)
  | .ok (some v) => (.ok v, d)
  | .ok none => (do let v ← compute; store k i v; return v) d

/-- The value computed by `get_cap17`, resdx/models/title24.py:299-310. -/
def cap17Value (U : Unit24 K) (i : Nat) : Py K :=
  match U.cap17 with
  | some l => pyGet l i
  | none => do
    let cap47 ← pyGet U.sys.netHeating i
    return cap17Ratio (← pyNum U.inputHspf) * cap47

/-- `get_cap17`, resdx/models/title24.py:283-311. -/
def getCap17 (U : Unit24 K) (i : Nat) : PyM (Data K) K := cached U.nHeating .cap17 i (PyM.lift (cap17Value U i))

/-- The default of `get_cap35`, resdx/models/title24.py:325-333. -/
def cap35Default (U : Unit24 K) (cap47 cap17 : K) : K :=
  if U.sys.defrost.strategy ≠ .none then (cap17 + 0.6 * (cap47 - cap17)) * 0.9 else cap17 + 0.6 * (cap47 - cap17)

/-- The value computed by `get_cap35`, resdx/models/title24.py:321-334. -/
def cap35Compute (U : Unit24 K) (i : Nat) : PyM (Data K) K :=
  match U.cap35 with
  | some l => PyM.lift (pyGet l i)
  | none => do
    let cap47 ← PyM.lift (pyGet U.sys.netHeating i)
    let cap17 ← getCap17 U i
    return cap35Default U cap47 cap17

/-- `get_cap35`, resdx/models/title24.py:313-335. -/
def getCap35 (U : Unit24 K) (i : Nat) : PyM (Data K) K := cached U.nHeating .cap35 i (cap35Compute U i)

/-! ## Heating: the built-in HSPF -/

/-- Capacity (or input) at an outdoor temperature: through 17 and 35 °F between 17 and 45 °F, through 17 and 47 °F elsewhere; resdx/models/title24.py:437-444. -/
def frostLine (v47 v35 v17 t : K) : K := v17 + (if 17 < t ∧ t < 45 then (v35 - v17) / (35 - 17) else (v47 - v17) / (47 - 17)) * (t - 17)

/-- `sigma_t`, resdx/models/title24.py:448-453. -/
def sigma (t cap inp : K) : Py K :=
  if t ≤ 0 then .ok 0 else do
    let cop ← pdiv cap inp
    if cop < 1 then return 0 else if t ≤ 5 then return 0.5 else return 1

/-- The four capacities and inputs `check_hspf` works with. -/
structure Points (K : Type) where
  cap47 : K
  cap35 : K
  cap17 : K
  inp47 : K
  inp35 : K
  inp17 : K
  deriving DecidableEq

/-- One bin, resdx/models/title24.py:435-459: energy and load. -/
def hspfBin (cd : K) (P : Points K) (t n : K) : Py (K × K) := do
  let bl := (65 - t) / (65 - 5) * 0.77 * P.cap47
  let cap := frostLine P.cap47 P.cap35 P.cap17 t
  let inp := frostLine P.inp47 P.inp35 P.inp17 t
  let x := min (← pdiv bl cap) 1
  let plf := 1 - cd * (1 - x)
  let s ← sigma t cap inp
  return ((← pdiv (x * inp * s) plf) * n + (bl - x * cap * s) * n, bl * n)

/-- `T_bins` and `frac_hours`, resdx/models/title24.py:392-425. -/
def hspfBins : List (K × K) :=
  [(62, 0.132), (57, 0.111), (52, 0.103), (47, 0.093), (42, 0.100), (37, 0.109), (32, 0.126), (27, 0.087), (22, 0.055), (17, 0.036), (12, 0.026), (7, 0.013),
   (2, 0.006), (-3, 0.002), (-8, 0.001)]

/-- The loop, resdx/models/title24.py:434-459. -/
def hspfLoop (cd : K) (P : Points K) : List (K × K) → K × K → Py (K × K)
  | [], acc => .ok acc
  | (t, n) :: l, acc => do
    let (e, q) ← hspfBin cd P t n
    hspfLoop cd P l (acc.1 + e, acc.2 + q)

/-- The rating from the points, resdx/models/title24.py:389-461 (in Btu/Wh). -/
def hspfOf (U : Unit24 K) (P : Points K) : Py K := do
  let (e, q) ← hspfLoop U.cd P hspfBins (0, 0)
  return (← pdiv q e) / U.u.btuh

/-- `inp35` without the keyword argument `cop35`, resdx/models/title24.py:383-385. -/
def inp35Default (U : Unit24 K) (inp47 inp17 : K) : K :=
  if U.sys.defrost.strategy ≠ .none then (inp17 + 0.6 * (inp47 - inp17)) * 0.985 else inp17 + 0.6 * (inp47 - inp17)

/-- `inp35`, storing `cop35` on the way, resdx/models/title24.py:378-387. -/
def inp35Of (U : Unit24 K) (i : Nat) (cap35 inp47 inp17 : K) : PyM (Data K) K :=
  match U.cop35 with
  | some l => do
    let cop ← PyM.lift (pyGet l i)
    store .cop35 i cop
    PyM.lift (pdiv cap35 cop)
  | none => do
    let cop ← PyM.lift (pdiv cap35 (inp35Default U inp47 inp17))
    store .cop35 i cop
    return inp35Default U inp47 inp17

/-- `check_hspf`, resdx/models/title24.py:369-461. -/
def checkHspf (U : Unit24 K) (i : Nat) (cop17 : K) : PyM (Data K) K := do
  let cap47 ← PyM.lift (pyGet U.sys.netHeating i)
  let cop47 ← PyM.lift (Sys.at_ U.netHeatingCop i)
  let inp47 ← PyM.lift (pdiv cap47 cop47)
  let cap35 ← getCap35 U i
  let cap17 ← getCap17 U i
  let inp17 ← PyM.lift (pdiv cap17 cop17)
  let inp35 ← inp35Of U i cap35 inp47 inp17
  PyM.lift (hspfOf U ⟨cap47, cap35, cap17, inp47, inp35, inp17⟩)

/-! ## Heating: solving for the COP at 17 °F -/

/-- A root search as a strategy: return, fail, or evaluate the function somewhere and continue depending on the value. -/
inductive Search (K : Type)
  | ret (x : K)
  | fail (e : PyErr)
  | eval (x : K) (next : K → Search K)

/-- Running a search on a function with side effects. -/
def Search.run {σ : Type} (f : K → PyM σ K) : Search K → PyM σ K
  | .ret x => pure x
  | .fail e => PyM.raise e
  | .eval x next => do
    let y ← f x
    (next y).run f

/-- `root_fn`, resdx/models/title24.py:482-484. -/
def rootFn (U : Unit24 K) (i : Nat) (cop17 : K) : PyM (Data K) K := do
  let h ← checkHspf U i cop17
  let target ← PyM.lift (pyNum U.inputHspf)
  return h - target

/-- `calculate_cops`, resdx/models/title24.py:471-488; `newton` is the search `optimize.newton` performs from the guess. -/
def calculateCops (newton : K → Search K) (U : Unit24 K) (i : Nat) : PyM (Data K) Unit := do
  ensure U.nHeating .cop35
  ensure U.nHeating .cop17
  let x ← (newton 3).run (rootFn U i)
  store .cop17 i x

/-- `get_cop35` and `get_cop17`, resdx/models/title24.py:490-500. The entry may be `None`. -/
def getCop (newton : K → Search K) (U : Unit24 K) (k : Slot) (i : Nat) : PyM (Data K) (Option K) := fun d =>
  match d k with
  | some l => (pyGet l i, d)
  | none =>
    match calculateCops newton U i d with
    | (.error e, d') => (.error e, d')
    | (.ok _, d') => (entry k i d', d')

/-! ## Heating: performance -/

/-- `gross_steady_state_heating_capacity`, resdx/models/title24.py:337-346. -/
def grossSteadyCapacity (U : Unit24 K) (c : Conditions K) : PyM (Data K) K := do
  let cap47 ← PyM.lift (pyGet U.sys.netHeating c.flow.compressorSpeed)
  let cap17 ← getCap17 U c.flow.compressorSpeed
  let fan ← PyM.lift (Sys.at_ U.heatingFanPower c.flow.compressorSpeed)
  return cap17 + (cap47 - cap17) / (47 - 17) * (toF c.outdoor.db - 17) - fan

/-- The slope of resdx/models/title24.py:353-358 and 535-540. -/
def frostSlope (U : Unit24 K) (c : Conditions K) (v47 v35 v17 : K) : K :=
  if U.sys.defrost.inDefrost c.outdoor.db = true ∧ 17 < toF c.outdoor.db ∧ toF c.outdoor.db < 45 then (v35 - v17) / (35 - 17) else (v47 - v17) / (47 - 17)

/-- `gross_integrated_heating_capacity`, resdx/models/title24.py:348-363. -/
def grossIntegratedCapacity (U : Unit24 K) (c : Conditions K) : PyM (Data K) K := do
  let cap47 ← PyM.lift (pyGet U.sys.netHeating c.flow.compressorSpeed)
  let cap17 ← getCap17 U c.flow.compressorSpeed
  let cap35 ← getCap35 U c.flow.compressorSpeed
  let fan ← PyM.lift (Sys.at_ U.heatingFanPower c.flow.compressorSpeed)
  return cap17 + frostSlope U c cap47 cap35 cap17 * (toF c.outdoor.db - 17) - fan

/-- `gross_steady_state_heating_power`, resdx/models/title24.py:502-518; dividing by an absent COP is a `TypeError`. -/
def grossSteadyPower (newton : K → Search K) (U : Unit24 K) (c : Conditions K) : PyM (Data K) K := do
  let i := c.flow.compressorSpeed
  let cap47 ← PyM.lift (pyGet U.sys.netHeating i)
  let cap17 ← getCap17 U i
  let cop47 ← PyM.lift (Sys.at_ U.netHeatingCop i)
  let cop17 ← getCop newton U .cop17 i
  let inp47 ← PyM.lift (pdiv cap47 cop47)
  let inp17 ← PyM.lift (do pdiv cap17 (← pyNum cop17))
  let fan ← PyM.lift (Sys.at_ U.heatingFanPower i)
  return inp17 + (inp47 - inp17) / (47 - 17) * (toF c.outdoor.db - 17) - fan

/-- `gross_integrated_heating_power`, resdx/models/title24.py:520-545. -/
def grossIntegratedPower (newton : K → Search K) (U : Unit24 K) (c : Conditions K) : PyM (Data K) K := do
  let i := c.flow.compressorSpeed
  let cap47 ← PyM.lift (pyGet U.sys.netHeating i)
  let cap35 ← getCap35 U i
  let cap17 ← getCap17 U i
  let cop47 ← PyM.lift (Sys.at_ U.netHeatingCop i)
  let cop35 ← getCop newton U .cop35 i
  let cop17 ← getCop newton U .cop17 i
  let inp47 ← PyM.lift (pdiv cap47 cop47)
  let inp35 ← PyM.lift (do pdiv cap35 (← pyNum cop35))
  let inp17 ← PyM.lift (do pdiv cap17 (← pyNum cop17))
  let fan ← PyM.lift (Sys.at_ U.heatingFanPower i)
  return inp17 + frostSlope U c inp47 inp35 inp17 * (toF c.outdoor.db - 17) - fan

/-! ## Constructor: default fan -/

/-- What `set_fan` leaves behind: airflows and efficacies of the fan, rated airflows, fan powers and fan speeds of the two modes. -/
structure DefaultFan (K : Type) where
  airflows : List K
  efficacies : List K
  coolingAirflow : List (Option K)
  heatingAirflow : List (Option K)
  coolingFanPower : List (Option K)
  heatingFanPower : List (Option K)
  coolingFanSpeed : List Nat
  heatingFanSpeed : List Nat
  deriving DecidableEq

/-- One pass of a loop of `set_fan`, resdx/models/title24.py:582-594 and 596-608: `airs` and `pows` are the placeholder arrays of the mode. The flag
`set_…_fan_speed` only exists if no fan-speed map was supplied (`supplied` = it was), otherwise testing it raises `UnboundLocalError`. -/
def fanLoop (eff : K) (perCap : List K) (supplied : Bool) : List K → Nat → List K × List (Option K) × List (Option K) × List Nat × Nat →
    Py (List K × List (Option K) × List (Option K) × List Nat × Nat)
  | [], _, acc => .ok acc
  | cap :: caps, i, (flows, airs, pows, speeds, next) => do
    let a := cap * (← pyGet perCap i)
    let airs ← pySet airs i (some a)
    let pows ← pySet pows i (some (a * eff))
    if supplied then .error .unboundLocal
    else fanLoop eff perCap supplied caps (i + 1) (flows ++ [a], airs, pows, speeds ++ [next], next + 1)

/-- `set_rated_fan_characteristics(None)` and `set_fan(None)`, resdx/models/title24.py:547-559, 561-613, up to the construction of the `ConstantEfficacyFan`. Both loops run over
the cooling capacities. -/
def setFan (u : Units K) (nCooling nHeating : Nat) (netCooling : List K) (suppliedC suppliedH : Bool) : Py (DefaultFan K) := do
  let perCap := [350 * u.cfm / u.ton]
  let eff ← fanEfficacyRated u (350 * u.cfm / u.ton)
  let (flowsC, airC, powC, spC, next) ← fanLoop eff perCap suppliedC netCooling 0 ([], List.replicate nCooling none, List.replicate nCooling none, [], 0)
  let (flowsH, airH, powH, spH, _) ← fanLoop eff perCap suppliedH netCooling 0 ([], List.replicate nHeating none, List.replicate nHeating none, [], next)
  return { airflows := flowsC ++ flowsH, efficacies := List.replicate (flowsC ++ flowsH).length eff
           coolingAirflow := airC, heatingAirflow := airH, coolingFanPower := powC, heatingFanPower := powH
           coolingFanSpeed := spC, heatingFanSpeed := spH }

end Resdx.Title24
