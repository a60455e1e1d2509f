import Verif.Model.System
import Verif.Model.Seer
import Verif.Model.ResnetFan

/-!
# Model of the rating conditions of a unit, `resdx/dx_unit.py`

`set_rating_conditions`, `set_rating_standard` and `reset_rated_flow_rates`. The conditions are separate objects, each made by its own `make_condition` call, so they are
values here.
-/

namespace Resdx.Ratings

open BaseModel

variable {K : Type} [Field K] [LinearOrder K]

/-! ## Making the conditions -/

/-- A compressor speed used as a list index: `None` is a `TypeError`. -/
def speedIndex (s : Option Nat) : Py Nat := pyNum s

section
variable (E : Env K) (S : Sys K)

/-- `make_condition(CoolingConditions or HeatingConditions, outdoor=PsychState(drybulb=.., wetbulb=..), compressor_speed=..)` with temperatures in °F. -/
def testAt (heating : Bool) (speed : Nat) (db wb : K) : Py (Conditions K) :=
  S.makeCondition E heating speed none (some (wetState E.atm (frF db) (frF wb)))

/-- `set_rating_conditions`, resdx/dx_unit.py:389-479, once `rated_full_flow_external_static_pressure` is known (`S.fullESP`). `rc` and `rh` are the speed indices of the two modes.
-/
def setRatingConditions (st : Staging) (rc rh : Roles) : Py (DX.Points (Conditions K)) := do
  let aFull ← S.makeCondition E false rc.full
  let bFull ← testAt E S false rc.full 82 65
  let h1Full ← S.makeCondition E true rh.full
  let h2Full ← testAt E S true rh.full 35 33
  let h3Full ← testAt E S true rh.full 17 15
  let h4Full ← testAt E S true rh.full 5 3
  let P : DX.Points (Conditions K) :=
    { aFull, bFull, h1Full, h2Full, h3Full, h4Full, aInt := none, eInt := none, h2Int := none, aBoost := none, aLow := none, bLow := none, fLow := none
      h0Low := none, h1Low := none, h2Low := none, h3Low := none }
  if st = .single then return P
  else intermediate P >>= boost >>= low
where
  /-- Lines 422-441. -/
  intermediate (P : DX.Points (Conditions K)) : Py (DX.Points (Conditions K)) :=
    if st = .varSpeed then do
      let aInt ← S.makeCondition E false rc.intermediate
      let eInt ← testAt E S false rc.intermediate 87 69
      let h2Int ← testAt E S true rh.intermediate 35 33
      return { P with aInt := some aInt, eInt := some eInt, h2Int := some h2Int }
    else .ok P
  /-- Lines 443-446. -/
  boost (P : DX.Points (Conditions K)) : Py (DX.Points (Conditions K)) :=
    match rc.boost with
    | none => .ok P
    | some b => do return { P with aBoost := some (← S.makeCondition E false b) }
  /-- Lines 448-479. -/
  low (P : DX.Points (Conditions K)) : Py (DX.Points (Conditions K)) := do
    let c ← speedIndex rc.low
    let aLow ← S.makeCondition E false c
    let bLow ← testAt E S false c 82 65
    let fLow ← testAt E S false c 67 53.5
    let h ← speedIndex rh.low
    let h0Low ← testAt E S true h 62 56.5
    let h1Low ← S.makeCondition E true h
    let h2Low ← testAt E S true h 35 33
    let h3Low ← testAt E S true h 17 15
    return { P with aLow := some aLow, bLow := some bLow, fLow := some fLow, h0Low := some h0Low, h1Low := some h1Low, h2Low := some h2Low, h3Low := some h3Low }

end

/-- `set_rating_standard`, resdx/dx_unit.py:674-677 with 389-392: the rating pressure and the conditions afterwards. An exception can only come from data no unit
is constructed with, so the state after one is not modelled. -/
def setRatingStandard (u : Units K) (E : Env K) (S : Sys K) (ducted : Bool) (st : Staging) (rc rh : Roles) (std : ResnetFan.Standard) :
    Py (Sys K × DX.Points (Conditions K)) := do
  let p ← ResnetFan.fullFlowPressure u ducted std S.netCooling
  let S := { S with fullESP := p }
  return (S, ← setRatingConditions E S st rc rh)

/-! ## Resetting the rated airflows -/

/-- The rating conditions by name. -/
inductive Test
  | aFull | bFull | h1Full | h2Full | h3Full | h4Full | aInt | eInt | h2Int | aBoost | aLow | bLow | fLow | h0Low | h1Low | h2Low | h3Low
  deriving DecidableEq

/-- `self.…_cond`, `none` if the attribute does not exist. -/
def get {C : Type} (P : DX.Points C) : Test → Option C
  | .aFull => some P.aFull | .bFull => some P.bFull | .h1Full => some P.h1Full | .h2Full => some P.h2Full | .h3Full => some P.h3Full | .h4Full => some P.h4Full
  | .aInt => P.aInt | .eInt => P.eInt | .h2Int => P.h2Int | .aBoost => P.aBoost | .aLow => P.aLow | .bLow => P.bLow | .fLow => P.fLow
  | .h0Low => P.h0Low | .h1Low => P.h1Low | .h2Low => P.h2Low | .h3Low => P.h3Low

/-- The conditions after the object `self.…_cond` has become `c`. -/
def put {C : Type} (P : DX.Points C) (c : C) : Test → DX.Points C
  | .aFull => { P with aFull := c } | .bFull => { P with bFull := c } | .h1Full => { P with h1Full := c } | .h2Full => { P with h2Full := c }
  | .h3Full => { P with h3Full := c } | .h4Full => { P with h4Full := c } | .aInt => { P with aInt := some c } | .eInt => { P with eInt := some c }
  | .h2Int => { P with h2Int := some c } | .aBoost => { P with aBoost := some c } | .aLow => { P with aLow := some c } | .bLow => { P with bLow := some c }
  | .fLow => { P with fLow := some c } | .h0Low => { P with h0Low := some c } | .h1Low => { P with h1Low := some c } | .h2Low => { P with h2Low := some c }
  | .h3Low => { P with h3Low := some c }

/-- What `reset_rated_flow_rates` calls on the fan: `add_speed(airflow, pressure)` and `number_of_speeds` (a natural number here). -/
structure FanOps (σ K : Type) where
  add : K → K → PyM σ Unit
  count : σ → Nat

/-- The fan and the rating conditions of the unit. -/
abbrev State (σ K : Type) := σ × DX.Points (Conditions K)

/-- `self.…_cond.set_new_fan_speed(new_fan_speed, airflow)`. -/
def newFanSpeed {σ : Type} (fanSpeed : Nat) (airflow : K) (t : Test) : PyM (State σ K) Unit := fun s =>
  match get s.2 t with
  | none => (.error .attribute, s)
  | some c => ((Cond.setNewFanSpeed fanSpeed airflow c.flow).1, (s.1, put s.2 { c with flow := (Cond.setNewFanSpeed fanSpeed airflow c.flow).2 } t))

/-- The same call on several conditions in turn. -/
def newFanSpeeds {σ : Type} (fanSpeed : Nat) (airflow : K) : List Test → PyM (State σ K) Unit
  | [] => pure ()
  | t :: ts => do
    newFanSpeed fanSpeed airflow t
    newFanSpeeds fanSpeed airflow ts

/-- The conditions changed for cooling speed `i`, resdx/dx_unit.py:534-543. -/
def coolingTests (r : Roles) (i : Nat) : List Test :=
  (if i = r.full then [.aFull, .bFull] else []) ++ (if i = r.intermediate then [.aInt, .eInt] else []) ++
    (if some i = r.low then [.aLow, .bLow, .fLow] else [])

/-- The conditions changed for heating speed `i`, resdx/dx_unit.py:556-567. -/
def heatingTests (r : Roles) (i : Nat) : List Test :=
  (if i = r.full then [.h1Full, .h2Full, .h3Full, .h4Full] else []) ++ (if i = r.intermediate then [.h2Int] else []) ++
    (if some i = r.low then [.h0Low, .h1Low, .h2Low, .h3Low] else [])

/-- One loop of `reset_rated_flow_rates`, resdx/dx_unit.py:526-543, 549-567. -/
def resetLoop {σ : Type} (F : FanOps σ K) (S : Sys K) (caps : List K) (full : K) (tests : Nat → List Test) : List K → Nat → PyM (State σ K) Unit
  | [], _ => pure ()
  | a :: l, i => do
    let cap ← PyM.lift (pyGet caps i)
    let pressure ← PyM.lift (S.ratedPressure (cap * a) full)
    PyM.zoom Prod.fst (fun f s => (f, s.2)) (F.add (cap * a) pressure)
    let s ← PyM.get
    newFanSpeeds (F.count s.1 - 1) (cap * a) (tests i)
    resetLoop F S caps full tests l (i + 1)

/-- One mode of `reset_rated_flow_rates`, resdx/dx_unit.py:521-543 and 545-567, the argument already a list. -/
def resetMode {σ : Type} (F : FanOps σ K) (S : Sys K) (caps : List K) (tests : Nat → List Test) (perCap : List K) : PyM (State σ K) Unit := do
  let q ← PyM.lift (pyGet caps 0)
  let a ← PyM.lift (pyGet perCap 0)
  resetLoop F S caps (q * a) tests perCap 0

/-- `reset_rated_flow_rates`, resdx/dx_unit.py:505-567. -/
def resetRatedFlowRates {σ : Type} (F : FanOps σ K) (S : Sys K) (rc rh : Roles) (cooling heating : NumArg K) : PyM (State σ K) Unit := do
  resetMode F S S.netCooling (coolingTests rc) (perSpeed rc.n cooling)
  resetMode F S S.netHeating (heatingTests rh) (perSpeed rh.n heating)

/-! ## The fans -/

/-- `ConstantEfficacyFan.add_speed(airflow, efficacy=None, external_static_pressure=None)` called with two positional arguments, resdx/dx_unit.py:531 and
resdx/fan.py:409-412: the second one, a pressure, is the efficacy. -/
noncomputable def constEffOps : FanOps Fan.ConstEff ℝ where
  add a p := Fan.ConstEff.addSpeed a (some p)
  count s := s.base.n.toNat

/-- `PSCFan.add_speed`, resdx/fan.py:453-474. -/
noncomputable def pscOps (u : Units ℝ) : FanOps Fan.PSC ℝ where
  add a p := Fan.PSC.addSpeed u a (some p)
  count s := s.base.n.toNat

/-- `ECMFlowFan.add_speed`, resdx/fan.py:561-567. -/
noncomputable def ecmOps : FanOps Fan.ECM ℝ where
  add a p := Fan.ECM.addSpeed a (some p)
  count s := s.base.n.toNat

/-- `add_speed` of the EERE fans, resdx/fan.py. -/
noncomputable def eereOps (u : Units ℝ) (kind : Fan.EEREKind) : FanOps Fan.EERE ℝ where
  add a p := Fan.EERE.addSpeed u kind a (some p)
  count s := s.base.n.toNat

end Resdx.Ratings
