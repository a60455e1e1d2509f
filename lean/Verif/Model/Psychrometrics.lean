import Verif.Model.Units

/-!
# Model of `resdx/psychrometrics.py`

`PsychState` is a mutable object with lazily filled caches. Each `(_x, x_set)` pair is one optional field: `_x` is only
ever read under `x_set`.
-/

namespace Resdx.Psych

variable {K : Type} [Field K]

/-- The psychrolib correlations used by resdx (third-party code, arbitrary parameters; temperatures in °C).
`relHumFromTWetBulb` is not called by resdx; it names the quantity that `rh` is documented to be. -/
structure PsychLib (K : Type) where
  humRatioFromTWetBulb : K → K → K → Py K
  tWetBulbFromHumRatio : K → K → K → Py K
  tWetBulbFromRelHum : K → K → K → Py K
  moistAirEnthalpy : K → K → Py K
  humRatioFromEnthalpyAndTDryBulb : K → K → Py K
  moistAirDensity : K → K → K → Py K
  relHumFromTWetBulb : K → K → K → Py K

/-- `PsychState`, resdx/psychrometrics.py:9-25. `wb` holds `_wb` (with `wb_C`), set iff `wb_set`. `C_p` is a constant and
`dp_set` is never used; both are left out. -/
structure PsychState (K : Type) where
  db : K
  dbC : K
  p : K
  wb : Option K
  wbC : Option K
  hr : Option K
  rh : Option K
  h : Option K
  rho : Option K
  deriving DecidableEq

/-- `wb` setter, resdx/psychrometrics.py:49-53. -/
def setWb (wb : K) : PyM (PsychState K) Unit :=
  PyM.modify fun s => { s with wb := some wb, wbC := some (toC wb) }

/-- `wb` getter, resdx/psychrometrics.py:43-47. -/
def getWb : PyM (PsychState K) K := do
  match (← PyM.get).wb with
  | some v => return v
  | none => PyM.raise .runtime

/-- `get_wb_C`, resdx/psychrometrics.py:55-59. -/
def getWbC : PyM (PsychState K) K := do
  match (← PyM.get).wbC with
  | some v => return v
  | none => PyM.raise .runtime

/-- `hr` setter, resdx/psychrometrics.py:71-80. -/
def setHr (lib : PsychLib K) (hr : K) : PyM (PsychState K) Unit := do
  let s ← PyM.get
  if s.wb.isNone then
    let w ← lib.tWetBulbFromHumRatio s.dbC hr s.p
    setWb (frC w)
  PyM.modify fun s => { s with hr := some hr }

/-- `hr` getter, resdx/psychrometrics.py:61-69. -/
def getHr (lib : PsychLib K) : PyM (PsychState K) K := do
  let s ← PyM.get
  match s.hr with
  | some v => return v
  | none =>
    let wbC ← getWbC
    let v ← lib.humRatioFromTWetBulb s.dbC wbC s.p
    setHr lib v
    return v

/-- `rh` setter, resdx/psychrometrics.py:92-99. -/
def setRh (lib : PsychLib K) (rh : K) : PyM (PsychState K) Unit := do
  let s ← PyM.get
  if s.wb.isNone then
    let w ← lib.tWetBulbFromRelHum s.dbC rh s.p
    setWb (frC w)
  PyM.modify fun s => { s with rh := some rh }

/-- `rh` getter, resdx/psychrometrics.py:82-90 (it calls the humidity-ratio correlation). -/
def getRh (lib : PsychLib K) : PyM (PsychState K) K := do
  let s ← PyM.get
  match s.rh with
  | some v => return v
  | none =>
    let wbC ← getWbC
    let v ← lib.humRatioFromTWetBulb s.dbC wbC s.p
    setRh lib v
    return v

/-- `h` setter, resdx/psychrometrics.py:109-114. -/
def setH (lib : PsychLib K) (h : K) : PyM (PsychState K) Unit := do
  let s ← PyM.get
  if s.hr.isNone then
    let w ← lib.humRatioFromEnthalpyAndTDryBulb h s.dbC
    setHr lib w
  PyM.modify fun s => { s with h := some h }

/-- `h` getter, resdx/psychrometrics.py:101-107. -/
def getH (lib : PsychLib K) : PyM (PsychState K) K := do
  let s ← PyM.get
  match s.h with
  | some v => return v
  | none =>
    let hr ← getHr lib
    let v ← lib.moistAirEnthalpy s.dbC hr
    setH lib v
    return v

/-- `rho` setter, resdx/psychrometrics.py:124-127. -/
def setRho (rho : K) : PyM (PsychState K) Unit :=
  PyM.modify fun s => { s with rho := some rho }

/-- `rho` getter, resdx/psychrometrics.py:116-122. -/
def getRho (lib : PsychLib K) : PyM (PsychState K) K := do
  let s ← PyM.get
  match s.rho with
  | some v => return v
  | none =>
    let hr ← getHr lib
    let v ← lib.moistAirDensity s.dbC hr s.p
    setRho v
    return v

/-- The object before keyword processing, resdx/psychrometrics.py:10-24. -/
def blank (drybulb pressure : K) : PsychState K :=
  { db := drybulb, dbC := toC drybulb, p := pressure
    wb := none, wbC := none, hr := none, rh := none, h := none, rho := none }

/-- `PsychState.__init__`, resdx/psychrometrics.py:10-41. `kwargs` is a Python dict (distinct keys). -/
def init (lib : PsychLib K) (drybulb pressure : K) (kwargs : List (String × K)) :
    Py (PsychState K) :=
  if kwargs.length > 1 then .error .runtime
  else
    let run : PyM (PsychState K) Unit :=
      match kwargs.lookup "wetbulb" with
      | some v => setWb v
      | none =>
      match kwargs.lookup "hum_rat" with
      | some v => setHr lib v
      | none =>
      match kwargs.lookup "rel_hum" with
      | some v => setRh lib v
      | none =>
      match kwargs.lookup "enthalpy" with
      | some v => setH lib v
      | none => PyM.raise .runtime
    match run (blank drybulb pressure) with
    | (.ok (), s) => .ok s
    | (.error e, _) => .error e

/-- The readable properties. -/
inductive Read | db | dbC | p | wb | wbC | hr | rh | h | rho
  deriving DecidableEq

/-- Reading a property. -/
def read (lib : PsychLib K) : Read → PyM (PsychState K) K
  | .db => do return (← PyM.get).db
  | .dbC => do return (← PyM.get).dbC
  | .p => do return (← PyM.get).p
  | .wb => getWb
  | .wbC => getWbC
  | .hr => getHr lib
  | .rh => getRh lib
  | .h => getH lib
  | .rho => getRho lib

/-- The state after a sequence of reads, failing ones included (the exception is caught by the caller). -/
def afterReads (lib : PsychLib K) : List Read → PsychState K → PsychState K
  | [], s => s
  | r :: rs, s => afterReads lib rs (read lib r s).2

end Resdx.Psych
