import Verif.Py

/-!
# Model of `resdx/conditions.py`

The two `PsychState`s enter the airflow methods only through `indoor.rho` and the constant `STANDARD_CONDITIONS.rho`;
reading `rho` is observationally pure (C05), so both are plain numbers here. `outdoor` and the remaining psychrometric
values of a condition appear in `Verif.Model.DXUnit`.
-/

namespace Resdx.Cond

variable {K : Type} [Field K] [LinearOrder K]

/-- `OperatingConditions`, resdx/conditions.py:5-19. Attributes that are only created by later calls are optional. -/
structure OpCond (K : Type) where
  /-- `self.indoor.rho` -/
  rhoIn : K
  /-- `STANDARD_CONDITIONS.rho` -/
  rhoStd : K
  compressorSpeed : Nat
  fanSpeed : Option Nat
  /-- `rated_flow_external_static_pressure` (may be `None`) -/
  ratedESP : Option K
  ratedAirflowSet : Bool
  ratedNetCapacity : Option K
  ratedStdVol : Option K
  ratedVol : Option K
  ratedMass : Option K
  vol : Option K
  mass : Option K
  stdVol : Option K
  ratio : Option K
  stdVolPerCap : Option K
  esp : Option K
  deriving DecidableEq

/-- `OperatingConditions.__init__`, resdx/conditions.py:6-19. -/
def init (rhoIn rhoStd : K) (compressorSpeed : Nat) (fanSpeed : Option Nat) (ratedESP : Option K) :
    OpCond K :=
  { rhoIn, rhoStd, compressorSpeed, fanSpeed, ratedESP, ratedAirflowSet := false
    ratedNetCapacity := none, ratedStdVol := none, ratedVol := none, ratedMass := none
    vol := none, mass := none, stdVol := none, ratio := none, stdVolPerCap := none, esp := none }

/-- `set_volumetric_airflow`, resdx/conditions.py:35-48. -/
def setVolumetricAirflow (v : K) : PyM (OpCond K) Unit := do
  PyM.modify fun s => { s with vol := some v }
  PyM.modify fun s => { s with mass := some (v * s.rhoIn) }
  let s ← PyM.get
  let std ← pdiv (← pyAttr s.mass) s.rhoStd
  PyM.modify fun s => { s with stdVol := some std }
  if s.ratedAirflowSet then
    let r ← pdiv (← pyAttr s.mass) (← pyAttr s.ratedMass)
    PyM.modify fun s => { s with ratio := some r }
    let c ← pdiv std (← pyAttr s.ratedNetCapacity)
    PyM.modify fun s => { s with stdVolPerCap := some c }
    match s.ratedESP with
    | some pr => PyM.modify fun s => { s with esp := some (pr * r ^ 2) }
    | none => pure ()

/-- `set_rated_volumetric_airflow`, resdx/conditions.py:21-33. -/
def setRatedVolumetricAirflow (ratedVol ratedCap : K) : PyM (OpCond K) Unit := do
  PyM.modify fun s => { s with ratedNetCapacity := some ratedCap }
  PyM.modify fun s => { s with ratedStdVol := some ratedVol }
  let s ← PyM.get
  let rv ← pdiv (ratedVol * s.rhoStd) s.rhoIn
  PyM.modify fun s => { s with ratedVol := some rv }
  PyM.modify fun s => { s with ratedMass := some (rv * s.rhoIn) }
  PyM.modify fun s => { s with ratedAirflowSet := true }
  setVolumetricAirflow rv

/-- `set_standard_volumetric_airflow`, resdx/conditions.py:50-65. -/
def setStandardVolumetricAirflow (v : K) : PyM (OpCond K) Unit := do
  PyM.modify fun s => { s with stdVol := some v }
  let s ← PyM.get
  let vol ← pdiv (v * s.rhoStd) s.rhoIn
  PyM.modify fun s => { s with vol := some vol }
  let m := vol * s.rhoIn
  PyM.modify fun s => { s with mass := some m }
  if s.ratedAirflowSet then
    let r ← pdiv m (← pyAttr s.ratedMass)
    PyM.modify fun s => { s with ratio := some r }
    let c ← pdiv v (← pyAttr s.ratedNetCapacity)
    PyM.modify fun s => { s with stdVolPerCap := some c }
    match s.ratedESP with
    | some pr => PyM.modify fun s => { s with esp := some (pr * r ^ 2) }
    | none => pure ()

/-- `set_mass_airflow`, resdx/conditions.py:67-82. The pressure uses the ratio left by earlier calls and the new ratio is
`rated / mass`, as in the source. -/
def setMassAirflow (m : K) : PyM (OpCond K) Unit := do
  PyM.modify fun s => { s with mass := some m }
  let s ← PyM.get
  match s.ratedESP with
  | some pr =>
    let r ← pyAttr s.ratio
    PyM.modify fun s => { s with esp := some (pr * r ^ 2) }
  | none => pure ()
  if s.ratedAirflowSet then
    let r ← pdiv (← pyAttr s.ratedMass) m
    PyM.modify fun s => { s with ratio := some r }
    let v ← pdiv m s.rhoIn
    PyM.modify fun s => { s with vol := some v }
    let std ← pdiv m s.rhoStd
    PyM.modify fun s => { s with stdVol := some std }
    let c ← pdiv std (← pyAttr s.ratedNetCapacity)
    PyM.modify fun s => { s with stdVolPerCap := some c }

/-- `set_mass_airflow_ratio`, resdx/conditions.py:84-99. -/
def setMassAirflowRatio (r : K) : PyM (OpCond K) Unit := do
  PyM.modify fun s => { s with ratio := some r }
  let s ← PyM.get
  match s.ratedESP with
  | some pr => PyM.modify fun s => { s with esp := some (pr * r ^ 2) }
  | none => pure ()
  if s.ratedAirflowSet then
    let m := r * (← pyAttr s.ratedMass)
    PyM.modify fun s => { s with mass := some m }
    let v ← pdiv m s.rhoIn
    PyM.modify fun s => { s with vol := some v }
    let std ← pdiv m s.rhoStd
    PyM.modify fun s => { s with stdVol := some std }
    let c ← pdiv std (← pyAttr s.ratedNetCapacity)
    PyM.modify fun s => { s with stdVolPerCap := some c }

/-- `set_new_fan_speed`, resdx/conditions.py:101-103. -/
def setNewFanSpeed (fanSpeed : Nat) (airflow : K) : PyM (OpCond K) Unit := do
  PyM.modify fun s => { s with fanSpeed := some fanSpeed }
  setStandardVolumetricAirflow airflow

/-- The airflow-setting calls of the class other than `set_mass_airflow`. -/
inductive Op (K : Type)
  | rated (airflow capacity : K)
  | volumetric (v : K)
  | standard (v : K)
  | ratio (r : K)
  | newFanSpeed (speed : Nat) (airflow : K)

/-- Performing a call. -/
def Op.run : Op K → PyM (OpCond K) Unit
  | .rated a c => setRatedVolumetricAirflow a c
  | .volumetric v => setVolumetricAirflow v
  | .standard v => setStandardVolumetricAirflow v
  | .ratio r => setMassAirflowRatio r
  | .newFanSpeed f a => setNewFanSpeed f a

end Resdx.Cond
