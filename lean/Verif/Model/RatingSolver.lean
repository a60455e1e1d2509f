import Verif.Model.ResnetBuild

/-!
# Model of `resdx/rating_solver.py`

`make_rating_unit` runs `scipy.optimize.newton` on a function that constructs a unit and rates it. The solver is a parameter (`Coil.Newton`): a function of the residual and the first guess.
-/

namespace Resdx.Build

open BaseModel Fan ResnetFan

/-- `AHRIVersion`, resdx/dx_unit.py:48-50, as `hspf` reads it. -/
def hspfStandard : ResnetFan.Standard → DX.RatingStandard
  | .ahri2017 => .ahri2017
  | .ahri2023 => .ahri2023

/-- The attributes `hspf` reads besides the performance functions. -/
noncomputable def Built.heatSettings (B : Built) : DX.HeatSettings ℝ :=
  { st := B.core.st, cd := B.cdHeating, cyc := B.cycling, off := B.heatingOff, on := B.heatingOn }

/-- `unit.hspf(region)`, resdx/dx_unit.py:1080-1376. -/
noncomputable def Built.hspf (u : Units ℝ) (E : Env ℝ) (T : Coil.Tools) (brentq : Brentq) (B : Built) (region : Nat := 4) : Py ℝ :=
  DX.hspf (B.unit u E T brentq) B.points u (hspfStandard B.standard) B.heatSettings B.sys.defrost region

/-- The arguments of `make_rating_unit`, resdx/rating_solver.py:10-22. The default of `q95`, three tons, depends on the units of measure and is left to the caller. -/
structure Request where
  staging : Staging
  seer : ℝ
  hspf : ℝ
  eer : Option ℝ := none
  q95 : ℝ
  q47 : Option ℝ := none
  qm17 : ℝ := 0.63
  tMin : Option ℝ := none
  tMax : ℝ := frF 125
  tDefrost : ℝ := frF 40
  standard : ResnetFan.Standard := .ahri2023

/-- `Defrost(high_temperature=t_defrost)`, resdx/defrost.py:21-31 and resdx/rating_solver.py:47, 69, 88. -/
noncomputable def requestDefrost (u : Units ℝ) (t : ℝ) : Defrost ℝ :=
  { resistivePower := 0, control := .timed, strategy := .reverseCycle, highTemperature := t, lowTemperature := none, period := 90 * u.minute, maxTime := 720 * u.minute }

/-- The keyword arguments of the three `DXUnit` calls, resdx/rating_solver.py:34-47, 54-68, 73-87; the first call has no heating COP. -/
noncomputable def requestArgs (u : Units ℝ) (R : Request) (cop82 : ℝ) (cop47 : Option ℝ) : Args :=
  { staging := some R.staging, standard := R.standard, cooling := .num R.q95, heating := R.q47, heating17 := some (R.q47.getD R.q95 * R.qm17), seer := some R.seer, eer := R.eer, hspf := some R.hspf
    netHeatingCop := cop47, cop82 := some cop82, coolingOff := R.tMax, heatingOff := R.tMin, defrost := requestDefrost u R.tDefrost }

/-- The function whose root is the COP at 82 °F, resdx/rating_solver.py:33-50. -/
noncomputable def seerResidual (u : Units ℝ) (E : Env ℝ) (T : Coil.Tools) (brentq : Brentq) (R : Request) (cop82 : ℝ) : Py ℝ := do
  let B ← build u E T brentq (requestArgs u R cop82 none)
  return (← B.seer u E T brentq) - R.seer

/-- The function whose root is the COP at 47 °F, resdx/rating_solver.py:53-71. -/
noncomputable def hspfResidual (u : Units ℝ) (E : Env ℝ) (T : Coil.Tools) (brentq : Brentq) (R : Request) (cop82 cop47 : ℝ) : Py ℝ := do
  let B ← build u E T brentq (requestArgs u R cop82 (some cop47))
  return (← B.hspf u E T brentq) - R.hspf

/-- `make_rating_unit`, resdx/rating_solver.py:10-87. -/
noncomputable def makeRatingUnit (u : Units ℝ) (E : Env ℝ) (T : Coil.Tools) (brentq : Brentq) (newton : Coil.Newton) (R : Request) : Py Built := do
  let cop82 ← if R.staging = .single then .ok 3 else newton (seerResidual u E T brentq R) (R.seer / 3)
  let cop47 ← newton (hspfResidual u E T brentq R cop82) (R.hspf / 2)
  build u E T brentq (requestArgs u R cop82 (some cop47))

end Resdx.Build
