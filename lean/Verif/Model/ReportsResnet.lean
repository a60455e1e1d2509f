import Verif.Model.Reports
import Verif.Model.RatingSolver

/-!
# The reports of a constructed RESNET unit
-/

namespace Resdx.Build

open BaseModel Fan ResnetFan

/-- The attributes and methods of a constructed unit its reports read, resdx/dx_unit.py:1378-1408, 1577-1901. The model sets the numbers of speeds, resdx/models/unified_resnet.py:196-263. -/
noncomputable def Built.report (u : Units ℝ) (E : Env ℝ) (T : Coil.Tools) (brentq : Brentq) (B : Built) : Reports.Subject ℝ :=
  { u
    E
    S := B.sys
    U := B.unit u E T brentq
    P := B.points
    st := B.core.st
    rc := { B.core.rc with n := speedCount B.core.st }
    rh := { B.core.rh with n := speedCount B.core.st }
    cdHeating := B.cdHeating
    coolingOff := B.coolingOff
    heatingOff := B.heatingOff
    heatingOn := B.heatingOn
    motor := if B.core.psc then .psc else .bpm
    seer := B.seer u E T brentq
    hspf := fun region => B.hspf u E T brentq region }

end Resdx.Build
