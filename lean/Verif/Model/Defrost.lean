import Verif.Model.Units

/-! # Model of `resdx/defrost.py` -/

namespace Resdx

/-- `DefrostControl`, resdx/defrost.py:8-11. -/
inductive DefrostControl | none | timed | demand
  deriving DecidableEq

/-- `DefrostStrategy`, resdx/defrost.py:14-17. -/
inductive DefrostStrategy | none | reverseCycle | resistive
  deriving DecidableEq

variable {K : Type} [Field K] [LinearOrder K]

/-- `Defrost`, resdx/defrost.py:20-41. `time_fraction` is a function of the conditions; it is used by the EPRI model only and is
a parameter there. -/
structure Defrost (K : Type) where
  resistivePower : K
  control : DefrostControl
  strategy : DefrostStrategy
  highTemperature : K
  lowTemperature : Option K
  period : K
  maxTime : K
  deriving DecidableEq

namespace Defrost

/-- `Defrost.__init__`, resdx/defrost.py:31-46: the input check (`sys.exit`). -/
def init (d : Defrost K) : Py (Defrost K) :=
  if d.strategy = .resistive ∧ d.resistivePower ≤ 0 then .error .systemExit else .ok d

/-- Default arguments of the constructor, resdx/defrost.py:21-30. -/
def default (u : Units K) : Defrost K :=
  { resistivePower := 0, control := .timed, strategy := .reverseCycle
    highTemperature := frF 41, lowTemperature := none
    period := 90 * u.minute, maxTime := 720 * u.minute }

/-- `in_defrost`, resdx/defrost.py:48-60; `db` is `conditions.outdoor.db`. -/
def inDefrost (d : Defrost K) (db : K) : Bool :=
  if d.strategy = .none then false
  else match d.lowTemperature with
    | some low => if low < db ∧ db < d.highTemperature then true else false
    | none => if db < d.highTemperature then true else false

/-- `demand_credit`, resdx/defrost.py:62-71. -/
def demandCredit (u : Units K) (d : Defrost K) : Py K :=
  if d.control = .demand then do
    let tTest := max d.period (90 * u.minute)
    let tMax := min d.maxTime (720 * u.minute)
    let x ← pdiv (tTest - 90 * u.minute) (tMax - 90 * u.minute)
    return 1 + 0.03 * (1 - x)
  else return 1

end Defrost
end Resdx
