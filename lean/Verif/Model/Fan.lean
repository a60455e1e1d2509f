import Verif.PyReal
import Verif.Model.Units
import Verif.Model.Util

/-!
# Model of `resdx/fan.py`

Everything is over ℝ (`exp`, `log`, square roots and `** 1.75` occur). The metadata of representations are in `Verif/Model/Metadata.lean`, their
identifiers in `Verif/Model/Rep205.lean`. The constructor argument `design_airflow` is a list; the scalar form is the one-element list (resdx/fan.py:61-67 do the
same for both).
-/

namespace Resdx.Fan

open Util

/-- The attributes maintained by the base class `Fan`, resdx/fan.py:49-53, 91. -/
structure Base where
  /-- `design_external_static_pressure` -/
  designESP : ℝ
  /-- `number_of_speeds` -/
  n : Int
  /-- `design_airflow` -/
  airflow : List ℝ
  /-- `design_airflow_ratio` -/
  ratio : List ℝ
  /-- `system_curve_constant` -/
  sysConst : ℝ

/-- `Fan.add_speed`, resdx/fan.py:69-74. -/
noncomputable def Base.addSpeed (a : ℝ) : PyM Base Unit := do
  PyM.modify fun s => { s with airflow := s.airflow ++ [a] }
  PyM.modify fun s => { s with n := s.n + 1 }
  let s ← PyM.get
  let r ← pdiv (← pyGetI s.airflow (-1)) (← pyGetI s.airflow 0)
  PyM.modify fun s => { s with ratio := s.ratio ++ [r] }

/-- `Fan.remove_speed`, resdx/fan.py:76-79. -/
def Base.removeSpeed (i : Int) : PyM Base Unit := do
  let s ← PyM.get
  let l ← pyPopI s.airflow i
  PyM.modify fun s => { s with airflow := l }
  PyM.modify fun s => { s with n := s.n - 1 }
  let l ← pyPopI s.ratio i
  PyM.modify fun s => { s with ratio := l }

/-- `Fan.calculate_system_curve_constant`, resdx/fan.py:90-94 (`SYSTEM_EXPONENT = 0.5`, line 40). -/
noncomputable def systemCurveConstant (designESP nominal : ℝ) : Py ℝ := do
  pdiv (← ppow designESP 0.5) nominal

/-- `Fan.system_pressure`, resdx/fan.py:81-82: the exponent is `1.0 / 0.5 = 2.0`, so Python's `**` is squaring. -/
def Base.systemPressure (b : Base) (airflow : ℝ) : ℝ := (airflow * b.sysConst) ^ 2

/-- `Fan.system_flow`, resdx/fan.py:84-88. -/
noncomputable def Base.systemFlow (b : Base) (p : ℝ) : Py ℝ := do
  pdiv (← ppow p 0.5) b.sysConst

/-- The object before the constructor adds speeds, resdx/fan.py:49-62. -/
noncomputable def Base.start (designESP : ℝ) (airflows : List ℝ) : Py Base := do
  let k ← systemCurveConstant designESP (← pyGet airflows 0)
  return { designESP, n := 0, airflow := [], ratio := [], sysConst := k }

/-- The constructor loop over the design airflows, resdx/fan.py:63-64. -/
def addAll {σ : Type} (add : ℝ → PyM σ Unit) : List ℝ → PyM σ Unit
  | [] => pure ()
  | a :: l => do add a; addAll add l

/-- `scipy.optimize.brentq` as used in resdx/fan.py:145-150 (a parameter; see `BrentqSpec`). -/
abbrev Brentq := (ℝ → Py ℝ) → ℝ → ℝ → Py ℝ

/-- What is assumed of `brentq(f, a, b)`: without a sign change it raises `ValueError`; if `f` is defined and continuous on
`[a, b]` and changes sign (or vanishes at an end) it returns a point of the interval where `f` is zero. The convergence tolerance is
idealised to an exact root. -/
structure BrentqSpec (brentq : Brentq) : Prop where
  no_sign_change : ∀ f a b fa fb, f a = .ok fa → f b = .ok fb → 0 < fa * fb → brentq f a b = .error .value
  root : ∀ (f : ℝ → Py ℝ) (g : ℝ → ℝ) a b, a ≤ b → (∀ x, a ≤ x → x ≤ b → f x = .ok (g x)) →
    ContinuousOn g (Set.Icc a b) → g a * g b ≤ 0 → ∃ r, brentq f a b = .ok r ∧ a ≤ r ∧ r ≤ b ∧ g r = 0

/-- `Fan.operating_pressure` with the default system curve, resdx/fan.py:139-151: `airflowAt` is the subclass's `airflow` at
this setting. -/
noncomputable def operatingPressure (brentq : Brentq) (b : Base) (airflowAt : ℝ → Py ℝ) : Py ℝ :=
  brentq (fun x => do return (← airflowAt x) - (← b.systemFlow x)) 0 (3 * b.designESP)

/-- `if external_static_pressure is None: external_static_pressure = self.operating_pressure(speed_setting)`, the idiom of
resdx/fan.py:488-489, 497-498, 585-586, 593-594, 610-611, 624-625. -/
noncomputable def pressureOr (operating : Py ℝ) : Option ℝ → Py ℝ
  | some p => .ok p
  | none => operating

/-- `Fan.check_power`, resdx/fan.py:153-158, for a subclass given by its `add_speed`, `remove_speed`, `power` and the place of its
`number_of_speeds`. -/
def checkPower {σ : Type} (add : ℝ → PyM σ Unit) (remove : Int → PyM σ Unit)
    (power : σ → Int → Option ℝ → Py ℝ) (nSpeeds : σ → Int) (a : ℝ) (p : Option ℝ) : PyM σ ℝ := do
  add a
  let s ← PyM.get
  let new := nSpeeds s - 1
  let w ← power s new p
  remove new
  return w

/-! ## `ConstantEfficacyFan` -/

/-- `design_efficacy` of a `ConstantEfficacyFan`: a number while the base constructor runs, a list afterwards
(resdx/fan.py:406-407). -/
inductive Efficacies where
  | scalar (e : ℝ)
  | list (l : List ℝ)

/-- `ConstantEfficacyFan`, resdx/fan.py:396-422. -/
structure ConstEff where
  base : Base
  designEfficacy : Efficacies

namespace ConstEff

/-- `super().…` -/
abbrev sup {α : Type} (m : PyM Base α) : PyM ConstEff α := PyM.zoom base (fun b s => { s with base := b }) m

/-- `add_speed`, resdx/fan.py:409-412. -/
noncomputable def addSpeed (a : ℝ) (efficacy : Option ℝ := none) : PyM ConstEff Unit := do
  sup (Base.addSpeed a)
  match efficacy with
  | none => pure ()
  | some e =>
    match (← PyM.get).designEfficacy with
    | .list l => PyM.modify fun s => { s with designEfficacy := .list (l ++ [e]) }
    | .scalar _ => PyM.raise .attribute

/-- `remove_speed`, resdx/fan.py:414-416. -/
noncomputable def removeSpeed (i : Int) : PyM ConstEff Unit := do
  sup (Base.removeSpeed i)
  match (← PyM.get).designEfficacy with
  | .list l =>
    let l' ← pyPopI l i
    PyM.modify fun s => { s with designEfficacy := .list l' }
  | .scalar _ => PyM.raise .attribute

/-- `__init__`, resdx/fan.py:397-407. -/
noncomputable def init (airflows : List ℝ) (designESP : ℝ) (efficacy : Efficacies) : Py ConstEff := do
  let b ← Base.start designESP airflows
  let s ← (addAll (fun a => addSpeed a) airflows).exec { base := b, designEfficacy := efficacy }
  match efficacy with
  | .list _ => return s
  | .scalar e => return { s with designEfficacy := .list (List.replicate s.base.n.toNat e) }

/-- `efficacy`, resdx/fan.py:418-419 (a scalar cannot be indexed). -/
noncomputable def efficacy (s : ConstEff) (i : Int) (_p : Option ℝ) : Py ℝ :=
  match s.designEfficacy with
  | .list l => pyGetI l i
  | .scalar _ => .error .type

/-- `airflow`, resdx/fan.py:421-422. -/
def airflow (s : ConstEff) (i : Int) (_p : Option ℝ) : Py ℝ := pyGetI s.base.airflow i

/-- `Fan.power`, resdx/fan.py:107-110. -/
noncomputable def power (s : ConstEff) (i : Int) (p : Option ℝ) : Py ℝ := do
  return (← s.airflow i p) * (← s.efficacy i p)

/-- `check_power` of this class: `self.add_speed(airflow)` passes no efficacy. -/
noncomputable def checkPower (a : ℝ) (p : Option ℝ) : PyM ConstEff ℝ :=
  Fan.checkPower (fun a => addSpeed a) removeSpeed power (fun s => s.base.n) a p

end ConstEff

/-! ## `PSCFan` -/

/-- `PSCFan`, resdx/fan.py:425-523. -/
structure PSC where
  base : Base
  designEfficacy : ℝ
  /-- `design_airflow_reduction` -/
  designReduction : ℝ
  freeAirflow : List ℝ
  freeRatio : List ℝ
  speedEfficacy : List ℝ
  blockPressure : List ℝ
  freeSpeed : List ℝ

namespace PSC

variable (u : Units ℝ)

/-- `AIRFLOW_COEFFICIENT`, resdx/fan.py:430. -/
noncomputable def coef : ℝ := 10 * u.cfm
/-- `AIRFLOW_EXP_COEFFICIENT`, resdx/fan.py:431. -/
noncomputable def expCoef : ℝ := 5.35 / u.inH2O
/-- `EFFICACY_SLOPE`, resdx/fan.py:432. -/
noncomputable def slope : ℝ := 0.3

/-- `airflow_reduction`, resdx/fan.py:510-513 (float overflow of `exp` not modelled). -/
noncomputable def reduction (p : ℝ) : ℝ := coef u * (Real.exp (p * expCoef u) - 1)

/-- The design airflow stored for a requested airflow, resdx/fan.py:454-460. -/
noncomputable def storedAirflow (s : PSC) (a : ℝ) : Option ℝ → ℝ
  | some p => a - (s.designReduction - reduction u p)
  | none => a

/-- `super().…` -/
abbrev sup {α : Type} (m : PyM Base α) : PyM PSC α := PyM.zoom base (fun b s => { s with base := b }) m

/-- `add_speed`, resdx/fan.py:453-474. -/
noncomputable def addSpeed (a : ℝ) (p : Option ℝ := none) : PyM PSC Unit := do
  let s ← PyM.get
  sup (Base.addSpeed (s.storedAirflow u a p))
  let s ← PyM.get
  let x ← pyGetI s.base.airflow (-1)
  PyM.modify fun s => { s with freeAirflow := s.freeAirflow ++ [x + s.designReduction] }
  let s ← PyM.get
  let r ← pdiv (← pyGetI s.freeAirflow (-1)) (← pyGetI s.freeAirflow 0)
  PyM.modify fun s => { s with freeRatio := s.freeRatio ++ [r] }
  let s ← PyM.get
  let r ← pyGetI s.freeRatio (-1)
  PyM.modify fun s => { s with speedEfficacy := s.speedEfficacy ++ [s.designEfficacy * (1 + slope * (r - 1))] }
  let q ← pdiv (← pyGetI s.freeAirflow (-1)) (coef u)
  let b ← pdiv (← plog (q + 1)) (expCoef u)
  PyM.modify fun s => { s with blockPressure := s.blockPressure ++ [b] }
  PyM.modify fun s => { s with freeSpeed := s.freeSpeed ++ [1040 * u.rpm * r] }

/-- `remove_speed`, resdx/fan.py:476-482. -/
def removeSpeed (i : Int) : PyM PSC Unit := do
  sup (Base.removeSpeed i)
  let l ← pyPopI (← PyM.get).freeAirflow i
  PyM.modify fun s => { s with freeAirflow := l }
  let l ← pyPopI (← PyM.get).freeRatio i
  PyM.modify fun s => { s with freeRatio := l }
  let l ← pyPopI (← PyM.get).speedEfficacy i
  PyM.modify fun s => { s with speedEfficacy := l }
  let l ← pyPopI (← PyM.get).blockPressure i
  PyM.modify fun s => { s with blockPressure := l }
  let l ← pyPopI (← PyM.get).freeSpeed i
  PyM.modify fun s => { s with freeSpeed := l }

/-- `__init__`, resdx/fan.py:434-451. -/
noncomputable def init (airflows : List ℝ) (designESP efficacy : ℝ) : Py PSC := do
  let b ← Base.start designESP airflows
  (addAll (fun a => addSpeed u a) airflows).exec
    { base := b, designEfficacy := efficacy, designReduction := reduction u designESP, freeAirflow := []
      freeRatio := [], speedEfficacy := [], blockPressure := [], freeSpeed := [] }

/-- `airflow` at a given pressure, resdx/fan.py:490-494. -/
noncomputable def airflowAt (s : PSC) (i : Int) (p : ℝ) : Py ℝ := do
  return max ((← pyGetI s.freeAirflow i) - reduction u p) 0

variable (brentq : Brentq)

/-- `operating_pressure`, resdx/fan.py:515-523 (both branches defer to the base class). -/
noncomputable def operatingPressure (s : PSC) (i : Int) : Py ℝ :=
  Fan.operatingPressure brentq s.base (s.airflowAt u i)

/-- `airflow`, resdx/fan.py:487-494. -/
noncomputable def airflow (s : PSC) (i : Int) (p : Option ℝ) : Py ℝ := do
  s.airflowAt u i (← pressureOr (s.operatingPressure u brentq i) p)

/-- `efficacy`, resdx/fan.py:484-485. -/
def efficacy (s : PSC) (i : Int) (_p : Option ℝ) : Py ℝ := pyGetI s.speedEfficacy i

/-- `Fan.power`, resdx/fan.py:107-110. -/
noncomputable def power (s : PSC) (i : Int) (p : Option ℝ) : Py ℝ := do
  return (← s.airflow u brentq i p) * (← s.efficacy i p)

/-- `rotational_speed`, resdx/fan.py:496-508. -/
noncomputable def rotationalSpeed (s : PSC) (i : Int) (p : Option ℝ) : Py ℝ := do
  let p ← pressureOr (s.operatingPressure u brentq i) p
  if (← pyGetI s.blockPressure i) < p then return 1100 * u.rpm
  else
    let f ← pyGetI s.freeSpeed i
    let q ← pdiv ((1100 * u.rpm - (← pyGetI s.freeSpeed i)) * p) (← pyGetI s.blockPressure i)
    return f + q

/-- `check_power` of this class. -/
noncomputable def checkPower (a : ℝ) (p : Option ℝ) : PyM PSC ℝ :=
  Fan.checkPower (fun a => addSpeed u a) removeSpeed (fun s => s.power u brentq) (fun s => s.base.n) a p

end PSC

/-! ## `ECMFlowFan` -/

/-- `ECMFlowFan`, resdx/fan.py:526-631. -/
structure ECM where
  base : Base
  designEfficacy : ℝ
  /-- `maximum_power`; `none` is `math.inf` -/
  maxPower : Option ℝ
  /-- `design_free_efficacy` -/
  designFreeEfficacy : ℝ
  freeEfficacy : List ℝ

namespace ECM

variable (u : Units ℝ)

/-- `EFFICACY_SLOPE_ESP`, resdx/fan.py:529-531. -/
noncomputable def slopeESP : ℝ := 0.235 / u.cfm / u.inH2O
/-- `SPEED_SLOPE_ESP`, resdx/fan.py:532-534. -/
noncomputable def speedSlopeESP : ℝ := 463.5 * u.rpm / u.inH2O

/-- `super().…` -/
abbrev sup {α : Type} (m : PyM Base α) : PyM ECM α := PyM.zoom base (fun b s => { s with base := b }) m

/-- `add_speed`, resdx/fan.py:561-567 (the pressure argument is ignored by the base class). -/
noncomputable def addSpeed (a : ℝ) (_p : Option ℝ := none) : PyM ECM Unit := do
  sup (Base.addSpeed a)
  let r ← pyGetI (← PyM.get).base.ratio (-1)
  PyM.modify fun s => { s with freeEfficacy := s.freeEfficacy ++ [s.designFreeEfficacy * r * r] }

/-- `remove_speed`, resdx/fan.py:569-571. -/
def removeSpeed (i : Int) : PyM ECM Unit := do
  sup (Base.removeSpeed i)
  let l ← pyPopI (← PyM.get).freeEfficacy i
  PyM.modify fun s => { s with freeEfficacy := l }

/-- `__init__`, resdx/fan.py:536-559. -/
noncomputable def init (airflows : List ℝ) (designESP efficacy : ℝ) (maxPower : Option ℝ) : Py ECM := do
  let a0 ← pyGet airflows 0
  match maxPower with
  | some m => if m < a0 * efficacy then throw .runtime
  | none => pure ()
  let b ← Base.start designESP airflows
  (addAll (fun a => addSpeed a) airflows).exec
    { base := b, designEfficacy := efficacy, maxPower
      designFreeEfficacy := efficacy - slopeESP u * designESP, freeEfficacy := [] }

/-- `unconstrained_efficacy`, resdx/fan.py:573-577. -/
noncomputable def unconstrainedEfficacy (s : ECM) (i : Int) (p : ℝ) : Py ℝ := do
  return (← pyGetI s.freeEfficacy i) + slopeESP u * p

/-- `unconstrained_power`, resdx/fan.py:579-582. -/
noncomputable def unconstrainedPower (s : ECM) (i : Int) (p : ℝ) : Py ℝ := do
  return (← pyGetI s.base.airflow i) * (← s.unconstrainedEfficacy u i p)

/-- `power` at a given pressure, resdx/fan.py:587-590. -/
noncomputable def powerAt (s : ECM) (i : Int) (p : ℝ) : Py ℝ := do
  let w ← s.unconstrainedPower u i p
  match s.maxPower with
  | some m => return min w m
  | none => return w

/-- `airflow` at a given pressure, resdx/fan.py:595-607. -/
noncomputable def airflowAt (s : ECM) (i : Int) (p : ℝ) : Py ℝ := do
  if p = 0 then pyGetI s.base.airflow i
  else
    let q ← pdiv (← s.powerAt u i p) (← s.unconstrainedPower u i p)
    let est := (← pyGetI s.base.airflow i) * p * (← ppow q 0.5)
    pdiv est p

variable (brentq : Brentq)

/-- `operating_pressure` (inherited). -/
noncomputable def operatingPressure (s : ECM) (i : Int) : Py ℝ :=
  Fan.operatingPressure brentq s.base (s.airflowAt u i)

/-- `power`, resdx/fan.py:584-590. -/
noncomputable def power (s : ECM) (i : Int) (p : Option ℝ) : Py ℝ := do
  s.powerAt u i (← pressureOr (s.operatingPressure u brentq i) p)

/-- `airflow`, resdx/fan.py:592-607. -/
noncomputable def airflow (s : ECM) (i : Int) (p : Option ℝ) : Py ℝ := do
  s.airflowAt u i (← pressureOr (s.operatingPressure u brentq i) p)

/-- `efficacy` at a given pressure, resdx/fan.py:612-614. -/
noncomputable def efficacyAt (s : ECM) (i : Int) (p : ℝ) : Py ℝ := do
  pdiv (← s.powerAt u i p) (← s.airflowAt u i p)

/-- `efficacy`, resdx/fan.py:609-614. -/
noncomputable def efficacy (s : ECM) (i : Int) (p : Option ℝ) : Py ℝ := do
  s.efficacyAt u i (← pressureOr (s.operatingPressure u brentq i) p)

/-- `unconstrained_rotational_speed`, resdx/fan.py:616-621. -/
noncomputable def unconstrainedRotationalSpeed (s : ECM) (i : Int) (p : ℝ) : Py ℝ := do
  return (1100 * u.rpm - speedSlopeESP u * (s.base.designESP - p)) * (← pyGetI s.base.ratio i)

/-- `rotational_speed`, resdx/fan.py:623-631. -/
noncomputable def rotationalSpeed (s : ECM) (i : Int) (p : Option ℝ) : Py ℝ := do
  let p ← pressureOr (s.operatingPressure u brentq i) p
  let r ← s.unconstrainedRotationalSpeed u i p
  return r * (← pdiv (← s.efficacyAt u i p) (← s.unconstrainedEfficacy u i p))

/-- `check_power` of this class. -/
noncomputable def checkPower (a : ℝ) (p : Option ℝ) : PyM ECM ℝ :=
  Fan.checkPower (fun a => addSpeed a) removeSpeed (fun s => s.power u brentq) (fun s => s.base.n) a p

end ECM

/-! ## EERE fans -/

/-- The concrete EERE classes, resdx/fan.py:719-794. -/
inductive EEREKind where
  | baselinePSC
  | improvedPSC
  | pscWithControls
  | bpmSingleStageConstantTorque
  | bpmMultiStageConstantTorque
  | bpmMultiStageConstantAirflow
  | bpmMultiStageBackwardCurved
  deriving DecidableEq

namespace EEREKind

variable (u : Units ℝ)

/-- `FLOW_COEFFICIENTS`, resdx/fan.py:720, 741, 754, 775 (others inherited). -/
noncomputable def flow : EEREKind → ℝ × ℝ
  | .baselinePSC => (49 * u.cfm / u.inH2O, -570 * u.cfm / u.inH2O ^ 2)
  | .improvedPSC => (49 * u.cfm / u.inH2O, -570 * u.cfm / u.inH2O ^ 2)
  | .pscWithControls => (267 * u.cfm / u.inH2O, -338 * u.cfm / u.inH2O ^ 2)
  | .bpmSingleStageConstantTorque => (-456 * u.cfm / u.inH2O, 8 * u.cfm / u.inH2O ^ 2)
  | .bpmMultiStageConstantTorque => (-456 * u.cfm / u.inH2O, 8 * u.cfm / u.inH2O ^ 2)
  | .bpmMultiStageConstantAirflow => (99 * u.cfm / u.inH2O, -103 * u.cfm / u.inH2O ^ 2)
  | .bpmMultiStageBackwardCurved => (99 * u.cfm / u.inH2O, -103 * u.cfm / u.inH2O ^ 2)

/-- `BASE_EFFICACIES`, resdx/fan.py:721, 733, 742, 755, 767, 776, 790. -/
noncomputable def baseEff : EEREKind → List ℝ
  | .baselinePSC => [0.49 / u.cfm, 0.52 / u.cfm, 0.55 / u.cfm, 0.57 / u.cfm]
  | .improvedPSC => [0.44 / u.cfm, 0.47 / u.cfm, 0.49 / u.cfm, 0.52 / u.cfm]
  | .pscWithControls => [0.25 / u.cfm, 0.27 / u.cfm, 0.29 / u.cfm, 0.31 / u.cfm]
  | .bpmSingleStageConstantTorque => [0.18 / u.cfm, 0.19 / u.cfm, 0.21 / u.cfm, 0.23 / u.cfm]
  | .bpmMultiStageConstantTorque => [0.14 / u.cfm, 0.15 / u.cfm, 0.17 / u.cfm, 0.16 / u.cfm]
  | .bpmMultiStageConstantAirflow => [0.11 / u.cfm, 0.12 / u.cfm, 0.13 / u.cfm, 0.15 / u.cfm]
  | .bpmMultiStageBackwardCurved => [0.09 / u.cfm, 0.10 / u.cfm, 0.11 / u.cfm, 0.12 / u.cfm]

/-- `EFFICACY_COEFFICIENTS`, resdx/fan.py:722-725, 743-746, 756-759, 777-780. -/
noncomputable def effCoef : EEREKind → ℝ × ℝ
  | .baselinePSC => (-0.2 / u.cfm / u.inH2O, 0.19 / u.cfm / u.inH2O ^ 2)
  | .improvedPSC => (-0.2 / u.cfm / u.inH2O, 0.19 / u.cfm / u.inH2O ^ 2)
  | .pscWithControls => (0.14 / u.cfm / u.inH2O, 0.06 / u.cfm / u.inH2O ^ 2)
  | .bpmSingleStageConstantTorque => (0.12 / u.cfm / u.inH2O, 0.07 / u.cfm / u.inH2O ^ 2)
  | .bpmMultiStageConstantTorque => (0.12 / u.cfm / u.inH2O, 0.07 / u.cfm / u.inH2O ^ 2)
  | .bpmMultiStageConstantAirflow => (0.25 / u.cfm / u.inH2O, -0.01 / u.cfm / u.inH2O ^ 2)
  | .bpmMultiStageBackwardCurved => (0.25 / u.cfm / u.inH2O, -0.01 / u.cfm / u.inH2O ^ 2)

end EEREKind

/-- `EEREFan`, resdx/fan.py:634-716. The size indices are attributes that may never be assigned. -/
structure EERE where
  base : Base
  freeAirflow : List ℝ
  lowerIndex : Option Nat
  upperIndex : Option Nat
  weight : ℝ

namespace EERE

variable (u : Units ℝ) (kind : EEREKind)

/-- `NOMINAL_CAPACITIES`, resdx/fan.py:637-639. -/
noncomputable def nominalCapacities : List ℝ := [2 * u.ton, 3 * u.ton, 4 * u.ton, 5 * u.ton]

/-- `super().…` -/
abbrev sup {α : Type} (m : PyM Base α) : PyM EERE α := PyM.zoom base (fun b s => { s with base := b }) m

/-- `airflow_offset`, resdx/fan.py:703-708. -/
noncomputable def offset (p : ℝ) : ℝ := (kind.flow u).1 * p + (kind.flow u).2 * p * p

/-- The pressure used for a new speed, resdx/fan.py:700-701. -/
def addPressure (s : EERE) (a : ℝ) : Option ℝ → ℝ
  | some p => p
  | none => s.base.systemPressure a

/-- `add_speed`, resdx/fan.py:699-709. -/
noncomputable def addSpeed (a : ℝ) (p : Option ℝ := none) : PyM EERE Unit := do
  let s ← PyM.get
  let p := s.addPressure a p
  sup (Base.addSpeed a)
  PyM.modify fun s => { s with freeAirflow := s.freeAirflow ++ [a - offset u kind p] }

/-- `remove_speed`, resdx/fan.py:711-713. -/
def removeSpeed (i : Int) : PyM EERE Unit := do
  sup (Base.removeSpeed i)
  let l ← pyPopI (← PyM.get).freeAirflow i
  PyM.modify fun s => { s with freeAirflow := l }

/-- The `for index, capacity in enumerate(...)` loop, resdx/fan.py:666-669: the last capacity below the nominal one wins. -/
noncomputable def indexLoop (nominal : ℝ) : List ℝ → Nat → Option (Nat × Nat) → Option (Nat × Nat)
  | [], _, acc => acc
  | c :: cs, k, acc => indexLoop nominal cs (k + 1) (if c < nominal then some (k, k + 1) else acc)

/-- The choice of size indices, resdx/fan.py:655-669. -/
noncomputable def sizeIndices (nominal : ℝ) : Py (Option (Nat × Nat)) := do
  let caps := nominalCapacities u
  if nominal < (← pyGet caps 0) then return some (0, 1)
  else if (← pyGet caps (caps.length - 1)) < nominal then return some (caps.length - 2, caps.length - 1)
  else return indexLoop nominal caps 0 none

/-- `capacity_weight`, resdx/fan.py:671-676: reading an index that was never assigned raises `AttributeError`. -/
noncomputable def capacityWeight (nominal : ℝ) : Py (Nat × Nat × ℝ) := do
  let (lo, hi) ← pyAttr (← sizeIndices u nominal)
  let caps := nominalCapacities u
  let w ← pdiv (nominal - (← pyGet caps lo)) ((← pyGet caps hi) - (← pyGet caps lo))
  return (lo, hi, w)

/-- `__init__`, resdx/fan.py:644-676. -/
noncomputable def init (airflows : List ℝ) (designESP : ℝ) : Py EERE := do
  let b ← Base.start designESP airflows
  let s ← (addAll (fun a => addSpeed u kind a) airflows).exec
    { base := b, freeAirflow := [], lowerIndex := none, upperIndex := none, weight := 0 }
  let nominal ← pdiv (← pyGetI s.base.airflow 0) (400 * u.cfm / u.ton)
  let (lo, hi, w) ← capacityWeight u nominal
  return { s with lowerIndex := some lo, upperIndex := some hi, weight := w }

/-- `airflow`, resdx/fan.py:678-682 (`None` as pressure raises `TypeError`). -/
noncomputable def airflow (s : EERE) (i : Int) (p : Option ℝ) : Py ℝ := do
  let f ← pyGetI s.freeAirflow i
  calcQuad [f, (kind.flow u).1, (kind.flow u).2] (← pyNum p)

/-- `efficacy`, resdx/fan.py:684-697. -/
noncomputable def efficacy (s : EERE) (_i : Int) (p : Option ℝ) : Py ℝ := do
  let lo ← pyGet (kind.baseEff u) (← pyAttr s.lowerIndex)
  let hi ← pyGet (kind.baseEff u) (← pyAttr s.upperIndex)
  let el ← calcQuad [lo, (kind.effCoef u).1, (kind.effCoef u).2] (← pyNum p)
  let eu ← calcQuad [hi, (kind.effCoef u).1, (kind.effCoef u).2] (← pyNum p)
  return el + (eu - el) * s.weight

/-- `Fan.power`, resdx/fan.py:107-110. -/
noncomputable def power (s : EERE) (i : Int) (p : Option ℝ) : Py ℝ := do
  return (← s.airflow u kind i p) * (← s.efficacy u kind i p)

/-- `check_power` of this class. -/
noncomputable def checkPower (a : ℝ) (p : Option ℝ) : PyM EERE ℝ :=
  Fan.checkPower (fun a => addSpeed u kind a) removeSpeed (fun s => s.power u kind) (fun s => s.base.n) a p

end EERE

/-! ## RESNET fans (no state beyond the base class) -/

/-- `RESNETFan.airflow`, resdx/fan.py:799-800. -/
def resnetAirflow (b : Base) (i : Int) (_p : Option ℝ) : Py ℝ := pyGetI b.airflow i

/-- `Fan.airflow_ratio` for a RESNET fan, resdx/fan.py:102-105. -/
noncomputable def resnetAirflowRatio (b : Base) (i base : Int) (p : Option ℝ) : Py ℝ := do
  pdiv (← resnetAirflow b i p) (← resnetAirflow b base p)

/-- `RESNETPSCFan.__init__` and `RESNETBPMFan.__init__`, resdx/fan.py:806-811, 825-832 (the design efficacy is a class
constant). -/
noncomputable def resnetInit (u : Units ℝ) (airflows : List ℝ) : Py Base := do
  let b ← Base.start (0.5 * u.inH2O) airflows
  (addAll Base.addSpeed airflows).exec b

/-- `RESNETPSCFan.efficacy`, resdx/fan.py:813-818. -/
noncomputable def resnetPSCEfficacy (u : Units ℝ) (b : Base) (i : Int) (p : Option ℝ) : Py ℝ := do
  return 0.414 / u.cfm * (PSC.slope * (← resnetAirflowRatio b i 0 p) + (1 - PSC.slope))

/-- `Fan.power` of `RESNETPSCFan`. -/
noncomputable def resnetPSCPower (u : Units ℝ) (b : Base) (i : Int) (p : Option ℝ) : Py ℝ := do
  return (← resnetAirflow b i p) * (← resnetPSCEfficacy u b i p)

/-- `operating_pressure` of a RESNET fan (inherited). -/
noncomputable def resnetOperatingPressure (brentq : Brentq) (b : Base) (i : Int) : Py ℝ :=
  operatingPressure brentq b (fun p => resnetAirflow b i (some p))

/-- `RESNETBPMFan.efficacy`, resdx/fan.py:834-861. -/
noncomputable def resnetBPMEfficacy (u : Units ℝ) (brentq : Brentq) (b : Base) (i : Int) (p : Option ℝ) : Py ℝ := do
  let ducted ← resnetOperatingPressure brentq b i
  let p := match p with
    | some p => p
    | none => ducted
  let rDucted ← resnetAirflowRatio b i 0 (some ducted)
  let rDuctless ← resnetAirflowRatio b i 0 (some 0)
  let eDucted := 0.281 / u.cfm * (← ppow rDucted 1.75)
  let eDuctless := 0.171 / u.cfm * rDuctless * rDuctless
  return eDuctless + (← pdiv ((eDucted - eDuctless) * p) ducted)

/-- `Fan.power` of `RESNETBPMFan`. -/
noncomputable def resnetBPMPower (u : Units ℝ) (brentq : Brentq) (b : Base) (i : Int) (p : Option ℝ) : Py ℝ := do
  return (← resnetAirflow b i p) * (← resnetBPMEfficacy u brentq b i p)

/-- `check_power` of a RESNET fan with the given power function. -/
noncomputable def resnetCheckPower (power : Base → Int → Option ℝ → Py ℝ) (a : ℝ) (p : Option ℝ) : PyM Base ℝ :=
  checkPower Base.addSpeed Base.removeSpeed power (fun s => s.n) a p

/-! ## Searching for a rated speed -/

/-- `pressure_function`, resdx/fan.py:173-185: `full` holds the rated pressure and the full airflow, if a pressure was given. -/
noncomputable def pressureFunction (full : Option (ℝ × ℝ)) (a : ℝ) : Py (Option ℝ) :=
  match full with
  | some (p, f) => do return some (p * (← pdiv a f) ^ 2)
  | none => .ok none

/-- `net_capacity_function` and `optimization_function`, resdx/fan.py:187-205. -/
noncomputable def ratedObjective {σ : Type} (checkPower : ℝ → Option ℝ → PyM σ ℝ) (full : Option (ℝ × ℝ)) (gross flowPerCap : ℝ)
    (cooling : Bool) (a : ℝ) : PyM σ ℝ := do
  let w ← checkPower a (← pressureFunction full a)
  return (if cooling then gross - w else gross + w) - (← pdiv a flowPerCap)

/-- `guess_airflow`, resdx/fan.py:170-171. -/
def ratedGuess (gross flowPerCap : ℝ) : Option ℝ → ℝ
  | some g => g
  | none => gross * flowPerCap

/-- The search and the addition of the speed found, resdx/fan.py:207-211. -/
noncomputable def ratedSearch {σ : Type} (add : ℝ → Option ℝ → PyM σ Unit) (checkPower : ℝ → Option ℝ → PyM σ ℝ)
    (newton : (ℝ → PyM σ ℝ) → ℝ → PyM σ ℝ) (full : Option (ℝ × ℝ)) (gross flowPerCap guess : ℝ) (cooling : Bool) : PyM σ ℝ := do
  let a ← newton (ratedObjective checkPower full gross flowPerCap cooling) guess
  add a (← pressureFunction full a)
  return a

/-- `find_rated_fan_speed`, resdx/fan.py:160-211, for a subclass given by its methods. `scipy.optimize.newton` is the
parameter `newton`: it receives the optimisation function (here with the state threaded through, because every evaluation
runs `check_power`) and the guess. -/
noncomputable def findRatedFanSpeed {σ : Type} (add : ℝ → Option ℝ → PyM σ Unit)
    (airflow : σ → Int → Option ℝ → Py ℝ) (checkPower : ℝ → Option ℝ → PyM σ ℝ)
    (newton : (ℝ → PyM σ ℝ) → ℝ → PyM σ ℝ)
    (gross flowPerCap : ℝ) (guess : Option ℝ) (ratedESP : Option ℝ) (cooling : Bool) : PyM σ ℝ := do
  let s ← PyM.get
  match ratedESP with
  | some p =>
    let f ← airflow s 0 (some p)
    ratedSearch add checkPower newton (some (p, f)) gross flowPerCap (ratedGuess gross flowPerCap guess) cooling
  | none => ratedSearch add checkPower newton none gross flowPerCap (ratedGuess gross flowPerCap guess) cooling

/-! ## ASHRAE 205 representation -/

/-- `numpy.linspace(0, max, 6)`, resdx/fan.py:319-321. -/
noncomputable def pressureGrid (maxP : ℝ) : List ℝ := (List.range 6).map fun (k : Nat) => maxP * k / 5

/-- The nested loops filling one lookup variable, resdx/fan.py:333-358: `map` is `speed_order_map`. -/
def mapLoop {α : Type} (q : Nat → ℝ → Py α) (map : List Nat) (grid : List ℝ) : Py (List α) := do
  let rows ← (List.range map.length).mapM fun k => do
    let setting ← pyGet map k
    grid.mapM fun p => q setting p
  return rows.flatten

/-- `get_speed_order_map`, resdx/fan.py:213-217: `numpy.argsort` is the parameter `argsort`. -/
def speedOrderMap (argsort : List ℝ → List Nat) (airflow : Int → Option ℝ → Py ℝ) (n : Nat) : Py (List Nat) := do
  let l ← (List.range n).mapM fun (i : Nat) => airflow i (some 0)
  return argsort l

/-- `to_u(self.rotational_speed(…), "rps")`, resdx/fan.py:349-357: revolutions per second. -/
noncomputable def inRps (u : Units ℝ) (rot : Int → Option ℝ → Py ℝ) (i : Int) (p : Option ℝ) : Py ℝ := do return (← rot i p) / (60 * u.rpm)

/-- The numbers written by `generate_205_representation`, resdx/fan.py:263-267, 312-388 (identifiers, descriptions and other constants
omitted). -/
structure Rep where
  /-- motor `maximum_power` -/
  maxPower : ℝ
  speedNumber : List Nat
  pressure : List ℝ
  /-- shaft power, air flow and rotational speed of each grid point, in writing order -/
  points : List (ℝ × ℝ × ℝ)
  nominalFlow : ℝ
  /-- `maximum_impeller_rotational_speed` and `minimum_impeller_rotational_speed` in revolutions per second -/
  maxRps : ℝ
  minRps : ℝ

/-- `generate_205_representation`, resdx/fan.py:219-394, for a fan given by its methods; `maxPower` is the motor-power rule of the
class (lines 230-246), `maxStatic` its largest tabulated pressure (lines 318-321) and `rot` its rotational speed in revolutions per second. -/
noncomputable def fanRep (argsort : List ℝ → List Nat) (n : Nat) (designESP : ℝ) (airflow power rot : Int → Option ℝ → Py ℝ)
    (maxPower maxStatic : Int → Py ℝ) : Py Rep := do
  let map ← speedOrderMap argsort airflow n
  let last ← pyGetI map (-1)
  let mp ← maxPower last
  let ms ← maxStatic last
  let grid := pressureGrid ms
  let pts ← mapLoop (fun i p => do
    let w ← power i (some p)
    let a ← airflow i (some p)
    let r ← rot i (some p)
    return (w, a, r)) map grid
  let nominal ← airflow last (some designESP)
  return { maxPower := mp, speedNumber := (List.range n).map (· + 1), pressure := grid, points := pts, nominalFlow := nominal
           maxRps := 1500 / 60, minRps := 0 }

/-- `Fan.rotational_speed` (inherited by RESNET fans), resdx/fan.py:133-137. -/
noncomputable def resnetRotationalSpeed (u : Units ℝ) (b : Base) (i : Int) (p : Option ℝ) : Py ℝ := do
  return 1100 * u.rpm * (← resnetAirflowRatio b i 0 p)

/-- The motor-power rule of every class but `ECMFlowFan`, resdx/fan.py:241-246. -/
noncomputable def motorPower (power : Int → Option ℝ → Py ℝ) (last : Int) : Py ℝ := do
  return (← power last (some 0)) * 1.2

/-- The motor-power rule of `ECMFlowFan`, resdx/fan.py:230-240. -/
noncomputable def ECM.motorPower (u : Units ℝ) (s : ECM) (last : Int) : Py ℝ :=
  match s.maxPower with
  | none => do return (← s.powerAt u last (1.2 * u.inH2O)) * 1.2
  | some m => .ok m

end Resdx.Fan
