import Verif.Model.Fan
import Verif.Model.Idf

/-!
# Model of the derived methods of fans: ratios, power of the air and efficiency

The methods `Fan` derives from the ones its subclasses define (resdx/fan.py:102-131), and how `write_idf` asks for them (resdx/idf.py:340-403).
-/

namespace Resdx.Fan

/-- The methods of a fan the others are derived from: `airflow`, `power`, and `operating_pressure` with the default system curve. -/
structure Methods where
  airflow : Int → Option ℝ → Py ℝ
  power : Int → Option ℝ → Py ℝ
  operating : Int → Py ℝ

namespace Methods

variable (m : Methods)

/-- `Fan.airflow_ratio`, resdx/fan.py:102-105. -/
noncomputable def airflowRatio (i base : Int) (p : Option ℝ) : Py ℝ := do pdiv (← m.airflow i p) (← m.airflow base p)

/-- `Fan.power_ratio`, resdx/fan.py:112-115. -/
noncomputable def powerRatio (i base : Int) (p : Option ℝ) : Py ℝ := do pdiv (← m.power i p) (← m.power base p)

/-- `Fan.fluid_power`, resdx/fan.py:117-126. -/
noncomputable def fluidPower (i : Int) : Option ℝ → Py ℝ
  | none => do return (← m.airflow i none) * (← m.operating i)
  | some p => do return (← m.airflow i (some p)) * p

/-- `Fan.efficiency`, resdx/fan.py:128-131. -/
noncomputable def efficiency (i : Int) (p : Option ℝ) : Py ℝ := do pdiv (← m.fluidPower i p) (← m.power i p)

/-- `Fan.rotational_speed`, resdx/fan.py:133-137; EERE fans defer to it, resdx/fan.py:715-716. -/
noncomputable def rotationalSpeed (u : Units ℝ) (i : Int) (p : Option ℝ) : Py ℝ := do return 1100 * u.rpm * (← m.airflowRatio i 0 p)

end Methods

/-- The methods of a `PSCFan`. -/
noncomputable def PSC.methods (u : Units ℝ) (brentq : Brentq) (s : PSC) : Methods :=
  ⟨s.airflow u brentq, s.power u brentq, s.operatingPressure u brentq⟩

/-- The methods of an `ECMFlowFan`. -/
noncomputable def ECM.methods (u : Units ℝ) (brentq : Brentq) (s : ECM) : Methods :=
  ⟨s.airflow u brentq, s.power u brentq, s.operatingPressure u brentq⟩

/-- The methods of a `ConstantEfficacyFan` (`operating_pressure` is inherited, resdx/fan.py:139-151). -/
noncomputable def ConstEff.methods (brentq : Brentq) (s : ConstEff) : Methods :=
  ⟨s.airflow, s.power, fun i => operatingPressure brentq s.base fun p => s.airflow i (some p)⟩

/-- The methods of an EERE fan (`operating_pressure` is inherited). -/
noncomputable def EERE.methods (u : Units ℝ) (kind : EEREKind) (brentq : Brentq) (s : EERE) : Methods :=
  ⟨s.airflow u kind, s.power u kind, fun i => operatingPressure brentq s.base fun p => s.airflow u kind i (some p)⟩

/-- The methods of a RESNET fan with the given power function. -/
noncomputable def resnetMethods (brentq : Brentq) (power : Base → Int → Option ℝ → Py ℝ) (b : Base) : Methods :=
  ⟨resnetAirflow b, power b, resnetOperatingPressure brentq b⟩

/-- The parts of a unit `write_idf` uses, with the fan's methods called as in resdx/idf.py:344, 364, 379, 392, 396: without a pressure. -/
noncomputable def Methods.inUnit {C : Type} (m : Methods) (U : Idf.IdfUnit C ℝ) : Idf.IdfUnit C ℝ :=
  { U with
    pressure := fun s => m.operating s
    airflow := fun s => m.airflow s none
    power := fun s => m.power s none
    efficiency := fun s => m.efficiency s none
    airflowRatio := fun s t => m.airflowRatio s t none
    powerRatio := fun s t => m.powerRatio s t none }

end Resdx.Fan
