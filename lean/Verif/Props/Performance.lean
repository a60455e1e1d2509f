import Verif.Lemmas.System
import Verif.Spec.Performance
import Mathlib.Algebra.Order.Ring.Rat
import Mathlib.Tactic.NormNum

/-!
# Properties of the RESNET, NREL, Carrier and constant models: C39 (heating), C40, C41, C42, C56, C60
-/

set_option linter.unusedSectionVars false
set_option linter.unusedSimpArgs false

namespace Resdx

open Spec

variable {K : Type} [Field K] [LinearOrder K] [IsStrictOrderedRing K]

/-! ## A concrete unit used as a witness -/

/-- The result is a value that passes the test. -/
def okAnd (x : Py ℚ) (f : ℚ → Bool) : Bool := match x with
  | .ok v => f v
  | .error _ => false

theorem okAnd_iff {x : Py ℚ} {f : ℚ → Bool} : okAnd x f = true ↔ ∃ v, x = .ok v ∧ f v = true := by
  cases x <;> simp [okAnd]

/-- A stand-in for psychrolib with constant values. -/
def sampleEnv : Env ℚ :=
  { lib := { humRatioFromTWetBulb := fun _ _ _ => .ok 0.005, tWetBulbFromHumRatio := fun t _ _ => .ok t
             tWetBulbFromRelHum := fun t _ _ => .ok t, moistAirEnthalpy := fun t w => .ok (1006 * t + 2501000 * w)
             humRatioFromEnthalpyAndTDryBulb := fun _ _ => .ok 0.005, moistAirDensity := fun _ _ _ => .ok 1.2
             relHumFromTWetBulb := fun _ _ _ => .ok 0.5 }
    atm := 101325, rhoStd := 1.2 }

/-- A 3-ton single-speed unit with the default (reverse-cycle) defrost. -/
def sampleSys : Sys ℚ :=
  { netCooling := [10550], netHeating := [10400], coolingAirflow := [some 0.57], heatingAirflow := [some 0.56]
    ratedCoolingFanSpeed := [some 0], ratedHeatingFanSpeed := [some 1], fullESP := 125
    grossCooling := [some 11000], grossCoolingCop := [some 4], grossHeating := [some 10000], grossHeatingCop := [some 4]
    chargeDeviation := 0
    defrost := { resistivePower := 0, control := .timed, strategy := .reverseCycle, highTemperature := frF 41, lowTemperature := none
                 period := 5400, maxTime := 43200 } }

/-- The default heating condition, 47 °F. -/
def sampleH1 : Conditions ℚ :=
  { heating := true, indoor := wetState 101325 (frF 70) (frF 60), outdoor := wetState 101325 (frF 47) (frF 43)
    flow := ratedFlow 1.2 1.2 0 (some 1) 125 0.56 10400 }

/-- A frosting heating condition, 35 °F. -/
def sampleH2 : Conditions ℚ := { sampleH1 with outdoor := wetState 101325 (frF 35) (frF 33) }

/-- The default cooling condition. -/
def sampleA : Conditions ℚ :=
  { heating := false, indoor := wetState 101325 (frF 80) (frF 67), outdoor := wetState 101325 (frF 95) (frF 75)
    flow := ratedFlow 1.2 1.2 0 (some 0) 125 0.57 10550 }

example : sampleSys.makeCondition sampleEnv true = .ok sampleH1 ∧ sampleSys.makeCondition sampleEnv false = .ok sampleA := by decide +kernel

/-- A unit with no performance tables. -/
def noTables : Resnet.Data ℚ := { gross := none, coolingMap := [], heatingMap := [] }

/-! ## C40: RESNET frost adjustment -/

section C40
open Resnet

theorem resnet_fdef (db : K) : fdef db = resnetDefrostFraction (toF db) := by
  unfold fdef resnetDefrostFraction
  generalize toF db = t
  have h1 : (0.134 : K) = 134 / 1000 := by norm_num
  have h2 : (0.003 : K) = 3 / 1000 := by norm_num
  have h3 : (0.08 : K) = 8 / 100 := by norm_num
  rw [h1, h2, h3]
  split
  · rw [min_eq_right (by linarith), max_eq_left (by norm_num)]
  · split
    · rw [min_eq_left (by linarith), max_eq_left (by linarith)]; ring
    · rw [min_eq_left (by linarith), max_eq_right (by linarith)]

theorem fraction_bounds (t : K) : 0 ≤ resnetDefrostFraction t ∧ resnetDefrostFraction t ≤ 8 / 100 := by
  unfold resnetDefrostFraction
  split
  · exact ⟨by norm_num, le_refl _⟩
  · split
    · exact ⟨by linarith, by linarith⟩
    · exact ⟨le_refl _, by norm_num⟩

variable (E : Env K) (S : Sys K) (D : Data K) (sensible fanPower : Conditions K → Py K) (aFull h1Full : Conditions K) (c : Option (Conditions K))

/-- C40: the exact frost adjustment of the capacity the unit reports. It raises exactly when the steady-state value does. -/
theorem C40_capacity_law (q : K) (hq : (unit E S D sensible fanPower aFull h1Full).grossSteadyHeatingCapacity c = .ok q) :
    (unit E S D sensible fanPower aFull h1Full).grossIntegratedHeatingCapacity c = .ok
      (if S.defrost.inDefrost (c.getD h1Full).outdoor.db then q * (1 - 18 / 10 * resnetDefrostFraction (toF (c.getD h1Full).outdoor.db)) else q) := by
  have hs : Nrel.steadyCapacity E S (raw E S D) (c.getD h1Full) = .ok q := hq
  simp only [DX.Performance.grossIntegratedHeatingCapacity, unit, Resnet.grossIntegratedHeatingCapacity]
  split
  · rw [hs]
    simp only [bind_ok, pure_eq_ok, resnet_fdef]
    norm_num
  · exact hs

/-- C40: the capacity lies between 85.6% and 100% of the steady-state capacity. -/
theorem C40_capacity_bounds (q q' : K) (hq0 : 0 ≤ q)
    (hq : (unit E S D sensible fanPower aFull h1Full).grossSteadyHeatingCapacity c = .ok q)
    (hq' : (unit E S D sensible fanPower aFull h1Full).grossIntegratedHeatingCapacity c = .ok q') :
    856 / 1000 * q ≤ q' ∧ q' ≤ q ∧ (S.defrost.inDefrost (c.getD h1Full).outdoor.db = false → q' = q) := by
  rw [C40_capacity_law E S D sensible fanPower aFull h1Full c q hq, Except.ok.injEq] at hq'
  obtain ⟨h0, h1⟩ := fraction_bounds (toF (c.getD h1Full).outdoor.db)
  subst hq'
  split
  · rename_i hd
    exact ⟨by nlinarith, by nlinarith [mul_nonneg hq0 h0], fun h => by rw [h] at hd; cases hd⟩
  · exact ⟨by linarith, le_refl _, fun _ => rfl⟩

/-- C40: the exact frost adjustment of the power, relative to the model's own steady-state power `p`. -/
theorem C40_power_law (p : K) (hp : (unit E S D sensible fanPower aFull h1Full).heatPow (c.getD h1Full) = .ok p) :
    (unit E S D sensible fanPower aFull h1Full).grossIntegratedHeatingPower c = .ok
      (if S.defrost.inDefrost (c.getD h1Full).outdoor.db then p * (1 - 3 / 10 * resnetDefrostFraction (toF (c.getD h1Full).outdoor.db)) else p) := by
  have hs : grossSteadyHeatingPower E S D (c.getD h1Full) = .ok p := hp
  simp only [DX.Performance.grossIntegratedHeatingPower, unit, Resnet.grossIntegratedHeatingPower]
  split
  · rw [hs]
    simp only [bind_ok, pure_eq_ok, resnet_fdef]
    norm_num
  · exact hs

/-- C40: with no charge fault the power lies between 97.6% and 100% of the steady-state power the unit reports, and the integrated COP is
at most the steady-state COP. -/
theorem C40_power_and_cop (hS : S.chargeDeviation = 0) (q p q' p' : K) (hq0 : 0 ≤ q) (hp0 : 0 < p)
    (hq : (unit E S D sensible fanPower aFull h1Full).grossSteadyHeatingCapacity c = .ok q)
    (hp : (unit E S D sensible fanPower aFull h1Full).grossSteadyHeatingPower c = .ok p)
    (hq' : (unit E S D sensible fanPower aFull h1Full).grossIntegratedHeatingCapacity c = .ok q')
    (hp' : (unit E S D sensible fanPower aFull h1Full).grossIntegratedHeatingPower c = .ok p') :
    976 / 1000 * p ≤ p' ∧ p' ≤ p ∧ q' / p' ≤ q / p ∧ (S.defrost.inDefrost (c.getD h1Full).outdoor.db = false → p' = p) := by
  have hm : (unit E S D sensible fanPower aFull h1Full).heatPow (c.getD h1Full) = .ok p := by
    simp only [DX.Performance.grossSteadyHeatingPower, DX.Performance.prod_eq_ok] at hp
    obtain ⟨a, b, ha, hb, rfl⟩ := hp
    have : b = 1 := by simpa [unit, Nrel.gradingModel, hS, eq_comm] using hb
    subst this; rw [mul_one]; exact ha
  rw [C40_capacity_law E S D sensible fanPower aFull h1Full c q hq, Except.ok.injEq] at hq'
  rw [C40_power_law E S D sensible fanPower aFull h1Full c p hm, Except.ok.injEq] at hp'
  obtain ⟨h0, h1⟩ := fraction_bounds (toF (c.getD h1Full).outdoor.db)
  generalize resnetDefrostFraction (toF (c.getD h1Full).outdoor.db) = f at *
  subst hq'; subst hp'
  by_cases hd : S.defrost.inDefrost (c.getD h1Full).outdoor.db = true
  · simp only [hd, if_true]
    refine ⟨by nlinarith, by nlinarith [mul_nonneg hp0.le h0], ?_, fun h => by cases h⟩
    have hpos : 0 < p * (1 - 3 / 10 * f) := mul_pos hp0 (by linarith)
    rw [div_le_div_iff₀ hpos hp0]
    nlinarith [mul_nonneg (mul_nonneg hq0 hp0.le) h0]
  · simp only [hd]
    exact ⟨by simp; linarith, by simp, by simp, fun _ => by simp⟩

/-- At 35 °F the sample unit loses 5.22% of its capacity and 0.87% of its power. -/
example : resnetDefrostFraction (35 : ℚ) = 29 / 1000 ∧
    let U := unit sampleEnv sampleSys noTables (fun _ => .ok 0) (fun _ => .ok 0) sampleA sampleH2
    okAnd (U.grossSteadyHeatingCapacity none) (fun q => decide (0 < q ∧ U.grossIntegratedHeatingCapacity none = .ok (q * 9478 / 10000))) = true ∧
    okAnd (U.grossSteadyHeatingPower none) (fun p => decide (0 < p ∧ U.grossIntegratedHeatingPower none = .ok (p * 9913 / 10000))) = true := by
  decide +kernel

end C40

/-! ## C41: no frost, no difference -/

section C41
variable (E : Env K) (S : Sys K) (sensible fanPower : Conditions K → Py K) (aFull h1Full : Conditions K) (c : Option (Conditions K))

/-- C41, RESNET model: outside defrost the two capacities are the same call result, charge fault or not. -/
theorem C41_resnet_capacity_partial (D : Resnet.Data K) (h : S.defrost.inDefrost (c.getD h1Full).outdoor.db = false) :
    (Resnet.unit E S D sensible fanPower aFull h1Full).grossIntegratedHeatingCapacity c =
      (Resnet.unit E S D sensible fanPower aFull h1Full).grossSteadyHeatingCapacity c := by
  simp [DX.Performance.grossIntegratedHeatingCapacity, Resnet.unit, Resnet.grossIntegratedHeatingCapacity, h]
  rfl

/-- C41, NREL model: capacity and power. -/
theorem C41_nrel_partial (timeFraction humidity : Conditions K → Py K) (h : S.defrost.inDefrost (c.getD h1Full).outdoor.db = false) :
    let U := Nrel.unit E S timeFraction humidity sensible fanPower aFull h1Full
    U.grossIntegratedHeatingCapacity c = U.grossSteadyHeatingCapacity c ∧ U.grossIntegratedHeatingPower c = U.grossSteadyHeatingPower c := by
  simp [DX.Performance.grossIntegratedHeatingCapacity, DX.Performance.grossIntegratedHeatingPower, Nrel.unit,
    Nrel.grossIntegratedHeatingCapacity, Nrel.grossIntegratedHeatingPower, h]
  exact ⟨rfl, rfl⟩

/-- C41, constant model: capacity and power, in defrost as well. -/
theorem C41_constant_partial : let U := Constant.unit S fanPower aFull h1Full
    U.grossIntegratedHeatingCapacity c = U.grossSteadyHeatingCapacity c ∧ U.grossIntegratedHeatingPower c = U.grossSteadyHeatingPower c := ⟨rfl, rfl⟩

/-- C41 fails for the power of the RESNET model: outside defrost the integrated power leaves out the charge factor, so the two agree only
if the factor is 1 or the power is zero. -/
theorem C41_resnet_power (D : Resnet.Data K) (h : S.defrost.inDefrost (c.getD h1Full).outdoor.db = false) (p f : K)
    (hp : (Resnet.unit E S D sensible fanPower aFull h1Full).heatPow (c.getD h1Full) = .ok p)
    (hf : (Resnet.unit E S D sensible fanPower aFull h1Full).heatPowCharge (c.getD h1Full) = .ok f) :
    (Resnet.unit E S D sensible fanPower aFull h1Full).grossSteadyHeatingPower c = .ok (p * f) ∧
      (Resnet.unit E S D sensible fanPower aFull h1Full).grossIntegratedHeatingPower c = .ok p ∧ (p = p * f ↔ p = 0 ∨ f = 1) := by
  refine ⟨?_, ?_, ?_⟩
  · change (do return (← (Resnet.unit E S D sensible fanPower aFull h1Full).heatPow (c.getD h1Full)) *
      (← (Resnet.unit E S D sensible fanPower aFull h1Full).heatPowCharge (c.getD h1Full))) = _
    rw [hp, hf]; rfl
  · have := C40_power_law E S D sensible fanPower aFull h1Full c p hp
    simpa [h] using this
  · constructor
    · intro e
      by_cases hp0 : p = 0
      · exact .inl hp0
      · right; exact mul_left_cancel₀ hp0 (by rw [mul_one]; exact e.symm)
    · rintro (rfl | rfl) <;> simp

/-- C41 is false as stated: the sample unit with 10% undercharge, at 47 °F. -/
theorem C41_refuted : ¬ ∀ (E : Env ℚ) (S : Sys ℚ) (D : Resnet.Data ℚ) (sensible fanPower : Conditions ℚ → Py ℚ) (aFull h1Full : Conditions ℚ),
    S.defrost.inDefrost h1Full.outdoor.db = false →
    (Resnet.unit E S D sensible fanPower aFull h1Full).grossIntegratedHeatingPower none =
      (Resnet.unit E S D sensible fanPower aFull h1Full).grossSteadyHeatingPower none := by
  intro h
  have := h sampleEnv { sampleSys with chargeDeviation := -0.1 } noTables (fun _ => .ok 0) (fun _ => .ok 0) sampleA sampleH1 (by decide +kernel)
  revert this
  decide +kernel

end C41

/-! ## C42: charge faults -/

section C42
variable (E : Env K) (S : Sys K) (R : Nrel.Raw K) (c : Conditions K)

/-- C42: at nominal charge every factor is 1, for every condition, model and function; nothing else is evaluated. -/
theorem C42_nominal (hS : S.chargeDeviation = 0) (ft : Nrel.FunctionType) : Nrel.gradingModel E S R ft c = .ok 1 := by
  simp [Nrel.gradingModel, hS]

/-- The tabulated coefficients are the published ones, and undercharge uses the first row. -/
theorem chargeFactor_spec (ti to_ f : K) (heating : Bool) (ft : Nrel.FunctionType) :
    Nrel.chargeFactor ti to_ f (Nrel.chargeCoeffs heating ft) = .ok (faultFactor heating (decide (ft = .power)) ti to_ f) := by
  cases heating <;> cases ft <;> by_cases h : f < 0 <;>
    simp [Nrel.chargeFactor, Nrel.chargeCoeffs, h, pyGet, bind_ok, pure_eq_ok, faultFactor, faultCoefficients, faultCurve, not_le.mpr, not_lt.mp] <;>
    (try simp [not_le.mpr h, not_lt.mp h]) <;> (try norm_num)

/-- C42: at rated airflow the factor is the fault curve itself, whatever the model functions are. -/
theorem C42_rated_airflow (ft : Nrel.FunctionType) (v : K) (hS : S.chargeDeviation ≠ 0) (hr : c.flow.ratio = some 1)
    (hv : Nrel.gradingModel E S R ft c = .ok v) :
    v = faultFactor c.heating (decide (ft = .power)) c.indoor.dbC c.outdoor.dbC S.chargeDeviation := by
  simp only [Nrel.gradingModel, if_neg hS, bind_eq_ok, hr, pyAttr, Except.ok.injEq, pdiv_eq_ok, chargeFactor_spec, exists_eq_left',
    one_mul] at hv
  obtain ⟨rated, hrated, rv, hrv, cf, ⟨hcf0, rfl⟩, c1, hc1, x1, hx1, y1, ⟨hy1, rfl⟩, c2, hc2, x2, hx2, y2, ⟨hy2, rfl⟩, c3, hc3, x3, hx3, y3,
    ⟨hy3, rfl⟩, z, ⟨hz, rfl⟩, hv0, rfl⟩ := hv
  obtain ⟨rho, pr, a, cap, fs, h1, h2, h3, h4, _, _, _, _, _, rfl⟩ := Sys.makeCondition_spec E S _ _ _ _ _ hrated
  have e3 : Nrel.withRatio { heating := c.heating, indoor := (none : Option (Psych.PsychState K)).getD (defaultIndoor E c.heating)
                             outdoor := (none : Option (Psych.PsychState K)).getD (defaultOutdoor E c.heating)
                             flow := ratedFlow rho E.rhoStd c.flow.compressorSpeed fs pr a cap } 1 = .ok
      { heating := c.heating, indoor := (none : Option (Psych.PsychState K)).getD (defaultIndoor E c.heating)
        outdoor := (none : Option (Psych.PsychState K)).getD (defaultOutdoor E c.heating)
        flow := ratedFlow rho E.rhoStd c.flow.compressorSpeed fs pr a cap } := by
    simp [Nrel.withRatio, setRatio_one _ _ _ _ _ _ _ h1 h2 h4, bind_ok, pure_eq_ok]
  rw [e3, Except.ok.injEq] at hc3
  subst hc3
  have : rv = x3 := Except.ok.inj (hrv.symm.trans hx3)
  subst this
  have e12 : c1 = c2 := Except.ok.inj (hc1.symm.trans hc2)
  subst e12
  have : x1 = x2 := Except.ok.inj (hx1.symm.trans hx2)
  subst this
  rw [div_self hy3, div_one, div_mul_cancel₀ _ hz]

/-- The sample unit at 10% undercharge: the hypotheses hold and the factor is the curve. -/
example : Nrel.gradingModel sampleEnv { sampleSys with chargeDeviation := -0.1 } (Nrel.raw sampleSys) .power sampleH1 =
    .ok (faultFactor true true (toC (frF 70)) (toC (frF 47)) (-0.1)) ∧ sampleH1.flow.ratio = some 1 := by decide +kernel

end C42

/-- C39 fails for heating: with 70% undercharge the NREL and RESNET models report a negative heating capacity instead of raising. -/
theorem C39_heating_refuted : ¬ ∀ (E : Env ℚ) (S : Sys ℚ) (D : Resnet.Data ℚ) (sensible fanPower : Conditions ℚ → Py ℚ) (aFull h1Full : Conditions ℚ)
    (v : ℚ), (Resnet.unit E S D sensible fanPower aFull h1Full).grossSteadyHeatingCapacity none = .ok v → 0 ≤ v := by
  intro h
  have h0 := h sampleEnv { sampleSys with chargeDeviation := -0.7 } noTables (fun _ => .ok 0) (fun _ => .ok 0) sampleA sampleH1
  have : ∃ v, (Resnet.unit sampleEnv { sampleSys with chargeDeviation := -0.7 } noTables (fun _ => .ok 0) (fun _ => .ok 0) sampleA
      sampleH1).grossSteadyHeatingCapacity none = .ok v ∧ decide (v < 0) = true := okAnd_iff.1 (by decide +kernel)
  obtain ⟨v, hv, hneg⟩ := this
  exact absurd (h0 v hv) (not_le.mpr (of_decide_eq_true hneg))

/-! ## C56: Carrier defrost -/

section C56
open Carrier

theorem carrier_fdef (db : K) : fdef db =
    if db < frF (-20) then 0.075
    else if db ≤ frF 17 then 0.075 + (0.085 - 0.075) / (frF 17 - frF (-20)) * (db - frF (-20))
    else if db ≤ frF 27 then 0.085 + (0.11 - 0.085) / (frF 27 - frF 17) * (db - frF 17)
    else if db ≤ frF 37 then 0.11 + (0.09 - 0.11) / (frF 37 - frF 27) * (db - frF 27)
    else 0.09 := by
  simp only [fdef, temperatures, fractions, List.zip_cons_cons, List.zip_nil_right, interp1d]
  by_cases h1 : db < frF (-20)
  · simp [h1]
  by_cases h2 : db ≤ frF 17
  · simp [h1, h2]
  have h2' := not_le.mp h2
  by_cases h3 : db ≤ frF 27
  · simp [h1, h2, h3, not_lt.mpr h2'.le]
  have h3' := not_le.mp h3
  simp [h1, h2, h3, not_lt.mpr h2'.le, not_lt.mpr h3'.le]

theorem frF_eq (x : K) : frF x = frF 0 + 5 / 9 * x := by simp [frF]; ring

/-- C56: the defrost fraction is between 7.5% and 11% at every temperature. -/
theorem C56_fraction_bounds (db : K) : 75 / 1000 ≤ fdef db ∧ fdef db ≤ 11 / 100 := by
  rw [carrier_fdef]
  have e1 : (0.075 : K) = 75 / 1000 := by norm_num
  have e2 : (0.085 : K) = 85 / 1000 := by norm_num
  have e3 : (0.11 : K) = 11 / 100 := by norm_num
  have e4 : (0.09 : K) = 9 / 100 := by norm_num
  rw [e1, e2, e3, e4, frF_eq (-20), frF_eq 17, frF_eq 27, frF_eq 37]
  generalize (frF 0 : K) = z
  split
  · exact ⟨le_refl _, by norm_num⟩
  · rename_i h1
    split
    · rename_i h2
      rw [show (85 / 1000 - 75 / 1000 : K) / (z + 5 / 9 * 17 - (z + 5 / 9 * -20)) = 9 / 18500 by ring_nf]
      constructor <;> linarith
    · rename_i h2
      split
      · rename_i h3
        rw [show (11 / 100 - 85 / 1000 : K) / (z + 5 / 9 * 27 - (z + 5 / 9 * 17)) = 9 / 2000 by ring_nf]
        constructor <;> linarith
      · rename_i h3
        split
        · rename_i h4
          rw [show (9 / 100 - 11 / 100 : K) / (z + 5 / 9 * 37 - (z + 5 / 9 * 27)) = -9 / 2500 by ring_nf]
          constructor <;> linarith
        · exact ⟨by norm_num, by norm_num⟩

/-- C56: it has the tabulated values at the tabulated temperatures and is constant outside them. -/
theorem C56_tabulated : fdef (frF (-20) : K) = 75 / 1000 ∧ fdef (frF 17 : K) = 85 / 1000 ∧ fdef (frF 27 : K) = 11 / 100 ∧
    fdef (frF 37 : K) = 9 / 100 ∧ (∀ db : K, db ≤ frF (-20) → fdef db = 75 / 1000) ∧ (∀ db : K, frF 37 ≤ db → fdef db = 9 / 100) := by
  have l : ∀ x y : K, x ≤ y ↔ frF x ≤ frF y := fun x y => frF_le.symm
  have h1 : (frF (-20) : K) < frF 17 := by rw [frF_lt]; norm_num
  have h2 : (frF 17 : K) < frF 27 := by rw [frF_lt]; norm_num
  have h3 : (frF 27 : K) < frF 37 := by rw [frF_lt]; norm_num
  have low : ∀ db : K, db ≤ frF (-20) → fdef db = 75 / 1000 := by
    intro db h
    rw [carrier_fdef]
    rcases h.lt_or_eq with h | h
    · rw [if_pos h]; norm_num
    · subst h; rw [if_neg (lt_irrefl _), if_pos h1.le]; simp; norm_num
  have high : ∀ db : K, frF 37 ≤ db → fdef db = 9 / 100 := by
    intro db h
    rw [carrier_fdef, if_neg (not_lt.mpr (h1.le.trans (h2.le.trans (h3.le.trans h)))), if_neg (not_le.mpr (h2.trans (h3.trans_le h))),
      if_neg (not_le.mpr (h3.trans_le h))]
    split
    · rename_i h'
      have := le_antisymm h' h
      subst this
      rw [div_mul_cancel₀ _ (sub_ne_zero.2 h3.ne')]; norm_num
    · norm_num
  refine ⟨low _ le_rfl, ?_, ?_, high _ le_rfl, low, high⟩
  · rw [carrier_fdef, if_neg (not_lt.mpr h1.le), if_pos le_rfl, div_mul_cancel₀ _ (sub_ne_zero.2 h1.ne')]; norm_num
  · rw [carrier_fdef, if_neg (not_lt.mpr (h1.trans h2).le), if_neg (not_le.mpr h2), if_pos le_rfl, div_mul_cancel₀ _ (sub_ne_zero.2 h2.ne')]; norm_num

/-- C56: integrated capacity and power never exceed steady state; the power is unchanged and so is the capacity outside defrost. -/
theorem C56_integrated (S : Sys K) (steady steadyP : Conditions K → Py K) (c : Conditions K) (q : K) (hq : steady c = .ok q) (hq0 : 0 ≤ q) :
    grossIntegratedHeatingPower steadyP c = steadyP c ∧
    ∃ q', grossIntegratedHeatingCapacity S steady c = .ok q' ∧ 89 / 100 * q ≤ q' ∧ q' ≤ q ∧
      (S.defrost.inDefrost c.outdoor.db = true → q' ≤ 925 / 1000 * q) ∧ (S.defrost.inDefrost c.outdoor.db = false → q' = q) := by
  refine ⟨rfl, ?_⟩
  obtain ⟨h0, h1⟩ := C56_fraction_bounds c.outdoor.db
  unfold grossIntegratedHeatingCapacity
  split
  · rename_i hd
    refine ⟨_, by rw [hq]; rfl, by nlinarith, by nlinarith, fun _ => by nlinarith, fun h => by rw [h] at hd; cases hd⟩
  · rename_i hd
    exact ⟨q, hq, by linarith, le_rfl, fun h => absurd h hd, fun _ => rfl⟩

example : grossIntegratedHeatingCapacity sampleSys (fun _ => .ok 10000) sampleH2 = .ok 9060 ∧
    sampleSys.defrost.inDefrost sampleH2.outdoor.db = true := by decide +kernel

end C56

/-! ## C60: EPRI defrost -/

section C60
open Nrel

/-- C60: the EPRI time fraction is strictly between 0 and 1 whenever it can be evaluated, and the humidity difference is positive. -/
theorem C60_time_fraction (lib : Psych.PsychLib K) (sat : K → K → Py K) (c : Conditions K) (s w : K)
    (hs : sat (0.82 * toC c.outdoor.db - 8.589) c.outdoor.p = .ok s) (hw : (Psych.getHr lib c.outdoor).1 = .ok w) :
    ∃ d t, coilHumidityDifference lib sat c = .ok d ∧ 0 < d ∧ w - s ≤ d ∧ epriTimeFraction lib sat c = .ok t ∧ 0 < t ∧ t < 1 := by
  have hd : coilHumidityDifference lib sat c = .ok (max 0.000001 (w - s)) := by simp [coilHumidityDifference, hs, hw, bind_ok, pure_eq_ok]
  have hpos : (0 : K) < max 0.000001 (w - s) := lt_of_lt_of_le (by norm_num) (le_max_left _ _)
  have h2 : (0 : K) < 0.01446 / max 0.000001 (w - s) := div_pos (by norm_num) hpos
  have h3 : (0 : K) < 1 + 0.01446 / max 0.000001 (w - s) := by linarith
  refine ⟨_, _, hd, hpos, le_max_right _ _, by simp [epriTimeFraction, hd, bind_ok, pdiv_ok hpos.ne', pdiv_ok h3.ne']; rfl, ?_, ?_⟩
  · positivity
  · rw [inv_lt_one₀ h3]; linarith

variable (S : Sys K) (F : Frost K) (c : Conditions K)

/-- C60: the multipliers: below 1, and non-negative exactly while the humidity difference is small enough (timed control) or always (demand control). -/
theorem C60_multipliers (t w : K) (ht0 : 0 ≤ t) (ht1 : t < 1) (hw : F.humidity c = .ok w) (hw0 : 0 < w) :
    ∃ m n, capacityMultiplier S F c t = .ok m ∧ powerMultiplier S F c t = .ok n ∧ m < 1 ∧ n < 1 ∧
      (S.defrost.control = .timed → (0 ≤ m ↔ w ≤ 909 / 107330) ∧ (0 ≤ n ↔ w ≤ 90 / 3645)) ∧
      (S.defrost.control ≠ .timed → 0 < m ∧ 0 < n) := by
  by_cases h : S.defrost.control = .timed
  · refine ⟨_, _, by simp [capacityMultiplier, h, hw, bind_ok, pure_eq_ok]; rfl, by simp [powerMultiplier, h, hw, bind_ok, pure_eq_ok]; rfl,
      ?_, ?_, fun _ => ⟨⟨fun h' => ?_, fun h' => ?_⟩, ⟨fun h' => ?_, fun h' => ?_⟩⟩, fun h' => absurd h h'⟩ <;> norm_num at * <;> linarith
  · refine ⟨_, _, by simp [capacityMultiplier, h, pure_eq_ok]; rfl, by simp [powerMultiplier, h, pure_eq_ok]; rfl, ?_, ?_,
      fun h' => absurd h' h, fun _ => ⟨?_, ?_⟩⟩ <;> norm_num at * <;> nlinarith

/-- C60: in frost the capacity is reduced: it is at most 90.9% of the steady-state capacity, for every strategy and control, at temperatures up to
the 7.222 °C limit of the reverse-cycle load. -/
theorem C60_capacity_reduced (hd : S.defrost.inDefrost c.outdoor.db = true) (hT : toC c.outdoor.db ≤ 7.222) (t w q g : K) (ht : F.timeFraction c = .ok t)
    (ht0 : 0 ≤ t) (ht1 : t < 1) (hw : F.humidity c = .ok w) (hw0 : 0 < w) (hq : F.steadyCapacity c = .ok q) (hq0 : 0 ≤ q)
    (hg : Sys.at_ S.grossHeating c.flow.compressorSpeed = .ok g) (hg0 : 0 ≤ g) :
    ∃ q', grossIntegratedHeatingCapacity S F c = .ok q' ∧ q' ≤ 909 / 1000 * q := by
  obtain ⟨m, n, hm, -, -⟩ := C60_multipliers S F c t w ht0 ht1 hw hw0
  have hm1 : m ≤ 909 / 1000 := by
    by_cases h : S.defrost.control = .timed
    · simp [capacityMultiplier, h, hw, bind_ok, pure_eq_ok] at hm; norm_num at *; linarith
    · simp [capacityMultiplier, h, pure_eq_ok] at hm; norm_num at *; linarith
  have hload : ∃ l, defrostLoad S c = .ok l ∧ 0 ≤ l := by
    by_cases h : S.defrost.strategy = .reverseCycle
    · refine ⟨_, by simp [defrostLoad, h, hg, bind_ok, pure_eq_ok]; rfl, ?_⟩
      have : (0 : K) ≤ 7.222 - toC c.outdoor.db := by linarith
      positivity
    · exact ⟨0, by simp [defrostLoad, h, pure_eq_ok], le_rfl⟩
  obtain ⟨l, hl, hl0⟩ := hload
  refine ⟨_, by simp [grossIntegratedHeatingCapacity, hd, ht, hm, hl, hq, bind_ok, pure_eq_ok]; rfl, ?_⟩
  have h1 : q * m * (1 - t) ≤ 909 / 1000 * q := by
    by_cases hm0 : 0 ≤ m
    · nlinarith [mul_nonneg hq0 hm0, mul_nonneg (mul_nonneg hq0 hm0) ht0]
    · have : q * m * (1 - t) ≤ 0 := mul_nonpos_of_nonpos_of_nonneg (mul_nonpos_of_nonneg_of_nonpos hq0 (not_le.mp hm0).le) (by linarith)
      nlinarith
  nlinarith [mul_nonneg hl0 ht0]

/-- C60: the capacity in frost is the steady-state capacity times the correlation of the control (timed: `0.909 − 107.33·Δw`; demand: `0.875·(1 − t)`) for the time not
spent defrosting, less the heat that reverse-cycle defrost takes from the room, 1% of the rated capacity over 1.01667 per kelvin below 7.222 °C. -/
theorem C60_capacity (hd : S.defrost.inDefrost c.outdoor.db = true) {t w q g : K} (ht : F.timeFraction c = .ok t) (hw : F.humidity c = .ok w)
    (hq : F.steadyCapacity c = .ok q) (hg : Sys.at_ S.grossHeating c.flow.compressorSpeed = .ok g) (timed reverse : K)
    (h1 : timed = if S.defrost.control = .timed then 0.909 - 107.33 * w else 0.875 * (1 - t))
    (h2 : reverse = if S.defrost.strategy = .reverseCycle then (7.222 - toC c.outdoor.db) / 100 * g / 1.01667 else 0) :
    grossIntegratedHeatingCapacity S F c = .ok (q * timed * (1 - t) - reverse * t) := by
  subst h1 h2
  by_cases a : S.defrost.control = .timed <;> by_cases b : S.defrost.strategy = .reverseCycle <;>
    simp only [grossIntegratedHeatingCapacity, hd, if_true, ht, capacityMultiplier, defrostLoad, a, b, if_false, hw, hq, hg, bind_ok, pure_eq_ok, Except.ok.injEq] <;> ring

/-- C60: without reverse-cycle defrost the power in frost is the steady-state power times the correlation of the control (timed: `0.9 − 36.45·Δw`; demand:
`0.954·(1 − t)`) for the time not spent defrosting, plus the power of the defrost heater for the rest. -/
theorem C60_power_formula_partial (hd : S.defrost.inDefrost c.outdoor.db = true) (hr : S.defrost.strategy ≠ .reverseCycle) {t w p : K}
    (ht : F.timeFraction c = .ok t) (hw : F.humidity c = .ok w) (hp : F.steadyPower c = .ok p) (timed : K)
    (h1 : timed = if S.defrost.control = .timed then 0.9 - 36.45 * w else 0.954 * (1 - t)) :
    grossIntegratedHeatingPower S F c = .ok (p * timed * (1 - t) + S.defrost.resistivePower * t) := by
  subst h1
  by_cases a : S.defrost.control = .timed <;>
    simp only [grossIntegratedHeatingPower, hd, if_true, ht, powerMultiplier, defrostPower, a, hr, if_false, hw, hp, bind_ok, pure_eq_ok]

/-- C60: out of frost both are the steady-state values. -/
theorem C60_no_frost (hd : S.defrost.inDefrost c.outdoor.db = false) :
    grossIntegratedHeatingCapacity S F c = F.steadyCapacity c ∧ grossIntegratedHeatingPower S F c = F.steadyPower c := by
  simp [grossIntegratedHeatingCapacity, grossIntegratedHeatingPower, hd]

/-- C60: with resistive defrost (or none) the power in frost can be evaluated. -/
theorem C60_power_partial (hd : S.defrost.inDefrost c.outdoor.db = true) (hr : S.defrost.strategy ≠ .reverseCycle) (t n p : K)
    (ht : F.timeFraction c = .ok t) (hn : powerMultiplier S F c t = .ok n) (hp : F.steadyPower c = .ok p) :
    grossIntegratedHeatingPower S F c = .ok (p * n * (1 - t) + S.defrost.resistivePower * t) := by
  simp [grossIntegratedHeatingPower, hd, ht, hn, defrostPower, hr, hp, bind_ok, pure_eq_ok]

/-- C60 fails for reverse-cycle defrost: the integrated power never returns in frost. -/
theorem C60_reverse_cycle_never_returns (hd : S.defrost.inDefrost c.outdoor.db = true) (hr : S.defrost.strategy = .reverseCycle) (t n : K)
    (ht : F.timeFraction c = .ok t) (hn : powerMultiplier S F c t = .ok n) : grossIntegratedHeatingPower S F c = .error .type := by
  simp [grossIntegratedHeatingPower, hd, ht, hn, defrostPower, hr, bind_ok, bind_error]

/-- C60 is false as stated: the sample unit (default defrost settings) at 35 °F. -/
theorem C60_refuted : ¬ ∀ (S : Sys ℚ) (F : Frost ℚ) (c : Conditions ℚ) (t w p : ℚ), F.timeFraction c = .ok t → F.humidity c = .ok w →
    F.steadyPower c = .ok p → ∃ v, grossIntegratedHeatingPower S F c = .ok v := by
  intro h
  obtain ⟨v, hv⟩ := h sampleSys { timeFraction := fun _ => .ok (3.5 / 60), humidity := fun _ => .ok 0.001, steadyCapacity := fun _ => .ok 10000
                                  steadyPower := fun _ => .ok 3000 } sampleH2 _ _ _ rfl rfl rfl
  have hd := C60_reverse_cycle_never_returns sampleSys { timeFraction := fun _ => .ok (3.5 / 60), humidity := fun _ => .ok 0.001
                                                         steadyCapacity := fun _ => .ok 10000, steadyPower := fun _ => .ok 3000 } sampleH2
    (by decide +kernel) rfl _ _ rfl rfl
  rw [hd] at hv; cases hv

example : okAnd (grossIntegratedHeatingPower { sampleSys with defrost := { sampleSys.defrost with strategy := .resistive, resistivePower := 500 } }
    { timeFraction := fun _ => .ok (3.5 / 60), humidity := fun _ => .ok 0.001, steadyCapacity := fun _ => .ok 10000
      steadyPower := fun _ => .ok 3000 } sampleH2) (fun v => decide (0 < v ∧ v < 3000)) = true := by decide +kernel

end C60

end Resdx
