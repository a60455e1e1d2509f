import Verif.Lemmas.DXUnit
import Mathlib.Algebra.Order.Ring.Rat

/-!
# Properties of the performance accessors: C38, C39, C43, C44

`U.aFull`/`U.h1Full` are used when no conditions are passed, so every theorem holds for an explicit condition and for the default.
-/

set_option linter.unusedSectionVars false
set_option linter.unusedSimpArgs false

namespace Resdx.DX.Performance

open Util

variable {C K : Type} [Field K] [LinearOrder K] [IsStrictOrderedRing K]
variable (U : Performance C K) (c : Option C)

/-! ## C38: net and gross -/

/-- C38: whenever a net cooling quantity is returned, gross capacity is net capacity plus fan power and net power is gross power plus
fan power, the fan power being the one reported for the same conditions. -/
theorem C38_cooling_accounting (q p s : K) (hq : U.netTotalCoolingCapacity c = .ok q) (hp : U.netCoolingPower c = .ok p)
    (hs : U.netSensibleCoolingCapacity c = .ok s) :
    ∃ f, U.coolingFanPower c = .ok f ∧ U.grossTotalCoolingCapacity c = .ok (q + f) ∧ U.grossCoolingPower c = .ok (p - f) ∧
      U.grossSensibleCoolingCapacity c = .ok (s + f) := by
  simp only [netTotalCoolingCapacity, coolingFanHeat, diff_eq_ok] at hq
  simp only [netCoolingPower, sum_eq_ok] at hp
  simp only [netSensibleCoolingCapacity, coolingFanHeat, diff_eq_ok] at hs
  obtain ⟨g, f, hg, hf, rfl⟩ := hq
  obtain ⟨g', f', hg', hf', rfl⟩ := hp
  obtain ⟨g'', f'', hg'', hf'', rfl⟩ := hs
  have e1 : f = f' := by simpa [hf] using hf'
  have e2 : f = f'' := by simpa [hf] using hf''
  subst e1; subst e2
  exact ⟨f, hf, by rw [hg]; simp, by rw [hg']; simp, by rw [hg'']; simp⟩

/-- C38: the same for heating, steady state and integrated: the fan adds its power to both the capacity and the power. -/
theorem C38_heating_accounting (q p q' p' : K) (hq : U.netSteadyHeatingCapacity c = .ok q) (hp : U.netSteadyHeatingPower c = .ok p)
    (hq' : U.netIntegratedHeatingCapacity c = .ok q') (hp' : U.netIntegratedHeatingPower c = .ok p') :
    ∃ f, U.heatingFanPower c = .ok f ∧ U.grossSteadyHeatingCapacity c = .ok (q - f) ∧ U.grossSteadyHeatingPower c = .ok (p - f) ∧
      U.grossIntegratedHeatingCapacity c = .ok (q' - f) ∧ U.grossIntegratedHeatingPower c = .ok (p' - f) := by
  simp only [netSteadyHeatingCapacity, netSteadyHeatingPower, netIntegratedHeatingCapacity, netIntegratedHeatingPower, sum_eq_ok] at *
  obtain ⟨g1, f, hg1, hf, rfl⟩ := hq
  obtain ⟨g2, f2, hg2, hf2, rfl⟩ := hp
  obtain ⟨g3, f3, hg3, hf3, rfl⟩ := hq'
  obtain ⟨g4, f4, hg4, hf4, rfl⟩ := hp'
  have e1 : f = f2 := by simpa [hf] using hf2
  have e2 : f = f3 := by simpa [hf] using hf3
  have e3 : f = f4 := by simpa [hf] using hf4
  subst e1; subst e2; subst e3
  exact ⟨f, hf, by rw [hg1]; simp, by rw [hg2]; simp, by rw [hg3]; simp, by rw [hg4]; simp⟩

/-- C38: net cooling COP never exceeds the gross one, and is strictly below it when the fan draws power. No assumption on the unit:
the accessors themselves reject negative gross values. -/
theorem C38_cooling_cop (f n g : K) (hf : U.coolingFanPower c = .ok f) (h0 : 0 ≤ f) (hn : U.netTotalCoolingCOP c = .ok n)
    (hg : U.grossTotalCoolingCOP c = .ok g) : n ≤ g ∧ (0 < f → n < g) := by
  simp only [netTotalCoolingCOP, grossTotalCoolingCOP, netTotalCoolingCapacity, netCoolingPower, coolingFanHeat, quotient_eq_ok,
    diff_eq_ok, sum_eq_ok] at hn hg
  obtain ⟨_, _, ⟨T, f1, hT, hf1, rfl⟩, ⟨P, f2, hP, hf2, rfl⟩, hne, rfl⟩ := hn
  obtain ⟨T', P', hT', hP', hP0, rfl⟩ := hg
  have e1 : f = f1 := by simpa [hf] using hf1
  have e2 : f = f2 := by simpa [hf] using hf2
  have e3 : T = T' := by simpa [hT] using hT'
  have e4 : P = P' := by simpa [hP] using hP'
  subst e1; subst e2; subst e3; subst e4
  obtain ⟨_, _, _, _, hT0, rfl⟩ := grossTotal_eq_ok.1 hT
  obtain ⟨_, _, _, _, hP1, rfl⟩ := grossPower_eq_ok.1 hP
  have hPp := lt_of_le_of_ne hP1 (Ne.symm hP0)
  exact ⟨cop_cooling hT0 hPp h0, fun h => cop_cooling_lt hT0 hPp h⟩

/-- C38: the same for the sensible COP. -/
theorem C38_sensible_cop (f n g : K) (hf : U.coolingFanPower c = .ok f) (h0 : 0 ≤ f) (hn : U.netSensibleCoolingCOP c = .ok n)
    (hg : U.grossSensibleCoolingCOP c = .ok g) : n ≤ g ∧ (0 < f → n < g) := by
  simp only [netSensibleCoolingCOP, grossSensibleCoolingCOP, netSensibleCoolingCapacity, netCoolingPower, coolingFanHeat,
    quotient_eq_ok, diff_eq_ok, sum_eq_ok] at hn hg
  obtain ⟨_, _, ⟨T, f1, hT, hf1, rfl⟩, ⟨P, f2, hP, hf2, rfl⟩, hne, rfl⟩ := hn
  obtain ⟨T', P', hT', hP', hP0, rfl⟩ := hg
  have e1 : f = f1 := by simpa [hf] using hf1
  have e2 : f = f2 := by simpa [hf] using hf2
  have e3 : T = T' := by simpa [hT] using hT'
  have e4 : P = P' := by simpa [hP] using hP'
  subst e1; subst e2; subst e3; subst e4
  obtain ⟨_, hT0⟩ := grossSensible_eq_ok.1 hT
  obtain ⟨_, _, _, _, hP1, rfl⟩ := grossPower_eq_ok.1 hP
  have hPp := lt_of_le_of_ne hP1 (Ne.symm hP0)
  exact ⟨cop_cooling hT0 hPp h0, fun h => cop_cooling_lt hT0 hPp h⟩

/-- C38: the net sensible heat ratio never exceeds the gross one while the unit has net total capacity. -/
theorem C38_shr (f n g q : K) (hf : U.coolingFanPower c = .ok f) (h0 : 0 ≤ f) (hq : U.netTotalCoolingCapacity c = .ok q) (hq0 : 0 < q)
    (hn : U.netSHR c = .ok n) (hg : U.grossSHR c = .ok g) : n ≤ g := by
  have hg' : ∃ S T, U.grossSensibleCoolingCapacity c = .ok S ∧ U.grossTotalCoolingCapacity c = .ok T ∧ T ≠ 0 ∧ S / T ≤ 1 ∧ g = S / T := by
    simp only [grossSHR, bind_eq_ok, pdiv_eq_ok, limitCheck_both_eq_ok] at hg
    obtain ⟨S, hS, T, hT, _, ⟨hT0, rfl⟩, _, h1, rfl⟩ := hg
    exact ⟨S, T, hS, hT, hT0, h1, rfl⟩
  obtain ⟨S, T, hS, hT, hT0, h1, rfl⟩ := hg'
  simp only [netSHR, netSensibleCoolingCapacity, netTotalCoolingCapacity, coolingFanHeat, quotient_eq_ok, diff_eq_ok] at hn hq
  obtain ⟨_, _, ⟨S', f1, hS', hf1, rfl⟩, ⟨T', f2, hT', hf2, rfl⟩, hne, rfl⟩ := hn
  obtain ⟨T'', f3, hT'', hf3, rfl⟩ := hq
  have e1 : f = f1 := by simpa [hf] using hf1
  have e2 : f = f2 := by simpa [hf] using hf2
  have e3 : f = f3 := by simpa [hf] using hf3
  have e4 : T = T' := by simpa [hT] using hT'
  have e5 : T = T'' := by simpa [hT] using hT''
  have e6 : S = S' := by simpa [hS] using hS'
  subst e1; subst e2; subst e3; subst e4; subst e5; subst e6
  have hTp : 0 < T := by linarith
  exact shr_net ((div_le_one₀ hTp).1 h1) h0 (by linarith)

/-- C38: with a gross heating COP of at least 1 (and positive power) the net COP lies between 1 and the gross COP; below 1 it lies between the gross COP
and 1. Steady state. -/
theorem C38_steady_heating_cop (f p n g : K) (hf : U.heatingFanPower c = .ok f) (h0 : 0 ≤ f) (hp : U.grossSteadyHeatingPower c = .ok p)
    (hp0 : 0 < p) (hn : U.netSteadyHeatingCOP c = .ok n) (hg : U.grossSteadyHeatingCOP c = .ok g) :
    (1 ≤ g → 1 ≤ n ∧ n ≤ g) ∧ (g ≤ 1 → g ≤ n ∧ n ≤ 1) := by
  simp only [netSteadyHeatingCOP, grossSteadyHeatingCOP, netSteadyHeatingCapacity, netSteadyHeatingPower, quotient_eq_ok, sum_eq_ok] at hn hg
  obtain ⟨_, _, ⟨T, f1, hT, hf1, rfl⟩, ⟨P, f2, hP, hf2, rfl⟩, hne, rfl⟩ := hn
  obtain ⟨T', P', hT', hP', hP0, rfl⟩ := hg
  have e1 : f = f1 := by simpa [hf] using hf1
  have e2 : f = f2 := by simpa [hf] using hf2
  have e3 : T = T' := by simpa [hT] using hT'
  have e4 : P = P' := by simpa [hP] using hP'
  have e5 : p = P := by simpa [hp] using hP
  subst e1; subst e2; subst e3; subst e4; subst e5
  exact ⟨fun h => (cop_heating hp0 h0).1 ((one_le_div₀ hp0).1 h), fun h => (cop_heating hp0 h0).2 ((div_le_one₀ hp0).1 h)⟩

/-- C38: the same for the integrated (frost-adjusted) COP. -/
theorem C38_integrated_heating_cop (f p n g : K) (hf : U.heatingFanPower c = .ok f) (h0 : 0 ≤ f)
    (hp : U.grossIntegratedHeatingPower c = .ok p) (hp0 : 0 < p) (hn : U.netIntegratedHeatingCOP c = .ok n)
    (hg : U.grossIntegratedHeatingCOP c = .ok g) : (1 ≤ g → 1 ≤ n ∧ n ≤ g) ∧ (g ≤ 1 → g ≤ n ∧ n ≤ 1) := by
  simp only [netIntegratedHeatingCOP, grossIntegratedHeatingCOP, netIntegratedHeatingCapacity, netIntegratedHeatingPower, quotient_eq_ok,
    sum_eq_ok] at hn hg
  obtain ⟨_, _, ⟨T, f1, hT, hf1, rfl⟩, ⟨P, f2, hP, hf2, rfl⟩, hne, rfl⟩ := hn
  obtain ⟨T', P', hT', hP', hP0, rfl⟩ := hg
  have e1 : f = f1 := by simpa [hf] using hf1
  have e2 : f = f2 := by simpa [hf] using hf2
  have e3 : T = T' := by simpa [hT] using hT'
  have e4 : P = P' := by simpa [hP] using hP'
  have e5 : p = P := by simpa [hp] using hP
  subst e1; subst e2; subst e3; subst e4; subst e5
  exact ⟨fun h => (cop_heating hp0 h0).1 ((one_le_div₀ hp0).1 h), fun h => (cop_heating hp0 h0).2 ((div_le_one₀ hp0).1 h)⟩

/-- A unit with one operating point: 10 kW, 3 kW, sensible 7 kW, fan 500 W; heating 9 kW, 3 kW; integrated 8 kW, 2.9 kW. -/
def sample : Performance Unit ℚ :=
  { coolCap := fun _ => .ok 10000, coolCapCharge := fun _ => .ok 1, coolPow := fun _ => .ok 3000, coolPowCharge := fun _ => .ok 1
    sensible := fun _ => .ok 7000, heatCap := fun _ => .ok 9000, heatCapCharge := fun _ => .ok 1, heatPow := fun _ => .ok 3000
    heatPowCharge := fun _ => .ok 1, intCap := fun _ => .ok 8000, intPow := fun _ => .ok 2900, fanPower := fun _ => .ok 500
    db := fun _ => 0, aFull := (), h1Full := () }

/-- The hypotheses of the C38 theorems are met by a concrete unit. -/
example : sample.netTotalCoolingCapacity none = .ok 9500 ∧ sample.netCoolingPower none = .ok 3500 ∧
    sample.netSensibleCoolingCapacity none = .ok 6500 ∧ sample.netTotalCoolingCOP none = .ok (9500 / 3500) ∧
    sample.grossTotalCoolingCOP none = .ok (10000 / 3000) ∧ sample.netSHR none = .ok (6500 / 9500) ∧ sample.grossSHR none = .ok (7 / 10) ∧
    sample.netSensibleCoolingCOP none = .ok (6500 / 3500) ∧ sample.grossSensibleCoolingCOP none = .ok (7 / 3) ∧
    sample.netSteadyHeatingCOP none = .ok (9500 / 3500) ∧ sample.grossSteadyHeatingCOP none = .ok 3 ∧
    sample.netIntegratedHeatingCOP none = .ok (8500 / 3400) ∧ sample.grossIntegratedHeatingCOP none = .ok (8000 / 2900) ∧
    sample.netSteadyHeatingCapacity none = .ok 9500 ∧ sample.netSteadyHeatingPower none = .ok 3500 ∧
    sample.netIntegratedHeatingCapacity none = .ok 8500 ∧ sample.netIntegratedHeatingPower none = .ok 3400 := by decide +kernel

/-! ## C39: bounds -/

/-- C39: every cooling value returned is physical, and it is the model's own value: nothing is silently clipped. -/
theorem C39_cooling (v : K) :
    (U.grossTotalCoolingCapacity c = .ok v → 0 ≤ v ∧ ∃ q f, U.coolCap (c.getD U.aFull) = .ok q ∧
      U.coolCapCharge (c.getD U.aFull) = .ok f ∧ v = q * f) ∧
    (U.grossCoolingPower c = .ok v → 0 ≤ v ∧ ∃ p f, U.coolPow (c.getD U.aFull) = .ok p ∧
      U.coolPowCharge (c.getD U.aFull) = .ok f ∧ v = p * f) ∧
    (U.grossSensibleCoolingCapacity c = .ok v → 0 ≤ v ∧ U.sensible (c.getD U.aFull) = .ok v) ∧
    (U.grossSHR c = .ok v → 0 ≤ v ∧ v ≤ 1 ∧ ∃ s t, U.grossSensibleCoolingCapacity c = .ok s ∧
      U.grossTotalCoolingCapacity c = .ok t ∧ v * t = s) := by
  refine ⟨fun h => ?_, fun h => ?_, fun h => ?_, fun h => ?_⟩
  · obtain ⟨q, f, hq, hf, h0, rfl⟩ := grossTotal_eq_ok.1 h; exact ⟨h0, q, f, hq, hf, rfl⟩
  · obtain ⟨q, f, hq, hf, h0, rfl⟩ := grossPower_eq_ok.1 h; exact ⟨h0, q, f, hq, hf, rfl⟩
  · obtain ⟨hq, h0⟩ := grossSensible_eq_ok.1 h; exact ⟨h0, hq⟩
  · simp only [grossSHR, bind_eq_ok, pdiv_eq_ok, limitCheck_both_eq_ok] at h
    obtain ⟨S, hS, T, hT, _, ⟨hT0, rfl⟩, h0, h1, rfl⟩ := h
    exact ⟨h0, h1, S, T, hS, hT, div_mul_cancel₀ _ hT0⟩

/-- C39: an unphysical cooling value raises the range exception. -/
theorem C39_cooling_rejects (q f p e : K) (hq : U.coolCap (c.getD U.aFull) = .ok q) (hf : U.coolCapCharge (c.getD U.aFull) = .ok f)
    (hp : U.coolPow (c.getD U.aFull) = .ok p) (he : U.coolPowCharge (c.getD U.aFull) = .ok e) :
    (q * f < 0 → U.grossTotalCoolingCapacity c = .error .exception) ∧ (p * e < 0 → U.grossCoolingPower c = .error .exception) := by
  refine ⟨fun h => ?_, fun h => ?_⟩
  · simp [grossTotalCoolingCapacity, hq, hf, bind_ok, limitCheck, h]
  · simp [grossCoolingPower, hp, he, bind_ok, limitCheck, h]

/-- C39: so does a sensible capacity below zero or above the total capacity. -/
theorem C39_shr_rejects (s t : K) (hs : U.sensible (c.getD U.aFull) = .ok s) (ht : U.grossTotalCoolingCapacity c = .ok t) (h0 : 0 < t) :
    (s < 0 ∨ t < s) → U.grossSHR c = .error .exception := by
  intro h
  by_cases hs0 : s < 0
  · simp [grossSHR, grossSensibleCoolingCapacity, hs, bind_ok, limitCheck, hs0, bind_error]
  · have h1 : t < s := h.resolve_left hs0
    have hS : U.grossSensibleCoolingCapacity c = .ok s := grossSensible_eq_ok.2 ⟨hs, not_lt.mp hs0⟩
    have h2 : ¬ s / t < 0 := not_lt.mpr (div_nonneg (not_lt.mp hs0) h0.le)
    have h3 : 1 < s / t := (one_lt_div₀ h0).2 h1
    simp [grossSHR, hS, ht, bind_ok, pdiv_ok h0.ne', limitCheck, h2, h3]

example : sample.grossTotalCoolingCapacity none = .ok 10000 ∧
    ({ sample with coolCap := fun _ => .ok (-1) }).grossTotalCoolingCapacity none = .error .exception ∧
    ({ sample with sensible := fun _ => .ok 10001 }).grossSHR none = .error .exception := by decide +kernel

/-- C39 (heating): the heating accessors return the product of the model value and the charge factor whatever its sign. -/
theorem C39_heating_unchecked_partial (q f : K) (hq : U.heatCap (c.getD U.h1Full) = .ok q) (hf : U.heatCapCharge (c.getD U.h1Full) = .ok f) :
    U.grossSteadyHeatingCapacity c = .ok (q * f) := by simp [grossSteadyHeatingCapacity, hq, hf, bind_ok, pure_eq_ok]

/-! ## C44: interpolation between two conditions -/

/-- C44: the value is on the straight line through the two test points: exact at both, affine in between and beyond. -/
theorem C44_line (db : C → K) (f f2 : C → Py K) (c1 c2 : C) (y1 y2 : K) (h1 : f c1 = .ok y1) (h2 : f2 c2 = .ok y2) (hd : db c1 ≠ db c2) :
    interpolateSeparate db f f2 c1 c2 (db c1) = .ok y1 ∧ interpolateSeparate db f f2 c1 c2 (db c2) = .ok y2 ∧
      ∀ s t w : K, ∃ a b, interpolateSeparate db f f2 c1 c2 s = .ok a ∧ interpolateSeparate db f f2 c1 c2 t = .ok b ∧
        interpolateSeparate db f f2 c1 c2 ((1 - w) * s + w * t) = .ok ((1 - w) * a + w * b) := by
  have hd' : db c2 - db c1 ≠ 0 := sub_ne_zero.2 (Ne.symm hd)
  have hv : ∀ x, interpolateSeparate db f f2 c1 c2 x = .ok (y1 + (y2 - y1) / (db c2 - db c1) * (x - db c1)) := by
    intro x; simp [interpolateSeparate, h1, h2, bind_ok, pdiv_ok hd', pure_eq_ok]
  refine ⟨by rw [hv]; simp, by rw [hv]; rw [div_mul_cancel₀ _ hd']; simp, fun s t w => ⟨_, _, hv s, hv t, ?_⟩⟩
  rw [hv]; congr 1; ring

/-- C44: the same for `interpolate`, and equal outdoor temperatures raise. -/
theorem C44_interpolate (db : C → K) (f : C → Py K) (c1 c2 : C) (y1 y2 : K) (h1 : f c1 = .ok y1) (h2 : f c2 = .ok y2) :
    (db c1 ≠ db c2 → interpolate db f c1 c2 (db c1) = .ok y1 ∧ interpolate db f c1 c2 (db c2) = .ok y2) ∧
      (db c1 = db c2 → ∀ x, interpolate db f c1 c2 x = .error .zeroDivision) := by
  refine ⟨fun hd => ⟨(C44_line db f f c1 c2 y1 y2 h1 h2 hd).1, (C44_line db f f c1 c2 y1 y2 h1 h2 hd).2.1⟩, fun hd x => ?_⟩
  simp [interpolate, interpolateSeparate, h1, h2, bind_ok, hd, pdiv_zero, bind_error]

/-- C44: between the two temperatures the value stays between the two test values. -/
theorem C44_between (db : C → K) (f f2 : C → Py K) (c1 c2 : C) (y1 y2 x v : K) (h1 : f c1 = .ok y1) (h2 : f2 c2 = .ok y2)
    (hx1 : db c1 ≤ x) (hx2 : x ≤ db c2) (hv : interpolateSeparate db f f2 c1 c2 x = .ok v) : min y1 y2 ≤ v ∧ v ≤ max y1 y2 := by
  simp only [interpolateSeparate, h1, h2, bind_ok, bind_eq_ok, pdiv_eq_ok, pure_eq_ok, Except.ok.injEq] at hv
  obtain ⟨_, ⟨h0, rfl⟩, rfl⟩ := hv
  have hd : 0 < db c2 - db c1 := lt_of_le_of_ne (by linarith) (Ne.symm h0)
  have e : y1 + (y2 - y1) / (db c2 - db c1) * (x - db c1) =
      (1 - (x - db c1) / (db c2 - db c1)) * y1 + (x - db c1) / (db c2 - db c1) * y2 := by field_simp; ring
  have w0 : 0 ≤ (x - db c1) / (db c2 - db c1) := div_nonneg (by linarith) hd.le
  have w1 : (x - db c1) / (db c2 - db c1) ≤ 1 := (div_le_one₀ hd).2 (by linarith)
  rw [e]
  constructor
  · nlinarith [min_le_left y1 y2, min_le_right y1 y2]
  · nlinarith [le_max_left y1 y2, le_max_right y1 y2]

example : interpolate (C := Fin 2) (fun i => if i = 0 then (10 : ℚ) else 20) (fun i => .ok (if i = 0 then 3 else 5)) 0 1 15 = .ok 4 ∧
    interpolate (C := Fin 2) (fun _ => (10 : ℚ)) (fun i => .ok (if i = 0 then 3 else 5)) 0 1 15 = .error .zeroDivision := by
  decide +kernel

end Performance

/-! ## C43: bypass factor -/

open Real

/-- C43: with a rated bypass factor in (0, 1) (which is what the three enthalpies in order give), the bypass factor at the rated flow is
the rated one, it stays in (0, 1) and increases strictly with the mass flow. -/
theorem C43_bypass (hIn hOut hADP mass : ℝ) (h1 : hADP < hOut) (h2 : hOut < hIn) (hm : 0 < mass) :
    ∃ bf ntu, ratedBypassFactor hIn hOut hADP mass = .ok (bf, ntu) ∧ 0 < bf ∧ bf < 1 ∧ bypassFactor ntu mass = .ok bf ∧
      (∀ m, 0 < m → ∃ b, bypassFactor ntu m = .ok b ∧ 0 < b ∧ b < 1) ∧
      (∀ m m' b b', 0 < m → m < m' → bypassFactor ntu m = .ok b → bypassFactor ntu m' = .ok b' → b < b') ∧
      bypassFactor ntu 0 = .error .zeroDivision := by
  have hd : 0 < hIn - hADP := by linarith
  have hb0 : 0 < (hOut - hADP) / (hIn - hADP) := div_pos (by linarith) hd
  have hb1 : (hOut - hADP) / (hIn - hADP) < 1 := (div_lt_one₀ hd).2 (by linarith)
  have hl : Real.log ((hOut - hADP) / (hIn - hADP)) < 0 := Real.log_neg hb0 hb1
  have hntu : 0 < -mass * Real.log ((hOut - hADP) / (hIn - hADP)) := by nlinarith
  have hval : ∀ n m : ℝ, m ≠ 0 → bypassFactor n m = .ok (exp (-n / m)) := by
    intro n m hm; simp [bypassFactor, pdiv_ok hm, bind_ok, pure_eq_ok]
  have hr : ratedBypassFactor hIn hOut hADP mass = .ok ((hOut - hADP) / (hIn - hADP), -mass * Real.log ((hOut - hADP) / (hIn - hADP))) := by
    simp [ratedBypassFactor, pdiv_ok hd.ne', bind_ok, plog_ok hb0, pure_eq_ok]
  refine ⟨_, _, hr, hb0, hb1, ?_, ?_, ?_, ?_⟩
  · rw [hval _ _ hm.ne']
    have : -(-mass * Real.log ((hOut - hADP) / (hIn - hADP))) / mass = Real.log ((hOut - hADP) / (hIn - hADP)) := by
      rw [neg_mul, neg_neg, mul_div_cancel_left₀ _ hm.ne']
    rw [this, Real.exp_log hb0]
  · intro m hm'
    refine ⟨_, hval _ _ hm'.ne', Real.exp_pos _, ?_⟩
    rw [Real.exp_lt_one_iff]
    exact div_neg_of_neg_of_pos (by linarith) hm'
  · intro m m' b b' hm0 hmm hb hb'
    rw [hval _ _ hm0.ne'] at hb
    rw [hval _ _ (hm0.trans hmm).ne'] at hb'
    simp only [Except.ok.injEq] at hb hb'
    rw [← hb, ← hb', Real.exp_lt_exp, div_lt_div_iff₀ hm0 (hm0.trans hmm)]
    nlinarith
  · simp [bypassFactor, pdiv_zero, bind_error]

/-- C43: an outlet state at or beyond the apparatus dew point is rejected when the rated bypass factor is computed. -/
theorem C43_invalid (hIn hOut hADP mass : ℝ) (h1 : hOut ≤ hADP) (h2 : hADP < hIn) : ratedBypassFactor hIn hOut hADP mass = .error .value := by
  have hd : 0 < hIn - hADP := by linarith
  have hb0 : ¬ 0 < (hOut - hADP) / (hIn - hADP) := not_lt.mpr (div_nonpos_of_nonpos_of_nonneg (by linarith) hd.le)
  simp [ratedBypassFactor, pdiv_ok hd.ne', bind_ok, plog, hb0, bind_error]

/-- Enthalpies 64, 50, 35 kJ/kg and 1.2 kg/s satisfy the hypotheses. -/
example : ∃ bf ntu, ratedBypassFactor 64 50 35 1.2 = .ok (bf, ntu) ∧ 0 < bf ∧ bf < 1 := by
  obtain ⟨bf, ntu, h, h0, h1, _⟩ := C43_bypass 64 50 35 1.2 (by norm_num) (by norm_num) (by norm_num)
  exact ⟨bf, ntu, h, h0, h1⟩

end Resdx.DX
