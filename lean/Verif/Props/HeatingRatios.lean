import Verif.Props.ChargeFault

/-!
# C133: the heating capacity and power ratios

A unit reports the ratio of its integrated to its steady-state heating capacity and power, gross and net. They are what the frost takes: with the RESNET model they depend on the outdoor
temperature only, and not on the speed, the indoor air, the airflow or, for the capacity, the charge.
-/

set_option linter.unusedSectionVars false
set_option linter.unusedSimpArgs false

namespace Resdx.Spec

variable {K : Type} [Field K] [LinearOrder K]

/-- What frost leaves of the capacity (`share` 1.8) or power (0.3) at an outdoor temperature in °F. -/
def frostLeaves (share : K) (defrosting : Bool) (tF : K) : K := if defrosting then 1 - share * resnetDefrostFraction tF else 1

end Resdx.Spec

namespace Resdx

open Spec DX Performance

section
variable {C K : Type} [Field K] [LinearOrder K] [IsStrictOrderedRing K]

theorem ratio_iff {x y : Py K} {r : K} : (do pdiv (← x) (← y) : Py K) = .ok r ↔ ∃ a b, x = .ok a ∧ y = .ok b ∧ b ≠ 0 ∧ r * b = a := by
  simp only [bind_eq_ok, pdiv_eq_ok]
  constructor
  · rintro ⟨a, ha, b, hb, hb0, rfl⟩
    exact ⟨a, b, ha, hb, hb0, by field_simp⟩
  · rintro ⟨a, b, ha, hb, hb0, rfl⟩
    exact ⟨_, ha, b, hb, hb0, by field_simp⟩

/-- C133, every model: each ratio times the steady-state value is the integrated one, and a ratio is reported exactly when both values are and the steady-state one is not zero. -/
theorem C133_ratios (U : Performance C K) (c : Option C) (r : K) :
    (U.grossHeatingCapacityRatio c = .ok r ↔ ∃ i s, U.grossIntegratedHeatingCapacity c = .ok i ∧ U.grossSteadyHeatingCapacity c = .ok s ∧ s ≠ 0 ∧ r * s = i) ∧
    (U.netHeatingCapacityRatio c = .ok r ↔ ∃ i s, U.netIntegratedHeatingCapacity c = .ok i ∧ U.netSteadyHeatingCapacity c = .ok s ∧ s ≠ 0 ∧ r * s = i) ∧
    (U.grossHeatingPowerRatio c = .ok r ↔ ∃ i s, U.grossIntegratedHeatingPower c = .ok i ∧ U.grossSteadyHeatingPower c = .ok s ∧ s ≠ 0 ∧ r * s = i) ∧
    (U.netHeatingPowerRatio c = .ok r ↔ ∃ i s, U.netIntegratedHeatingPower c = .ok i ∧ U.netSteadyHeatingPower c = .ok s ∧ s ≠ 0 ∧ r * s = i) :=
  ⟨ratio_iff, ratio_iff, ratio_iff, ratio_iff⟩

/-- C133, every model: the integrated COP is the steady-state COP times the ratio of the two ratios, gross and net. -/
theorem C133_cop (U : Performance C K) (c : Option C) {rq rp e : K} :
    (U.grossHeatingCapacityRatio c = .ok rq → U.grossHeatingPowerRatio c = .ok rp → rp ≠ 0 → U.grossSteadyHeatingCOP c = .ok e → U.grossIntegratedHeatingCOP c = .ok (e * rq / rp)) ∧
    (U.netHeatingCapacityRatio c = .ok rq → U.netHeatingPowerRatio c = .ok rp → rp ≠ 0 → U.netSteadyHeatingCOP c = .ok e → U.netIntegratedHeatingCOP c = .ok (e * rq / rp)) := by
  have key : ∀ {qi qs pi ps : Py K}, (do pdiv (← qi) (← qs) : Py K) = .ok rq → (do pdiv (← pi) (← ps) : Py K) = .ok rp → rp ≠ 0 → (do pdiv (← qs) (← ps) : Py K) = .ok e →
      (do pdiv (← qi) (← pi) : Py K) = .ok (e * rq / rp) := by
    intro qi qs pi ps h1 h2 hr h3
    obtain ⟨a, b, rfl, rfl, hb, rfl⟩ := ratio_iff.1 h1
    obtain ⟨a', b', rfl, rfl, hb', rfl⟩ := ratio_iff.1 h2
    obtain ⟨_, _, e1, e2, -, hq⟩ := ratio_iff.1 h3
    cases e1; cases e2
    refine ratio_iff.2 ⟨_, _, rfl, rfl, mul_ne_zero hr hb', ?_⟩
    rw [← hq]; field_simp
  exact ⟨key, key⟩

end

section
variable {K : Type} [Field K] [LinearOrder K] [IsStrictOrderedRing K] (E : Env K) (S : Sys K) (D : Resnet.Data K) (sensible fanPower : Conditions K → Py K) (aFull h1Full c : Conditions K)

/-- C133, RESNET model, any charge: the gross capacity ratio is what frost leaves of the capacity; the gross power ratio is too if it is multiplied by the charge factor of the power. -/
theorem C133_resnet {q p k : K} (hq : (Resnet.unit E S D sensible fanPower aFull h1Full).grossSteadyHeatingCapacity (some c) = .ok q) (q0 : q ≠ 0)
    (hp : (Resnet.unit E S D sensible fanPower aFull h1Full).heatPow c = .ok p) (p0 : p ≠ 0)
    (hk : (Resnet.unit E S D sensible fanPower aFull h1Full).heatPowCharge c = .ok k) (k0 : k ≠ 0) :
    (Resnet.unit E S D sensible fanPower aFull h1Full).grossHeatingCapacityRatio (some c) = .ok (frostLeaves 1.8 (S.defrost.inDefrost c.outdoor.db) (toF c.outdoor.db)) ∧
    ∃ r, (Resnet.unit E S D sensible fanPower aFull h1Full).grossHeatingPowerRatio (some c) = .ok r ∧ r * k = frostLeaves 0.3 (S.defrost.inDefrost c.outdoor.db) (toF c.outdoor.db) := by
  obtain ⟨h1, -⟩ := C133_ratios (Resnet.unit E S D sensible fanPower aFull h1Full) (some c) (frostLeaves 1.8 (S.defrost.inDefrost c.outdoor.db) (toF c.outdoor.db))
  obtain ⟨-, -, h3, -⟩ := C133_ratios (Resnet.unit E S D sensible fanPower aFull h1Full) (some c) (frostLeaves 0.3 (S.defrost.inDefrost c.outdoor.db) (toF c.outdoor.db) / k)
  have hs : (Resnet.unit E S D sensible fanPower aFull h1Full).grossSteadyHeatingPower (some c) = .ok (p * k) := by
    simp only [grossSteadyHeatingPower, Option.getD_some, hp, hk, bind_ok, pure_eq_ok]
  refine ⟨h1.2 ⟨_, q, C40_capacity_law E S D sensible fanPower aFull h1Full (some c) q hq, hq, q0, ?_⟩, _,
    h3.2 ⟨_, p * k, C40_power_law E S D sensible fanPower aFull h1Full (some c) p hp, hs, mul_ne_zero p0 k0, ?_⟩, by field_simp⟩
  · simp only [frostLeaves, Option.getD_some]
    split <;> ring
  · simp only [frostLeaves, Option.getD_some]
    split
    · field_simp; ring
    · field_simp

/-- C133, RESNET model: with the nominal charge the gross power ratio is what frost leaves of the power. -/
theorem C133_nominal (hS : S.chargeDeviation = 0) {p : K} (hp : (Resnet.unit E S D sensible fanPower aFull h1Full).grossSteadyHeatingPower (some c) = .ok p) (p0 : p ≠ 0) :
    (Resnet.unit E S D sensible fanPower aFull h1Full).grossHeatingPowerRatio (some c) = .ok (frostLeaves 0.3 (S.defrost.inDefrost c.outdoor.db) (toF c.outdoor.db)) := by
  have hm : (Resnet.unit E S D sensible fanPower aFull h1Full).heatPow c = .ok p := by
    have hp' := hp
    simp only [grossSteadyHeatingPower, prod_eq_ok] at hp'
    obtain ⟨a, b, ha, hb, rfl⟩ := hp'
    have : b = 1 := by simpa [Resnet.unit, Nrel.gradingModel, hS, eq_comm] using hb
    subst this; rw [mul_one]; exact ha
  refine (C133_ratios _ (some c) _).2.2.1.2 ⟨_, p, C40_power_law E S D sensible fanPower aFull h1Full (some c) p hm, hp, p0, ?_⟩
  simp only [frostLeaves, Option.getD_some]
  split <;> ring

/-- C133, RESNET model: the fan hides part of the loss, so the net capacity ratio lies between the gross one and one. -/
theorem C133_net {q v : K} (hq : (Resnet.unit E S D sensible fanPower aFull h1Full).grossSteadyHeatingCapacity (some c) = .ok q) (q0 : 0 < q) (hv : fanPower c = .ok v) (v0 : 0 ≤ v) :
    ∃ r, (Resnet.unit E S D sensible fanPower aFull h1Full).netHeatingCapacityRatio (some c) = .ok r ∧
      frostLeaves 1.8 (S.defrost.inDefrost c.outdoor.db) (toF c.outdoor.db) ≤ r ∧ r ≤ 1 ∧ 0.856 ≤ r := by
  have hi := C40_capacity_law E S D sensible fanPower aFull h1Full (some c) q hq
  have hf : (Resnet.unit E S D sensible fanPower aFull h1Full).heatingFanPower (some c) = .ok v := hv
  have n0 : 0 < q + v := by linarith
  obtain ⟨f0, f1⟩ := fraction_bounds (toF c.outdoor.db)
  have hb : 0.856 ≤ frostLeaves 1.8 (S.defrost.inDefrost c.outdoor.db) (toF c.outdoor.db) ∧ frostLeaves 1.8 (S.defrost.inDefrost c.outdoor.db) (toF c.outdoor.db) ≤ 1 := by
    simp only [frostLeaves]
    split <;> constructor <;> norm_num <;> linarith
  have hi' : (Resnet.unit E S D sensible fanPower aFull h1Full).grossIntegratedHeatingCapacity (some c) =
      .ok (q * frostLeaves 1.8 (S.defrost.inDefrost c.outdoor.db) (toF c.outdoor.db)) := by
    rw [hi]
    simp only [frostLeaves, Option.getD_some]
    congr 1
    split <;> ring
  generalize frostLeaves 1.8 (S.defrost.inDefrost c.outdoor.db) (toF c.outdoor.db) = g at *
  have hr : g ≤ (q * g + v) / (q + v) := by rw [le_div_iff₀ n0]; nlinarith [mul_nonneg v0 (sub_nonneg.2 hb.2)]
  refine ⟨(q * g + v) / (q + v), ?_, hr, ?_, hb.1.trans hr⟩
  · simp only [netHeatingCapacityRatio, netIntegratedHeatingCapacity, netSteadyHeatingCapacity, hi', hq, hf, bind_ok, pure_eq_ok, pdiv_ok n0.ne']
  · rw [div_le_one n0]; nlinarith [mul_nonneg q0.le (sub_nonneg.2 hb.2)]

/-- C133, RESNET model with the nominal charge: the net power ratio lies between the gross one and one, and is never below 0.976. -/
theorem C133_net_power (hS : S.chargeDeviation = 0) {p v : K} (hp : (Resnet.unit E S D sensible fanPower aFull h1Full).grossSteadyHeatingPower (some c) = .ok p) (p0 : 0 < p)
    (hv : fanPower c = .ok v) (v0 : 0 ≤ v) :
    ∃ r, (Resnet.unit E S D sensible fanPower aFull h1Full).netHeatingPowerRatio (some c) = .ok r ∧
      frostLeaves 0.3 (S.defrost.inDefrost c.outdoor.db) (toF c.outdoor.db) ≤ r ∧ r ≤ 1 ∧ 0.976 ≤ r := by
  obtain ⟨i, s, hi, hs, -, e⟩ := (C133_ratios _ (some c) _).2.2.1.1 (C133_nominal E S D sensible fanPower aFull h1Full c hS hp p0.ne')
  obtain rfl : p = s := by rw [hp] at hs; exact Except.ok.inj hs
  have hf : (Resnet.unit E S D sensible fanPower aFull h1Full).heatingFanPower (some c) = .ok v := hv
  have n0 : 0 < p + v := by linarith
  obtain ⟨f0, f1⟩ := fraction_bounds (toF c.outdoor.db)
  have hb : 0.976 ≤ frostLeaves 0.3 (S.defrost.inDefrost c.outdoor.db) (toF c.outdoor.db) ∧ frostLeaves 0.3 (S.defrost.inDefrost c.outdoor.db) (toF c.outdoor.db) ≤ 1 := by
    simp only [frostLeaves]
    split <;> constructor <;> norm_num <;> linarith
  generalize frostLeaves 0.3 (S.defrost.inDefrost c.outdoor.db) (toF c.outdoor.db) = g at *
  subst e
  have hr : g ≤ (g * p + v) / (p + v) := by rw [le_div_iff₀ n0]; nlinarith [mul_nonneg v0 (sub_nonneg.2 hb.2)]
  refine ⟨(g * p + v) / (p + v), ?_, hr, ?_, hb.1.trans hr⟩
  · simp only [netHeatingPowerRatio, netIntegratedHeatingPower, netSteadyHeatingPower, hi, hp, hf, bind_ok, pure_eq_ok, pdiv_ok n0.ne']
  · rw [div_le_one n0]; nlinarith [mul_nonneg p0.le (sub_nonneg.2 hb.2)]

/-- C133, RESNET model with the nominal charge: frost never raises the net COP of a unit that heats at least as much as it draws (gross). -/
theorem C133_net_cop (hS : S.chargeDeviation = 0) {q p v : K} (hq : (Resnet.unit E S D sensible fanPower aFull h1Full).grossSteadyHeatingCapacity (some c) = .ok q)
    (hp : (Resnet.unit E S D sensible fanPower aFull h1Full).grossSteadyHeatingPower (some c) = .ok p) (p0 : 0 < p) (hqp : p ≤ q) (hv : fanPower c = .ok v) (v0 : 0 ≤ v) :
    ∃ e i, (Resnet.unit E S D sensible fanPower aFull h1Full).netSteadyHeatingCOP (some c) = .ok e ∧ (Resnet.unit E S D sensible fanPower aFull h1Full).netIntegratedHeatingCOP (some c) = .ok i ∧
      i ≤ e ∧ (S.defrost.inDefrost c.outdoor.db = false → i = e) := by
  have q0 : 0 < q := p0.trans_le hqp
  obtain ⟨j, s, hj, hs, -, e2⟩ := (C133_ratios _ (some c) _).2.2.1.1 (C133_nominal E S D sensible fanPower aFull h1Full c hS hp p0.ne')
  obtain rfl : p = s := by rw [hp] at hs; exact Except.ok.inj hs
  have hf : (Resnet.unit E S D sensible fanPower aFull h1Full).heatingFanPower (some c) = .ok v := hv
  have hi : (Resnet.unit E S D sensible fanPower aFull h1Full).grossIntegratedHeatingCapacity (some c) =
      .ok (q * frostLeaves 1.8 (S.defrost.inDefrost c.outdoor.db) (toF c.outdoor.db)) := by
    rw [C40_capacity_law E S D sensible fanPower aFull h1Full (some c) q hq]
    simp only [frostLeaves, Option.getD_some]
    congr 1
    split <;> ring
  obtain ⟨f0, f1⟩ := fraction_bounds (toF c.outdoor.db)
  have hg : frostLeaves 1.8 (S.defrost.inDefrost c.outdoor.db) (toF c.outdoor.db) ≤ frostLeaves 0.3 (S.defrost.inDefrost c.outdoor.db) (toF c.outdoor.db) ∧
      frostLeaves 0.3 (S.defrost.inDefrost c.outdoor.db) (toF c.outdoor.db) ≤ 1 ∧ 0 < frostLeaves 0.3 (S.defrost.inDefrost c.outdoor.db) (toF c.outdoor.db) := by
    simp only [frostLeaves]
    split <;> refine ⟨?_, ?_, ?_⟩ <;> norm_num <;> linarith
  have h1 : S.defrost.inDefrost c.outdoor.db = false → frostLeaves 1.8 (S.defrost.inDefrost c.outdoor.db) (toF c.outdoor.db) = 1 ∧
      frostLeaves 0.3 (S.defrost.inDefrost c.outdoor.db) (toF c.outdoor.db) = 1 := by intro h; simp [frostLeaves, h]
  generalize frostLeaves 0.3 (S.defrost.inDefrost c.outdoor.db) (toF c.outdoor.db) = g at *
  generalize frostLeaves 1.8 (S.defrost.inDefrost c.outdoor.db) (toF c.outdoor.db) = k at *
  subst e2
  obtain ⟨g1, g2, g3⟩ := hg
  have n0 : 0 < p + v := by linarith
  have n1 : 0 < g * p + v := by have := mul_pos g3 p0; linarith
  refine ⟨(q + v) / (p + v), (q * k + v) / (g * p + v), ?_, ?_, ?_, ?_⟩
  · simp only [netSteadyHeatingCOP, netSteadyHeatingCapacity, netSteadyHeatingPower, hq, hp, hf, bind_ok, pure_eq_ok, pdiv_ok n0.ne']
  · simp only [netIntegratedHeatingCOP, netIntegratedHeatingCapacity, netIntegratedHeatingPower, hi, hj, hf, bind_ok, pure_eq_ok, pdiv_ok n1.ne']
  · rw [div_le_div_iff₀ n1 n0]
    have a1 : 0 ≤ q * (g - k) * (p + v) := mul_nonneg (mul_nonneg q0.le (by linarith)) n0.le
    have a2 : 0 ≤ v * ((1 - g) * (q - p)) := mul_nonneg v0 (mul_nonneg (by linarith) (by linarith))
    nlinarith
  · intro h
    obtain ⟨rfl, rfl⟩ := h1 h
    rw [mul_one, one_mul]

end

/-- The hypotheses hold of the sample unit at 35 °F, where frost leaves 94.78 % of the capacity and 99.13 % of the power. -/
example : sampleSys.defrost.inDefrost sampleH2.outdoor.db = true ∧ (chargedSample 0).grossHeatingCapacityRatio (some sampleH2) = .ok 0.9478 ∧
    (chargedSample 0).grossHeatingPowerRatio (some sampleH2) = .ok 0.9913 ∧ (chargedSample (-0.1)).grossHeatingCapacityRatio (some sampleH2) = .ok 0.9478 := by decide +kernel

/-- The hypotheses of the theorems about the net figures hold of the sample unit at 35 °F: it heats more than it draws and its fan draws power. -/
example : okAnd ((chargedSample 0).grossSteadyHeatingPower (some sampleH2)) (fun p => decide (0 < p) && okAnd ((chargedSample 0).grossSteadyHeatingCapacity (some sampleH2)) (fun q => decide (p ≤ q))) = true ∧
    okAnd ((chargedSample 0).heatingFanPower (some sampleH2)) (fun v => decide (0 < v)) = true ∧
    okAnd ((chargedSample 0).netHeatingPowerRatio (some sampleH2)) (fun r => decide (0.9913 < r ∧ r < 1)) = true := by decide +kernel

/-- C133 is false of the code with a charge fault: a unit with 10 % too little charge reports a power ratio above one at 47 °F, where it does not defrost and its capacity ratio is one. -/
theorem C133_refuted : sampleSys.defrost.inDefrost sampleH1.outdoor.db = false ∧ (chargedSample (-0.1)).grossHeatingCapacityRatio (some sampleH1) = .ok 1 ∧
    ∃ r, (chargedSample (-0.1)).grossHeatingPowerRatio (some sampleH1) = .ok r ∧ 1 < r := by
  refine ⟨by decide +kernel, by decide +kernel, ?_⟩
  have h : okAnd ((chargedSample (-0.1)).grossHeatingPowerRatio (some sampleH1)) (fun r => decide (1 < r)) = true := by decide +kernel
  obtain ⟨r, h1, h2⟩ := okAnd_iff.1 h
  exact ⟨r, h1, of_decide_eq_true h2⟩

end Resdx
