import Verif.Props.Performance
import Verif.Props.Seer

/-!
# C129: what a refrigerant charge fault does to the efficiency
-/

set_option linter.unusedSectionVars false
set_option linter.unusedSimpArgs false

namespace Resdx

open Spec DX DX.Performance

variable {K : Type} [Field K] [LinearOrder K] [IsStrictOrderedRing K]

/-- The unit with another charge. -/
def charged (S : Sys K) (d : K) : Sys K := { S with chargeDeviation := d }

/-- The units whose charge is `d`, all else being equal, with either of the models that know charge faults. -/
inductive ByCharge (E : Env K) (fan : Conditions K → Py K) : (K → Performance (Conditions K) K) → Prop
  | resnet (S : Sys K) (D : Resnet.Data K) (sensible : Conditions K → Py K) (a h : Conditions K) :
      ByCharge E fan fun d => Resnet.unit E (charged S d) D sensible fan a h
  | nrel (S : Sys K) (time hum sensible : Conditions K → Py K) (a h : Conditions K) :
      ByCharge E fan fun d => Nrel.unit E (charged S d) time hum sensible fan a h

section
variable {E : Env K} {fan : Conditions K → Py K} {mk : K → Performance (Conditions K) K} (H : ByCharge E fan mk) {c : Conditions K} (hr : c.flow.ratio = some 1)
include H

theorem ByCharge.fan_eq (d : K) : (mk d).fanPower = fan := by cases H <;> rfl

include hr

/-- What a charge does at the rated airflow: the curves of the nominal unit times the published factors. -/
theorem ByCharge.cooling {d q p : K} (hd : d ≠ 0) (hc : c.heating = false) (hq : (mk d).grossTotalCoolingCapacity (some c) = .ok q) (hp : (mk d).grossCoolingPower (some c) = .ok p) :
    ∃ q0 p0, (mk 0).coolCap c = .ok q0 ∧ (mk 0).coolPow c = .ok p0 ∧ q = q0 * faultFactor false false c.indoor.dbC c.outdoor.dbC d ∧
      p = p0 * faultFactor false true c.indoor.dbC c.outdoor.dbC d ∧ 0 ≤ q ∧ 0 ≤ p := by
  cases H with
  | resnet S D sensible a h =>
    simp only [grossTotalCoolingCapacity, grossCoolingPower, Option.getD_some, bind_eq_ok, limitCheck_min_eq_ok] at hq hp
    obtain ⟨q0, h1, v, h2, h3, rfl⟩ := hq
    obtain ⟨p0, k1, w, k2, k3, rfl⟩ := hp
    have e1 := C42_rated_airflow E (charged S d) _ c .capacity v hd hr h2
    have e2 := C42_rated_airflow E (charged S d) _ c .power w hd hr k2
    rw [hc] at e1 e2
    exact ⟨q0, p0, h1, k1, by rw [e1]; rfl, by rw [e2]; rfl, h3, k3⟩
  | nrel S time hum sensible a h =>
    simp only [grossTotalCoolingCapacity, grossCoolingPower, Option.getD_some, bind_eq_ok, limitCheck_min_eq_ok] at hq hp
    obtain ⟨q0, h1, v, h2, h3, rfl⟩ := hq
    obtain ⟨p0, k1, w, k2, k3, rfl⟩ := hp
    have e1 := C42_rated_airflow E (charged S d) _ c .capacity v hd hr h2
    have e2 := C42_rated_airflow E (charged S d) _ c .power w hd hr k2
    rw [hc] at e1 e2
    exact ⟨q0, p0, h1, k1, by rw [e1]; rfl, by rw [e2]; rfl, h3, k3⟩

theorem ByCharge.heating {d q p : K} (hd : d ≠ 0) (hc : c.heating = true) (hq : (mk d).grossSteadyHeatingCapacity (some c) = .ok q) (hp : (mk d).grossSteadyHeatingPower (some c) = .ok p) :
    ∃ q0 p0, (mk 0).heatCap c = .ok q0 ∧ (mk 0).heatPow c = .ok p0 ∧ q = q0 * faultFactor true false c.indoor.dbC c.outdoor.dbC d ∧
      p = p0 * faultFactor true true c.indoor.dbC c.outdoor.dbC d := by
  cases H with
  | resnet S D sensible a h =>
    simp only [grossSteadyHeatingCapacity, grossSteadyHeatingPower, Option.getD_some, bind_eq_ok, pure_eq_ok, Except.ok.injEq] at hq hp
    obtain ⟨q0, h1, v, h2, rfl⟩ := hq
    obtain ⟨p0, k1, w, k2, rfl⟩ := hp
    have e1 := C42_rated_airflow E (charged S d) _ c .capacity v hd hr h2
    have e2 := C42_rated_airflow E (charged S d) _ c .power w hd hr k2
    rw [hc] at e1 e2
    exact ⟨q0, p0, h1, k1, by rw [e1]; rfl, by rw [e2]; rfl⟩
  | nrel S time hum sensible a h =>
    simp only [grossSteadyHeatingCapacity, grossSteadyHeatingPower, Option.getD_some, bind_eq_ok, pure_eq_ok, Except.ok.injEq] at hq hp
    obtain ⟨q0, h1, v, h2, rfl⟩ := hq
    obtain ⟨p0, k1, w, k2, rfl⟩ := hp
    have e1 := C42_rated_airflow E (charged S d) _ c .capacity v hd hr h2
    have e2 := C42_rated_airflow E (charged S d) _ c .power w hd hr k2
    rw [hc] at e1 e2
    exact ⟨q0, p0, h1, k1, by rw [e1]; rfl, by rw [e2]; rfl⟩

omit hr in
theorem ByCharge.nominal_cooling {q p : K} (hq : (mk 0).grossTotalCoolingCapacity (some c) = .ok q) (hp : (mk 0).grossCoolingPower (some c) = .ok p) :
    (mk 0).coolCap c = .ok q ∧ (mk 0).coolPow c = .ok p ∧ 0 ≤ q ∧ 0 ≤ p := by
  cases H with
  | resnet S D sensible a h =>
    simp only [grossTotalCoolingCapacity, grossCoolingPower, Option.getD_some, bind_eq_ok, limitCheck_min_eq_ok, Resnet.unit, C42_nominal _ (charged S 0) _ _ rfl, Except.ok.injEq,
      exists_eq_left', mul_one] at hq hp
    obtain ⟨q0, h1, h3, rfl⟩ := hq
    obtain ⟨p0, k1, k3, rfl⟩ := hp
    exact ⟨h1, k1, h3, k3⟩
  | nrel S time hum sensible a h =>
    simp only [grossTotalCoolingCapacity, grossCoolingPower, Option.getD_some, bind_eq_ok, limitCheck_min_eq_ok, Nrel.unit, C42_nominal _ (charged S 0) _ _ rfl, Except.ok.injEq,
      exists_eq_left', mul_one] at hq hp
    obtain ⟨q0, h1, h3, rfl⟩ := hq
    obtain ⟨p0, k1, k3, rfl⟩ := hp
    exact ⟨h1, k1, h3, k3⟩

omit hr in
theorem ByCharge.nominal_heating {q p : K} (hq : (mk 0).grossSteadyHeatingCapacity (some c) = .ok q) (hp : (mk 0).grossSteadyHeatingPower (some c) = .ok p) :
    (mk 0).heatCap c = .ok q ∧ (mk 0).heatPow c = .ok p := by
  cases H with
  | resnet S D sensible a h =>
    simp only [grossSteadyHeatingCapacity, grossSteadyHeatingPower, Option.getD_some, bind_eq_ok, pure_eq_ok, Resnet.unit, C42_nominal _ (charged S 0) _ _ rfl, Except.ok.injEq,
      exists_eq_left', exists_eq_right, mul_one] at hq hp
    exact ⟨hq, hp⟩
  | nrel S time hum sensible a h =>
    simp only [grossSteadyHeatingCapacity, grossSteadyHeatingPower, Option.getD_some, bind_eq_ok, pure_eq_ok, Nrel.unit, C42_nominal _ (charged S 0) _ _ rfl, Except.ok.injEq,
      exists_eq_left', exists_eq_right, mul_one] at hq hp
    exact ⟨hq, hp⟩

/-- C129, cooling: exactly when a charge fault lowers the gross COP at the rated airflow. With too little charge this is at all outdoor temperatures that occur; with a little too
much it is not. -/
theorem C129_cooling_cop (hc : c.heating = false) {d q q0 p p0 : K} (hq : (mk d).grossTotalCoolingCapacity (some c) = .ok q) (hp : (mk d).grossCoolingPower (some c) = .ok p)
    (hq0 : (mk 0).grossTotalCoolingCapacity (some c) = .ok q0) (hp0 : (mk 0).grossCoolingPower (some c) = .ok p0) (q0p : 0 < q0) (p0p : 0 < p0) (pp : 0 < p) :
    (d < 0 → (q / p ≤ q0 / p0 ↔ 1.034 * d ≤ 0.0378 * c.indoor.dbC - 0.00384 * c.outdoor.dbC - 0.633)) ∧
    (0 < d → (q / p ≤ q0 / p0 ↔ 0.01641 * c.indoor.dbC - 0.001199 * c.outdoor.dbC - 0.382 ≤ 0.424 * d)) := by
  obtain ⟨n1, n2, -, -⟩ := H.nominal_cooling hq0 hp0
  have key : d ≠ 0 → (q / p ≤ q0 / p0 ↔ faultFactor false false c.indoor.dbC c.outdoor.dbC d ≤ faultFactor false true c.indoor.dbC c.outdoor.dbC d) := by
    intro hd
    obtain ⟨q1, p1, m1, m2, rfl, rfl, -, -⟩ := H.cooling hr hd hc hq hp
    obtain rfl : q0 = q1 := Except.ok.inj (n1.symm.trans m1)
    obtain rfl : p0 = p1 := Except.ok.inj (n2.symm.trans m2)
    rw [div_le_div_iff₀ pp p0p, mul_assoc, mul_le_mul_iff_right₀ q0p, mul_comm _ p0, mul_le_mul_iff_right₀ p0p]
  refine ⟨fun hd => (key hd.ne).trans ?_, fun hd => (key hd.ne').trans ?_⟩
  · simp only [faultFactor, faultCoefficients, faultCurve, not_le.mpr hd, decide_false]
    norm_num
    rw [mul_le_mul_right_of_neg hd]
    constructor <;> intro h <;> linarith
  · simp only [faultFactor, faultCoefficients, faultCurve, hd.le, decide_true]
    norm_num
    rw [mul_le_mul_iff_left₀ hd]
    constructor <;> intro h <;> linarith

/-- C129, heating: exactly when a charge fault lowers the gross COP at the rated airflow. -/
theorem C129_heating_cop (hc : c.heating = true) {d q q0 p p0 : K} (hq : (mk d).grossSteadyHeatingCapacity (some c) = .ok q) (hp : (mk d).grossSteadyHeatingPower (some c) = .ok p)
    (hq0 : (mk 0).grossSteadyHeatingCapacity (some c) = .ok q0) (hp0 : (mk 0).grossSteadyHeatingPower (some c) = .ok p0) (q0p : 0 < q0) (p0p : 0 < p0) (pp : 0 < p) :
    (d < 0 → (q / p ≤ q0 / p0 ↔ 2.36 * d ≤ 0.01584 * c.outdoor.dbC - 0.0955)) ∧
    (0 < d → (q / p ≤ q0 / p0 ↔ 0.05645 - 0.015162 * c.outdoor.dbC ≤ 1.89641 * d)) := by
  obtain ⟨n1, n2⟩ := H.nominal_heating hq0 hp0
  have key : d ≠ 0 → (q / p ≤ q0 / p0 ↔ faultFactor true false c.indoor.dbC c.outdoor.dbC d ≤ faultFactor true true c.indoor.dbC c.outdoor.dbC d) := by
    intro hd
    obtain ⟨q1, p1, m1, m2, rfl, rfl⟩ := H.heating hr hd hc hq hp
    obtain rfl : q0 = q1 := Except.ok.inj (n1.symm.trans m1)
    obtain rfl : p0 = p1 := Except.ok.inj (n2.symm.trans m2)
    rw [div_le_div_iff₀ pp p0p, mul_assoc, mul_le_mul_iff_right₀ q0p, mul_comm _ p0, mul_le_mul_iff_right₀ p0p]
  refine ⟨fun hd => (key hd.ne).trans ?_, fun hd => (key hd.ne').trans ?_⟩
  · simp only [faultFactor, faultCoefficients, faultCurve, not_le.mpr hd, decide_false]
    norm_num
    rw [mul_le_mul_right_of_neg hd]
    constructor <;> intro h <;> linarith
  · simp only [faultFactor, faultCoefficients, faultCurve, hd.le, decide_true]
    norm_num
    rw [mul_le_mul_iff_left₀ hd]
    constructor <;> intro h <;> linarith

/-- C129: with too little charge a unit delivers no more cooling and is no more efficient, fan included, at rated airflow, room temperatures of at least 22 °C and outdoor
temperatures up to 50 °C. -/
theorem C129_undercharged (hc : c.heating = false) (hin : 22 ≤ c.indoor.dbC) (hout : c.outdoor.dbC ≤ 50) (hfan : ∀ w, fan c = .ok w → 0 ≤ w) {d q q0 e e0 : K} (hd : d < 0)
    (hq : (mk d).netTotalCoolingCapacity (some c) = .ok q) (hq0 : (mk 0).netTotalCoolingCapacity (some c) = .ok q0)
    (he : (mk d).netTotalCoolingCOP (some c) = .ok e) (he0 : (mk 0).netTotalCoolingCOP (some c) = .ok e0) (pos : 0 ≤ e0) : q ≤ q0 ∧ e ≤ e0 := by
  simp only [netTotalCoolingCOP, hq, hq0, bind_ok, bind_eq_ok, pdiv_eq_ok] at he he0
  obtain ⟨p, hp, pn, rfl⟩ := he
  obtain ⟨p0, hp0, pn0, rfl⟩ := he0
  simp only [netTotalCoolingCapacity, netCoolingPower, coolingFanHeat, coolingFanPower, H.fan_eq, Option.getD_some, bind_eq_ok, pure_eq_ok, Except.ok.injEq] at hq hq0 hp hp0
  obtain ⟨g, hg, f, hf, rfl⟩ := hq
  obtain ⟨g0, hg0, f1, hf1, rfl⟩ := hq0
  obtain ⟨w, hw, f2, hf2, rfl⟩ := hp
  obtain ⟨w0, hw0, f3, hf3, rfl⟩ := hp0
  obtain rfl : f = f1 := Except.ok.inj (hf.symm.trans hf1)
  obtain rfl : f = f2 := Except.ok.inj (hf.symm.trans hf2)
  obtain rfl : f = f3 := Except.ok.inj (hf.symm.trans hf3)
  have f0 := hfan f hf
  obtain ⟨n1, n2, g0n, w0n⟩ := H.nominal_cooling hg0 hw0
  obtain ⟨g1, w1, m1, m2, rfl, rfl, gn, wn⟩ := H.cooling hr hd.ne hc hg hw
  obtain rfl : g0 = g1 := Except.ok.inj (n1.symm.trans m1)
  obtain rfl : w0 = w1 := Except.ok.inj (n2.symm.trans m2)
  set α := faultFactor false false c.indoor.dbC c.outdoor.dbC d with hα
  set β := faultFactor false true c.indoor.dbC c.outdoor.dbC d with hβ
  have a1 : α ≤ 1 := by
    rw [hα]; simp only [faultFactor, faultCoefficients, faultCurve, not_le.mpr hd, decide_false]
    have : 0 ≤ -946 / 1000 + 493 / 10000 * c.indoor.dbC + -118 / 100000 * c.outdoor.dbC + -115 / 100 * d := by linarith
    nlinarith
  have ab : α ≤ β := by
    rw [hα, hβ]; simp only [faultFactor, faultCoefficients, faultCurve, not_le.mpr hd, decide_false]
    have : 0 ≤ (-946 / 1000 + 493 / 10000 * c.indoor.dbC + -118 / 100000 * c.outdoor.dbC + -115 / 100 * d) -
      (-313 / 1000 + 115 / 10000 * c.indoor.dbC + 266 / 100000 * c.outdoor.dbC + -116 / 1000 * d) := by linarith
    nlinarith
  have hq : g0 * α - f ≤ g0 - f := by nlinarith
  refine ⟨hq, ?_⟩
  have P : 0 < w0 * β + f := lt_of_le_of_ne (by linarith) (Ne.symm pn)
  have P0 : 0 < w0 + f := lt_of_le_of_ne (by linarith) (Ne.symm pn0)
  have N0 : 0 ≤ g0 - f := by
    by_contra h
    exact absurd pos (not_le.2 (div_neg_of_neg_of_pos (not_le.1 h) P0))
  by_cases h : g0 * α - f < 0
  · exact (div_neg_of_neg_of_pos h P).le.trans pos
  rcases g0n.eq_or_lt with z | z
  · subst z
    obtain rfl : f = 0 := le_antisymm (by linarith) f0
    simp
  · rw [div_le_div_iff₀ P P0]
    have α0 : 0 ≤ α := by
      by_contra hn
      nlinarith [mul_neg_of_pos_of_neg z (not_le.1 hn)]
    have s1 : g0 * α - f ≤ α * (g0 - f) := by nlinarith
    have s2 : α * (w0 + f) ≤ w0 * β + f := by nlinarith
    calc (g0 * α - f) * (w0 + f) ≤ α * (g0 - f) * (w0 + f) := mul_le_mul_of_nonneg_right s1 P0.le
      _ = (g0 - f) * (α * (w0 + f)) := by ring
      _ ≤ _ := mul_le_mul_of_nonneg_left s2 N0

/-- C129: with too little charge neither the EER nor the SEER of a single-stage unit is higher. `aFull` and `bFull` are the conditions of the tests. -/
theorem C129_ratings (u : Units K) (P : Points (Conditions K)) {cd : K} (hcd : cd ≤ 2) (cyc : Cycling) (bins : List (K × K)) (hc : c.heating = false) (hb : P.bFull = c) (hin : 22 ≤ c.indoor.dbC)
    (hout : c.outdoor.dbC ≤ 50) (hfan : ∀ w, fan c = .ok w → 0 ≤ w) {d : K} (hd : d < 0) :
    (∀ e e0, (mk d).eer u (some c) = .ok e → (mk 0).eer u (some c) = .ok e0 → 0 ≤ e0 → e ≤ e0) ∧
    ∀ v v0, seer (mk d) P u .single cd cyc bins = .ok v → seer (mk 0) P u .single cd cyc bins = .ok v0 → (∀ k, (mk 0).netTotalCoolingCOP (some c) = .ok k → 0 ≤ k) → v ≤ v0 := by
  have hu := u.btuh_pos
  have key : ∀ k k0, (mk d).netTotalCoolingCOP (some c) = .ok k → (mk 0).netTotalCoolingCOP (some c) = .ok k0 → 0 ≤ k0 → k ≤ k0 := by
    intro k k0 h h0 hk
    have h' := h; have h0' := h0
    simp only [netTotalCoolingCOP, bind_eq_ok] at h' h0'
    obtain ⟨q, hq, -⟩ := h'
    obtain ⟨q0, hq0, -⟩ := h0'
    exact (C129_undercharged H hr hc hin hout hfan hd hq hq0 h h0 hk).2
  constructor
  · intro e e0 he he0 hpos
    simp only [eer, bind_eq_ok, pdiv_eq_ok] at he he0
    obtain ⟨k, hk, -, rfl⟩ := he
    obtain ⟨k0, hk0, -, rfl⟩ := he0
    refine div_le_div_of_nonneg_right (key k k0 hk hk0 ?_) hu.le
    by_contra h
    exact absurd hpos (not_le.2 (div_neg_of_neg_of_pos (not_le.1 h) hu))
  · intro v v0 hv hv0 hpos
    simp only [seer, hb, bind_eq_ok, pdiv_eq_ok] at hv hv0
    obtain ⟨k, hk, -, rfl⟩ := hv
    obtain ⟨k0, hk0, -, rfl⟩ := hv0
    refine div_le_div_of_nonneg_right (mul_le_mul_of_nonneg_left (key k k0 hk hk0 (hpos k0 hk0)) ?_) hu.le
    norm_num
    linarith

/-- C129 fails for a little too much charge: whatever the unit, it then delivers no less cooling and is no less efficient, fan included, up to the charge at which the curves meet
(3.2 % at 95 °F and 5.2 % at 82 °F outdoors, for rooms at 80 °F). -/
theorem C129_overcharged (hc : c.heating = false) (hout : 0 ≤ c.outdoor.dbC) (hfan : ∀ w, fan c = .ok w → 0 ≤ w) {d q q0 e e0 : K} (hd : 0 < d)
    (hcross : 0.424 * d ≤ 0.01641 * c.indoor.dbC - 0.001199 * c.outdoor.dbC - 0.382)
    (hq : (mk d).netTotalCoolingCapacity (some c) = .ok q) (hq0 : (mk 0).netTotalCoolingCapacity (some c) = .ok q0)
    (he : (mk d).netTotalCoolingCOP (some c) = .ok e) (he0 : (mk 0).netTotalCoolingCOP (some c) = .ok e0) (pos : 0 ≤ e0) : q0 ≤ q ∧ e0 ≤ e := by
  simp only [netTotalCoolingCOP, hq, hq0, bind_ok, bind_eq_ok, pdiv_eq_ok] at he he0
  obtain ⟨p, hp, pn, rfl⟩ := he
  obtain ⟨p0, hp0, pn0, rfl⟩ := he0
  simp only [netTotalCoolingCapacity, netCoolingPower, coolingFanHeat, coolingFanPower, H.fan_eq, Option.getD_some, bind_eq_ok, pure_eq_ok, Except.ok.injEq] at hq hq0 hp hp0
  obtain ⟨g, hg, f, hf, rfl⟩ := hq
  obtain ⟨g0, hg0, f1, hf1, rfl⟩ := hq0
  obtain ⟨w, hw, f2, hf2, rfl⟩ := hp
  obtain ⟨w0, hw0, f3, hf3, rfl⟩ := hp0
  obtain rfl : f = f1 := Except.ok.inj (hf.symm.trans hf1)
  obtain rfl : f = f2 := Except.ok.inj (hf.symm.trans hf2)
  obtain rfl : f = f3 := Except.ok.inj (hf.symm.trans hf3)
  have f0 := hfan f hf
  obtain ⟨n1, n2, g0n, w0n⟩ := H.nominal_cooling hg0 hw0
  obtain ⟨g1, w1, m1, m2, rfl, rfl, gn, wn⟩ := H.cooling hr hd.ne' hc hg hw
  obtain rfl : g0 = g1 := Except.ok.inj (n1.symm.trans m1)
  obtain rfl : w0 = w1 := Except.ok.inj (n2.symm.trans m2)
  norm_num at hcross
  set α := faultFactor false false c.indoor.dbC c.outdoor.dbC d with hα
  set β := faultFactor false true c.indoor.dbC c.outdoor.dbC d with hβ
  have a1 : 1 ≤ α := by
    rw [hα]; simp only [faultFactor, faultCoefficients, faultCurve, hd.le, decide_true]
    have : 0 ≤ -163 / 1000 + 114 / 10000 * c.indoor.dbC + -21 / 100000 * c.outdoor.dbC + -14 / 100 * d := by linarith
    nlinarith
  have ab : β ≤ α := by
    rw [hα, hβ]; simp only [faultFactor, faultCoefficients, faultCurve, hd.le, decide_true]
    have : 0 ≤ (-163 / 1000 + 114 / 10000 * c.indoor.dbC + -21 / 100000 * c.outdoor.dbC + -14 / 100 * d) -
      (219 / 1000 + -501 / 100000 * c.indoor.dbC + 989 / 1000000 * c.outdoor.dbC + 284 / 1000 * d) := by linarith
    nlinarith
  have P : 0 < w0 * β + f := lt_of_le_of_ne (by linarith) (Ne.symm pn)
  have P0 : 0 < w0 + f := lt_of_le_of_ne (by linarith) (Ne.symm pn0)
  have N0 : 0 ≤ g0 - f := by
    by_contra h
    exact absurd pos (not_le.2 (div_neg_of_neg_of_pos (not_le.1 h) P0))
  refine ⟨by nlinarith, ?_⟩
  rw [div_le_div_iff₀ P0 P]
  have s1 : α * (g0 - f) ≤ g0 * α - f := by nlinarith
  have s2 : w0 * β + f ≤ α * (w0 + f) := by nlinarith
  calc (g0 - f) * (w0 * β + f) ≤ (g0 - f) * (α * (w0 + f)) := mul_le_mul_of_nonneg_left s2 N0
    _ = α * (g0 - f) * (w0 + f) := by ring
    _ ≤ _ := mul_le_mul_of_nonneg_right s1 P0.le

end

/-- A unit with charge `d`, whose fan draws 300 W. -/
def chargedSample (d : ℚ) : Performance (Conditions ℚ) ℚ := Resnet.unit sampleEnv (charged sampleSys d) noTables (fun _ => .ok 0) (fun _ => .ok 300) sampleA sampleH1

/-- The hypotheses hold of a unit with 10 % too little charge, and its COP is lower. -/
example : ByCharge sampleEnv (fun _ => .ok 300) chargedSample ∧ sampleA.flow.ratio = some 1 ∧ sampleA.heating = false ∧ 22 ≤ sampleA.indoor.dbC ∧ sampleA.outdoor.dbC ≤ 50 ∧
    okAnd ((chargedSample (-0.1)).netTotalCoolingCOP (some sampleA)) (fun e => okAnd ((chargedSample 0).netTotalCoolingCOP (some sampleA)) fun e0 => decide (0 < e ∧ e < e0)) = true :=
  ⟨.resnet _ _ _ _ _, rfl, rfl, by decide +kernel, by decide +kernel, by decide +kernel⟩

/-- C129 is false of the code: this unit is more efficient in the cooling test with 2 % too much charge than with the right charge, and at 17 °F with 5 % too little and with 5 % too
much. -/
theorem C129_refuted : (∃ e e0, (chargedSample 0.02).netTotalCoolingCOP (some sampleA) = .ok e ∧ (chargedSample 0).netTotalCoolingCOP (some sampleA) = .ok e0 ∧ 0 < e0 ∧ e0 < e) ∧
    ∀ d ∈ [(0.05 : ℚ), -0.05], ∃ e e0, (chargedSample d).netSteadyHeatingCOP (some { sampleH1 with outdoor := wetState 101325 (frF 17) (frF 15) }) = .ok e ∧
      (chargedSample 0).netSteadyHeatingCOP (some { sampleH1 with outdoor := wetState 101325 (frF 17) (frF 15) }) = .ok e0 ∧ 0 < e0 ∧ e0 < e := by
  have key : ∀ x y : Py ℚ, okAnd x (fun e => okAnd y fun e0 => decide (0 < e0 ∧ e0 < e)) = true → ∃ e e0, x = .ok e ∧ y = .ok e0 ∧ 0 < e0 ∧ e0 < e := by
    intro x y h
    obtain ⟨e, h1, h2⟩ := okAnd_iff.1 h
    obtain ⟨e0, h3, h4⟩ := okAnd_iff.1 h2
    exact ⟨e, e0, h1, h3, of_decide_eq_true h4⟩
  refine ⟨key _ _ (by decide +kernel), fun d hd => ?_⟩
  rcases List.mem_cons.1 hd with rfl | hd
  · exact key _ _ (by decide +kernel)
  · obtain rfl := List.mem_singleton.1 hd
    exact key _ _ (by decide +kernel)

end Resdx
