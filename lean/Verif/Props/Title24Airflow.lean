import Verif.Props.Title24Sensible

/-!
# C138: more air over the coil of a Title-24 unit cools more

Within each of the two regressions the gross total and sensible capacity rise with the airflow per ton.
-/

namespace Resdx.Title24

open Spec

variable {K : Type} [Field K] [LinearOrder K] [IsStrictOrderedRing K] {U : Unit24 K} {c₁ c₂ : Conditions K}

theorem wet_airflow {e o v w : K} (v0 : 0 < v) (hvw : v ≤ w) (hw : w ≤ 500) (he : 60 ≤ e) (ho : o ≤ 115) :
    0 ≤ 0.0001715 * (w - v) + 0.00000818 * (e * (w - v)) - 0.00000755 * (o * (w - v)) - (53.5423 / w - 53.5423 / v) := by
  have w0 : 0 < w := v0.trans_le hvw
  have hm : v * w ≤ 250000 := by nlinarith
  have h1 : 53.5423 / w - 53.5423 / v = -(53.5423 * (w - v) / (v * w)) := by field_simp; ring
  have h2 : 53.5423 * (w - v) / 250000 ≤ 53.5423 * (w - v) / (v * w) :=
    div_le_div_of_nonneg_left (mul_nonneg (by norm_num) (by linarith)) (mul_pos v0 w0) hm
  have h3 : 0 ≤ (e - 60) * (w - v) := mul_nonneg (by linarith) (by linarith)
  have h4 : 0 ≤ (115 - o) * (w - v) := mul_nonneg (by linarith) (by linarith)
  rw [h1]
  norm_num at *
  nlinarith

theorem dry_airflow {d o v w : K} (v0 : 0 < v) (hvw : v ≤ w) (hd : 70 ≤ d) (ho : o ≤ 115) :
    0 ≤ -0.0001489 * (w - v) + 0.0000119 * (d * (w - v)) - 0.00000505 * (o * (w - v)) - (52.56174 / w - 52.56174 / v) := by
  have w0 : 0 < w := v0.trans_le hvw
  have h1 : 52.56174 / w - 52.56174 / v = -(52.56174 * (w - v) / (v * w)) := by field_simp; ring
  have h2 : 0 ≤ 52.56174 * (w - v) / (v * w) := div_nonneg (mul_nonneg (by norm_num) (by linarith)) (mul_pos v0 w0).le
  have h3 : 0 ≤ (d - 70) * (w - v) := mul_nonneg (by linarith) (by linarith)
  have h4 : 0 ≤ (115 - o) * (w - v) := mul_nonneg (by linarith) (by linarith)
  rw [h1]
  norm_num at *
  nlinarith

section
variable {e v w g s₁ s₂ : K} (hp₁ : At U c₁ e v) (hp₂ : At U c₂ e w) (hv : 0 < v) (hvw : v ≤ w) (hin : c₁.indoor.db = c₂.indoor.db) (hout : c₁.outdoor.db = c₂.outdoor.db)
  (hspeed : c₁.flow.compressorSpeed = c₂.flow.compressorSpeed) (hg : U.sys.grossCooling[c₁.flow.compressorSpeed]? = some (some g)) (g0 : 0 ≤ g)
  (ho : toF c₁.outdoor.db ≤ 115) (hs₁ : grossShr U c₁ = .ok s₁) (hs₂ : grossShr U c₂ = .ok s₂)
include hp₁ hp₂ hv hvw hin hout hspeed hg g0 ho hs₁ hs₂

omit hin in
/-- C138: with the same air, indoor wet bulb of at least 60 °F and at most 115 °F outdoors, more airflow, up to 500 cfm/ton, does not lower the total capacity of a coil that
stays wet. -/
theorem C138_wet (he : 60 ≤ e) (hw : w ≤ 500) (w1 : s₁ < 1) (w2 : s₂ < 1) : ∃ q₁ q₂, grossTotal U c₁ = .ok q₁ ∧ grossTotal U c₂ = .ok q₂ ∧ q₁ ≤ q₂ := by
  rw [grossShr_ok hp₁ hv.ne'] at hs₁
  rw [grossShr_ok hp₂ (hv.trans_le hvw).ne'] at hs₂
  obtain rfl := Except.ok.inj hs₁
  obtain rfl := Except.ok.inj hs₂
  have w1 : shrLine ⟨e, toF c₁.outdoor.db, toF c₁.indoor.db, v⟩ < 1 := by simpa using w1
  have w2 : shrLine ⟨e, toF c₂.outdoor.db, toF c₂.indoor.db, w⟩ < 1 := by simpa using w2
  refine ⟨_, _, grossTotal_ok hp₁.point hv.ne' hg, grossTotal_ok hp₂.point (hv.trans_le hvw).ne' (hspeed ▸ hg), mul_le_mul_of_nonneg_right ?_ g0⟩
  simp only [capRatio24, if_pos w1, if_pos w2]
  rw [← hout, ← sub_nonneg]
  exact (wet_airflow hv hvw hw he ho).trans_eq (by ring)

/-- C138: with the same air, indoor air of at least 70 °F and at most 115 °F outdoors, more airflow does not lower the total capacity of a coil that is dry. -/
theorem C138_dry (hd : 70 ≤ toF c₁.indoor.db) (w1 : ¬ s₁ < 1) (w2 : ¬ s₂ < 1) : ∃ q₁ q₂, grossTotal U c₁ = .ok q₁ ∧ grossTotal U c₂ = .ok q₂ ∧ q₁ ≤ q₂ := by
  rw [grossShr_ok hp₁ hv.ne'] at hs₁
  rw [grossShr_ok hp₂ (hv.trans_le hvw).ne'] at hs₂
  obtain rfl := Except.ok.inj hs₁
  obtain rfl := Except.ok.inj hs₂
  have w1 : ¬ shrLine ⟨e, toF c₁.outdoor.db, toF c₁.indoor.db, v⟩ < 1 := by simpa using w1
  have w2 : ¬ shrLine ⟨e, toF c₂.outdoor.db, toF c₂.indoor.db, w⟩ < 1 := by simpa using w2
  refine ⟨_, _, grossTotal_ok hp₁.point hv.ne' hg, grossTotal_ok hp₂.point (hv.trans_le hvw).ne' (hspeed ▸ hg), mul_le_mul_of_nonneg_right ?_ g0⟩
  simp only [capRatio24, if_neg w1, if_neg w2]
  rw [← hout, ← hin, ← sub_nonneg]
  exact (dry_airflow hv hvw hd ho).trans_eq (by ring)

omit hspeed hg g0 ho in
/-- C138: where the total capacity does not fall with the airflow, nor does the sensible capacity, for an indoor wet bulb of at most 99 °F and not above the dry bulb and 7 °F or more
outdoors. -/
theorem C138_sensible (h99 : e ≤ 99) (hed : e ≤ toF c₁.indoor.db) (h7 : 7 ≤ toF c₁.outdoor.db) {t₁ t₂ q₁ q₂ : K} (ht₁ : systemTotal U c₁ = .ok t₁) (ht₂ : systemTotal U c₂ = .ok t₂)
    (ht : t₁ ≤ t₂) (hq₁ : grossSensible U c₁ = .ok q₁) (hq₂ : grossSensible U c₂ = .ok q₂) : q₁ ≤ q₂ := by
  obtain ⟨-, rfl, a0, -⟩ := C78_sensible U c₁ hs₁ hq₁ ht₁
  obtain ⟨-, rfl, -, -⟩ := C78_sensible U c₂ hs₂ hq₂ ht₂
  obtain ⟨x, y, hx, hy, hxy, -⟩ := C137_ratio hp₁ hp₂ hv le_rfl h99 hin.le hout.le hvw
  obtain rfl := Except.ok.inj (hx.symm.trans hs₁)
  obtain rfl := Except.ok.inj (hy.symm.trans hs₂)
  have s0 : 0 < x := by
    have h := hx
    simp only [grossShr, hp₁.point, bind_ok] at h
    exact C78_positive h hed h99 h7 hv
  exact mul_le_mul hxy ht a0 (s0.le.trans hxy)

end

/-- 80 °F and 67 °F wet bulb indoors, 95 °F outdoors, at a given airflow in m³/s. -/
def blown24 (flow : ℚ) : Conditions ℚ :=
  { heating := false, indoor := wetState 101325 (frF 80) (frF 67), outdoor := wetState 101325 (frF 95) (frF 75), flow := ratedFlow 1.2 1.2 0 (some 0) 125 flow 10000 }

/-- The hypotheses of the theorems of C138 hold: `unit24` at 0.5 and 0.6 m³/s (372 and 447 cfm/ton), where the coil is wet. -/
example : At (unit24 1) (blown24 0.5) 67 (0.5 / 10000 * units24.ton / units24.cfm) ∧ At (unit24 1) (blown24 0.6) 67 (0.6 / 10000 * units24.ton / units24.cfm) ∧
    (0.6 / 10000 * units24.ton / units24.cfm : ℚ) ≤ 500 ∧ (unit24 1).sys.grossCooling[(blown24 0.5).flow.compressorSpeed]? = some (some 10400) ∧
    (blown24 0.5).flow.compressorSpeed = (blown24 0.6).flow.compressorSpeed ∧
    Resdx.DX.okTest (grossShr (unit24 1) (blown24 0.6)) (fun d => decide (d < 1)) = true ∧
    Resdx.DX.okTest (do return (← grossSensible (unit24 1) (blown24 0.6)) - (← grossSensible (unit24 1) (blown24 0.5))) (fun d => decide (0 < d)) = true := by
  refine ⟨⟨frF 67, 0.5 / 10000, rfl, by decide +kernel, by decide +kernel, rfl⟩, ⟨frF 67, 0.6 / 10000, rfl, by decide +kernel, by decide +kernel, rfl⟩, ?_, rfl, rfl, ?_, ?_⟩ <;> decide +kernel

/-- As `jump24` at 105.5 °F outdoors, at a given airflow in m³/s. -/
def dry24 (flow : ℚ) : Conditions ℚ := { jump24 105.5 with flow := ratedFlow 1.2 1.2 0 (some 0) 125 flow 10000 }

/-- The hypotheses of `C138_dry` hold: `unit24` at 0.6 and 0.65 m³/s, 61 °F wet bulb, where the coil is dry. -/
example : At (unit24 1) (dry24 0.6) 61 (0.6 / 10000 * units24.ton / units24.cfm) ∧ At (unit24 1) (dry24 0.65) 61 (0.65 / 10000 * units24.ton / units24.cfm) ∧
    70 ≤ toF (dry24 0.6).indoor.db ∧ toF (dry24 0.6).outdoor.db ≤ 115 ∧ Resdx.DX.okTest (grossShr (unit24 1) (dry24 0.6)) (fun d => decide (d = 1)) = true ∧
    Resdx.DX.okTest (grossShr (unit24 1) (dry24 0.65)) (fun d => decide (d = 1)) = true := by
  refine ⟨⟨frF 61, 0.6 / 10000, rfl, by decide +kernel, by decide +kernel, rfl⟩, ⟨frF 61, 0.65 / 10000, rfl, by decide +kernel, by decide +kernel, rfl⟩, ?_, ?_, ?_, ?_⟩ <;> decide +kernel

end Resdx.Title24
