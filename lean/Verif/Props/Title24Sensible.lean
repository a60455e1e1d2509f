import Verif.Props.Title24Cooling

/-!
# C137: the sensible share of the cooling of a Title-24 unit follows the air

Drier or warmer indoor air, warmer outdoor air and more airflow all raise the sensible heat ratio, together or one at a time. In a wet coil the total capacity does not depend on
the indoor dry bulb, so that warmer indoor air of the same wet bulb shifts capacity from latent to sensible.
-/

namespace Resdx.Title24

open Spec

variable {K : Type} [Field K] [LinearOrder K] [IsStrictOrderedRing K] {U : Unit24 K} {c₁ c₂ : Conditions K}

theorem shrLine_mono {p q : Point K} (he : q.ewb ≤ p.ewb) (h99 : p.ewb ≤ 99) (hv : p.v ≤ q.v) (v0 : 0 ≤ p.v) :
    shrLine p + 0.024202 * (q.edb - p.edb) + 0.0012651 * (q.odb - p.odb) ≤ shrLine q := by
  have h1 : 0 ≤ (p.ewb - q.ewb) * q.v := mul_nonneg (by linarith) (by linarith)
  have h2 : 0 ≤ (p.ewb - q.ewb) * (99 - p.ewb) := mul_nonneg (by linarith) (by linarith)
  have h3 : 0 ≤ (p.ewb - q.ewb) * (99 - q.ewb) := mul_nonneg (by linarith) (by linarith)
  have h4 : 0 ≤ (q.v - p.v) * (99 - p.ewb) := mul_nonneg (by linarith) (by linarith)
  unfold shrLine
  norm_num
  nlinarith

theorem grossShr_ok {c : Conditions K} {ewb v : K} (h : At U c ewb v) (hv : v ≠ 0) : grossShr U c = .ok (min 1 (shrLine ⟨ewb, toF c.outdoor.db, toF c.indoor.db, v⟩)) := by
  simp only [grossShr, h.point, bind_ok]
  exact shrAt_ok hv

section
variable {e₁ e₂ v₁ v₂ : K} (hp₁ : At U c₁ e₁ v₁) (hp₂ : At U c₂ e₂ v₂) (hv : 0 < v₁)
include hp₁ hp₂ hv

/-- C137: the sensible heat ratio is defined at every positive airflow, and does not fall if the indoor wet bulb falls (from 99 °F or less), either dry bulb rises or the airflow
rises, in any combination. -/
theorem C137_ratio (he : e₂ ≤ e₁) (h99 : e₁ ≤ 99) (hd : c₁.indoor.db ≤ c₂.indoor.db) (ho : c₁.outdoor.db ≤ c₂.outdoor.db) (hle : v₁ ≤ v₂) :
    ∃ s₁ s₂, grossShr U c₁ = .ok s₁ ∧ grossShr U c₂ = .ok s₂ ∧ s₁ ≤ s₂ ∧ s₂ ≤ 1 ∧ (c₁.indoor.db < c₂.indoor.db ∨ c₁.outdoor.db < c₂.outdoor.db → s₁ < 1 → s₁ < s₂) := by
  have hd' : toF c₁.indoor.db ≤ toF c₂.indoor.db := by unfold toF; linarith
  have ho' : toF c₁.outdoor.db ≤ toF c₂.outdoor.db := by unfold toF; linarith
  have h := shrLine_mono (p := ⟨e₁, toF c₁.outdoor.db, toF c₁.indoor.db, v₁⟩) (q := ⟨e₂, toF c₂.outdoor.db, toF c₂.indoor.db, v₂⟩) he h99 hle hv.le
  simp only at h
  have k1 : 0 ≤ 0.024202 * (toF c₂.indoor.db - toF c₁.indoor.db) := mul_nonneg (by norm_num) (by linarith)
  have k2 : 0 ≤ 0.0012651 * (toF c₂.outdoor.db - toF c₁.outdoor.db) := mul_nonneg (by norm_num) (by linarith)
  refine ⟨_, _, grossShr_ok hp₁ hv.ne', grossShr_ok hp₂ (hv.trans_le hle).ne', min_le_min le_rfl (by linarith), min_le_left _ _, fun hs s1 => ?_⟩
  have s1' : shrLine ⟨e₁, toF c₁.outdoor.db, toF c₁.indoor.db, v₁⟩ < 1 := by simpa using s1
  rw [min_eq_right s1'.le]
  refine lt_min s1' ?_
  rcases hs with hs | hs
  · have : 0 < 0.024202 * (toF c₂.indoor.db - toF c₁.indoor.db) := mul_pos (by norm_num) (by unfold toF; linarith)
    linarith
  · have : 0 < 0.0012651 * (toF c₂.outdoor.db - toF c₁.outdoor.db) := mul_pos (by norm_num) (by unfold toF; linarith)
    linarith

end

/-- C137: with the same outdoor temperature, airflow and indoor wet bulb, and a coil that is wet in the warmer air, warmer indoor air leaves the total capacity as it is and raises
the sensible capacity: what the sensible capacity gains the latent capacity loses. -/
theorem C137_sensible {e v t q₁ q₂ s : K} (hp₁ : At U c₁ e v) (hp₂ : At U c₂ e v) (hv : 0 < v) (hd : c₁.indoor.db ≤ c₂.indoor.db) (ho : c₁.outdoor.db = c₂.outdoor.db)
    (hfl : c₁.flow = c₂.flow) (hs : grossShr U c₂ = .ok s) (s1 : s < 1) (ht : systemTotal U c₁ = .ok t) (hq₁ : grossSensible U c₁ = .ok q₁) (hq₂ : grossSensible U c₂ = .ok q₂) :
    systemTotal U c₂ = .ok t ∧ q₁ ≤ q₂ ∧ q₂ - q₁ = 0.024202 * (toF c₂.indoor.db - toF c₁.indoor.db) * t := by
  have hd' : toF c₁.indoor.db ≤ toF c₂.indoor.db := by unfold toF; linarith
  rw [grossShr_ok hp₂ hv.ne'] at hs
  obtain rfl := Except.ok.inj hs
  have w2 : shrLine ⟨e, toF c₂.outdoor.db, toF c₂.indoor.db, v⟩ < 1 := by simpa using s1
  have hl : shrLine ⟨e, toF c₂.outdoor.db, toF c₂.indoor.db, v⟩ = shrLine ⟨e, toF c₁.outdoor.db, toF c₁.indoor.db, v⟩ + 0.024202 * (toF c₂.indoor.db - toF c₁.indoor.db) := by
    unfold shrLine; rw [ho]; ring
  have k : 0 ≤ 0.024202 * (toF c₂.indoor.db - toF c₁.indoor.db) := mul_nonneg (by norm_num) (by linarith)
  have w1 : shrLine ⟨e, toF c₁.outdoor.db, toF c₁.indoor.db, v⟩ < 1 := by linarith
  have m2 := min_eq_right w2.le
  have m1 := min_eq_right w1.le
  have et : grossTotal U c₂ = grossTotal U c₁ := by
    simp only [grossTotal, hp₁.point, hp₂.point, shrAt_ok (p := ⟨e, toF c₁.outdoor.db, toF c₁.indoor.db, v⟩) hv.ne', shrAt_ok (p := ⟨e, toF c₂.outdoor.db, toF c₂.indoor.db, v⟩) hv.ne',
      bind_ok, m1, m2, capFactor_ok (p := ⟨e, toF c₁.outdoor.db, toF c₁.indoor.db, v⟩) hv.ne', capFactor_ok (p := ⟨e, toF c₂.outdoor.db, toF c₂.indoor.db, v⟩) hv.ne', hfl]
    have w1' := w1
    rw [ho] at w1'
    simp only [capRatio24, if_pos w1', if_pos w2, ho]
  have ht2 : systemTotal U c₂ = .ok t := by rw [← ht]; simp only [systemTotal, et]
  obtain ⟨-, a1, t0, -⟩ := C78_sensible U c₁ (grossShr_ok hp₁ hv.ne') hq₁ ht
  obtain ⟨-, a2, -, -⟩ := C78_sensible U c₂ (grossShr_ok hp₂ hv.ne') hq₂ ht2
  rw [m1] at a1
  rw [m2, hl] at a2
  have e : q₂ - q₁ = 0.024202 * (toF c₂.indoor.db - toF c₁.indoor.db) * t := by rw [a1, a2]; ring
  exact ⟨ht2, by linarith [mul_nonneg k t0], e⟩

/-- As `jump24` at 95 °F outdoors, with the indoor dry bulb as given. -/
def warm24 (indoorF : ℚ) : Conditions ℚ :=
  { heating := false, indoor := wetState 101325 (frF indoorF) (frF 61), outdoor := wetState 101325 (frF 95) (frF 75), flow := ratedFlow 1.2 1.2 0 (some 0) 125 0.6 10000 }

/-- The hypotheses of the theorems of C137 hold: `unit24` at 70 and 78 °F indoors, 61 °F wet bulb, where the coil is wet and the sensible capacity is positive. -/
example : At (unit24 1) (warm24 70) 61 (0.6 / 10000 * units24.ton / units24.cfm) ∧ At (unit24 1) (warm24 78) 61 (0.6 / 10000 * units24.ton / units24.cfm) ∧
    0 < (0.6 / 10000 * units24.ton / units24.cfm : ℚ) ∧ Resdx.DX.okTest (grossShr (unit24 1) (warm24 78)) (fun d => decide (d < 1)) = true ∧
    Resdx.DX.okTest (systemTotal (unit24 1) (warm24 70)) (fun t => decide (0 < t)) = true ∧
    Resdx.DX.okTest (do return (← grossSensible (unit24 1) (warm24 78)) - (← grossSensible (unit24 1) (warm24 70))) (fun d => decide (0 < d)) = true := by
  refine ⟨⟨frF 61, 0.6 / 10000, rfl, by decide +kernel, by decide +kernel, rfl⟩, ⟨frF 61, 0.6 / 10000, rfl, by decide +kernel, by decide +kernel, rfl⟩, ?_, ?_, ?_, ?_⟩ <;> decide +kernel

end Resdx.Title24
