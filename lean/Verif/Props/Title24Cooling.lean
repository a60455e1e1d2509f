import Verif.Props.Title24

/-!
# C136: the cooling capacity of a Title-24 unit follows the air

The capacity is one regression for a wet coil and another for a dry coil. Within each it falls as it gets hotter outdoors and rises with the humidity indoors; between them it jumps.
-/

set_option linter.unusedSectionVars false
set_option linter.unusedSimpArgs false

namespace Resdx.Title24

open Spec

variable {K : Type} [Field K] [LinearOrder K] [IsStrictOrderedRing K] {U : Unit24 K} {c₁ c₂ : Conditions K}

/-- The sensible heat ratio before it is limited to one. -/
def shrLine (p : Point K) : K :=
  0.0242020 * p.edb - 0.0592153 * p.ewb + 0.0012651 * p.odb + 0.0016375 * p.v - 0.0000165 * (p.ewb * p.v) + 0.0002021 * p.ewb ^ 2 + 1.5085285

theorem shrAt_ok {p : Point K} (hv : p.v ≠ 0) : shrAt p = .ok (min 1 (shrLine p)) := by
  unfold shrAt Point.regress shrCoeffs shrLine
  simp only [caRegression, pdiv_ok hv, bind_ok, pure_eq_ok]
  congr 2
  ring

theorem grossTotal_ok {c : Conditions K} {p : Point K} {g : K} (hp : pointOf U c = .ok p) (hv : p.v ≠ 0) (hg : U.sys.grossCooling[c.flow.compressorSpeed]? = some (some g)) :
    grossTotal U c = .ok (capRatio24 p (shrLine p < 1) * g) := by
  have eg : Sys.at_ U.sys.grossCooling c.flow.compressorSpeed = .ok g := by simp [Sys.at_, pyGet, hg, bind_ok, pyNum]
  have hi : (min 1 (shrLine p) < 1) = (shrLine p < 1) := by simp
  simp only [grossTotal, hp, shrAt_ok hv, capFactor_ok hv, eg, bind_ok, pure_eq_ok]
  congr 2
  simp only [capRatio24]
  by_cases h : shrLine p < 1
  · rw [if_pos (by rw [hi]; exact h), if_pos h]
  · rw [if_neg (by rw [hi]; exact h), if_neg h]

/-- What the conditions are at: the indoor wet bulb in °F and the standard airflow in cfm/ton. -/
def At (U : Unit24 K) (c : Conditions K) (ewb v : K) : Prop := ∃ wb x, (Psych.getWb c.indoor).1 = .ok wb ∧ toF wb = ewb ∧ c.flow.stdVolPerCap = some x ∧ x * U.u.ton / U.u.cfm = v

theorem At.point {c : Conditions K} {ewb v : K} (h : At U c ewb v) : pointOf U c = .ok ⟨ewb, toF c.outdoor.db, toF c.indoor.db, v⟩ := by
  obtain ⟨wb, x, h1, rfl, h2, rfl⟩ := h
  simp only [pointOf, h1, h2, pyAttr, bind_ok, pure_eq_ok]

section
variable {ewb v g : K} (hin : c₁.indoor = c₂.indoor) (hfl : c₁.flow = c₂.flow) (hp : At U c₁ ewb v) (hv : 0 < v)
  (hg : U.sys.grossCooling[c₁.flow.compressorSpeed]? = some (some g)) (g0 : 0 ≤ g)
include hin hfl hp hv hg g0

/-- C136: with the same indoor air and airflow, and a coil that is still wet at the hotter condition, the unit cools no more when it is hotter outdoors; the indoor wet bulb is
27 °F or more. -/
theorem C136_outdoor_wet (hle : c₁.outdoor.db ≤ c₂.outdoor.db) (hw : 27 ≤ ewb) {s : K} (hs : grossShr U c₂ = .ok s) (s1 : s < 1) :
    ∃ q₁ q₂, grossTotal U c₁ = .ok q₁ ∧ grossTotal U c₂ = .ok q₂ ∧ q₂ ≤ q₁ := by
  have hp2 : At U c₂ ewb v := by unfold At at hp ⊢; rw [← hin, ← hfl]; exact hp
  have ht : toF c₁.outdoor.db ≤ toF c₂.outdoor.db := by unfold toF; linarith
  simp only [grossShr, hp2.point, bind_ok, shrAt_ok (p := ⟨ewb, toF c₂.outdoor.db, toF c₂.indoor.db, v⟩) hv.ne', Except.ok.injEq] at hs
  subst hs
  have w2 : shrLine ⟨ewb, toF c₂.outdoor.db, toF c₂.indoor.db, v⟩ < 1 := by simpa using s1
  have w1 : shrLine ⟨ewb, toF c₁.outdoor.db, toF c₁.indoor.db, v⟩ < 1 := by
    rw [hin]; unfold shrLine at w2 ⊢; norm_num at *; linarith
  refine ⟨_, _, grossTotal_ok hp.point hv.ne' hg, grossTotal_ok hp2.point hv.ne' (by rw [← hfl]; exact hg), mul_le_mul_of_nonneg_right ?_ g0⟩
  simp only [capRatio24, if_pos w1, if_pos w2]
  generalize toF c₁.outdoor.db = x at *
  generalize toF c₂.outdoor.db = y at *
  have h1 : 0 ≤ (y - x) * (ewb - 27) := mul_nonneg (by linarith) (by linarith)
  have h2 : 0 ≤ (y - x) * v := mul_nonneg (by linarith) hv.le
  norm_num
  nlinarith

/-- C136: with the same indoor air, not below 0 °F, and airflow, and a coil that is dry already at the cooler condition, the unit cools no more when it is hotter outdoors, and
strictly less if it has a capacity. -/
theorem C136_outdoor_dry (hle : c₁.outdoor.db ≤ c₂.outdoor.db) (hd : 0 ≤ toF c₁.indoor.db) {s : K} (hs : grossShr U c₁ = .ok s) (s1 : ¬ s < 1) :
    ∃ q₁ q₂, grossTotal U c₁ = .ok q₁ ∧ grossTotal U c₂ = .ok q₂ ∧ q₂ ≤ q₁ ∧ (c₁.outdoor.db < c₂.outdoor.db → 0 < g → q₂ < q₁) := by
  have hp2 : At U c₂ ewb v := by unfold At at hp ⊢; rw [← hin, ← hfl]; exact hp
  have ht : toF c₁.outdoor.db ≤ toF c₂.outdoor.db := by unfold toF; linarith
  have hlt : c₁.outdoor.db < c₂.outdoor.db → toF c₁.outdoor.db < toF c₂.outdoor.db := by intro h; unfold toF; linarith
  simp only [grossShr, hp.point, bind_ok, shrAt_ok (p := ⟨ewb, toF c₁.outdoor.db, toF c₁.indoor.db, v⟩) hv.ne', Except.ok.injEq] at hs
  subst hs
  have w1 : ¬ shrLine ⟨ewb, toF c₁.outdoor.db, toF c₁.indoor.db, v⟩ < 1 := by simpa using s1
  have w2 : ¬ shrLine ⟨ewb, toF c₂.outdoor.db, toF c₂.indoor.db, v⟩ < 1 := by
    rw [← hin]; unfold shrLine at w1 ⊢; norm_num at *; linarith
  have e : capRatio24 ⟨ewb, toF c₁.outdoor.db, toF c₁.indoor.db, v⟩ (shrLine ⟨ewb, toF c₁.outdoor.db, toF c₁.indoor.db, v⟩ < 1) -
      capRatio24 ⟨ewb, toF c₂.outdoor.db, toF c₂.indoor.db, v⟩ (shrLine ⟨ewb, toF c₂.outdoor.db, toF c₂.indoor.db, v⟩ < 1) =
      (toF c₂.outdoor.db - toF c₁.outdoor.db) * (0.0006006 + 0.0000326 * toF c₁.indoor.db + 0.00000505 * v) := by
    simp only [capRatio24, if_neg w1, if_neg w2]; rw [hin]; ring
  have f0 : 0 < 0.0006006 + 0.0000326 * toF c₁.indoor.db + 0.00000505 * v := by norm_num; nlinarith
  refine ⟨_, _, grossTotal_ok hp.point hv.ne' hg, grossTotal_ok hp2.point hv.ne' (by rw [← hfl]; exact hg), mul_le_mul_of_nonneg_right ?_ g0, fun h1 h2 => mul_lt_mul_of_pos_right ?_ h2⟩
  · nlinarith [mul_nonneg (sub_nonneg.2 ht) f0.le]
  · nlinarith [mul_pos (sub_pos.2 (hlt h1)) f0]

end

/-- C136: with the same dry bulbs and airflow a wet coil cools no less in more humid air, up to 125 °F outdoors and from 27 to 99 °F indoor wet bulb; a dry coil does not notice. -/
theorem C136_indoor {e₁ e₂ v g : K} (hdb : c₁.indoor.db = c₂.indoor.db) (hout : c₁.outdoor.db = c₂.outdoor.db) (hfl : c₁.flow = c₂.flow) (hp₁ : At U c₁ e₁ v) (hp₂ : At U c₂ e₂ v)
    (hv : 0 < v) (hg : U.sys.grossCooling[c₁.flow.compressorSpeed]? = some (some g)) (g0 : 0 ≤ g) (hle : e₁ ≤ e₂) (h99 : e₂ ≤ 99) {s₁ s₂ : K} (hs₁ : grossShr U c₁ = .ok s₁)
    (hs₂ : grossShr U c₂ = .ok s₂) :
    ∃ q₁ q₂, grossTotal U c₁ = .ok q₁ ∧ grossTotal U c₂ = .ok q₂ ∧ s₂ ≤ s₁ ∧ (s₁ < 1 → 27 ≤ e₁ → toF c₁.outdoor.db ≤ 125 → q₁ ≤ q₂) ∧ (¬ s₂ < 1 → q₁ = q₂) := by
  simp only [grossShr, hp₁.point, bind_ok, shrAt_ok (p := ⟨e₁, toF c₁.outdoor.db, toF c₁.indoor.db, v⟩) hv.ne', Except.ok.injEq] at hs₁
  simp only [grossShr, hp₂.point, bind_ok, shrAt_ok (p := ⟨e₂, toF c₂.outdoor.db, toF c₂.indoor.db, v⟩) hv.ne', Except.ok.injEq] at hs₂
  subst hs₁ hs₂
  have hl : shrLine ⟨e₂, toF c₂.outdoor.db, toF c₂.indoor.db, v⟩ ≤ shrLine ⟨e₁, toF c₁.outdoor.db, toF c₁.indoor.db, v⟩ := by
    unfold shrLine
    rw [hdb, hout]
    have h1 : 0 ≤ (e₂ - e₁) * v := mul_nonneg (by linarith) hv.le
    have h2 : 0 ≤ (e₂ - e₁) * (99 - e₂) := mul_nonneg (by linarith) (by linarith)
    have h3 : 0 ≤ (e₂ - e₁) * (99 - e₁) := mul_nonneg (by linarith) (by linarith)
    norm_num
    nlinarith
  refine ⟨_, _, grossTotal_ok hp₁.point hv.ne' hg, grossTotal_ok hp₂.point hv.ne' (by rw [← hfl]; exact hg), min_le_min le_rfl hl, fun w1 he ho => mul_le_mul_of_nonneg_right ?_ g0, fun w2 => ?_⟩
  · have w1 : shrLine ⟨e₁, toF c₁.outdoor.db, toF c₁.indoor.db, v⟩ < 1 := by simpa using w1
    have w2 := hl.trans_lt w1
    simp only [capRatio24, if_pos w1, if_pos w2]
    rw [← hout]
    have f0 : 0 ≤ 0.0096459 - 0.0000959 * toF c₁.outdoor.db + 0.00000818 * v + 0.0001057 * (e₁ + e₂) := by norm_num at *; linarith
    rw [← sub_nonneg]
    refine (mul_nonneg (sub_nonneg.2 hle) f0).trans_eq ?_
    ring
  · have w2 : ¬ shrLine ⟨e₂, toF c₂.outdoor.db, toF c₂.indoor.db, v⟩ < 1 := by simpa using w2
    have w1 : ¬ shrLine ⟨e₁, toF c₁.outdoor.db, toF c₁.indoor.db, v⟩ < 1 := fun h => w2 (hl.trans_lt h)
    simp only [capRatio24, if_neg w1, if_neg w2]
    rw [hdb, hout]

/-- The rating airflow of `unit24` raised to 0.6 m³/s, 80 °F and 61 °F wet bulb indoors. -/
def jump24 (outdoorF : ℚ) : Conditions ℚ :=
  { heating := false, indoor := wetState 101325 (frF 80) (frF 61), outdoor := wetState 101325 (frF outdoorF) (frF 75), flow := ratedFlow 1.2 1.2 0 (some 0) 125 0.6 10000 }

/-- C136 is false of the code where the coil turns dry: a unit cools more at 105.5 °F than at 105.3 °F outdoors, with the same indoor air and airflow. -/
theorem C136_refuted : ∃ q₁ q₂ s₁ s₂ : ℚ, grossTotal (unit24 1) (jump24 105.3) = .ok q₁ ∧ grossTotal (unit24 1) (jump24 105.5) = .ok q₂ ∧ q₁ * 1.01 < q₂ ∧
    grossShr (unit24 1) (jump24 105.3) = .ok s₁ ∧ s₁ < 1 ∧ grossShr (unit24 1) (jump24 105.5) = .ok s₂ ∧ s₂ = 1 := by
  have h : Resdx.DX.okTest (do return (← grossTotal (unit24 1) (jump24 105.5)) - 1.01 * (← grossTotal (unit24 1) (jump24 105.3))) (fun d => decide (0 < d)) = true := by decide +kernel
  have h1 : Resdx.DX.okTest (grossShr (unit24 1) (jump24 105.3)) (fun d => decide (d < 1)) = true := by decide +kernel
  have h2 : Resdx.DX.okTest (grossShr (unit24 1) (jump24 105.5)) (fun d => decide (d = 1)) = true := by decide +kernel
  obtain ⟨d, k, hd⟩ := Resdx.DX.okTest_iff.1 h
  simp only [bind_eq_ok, pure_eq_ok, Except.ok.injEq] at k
  obtain ⟨q₂, k2, q₁, k1, rfl⟩ := k
  obtain ⟨s₁, j1, l1⟩ := Resdx.DX.okTest_iff.1 h1
  obtain ⟨s₂, j2, l2⟩ := Resdx.DX.okTest_iff.1 h2
  exact ⟨q₁, q₂, s₁, s₂, k1, k2, by linarith [of_decide_eq_true hd], j1, of_decide_eq_true l1, j2, of_decide_eq_true l2⟩

/-- The hypotheses of the theorems of C136 hold: a wet coil up to 105.3 °F and a dry one from 105.5 °F on, at 447 cfm/ton. -/
example : At (unit24 1) (jump24 105.3) 61 (0.6 / 10000 * units24.ton / units24.cfm) ∧ 0 < (0.6 / 10000 * units24.ton / units24.cfm : ℚ) ∧
    (unit24 1).sys.grossCooling[(jump24 105.3).flow.compressorSpeed]? = some (some 10400) ∧ (jump24 95).indoor = (jump24 105.3).indoor ∧ (jump24 95).flow = (jump24 105.3).flow := by
  refine ⟨⟨frF 61, 0.6 / 10000, rfl, by decide +kernel, by decide +kernel, rfl⟩, by decide +kernel, rfl, rfl, rfl⟩

end Resdx.Title24
