import Verif.Lemmas.DerivedVariable

/-!
# C95: the tables derived from ratings, in closed form

For each staging type the builder returns, the tables cover the temperature range they are made for, and they follow the specified curves at every outdoor temperature.
-/

set_option linter.unusedSectionVars false
set_option linter.unusedSimpArgs false

namespace Resdx.Tabular

open Spec Util Table Props

variable {K : Type} [Field K] [LinearOrder K] [IsStrictOrderedRing K]

/-- C95, single-stage units: for all ratings with nonzero efficiencies and heating capacity the builder returns tables that follow the specified curves at every outdoor temperature. -/
theorem C95_single (u : Units K) (q95 seer2 eer2 q47 : K) (q17 : Option K) (hspf2 mx mn : K) (cop : Option K) (cd : K) (heer : eer2 ≠ 0) (hseer : seer2 ≠ 0) (hcd : cd ≠ 2) (hq47 : q47 ≠ 0)
    (hcop : heatingCop hspf2 cop ≠ 0) (hmx : frF 95 < mx) (hmn : mn < frF 5) :
    ∃ d, makeSingleSpeed u q95 seer2 eer2 q47 q17 hspf2 mx mn cop cd = .ok d ∧ StandardTables 1 mn mx d ∧ Follows d 1 (singleCurves u.btuh q95 seer2 eer2 q47 q17 hspf2 cop cd) := by
  obtain ⟨qc, pc, e1, r1, r2⟩ := single_cooling u (q95 := q95) heer hseer hcd hmx
  obtain ⟨qh, ph, e2, r3, r4⟩ := single_heating (q17 := q17) hq47 hcop hmn
  obtain ⟨d, e3, ⟨f1, g1⟩, ⟨f2, g2⟩, ⟨f3, g3⟩, f4, g4⟩ := finish_rows r1 r2 r3 r4 rfl rfl (by simp [coolingRows]) (by simp [heatingRows]) one_ne_zero one_ne_zero
  refine ⟨d, by simp only [makeSingleSpeed, e1, e2, e3, bind_ok], standard ⟨f1, g1⟩ ⟨f2, g2⟩ ⟨f3, g3⟩ ⟨f4, g4⟩ rfl rfl rfl rfl, fun x => ⟨?_, ?_, ?_, ?_⟩⟩
  · exact cooling_lookup f1 g1 hmx le_rfl le_rfl x
  · exact cooling_lookup f2 g2 hmx le_rfl le_rfl x
  · exact heating_lookup f3 g3 hmn le_rfl le_rfl x
  · exact heating_lookup f4 g4 hmn le_rfl le_rfl x

/-- C95, two-stage units: the high stage has table speed 2, the low stage 1. -/
theorem C95_two (u : Units K) (q95 seer2 eer2 q47 : K) (q17 : Option K) (hspf2 mx mn : K) (cop82 cop : Option K) (heer : eer2 ≠ 0) (hcop82 : cop82.getD (seer2 / 2) ≠ 0) (hq47 : q47 ≠ 0)
    (hcop : heatingCop hspf2 cop ≠ 0) (hmx : frF 95 < mx) (hmn : mn < frF 5) :
    ∃ d, makeTwoSpeed u q95 seer2 eer2 q47 q17 hspf2 mx mn cop82 cop = .ok d ∧ StandardTables 2 mn mx d ∧ Follows d 2 (highCurves u.btuh q95 eer2 q47 q17 hspf2 cop) ∧
      Follows d 1 (lowCurves q95 seer2 q47 q17 hspf2 cop82 cop) := by
  obtain ⟨qc, pc, e1, r1, r2⟩ := two_cooling u (q95 := q95) heer hcop82 hmx
  obtain ⟨qh, ph, e2, r3, r4⟩ := two_heating (q17 := q17) hq47 hcop hmn
  obtain ⟨d, e3, ⟨f1, g1⟩, ⟨f2, g2⟩, ⟨f3, g3⟩, f4, g4⟩ := finish_rows r1 r2 r3 r4 rfl rfl (by simp [coolingRows]) (by simp [heatingRows]) two_ne_zero two_ne_zero
  have h1 : (1 : Int) ≤ 2 := by norm_num
  have h2 : (2 : Int) ≤ ((2 : Nat) : Int) := by norm_num
  have h3 : (1 : Int) ≤ ((2 : Nat) : Int) := by norm_num
  refine ⟨d, by simp only [makeTwoSpeed, e1, e2, e3, bind_ok], standard ⟨f1, g1⟩ ⟨f2, g2⟩ ⟨f3, g3⟩ ⟨f4, g4⟩ rfl rfl rfl rfl, fun x => ⟨?_, ?_, ?_, ?_⟩, fun x => ⟨?_, ?_, ?_, ?_⟩⟩
  · exact cooling_lookup f1 g1 hmx h1 h2 x
  · exact cooling_lookup f2 g2 hmx h1 h2 x
  · exact heating_lookup f3 g3 hmn h1 h2 x
  · exact heating_lookup f4 g4 hmn h1 h2 x
  · exact cooling_lookup f1 g1 hmx le_rfl h3 x
  · exact cooling_lookup f2 g2 hmx le_rfl h3 x
  · exact heating_lookup f3 g3 hmn le_rfl h3 x
  · exact heating_lookup f4 g4 hmn le_rfl h3 x

/-- C95, variable-speed units: table speeds 1, 2 and 3 are the lowest, the rated and the highest speed. The hypotheses are those under which the builder's quotients exist. -/
theorem C95_variable (u : Units K) (q95 seer2 eer2 q47 : K) (q17 : Option K) (hspf2 mx mn : K) (ratio cop82 cop : Option K) (hq95 : q95 ≠ 0) (heer : eer2 ≠ 0) (hq47 : q47 ≠ 0)
    (hq17 : varHeating17 q47 q17 ≠ 0) (hcop : heatingCop hspf2 cop ≠ 0) (hcop82 : ∀ c, cop82 = some c → c ≠ 0) (hmx : frF 95 < mx) (hmn : mn < frF 5)
    (hlow : 1 - 0.012 * (toF (frF 5) - toF mn) ≠ 0) (hr : (varCooling u.btuh q95 seer2 eer2 ratio cop82).ratio ≠ 1)
    (hp : (varCooling u.btuh q95 seer2 eer2 ratio cop82).p95s.max ≠ (varCooling u.btuh q95 seer2 eer2 ratio cop82).p95s.min) :
    ∃ d, makeNeepStatistical u q95 seer2 eer2 q47 q17 hspf2 mx mn ratio cop82 cop = .ok d ∧ StandardTables 3 mn mx d ∧
      ∀ s : Int, 1 ≤ s → s ≤ 3 → Follows d s (varCurves u.btuh q95 seer2 eer2 q47 q17 hspf2 mn ratio cop82 cop s) := by
  obtain ⟨qc, pc, e1, r1, r2⟩ := var_cooling u hq95 heer hcop82 hmx hr hp
  obtain ⟨m, hm, hm'⟩ := qm17_ok (d := (0.689 : K)) (q17 := q17) hq47
  have hm17 : q47 * m = varHeating17 q47 q17 := hm'
  have hm0 : m ≠ 0 := by rintro rfl; apply hq17; rw [← hm17]; simp
  obtain ⟨qh, e2, r3⟩ := var_heatingQ hq47 hm0 hmn
  obtain ⟨ph, e3, r4⟩ := var_heatingP hq47 hm0 hmn hcop hlow r3
  obtain ⟨d, e4, ⟨f1, g1⟩, ⟨f2, g2⟩, ⟨f3, g3⟩, f4, g4⟩ := finish_rows r1 r2 r3 r4 rfl rfl (by simp [coolingRows]) (by simp [coldRows]) three_ne_zero three_ne_zero
  refine ⟨d, by simp only [makeNeepStatistical, e1, hm, e2, e3, e4, bind_ok], standard ⟨f1, g1⟩ ⟨f2, g2⟩ ⟨f3, g3⟩ ⟨f4, g4⟩ rfl rfl rfl rfl, fun s h1 h2 x => ⟨?_, ?_, ?_, ?_⟩⟩
  · exact cooling_lookup f1 g1 hmx h1 h2 x
  · exact cooling_lookup f2 g2 hmx h1 h2 x
  · rw [hm17] at f3; exact cold_lookup f3 g3 hmn h1 h2 x
  · rw [hm17] at f4; exact cold_lookup f4 g4 hmn h1 h2 x

/-- With default ratios the lowest speed differs from the highest: both hypotheses of `C95_variable` about them hold. -/
theorem default_ratios (u : Units K) {q95 seer2 eer2 : K} (hq95 : q95 ≠ 0) (heer : eer2 ≠ 0) :
    (varCooling u.btuh q95 seer2 eer2 none none).ratio ≠ 1 ∧ (varCooling u.btuh q95 seer2 eer2 none none).p95s.max ≠ (varCooling u.btuh q95 seer2 eer2 none none).p95s.min := by
  have e0 := inputRatio82_pos seer2 eer2
  have e1 : inputRatio82 seer2 eer2 ≤ 1 := max_le (by norm_num) (min_le_left _ _)
  have r1 : capacityRatio95 (inputRatio82 seer2 eer2) ≤ 0.934 := max_le (by norm_num) (min_le_left _ _)
  have r0 : 0 < capacityRatio95 (inputRatio82 seer2 eer2) := lt_of_lt_of_le (by norm_num) (le_max_left _ _)
  have hbt := u.btuh_pos.ne'
  constructor
  · show capacityRatio95 (inputRatio82 seer2 eer2) ≠ 1
    intro h; rw [h] at r1; norm_num at r1
  · show q95 / (eer2 * u.btuh) / (0.934 * 0.928) ≠ q95 / 0.934 * capacityRatio95 (inputRatio82 seer2 eer2) / 0.948 / (maxCop82 q95 (q95 / (eer2 * u.btuh)) / inputRatio82 seer2 eer2) * (0.948 * 1.315)
    generalize inputRatio82 seer2 eer2 = e at *
    generalize capacityRatio95 e = r at *
    have key : r * e * 1.315 < 1.326 := by
      have : r * e ≤ 0.934 * 1 := mul_le_mul r1 e1 e0.le (by norm_num)
      linarith
    unfold maxCop82
    have h : eer2 * u.btuh ≠ 0 := mul_ne_zero heer hbt
    generalize eer2 * u.btuh = b at *
    intro hcon
    field_simp at hcon
    linarith

/-- C95, variable-speed units with default ratios: any nonzero capacities and efficiencies will do. -/
theorem C95_variable_default (u : Units K) (q95 seer2 eer2 q47 : K) (q17 : Option K) (hspf2 mx mn : K) (cop : Option K) (hq95 : q95 ≠ 0) (heer : eer2 ≠ 0) (hq47 : q47 ≠ 0)
    (hq17 : varHeating17 q47 q17 ≠ 0) (hcop : heatingCop hspf2 cop ≠ 0) (hmx : frF 95 < mx) (hmn : mn < frF 5) (hlow : 1 - 0.012 * (toF (frF 5) - toF mn) ≠ 0) :
    ∃ d, makeNeepStatistical u q95 seer2 eer2 q47 q17 hspf2 mx mn none none cop = .ok d ∧ StandardTables 3 mn mx d ∧
      ∀ s : Int, 1 ≤ s → s ≤ 3 → Follows d s (varCurves u.btuh q95 seer2 eer2 q47 q17 hspf2 mn none none cop s) :=
  C95_variable u q95 seer2 eer2 q47 q17 hspf2 mx mn none none cop hq95 heer hq47 hq17 hcop (by simp) hmx hmn hlow (default_ratios u hq95 heer).1 (default_ratios u hq95 heer).2

/-- C95: the only lowest temperature below 5 °F for which the variable-speed builder does not return is −78⅓ °F, where it divides by zero. -/
theorem C95_variable_lowest (u : Units K) (q95 seer2 eer2 q47 : K) (q17 : Option K) (hspf2 mx mn : K) (cop : Option K) (hq95 : q95 ≠ 0) (heer : eer2 ≠ 0) (hq47 : q47 ≠ 0)
    (hq17 : varHeating17 q47 q17 ≠ 0) (hcop : heatingCop hspf2 cop ≠ 0) (hmx : frF 95 < mx) (hmn : mn < frF 5) :
    (toF mn ≠ 5 - 250 / 3 → ∃ d, makeNeepStatistical u q95 seer2 eer2 q47 q17 hspf2 mx mn none none cop = .ok d) ∧
    (toF mn = 5 - 250 / 3 → makeNeepStatistical u q95 seer2 eer2 q47 q17 hspf2 mx mn none none cop = .error .zeroDivision) := by
  have h5 : toF (frF (5 : K)) = 5 := by unfold toF frF; ring
  constructor
  · intro h
    obtain ⟨d, e, -⟩ := C95_variable_default u q95 seer2 eer2 q47 q17 hspf2 mx mn cop hq95 heer hq47 hq17 hcop hmx hmn (by
      rw [h5]; intro hc; apply h; linarith)
    exact ⟨d, e⟩
  · intro h
    obtain ⟨hr, hp⟩ := default_ratios u (seer2 := seer2) hq95 heer
    obtain ⟨qc, pc, e1, -⟩ := var_cooling u hq95 heer (by simp) hmx hr hp
    obtain ⟨m, hm, hm'⟩ := qm17_ok (d := (0.689 : K)) (q17 := q17) hq47
    have hm0 : m ≠ 0 := by rintro rfl; apply hq17; rw [varHeating17, ← hm']; simp
    obtain ⟨qh, e2, r3⟩ := var_heatingQ hq47 hm0 hmn
    have e3 := var_heatingP_error hmn hcop (by rw [h5, h]; norm_num) r3
    simp only [makeNeepStatistical, e1, hm, e2, e3, bind_ok, bind_error]

/-! ## Concrete units -/

/-- The 60 °F limit matters: powers that fall steeply are held at half of the value at 82 °F. -/
example : Ends.cooling (K := ℚ) ⟨4, 6⟩ (frF 60) = 2 ∧ Ends.cooling (K := ℚ) ⟨10, 9⟩ (frF 108) = 8 ∧ Ends.heating (K := ℚ) ⟨6, 10⟩ (frF 32) = 8 ∧ Ends.heating (K := ℚ) ⟨6, 10⟩ (frF 55) = 10 := by
  decide +kernel

example : (makeSingleSpeed (Units.ofOnes ℚ) 10000 14 12 10000 (some 6000) 8).map (fun d => (d.heatingCapacity 1 (frF 32), d.heatingCapacity 1 (frF 55), d.coolingCapacity 1 (frF 60))) =
    .ok (.ok ((singleCurves (K := ℚ) 1 10000 14 12 10000 (some 6000) 8 none 0.15).heatingCapacity (frF 32)), .ok 10000,
      .ok ((singleCurves (K := ℚ) 1 10000 14 12 10000 (some 6000) 8 none 0.15).coolingCapacity (frF 60))) := by decide +kernel

example : (makeNeepStatistical (Units.ofOnes ℚ) 10000 18 12 10000 (some 6000) 8).map (fun d => (d.heatingPower 1 (frF (-10)), d.coolingPower 2 (frF 82), d.heatingCapacity 3 (frF 11))) =
    .ok (.ok ((varCurves (K := ℚ) 1 10000 18 12 10000 (some 6000) 8 (frF (-20)) none none none 1).heatingPower (frF (-10))),
      .ok ((varCurves (K := ℚ) 1 10000 18 12 10000 (some 6000) 8 (frF (-20)) none none none 2).coolingPower (frF 82)),
      .ok ((varCurves (K := ℚ) 1 10000 18 12 10000 (some 6000) 8 (frF (-20)) none none none 3).heatingCapacity (frF 11))) := by decide +kernel

example : heatingCop (8 : ℚ) none ≠ 0 ∧ varHeating17 (10000 : ℚ) none ≠ 0 ∧ (1 : ℚ) - 0.012 * (toF (frF 5) - toF (frF (-20))) ≠ 0 := by decide +kernel

end Resdx.Tabular
