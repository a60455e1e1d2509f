import Verif.Lemmas.DerivedMargins

/-!
# C90: ranges of ratings for which construction returns

Explicit ranges of ratings within which every RESNET unit can be made. They are sufficient, not necessary.
-/

set_option linter.unusedSectionVars false
set_option linter.unusedSimpArgs false

namespace Resdx.Build

open Spec Tabular BaseModel Props ResnetFan Fan Table

variable {u : Units ℝ} {E : Env ℝ} {T : Coil.Tools} {brentq : Brentq} {a : Args}

/-- Conversion factors of about the right size: a ton is more than 3516 W and a Btu/h less than 0.2931 W. -/
structure UsualUnits (u : Units ℝ) : Prop where
  ton : 3516 ≤ u.ton
  btuh : u.btuh ≤ 0.2931

/-- The heating side: a capacity at 17 °F of at least half of that at 47 °F, a COP of at most `c`, and a lowest temperature in a range. -/
structure UsualHeating (c lowest q47 q17 cop mn : ℝ) : Prop where
  rated : 0 < q47
  cold : 0.5 * q47 ≤ q17
  cop_pos : 0 < cop
  cop_le : cop ≤ c
  above : frF lowest ≤ mn
  below : mn < frF 5

/-- The highest temperature for cooling is between 95 and 125 °F. -/
def UsualCooling (mx : ℝ) : Prop := frF 95 < mx ∧ mx ≤ frF 125

theorem usual_fan (h : UsualUnits u) : 337.2 / u.ton < 0.096 := by
  have := u.ton_pos
  rw [div_lt_iff₀ this]; have := h.ton; linarith

theorem usual_cooling {mx : ℝ} (h : UsualCooling mx) : 95 < toF mx ∧ toF mx ≤ 125 := by
  have h1 := toF_lt.2 h.1
  have h2 := toF_le.2 h.2
  rw [toF_frF] at h1 h2
  exact ⟨h1, h2⟩

/-- Heating of one- and two-stage units: values `r` times those of full speed, powers `r` times `p` times. -/
theorem usual_heating {c q47 q17 cop mn w r p : ℝ} (h : UsualHeating c 0 q47 q17 cop mn) (hw : w < 0.096) (hr : 0 < r) (hp : 0 < p) (hp1 : p ≤ 1) (hc : 0.096 * c ≤ 0.49 * p) :
    (∀ x ∈ [mn, frF 5, frF 17, frF 47, frF 60], w * (q47 * r) < (Ends.times ⟨q17, q47⟩ r).heating x) ∧
      ∀ x ∈ [mn, frF 5, frF 17, frF 47, frF 60], w * (q47 * r) < (Ends.times ⟨q17 / cop * input17, q47 / cop⟩ (r * p)).heating x := by
  have hq := h.rated
  have hl : 0 ≤ toF mn := by have := toF_le.2 h.above; rwa [toF_frF] at this
  have hl5 : toF mn < 5 := by have := toF_lt.2 h.below; rwa [toF_frF] at this
  have hcold := h.cold
  have hcop := h.cop_pos
  have hb : w * (q47 * r) < 0.096 * (q47 * r) := mul_lt_mul_of_pos_right hw (by positivity)
  obtain ⟨k, hk⟩ : ∃ k, k = (17 - toF mn) / 30 := ⟨_, rfl⟩
  have hk0 : 0 ≤ k := by rw [hk]; linarith
  have hk1 : k ≤ 17 / 30 := by rw [hk]; linarith
  have hk' : (toF mn - 17) / 30 = -k := by rw [hk]; ring
  have base : 0.096 * q47 < q17 + -k * (q47 - q17) := by nlinarith
  have base2 : 0.49 * q47 < q17 * input17 + -k * (q47 - q17 * input17) := by unfold input17; nlinarith
  constructor
  · refine heating_margin h.below ?_ ?_ ?_
    · show _ < q17 * r
      nlinarith [mul_pos hq hr, mul_le_mul_of_nonneg_right hcold hr.le]
    · show _ < q47 * r
      nlinarith [mul_pos hq hr]
    · show _ < q17 * r + (toF mn - 17) / 30 * (q47 * r - q17 * r)
      rw [hk', show q17 * r + -k * (q47 * r - q17 * r) = (q17 + -k * (q47 - q17)) * r by ring]
      refine hb.trans ?_
      rw [← mul_assoc]
      exact mul_lt_mul_of_pos_right base hr
  · have key : ∀ y, 0.49 * q47 < y → w * (q47 * r) < y / cop * (r * p) := by
      intro y hy
      have h1 : w * (q47 * r) < 0.096 * q47 * r := by rw [mul_assoc 0.096]; exact hb
      refine h1.trans ?_
      rw [show y / cop * (r * p) = y * p / cop * r by ring]
      refine mul_lt_mul_of_pos_right ?_ hr
      rw [lt_div_iff₀ hcop]
      have h2 : 0.096 * q47 * cop ≤ 0.096 * q47 * c := mul_le_mul_of_nonneg_left h.cop_le (by positivity)
      have h3 : 0.096 * q47 * c ≤ 0.49 * p * q47 := by nlinarith
      have h4 : 0.49 * q47 * p < y * p := mul_lt_mul_of_pos_right hy hp
      linarith
    refine heating_margin h.below ?_ ?_ ?_
    · show _ < q17 / cop * input17 * (r * p)
      rw [show q17 / cop * input17 = q17 * input17 / cop by ring]
      refine key _ ?_
      unfold input17; nlinarith
    · show _ < q47 / cop * (r * p)
      exact key _ (by linarith)
    · show _ < q17 / cop * input17 * (r * p) + (toF mn - 17) / 30 * (q47 / cop * (r * p) - q17 / cop * input17 * (r * p))
      rw [hk', show q17 / cop * input17 * (r * p) + -k * (q47 / cop * (r * p) - q17 / cop * input17 * (r * p)) = (q17 * input17 + -k * (q47 - q17 * input17)) / cop * (r * p) by ring]
      exact key _ base2

theorem times_one (e : Ends ℝ) : e.times 1 = e := by simp [Ends.times]

/-- Cooling capacities: `q` at 95 °F, 6.86 % more at 82 °F. -/
theorem usual_capacity {q mx : ℝ} (hq : 0 < q) (h : UsualCooling mx) : ∀ x ∈ [frF 60, frF 82, frF 95, mx], 0 < Ends.cooling ⟨q * capacity82, q⟩ x := by
  obtain ⟨h1, h2⟩ := usual_cooling h
  have hC : (0 : ℝ) < q * capacity82 := mul_pos hq capacity82_pos
  refine cooling_margin h.1 hC hq (.inl (by positivity)) ?_
  show 0 < q * capacity82 + (toF mx - 82) / 13 * (q - q * capacity82)
  rw [show q * capacity82 + (toF mx - 82) / 13 * (q - q * capacity82) = q * (capacity82 + (toF mx - 82) / 13 * (1 - capacity82)) by ring]
  refine mul_pos hq ?_
  unfold capacity82
  linarith

/-- The margins of the curves of a single-stage unit in usual ranges, up to any usual highest temperature. -/
theorem single_margins {q95 seer2 eer2 mx : ℝ} (hu : UsualUnits u) (heer : 0 < eer2) (hseer : eer2 ≤ seer2) (hseer' : seer2 ≤ 16.5) (hcd : 0 ≤ cd a.cdCooling ∧ cd a.cdCooling ≤ 0.25) (h95 : 0 < q95)
    (hmx : UsualCooling mx)
    (hheat : UsualHeating 5 0 (ratedHeating u a .single q95) (heating17 (ratedHeating u a .single q95) a.heating17) (heatingCop (a.hspf.getD 0) a.netHeatingCop) (lowestTemperature a .single)) :
    Margins (337.2 / u.ton) (lowestTemperature a .single) mx (singleCurves u.btuh q95 seer2 eer2 (ratedHeating u a .single q95) a.heating17 (a.hspf.getD 0) a.netHeatingCop (cd a.cdCooling)) := by
  have hw := usual_fan hu
  have hbt := u.btuh_pos
  have hseer0 : 0 < seer2 := lt_of_lt_of_le heer hseer
  obtain ⟨m1, m2⟩ := usual_cooling hmx
  obtain ⟨g1, g2⟩ := usual_heating (r := 1) (p := 1) hheat hw one_pos one_pos le_rfl (by norm_num)
  rw [mul_one, times_one] at g1
  rw [mul_one, mul_one, times_one] at g2
  refine ⟨usual_capacity h95 hmx, ?_, ?_, ?_⟩
  · rw [show (singleCurves u.btuh q95 seer2 eer2 (ratedHeating u a .single q95) a.heating17 (a.hspf.getD 0) a.netHeatingCop (cd a.cdCooling)).coolingCapacity (frF 95) = q95 from ends_cooling.2]
    have hS : seer2 * u.btuh ≤ 4.84 := by nlinarith [hu.btuh]
    have hS0 : 0 < seer2 * u.btuh := by positivity
    obtain ⟨i, hi⟩ : ∃ i, i = 1 / (seer2 * u.btuh) := ⟨_, rfl⟩
    obtain ⟨j, hj⟩ : ∃ j, j = 1 / (eer2 * u.btuh) := ⟨_, rfl⟩
    have hi1 : 1 / 4.84 ≤ i := by rw [hi]; exact one_div_le_one_div_of_le hS0 hS
    have hij : i ≤ j := by rw [hi, hj]; exact one_div_le_one_div_of_le (by positivity) (mul_le_mul_of_nonneg_right hseer hbt.le)
    obtain ⟨d, hd⟩ : ∃ d, d = 1 - cd a.cdCooling / 2 := ⟨_, rfl⟩
    have hd0 : 0.875 ≤ d := by rw [hd]; linarith [hcd.2]
    have hd1 : d ≤ 1 := by rw [hd]; linarith [hcd.1]
    have el : q95 * capacity82 / (seer2 * u.btuh) * (1 - cd a.cdCooling / 2) = q95 * (capacity82 * i * d) := by rw [hi, hd]; ring
    have eh : q95 / (eer2 * u.btuh) = q95 * j := by rw [hj]; ring
    have hb : 337.2 / u.ton * q95 < q95 * 0.096 := by rw [mul_comm q95]; exact mul_lt_mul_of_pos_right hw h95
    have hid : 1 / 4.84 * 0.875 ≤ i * d := mul_le_mul hi1 hd0 (by norm_num) (by linarith)
    have hid' : i * d ≤ i := mul_le_of_le_one_right (by linarith) hd1
    show ∀ x ∈ _, _ < Ends.cooling ⟨q95 * capacity82 / (seer2 * u.btuh) * (1 - cd a.cdCooling / 2), q95 / (eer2 * u.btuh)⟩ x
    rw [el, eh, mul_assoc capacity82]
    generalize i * d = y at *
    have key : ∀ z, 0.096 ≤ z → 337.2 / u.ton * q95 < q95 * z := fun z hz => lt_of_lt_of_le hb (mul_le_mul_of_nonneg_left hz h95.le)
    refine cooling_margin hmx.1 (key _ (by unfold capacity82; linarith)) (key _ (by linarith)) (.inl ?_) ?_
    · show _ < q95 * (capacity82 * y) / 2
      rw [mul_div_assoc]
      refine key _ ?_
      unfold capacity82
      linarith
    · show _ < q95 * (capacity82 * y) + (toF mx - 82) / 13 * (q95 * j - q95 * (capacity82 * y))
      rw [show q95 * (capacity82 * y) + (toF mx - 82) / 13 * (q95 * j - q95 * (capacity82 * y)) = q95 * (capacity82 * y + (toF mx - 82) / 13 * (j - capacity82 * y)) by ring]
      refine key _ ?_
      have hk0 : 0 ≤ (toF mx - 82) / 13 := by linarith
      have hk1 : (toF mx - 82) / 13 ≤ 43 / 13 := by linarith
      generalize (toF mx - 82) / 13 = k at *
      rcases le_total (capacity82 * y) j with hj' | hj'
      · have : 0 ≤ k * (j - capacity82 * y) := mul_nonneg hk0 (sub_nonneg.2 hj')
        have : (0.096 : ℝ) ≤ capacity82 * y := by unfold capacity82; linarith
        linarith
      · have : 43 / 13 * (j - capacity82 * y) ≤ k * (j - capacity82 * y) := mul_le_mul_of_nonpos_right hk1 (sub_nonpos.2 hj')
        have : (0.096 : ℝ) ≤ capacity82 * y + 43 / 13 * (j - capacity82 * y) := by unfold capacity82; linarith
        linarith
  · rw [show (singleCurves u.btuh q95 seer2 eer2 (ratedHeating u a .single q95) a.heating17 (a.hspf.getD 0) a.netHeatingCop (cd a.cdCooling)).heatingCapacity (frF 47) = ratedHeating u a .single q95 from ends_heating.2.1]
    exact g1
  · rw [show (singleCurves u.btuh q95 seer2 eer2 (ratedHeating u a .single q95) a.heating17 (a.hspf.getD 0) a.netHeatingCop (cd a.cdCooling)).heatingCapacity (frF 47) = ratedHeating u a .single q95 from ends_heating.2.1]
    exact g2

/-- C90: every single-stage unit with EER2 ≤ SEER2 ≤ 16.5, cycling degradation up to 0.25, heating COP up to 5, at least half of the heating capacity at 17 °F and rated capacities
within a factor of √3 of one another can be made. -/
theorem C90_single_range {q95 seer2 eer2 : ℝ} (hu : UsualUnits u) (ht : a.tables = none) (hst : a.staging = some .single) (hq : a.cooling = .num q95) (hs : a.seer = some seer2)
    (he : inputEer a = some eer2) (hh : a.netHeatingCop.isSome ∨ a.hspf.isSome) (heer : 0 < eer2) (hseer : eer2 ≤ seer2) (hseer' : seer2 ≤ 16.5) (hcd : 0 ≤ cd a.cdCooling ∧ cd a.cdCooling ≤ 0.25)
    (h95 : 0 < q95) (hsize : Comparable q95 (ratedHeating u a .single q95)) (hmx : UsualCooling a.coolingOff)
    (hheat : UsualHeating 5 0 (ratedHeating u a .single q95) (heating17 (ratedHeating u a .single q95) a.heating17) (heatingCop (a.hspf.getD 0) a.netHeatingCop) (lowestTemperature a .single))
    (h : Surroundings u E T brentq a .single [q95]) :
    ∃ B net, build u E T brentq a = .ok B ∧ Made u E a .single net [q95] [ratedHeating u a .single q95] B ∧
      Follows net 1 (singleCurves u.btuh q95 seer2 eer2 (ratedHeating u a .single q95) a.heating17 (a.hspf.getD 0) a.netHeatingCop (cd a.cdCooling)) := by
  have hseer0 : 0 < seer2 := lt_of_lt_of_le heer hseer
  exact C90_single ht hst hq hs he hh hseer0.ne' heer.ne' (by linarith [hcd.2]) hheat.cop_pos.ne' h95 hheat.rated hsize hmx.1 hheat.below (single_margins hu heer hseer hseer' hcd h95 hmx hheat) h

/-- The margins of the curves of a two-stage unit in usual ranges, up to any usual highest temperature. -/
theorem two_margins {q95 eer2 mx : ℝ} (hu : UsualUnits u) (heer : 0 < eer2) (heer' : eer2 ≤ 22) (hlow : 0 < a.cop82.getD (a.seer.getD 0 / 2)) (hlow' : a.cop82.getD (a.seer.getD 0 / 2) ≤ 8) (h95 : 0 < q95)
    (hmx : UsualCooling mx)
    (hheat : UsualHeating 4.3 0 (ratedHeating u a .two q95) (heating17 (ratedHeating u a .two q95) a.heating17) (heatingCop (a.hspf.getD 0) a.netHeatingCop) (lowestTemperature a .two)) :
    Margins (337.2 / u.ton) (lowestTemperature a .two) mx (highCurves u.btuh q95 eer2 (ratedHeating u a .two q95) a.heating17 (a.hspf.getD 0) a.netHeatingCop) ∧
      Margins (337.2 / u.ton) (lowestTemperature a .two) mx (lowCurves q95 (a.seer.getD 0) (ratedHeating u a .two q95) a.heating17 (a.hspf.getD 0) a.cop82 a.netHeatingCop) := by
  have hw := usual_fan hu
  have hbt := u.btuh_pos
  obtain ⟨m1, m2⟩ := usual_cooling hmx
  obtain ⟨g1, g2⟩ := usual_heating (r := 1) (p := 1) hheat hw one_pos one_pos le_rfl (by norm_num)
  rw [mul_one, times_one] at g1
  rw [mul_one, mul_one, times_one] at g2
  obtain ⟨g3, g4⟩ := usual_heating (r := 0.712) (p := 0.85) hheat hw (by norm_num) (by norm_num) (by norm_num) (by norm_num)
  -- powers that rise from 82 °F to 95 °F by the factor of the high stage
  have power : ∀ {q p95 : ℝ}, 0 < q → 0.155 * q ≤ p95 → ∀ x ∈ [frF 60, frF 82, frF 95, mx], 337.2 / u.ton * q < Ends.cooling ⟨p95 * capacity82 * input82, p95⟩ x := by
    intro q p95 hq hp
    have hb : 337.2 / u.ton * q < 0.096 * q := mul_lt_mul_of_pos_right hw hq
    have hk : 0 ≤ (toF mx - 82) / 13 := by linarith
    have hp' : 0 < p95 := by nlinarith
    refine cooling_margin hmx.1 ?_ (by show _ < p95; linarith) (.inr ?_) ?_
    · show _ < p95 * capacity82 * input82
      unfold capacity82 input82; linarith
    · show _ < p95 * capacity82 * input82 - 22 / 13 * (p95 - p95 * capacity82 * input82)
      unfold capacity82 input82; linarith
    · show _ < p95 * capacity82 * input82 + (toF mx - 82) / 13 * (p95 - p95 * capacity82 * input82)
      have : (0 : ℝ) ≤ p95 - p95 * capacity82 * input82 := by unfold capacity82 input82; linarith
      have := mul_nonneg hk this
      have : 337.2 / u.ton * q < p95 * capacity82 * input82 := by unfold capacity82 input82; linarith
      linarith
  refine ⟨⟨usual_capacity h95 hmx, ?_, ?_, ?_⟩, ?_, ?_, ?_, ?_⟩
  · rw [show (highCurves u.btuh q95 eer2 (ratedHeating u a .two q95) a.heating17 (a.hspf.getD 0) a.netHeatingCop).coolingCapacity (frF 95) = q95 from ends_cooling.2]
    refine power h95 ?_
    have hE : eer2 * u.btuh ≤ 6.45 := by nlinarith [hu.btuh]
    rw [le_div_iff₀ (by positivity)]
    nlinarith
  · rw [show (highCurves u.btuh q95 eer2 (ratedHeating u a .two q95) a.heating17 (a.hspf.getD 0) a.netHeatingCop).heatingCapacity (frF 47) = ratedHeating u a .two q95 from ends_heating.2.1]
    exact g1
  · rw [show (highCurves u.btuh q95 eer2 (ratedHeating u a .two q95) a.heating17 (a.hspf.getD 0) a.netHeatingCop).heatingCapacity (frF 47) = ratedHeating u a .two q95 from ends_heating.2.1]
    exact g2
  · have := usual_capacity (q := q95 * 0.728) (by positivity) hmx
    rw [show q95 * 0.728 * capacity82 = q95 * capacity82 * 0.728 by ring] at this
    exact this
  · rw [show (lowCurves q95 (a.seer.getD 0) (ratedHeating u a .two q95) a.heating17 (a.hspf.getD 0) a.cop82 a.netHeatingCop).coolingCapacity (frF 95) = q95 * 0.728 from ends_cooling.2]
    have := power (q := q95 * 0.728) (p95 := q95 * capacity82 * 0.728 / a.cop82.getD (a.seer.getD 0 / 2) / (capacity82 * input82)) (by positivity) (by
      have h1 : (0 : ℝ) < capacity82 * input82 := mul_pos capacity82_pos input82_pos
      rw [le_div_iff₀ h1, le_div_iff₀ hlow]
      generalize a.cop82.getD (a.seer.getD 0 / 2) = c at *
      have : 0.155 * (q95 * 0.728) * (capacity82 * input82) * c ≤ 0.155 * (q95 * 0.728) * (capacity82 * input82) * 8 := mul_le_mul_of_nonneg_left hlow' (by positivity)
      refine this.trans ?_
      unfold capacity82 input82
      linarith)
    rw [mul_assoc _ capacity82 input82, div_mul_cancel₀ _ (mul_pos capacity82_pos input82_pos).ne'] at this
    exact this
  · rw [show (lowCurves q95 (a.seer.getD 0) (ratedHeating u a .two q95) a.heating17 (a.hspf.getD 0) a.cop82 a.netHeatingCop).heatingCapacity (frF 47) = ratedHeating u a .two q95 * 0.712 from
      ends_heating.2.1]
    exact g3
  · rw [show (lowCurves q95 (a.seer.getD 0) (ratedHeating u a .two q95) a.heating17 (a.hspf.getD 0) a.cop82 a.netHeatingCop).heatingCapacity (frF 47) = ratedHeating u a .two q95 * 0.712 from
      ends_heating.2.1]
    have e : (0.850 : ℝ) = 0.85 := by norm_num
    show ∀ x ∈ _, _ < (Ends.times _ (0.712 * 0.850)).heating x
    rw [e]
    exact g4

/-- C90: every two-stage unit with EER2 ≤ 22, low-stage COP at 82 °F up to 8, heating COP up to 4.3, at least half of the heating capacity at 17 °F and rated capacities within a factor of √3 of
one another can be made. -/
theorem C90_two_range {q95 eer2 : ℝ} (hu : UsualUnits u) (ht : a.tables = none) (hst : a.staging = some .two) (hq : a.cooling = .num q95) (hs : a.cop82.isSome ∨ a.seer.isSome)
    (he : inputEer a = some eer2) (hh : a.netHeatingCop.isSome ∨ a.hspf.isSome) (heer : 0 < eer2) (heer' : eer2 ≤ 22) (hlow : 0 < a.cop82.getD (a.seer.getD 0 / 2))
    (hlow' : a.cop82.getD (a.seer.getD 0 / 2) ≤ 8) (h95 : 0 < q95) (hsize : Comparable q95 (ratedHeating u a .two q95)) (hmx : UsualCooling a.coolingOff)
    (hheat : UsualHeating 4.3 0 (ratedHeating u a .two q95) (heating17 (ratedHeating u a .two q95) a.heating17) (heatingCop (a.hspf.getD 0) a.netHeatingCop) (lowestTemperature a .two))
    (h : Surroundings u E T brentq a .two [q95, q95 * 0.728]) :
    ∃ B net, build u E T brentq a = .ok B ∧ Made u E a .two net [q95, q95 * 0.728] [ratedHeating u a .two q95, ratedHeating u a .two q95 * 0.712] B ∧
      Follows net 2 (highCurves u.btuh q95 eer2 (ratedHeating u a .two q95) a.heating17 (a.hspf.getD 0) a.netHeatingCop) ∧
      Follows net 1 (lowCurves q95 (a.seer.getD 0) (ratedHeating u a .two q95) a.heating17 (a.hspf.getD 0) a.cop82 a.netHeatingCop) := by
  obtain ⟨m2, m1⟩ := two_margins (a := a) hu heer heer' hlow hlow' h95 hmx hheat
  exact C90_two ht hst hq hs he hh heer.ne' hlow.ne' hheat.cop_pos.ne' h95 hheat.rated hsize hmx.1 hheat.below m2 m1 h

end Resdx.Build
