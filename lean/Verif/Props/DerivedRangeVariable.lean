import Verif.Props.DerivedRange

/-! # C90: ranges of ratings for variable-speed units -/

set_option linter.unusedSectionVars false
set_option linter.unusedSimpArgs false

namespace Resdx.Build

open Spec Tabular BaseModel Props ResnetFan Fan Table

variable {u : Units ℝ} {E : Env ℝ} {T : Coil.Tools} {brentq : Brentq} {a : Args}

/-- Linear arithmetic with division by decimals. -/
local macro "declin" : tactic => `(tactic| ((try ring_nf at *); linarith))

/-- Between two values, in the proportion of two others, the ratio stays between the ratios at the ends. -/
theorem between_ratio {low high a r b s t : ℝ} (hab : a < b) (h1 : a ≤ r) (h2 : r ≤ b) (hs : a = s * low) (ht : b = t * high) (hts : t ≤ s) (hlow : 0 ≤ low) (hhigh : 0 ≤ high) :
    r ≤ s * between low high a r b ∧ t * between low high a r b ≤ r := by
  obtain ⟨θ, hθ⟩ : ∃ θ, θ = (r - a) / (b - a) := ⟨_, rfl⟩
  have hba : 0 < b - a := sub_pos.2 hab
  have h0 : 0 ≤ θ := by rw [hθ]; exact div_nonneg (sub_nonneg.2 h1) hba.le
  have h1' : θ ≤ 1 := by rw [hθ, div_le_one hba]; linarith
  have hr : r = (1 - θ) * (s * low) + θ * (t * high) := by
    rw [← hs, ← ht, hθ]; field_simp; ring
  unfold between
  rw [← hθ]
  constructor
  · have : θ * high * t ≤ θ * high * s := mul_le_mul_of_nonneg_left hts (mul_nonneg h0 hhigh)
    rw [hr]; nlinarith
  · have : (1 - θ) * low * t ≤ (1 - θ) * low * s := mul_le_mul_of_nonneg_left hts (mul_nonneg (by linarith) hlow)
    rw [hr]; nlinarith

/-- A power that rises by a factor of at most 1.24663 from 82 °F to 95 °F, where it is at least 0.209 times the capacity. -/
theorem power_margin {w q p82 p95 mx : ℝ} (hw : w < 0.096) (hq : 0 < q) (hmx : UsualCooling mx) (h95 : 0.209 * q ≤ p95) (h : p82 ≤ p95) (h' : p95 ≤ 1.24663 * p82) :
    ∀ x ∈ [frF 60, frF 82, frF 95, mx], w * q < Ends.cooling ⟨p82, p95⟩ x := by
  obtain ⟨m1, m2⟩ := usual_cooling hmx
  have hb : w * q < 0.096 * q := mul_lt_mul_of_pos_right hw hq
  have hk : 0 ≤ (toF mx - 82) / 13 := by linarith
  have := mul_nonneg hk (sub_nonneg.2 h)
  refine cooling_margin hmx.1 ?_ ?_ (.inr ?_) ?_
  · show _ < p82; linarith
  · show _ < p95; linarith
  · show _ < p82 - 22 / 13 * (p95 - p82); linarith
  · show _ < p82 + (toF mx - 82) / 13 * (p95 - p82); linarith

/-- A capacity that falls by at most 7 % from 82 °F to 95 °F. -/
theorem capacity_margin {q82 q95 mx : ℝ} (hq : 0 < q95) (hmx : UsualCooling mx) (h : q95 ≤ q82) (h' : q82 ≤ 1.07 * q95) : ∀ x ∈ [frF 60, frF 82, frF 95, mx], 0 < Ends.cooling ⟨q82, q95⟩ x := by
  obtain ⟨m1, m2⟩ := usual_cooling hmx
  have h0 : 0 < q82 := by linarith
  refine cooling_margin hmx.1 h0 hq (.inl (by positivity)) ?_
  show 0 < q82 + (toF mx - 82) / 13 * (q95 - q82)
  have hk : (toF mx - 82) / 13 ≤ 43 / 13 := by linarith
  have := mul_le_mul_of_nonpos_right hk (sub_nonpos.2 h)
  linarith

/-- The heating values of a speed: 60 % of the value at 5 °F remain at the lowest temperature. -/
theorem heating_speed {v : VarHeating ℝ} {b mn : ℝ} (hmn : mn < frF 5) (s : Int) (h1 : 0 ≤ v.at5.min) (h2 : v.at5.min < v.at5.max) (h3 : v.at5.min ≤ v.at5.full) (h4 : v.at5.full ≤ v.at5.max)
    (f1 : 0.6 ≤ v.minLowest) (f2 : 0.6 ≤ v.maxLowest) (hb : b < 0.6 * v.at5.speed s) (hb5 : b < v.at5.speed s) (h17 : b < v.at17.speed s) (h47 : b < v.at47.speed s) :
    ∀ x ∈ [mn, frF 5, frF 17, frF 47, frF 60], b < (v.speed s).heating mn x := by
  refine cold_margin hmn (lt_of_lt_of_le hb ?_) hb5 h17 h47
  have hlo : 0.6 * v.at5.min ≤ v.at5.min * v.minLowest := by rw [mul_comm 0.6]; exact mul_le_mul_of_nonneg_left f1 h1
  have hhi : 0.6 * v.at5.max ≤ v.at5.max * v.maxLowest := by rw [mul_comm 0.6]; exact mul_le_mul_of_nonneg_left f2 (by linarith)
  show 0.6 * v.at5.speed s ≤ v.lowest.speed s
  unfold Three.speed
  split
  · exact hlo
  · split
    · show 0.6 * v.at5.full ≤ between (v.at5.min * v.minLowest) (v.at5.max * v.maxLowest) v.at5.min v.at5.full v.at5.max
      unfold between
      obtain ⟨θ, hθ⟩ : ∃ θ, θ = (v.at5.full - v.at5.min) / (v.at5.max - v.at5.min) := ⟨_, rfl⟩
      have hba : 0 < v.at5.max - v.at5.min := sub_pos.2 h2
      have t0 : 0 ≤ θ := by rw [hθ]; exact div_nonneg (sub_nonneg.2 h3) hba.le
      have t1 : θ ≤ 1 := by rw [hθ, div_le_one hba]; linarith
      have hf : v.at5.full = (1 - θ) * v.at5.min + θ * v.at5.max := by rw [hθ]; field_simp; ring
      rw [← hθ]
      conv_lhs => rw [hf]
      nlinarith [mul_le_mul_of_nonneg_left hlo (show 0 ≤ 1 - θ by linarith), mul_le_mul_of_nonneg_left hhi t0]
    · exact hhi

theorem lowest_factors {mn : ℝ} (h1 : frF (-20) ≤ mn) (h2 : mn < frF 5) :
    0.6 ≤ lowestFactor (-0.025) mn ∧ 0.6 ≤ lowestFactor (-0.024) mn ∧ 1 ≤ lowestFactor 0.012 mn := by
  have g1 : -20 ≤ toF mn := by have := toF_le.2 h1; rwa [toF_frF] at this
  have g2 : toF mn < 5 := by have := toF_lt.2 h2; rwa [toF_frF] at this
  unfold lowestFactor
  rw [toF_frF]
  refine ⟨?_, ?_, ?_⟩
  · rw [le_div_iff₀ (by linarith)]; linarith
  · rw [le_div_iff₀ (by linarith)]; linarith
  · rw [le_div_iff₀ (by linarith)]; linarith

theorem speeds_cases {P : Int → Prop} (h1 : P 1) (h2 : P 2) (h3 : P 3) : ∀ s : Int, 1 ≤ s → s ≤ 3 → P s := by
  intro s g1 g2
  obtain rfl | rfl | rfl : s = 1 ∨ s = 2 ∨ s = 3 := by omega
  exacts [h1, h2, h3]

theorem three_at (v : Three ℝ) : v.speed 1 = v.min ∧ v.speed 2 = v.full ∧ v.speed 3 = v.max := ⟨rfl, rfl, rfl⟩

/-- Heating capacities and powers of variable-speed units. -/
theorem usual_cold {q47 q17 cop mn w : ℝ} (h : UsualHeating 5 (-20) q47 q17 cop mn) (hw : w < 0.096) : ∀ s : Int, 1 ≤ s → s ≤ 3 →
    (∀ x ∈ [mn, frF 5, frF 17, frF 47, frF 60], w * (varHeatingCapacity q47 q17 mn).at47.speed s < ((varHeatingCapacity q47 q17 mn).speed s).heating mn x) ∧
      ∀ x ∈ [mn, frF 5, frF 17, frF 47, frF 60], w * (varHeatingCapacity q47 q17 mn).at47.speed s < ((varHeatingPower q47 q17 cop mn).speed s).heating mn x := by
  have hq := h.rated
  have hcold := h.cold
  have hcop := h.cop_pos
  have hq17 : 0 < q17 := by linarith
  obtain ⟨l1, l2, l3⟩ := lowest_factors h.above h.below
  have l4 : 0.6 ≤ lowestFactor 0.012 mn * lowestFactor (-0.025) mn := by nlinarith
  have l5 : 0.6 ≤ lowestFactor 0.012 mn * lowestFactor (-0.024) mn := by nlinarith
  have bound : ∀ {c : ℝ}, 0 < c → w * c < 0.096 * c := fun hc => mul_lt_mul_of_pos_right hw hc
  obtain ⟨i, hi⟩ : ∃ i, i = 1 / cop := ⟨_, rfl⟩
  have hi1 : 0.2 ≤ i := by
    rw [hi, le_div_iff₀ hcop]; have := h.cop_le; linarith
  obtain ⟨p47, hp47⟩ : ∃ p, p = q47 / cop := ⟨_, rfl⟩
  obtain ⟨p17, hp17⟩ : ∃ p, p = q17 / cop := ⟨_, rfl⟩
  have b47 : 0.2 * q47 ≤ p47 := by rw [hp47, le_div_iff₀ hcop]; nlinarith [h.cop_le]
  have b17 : 0.1 * q47 ≤ p17 := by rw [hp17, le_div_iff₀ hcop]; nlinarith [h.cop_le]
  have five : 0 ≤ (varHeatingCapacity q47 q17 mn).at5.min ∧ (varHeatingCapacity q47 q17 mn).at5.min < (varHeatingCapacity q47 q17 mn).at5.max ∧
      (varHeatingCapacity q47 q17 mn).at5.min ≤ (varHeatingCapacity q47 q17 mn).at5.full ∧ (varHeatingCapacity q47 q17 mn).at5.full ≤ (varHeatingCapacity q47 q17 mn).at5.max := by
    simp only [VarHeating.at5, VarHeating.at17, varHeatingCapacity]
    refine ⟨?_, ?_, ?_, ?_⟩ <;> ring_nf <;> linarith
  have five' : 0 ≤ (varHeatingPower q47 q17 cop mn).at5.min ∧ (varHeatingPower q47 q17 cop mn).at5.min < (varHeatingPower q47 q17 cop mn).at5.max ∧
      (varHeatingPower q47 q17 cop mn).at5.min ≤ (varHeatingPower q47 q17 cop mn).at5.full ∧ (varHeatingPower q47 q17 cop mn).at5.full ≤ (varHeatingPower q47 q17 cop mn).at5.max := by
    simp only [VarHeating.at5, VarHeating.at17, varHeatingPower, ← hp17]
    refine ⟨?_, ?_, ?_, ?_⟩ <;> ring_nf <;> linarith
  refine speeds_cases ⟨?_, ?_⟩ ⟨?_, ?_⟩ ⟨?_, ?_⟩
  · have e : (varHeatingCapacity q47 q17 mn).at47.speed 1 = q47 / 0.908 * 0.272 := rfl
    have := bound (c := q47 / 0.908 * 0.272) (by positivity)
    rw [e]
    refine heating_speed h.below 1 five.1 five.2.1 five.2.2.1 five.2.2.2 l2 l1 ?_ ?_ ?_ ?_ <;>
    · simp only [three_at, VarHeating.at5, VarHeating.at17, VarHeating.at47, varHeatingCapacity]; ring_nf at this ⊢; linarith
  · have e : (varHeatingCapacity q47 q17 mn).at47.speed 1 = q47 / 0.908 * 0.272 := rfl
    have := bound (c := q47 / 0.908 * 0.272) (by positivity)
    rw [e]
    refine heating_speed h.below 1 five'.1 five'.2.1 five'.2.2.1 five'.2.2.2 l5 l4 ?_ ?_ ?_ ?_ <;>
    · simp only [three_at, VarHeating.at5, VarHeating.at17, VarHeating.at47, varHeatingPower, ← hp17, ← hp47]; ring_nf at this ⊢; linarith
  · have e : (varHeatingCapacity q47 q17 mn).at47.speed 2 = q47 := rfl
    have := bound hq
    rw [e]
    refine heating_speed h.below 2 five.1 five.2.1 five.2.2.1 five.2.2.2 l2 l1 ?_ ?_ ?_ ?_ <;>
    · simp only [three_at, VarHeating.at5, VarHeating.at17, VarHeating.at47, varHeatingCapacity]; ring_nf at this ⊢; linarith
  · have e : (varHeatingCapacity q47 q17 mn).at47.speed 2 = q47 := rfl
    have := bound hq
    rw [e]
    refine heating_speed h.below 2 five'.1 five'.2.1 five'.2.2.1 five'.2.2.2 l5 l4 ?_ ?_ ?_ ?_ <;>
    · simp only [three_at, VarHeating.at5, VarHeating.at17, VarHeating.at47, varHeatingPower, ← hp17, ← hp47]; ring_nf at this ⊢; linarith
  · have e : (varHeatingCapacity q47 q17 mn).at47.speed 3 = q47 / 0.908 := rfl
    have := bound (c := q47 / 0.908) (by positivity)
    rw [e]
    refine heating_speed h.below 3 five.1 five.2.1 five.2.2.1 five.2.2.2 l2 l1 ?_ ?_ ?_ ?_ <;>
    · simp only [three_at, VarHeating.at5, VarHeating.at17, VarHeating.at47, varHeatingCapacity]; ring_nf at this ⊢; linarith
  · have e : (varHeatingCapacity q47 q17 mn).at47.speed 3 = q47 / 0.908 := rfl
    have := bound (c := q47 / 0.908) (by positivity)
    rw [e]
    refine heating_speed h.below 3 five'.1 five'.2.1 five'.2.2.1 five'.2.2.2 l5 l4 ?_ ?_ ?_ ?_ <;>
    · simp only [three_at, VarHeating.at5, VarHeating.at17, VarHeating.at47, varHeatingPower, ← hp17, ← hp47]; ring_nf at this ⊢; linarith

set_option maxHeartbeats 1000000 in
/-- Cooling capacities and powers of variable-speed units with default ratios. -/
theorem usual_variable {q95 seer2 eer2 mx w : ℝ} (hu : UsualUnits u) (hq : 0 < q95) (heer : 0 < eer2) (heer' : eer2 ≤ 16) (hratio : eer2 ≤ 17.4 * (1.305 - 0.324 * seer2 / eer2)) (hmx : UsualCooling mx)
    (hw : w < 0.096) : ∀ s : Int, 1 ≤ s → s ≤ 3 →
    (∀ x ∈ [frF 60, frF 82, frF 95, mx], 0 < Ends.cooling ⟨(varCooling u.btuh q95 seer2 eer2 none none).q82s.speed s, (varCooling u.btuh q95 seer2 eer2 none none).q95s.speed s⟩ x) ∧
      ∀ x ∈ [frF 60, frF 82, frF 95, mx], w * (varCooling u.btuh q95 seer2 eer2 none none).q95s.speed s <
        Ends.cooling ⟨(varCooling u.btuh q95 seer2 eer2 none none).p82s.speed s, (varCooling u.btuh q95 seer2 eer2 none none).p95s.speed s⟩ x := by
  obtain ⟨v, hv⟩ : ∃ v, v = varCooling u.btuh q95 seer2 eer2 none none := ⟨_, rfl⟩
  rw [← hv]
  obtain ⟨e, he⟩ : ∃ e, e = inputRatio82 seer2 eer2 := ⟨_, rfl⟩
  have hbt := u.btuh_pos
  have hE0 : 0 < eer2 * u.btuh := by positivity
  have e1 : e ≤ 1 := by rw [he]; exact max_le (by norm_num) (min_le_left _ _)
  have e0 : 0 < e := by rw [he]; exact inputRatio82_pos _ _
  have e2 : eer2 ≤ 17.4 * e := by
    rw [he]; unfold inputRatio82
    rcases le_total 1 (1.305 - 0.324 * seer2 / eer2) with h | h
    · rw [min_eq_left h]
      have := le_max_right (0.2 : ℝ) 1
      linarith
    · rw [min_eq_right h]
      have := le_max_right (0.2 : ℝ) (1.305 - 0.324 * seer2 / eer2)
      linarith
  have vq : v.q95 = q95 := by rw [hv]; rfl
  have vp : v.p95 = q95 / (eer2 * u.btuh) := by rw [hv]; rfl
  have vr : v.ratio = capacityRatio95 e := by rw [hv, he]; rfl
  have vc : v.cop82 = maxCop82 q95 (q95 / (eer2 * u.btuh)) / e := by rw [hv, he]; rfl
  have vc' : v.cop82 = eer2 * u.btuh * 0.928 * 1.326 / e := by
    rw [vc]; unfold maxCop82; congr 3
    rw [div_div_eq_mul_div, mul_div_assoc, mul_comm, div_mul_cancel₀ _ hq.ne']
  clear vc hv
  have r1 : v.ratio ≤ 0.4 := by
    rw [vr]
    refine max_le (by norm_num) ((min_le_right _ _).trans ?_)
    rw [show 0.510 - 0.119 * (e - 1.305) / (-0.324) = 0.510 + 0.119 / 0.324 * (e - 1.305) by ring]
    linarith
  have r0 : 0 < v.ratio := by rw [vr]; exact lt_of_lt_of_le (by norm_num) (le_max_left _ _)
  -- capacities at 95 °F
  obtain ⟨m, hm⟩ : ∃ m, m = v.q95s.min := ⟨_, rfl⟩
  have hm' : m = q95 / 0.934 * v.ratio := by rw [hm, ← vq]; rfl
  have hm0 : 0 < m := by rw [hm']; positivity
  have hm1 : m ≤ 0.43 * q95 := by
    rw [hm', div_mul_eq_mul_div, div_le_iff₀ (by norm_num)]; nlinarith
  have hmax : v.q95s.max = q95 / 0.934 := by rw [← vq]; rfl
  have hfull : v.q95s.full = q95 := vq
  -- powers
  obtain ⟨p, hp⟩ : ∃ p, p = q95 / (eer2 * u.btuh) := ⟨_, rfl⟩
  have hp95 : v.p95s.full = p := by rw [hp, ← vp]; rfl
  have hpmax : v.p95s.max = p / (0.934 * 0.928) := by rw [hp, ← vp]; rfl
  have hp0 : 0 < p := by rw [hp]; positivity
  have hE : eer2 * u.btuh ≤ 4.69 := by nlinarith [hu.btuh]
  have hE' : eer2 * u.btuh ≤ 5.1 * e := by
    have : eer2 * u.btuh ≤ 17.4 * e * 0.2931 := mul_le_mul e2 hu.btuh hbt.le (by positivity)
    linarith
  have hpq : 0.2131 * q95 ≤ p := by rw [hp, le_div_iff₀ hE0]; nlinarith
  have hc0 : 0 < v.cop82 := by rw [vc']; positivity
  have hc1 : v.cop82 ≤ 6.28 := by rw [vc', div_le_iff₀ e0]; linarith
  obtain ⟨l, hl⟩ : ∃ l, l = v.p82s.min := ⟨_, rfl⟩
  have hl' : l = m / 0.948 / v.cop82 := by rw [hl, hm]; rfl
  have hl0 : 0 < l := by rw [hl']; positivity
  have hlmin : v.p95s.min = l * (0.948 * 1.315) := by rw [hl', hm]; rfl
  have hlc : l * v.cop82 = m / 0.948 := by rw [hl']; field_simp
  have hl1 : 0.209 * m ≤ l * (0.948 * 1.315) := by
    have : l * v.cop82 ≤ l * 6.28 := mul_le_mul_of_nonneg_left hc1 hl0.le
    rw [hlc] at this
    declin
  have hl2 : l * (0.948 * 1.315) ≤ p := by
    have k1 : m / 0.948 ≤ 0.43 * q95 / 0.948 := by declin
    have k2 : p * v.cop82 = q95 * (0.928 * 1.326) / e := by rw [hp, vc']; field_simp
    have k3 : q95 * (0.928 * 1.326) ≤ p * v.cop82 := by
      rw [k2, le_div_iff₀ e0]
      have : 0 < q95 * (0.928 * 1.326) := by positivity
      exact mul_le_of_le_one_right this.le e1
    have k4 : l * (0.948 * 1.315) * v.cop82 ≤ p * v.cop82 := by
      rw [show l * (0.948 * 1.315) * v.cop82 = l * v.cop82 * (0.948 * 1.315) by ring, hlc]
      declin
    exact le_of_mul_le_mul_right k4 hc0
  have hp82max : v.p82s.max = p / (0.934 * 0.928) / (0.940 * 1.326) := by rw [← hpmax]; rfl
  have hlmax : p < p / (0.934 * 0.928) := by rw [lt_div_iff₀ (by norm_num)]; declin
  have hp82 : v.p82s.full = between l (p / (0.934 * 0.928) / (0.940 * 1.326)) (l * (0.948 * 1.315)) p (p / (0.934 * 0.928)) := by
    rw [← hlmin, ← hpmax, hl]; conv_rhs => rw [← hp95]
    rfl
  obtain ⟨b1, b2⟩ := between_ratio (s := 0.948 * 1.315) (t := 0.940 * 1.326) (by order : l * (0.948 * 1.315) < p / (0.934 * 0.928)) hl2 hlmax.le (by ring)
    (by rw [mul_div_cancel₀ _ (by norm_num)] : p / (0.934 * 0.928) = 0.940 * 1.326 * (p / (0.934 * 0.928) / (0.940 * 1.326))) (by norm_num) hl0.le (by positivity)
  rw [← hp82] at b1 b2
  have hq82 : v.q82s.full = between (m / 0.948) (q95 / 0.934 / 0.940) m q95 (q95 / 0.934) := by
    rw [hm, ← hmax]; conv_rhs => rw [← hfull]
    rfl
  have hqm : q95 < q95 / 0.934 := by rw [lt_div_iff₀ (by norm_num)]; declin
  obtain ⟨c1, c2⟩ := between_ratio (s := 0.948) (t := 0.940) (by declin : m < q95 / 0.934) (by declin) hqm.le (by rw [mul_div_cancel₀ _ (by norm_num)] : m = 0.948 * (m / 0.948))
    (by rw [mul_div_cancel₀ _ (by norm_num)] : q95 / 0.934 = 0.940 * (q95 / 0.934 / 0.940)) (by norm_num) (by positivity) (by positivity)
  rw [← hq82] at c1 c2
  have hq82min : v.q82s.min = m / 0.948 := by rw [hm]; rfl
  have hq82max : v.q82s.max = q95 / 0.934 / 0.940 := by rw [← hmax]; rfl
  refine speeds_cases ⟨?_, ?_⟩ ⟨?_, ?_⟩ ⟨?_, ?_⟩ <;> simp only [three_at]
  · rw [hq82min, ← hm]; exact capacity_margin hm0 hmx (by declin) (by declin)
  · rw [← hm, ← hl, hlmin]; exact power_margin hw hm0 hmx hl1 (by declin) (by declin)
  · rw [hfull]; exact capacity_margin hq hmx (by declin) (by declin)
  · rw [hfull, hp95]; exact power_margin hw hq hmx (by declin) (by declin) (by declin)
  · rw [hq82max, hmax]
    have : 0 < q95 / 0.934 := by positivity
    exact capacity_margin this hmx (by declin) (by declin)
  · rw [hp82max, hmax, hpmax]
    have : 0 < q95 / 0.934 := by positivity
    have : 0 < p / (0.934 * 0.928) := by positivity
    exact power_margin hw (by positivity) hmx (by declin) (by declin) (by declin)

/-- C90: every variable-speed unit with default ratios, EER2 ≤ 16, a SEER2 that is not too large for its EER2, heating COP up to 5, at least half of the heating capacity at 17 °F and rated
capacities within a factor of √3 of one another can be made. -/
theorem C90_variable_range {q95 eer2 : ℝ} (hu : UsualUnits u) (ht : a.tables = none) (hst : a.staging = some .varSpeed) (hq : a.cooling = .num q95) (hs : a.seer.isSome) (he : inputEer a = some eer2)
    (hh : a.netHeatingCop.isSome ∨ a.hspf.isSome) (hdef : a.ratio95 = none ∧ a.cop82 = none) (heer : 0 < eer2) (heer' : eer2 ≤ 16)
    (hratio : eer2 ≤ 17.4 * (1.305 - 0.324 * a.seer.getD 0 / eer2)) (h95 : 0 < q95) (hsize : Comparable q95 (ratedHeating u a .varSpeed q95)) (hmx : UsualCooling a.coolingOff)
    (hheat : UsualHeating 5 (-20) (ratedHeating u a .varSpeed q95) (varHeating17 (ratedHeating u a .varSpeed q95) a.heating17) (heatingCop (a.hspf.getD 0) a.netHeatingCop) (lowestTemperature a .varSpeed))
    (h : Surroundings u E T brentq a .varSpeed (let r := (varCooling u.btuh q95 (a.seer.getD 0) eer2 none none).ratio; [q95 / 0.934, q95, (q95 / 0.934 * r + q95) / 2, q95 / 0.934 * r])) :
    ∃ B net, build u E T brentq a = .ok B ∧ Made u E a .varSpeed net (let r := (varCooling u.btuh q95 (a.seer.getD 0) eer2 none none).ratio; [q95 / 0.934, q95, (q95 / 0.934 * r + q95) / 2, q95 / 0.934 * r])
        (let q47 := ratedHeating u a .varSpeed q95; [q47 / 0.908, q47, (q47 / 0.908 * 0.272 + q47) / 2, q47 / 0.908 * 0.272]) B ∧
      ∀ s : Int, 1 ≤ s → s ≤ 3 → Follows net s (varCurves u.btuh q95 (a.seer.getD 0) eer2 (ratedHeating u a .varSpeed q95) a.heating17 (a.hspf.getD 0) (lowestTemperature a .varSpeed) none none a.netHeatingCop s) := by
  have hl : -20 ≤ toF (lowestTemperature a .varSpeed) := by have := toF_le.2 hheat.above; rwa [toF_frF] at this
  have cool := usual_variable (seer2 := a.seer.getD 0) hu h95 heer heer' hratio hmx (usual_fan hu)
  have heat := usual_cold hheat (usual_fan hu)
  have cold47 : ∀ {v : Cold ℝ} {mn : ℝ}, v.heating mn (frF 47) = v.at47 := by
    intro v mn
    have h1 := f17_47 (K := ℝ)
    have h2 := f5_17 (K := ℝ)
    rw [Cold.heating, if_neg (by order), if_neg (by order), if_pos le_rfl]
    unfold lineAt; field_simp [sub_ne_zero.2 h1.ne']; ring
  refine C90_variable ht hst hq hs he hh hdef heer.ne' hheat.cop_pos.ne' h95 hheat.rated (by have := hheat.rated; have := hheat.cold; linarith) hsize hmx.1 hheat.below (by intro hc; rw [hc] at hl; norm_num at hl)
    (fun s h1 h2 => ⟨(cool s h1 h2).1, ?_, ?_, ?_⟩) h
  · rw [show (varCurves u.btuh q95 (a.seer.getD 0) eer2 (ratedHeating u a .varSpeed q95) a.heating17 (a.hspf.getD 0) (lowestTemperature a .varSpeed) none none a.netHeatingCop s).coolingCapacity (frF 95) =
      (varCooling u.btuh q95 (a.seer.getD 0) eer2 none none).q95s.speed s from ends_cooling.2]
    exact (cool s h1 h2).2
  · rw [show (varCurves u.btuh q95 (a.seer.getD 0) eer2 (ratedHeating u a .varSpeed q95) a.heating17 (a.hspf.getD 0) (lowestTemperature a .varSpeed) none none a.netHeatingCop s).heatingCapacity (frF 47) =
      (varHeatingCapacity (ratedHeating u a .varSpeed q95) (varHeating17 (ratedHeating u a .varSpeed q95) a.heating17) (lowestTemperature a .varSpeed)).at47.speed s from cold47]
    exact (heat s h1 h2).1
  · rw [show (varCurves u.btuh q95 (a.seer.getD 0) eer2 (ratedHeating u a .varSpeed q95) a.heating17 (a.hspf.getD 0) (lowestTemperature a .varSpeed) none none a.netHeatingCop s).heatingCapacity (frF 47) =
      (varHeatingCapacity (ratedHeating u a .varSpeed q95) (varHeating17 (ratedHeating u a .varSpeed q95) a.heating17) (lowestTemperature a .varSpeed)).at47.speed s from cold47]
    exact (heat s h1 h2).2

end Resdx.Build

/-! ## Sample units -/

namespace Resdx.Sample

open Spec Tabular BaseModel Props ResnetFan Fan Table Build

theorem usualUnits : UsualUnits units := ⟨by norm_num [units], by norm_num [units]⟩

theorem off125 : UsualCooling (frF 125 : ℝ) := ⟨by rw [frF_lt]; norm_num, le_rfl⟩

/-- The hypotheses of `C90_single_range` hold for the sample unit scaled to any capacity. -/
example {brentq : Brentq} (hbr : BrentqSpec brentq) {q : ℝ} (hq : 0 < q) : ∃ B, build units env tools brentq { oneArgs with cooling := .num q, heating := some q, heating17 := none } = .ok B := by
  obtain ⟨B, -, h, -⟩ := C90_single_range (a := { oneArgs with cooling := .num q, heating := some q, heating17 := none }) usualUnits rfl rfl rfl rfl rfl (.inl rfl) (by norm_num) (by norm_num) (by norm_num)
    (by norm_num [cd, oneArgs]) hq (by norm_num [Comparable, ratedHeating]; nlinarith) off125
    ⟨hq, by norm_num [heating17, ratedHeating]; linarith, by norm_num [heatingCop, oneArgs], by norm_num [heatingCop, oneArgs], by simp [lowestTemperature, oneArgs],
      by simp only [lowestTemperature, oneArgs, Option.getD]; rw [if_neg (by decide), frF_lt]; norm_num⟩
    (surroundings hbr rfl rfl rfl rfl rfl (by simpa using hq))
  exact ⟨B, h⟩

/-- The hypotheses of `C90_two_range`. -/
example {brentq : Brentq} (hbr : BrentqSpec brentq) {q : ℝ} (hq : 0 < q) : ∃ B, build units env tools brentq { twoArgs with cooling := .num q, heating := some q, heating17 := some (0.6 * q) } = .ok B := by
  obtain ⟨B, -, h, -⟩ := C90_two_range (a := { twoArgs with cooling := .num q, heating := some q, heating17 := some (0.6 * q) }) usualUnits rfl rfl rfl (.inl rfl) rfl (.inl rfl) (by norm_num) (by norm_num)
    (by norm_num [twoArgs]) (by norm_num [twoArgs]) hq (by norm_num [Comparable, ratedHeating]; nlinarith) off125
    ⟨hq, by norm_num [heating17, ratedHeating]; linarith, by norm_num [heatingCop, twoArgs], by norm_num [heatingCop, twoArgs], by simp [lowestTemperature, twoArgs],
      by simp only [lowestTemperature, twoArgs, Option.getD]; rw [if_neg (by decide), frF_lt]; norm_num⟩
    (surroundings hbr rfl rfl rfl rfl rfl (by simp; constructor <;> linarith))
  exact ⟨B, h⟩

/-- The hypotheses of `C90_variable_range`: SEER2 18, EER2 12, HSPF2 9, a default heating COP and default ratios. -/
example {brentq : Brentq} (hbr : BrentqSpec brentq) {q : ℝ} (hq : 0 < q) :
    ∃ B, build units env tools brentq { varArgs with cooling := .num q, heating := some q, heating17 := none, netHeatingCop := none, cop82 := none, ratio95 := none } = .ok B := by
  have hr : 0 < (varCooling units.btuh q 18 12 none none).ratio := lt_of_lt_of_le (by norm_num) (le_max_left _ _)
  obtain ⟨B, -, h, -⟩ := C90_variable_range (a := { varArgs with cooling := .num q, heating := some q, heating17 := none, netHeatingCop := none, cop82 := none, ratio95 := none }) usualUnits rfl rfl rfl rfl rfl
    (.inr rfl) ⟨rfl, rfl⟩ (by norm_num) (by norm_num) (by norm_num [varArgs]) hq (by norm_num [Comparable, ratedHeating]; nlinarith) off125
    ⟨hq, by norm_num [varHeating17, ratedHeating]; linarith, by norm_num [heatingCop, varArgs], by norm_num [heatingCop, varArgs], by simp [lowestTemperature, varArgs],
      by simp only [lowestTemperature, varArgs, Option.getD]; rw [if_pos trivial, frF_lt]; norm_num⟩
    (surroundings hbr rfl rfl rfl rfl rfl (by
      intro x hx
      simp only [List.mem_cons, List.not_mem_nil, or_false] at hx
      have : 0 < (varCooling units.btuh q ((varArgs.seer).getD 0) 12 none none).ratio := hr
      rcases hx with rfl | rfl | rfl | rfl <;> positivity))
  exact ⟨B, h⟩

end Resdx.Sample
