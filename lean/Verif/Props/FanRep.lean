import Verif.Lemmas.FanCurves
import Verif.Props.FanCurves
import Verif.Props.FanPower
import Mathlib.Analysis.Convex.SpecificFunctions.Basic

/-! # Properties C22–C24, C68, C69: RESNET fans, speed order, fan representation, rated-speed search -/

set_option linter.unusedSectionVars false
set_option linter.unusedSimpArgs false

namespace Resdx.Props

open Fan Spec

/-! ## C22, C23 -/

/-- What a RESNET fan keeps about its first speed. -/
def ResnetFirst (u : Units ℝ) (a0 : ℝ) (b : Base) : Prop :=
  AlignedBase b ∧ b.sysConst = Real.sqrt (0.5 * u.inH2O) / a0 ∧ b.designESP = 0.5 * u.inH2O ∧ b.airflow[0]? = some a0

theorem resnetFirst {u : Units ℝ} {airflows : List ℝ} {s0 s : Base} (h0 : resnetInit u airflows = .ok s0)
    (h : FanReach Base.addSpeed Base.removeSpeed (notFirst id) s0 s) :
    ∃ a0, airflows[0]? = some a0 ∧ a0 ≠ 0 ∧ ResnetFirst u a0 s := by
  simp only [resnetInit, bind_eq_ok] at h0
  obtain ⟨b, hb, h0⟩ := h0
  obtain ⟨a0, e0, hne, hp, rfl⟩ := start_eq_ok hb
  refine ⟨a0, e0, hne, ?_⟩
  have hadd : ∀ (s s' : Base) (a : ℝ), ResnetFirst u a0 s → Base.addSpeed a s = (.ok (), s') → ResnetFirst u a0 s' := by
    rintro s s' a ⟨h1, h2, h3, h4⟩ ha
    have hal := Base.add_aligned h1 ha
    obtain ⟨-, rfl⟩ := Base.addSpeed_ok ha
    exact ⟨hal, h2, h3, append_zero? h4⟩
  have hinit : ResnetFirst u a0 s0 := by
    have h0 := exec_eq_ok h0
    cases hl : airflows with
    | nil => simp [hl] at e0
    | cons a l =>
      obtain rfl : a = a0 := by simpa [hl] using e0
      rw [hl] at h0
      simp only [addAll, PyM.bind_run] at h0
      split at h0
      · rename_i s1 hs1
        have h1 : ResnetFirst u a s1 := by
          have hal := Base.add_aligned (by simp [AlignedBase]) hs1
          obtain ⟨-, rfl⟩ := Base.addSpeed_ok hs1
          exact ⟨hal, rfl, rfl, by simp⟩
        exact addAll_inv (P := ResnetFirst u a) hadd l _ _ h1 h0
      · cases h0
  refine reach_inv (P := ResnetFirst u a0) hinit hadd ?_ h
  rintro s i ⟨h1, h2, h3, h4⟩ ha
  rcases pyIdx_cases s.airflow.length i with ⟨k, hk, hlt⟩ | hk
  · have hk0 := idx_notFirst hk ha.1 ha.2
    have hal := Base.remove_aligned (i := i) h1
    rw [Base.removeSpeed_ok hk h1.2] at hal ⊢
    exact ⟨hal, h2, h3, by simpa only [eraseIdx_zero? hk0] using h4⟩
  · rw [Base.removeSpeed_error hk]
    exact ⟨h1, h2, h3, h4⟩

theorem resnet_pressure {u : Units ℝ} {a0 : ℝ} {b : Base} (h : ResnetFirst u a0 b) (h0 : 0 < a0) (a : ℝ) :
    0 < b.sysConst ∧ 0 < b.designESP ∧ (a * b.sysConst) ^ 2 = 0.5 * u.inH2O * (a / a0) ^ 2 := by
  have hi := u.inH2O_pos
  have hp : 0 < 0.5 * u.inH2O := by positivity
  refine ⟨by rw [h.2.1]; exact div_pos (Real.sqrt_pos.2 hp) h0, by rw [h.2.2.1]; exact hp, ?_⟩
  rw [h.2.1, mul_pow, div_pow, Real.sq_sqrt hp.le]
  ring

/-- C23: the operating pressure of a RESNET speed is design pressure × (airflow ratio)², found whenever the ratio is at most √3. -/
theorem C23_operating_pressure (u : Units ℝ) (brentq : Brentq) (hbr : BrentqSpec brentq) (airflows : List ℝ) (a0 : ℝ) (s0 s : Base)
    (h0 : resnetInit u airflows = .ok s0) (h : FanReach Base.addSpeed Base.removeSpeed (notFirst id) s0 s)
    (hf : airflows[0]? = some a0) (hpos : 0 < a0) (i : Nat) (a : ℝ) (ha : s.airflow[i]? = some a) (ha0 : 0 ≤ a)
    (hr : (a / a0) ^ 2 ≤ 3) :
    resnetOperatingPressure brentq s i = .ok (0.5 * u.inH2O * (a / a0) ^ 2) := by
  obtain ⟨a0', e1, -, hs⟩ := resnetFirst h0 h
  rw [hf] at e1; cases e1
  obtain ⟨k1, k2, k3⟩ := resnet_pressure hs hpos a
  rw [← k3]
  have hi := u.inH2O_pos
  exact resnetOperating_ok hbr k1 k2 ha ha0 (by rw [k3, hs.2.2.1]; nlinarith)

/-- C23: above √3 times the first airflow the search fails with `ValueError`. -/
theorem C23_no_operating_point (u : Units ℝ) (brentq : Brentq) (hbr : BrentqSpec brentq) (airflows : List ℝ) (a0 : ℝ) (s0 s : Base)
    (h0 : resnetInit u airflows = .ok s0) (h : FanReach Base.addSpeed Base.removeSpeed (notFirst id) s0 s)
    (hf : airflows[0]? = some a0) (hpos : 0 < a0) (i : Nat) (a : ℝ) (ha : s.airflow[i]? = some a) (ha0 : 0 < a)
    (hr : 3 < (a / a0) ^ 2) :
    resnetOperatingPressure brentq s i = .error .value := by
  obtain ⟨a0', e1, -, hs⟩ := resnetFirst h0 h
  rw [hf] at e1; cases e1
  obtain ⟨k1, k2, k3⟩ := resnet_pressure hs hpos a
  have hi := u.inH2O_pos
  exact resnetOperating_error hbr k1 k2 ha ha0 (by rw [k3, hs.2.2.1]; nlinarith)

/-- A solver meeting the contract exists. -/
theorem brentqSpec_satisfiable : ∃ brentq : Brentq, BrentqSpec brentq := by
  classical
  refine ⟨fun f a b => if h : ∃ r, a ≤ r ∧ r ≤ b ∧ (f r = .ok 0) ∧ ∀ fa fb, f a = .ok fa → f b = .ok fb → fa * fb ≤ 0
    then .ok h.choose else .error .value, ?_, ?_⟩
  · intro f a b fa fb h1 h2 h3
    rw [dif_neg]
    rintro ⟨r, -, -, -, h⟩
    exact absurd h3 (not_lt.2 (h fa fb h1 h2))
  · intro f g a b hab hf hg hs
    have h0 : (0 : ℝ) ∈ g '' Set.Icc a b := by
      rcases mul_nonpos_iff.1 hs with ⟨h1, h2⟩ | ⟨h1, h2⟩
      · exact intermediate_value_Icc' hab hg ⟨h2, h1⟩
      · exact intermediate_value_Icc hab hg ⟨h1, h2⟩
    obtain ⟨r, ⟨hr1, hr2⟩, hr⟩ := h0
    have hex : ∃ r, a ≤ r ∧ r ≤ b ∧ (f r = .ok 0) ∧ ∀ fa fb, f a = .ok fa → f b = .ok fb → fa * fb ≤ 0 := by
      refine ⟨r, hr1, hr2, by rw [hf r hr1 hr2, hr], ?_⟩
      intro fa fb h1 h2
      rw [hf a (le_refl _) hab] at h1; cases h1
      rw [hf b hab (le_refl _)] at h2; cases h2
      exact hs
    refine ⟨hex.choose, dif_pos hex, hex.choose_spec.1, hex.choose_spec.2.1, ?_⟩
    have := hex.choose_spec.2.2.1
    rw [hf _ hex.choose_spec.1 hex.choose_spec.2.1] at this
    simpa using this

example (u : Units ℝ) : ∃ s0, resnetInit u [2, 1] = .ok s0 ∧ s0.airflow[1]? = some 1 ∧ ((1 : ℝ) / 2) ^ 2 ≤ 3 := by
  have hi := u.inH2O_pos
  obtain ⟨s, h1, h2⟩ := C13_resnet_constructs u [2, 1] (by simp) (by simp)
  exact ⟨s, h1, by rw [h2.1]; rfl, by norm_num⟩

theorem resnetRatio_ok {b : Base} {a0 a : ℝ} {i : Nat} (h0 : b.airflow[0]? = some a0) (hne : a0 ≠ 0) (ha : b.airflow[i]? = some a)
    (p : Option ℝ) : resnetAirflowRatio b i 0 p = .ok (a / a0) := by
  have e1 : pyGetI b.airflow (i : Int) = .ok a := pyGetI_natCast.2 ha
  have e2 : pyGetI b.airflow 0 = .ok a0 := pyGetI_natCast.2 h0
  simp [resnetAirflowRatio, resnetAirflow, e1, e2, bind_ok, pdiv_ok hne]

/-- C22: the RESNET PSC efficacy is 70 % to 100 % of the design efficacy for airflow ratios in [0, 1]. -/
theorem C22_psc_bounds (u : Units ℝ) (b : Base) (i : Nat) (a0 a : ℝ) (p : Option ℝ) (h0 : b.airflow[0]? = some a0) (hpos : 0 < a0)
    (ha : b.airflow[i]? = some a) (ha0 : 0 ≤ a) (ha1 : a ≤ a0) :
    ∃ e, resnetPSCEfficacy u b i p = .ok e ∧ 0.7 * (0.414 / u.cfm) ≤ e ∧ e ≤ 0.414 / u.cfm ∧
      e = 0.414 / u.cfm * (0.7 + 0.3 * (a / a0)) := by
  have hc := u.cfm_pos
  have hr0 : 0 ≤ a / a0 := div_nonneg ha0 hpos.le
  have hr1 : a / a0 ≤ 1 := by rw [div_le_one hpos]; exact ha1
  have hd : 0 < 0.414 / u.cfm := by positivity
  refine ⟨0.414 / u.cfm * (PSC.slope * (a / a0) + (1 - PSC.slope)), ?_, ?_, ?_, ?_⟩
  · simp [resnetPSCEfficacy, resnetRatio_ok h0 hpos.ne' ha, bind_ok, pure_eq_ok]
  · unfold PSC.slope; nlinarith
  · unfold PSC.slope; nlinarith
  · unfold PSC.slope; ring

/-- C22: RESNET PSC power does not decrease with the airflow of the setting. -/
theorem C22_psc_power_mono (u : Units ℝ) (b : Base) (i j : Nat) (a0 a a' : ℝ) (p : Option ℝ) (h0 : b.airflow[0]? = some a0)
    (hpos : 0 < a0) (ha : b.airflow[i]? = some a) (ha' : b.airflow[j]? = some a') (hn : 0 ≤ a) (hle : a ≤ a') :
    ∃ w w', resnetPSCPower u b i p = .ok w ∧ resnetPSCPower u b j p = .ok w' ∧ 0 ≤ w ∧ w ≤ w' := by
  have hc := u.cfm_pos
  have hd : 0 < 0.414 / u.cfm := by positivity
  refine ⟨a * (0.414 / u.cfm * (PSC.slope * (a / a0) + (1 - PSC.slope))),
    a' * (0.414 / u.cfm * (PSC.slope * (a' / a0) + (1 - PSC.slope))), ?_, ?_, ?_, ?_⟩
  · simp [resnetPSCPower, resnetAirflow, pyGetI_natCast.2 ha, resnetPSCEfficacy, resnetRatio_ok h0 hpos.ne' ha, bind_ok, pure_eq_ok]
  · simp [resnetPSCPower, resnetAirflow, pyGetI_natCast.2 ha', resnetPSCEfficacy, resnetRatio_ok h0 hpos.ne' ha', bind_ok, pure_eq_ok]
  · have hr : 0 ≤ a / a0 := div_nonneg hn hpos.le
    unfold PSC.slope
    have : 0 ≤ 0.3 * (a / a0) + (1 - 0.3) := by norm_num; linarith
    positivity
  · have hr : 0 ≤ a / a0 := div_nonneg hn hpos.le
    have hr' : a / a0 ≤ a' / a0 := div_le_div_of_nonneg_right hle hpos.le
    have e1 : 0 ≤ PSC.slope * (a / a0) + (1 - PSC.slope) := by unfold PSC.slope; norm_num; linarith
    have e2 : PSC.slope * (a / a0) + (1 - PSC.slope) ≤ PSC.slope * (a' / a0) + (1 - PSC.slope) := by
      unfold PSC.slope; norm_num; linarith
    apply mul_le_mul hle (mul_le_mul_of_nonneg_left e2 hd.le) (mul_nonneg hd.le e1) (hn.trans hle)

section bpm
variable (u : Units ℝ) (brentq : Brentq) (hbr : BrentqSpec brentq) (airflows : List ℝ) (a0 : ℝ) (s0 s : Base)
    (h0 : resnetInit u airflows = .ok s0) (h : FanReach Base.addSpeed Base.removeSpeed (notFirst id) s0 s)
    (hf : airflows[0]? = some a0) (hpos : 0 < a0)
include hbr h0 h hf hpos

/-- C22: the RESNET BPM efficacy is linear in pressure, through the ductless curve at zero pressure and the ducted curve at the operating
pressure (ratios up to √3). -/
theorem C22_bpm_linear (i : Nat) (a : ℝ) (ha : s.airflow[i]? = some a) (ha0 : 0 < a) (hr : (a / a0) ^ 2 ≤ 3) (p : ℝ) :
    resnetBPMEfficacy u brentq s i (some p) = .ok (0.171 / u.cfm * (a / a0) ^ 2 +
      (0.281 / u.cfm * (a / a0) ^ (1.75 : ℝ) - 0.171 / u.cfm * (a / a0) ^ 2) * (p / (0.5 * u.inH2O * (a / a0) ^ 2))) ∧
    resnetBPMEfficacy u brentq s i none = .ok (0.281 / u.cfm * (a / a0) ^ (1.75 : ℝ)) := by
  have hop := C23_operating_pressure u brentq hbr airflows a0 s0 s h0 h hf hpos i a ha ha0.le hr
  obtain ⟨a0', e1, -, hs⟩ := resnetFirst h0 h
  rw [hf] at e1; cases e1
  have hr0 : 0 < a / a0 := div_pos ha0 hpos
  have hi := u.inH2O_pos
  have hP : 0.5 * u.inH2O * (a / a0) ^ 2 ≠ 0 := by positivity
  constructor
  · simp only [resnetBPMEfficacy, hop, bind_ok, resnetRatio_ok hs.2.2.2 hpos.ne' ha, ppow_pos hr0, pdiv_ok hP, pure_eq_ok,
      Except.ok.injEq]
    ring
  · simp only [resnetBPMEfficacy, hop, bind_ok, resnetRatio_ok hs.2.2.2 hpos.ne' ha, ppow_pos hr0, pdiv_ok hP, pure_eq_ok,
      Except.ok.injEq]
    rw [mul_div_assoc, div_self hP]; ring

/-- C22: the two end points of that line. -/
theorem C22_bpm_ends (i : Nat) (a : ℝ) (ha : s.airflow[i]? = some a) (ha0 : 0 < a) (hr : (a / a0) ^ 2 ≤ 3) :
    resnetBPMEfficacy u brentq s i (some 0) = .ok (0.171 / u.cfm * (a / a0) ^ 2) ∧
    ∃ P, resnetOperatingPressure brentq s i = .ok P ∧
      resnetBPMEfficacy u brentq s i (some P) = .ok (0.281 / u.cfm * (a / a0) ^ (1.75 : ℝ)) := by
  have hl := C22_bpm_linear u brentq hbr airflows a0 s0 s h0 h hf hpos i a ha ha0 hr
  have hop := C23_operating_pressure u brentq hbr airflows a0 s0 s h0 h hf hpos i a ha ha0.le hr
  have hi := u.inH2O_pos
  have hr0 : 0 < a / a0 := div_pos ha0 hpos
  refine ⟨?_, _, hop, ?_⟩
  · rw [(hl 0).1]; simp
  · rw [(hl _).1, div_self (by positivity)]; simp

/-- C22: between zero and the operating pressure the BPM efficacy never exceeds the PSC efficacy (ratios in (0, 1]). -/
theorem C22_bpm_below_psc (i : Nat) (a : ℝ) (ha : s.airflow[i]? = some a) (ha0 : 0 < a) (ha1 : a ≤ a0) (p : ℝ) (hp0 : 0 ≤ p)
    (hp1 : p ≤ 0.5 * u.inH2O * (a / a0) ^ 2) :
    ∃ e e', resnetBPMEfficacy u brentq s i (some p) = .ok e ∧ resnetPSCEfficacy u s i (some p) = .ok e' ∧ 0 < e ∧ e ≤ e' := by
  have hc := u.cfm_pos
  have hi := u.inH2O_pos
  have hr0 : 0 < a / a0 := div_pos ha0 hpos
  have hr1 : a / a0 ≤ 1 := by rw [div_le_one hpos]; exact ha1
  have hl := (C22_bpm_linear u brentq hbr airflows a0 s0 s h0 h hf hpos i a ha ha0 (by nlinarith) p).1
  obtain ⟨a0', e1, -, hs⟩ := resnetFirst h0 h
  rw [hf] at e1; cases e1
  obtain ⟨e', k1, k2, -, -⟩ := C22_psc_bounds u s i a0 a (some p) hs.2.2.2 hpos ha ha0.le ha1
  refine ⟨_, e', hl, k1, ?_, le_trans ?_ k2⟩
  all_goals
    have hpow1 : (a / a0) ^ (1.75 : ℝ) ≤ 1 := Real.rpow_le_one hr0.le hr1 (by norm_num)
    have hpow0 : 0 < (a / a0) ^ (1.75 : ℝ) := Real.rpow_pos_of_pos hr0 _
    have hP : 0 < 0.5 * u.inH2O * (a / a0) ^ 2 := by positivity
    have hx0 : 0 ≤ p / (0.5 * u.inH2O * (a / a0) ^ 2) := div_nonneg hp0 hP.le
    have hx1 : p / (0.5 * u.inH2O * (a / a0) ^ 2) ≤ 1 := by rw [div_le_one hP]; exact hp1
    have hsq : (a / a0) ^ 2 ≤ 1 := by nlinarith
    have hsq0 : 0 < (a / a0) ^ 2 := by positivity
    generalize p / (0.5 * u.inH2O * (a / a0) ^ 2) = x at hx0 hx1 ⊢
    generalize (a / a0) ^ (1.75 : ℝ) = y at hpow1 hpow0 ⊢
    generalize (a / a0) ^ 2 = z at hsq hsq0 ⊢
    have hC : (0.171 / u.cfm * z + (0.281 / u.cfm * y - 0.171 / u.cfm * z) * x) = (0.171 * z * (1 - x) + 0.281 * y * x) / u.cfm := by
      field_simp; ring
    rw [hC]
  · apply div_pos _ hc
    rcases hx1.lt_or_eq with h | h
    · have h1 : 0 < 0.171 * z * (1 - x) := by have : 0 < 1 - x := by linarith
                                              positivity
      have h2 : 0 ≤ 0.281 * y * x := by positivity
      linarith
    · subst h; simp; linarith
  · rw [show 0.7 * (0.414 / u.cfm) = 0.2898 / u.cfm by ring]
    apply div_le_div_of_nonneg_right _ hc.le
    have h1 : z * (1 - x) ≤ 1 - x := by nlinarith
    have h2 : y * x ≤ x := by nlinarith
    nlinarith

/-- C22: BPM power at the operating point does not decrease with the airflow of the setting. -/
theorem C22_bpm_power_mono_ducted (i j : Nat) (a a' : ℝ) (ha : s.airflow[i]? = some a) (ha' : s.airflow[j]? = some a') (ha0 : 0 < a)
    (hle : a ≤ a') (hr : (a' / a0) ^ 2 ≤ 3) :
    ∃ w w', resnetBPMPower u brentq s i none = .ok w ∧ resnetBPMPower u brentq s j none = .ok w' ∧ 0 < w ∧ w ≤ w' := by
  have hc := u.cfm_pos
  have hr0 : 0 < a / a0 := div_pos ha0 hpos
  have hrr : a / a0 ≤ a' / a0 := div_le_div_of_nonneg_right hle hpos.le
  have l1 := (C22_bpm_linear u brentq hbr airflows a0 s0 s h0 h hf hpos i a ha ha0 (by nlinarith) 0).2
  have l2 := (C22_bpm_linear u brentq hbr airflows a0 s0 s h0 h hf hpos j a' ha' (ha0.trans_le hle) hr 0).2
  refine ⟨_, _, by simp only [resnetBPMPower, resnetAirflow, pyGetI_natCast.2 ha, l1, bind_ok, pure_eq_ok]; rfl,
    by simp only [resnetBPMPower, resnetAirflow, pyGetI_natCast.2 ha', l2, bind_ok, pure_eq_ok]; rfl, ?_, ?_⟩
  · have := Real.rpow_pos_of_pos hr0 (1.75 : ℝ)
    positivity
  · have h1 := Real.rpow_pos_of_pos hr0 (1.75 : ℝ)
    have h2 := Real.rpow_le_rpow hr0.le hrr (by norm_num : (0 : ℝ) ≤ 1.75)
    have hd : 0 < 0.281 / u.cfm := by positivity
    apply mul_le_mul hle (mul_le_mul_of_nonneg_left h2 hd.le) (by positivity) (ha0.le.trans hle)

/-- C22: BPM power at a common external pressure does not decrease with the airflow of the setting (ratios in (0, 1]). -/
theorem C22_bpm_power_mono_fixed (i j : Nat) (a a' : ℝ) (ha : s.airflow[i]? = some a) (ha' : s.airflow[j]? = some a') (ha0 : 0 < a)
    (hle : a ≤ a') (ha1 : a' ≤ a0) (p : ℝ) (hp : 0 ≤ p) :
    ∃ w w', resnetBPMPower u brentq s i (some p) = .ok w ∧ resnetBPMPower u brentq s j (some p) = .ok w' ∧ w ≤ w' := by
  have hc := u.cfm_pos
  have hi := u.inH2O_pos
  have ha0' : 0 < a' := ha0.trans_le hle
  have hr0 : 0 < a / a0 := div_pos ha0 hpos
  have hr0' : 0 < a' / a0 := div_pos ha0' hpos
  have hrr : a / a0 ≤ a' / a0 := div_le_div_of_nonneg_right hle hpos.le
  have hr1' : a' / a0 ≤ 1 := by rw [div_le_one hpos]; exact ha1
  have l1 := (C22_bpm_linear u brentq hbr airflows a0 s0 s h0 h hf hpos i a ha ha0 (by nlinarith) p).1
  have l2 := (C22_bpm_linear u brentq hbr airflows a0 s0 s h0 h hf hpos j a' ha' ha0' (by nlinarith) p).1
  refine ⟨_, _, by simp only [resnetBPMPower, resnetAirflow, pyGetI_natCast.2 ha, l1, bind_ok, pure_eq_ok]; rfl,
    by simp only [resnetBPMPower, resnetAirflow, pyGetI_natCast.2 ha', l2, bind_ok, pure_eq_ok]; rfl, ?_⟩
  have key : ∀ x : ℝ, 0 < x → x * a0 * (0.171 / u.cfm * x ^ 2 + (0.281 / u.cfm * x ^ (1.75 : ℝ) - 0.171 / u.cfm * x ^ 2) *
      (p / (0.5 * u.inH2O * x ^ 2))) = a0 / u.cfm * (0.171 * x ^ 3 + (0.281 * x ^ (0.75 : ℝ) - 0.171 * x) * (p / (0.5 * u.inH2O))) := by
    intro x hx
    have : x ^ (1.75 : ℝ) = x ^ (0.75 : ℝ) * x := by
      rw [← Real.rpow_add_one hx.ne']; norm_num
    rw [this]
    field_simp
  have e1 : a = a / a0 * a0 := by field_simp
  have e2 : a' = a' / a0 * a0 := by field_simp
  have k1 := key _ hr0
  have k2 := key _ hr0'
  rw [← e1] at k1
  rw [← e2] at k2
  rw [k1, k2]
  apply mul_le_mul_of_nonneg_left _ (by positivity)
  generalize a / a0 = x at *
  generalize a' / a0 = y at *
  have hx3 : x ^ 3 ≤ y ^ 3 := by gcongr
  have hC : 0 ≤ p / (0.5 * u.inH2O) := by positivity
  -- concavity of x ↦ x^0.75
  have hber : x ^ (0.75 : ℝ) + 0.75 * (y - x) ≤ y ^ (0.75 : ℝ) := by
    have hxy : 0 < x / y := div_pos hr0 hr0'
    have h1 : (1 + (x / y - 1)) ^ (0.75 : ℝ) ≤ 1 + 0.75 * (x / y - 1) :=
      rpow_one_add_le_one_add_mul_self (by linarith) (by norm_num) (by norm_num)
    rw [show 1 + (x / y - 1) = x / y by ring, Real.div_rpow hr0.le hr0'.le] at h1
    have hyp : 0 < y ^ (0.75 : ℝ) := Real.rpow_pos_of_pos hr0' _
    rw [div_le_iff₀ hyp] at h1
    have h2 : y ≤ y ^ (0.75 : ℝ) := by
      calc y = y ^ (1 : ℝ) := (Real.rpow_one y).symm
        _ ≤ y ^ (0.75 : ℝ) := Real.rpow_le_rpow_of_exponent_ge hr0' hr1' (by norm_num)
    have h3 : x / y - 1 = (x - y) / y := by field_simp
    have h4 : (1 + 0.75 * (x / y - 1)) * y ^ (0.75 : ℝ) ≤ y ^ (0.75 : ℝ) + 0.75 * (x - y) := by
      have h5 : (x / y - 1) * y ^ (0.75 : ℝ) ≤ (x / y - 1) * y := by
        apply mul_le_mul_of_nonpos_left h2
        rw [h3]; exact div_nonpos_of_nonpos_of_nonneg (by linarith) hr0'.le
      have h6 : (x / y - 1) * y = x - y := by field_simp
      nlinarith
    linarith
  have hm : 0.281 * x ^ (0.75 : ℝ) - 0.171 * x ≤ 0.281 * y ^ (0.75 : ℝ) - 0.171 * y := by nlinarith
  have := mul_le_mul_of_nonneg_right hm hC
  linarith

end bpm

/-! ## C24 -/

theorem mapM_eq_ok_length {α β : Type} (f : α → Py β) : ∀ (l : List α) (r : List β), l.mapM f = .ok r →
    r.length = l.length ∧ ∀ (i : Nat) (a : α), l[i]? = some a → ∃ b, r[i]? = some b ∧ f a = .ok b := by
  intro l
  induction l with
  | nil =>
    intro r h
    simp [List.mapM_nil, pure_eq_ok] at h
    subst h; simp
  | cons a l ih =>
    intro r h
    simp only [List.mapM_cons, bind_eq_ok, pure_eq_ok, Except.ok.injEq] at h
    obtain ⟨b, hb, t, ht, rfl⟩ := h
    obtain ⟨h1, h2⟩ := ih t ht
    refine ⟨by simp [h1], ?_⟩
    intro i x hi
    cases i with
    | zero => simp at hi; subst hi; exact ⟨b, by simp, hb⟩
    | succ i => simp at hi; simpa using h2 i x hi

/-- C24: the speed order map lists every setting once, in ascending order of the airflow at zero static pressure. -/
theorem C24_order_map (argsort : List ℝ → List Nat) (harg : ∀ l, IsArgsort l (argsort l)) (airflow : Int → Option ℝ → Py ℝ) (n : Nat)
    (m : List Nat) (h : speedOrderMap argsort airflow n = .ok m) :
    m.Perm (List.range n) ∧ m.Pairwise fun (i j : Nat) => ∀ x y, airflow i (some 0) = .ok x → airflow j (some 0) = .ok y → x ≤ y := by
  simp only [speedOrderMap, bind_eq_ok, pure_eq_ok, Except.ok.injEq] at h
  obtain ⟨l, hl, rfl⟩ := h
  obtain ⟨h1, h2⟩ := mapM_eq_ok_length _ _ _ hl
  obtain ⟨k1, k2⟩ := harg l
  rw [h1] at k1
  simp only [List.length_range] at k1
  refine ⟨k1, ?_⟩
  have hmem : ∀ i ∈ argsort l, i < n := fun i hi => by simpa using k1.mem_iff.1 hi
  refine List.Pairwise.imp_of_mem ?_ k2
  intro i j hi hj hij x y hx hy
  obtain ⟨bx, e1, e2⟩ := h2 i i (by simp [hmem i hi])
  obtain ⟨by', e3, e4⟩ := h2 j j (by simp [hmem j hj])
  rw [hx] at e2; cases e2
  rw [hy] at e4; cases e4
  exact hij _ _ e1 e3

/-- C24: for RESNET and constant-efficacy fans (airflow independent of pressure) the order is that of the design airflows. -/
theorem C24_order_design (argsort : List ℝ → List Nat) (harg : ∀ l, IsArgsort l (argsort l)) (b : Base) (m : List Nat)
    (h : speedOrderMap argsort (resnetAirflow b) b.airflow.length = .ok m) :
    m.Pairwise fun (i j : Nat) => ∀ x y, b.airflow[i]? = some x → b.airflow[j]? = some y → x ≤ y := by
  refine (C24_order_map argsort harg _ _ m h).2.imp ?_
  intro i j hij x y hx hy
  exact hij x y (pyGetI_natCast.2 hx) (pyGetI_natCast.2 hy)

/-- C24: for PSC fans too (any reachable state). -/
theorem C24_order_design_psc (u : Units ℝ) (brentq : Brentq) (argsort : List ℝ → List Nat) (harg : ∀ l, IsArgsort l (argsort l)) (s : PSC)
    (hs : PSC.Consistent u s) (m : List Nat) (hpos : ∀ a ∈ s.base.airflow, 0 ≤ a + s.designReduction)
    (h : speedOrderMap argsort (s.airflow u brentq) s.base.airflow.length = .ok m) :
    m.Pairwise fun (i j : Nat) => ∀ x y, s.base.airflow[i]? = some x → s.base.airflow[j]? = some y → x ≤ y := by
  refine (C24_order_map argsort harg _ _ m h).2.imp ?_
  intro i j hij x y hx hy
  have key : ∀ (i : Nat) (x : ℝ), s.base.airflow[i]? = some x → s.airflow u brentq i (some 0) = .ok (x + s.designReduction) := by
    intro i x hx
    have hf : s.freeAirflow[i]? = some (x + s.designReduction) := by rw [hs.2.1, List.getElem?_map, hx]; rfl
    have := hpos x (List.mem_of_getElem? hx)
    simp [PSC.airflow, pressureOr, bind_ok, PSC.airflowAt, pyGetI_natCast.2 hf, pure_eq_ok, PSC.reduction_zero, this]
  have := hij _ _ (key i x hx) (key j y hy)
  linarith

theorem mapLoop_entry {α : Type} (q : Nat → ℝ → Py α) (map : List Nat) (grid : List ℝ) (pts : List α)
    (h : mapLoop q map grid = .ok pts) :
    pts.length = map.length * grid.length ∧
    ∀ (k j setting : Nat) (p : ℝ), map[k]? = some setting → grid[j]? = some p →
      ∃ x, pts[k * grid.length + j]? = some x ∧ q setting p = .ok x := by
  simp only [mapLoop, bind_eq_ok, pure_eq_ok, Except.ok.injEq] at h
  obtain ⟨rows, hrows, rfl⟩ := h
  obtain ⟨h1, h2⟩ := mapM_eq_ok_length _ _ _ hrows
  simp only [List.length_range] at h1
  have hrow : ∀ (k : Nat) (row : List α), rows[k]? = some row → row.length = grid.length ∧
      ∃ setting, map[k]? = some setting ∧ grid.mapM (fun p => q setting p) = .ok row := by
    intro k row hk
    have hlt : k < map.length := by rw [← h1]; exact (List.getElem?_eq_some_iff.1 hk).1
    obtain ⟨row', e1, e2⟩ := h2 k k (by simp [hlt])
    rw [hk] at e1; cases e1
    simp only [bind_eq_ok, pyGet_eq_ok] at e2
    obtain ⟨setting, e3, e4⟩ := e2
    exact ⟨(mapM_eq_ok_length _ _ _ e4).1, setting, e3, e4⟩
  have hflat : ∀ (rows : List (List α)) (L : Nat), (∀ r ∈ rows, r.length = L) → rows.flatten.length = rows.length * L ∧
      ∀ (k j : Nat) (row : List α) (x : α), rows[k]? = some row → row[j]? = some x → rows.flatten[k * L + j]? = some x := by
    intro rows L
    induction rows with
    | nil => intro _; simp
    | cons r rows ih =>
      intro hr
      obtain ⟨i1, i2⟩ := ih (fun r' h' => hr r' (List.mem_cons_of_mem _ h'))
      have hL := hr r List.mem_cons_self
      refine ⟨by simp [i1, hL]; ring, ?_⟩
      intro k j row x hk hj
      cases k with
      | zero =>
        simp at hk; subst hk
        have hlt : j < r.length := (List.getElem?_eq_some_iff.1 hj).1
        simp only [List.flatten_cons, zero_mul, zero_add]
        rw [List.getElem?_append_left hlt]; exact hj
      | succ k =>
        simp at hk
        have := i2 k j row x hk hj
        simp only [List.flatten_cons]
        rw [List.getElem?_append_right (by rw [hL]; nlinarith), hL, show (k + 1) * L + j - L = k * L + j by
          have : (k + 1) * L = k * L + L := by ring
          omega]
        exact this
  have hall : ∀ r ∈ rows, r.length = grid.length := by
    intro r hr
    obtain ⟨k, hk⟩ := List.getElem?_of_mem hr
    exact (hrow k r hk).1
  obtain ⟨f1, f2⟩ := hflat rows grid.length hall
  refine ⟨by rw [f1, h1], ?_⟩
  intro k j setting p hk hj
  have hlt : k < rows.length := by rw [h1]; exact (List.getElem?_eq_some_iff.1 hk).1
  obtain ⟨row, hr⟩ := exists_getElem? hlt
  obtain ⟨hlen, setting', e1, e2⟩ := hrow k row hr
  rw [hk] at e1; cases e1
  obtain ⟨x, e3, e4⟩ := (mapM_eq_ok_length _ _ _ e2).2 j p hj
  exact ⟨x, f2 k j row x hr e3, e4⟩

/-- C24: the representation lists speeds 1 … n and, for each of them in ascending order of free airflow, six pressures; every entry is the
power, airflow and rotational speed of that setting at that pressure. -/
theorem C24_representation (argsort : List ℝ → List Nat) (harg : ∀ l, IsArgsort l (argsort l)) (n : Nat) (designESP : ℝ)
    (airflow power rot : Int → Option ℝ → Py ℝ) (maxPower maxStatic : Int → Py ℝ) (r : Rep)
    (h : fanRep argsort n designESP airflow power rot maxPower maxStatic = .ok r) :
    ∃ (m : List Nat) (ms : ℝ), speedOrderMap argsort airflow n = .ok m ∧ m.length = n ∧ r.speedNumber = (List.range n).map (· + 1) ∧
      r.pressure.length = 6 ∧ r.points.length = 6 * n ∧
      (∀ j : Nat, j < 6 → r.pressure[j]? = some (ms * j / 5)) ∧
      ∀ (k j setting : Nat) (p : ℝ), m[k]? = some setting → r.pressure[j]? = some p →
        ∃ w a v, r.points[6 * k + j]? = some (w, a, v) ∧ power setting (some p) = .ok w ∧ airflow setting (some p) = .ok a ∧
          rot setting (some p) = .ok v := by
  simp only [fanRep, bind_eq_ok, pure_eq_ok, Except.ok.injEq] at h
  obtain ⟨m, hm, last, hlast, mp, hmp, ms, hms, pts, hpts, nom, hnom, rfl⟩ := h
  have hperm := (C24_order_map argsort harg airflow n m hm).1
  have hlen : m.length = n := by rw [hperm.length_eq]; simp
  obtain ⟨h1, h2⟩ := mapLoop_entry _ _ _ _ hpts
  have hg : (pressureGrid ms).length = 6 := by simp [pressureGrid]
  refine ⟨m, ms, hm, hlen, rfl, hg, by simp only; rw [h1, hg, hlen]; ring, ?_, ?_⟩
  · intro j hj
    simp [pressureGrid, hj]
  · intro k j setting p hk hj
    obtain ⟨⟨w, a, v⟩, e1, e2⟩ := h2 k j setting p hk hj
    rw [hg, mul_comm] at e1
    simp only [bind_eq_ok, pure_eq_ok, Except.ok.injEq] at e2
    obtain ⟨w', k1, a', k2, v', k3, e⟩ := e2
    simp only [Prod.mk.injEq] at e
    obtain ⟨rfl, rfl, rfl⟩ := e
    exact ⟨_, _, _, e1, k1, k2, k3⟩

/-- The `argsort` contract is satisfiable. -/
theorem isArgsort_satisfiable : ∃ argsort : List ℝ → List Nat, ∀ l, IsArgsort l (argsort l) := by
  classical
  let le : List ℝ → Nat → Nat → Bool := fun l i j => decide (l.getD i 0 ≤ l.getD j 0)
  refine ⟨fun l => (List.range l.length).mergeSort (le l), fun l => ⟨List.mergeSort_perm _ _, ?_⟩⟩
  have := List.pairwise_mergeSort (le := le l) (by
    intro a b c h1 h2
    simp only [le, decide_eq_true_eq] at *
    exact h1.trans h2) (by
    intro a b
    simp only [le, Bool.or_eq_true, decide_eq_true_eq]
    exact le_total _ _) (List.range l.length)
  refine this.imp ?_
  intro i j hij x y hx hy
  simp only [le, decide_eq_true_eq] at hij
  simpa [List.getD, hx, hy] using hij

example (argsort : List ℝ → List Nat) : ∃ m, speedOrderMap argsort (resnetAirflow ⟨1, 2, [2, 1], [1, 1 / 2], 1⟩) 2 = .ok m := by
  simp [speedOrderMap, resnetAirflow, pyGetI, pyIdx, pyGet, bind_ok, pure_eq_ok, List.range, List.range.loop]

end Resdx.Props
