import Verif.Model.FanEfficiency
import Verif.Spec.FanEfficiency
import Verif.Props.Idf
import Verif.Props.FanRep
import Verif.Props.FanSearch
import Mathlib.Analysis.Complex.ExponentialBounds

/-! # C105, C106: fan efficiency and the fan of an EnergyPlus file -/

set_option linter.unusedSectionVars false
set_option linter.unusedSimpArgs false

namespace Resdx.Props

open Fan Spec Idf Spec.Idf

variable {u : Units ℝ} {brentq : Brentq} {m : Methods}

/-! ## Methods -/

theorem efficiency_none {i : Int} {p : ℝ} (hp : m.operating i = .ok p) (ha : m.airflow i none = m.airflow i (some p)) (hw : m.power i none = m.power i (some p)) :
    m.efficiency i none = m.efficiency i (some p) := by
  simp only [Methods.efficiency, Methods.fluidPower, hp, ha, hw, bind_ok]

/-- C106: the efficiency of a fan is the power of the air – airflow times the given pressure, or the pressure where the fan meets the system curve – over the electric power. -/
theorem C106_balance {i : Int} {p : Option ℝ} {e : ℝ} (h : m.efficiency i p = .ok e) :
    ∃ q P w, m.airflow i p = .ok q ∧ (p = some P ∨ p = none ∧ m.operating i = .ok P) ∧ m.power i p = .ok w ∧ w ≠ 0 ∧ e * w = q * P := by
  simp only [Methods.efficiency, bind_eq_ok, pdiv_eq_ok] at h
  obtain ⟨f, hf, w, hw, h0, rfl⟩ := h
  cases p with
  | none =>
    simp only [Methods.fluidPower, bind_eq_ok, pure_eq_ok, Except.ok.injEq] at hf
    obtain ⟨q, hq, P, hP, rfl⟩ := hf
    exact ⟨q, P, w, hq, .inr ⟨rfl, hP⟩, hw, h0, by field_simp⟩
  | some p =>
    simp only [Methods.fluidPower, bind_eq_ok, pure_eq_ok, Except.ok.injEq] at hf
    obtain ⟨q, hq, rfl⟩ := hf
    exact ⟨q, p, w, hq, .inl rfl, hw, h0, by field_simp⟩

/-- C106: without a pressure the efficiency is that at the operating pressure, for every kind of fan whose methods accept a missing pressure. -/
theorem C106_operating (i : Int) (p : ℝ) :
    (∀ s : PSC, s.operatingPressure u brentq i = .ok p → (s.methods u brentq).efficiency i none = (s.methods u brentq).efficiency i (some p)) ∧
    (∀ s : ECM, s.operatingPressure u brentq i = .ok p → (s.methods u brentq).efficiency i none = (s.methods u brentq).efficiency i (some p)) ∧
    (∀ s : ConstEff, (s.methods brentq).operating i = .ok p → (s.methods brentq).efficiency i none = (s.methods brentq).efficiency i (some p)) ∧
    (∀ b : Base, resnetOperatingPressure brentq b i = .ok p →
      (resnetMethods brentq (resnetPSCPower u) b).efficiency i none = (resnetMethods brentq (resnetPSCPower u) b).efficiency i (some p) ∧
      (resnetMethods brentq (resnetBPMPower u brentq) b).efficiency i none = (resnetMethods brentq (resnetBPMPower u brentq) b).efficiency i (some p)) := by
  refine ⟨fun s hs => efficiency_none hs ?_ ?_, fun s hs => efficiency_none hs ?_ ?_, fun s hs => efficiency_none hs rfl rfl, fun b hb => ⟨efficiency_none hb rfl rfl, efficiency_none hb rfl ?_⟩⟩
  · simp only [PSC.methods, PSC.airflow, pressureOr, hs]
  · simp only [PSC.methods, PSC.power, PSC.airflow, PSC.efficacy, pressureOr, hs]
  · simp only [ECM.methods, ECM.airflow, pressureOr, hs]
  · simp only [ECM.methods, ECM.power, pressureOr, hs]
  · simp only [resnetMethods, resnetBPMPower, resnetBPMEfficacy, resnetAirflow, hb, bind_ok]

/-- C106: EERE fans have no efficiency without a pressure. -/
theorem C106_eere_none_refuted (kind : EEREKind) (s : EERE) (i : Int) (e : ℝ) : (s.methods u kind brentq).efficiency i none ≠ .ok e := by
  intro h
  obtain ⟨q, P, w, hq, -⟩ := C106_balance h
  simp only [EERE.methods, EERE.airflow, pyNum, bind_eq_ok] at hq
  obtain ⟨_, _, _, h1, _⟩ := hq
  cases h1

/-- C106, PSC fans: up to its block pressure a setting has the efficiency pressure over efficacy; from the block pressure upwards there is no airflow and no power, and the call raises `ZeroDivisionError`. -/
theorem C106_psc (s : PSC) (i : Nat) (p f e : ℝ) (hf : s.freeAirflow[i]? = some f) (he : s.speedEfficacy[i]? = some e) (e0 : e ≠ 0) :
    (PSC.reduction u p < f → (s.methods u brentq).efficiency i (some p) = .ok (p / e)) ∧
    (f ≤ PSC.reduction u p → (s.methods u brentq).efficiency i (some p) = .error .zeroDivision) := by
  have h1 : s.airflow u brentq i (some p) = .ok (max (f - PSC.reduction u p) 0) := by
    simp [PSC.airflow, pressureOr, PSC.airflowAt, pyGetI_natCast.2 hf, bind_ok, pure_eq_ok]
  have h2 : s.power u brentq i (some p) = .ok (max (f - PSC.reduction u p) 0 * e) := by
    simp [PSC.power, h1, PSC.efficacy, pyGetI_natCast.2 he, bind_ok, pure_eq_ok]
  constructor
  · intro h
    rw [max_eq_left (by linarith)] at h1 h2
    have h0 : f - PSC.reduction u p ≠ 0 := by intro hh; linarith
    simp only [Methods.efficiency, Methods.fluidPower, PSC.methods, h1, h2, bind_ok, pure_eq_ok, pdiv_ok (mul_ne_zero h0 e0)]
    congr 1
    rw [mul_div_mul_left _ _ h0]
  · intro h
    rw [max_eq_right (by linarith)] at h1 h2
    simp only [Methods.efficiency, Methods.fluidPower, PSC.methods, h1, h2, bind_ok, pure_eq_ok, zero_mul, pdiv_zero]

/-- C106, PSC fans with free airflows of at most 10000 cfm: after any history that keeps the first setting, whatever the pressure, the efficiency is below 7/5.35 in. of water over 70 % of the design efficacy; so it is below one unless
the design efficacy is less than about 0.22 W/cfm. -/
theorem C106_psc_partial (airflows : List ℝ) (p0 d : ℝ) (s0 s : PSC) (h0 : PSC.init u airflows p0 d = .ok s0) (h : FanReach (addPSC u) PSC.removeSpeed (notFirst PSC.base) s0 s)
    (hpos : ∀ f ∈ s.freeAirflow, 0 < f) (hmax : ∀ f ∈ s.freeAirflow, f ≤ 10000 * u.cfm) (hd : 0 < s.designEfficacy) (i : Nat) (p e : ℝ)
    (he : (s.methods u brentq).efficiency i (some p) = .ok e) :
    e < 7 / 5.35 * u.inH2O / (0.7 * s.designEfficacy) ∧ (7 / 5.35 * u.inH2O ≤ 0.7 * s.designEfficacy → e < 1) := by
  obtain ⟨⟨hal, hfree, hblock, heff, -, hlog, -⟩, f0, hf0, hratio⟩ := C69_psc_records u airflows p0 d s0 s h0 h
  obtain ⟨q, P, w, hq, -, hw, hw0, -⟩ := C106_balance he
  have hf : ∃ f, s.freeAirflow[i]? = some f := by
    simp only [PSC.methods, PSC.airflow, pressureOr, bind_ok, PSC.airflowAt, bind_eq_ok] at hq
    obtain ⟨f, hf, -⟩ := hq
    exact ⟨f, pyGetI_natCast.1 hf⟩
  obtain ⟨f, hf⟩ := hf
  have hfm := List.mem_of_getElem? hf
  have f0p := hpos f0 (List.mem_of_getElem? hf0)
  have fp := hpos f hfm
  have hse : s.speedEfficacy[i]? = some (s.designEfficacy * (1 + PSC.slope * (f / f0 - 1))) := by
    rw [heff, hratio, List.getElem?_map, List.getElem?_map, hf]
    rfl
  generalize hE : s.designEfficacy * (1 + PSC.slope * (f / f0 - 1)) = E at hse
  have hEb : 0.7 * s.designEfficacy < E := by
    have : 0 < f / f0 := div_pos fp f0p
    rw [← hE]
    unfold PSC.slope
    nlinarith
  have hE0 : 0 < E := lt_trans (by positivity) hEb
  obtain ⟨k1, k2⟩ := C106_psc (u := u) (brentq := brentq) s i p f E hf hse hE0.ne'
  rcases lt_or_ge (PSC.reduction u p) f with hlt | hge
  swap
  · rw [k2 hge] at he; cases he
  rw [k1 hlt] at he
  obtain rfl : p / E = e := by simpa using he
  have hb : p < PSC.blockOf u f := by
    by_contra hcon
    exact absurd ((PSC.reduction_ge_iff u (hlog f hfm)).2 (not_lt.1 hcon)) (not_le.2 hlt)
  have hi := u.inH2O_pos
  have hc := u.cfm_pos
  have hlog7 : Real.log (f / PSC.coef u + 1) < 7 := by
    rw [Real.log_lt_iff_lt_exp (hlog f hfm)]
    have h1 : f / PSC.coef u ≤ 1000 := by
      unfold PSC.coef
      rw [div_le_iff₀ (by positivity)]
      have := hmax f hfm
      linarith
    have h2 : Real.exp 7 = Real.exp 1 ^ 7 := by rw [← Real.exp_nat_mul]; norm_num
    have h3 : (2.718 : ℝ) ^ 7 ≤ Real.exp 1 ^ 7 := pow_le_pow_left₀ (by norm_num) (by have := Real.exp_one_gt_d9; linarith) 7
    rw [h2]
    have h4 : (1001 : ℝ) < 2.718 ^ 7 := by norm_num
    linarith
  have hp7 : p < 7 / 5.35 * u.inH2O := by
    refine lt_trans hb ?_
    unfold PSC.blockOf PSC.expCoef
    rw [div_div_eq_mul_div, div_lt_iff₀ (by norm_num)]
    have : 7 / 5.35 * u.inH2O * 5.35 = 7 * u.inH2O := by ring
    rw [this]
    exact mul_lt_mul_of_pos_right hlog7 hi
  have hD : 0 < 0.7 * s.designEfficacy := by positivity
  have key : p / E < 7 / 5.35 * u.inH2O / (0.7 * s.designEfficacy) := by
    rw [div_lt_div_iff₀ hE0 hD]
    rcases le_or_gt p 0 with hp | hp
    · have h1 : p * (0.7 * s.designEfficacy) ≤ 0 := mul_nonpos_of_nonpos_of_nonneg hp hD.le
      have h2 : 0 < 7 / 5.35 * u.inH2O * E := by positivity
      linarith
    · exact mul_lt_mul hp7 hEb.le hD (by positivity)
  refine ⟨key, fun hle => lt_of_lt_of_le key ?_⟩
  rw [div_le_one hD]
  exact hle

/-- A PSC fan with one speed. -/
theorem psc_single (u : Units ℝ) {a p e : ℝ} (ha : 0 < a) (hp : 0 ≤ p) : ∃ s, PSC.init u [a] p e = .ok s ∧ s.freeAirflow = [a + PSC.reduction u p] ∧ s.speedEfficacy = [e] ∧ s.designEfficacy = e := by
  have hst : Base.start p [a] = .ok { designESP := p, n := 0, airflow := [], ratio := [], sysConst := Real.sqrt p / a } := by
    simp [Base.start, systemCurveConstant, pyGet, bind_ok, ppow_half hp, pdiv_ok ha.ne', pure_eq_ok]
  have hr := PSC.reduction_nonneg u hp
  have hc := PSC.coef_pos u
  have hf : 0 < a + PSC.reduction u p := by linarith
  obtain ⟨s', hs'⟩ := PSC.addSpeed_of_ok u (a := a) (p := none) (s := { base := { designESP := p, n := 0, airflow := [], ratio := [], sysConst := Real.sqrt p / a }
                                                                        designEfficacy := e, designReduction := PSC.reduction u p, freeAirflow := []
                                                                        freeRatio := [], speedEfficacy := [], blockPressure := [], freeSpeed := [] })
    (by simpa [PSC.storedAirflow] using ha.ne') (by simpa [PSC.storedAirflow] using hf.ne') (by simp only [PSC.storedAirflow]; positivity)
  refine ⟨s', ?_, ?_⟩
  · simp only [PSC.init, hst, bind_ok, addAll, PyM.exec, PyM.bind_run, hs', PyM.pure_run]
  · obtain ⟨b', hb, -, -, rfl⟩ := PSC.addSpeed_ok u hs'
    simp [PSC.storedAirflow, div_self hf.ne']

/-- The hypotheses of `C106_psc_partial` are met, at a pressure for which the efficiency is defined. -/
example : ∃ s0, PSC.init u [u.cfm] 0 (10 * u.inH2O) = .ok s0 ∧ (∀ f ∈ s0.freeAirflow, 0 < f ∧ f ≤ 10000 * u.cfm) ∧ s0.designEfficacy = 10 * u.inH2O ∧
    7 / 5.35 * u.inH2O ≤ 0.7 * (10 * u.inH2O) ∧ ∃ p, 0 < p ∧ (s0.methods u brentq).efficiency (0 : Nat) (some p) = .ok (p / (10 * u.inH2O)) := by
  have hc := u.cfm_pos
  have hi := u.inH2O_pos
  obtain ⟨s, h1, h2, h3, h4⟩ := psc_single u (e := 10 * u.inH2O) hc le_rfl
  have hred : PSC.reduction u 0 = 0 := by simp [PSC.reduction]
  rw [hred, add_zero] at h2
  refine ⟨s, h1, by rw [h2]; simp only [List.mem_singleton, forall_eq]; exact ⟨hc, by linarith⟩, h4, by linarith, PSC.blockOf u u.cfm / 2, ?_⟩
  have hb : 0 < PSC.blockOf u u.cfm := by
    unfold PSC.blockOf
    refine div_pos (Real.log_pos ?_) (PSC.expCoef_pos u)
    have := div_pos hc (PSC.coef_pos u)
    linarith
  refine ⟨by positivity, (C106_psc (u := u) (brentq := brentq) s 0 _ u.cfm (10 * u.inH2O) (by rw [h2]; rfl) (by rw [h3]; rfl) (by positivity)).1 ?_⟩
  by_contra hcon
  have := (PSC.reduction_ge_iff u (by have := div_pos hc (PSC.coef_pos u); positivity)).1 (not_lt.1 hcon)
  linarith

/-- C106: nothing keeps the efficiency below one. For every airflow and design pressure there is a positive design efficacy the constructor accepts for which the fan turns out twice the power it takes up. -/
theorem C106_psc_refuted (a p : ℝ) (ha : 0 < a) (hp : 0 < p) : ∃ d s, 0 < d ∧ PSC.init u [a] p d = .ok s ∧ (s.methods u brentq).efficiency (0 : Nat) (some p) = .ok 2 := by
  obtain ⟨s, h1, h2, h3, h4⟩ := psc_single u (e := p / 2) ha hp.le
  refine ⟨p / 2, s, by positivity, h1, ?_⟩
  have := (C106_psc (u := u) (brentq := brentq) s 0 p (a + PSC.reduction u p) (p / 2) (by rw [h2]; rfl) (by rw [h3]; rfl) (by positivity)).1 (by linarith)
  rw [this]
  congr 1
  field_simp

/-! ## ECM fans -/

theorem ecm_efficiency (s : ECM) (i : Nat) {p a f : ℝ} (ha : s.base.airflow[i]? = some a) (hf : s.freeEfficacy[i]? = some f) (p0 : 0 < p) (a0 : 0 < a) (w0 : 0 < f + ECM.slopeESP u * p) :
    ((∀ M, s.maxPower = some M → a * (f + ECM.slopeESP u * p) ≤ M) → (s.methods u brentq).efficiency i (some p) = .ok (p / (f + ECM.slopeESP u * p))) ∧
    (∀ M, s.maxPower = some M → 0 < M → M < a * (f + ECM.slopeESP u * p) →
      (s.methods u brentq).efficiency i (some p) = .ok (p / (f + ECM.slopeESP u * p) * Real.sqrt (a * (f + ECM.slopeESP u * p) / M))) := by
  obtain ⟨h1, h2⟩ := powerAt_eq (u := u) p ha hf
  have hga := pyGetI_natCast.2 ha
  generalize hw : f + ECM.slopeESP u * p = w at *
  have hW : 0 < a * w := mul_pos a0 w0
  have key : ∀ x : ℝ, 0 < x → s.powerAt u i p = .ok x → (s.methods u brentq).efficiency i (some p) = .ok (a * Real.sqrt (x / (a * w)) * p / x) := by
    intro x hx hpx
    have hA : s.airflowAt u i p = .ok (a * Real.sqrt (x / (a * w))) := by
      simp only [ECM.airflowAt, if_neg p0.ne', hpx, h1, bind_ok, pdiv_ok hW.ne', ppow_half (div_nonneg hx.le hW.le), hga, pdiv_ok p0.ne']
      congr 1
      field_simp
    simp only [Methods.efficiency, Methods.fluidPower, ECM.methods, ECM.airflow, ECM.power, pressureOr, bind_ok, hA, hpx, pure_eq_ok, pdiv_ok hx.ne']
  constructor
  · intro hM
    have hp : s.powerAt u i p = .ok (a * w) := by
      rw [h2]
      cases hm : s.maxPower with
      | none => rfl
      | some M => simp only [min_eq_left (hM M hm)]
    rw [key _ hW hp, div_self hW.ne', Real.sqrt_one, mul_one, mul_div_mul_left _ _ a0.ne']
  · intro M hM M0 hlt
    have hp : s.powerAt u i p = .ok M := by
      rw [h2, hM]
      simp only [min_eq_right hlt.le]
    rw [key _ M0 hp]
    congr 1
    have h3 : Real.sqrt (M / (a * w)) = Real.sqrt M / Real.sqrt (a * w) := Real.sqrt_div M0.le _
    have h4 : Real.sqrt (a * w / M) = Real.sqrt (a * w) / Real.sqrt M := Real.sqrt_div hW.le _
    rw [h3, h4]
    have e1 := Real.mul_self_sqrt M0.le
    have e2 := Real.mul_self_sqrt hW.le
    have p1 := Real.sqrt_pos.2 M0
    have p2 := Real.sqrt_pos.2 hW
    generalize Real.sqrt M = x at *
    generalize Real.sqrt (a * w) = y at *
    rw [← e1]
    have e3 : w = y * y / a := by rw [e2]; field_simp
    rw [e3]
    field_simp

/-- C106, ECM fans below their power limit: the efficiency grows with the pressure and stays below 1 cfm × 1 in. of water / 0.235 W, which is about 0.5. -/
theorem C106_ecm_partial (s : ECM) (i : Nat) {p a f : ℝ} (ha : s.base.airflow[i]? = some a) (hf : s.freeEfficacy[i]? = some f) (p0 : 0 < p) (a0 : 0 < a) (f0 : 0 < f)
    (hM : ∀ M, s.maxPower = some M → a * (f + ECM.slopeESP u * p) ≤ M) :
    ∃ e, (s.methods u brentq).efficiency i (some p) = .ok e ∧ 0 < e ∧ e < u.cfm * u.inH2O / 0.235 := by
  have hs : 0 < ECM.slopeESP u := by
    have := u.cfm_pos; have := u.inH2O_pos
    unfold ECM.slopeESP; positivity
  have hw : 0 < f + ECM.slopeESP u * p := by positivity
  refine ⟨_, (ecm_efficiency s i ha hf p0 a0 hw).1 hM, by positivity, ?_⟩
  have h1 : u.cfm * u.inH2O / 0.235 = 1 / ECM.slopeESP u := by
    have := u.cfm_pos; have := u.inH2O_pos
    unfold ECM.slopeESP
    field_simp
  rw [h1, div_lt_div_iff₀ hw hs]
  nlinarith

/-- C106: the airflow of an ECM fan at its power limit falls too slowly with the pressure. Whatever the fan and its limit, the efficiency exceeds any bound at sufficiently high pressures. -/
theorem C106_ecm_refuted (s : ECM) (i : Nat) {a f M : ℝ} (ha : s.base.airflow[i]? = some a) (hf : s.freeEfficacy[i]? = some f) (a0 : 0 < a) (f0 : 0 ≤ f) (hM : s.maxPower = some M) (M0 : 0 < M) (B : ℝ) (B0 : 0 < B) :
    ∃ P, ∀ p, P ≤ p → ∃ e, (s.methods u brentq).efficiency i (some p) = .ok e ∧ B < e := by
  have hs : 0 < ECM.slopeESP u := by
    have := u.cfm_pos; have := u.inH2O_pos
    unfold ECM.slopeESP; positivity
  refine ⟨1 + B ^ 2 * M * (f + ECM.slopeESP u) / a + M / (a * ECM.slopeESP u), fun p hp => ?_⟩
  have t1 : 0 ≤ B ^ 2 * M * (f + ECM.slopeESP u) / a := by positivity
  have t2 : 0 < M / (a * ECM.slopeESP u) := by positivity
  have p1 : 1 ≤ p := by linarith
  have p0 : 0 < p := by linarith
  have hw : 0 < f + ECM.slopeESP u * p := by positivity
  have hlim : M < a * (f + ECM.slopeESP u * p) := by
    have h1 : M / (a * ECM.slopeESP u) < p := by linarith
    rw [div_lt_iff₀ (by positivity)] at h1
    have h2 : 0 ≤ a * f := by positivity
    nlinarith
  refine ⟨_, (ecm_efficiency s i ha hf p0 a0 hw).2 M hM M0 hlim, ?_⟩
  have h3 : B ^ 2 * M * (f + ECM.slopeESP u) < p * a := by
    have : B ^ 2 * M * (f + ECM.slopeESP u) / a < p := by linarith
    rwa [div_lt_iff₀ a0] at this
  have h4 : f + ECM.slopeESP u * p ≤ (f + ECM.slopeESP u) * p := by nlinarith
  have h5 : B ^ 2 * M * (f + ECM.slopeESP u * p) < p ^ 2 * a := by
    have : B ^ 2 * M * (f + ECM.slopeESP u * p) ≤ B ^ 2 * M * ((f + ECM.slopeESP u) * p) := mul_le_mul_of_nonneg_left h4 (by positivity)
    nlinarith
  generalize f + ECM.slopeESP u * p = w at *
  have h6 : B < Real.sqrt ((p / w) ^ 2 * (a * w / M)) := by
    rw [Real.lt_sqrt B0.le]
    have : (p / w) ^ 2 * (a * w / M) = p ^ 2 * a / (w * M) := by field_simp
    rw [this, lt_div_iff₀ (by positivity)]
    nlinarith
  rwa [Real.sqrt_mul (by positivity), Real.sqrt_sq (by positivity)] at h6

/-! ## C105: the fan EnergyPlus runs -/

variable {C : Type} {U : IdfUnit C ℝ} {fmt : ℝ → Nat → String} {name : Option String} {st : SystemType} {normalize : Bool} {objs : List IObj}

/-- C105: from the numbers put into the fan of the file – design flow, pressure and total efficiency, before they are rounded – EnergyPlus derives the power of the fan at its fastest setting, and with the fractions of a speed the
airflow and the power of that setting. -/
theorem C105_power (h : idfObjects fmt name st false normalize (m.inUnit U) = .ok objs) :
    ∃ fan order top flow pressure eff power pairs, fan ∈ objs ∧ fan.cls = "Fan:SystemModel" ∧ U.order = .ok order ∧ order.getLast? = some top ∧
      valueOf fan "Design Maximum Air Flow Rate" = some (fmt flow 2) ∧ valueOf fan "Design Pressure Rise" = some (fmt pressure 2) ∧ valueOf fan "Fan Total Efficiency" = some (fmt eff 2) ∧
      valueOf fan "Design Electric Power Consumption" = some (fmt power 2) ∧ valueOf fan "Design Power Sizing Method" = some "TotalEfficiencyAndPressure" ∧ valueOf fan "Motor Efficiency" = some (fmt 1 2) ∧
      m.power top none = .ok power ∧ eff * power = flow * pressure ∧ (flow * pressure ≠ 0 → energyPlusPower flow pressure eff = power) ∧
      (fan.fields.drop 22).map IField.value = pairs.flatMap (fun p => [fmt p.1 2, fmt p.2 2]) ∧
      List.Forall₂ (fun (setting : Nat) (p : ℝ × ℝ) => m.airflow setting none = .ok (p.1 * flow) ∧ m.power setting none = .ok (p.2 * power)) order pairs := by
  obtain ⟨system, fan, ccap, cs, hcap, on, tf, eir, hs, h1, h2, h3, h4, h5, h6, h7, h8, h9, e⟩ := idfObjects_ok h
  obtain ⟨order, top, bottom, pressure, flow, minRatio, power, eff, speeds, o1, o2, o3, o4, o5, o6, o7, o8, o9, o10⟩ := fanObject_ok h2
  obtain ⟨order', top', ftop, ptop, pairs, g2, g3, g4, g5, g6, g7, g8, g9, g10, g11⟩ := fan_pairs h2 (fun s t => rfl) (fun s t => rfl)
  rw [o1] at g3
  cases g3
  have htop : top' = top := by
    rcases List.eq_nil_or_concat order with rfl | ⟨l, x, rfl⟩
    · simp at g4
    · rw [Idf.pyGetI_last] at o2
      cases o2
      simpa using g4.symm
  subst htop
  obtain ⟨q, P, w, k1, k2, k3, k4, k5⟩ := C106_balance (m := m) (i := (top' : Int)) (p := none) o8
  obtain ⟨-, k2⟩ := k2.resolve_left (by simp)
  have a1 : m.airflow top' none = .ok ftop := g5
  have a2 : m.power top' none = .ok ptop := g7
  have a3 : m.operating top' = .ok pressure := o4
  rw [a1] at k1; cases k1
  rw [a2] at k3; cases k3
  rw [a3] at k2; cases k2
  have b1 : flow = fmt ftop 2 := by
    simp only [autoM, Methods.inUnit, a1] at o5
    simpa using o5.symm
  have b2 : power = fmt ptop 2 := by
    simp only [autoM, Methods.inUnit, a2] at o7
    simpa using o7.symm
  refine ⟨fan, order, top', ftop, pressure, eff, ptop, pairs, by rw [e]; simp, g2, o1, g4, ?_, ?_, ?_, ?_, ?_, ?_, a2, k5, ?_, g9, ?_⟩
  · rw [o10, b1]; rfl
  · rw [o10]; rfl
  · rw [o10]; rfl
  · rw [o10, b2]; rfl
  · rw [o10]; rfl
  · rw [o10]; rfl
  · intro hne
    have : eff ≠ 0 := by rintro rfl; exact hne (by rw [← k5, zero_mul])
    rw [energyPlusPower, ← k5]
    field_simp
  · refine g10.imp ?_
    rintro s ⟨x, y⟩ ⟨a, b, ha, hb, hxy⟩
    cases hxy
    refine ⟨?_, ?_⟩
    · rw [div_mul_cancel₀ _ g6]; exact ha
    · rw [div_mul_cancel₀ _ g8]; exact hb

/-- C105: what the two decimals of the file do to the power EnergyPlus derives. -/
theorem C105_rounded {flow pressure eff power q P η : ℝ} (hpow : eff * power = flow * pressure) (w0 : 0 ≤ power) (q0 : 0 ≤ flow) (P0 : 0 ≤ P) (hq : TwoDecimals flow q) (hP : TwoDecimals pressure P)
    (hη : TwoDecimals eff η) (η0 : 0 < η) : |energyPlusPower q P η - power| ≤ (P + flow + power) / (200 * η) := by
  obtain ⟨-, hq⟩ := hq
  obtain ⟨-, hP⟩ := hP
  obtain ⟨-, hη⟩ := hη
  have h1 : energyPlusPower q P η - power = ((q - flow) * P + flow * (P - pressure) - power * (η - eff)) / η := by
    unfold energyPlusPower
    field_simp
    linear_combination -hpow
  rw [h1, abs_div, abs_of_pos η0, div_le_div_iff₀ η0 (by positivity)]
  have h2 : |(q - flow) * P + flow * (P - pressure) - power * (η - eff)| ≤ 1 / 200 * P + flow * (1 / 200) + power * (1 / 200) := by
    refine (abs_sub _ _).trans ?_
    refine add_le_add ((abs_add_le _ _).trans (add_le_add ?_ ?_)) ?_
    · rw [abs_mul, abs_of_nonneg P0]; exact mul_le_mul_of_nonneg_right hq P0
    · rw [abs_mul, abs_of_nonneg q0]; exact mul_le_mul_of_nonneg_left hP q0
    · rw [abs_mul, abs_of_nonneg w0]; exact mul_le_mul_of_nonneg_left hη w0
  nlinarith

/-- C105: a file is never written for a unit with an EERE fan: the fan is asked for its airflow without a pressure. -/
theorem C105_eere_refuted (kind : EEREKind) (s : EERE) (autosize : Bool) : ∀ objs, idfObjects fmt name st autosize normalize ((s.methods u kind brentq).inUnit U) ≠ .ok objs := by
  intro objs h
  obtain ⟨system, fan, ccap, cs, hcap, on, tf, eir, hs, h1, h2, -⟩ := idfObjects_ok h
  obtain ⟨order, top, bottom, pressure, flow, minRatio, power, eff, speeds, o1, o2, o3, o4, o5, o6, o7, o8, -⟩ := fanObject_ok h2
  exact C106_eere_none_refuted (u := u) (brentq := brentq) kind s top eff o8

/-- The efficiency of the first speed of a RESNET PSC fan at its operating point does not depend on its size. -/
theorem resnetPSC_efficiency (hbr : BrentqSpec brentq) {a0 : ℝ} {l : List ℝ} {s0 b : Base} (h0 : resnetInit u (a0 :: l) = .ok s0)
    (h : FanReach Base.addSpeed Base.removeSpeed (notFirst id) s0 b) (hpos : 0 < a0) :
    resnetOperatingPressure brentq b (0 : Nat) = .ok (0.5 * u.inH2O) ∧ resnetPSCPower u b (0 : Nat) none = .ok (a0 * (0.414 / u.cfm)) ∧ resnetAirflow b (0 : Nat) none = .ok a0 ∧
      (resnetMethods brentq (resnetPSCPower u) b).efficiency (0 : Nat) none = .ok (0.5 * u.inH2O * u.cfm / 0.414) := by
  have hc := u.cfm_pos
  have hi := u.inH2O_pos
  obtain ⟨a0', e1, e2, -, -, -, hb⟩ := resnetFirst h0 h
  have e1 : a0' = a0 := by simpa using e1.symm
  subst e1
  have hr : a0' / a0' = 1 := div_self e2
  have k1 : resnetOperatingPressure brentq b (0 : Nat) = .ok (0.5 * u.inH2O) := by
    have := C23_operating_pressure u brentq hbr _ a0' s0 b h0 h rfl hpos 0 a0' hb hpos.le (by rw [hr]; norm_num)
    rw [hr] at this
    simpa using this
  have k3 : resnetAirflow b (0 : Nat) none = .ok a0' := pyGetI_natCast.2 hb
  have k2 : resnetPSCPower u b (0 : Nat) none = .ok (a0' * (0.414 / u.cfm)) := by
    simp only [resnetPSCPower, resnetPSCEfficacy, k3, resnetRatio_ok hb e2 hb, bind_ok, pure_eq_ok, hr, PSC.slope]
    congr 2
    ring
  refine ⟨k1, k2, k3, ?_⟩
  have hw : a0' * (0.414 / u.cfm) ≠ 0 := by positivity
  simp only [Methods.efficiency, Methods.fluidPower, resnetMethods, k1, k2, k3, bind_ok, pure_eq_ok, pdiv_ok hw]
  congr 1
  field_simp

/-- C105: the two decimals are not enough. For a unit with a RESNET PSC fan of any size, whatever speeds were added to it, the efficiency of the first speed, 0.142, is written as 0.14, so that EnergyPlus, even with the exact flow and pressure, runs the fan with more than 101 % of its power. -/
theorem C105_rounding_refuted (hbr : BrentqSpec brentq) {a0 : ℝ} {l : List ℝ} {s0 b : Base} (h0 : resnetInit u (a0 :: l) = .ok s0)
    (h : FanReach Base.addSpeed Base.removeSpeed (notFirst id) s0 b) (hpos : 0 < a0) (hu1 : 0.1175 < u.cfm * u.inH2O) (hu2 : u.cfm * u.inH2O < 0.1176) :
    ∃ flow pressure eff power, resnetAirflow b (0 : Nat) none = .ok flow ∧ resnetOperatingPressure brentq b (0 : Nat) = .ok pressure ∧
      (resnetMethods brentq (resnetPSCPower u) b).efficiency (0 : Nat) none = .ok eff ∧ resnetPSCPower u b (0 : Nat) none = .ok power ∧
      ∀ η, TwoDecimals eff η → η = 0.14 ∧ 1.01 * power < energyPlusPower flow pressure η := by
  have hc := u.cfm_pos
  have hi := u.inH2O_pos
  obtain ⟨k1, k2, k3, k4⟩ := resnetPSC_efficiency hbr h0 h hpos
  refine ⟨_, _, _, _, k3, k1, k4, k2, ?_⟩
  rintro η ⟨⟨n, rfl⟩, hη⟩
  rw [abs_le] at hη
  have b1 : 0.1419 < 0.5 * u.inH2O * u.cfm / 0.414 := by rw [lt_div_iff₀ (by norm_num)]; linarith
  have b2 : 0.5 * u.inH2O * u.cfm / 0.414 < 0.14203 := by rw [div_lt_iff₀ (by norm_num)]; linarith
  have hn : n = 14 := by
    have h1 : (13 : ℝ) < n := by linarith
    have h2 : (n : ℝ) < 15 := by linarith
    have h1' : (13 : ℤ) < n := by exact_mod_cast h1
    have h2' : n < 15 := by exact_mod_cast h2
    omega
  subst hn
  refine ⟨by norm_num, ?_⟩
  unfold energyPlusPower
  rw [lt_div_iff₀ (by norm_num)]
  have : 1.01 * (a0 * (0.414 / u.cfm)) * ((14 : ℤ) / 100 : ℝ) = a0 * (0.0585396 / u.cfm) := by push_cast; ring
  rw [this]
  refine mul_lt_mul_of_pos_left ?_ hpos
  rw [div_lt_iff₀ hc]
  linarith

/-! ## A concrete unit -/

/-- A unit of constant performance with one fan speed. -/
noncomputable def plainIdf : IdfUnit Unit ℝ where
  order := .ok [0]
  fanSpeeds := 1
  pressure _ := .error .value
  airflow _ := .error .value
  power _ := .error .value
  efficiency _ := .error .value
  airflowRatio _ _ := .error .value
  powerRatio _ _ := .error .value
  nCool := 1
  coolFull := 0
  nHeat := 1
  heatFull := 0
  coolCondition _ _ := .ok ()
  heatCondition _ _ := .ok ()
  setRatio c _ := c
  ratedFlow _ := 1
  coolCap _ := .ok 10000
  coolCop _ := .ok 4
  shr _ := .ok 0.75
  heatCap _ := .ok 11000
  heatCop _ := .ok 3
  intCap := .ok 11000
  aFullFlow := 1
  h1FullFlow := 1
  cdCool := 0.1
  cdHeat := 0.1
  off := frF 0
  on := some (frF 0)
  crankcase := 0
  crankcaseSetpoint := frF 50
  defrost := { strategy := .none, control := .none, period := 0, resistivePower := 0, highTemperature := 0, lowTemperature := none, maxTime := 0 }
  timeFraction := .ok 0
  cop60 := .ok 5

/-- The hypothesis of C105 holds of it with a RESNET PSC fan. -/
example (hbr : BrentqSpec brentq) {a0 : ℝ} (hpos : 0 < a0) : ∃ b, resnetInit u [a0] = .ok b ∧
    ∃ s, writeIdf fmt name st false normalize ((resnetMethods brentq (resnetPSCPower u) b).inUnit plainIdf) = .ok s := by
  have hc := u.cfm_pos
  obtain ⟨b, h1, h2⟩ := C13_resnet_constructs u [a0] (by simp) (by simpa using hpos)
  obtain ⟨k1, k2, k3, k4⟩ := resnetPSC_efficiency hbr h1 .start hpos
  have hw : a0 * (0.414 / u.cfm) ≠ 0 := by positivity
  refine ⟨b, h1, C86_written ?_ (frF 0) rfl⟩
  exact {
    order := ⟨[0], rfl, by simp⟩
    fan := by
      intro l hl s hs
      cases hl
      obtain rfl : s = 0 := by simpa using hs
      exact ⟨⟨_, k1⟩, ⟨_, k3⟩, ⟨_, k2⟩, ⟨_, k4⟩⟩
    ratios := by
      intro l hl s hs t ht
      cases hl
      obtain rfl : s = 0 := by simpa using hs
      obtain rfl : t = 0 := by simpa using ht
      refine ⟨⟨a0 / a0, ?_⟩, ⟨a0 * (0.414 / u.cfm) / (a0 * (0.414 / u.cfm)), ?_⟩⟩
      · simp only [Methods.inUnit, Methods.airflowRatio, resnetMethods, k3, bind_ok, pdiv_ok hpos.ne']
      · simp only [Methods.inUnit, Methods.powerRatio, resnetMethods, k2, bind_ok, pdiv_ok hw]
    coolCondition := fun _ _ => ⟨⟨_, rfl⟩, fun _ _ _ _ => ⟨_, rfl⟩⟩
    heatCondition := fun _ _ => ⟨⟨_, rfl⟩, fun _ _ _ _ => ⟨_, rfl⟩⟩
    coolRated := ⟨_, rfl, by norm_num⟩
    coolCap := fun _ _ _ _ => ⟨_, rfl, by norm_num⟩
    coolCop := fun _ _ _ _ => ⟨_, rfl, by norm_num⟩
    shr := fun _ _ _ _ => ⟨_, rfl⟩
    heatRated := ⟨_, rfl⟩
    heatCap := fun _ _ _ _ => ⟨_, rfl, by norm_num⟩
    heatCop := fun _ _ _ _ => ⟨_, rfl, by norm_num⟩
    intCap := fun _ => ⟨_, rfl⟩
    timeFraction := fun _ => ⟨_, rfl⟩
    cop60 := ⟨_, rfl, by norm_num⟩ }

/-- ECM fans as in `C106_ecm_partial` and `C106_ecm_refuted` can be constructed. -/
example : ∃ s, ECM.init u [1] 0 1 (some 3) = .ok s ∧ s.base.airflow[0]? = some 1 ∧ s.freeEfficacy[0]? = some 1 ∧ s.maxPower = some 3 := by
  have hst : Base.start 0 [1] = .ok { designESP := 0, n := 0, airflow := [], ratio := [], sysConst := Real.sqrt 0 / 1 } := by
    simp [Base.start, systemCurveConstant, pyGet, bind_ok, ppow_half le_rfl, pdiv_ok (one_ne_zero (α := ℝ)), pure_eq_ok]
  obtain ⟨s', hs'⟩ := ECM.addSpeed_of_ok (a := 1) (p := none) (s := { base := { designESP := 0, n := 0, airflow := [], ratio := [], sysConst := Real.sqrt 0 / 1 }
                                                                      designEfficacy := 1, maxPower := some 3, designFreeEfficacy := 1 - ECM.slopeESP u * 0, freeEfficacy := [] }) (by simp)
  refine ⟨s', ?_, ?_⟩
  · simp only [ECM.init, pyGet, hst, bind_ok, addAll, PyM.exec, PyM.bind_run, hs', PyM.pure_run]
    norm_num [bind_ok]
  · obtain ⟨b', hb, rfl⟩ := ECM.addSpeed_ok hs'
    obtain ⟨-, rfl⟩ := Base.addSpeed_ok hb
    simp

end Resdx.Props
