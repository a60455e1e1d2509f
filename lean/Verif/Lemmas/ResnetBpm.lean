import Verif.Lemmas.ResnetBuild
import Verif.Props.DefaultFan

/-! # The BPM fan of a constructed unit -/

set_option linter.unusedSectionVars false
set_option linter.unusedSimpArgs false

namespace Resdx.ResnetFan

open BaseModel Fan Spec

/-- The fan made by `set_fan` has the default design pressure and a system curve through its design point. -/
theorem setFan_good (u : Units ℝ) {power : Base → Int → Option ℝ → Py ℝ} (hp : Local power) {fullESP : ℝ} {cfs hfs : Nat} {c h c' h' : Side} {b : Base}
    (hrun : setFan u power fullESP cfs hfs c h = .ok (c', h', b)) {d : ℝ} (hd : b.airflow[0]? = some d) (hd0 : 0 < d) : GoodFan u d b := by
  unfold setFan at hrun
  simp only [bind_eq_ok, numAt_eq_ok] at hrun
  obtain ⟨c1, r1, h1, r2, ac, r3, ah, r4, b0, r5, ⟨c2, h2, b1⟩, r6, ⟨c3, b2⟩, r7, ⟨h3, b3⟩, r8, ⟨c4, b4⟩, r9, ⟨h4, b5⟩, r10, r11⟩ := hrun
  simp only [pure_eq_ok, Except.ok.injEq, Prod.mk.injEq] at r11
  obtain ⟨rfl, rfl, rfl⟩ := r11
  obtain ⟨⟨a1, A1⟩, -, p1, p2⟩ := setAirflow_ok r1
  obtain ⟨⟨a2, A2⟩, -, p3, p4⟩ := setAirflow_ok r2
  have ea1 : a1 = ac := by obtain ⟨_, _, _, _, _, e⟩ := A1; rw [r3] at e; simpa using e.symm
  have ea2 : a2 = ah := by obtain ⟨_, _, _, _, _, e⟩ := A2; rw [r4] at e; simpa using e.symm
  subst ea1; subst ea2
  obtain ⟨B0, B1, -, B3⟩ := init_single r5
  obtain ⟨E1, AB1, dc, dh, Ac, Ah, p5, p6, p7, p8⟩ := fullSpeeds_ok (ac := a1) (ah := a2) B0 (by rw [B1]; simp) A1 A2 r6
  obtain ⟨E2, AB2, dc2, -, p9, p10, p11, p12, -, q1⟩ := addRated_ok AB1 Ac r7
  obtain ⟨E3, AB3, dh2, -, p13, p14, p15, p16, -, q2⟩ := addRated_ok AB2 Ah r8
  obtain ⟨E4, AB4, oc, sc, p17, p18⟩ := otherSpeeds_ok hp _ _ _ _ _ List.nodup_range AB3 r9
  obtain ⟨E5, AB5, oh, sh, p19, p20⟩ := otherSpeeds_ok hp _ _ _ _ _ List.nodup_range AB4 r10
  have E := E1.trans (E2.trans (E3.trans (E4.trans E5)))
  have e0 : b5.airflow[0]? = some (if a2 ≤ a1 then a1 else a2) := E.get (by rw [B1]; rfl)
  rw [hd] at e0
  have e0 := Option.some.inj e0
  rw [← e0] at r5
  obtain ⟨b', g1, g2⟩ := resnetInit_good u hd0
  rw [r5] at g1; cases g1
  exact g2.ext E AB5

/-- The power of a BPM fan at a setting, as a function of the static pressure. -/
theorem bpm_power (u : Units ℝ) {brentq : Brentq} (hbr : BrentqSpec brentq) {d : ℝ} (hd : 0 < d) {b : Base} {k : Nat} {a : ℝ} (hb : GoodFan u d b)
    (hk : b.airflow[k]? = some a) (ha : 0 < a) (hle : (a / d) ^ 2 ≤ 3) (p : ℝ) :
    resnetBPMPower u brentq b k (some p) = .ok (a * (0.171 / u.cfm * (a / d) * (a / d) +
      (0.281 / u.cfm * (a / d) ^ (1.75 : ℝ) - 0.171 / u.cfm * (a / d) * (a / d)) * p / (0.5 * u.inH2O * (a / d) ^ 2))) := by
  have hi := u.inH2O_pos
  have e1 : ∀ p, resnetAirflow b k p = .ok a := by
    intro p
    obtain ⟨hlt, rfl⟩ := List.getElem?_eq_some_iff.1 hk
    exact pyGetI_nat hlt
  have e0 : ∀ p, resnetAirflow b 0 p = .ok d := by
    intro p
    obtain ⟨hlt, h⟩ := List.getElem?_eq_some_iff.1 hb.2.1
    have := pyGetI_nat hlt
    rw [h] at this
    exact this
  obtain ⟨-, -, h2, h3⟩ := hb
  have hs : 0 < Real.sqrt (0.5 * u.inH2O) := Real.sqrt_pos.2 (by positivity)
  have hsq : Real.sqrt (0.5 * u.inH2O) ^ 2 = 0.5 * u.inH2O := Real.sq_sqrt (by positivity)
  have hval : (a * b.sysConst) ^ 2 = 0.5 * u.inH2O * (a / d) ^ 2 := by
    rw [h3, show (a * (Real.sqrt (0.5 * u.inH2O) / d)) ^ 2 = Real.sqrt (0.5 * u.inH2O) ^ 2 * (a / d) ^ 2 by ring, hsq]
  have hop := resnetOperating_ok hbr (b := b) (i := k) (a := a) (by rw [h3]; positivity) (by rw [h2]; positivity) hk ha.le
    (by rw [hval, h2]; nlinarith)
  have hr : 0 < a / d := div_pos ha hd
  have hne : (a * b.sysConst) ^ 2 ≠ 0 := by rw [hval]; positivity
  rw [hval] at hop hne
  simp only [resnetBPMPower, resnetBPMEfficacy, resnetAirflowRatio, hop, e1, e0, bind_ok, pdiv_ok hd.ne', pdiv_ok hne, ppow_pos hr, pure_eq_ok]

/-- The ducted efficacy of a BPM fan exceeds the ductless one at and below the design airflow. -/
theorem bpm_slope (u : Units ℝ) {r : ℝ} (hr : 0 < r) (hr1 : r ≤ 1) : 0 < 0.281 / u.cfm * r ^ (1.75 : ℝ) - 0.171 / u.cfm * r * r := by
  have hc := u.cfm_pos
  have h1 : r ^ (2 : ℝ) ≤ r ^ (1.75 : ℝ) := Real.rpow_le_rpow_of_exponent_ge hr hr1 (by norm_num)
  have h2 : r ^ (2 : ℝ) = r * r := by rw [Real.rpow_two]; ring
  rw [h2] at h1
  have h3 : 0 < r * r := mul_pos hr hr
  have h4 : 0 < 1 / u.cfm := by positivity
  have e : 0.281 / u.cfm * r ^ (1.75 : ℝ) - 0.171 / u.cfm * r * r = 1 / u.cfm * (0.281 * r ^ (1.75 : ℝ) - 0.171 * (r * r)) := by ring
  rw [e]
  apply mul_pos h4
  nlinarith

end Resdx.ResnetFan

namespace Resdx.Build

open Spec Tabular BaseModel Props ResnetFan Fan Table

/-- The fan of a constructed unit. -/
theorem core_good {u : Units ℝ} {brentq : Brentq} {a : Args} {st : Staging} {rc rh : Roles} {net : Perf ℝ} {k : Core}
    (h : core u brentq a st rc rh net = .ok k) {d : ℝ} (hd : k.fan.airflow[0]? = some d) (hd0 : 0 < d) : GoodFan u d k.fan := by
  unfold core at h
  simp only [bind_eq_ok] at h
  obtain ⟨qc, h1, qh, h2, esp, h3, ⟨cool, heat, fan⟩, h4, cp, h5, hp, h6, gross, h7, ncc, -, gcc, h9, nhc, -, ghc, h11, h12⟩ := h
  simp only [pure_eq_ok, Except.ok.injEq] at h12
  subst h12
  exact setFan_good u (motor_local u brentq _) h4 hd hd0

/-- The rating pressure is not negative. -/
theorem core_esp {u : Units ℝ} {brentq : Brentq} {a : Args} {st : Staging} {rc rh : Roles} {net : Perf ℝ} {k : Core}
    (h : core u brentq a st rc rh net = .ok k) : if a.ducted then 0 < k.fullESP else k.fullESP = 0 := by
  unfold core at h
  simp only [bind_eq_ok] at h
  obtain ⟨qc, h1, qh, h2, esp, h3, ⟨cool, heat, fan⟩, h4, cp, h5, hp, h6, gross, h7, ncc, -, gcc, h9, nhc, -, ghc, h11, h12⟩ := h
  simp only [pure_eq_ok, Except.ok.injEq] at h12
  subst h12
  have hi := u.inH2O_pos
  unfold fullFlowPressure at h3
  cases hd : a.ducted
  · simp [hd] at h3; simp [h3]
  · simp only [hd, Bool.true_eq_false, if_false] at h3
    simp only [if_true]
    cases hs : a.standard
    · simp only [hs, bind_eq_ok] at h3
      obtain ⟨q, -, h3⟩ := h3
      split at h3
      · rw [← Except.ok.inj h3]; positivity
      · split at h3 <;> (rw [← Except.ok.inj h3]; positivity)
    · simp only [hs, Except.ok.injEq] at h3
      rw [← h3]; positivity

/-- The fan power rated at full speed and the fan power of a full-speed condition, BPM motor. -/
theorem fanPower_full {u : Units ℝ} {brentq : Brentq} (hbr : BrentqSpec brentq) {E : Env ℝ} {S : Sys ℝ} {k : Core} {s s0 : Side} {heating : Bool} {ind out : Option (Psych.PsychState ℝ)}
    {c : Conditions ℝ} {d : ℝ} {fs : Nat} (h : S.makeCondition E heating fs ind out = .ok c) (hA : (if heating then S.heatingAirflow else S.coolingAirflow) = s.airflow)
    (hF : (if heating then S.ratedHeatingFanSpeed else S.ratedCoolingFanSpeed) = s.ratedFanSpeed.map (·.map Int.toNat)) (hE : S.fullESP = k.fullESP)
    (M : ModeSet (ResnetFan.motorPower u brentq k.psc) k.fullESP d fs s0 s k.fan) (hi : fs < s.caps.length) (hpsc : k.psc = false) (hG : GoodFan u d k.fan) (hp : 0 ≤ k.fullESP)
    {af a0 : ℝ} (haf : s.airflow[fs]? = some (some af)) (ha0 : s.airflow[0]? = some (some a0)) (h0 : 0 < af) (hle : af ≤ d) (h00 : 0 < a0) :
    ∃ w w' g, s.power[fs]? = some (some w) ∧ fanPower u brentq k c = .ok w' ∧ 0 < w ∧ 0 < w' ∧ 0 < g ∧ w - w' = g * k.fullESP * (1 - (d / a0) ^ 2) := by
  obtain ⟨rho, pr, a, cap, n, h1, h2, h3, h4, h5, h6, h7, ⟨full, h8, h9, rfl⟩, h10, rfl⟩ := Sys.makeCondition_spec E S heating _ _ _ _ h
  obtain ⟨a', m, p, w, ⟨q, r, g1, g2, g3, g4⟩, g5, g6, g7, g8, g9⟩ := M.rated fs hi
  rw [hA] at h7 h8
  rw [hF, toNat_map g5] at h10
  rw [haf] at h7 g4
  rw [ha0] at h8
  cases h7; cases g4; cases h10; cases h8
  obtain ⟨b, ⟨_, _, _, _, _, e1⟩, e2⟩ := M.full
  rw [haf] at e1; cases e1
  rw [g7] at e2; cases e2
  have hd : 0 < d := h0.trans_le hle
  have hr : 0 < af / d := div_pos h0 hd
  have hr1 : af / d ≤ 1 := (div_le_one hd).2 hle
  have hr3 : (af / d) ^ 2 ≤ 3 := by nlinarith
  have hpow := bpm_power u hbr hd hG g6 h0 hr3
  have hS := bpm_slope u hr hr1
  have hi := u.inH2O_pos
  have hc := u.cfm_pos
  rw [hpsc] at g8
  simp only [ResnetFan.motorPower, Bool.false_eq_true, if_false] at g8
  rw [hpow] at g8
  set sl := 0.281 / u.cfm * (af / d) ^ (1.75 : ℝ) - 0.171 / u.cfm * (af / d) * (af / d) with hsl
  refine ⟨w, af * (0.171 / u.cfm * (af / d) * (af / d) + sl * (k.fullESP * (af / a0) ^ 2) / (0.5 * u.inH2O * (af / d) ^ 2)), af * sl / (0.5 * u.inH2O), g9, ?_, ?_, ?_, by positivity, ?_⟩
  · simp only [fanPower, ratedFlow, pyNum, pyAttr, bind_ok, hpsc, ResnetFan.motorPower, Bool.false_eq_true, if_false, hE]
    exact hpow _
  · rw [← Except.ok.inj g8]; positivity
  · positivity
  · rw [← Except.ok.inj g8]
    have : af / a0 = af / d * (d / a0) := by field_simp
    rw [this]
    generalize af / d = x at hr ⊢
    generalize d / a0 = y
    generalize sl = z
    field_simp
    ring

end Resdx.Build
