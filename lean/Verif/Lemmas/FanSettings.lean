import Verif.Lemmas.ResnetReturns
import Verif.Lemmas.ResnetBpm
import Verif.Model.FanEfficiency

/-! # The settings of the default fan of a RESNET unit, and what the fan returns at them -/

set_option linter.unusedSectionVars false
set_option linter.unusedSimpArgs false

namespace Resdx.Build

open Spec Tabular BaseModel Props ResnetFan Fan Table

variable {u : Units ℝ} {brentq : Brentq}

theorem add_settings {P : ℝ → Prop} {b b' : Base} {a : ℝ} (h : add b a = .ok b') (hb : ∀ x ∈ b.airflow, P x) (ha : P a) : ∀ x ∈ b'.airflow, P x := by
  obtain ⟨-, rfl⟩ := Base.addSpeed_ok (exec_eq_ok h)
  intro x hx
  simp only [List.mem_append, List.mem_singleton] at hx
  rcases hx with hx | rfl
  · exact hb x hx
  · exact ha

theorem HasAirflow.good {P : ℝ → Prop} {s : Side} {i : Nat} {a : ℝ} (h : HasAirflow s i a) (hs : Airflows P s) : P a := by
  obtain ⟨q, r, h1, h2, rfl, -⟩ := h
  exact hs i q r h1 h2

theorem Airflows.of_eq {P : ℝ → Prop} {s s' : Side} (h : Airflows P s) (h1 : s'.caps = s.caps) (h2 : s'.perCap = s.perCap) : Airflows P s' := by
  intro i q r hq hr
  exact h i q r (h1 ▸ hq) (h2 ▸ hr)

theorem addDesign_settings {P : ℝ → Prop} {s s' : Side} {b b' : Base} {i : Nat} {a : ℝ} (ha : HasAirflow s i a) (h : addDesign s b i = .ok (s', b')) (hb : ∀ x ∈ b.airflow, P x) (hs : Airflows P s) :
    ∀ x ∈ b'.airflow, P x := by
  have hp := HasAirflow.good ha hs
  simp only [addDesign, bind_eq_ok, numAt_eq_ok, pure_eq_ok, Except.ok.injEq, Prod.mk.injEq] at h
  obtain ⟨x, h1, b1, h2, s1, h3, rfl, rfl⟩ := h
  obtain ⟨q, r, -, -, -, k4⟩ := ha
  rw [k4] at h1; cases h1
  exact add_settings h2 hb hp

theorem addRated_settings {P : ℝ → Prop} {power : Base → Int → Option ℝ → Py ℝ} {fullESP full : ℝ} {s s' : Side} {b b' : Base} {i : Nat} {a : ℝ} (ha : HasAirflow s i a)
    (h : addRated power fullESP s b i full = .ok (s', b')) (hb : ∀ x ∈ b.airflow, P x) (hs : Airflows P s) : ∀ x ∈ b'.airflow, P x := by
  have hp := HasAirflow.good ha hs
  simp only [addRated, bind_eq_ok, numAt_eq_ok, pure_eq_ok, Except.ok.injEq, Prod.mk.injEq] at h
  obtain ⟨x, h1, p, -, e, -, b1, h4, rs, -, w, -, pw, -, rfl, rfl⟩ := h
  obtain ⟨q, r, -, -, -, k4⟩ := ha
  rw [k4] at h1; cases h1
  exact add_settings h4 hb hp

theorem otherSpeed_settings {P : ℝ → Prop} {power : Base → Int → Option ℝ → Py ℝ} {fullESP : ℝ} {fs i : Nat} {s s' : Side} {b b' : Base} (hb : AlignedBase b)
    (h : otherSpeed power fullESP fs s b i = .ok (s', b')) (hP : ∀ x ∈ b.airflow, P x) (hs : Airflows P s) : ∀ x ∈ b'.airflow, P x := by
  unfold otherSpeed at h
  split at h
  · simp only [Except.ok.injEq, Prod.mk.injEq] at h
    obtain ⟨rfl, rfl⟩ := h
    exact hP
  · simp only [bind_eq_ok] at h
    obtain ⟨s1, h1, ⟨s2, b2⟩, h2, full, -, h4⟩ := h
    obtain ⟨⟨a, ha⟩, -, c1, c2⟩ := setAirflow_ok h1
    have hs1 := Airflows.of_eq hs c1 c2
    obtain ⟨-, x2, -, x4, -, c3, c4⟩ := addDesign_ok hb ha h2
    exact addRated_settings x4 h4 (addDesign_settings ha h2 hP hs1) (Airflows.of_eq hs1 c3 c4)

theorem otherSpeeds_settings {P : ℝ → Prop} {power : Base → Int → Option ℝ → Py ℝ} (hp : Local power) {fullESP : ℝ} {fs : Nat} : ∀ (l : List Nat) {s s' : Side} {b b' : Base}, AlignedBase b →
    otherSpeeds power fullESP fs l s b = .ok (s', b') → (∀ x ∈ b.airflow, P x) → Airflows P s → ∀ x ∈ b'.airflow, P x
  | [], s, s', b, b', _, h, hP, _ => by
    simp only [otherSpeeds, Except.ok.injEq, Prod.mk.injEq] at h
    obtain ⟨rfl, rfl⟩ := h
    exact hP
  | i :: l, s, s', b, b', hb, h, hP, hs => by
    simp only [otherSpeeds, bind_eq_ok] at h
    obtain ⟨⟨s1, b1⟩, h1, h2⟩ := h
    obtain ⟨-, x2, -, -, c1, c2⟩ := otherSpeed_ok hp hb h1
    exact otherSpeeds_settings hp l x2 h2 (otherSpeed_settings hb h1 hP hs) (Airflows.of_eq hs c1 c2)

/-- Every setting of the fan has the rated airflow of one of the unit's speeds. -/
theorem setFan_settings {P : ℝ → Prop} {psc : Bool} {fullESP : ℝ} {cfs hfs : Nat} {c h c' h' : Side} {b : Base}
    (hrun : ResnetFan.setFan u (ResnetFan.motorPower u brentq psc) fullESP cfs hfs c h = .ok (c', h', b)) (hc : Airflows P c) (hh : Airflows P h) : AlignedBase b ∧ ∀ x ∈ b.airflow, P x := by
  have hp := motor_local u brentq psc
  generalize ResnetFan.motorPower u brentq psc = power at *
  unfold ResnetFan.setFan at hrun
  simp only [bind_eq_ok, numAt_eq_ok] at hrun
  obtain ⟨c1, r1, h1, r2, ac, r3, ah, r4, b0, r5, ⟨c2, h2, b1⟩, r6, ⟨c3, b2⟩, r7, ⟨h3, b3⟩, r8, ⟨c4, b4⟩, r9, ⟨h4, b5⟩, r10, r11⟩ := hrun
  simp only [pure_eq_ok, Except.ok.injEq, Prod.mk.injEq] at r11
  obtain ⟨rfl, rfl, rfl⟩ := r11
  obtain ⟨⟨a1, A1⟩, -, p1, p2⟩ := setAirflow_ok r1
  obtain ⟨⟨a2, A2⟩, -, p3, p4⟩ := setAirflow_ok r2
  have ea1 : a1 = ac := by obtain ⟨_, _, _, _, _, e⟩ := A1; rw [r3] at e; simpa using e.symm
  have ea2 : a2 = ah := by obtain ⟨_, _, _, _, _, e⟩ := A2; rw [r4] at e; simpa using e.symm
  subst ea1; subst ea2
  have C1 := Airflows.of_eq hc p1 p2
  have H1 := Airflows.of_eq hh p3 p4
  obtain ⟨B0, B1, -, B3⟩ := init_single r5
  have P0 : ∀ x ∈ b0.airflow, P x := by
    rw [B1]
    intro x hx
    obtain rfl := List.mem_singleton.1 hx
    split
    · exact HasAirflow.good A1 C1
    · exact HasAirflow.good A2 H1
  obtain ⟨-, AB1, -, -, Ac, Ah, p5, p6, p7, p8⟩ := fullSpeeds_ok (ac := a1) (ah := a2) B0 (by rw [B1]; simp) A1 A2 r6
  have C2 := Airflows.of_eq C1 p5 p6
  have H2 := Airflows.of_eq H1 p7 p8
  have P1 : ∀ x ∈ b1.airflow, P x := by
    unfold fullSpeeds at r6
    split at r6
    · simp only [bind_eq_ok, pure_eq_ok, Except.ok.injEq, Prod.mk.injEq] at r6
      obtain ⟨s1, -, ⟨s2, b'⟩, k2, rfl, rfl, rfl⟩ := r6
      exact addDesign_settings A2 k2 P0 H1
    · simp only [bind_eq_ok, pure_eq_ok, Except.ok.injEq, Prod.mk.injEq] at r6
      obtain ⟨s1, -, ⟨s2, b'⟩, k2, rfl, rfl, rfl⟩ := r6
      exact addDesign_settings A1 k2 P0 C1
  obtain ⟨-, AB2, -, -, p9, p10, -⟩ := addRated_ok AB1 Ac r7
  obtain ⟨-, AB3, -, -, p13, p14, -⟩ := addRated_ok AB2 Ah r8
  have P2 := addRated_settings Ac r7 P1 C2
  have P3 := addRated_settings Ah r8 P2 H2
  have C3 := Airflows.of_eq C2 p9 p10
  have H3 := Airflows.of_eq H2 p13 p14
  obtain ⟨-, AB4, -⟩ := otherSpeeds_ok hp _ _ _ _ _ List.nodup_range AB3 r9
  obtain ⟨-, AB5, -⟩ := otherSpeeds_ok hp _ _ _ _ _ List.nodup_range AB4 r10
  exact ⟨AB5, otherSpeeds_settings hp _ AB4 r10 (otherSpeeds_settings hp _ AB3 r9 P3 C3) H3⟩

/-- What the fan returns at a setting: its airflow, the operating pressure, a positive power and an efficiency. -/
theorem fan_setting (hbr : BrentqSpec brentq) (psc : Bool) {d : ℝ} (hd : 0 < d) {b : Base} (hb : GoodFan u d b) {k : Nat} {x : ℝ} (hk : b.airflow[k]? = some x) (hx : 0 < x)
    (hle : (x / d) ^ 2 ≤ 3) :
    let m := resnetMethods brentq (ResnetFan.motorPower u brentq psc) b
    m.operating k = .ok (0.5 * u.inH2O * (x / d) ^ 2) ∧ m.airflow k none = .ok x ∧ m.airflow k (some 0) = .ok x ∧ (∃ w, 0 < w ∧ m.power k none = .ok w) ∧ ∃ e, m.efficiency k none = .ok e := by
  have hi := u.inH2O_pos
  have hc := u.cfm_pos
  have e1 : ∀ p, resnetAirflow b k p = .ok x := by
    intro p
    obtain ⟨hlt, rfl⟩ := List.getElem?_eq_some_iff.1 hk
    exact pyGetI_nat hlt
  have e0 : ∀ p, resnetAirflow b 0 p = .ok d := by
    intro p
    obtain ⟨hlt, h⟩ := List.getElem?_eq_some_iff.1 hb.2.1
    have := pyGetI_nat hlt
    rw [h] at this
    exact this
  have hr : 0 < x / d := div_pos hx hd
  have hop : resnetOperatingPressure brentq b k = .ok (0.5 * u.inH2O * (x / d) ^ 2) := by
    obtain ⟨-, -, h2, h3⟩ := hb
    have hs : 0 < Real.sqrt (0.5 * u.inH2O) := Real.sqrt_pos.2 (by positivity)
    have hsq : Real.sqrt (0.5 * u.inH2O) ^ 2 = 0.5 * u.inH2O := Real.sq_sqrt (by positivity)
    have hval : (x * b.sysConst) ^ 2 = 0.5 * u.inH2O * (x / d) ^ 2 := by
      rw [h3, show (x * (Real.sqrt (0.5 * u.inH2O) / d)) ^ 2 = Real.sqrt (0.5 * u.inH2O) ^ 2 * (x / d) ^ 2 by ring, hsq]
    rw [← hval]
    exact resnetOperating_ok hbr (b := b) (i := k) (a := x) (by rw [h3]; positivity) (by rw [h2]; positivity) hk hx.le (by rw [hval, h2]; nlinarith)
  have hw : ∃ w, 0 < w ∧ ResnetFan.motorPower u brentq psc b k none = .ok w := by
    cases psc with
    | true =>
      have h1 : 0 < PSC.slope * (x / d) + (1 - PSC.slope) := by unfold PSC.slope; norm_num; linarith
      refine ⟨x * (0.414 / u.cfm * (PSC.slope * (x / d) + (1 - PSC.slope))), by positivity, ?_⟩
      simp only [ResnetFan.motorPower, if_true, resnetPSCPower, resnetPSCEfficacy, resnetAirflowRatio, e1, e0, bind_ok, pdiv_ok hd.ne', pure_eq_ok]
    | false =>
      have h := bpm_power u hbr hd hb hk hx hle (0.5 * u.inH2O * (x / d) ^ 2)
      have hn : resnetBPMPower u brentq b k none = resnetBPMPower u brentq b k (some (0.5 * u.inH2O * (x / d) ^ 2)) := by
        simp only [resnetBPMPower, resnetBPMEfficacy, hop, e1, bind_ok]
      have hq : 0.5 * u.inH2O * (x / d) ^ 2 ≠ 0 := by positivity
      have hp : 0 < (x / d) ^ (1.75 : ℝ) := Real.rpow_pos_of_pos hr _
      refine ⟨x * (0.281 / u.cfm * (x / d) ^ (1.75 : ℝ)), by positivity, ?_⟩
      simp only [ResnetFan.motorPower, Bool.false_eq_true, if_false]
      rw [hn, h, mul_div_assoc, div_self hq]
      congr 1; ring
  obtain ⟨w, w0, hw⟩ := hw
  intro m
  refine ⟨hop, e1 none, e1 (some 0), ⟨w, w0, hw⟩, ⟨x * (0.5 * u.inH2O * (x / d) ^ 2) / w, ?_⟩⟩
  simp only [Methods.efficiency, Methods.fluidPower, m, resnetMethods, e1, hop, hw, bind_ok, pure_eq_ok, pdiv_ok w0.ne']

end Resdx.Build
