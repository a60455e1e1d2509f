import Verif.Spec.FanWatts
import Verif.Props.FanShift

/-!
# C88: the fan powers of a RESNET unit in closed form
-/

set_option linter.unusedSectionVars false
set_option linter.unusedSimpArgs false

namespace Resdx.Build

open Spec Tabular BaseModel Props ResnetFan Fan Table DX

variable {u : Units ℝ} {E : Env ℝ} {T : Coil.Tools} {brentq : Brentq} {a : Args} {B : Built}

/-- The power of the motor at a setting. -/
theorem motor_watts {psc : Bool} (hbr : psc = false → BrentqSpec brentq) {d : ℝ} (hd : 0 < d) {b : Base} (hb : GoodFan u d b) {k : Nat} {x : ℝ} (hk : b.airflow[k]? = some x) (hx : 0 < x)
    (hle : (x / d) ^ 2 ≤ 3) (p : ℝ) : ResnetFan.motorPower u brentq psc b k (some p) = .ok (x / u.cfm * fanWatts psc (x / d) (p / (0.5 * u.inH2O * (x / d) ^ 2))) := by
  cases psc with
  | true =>
    have e1 : ∀ p, resnetAirflow b k p = .ok x := by
      intro p
      obtain ⟨hlt, rfl⟩ := List.getElem?_eq_some_iff.1 hk
      exact pyGetI_nat hlt
    have e0 : ∀ p, resnetAirflow b 0 p = .ok d := by
      intro p
      obtain ⟨hlt, h⟩ := List.getElem?_eq_some_iff.1 hb.2.1
      have := pyGetI_nat hlt
      rw [h] at this
      exact this
    simp only [ResnetFan.motorPower, if_true, resnetPSCPower, resnetPSCEfficacy, resnetAirflowRatio, e1, e0, bind_ok, pdiv_ok hd.ne', pure_eq_ok, fanWatts, Except.ok.injEq]
    have hs : PSC.slope = 0.3 := rfl
    rw [hs]
    ring
  | false =>
    simp only [ResnetFan.motorPower, Bool.false_eq_true, if_false]
    rw [bpm_power u (hbr rfl) hd hb hk hx hle p]
    simp only [fanWatts, Bool.false_eq_true, if_false, Except.ok.injEq]
    ring

/-- The rated fan power of a speed and the fan power of its conditions. -/
theorem side_watts {S : Sys ℝ} {k : Core} {s s0 : Side} {heating : Bool} {d : ℝ} {fs : Nat} (hbr : k.psc = false → BrentqSpec brentq) (hA : (if heating then S.heatingAirflow else S.coolingAirflow) = s.airflow)
    (hF : (if heating then S.ratedHeatingFanSpeed else S.ratedCoolingFanSpeed) = s.ratedFanSpeed.map (·.map Int.toNat)) (hE : S.fullESP = k.fullESP)
    (M : ModeSet (ResnetFan.motorPower u brentq k.psc) k.fullESP d fs s0 s k.fan) (hG : GoodFan u d k.fan) (hd : 0 < d) {i : Nat} (hi : i < s.caps.length)
    {x x0 : ℝ} (hx : s.airflow[i]? = some (some x)) (hx0 : s.airflow[0]? = some (some x0)) (h0 : 0 < x) (h00 : 0 < x0) (hle : (x / d) ^ 2 ≤ 3) :
    s.power[i]? = some (some (x / u.cfm * fanWatts k.psc (x / d) (k.fullESP / (0.5 * u.inH2O) * if i = fs then 1 else (d / x0) ^ 2))) ∧
      ∀ {ind out : Option (Psych.PsychState ℝ)} {c : Conditions ℝ}, S.makeCondition E heating i ind out = .ok c →
        fanPower u brentq k c = .ok (x / u.cfm * fanWatts k.psc (x / d) (k.fullESP / (0.5 * u.inH2O) * (d / x0) ^ 2)) := by
  have hI := u.inH2O_pos
  obtain ⟨x', m, p, w, ⟨q, r, -, -, -, g4⟩, g5, g6, g7, g8, g9⟩ := M.rated i hi
  rw [hx] at g4; cases g4
  have hpow := motor_watts hbr hd hG g6 h0 hle
  constructor
  · rw [hpow] at g8
    rw [g9, ← Except.ok.inj g8]
    congr 4
    split
    · rename_i e
      subst e
      obtain ⟨y, ⟨_, _, _, _, _, y1⟩, y2⟩ := M.full
      rw [hx] at y1; cases y1
      rw [g7] at y2; cases y2
      field_simp
    · rename_i e
      obtain ⟨y, y0, y1, y2, y3, y4⟩ := M.other i hi e
      rw [hx] at y1; cases y1
      rw [hx0] at y2; cases y2
      rw [g7] at y4; cases y4
      field_simp
  · intro ind out c hc
    obtain ⟨rho, pr, z, cap, n, h1, h2, h3, h4, h5, h6, h7, ⟨full, h8, h9, rfl⟩, h10, rfl⟩ := Sys.makeCondition_spec E S heating _ _ _ _ hc
    rw [hA] at h7 h8
    rw [hF, toNat_map g5] at h10
    rw [hx] at h7
    rw [hx0] at h8
    cases h7; cases h10; cases h8
    simp only [fanPower, ratedFlow, pyNum, pyAttr, bind_ok, hE]
    rw [hpow]
    congr 3
    field_simp

theorem fanWatts_bounds {psc : Bool} {r s : ℝ} (hr : 0 < r) (hr1 : r ≤ 1) (hs : 0 ≤ s) (hs3 : s ≤ 3) : 0 < fanWatts psc r s ∧ fanWatts psc r s ≤ 0.843 := by
  unfold fanWatts
  split
  · constructor <;> linarith
  · rw [pow_two]
    exact bpm_bound hr (by nlinarith) hs hs3 (.inr hr1)

/-- More pressure takes more power. -/
theorem fanWatts_mono {psc : Bool} {r s s' : ℝ} (hr : 0 < r) (hr1 : r ≤ 1) (h : s ≤ s') : fanWatts psc r s ≤ fanWatts psc r s' := by
  unfold fanWatts
  split
  · exact le_rfl
  · have h1 : r ^ (2 : ℝ) ≤ r ^ (1.75 : ℝ) := Real.rpow_le_rpow_of_exponent_ge hr hr1 (by norm_num)
    rw [Real.rpow_two] at h1
    have : 0 ≤ 0.281 * r ^ (1.75 : ℝ) - 0.171 * r ^ 2 := by nlinarith [sq_nonneg r]
    have := mul_le_mul_of_nonneg_left h this
    linarith

/-- C88, the fan powers of a unit of default airflows in closed form. Speed `i` of capacity `q`, in a mode whose fastest speed has the capacity `q0`, in a unit whose larger full-speed capacity is `L`: rated at its share of the
pressure at the design airflow if it is the full speed, and otherwise, like in all conditions, at its share of the pressure at the airflow of the mode's fastest speed. -/
theorem C88_fan_power (h : build u E T brentq a = .ok B) (ht : ∀ d, a.tables = some d → RatedTables (tableSpeeds B.core.st) d) {st : Staging} {net : Perf ℝ} {qc qh : List ℝ} (hM : Made u E a st net qc qh B)
    (hbr : B.core.psc = false → BrentqSpec brentq) {x y : ℝ} (hx : qc[fullIndex st]? = some x) (hy : qh[fullIndex st]? = some y) (hL : 0 < max x y) (heating : Bool) {i : Nat} {q q0 : ℝ}
    (hq : (if heating then qh else qc)[i]? = some q) (hq0 : (if heating then qh else qc)[0]? = some q0) (h0 : 0 < q) (h00 : 0 < q0) (hle : (q / max x y) ^ 2 ≤ 3) :
    (if heating then B.core.heat else B.core.cool).power[i]? =
        some (some (unitFan B.core.psc u.ton (max x y) q (B.core.fullESP / (0.5 * u.inH2O) * if i = fullIndex st then 1 else (max x y / q0) ^ 2))) ∧
      ∀ {ind out : Option (Psych.PsychState ℝ)} {c : Conditions ℝ}, B.sys.makeCondition E heating i ind out = .ok c →
        (B.unit u E T brentq).fanPower c = .ok (unitFan B.core.psc u.ton (max x y) q (B.core.fullESP / (0.5 * u.inH2O) * (max x y / q0) ^ 2)) := by
  have hcf := u.cfm_pos
  have hto := u.ton_pos
  have hr : 0 < 400 * u.cfm / u.ton := by positivity
  obtain ⟨fc, fh, F⟩ := built_facts h ht
  obtain ⟨st0, q47, nC, nH, b2, b3, b4, b6, b7, hK, hS, b10⟩ := build_steps h
  obtain ⟨-, -, s3, s4, s5, s6, s7, -⟩ := sys_ok hS
  obtain ⟨ac, ah, A1, A2, A3, A4, M, M'⟩ := F.fan
  have hd := hM.design x y hx hy
  have ed : max ac ah = max x y * (400 * u.cfm / u.ton) := by rw [hd] at A4; exact (Option.some.inj A4).symm
  rw [ed] at M M'
  have hG := core_good hK hd (by positivity)
  have key : ∀ {q s : ℝ}, q * (400 * u.cfm / u.ton) / u.cfm * fanWatts B.core.psc (q * (400 * u.cfm / u.ton) / (max x y * (400 * u.cfm / u.ton))) s = unitFan B.core.psc u.ton (max x y) q s := by
    intro q s
    rw [mul_div_mul_right _ _ hr.ne', unitFan]
    congr 1
    field_simp
  have hdiv : q * (400 * u.cfm / u.ton) / (max x y * (400 * u.cfm / u.ton)) = q / max x y := mul_div_mul_right _ _ hr.ne'
  have hdiv' : max x y * (400 * u.cfm / u.ton) / (q0 * (400 * u.cfm / u.ton)) = max x y / q0 := mul_div_mul_right _ _ hr.ne'
  cases heating with
  | false =>
    simp only [Bool.false_eq_true, if_false] at hq hq0 ⊢
    obtain ⟨r1, r2⟩ := side_watts (E := E) (heating := false) hbr (by simpa using s3) (by simpa using s5) s7 M hG (by positivity) (i := i) (by rw [hM.coolCaps]; exact (List.getElem?_eq_some_iff.1 hq).1)
      (hM.coolAirflow i q hq) (hM.coolAirflow 0 q0 hq0) (by positivity) (by positivity) (by rw [hdiv]; exact hle)
    rw [key, hdiv', hM.full.1] at r1
    refine ⟨r1, fun hc => ?_⟩
    have := r2 hc
    rw [key, hdiv'] at this
    exact this
  | true =>
    simp only [if_true] at hq hq0 ⊢
    obtain ⟨r1, r2⟩ := side_watts (E := E) (heating := true) hbr (by simpa using s4) (by simpa using s6) s7 M' hG (by positivity) (i := i) (by rw [hM.heatCaps]; exact (List.getElem?_eq_some_iff.1 hq).1)
      (hM.heatAirflow i q hq) (hM.heatAirflow 0 q0 hq0) (by positivity) (by positivity) (by rw [hdiv]; exact hle)
    rw [key, hdiv', hM.full.2] at r1
    refine ⟨r1, fun hc => ?_⟩
    have := r2 hc
    rw [key, hdiv'] at this
    exact this

/-- The rating pressure of the 2023 edition. -/
theorem esp_2023 (h : build u E T brentq a = .ok B) (hs : a.standard = .ahri2023) : B.core.fullESP / (0.5 * u.inH2O) = if a.ducted then 1 else 0 := by
  have hI := u.inH2O_pos
  obtain ⟨st0, q47, nC, nH, b2, b3, b4, b6, b7, hK, hS, b10⟩ := build_steps h
  unfold core at hK
  simp only [bind_eq_ok] at hK
  obtain ⟨qc, h1, qh, h2, esp, h3, ⟨cool, heat, fan⟩, h4, cp, h5, hp, h6, gross, h7, ncc, -, gcc, h9, nhc, -, ghc, h11, h12⟩ := hK
  simp only [pure_eq_ok, Except.ok.injEq] at h12
  have e : B.core.fullESP = esp := by rw [← h12]
  rw [e]
  unfold fullFlowPressure at h3
  rw [hs] at h3
  cases hd : a.ducted
  · simp [hd] at h3; simp [← h3]
  · simp [hd] at h3; rw [← h3, if_pos rfl, div_self (by positivity)]

end Resdx.Build
