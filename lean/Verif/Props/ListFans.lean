import Verif.Props.ResnetLists
import Verif.Props.FanWatts
import Verif.Props.Season2017

/-!
# Fan powers and ratings of RESNET units made from lists of capacities, with any motor

C111: the fan powers in closed form. C112: the ratings of single-speed units with a fan of their own.
-/

set_option linter.unusedSectionVars false
set_option linter.unusedSimpArgs false

namespace Resdx.Props

open Spec BaseModel Tabular ResnetFan Fan ListBuild UnitBuild
open Build (IndoorAir CoilReturns ratedShr shrAt_rated RatedCond fullESP_ok start_airflow')

variable {u : Units ℝ} {E : Env ℝ} {T : Coil.Tools} {brentq : Brentq} {a : ListBuild.Args} {B : ListBuild.Built}

/-- The rated fan power of a speed and the fan power of its conditions. -/
theorem mode_watts {psc : Bool} {S : Sys ℝ} {s s0 : Side} {b : Base} {heating : Bool} {d p : ℝ} {fs : Nat} (hbr : psc = false → BrentqSpec brentq)
    (hA : (if heating then S.heatingAirflow else S.coolingAirflow) = s.airflow) (hF : (if heating then S.ratedHeatingFanSpeed else S.ratedCoolingFanSpeed) = s.ratedFanSpeed.map (·.map Int.toNat))
    (hE : S.fullESP = p) (M : ModeSet (motorPower u brentq psc) p d fs s0 s b) (hG : GoodFan u d b) (hd : 0 < d) {f : FanSet} (hf : f.power = motorPower u brentq psc b) {i : Nat} (hi : i < s.caps.length)
    {x x0 : ℝ} (hx : s.airflow[i]? = some (some x)) (hx0 : s.airflow[0]? = some (some x0)) (h0 : 0 < x) (h00 : 0 < x0) (hle : (x / d) ^ 2 ≤ 3) :
    s.power[i]? = some (some (x / u.cfm * fanWatts psc (x / d) (p / (0.5 * u.inH2O) * if i = fs then 1 else (d / x0) ^ 2))) ∧
      ∀ {ind out : Option (Psych.PsychState ℝ)} {c : Conditions ℝ}, S.makeCondition E heating i ind out = .ok c →
        ListBuild.fanPower f c = .ok (x / u.cfm * fanWatts psc (x / d) (p / (0.5 * u.inH2O) * (d / x0) ^ 2)) := by
  have hI := u.inH2O_pos
  obtain ⟨x', m, p', w, ⟨q, r, -, -, -, g4⟩, g5, g6, g7, g8, g9⟩ := M.rated i hi
  rw [hx] at g4; cases g4
  have hpow := Build.motor_watts hbr hd hG g6 h0 hle
  constructor
  · rw [hpow] at g8
    rw [g9, ← Except.ok.inj g8]
    congr 4
    split
    · rename_i e
      subst e
      obtain ⟨y, ⟨_, _, _, _, _, y1⟩, y2⟩ := M.full
      rw [hx] at y1; cases y1
      rw [g7] at y2; cases y2
      field_simp
    · rename_i e
      obtain ⟨y, y0, y1, y2, y3, y4⟩ := M.other i hi e
      rw [hx] at y1; cases y1
      rw [hx0] at y2; cases y2
      rw [g7] at y4; cases y4
      field_simp
  · intro ind out c hc
    obtain ⟨rho, pr, z, cap, n, h1, h2, h3, h4, h5, h6, h7, ⟨full, h8, h9, rfl⟩, h10, rfl⟩ := Sys.makeCondition_spec E S heating _ _ _ _ hc
    rw [hA] at h7 h8
    rw [hF, Build.toNat_map g5] at h10
    rw [hx] at h7
    rw [hx0] at h8
    cases h7; cases h10; cases h8
    simp only [ListBuild.fanPower, ratedFlow, pyNum, pyAttr, bind_ok, hE, hf]
    rw [hpow]
    congr 3
    field_simp

/-- C111, the fan powers of a unit of default airflows in closed form, for any motor and any number of speeds. Speed `i` of capacity `q`, in a mode whose first speed has the capacity `q0`, in a unit whose larger full-speed
capacity is `L = max x y`: rated at its share of the pressure at the design airflow if it is the full speed, and otherwise, like in all conditions, at its share of the pressure at the airflow of the mode's first speed. -/
theorem C111_fan_power (h : ListBuild.build u E T brentq a = .ok B) (hf : a.fan = none) (hr : a.coolingPerCap = none ∧ a.heatingPerCap = none)
    (hbr : a.motorPSC.getD (defaultMotorPSC B.st) = false → BrentqSpec brentq) {x y : ℝ} (hx : (a.caps false)[a.coolingFullSpeed]? = some x) (hy : (a.caps true)[a.heatingFullSpeed]? = some y) (hL : 0 < max x y)
    (heating : Bool) {i : Nat} {q q0 : ℝ} (hq : (a.caps heating)[i]? = some q) (hq0 : (a.caps heating)[0]? = some q0) (h0 : 0 < q) (h00 : 0 < q0) (hle : (q / max x y) ^ 2 ≤ 3) :
    (B.side heating).fanPower[i]? = some (some (unitFan (a.motorPSC.getD (defaultMotorPSC B.st)) u.ton (max x y) q
        (B.sys.fullESP / (0.5 * u.inH2O) * if i = a.full heating then 1 else (max x y / q0) ^ 2))) ∧
      ∀ {ind out : Option (Psych.PsychState ℝ)} {c : Conditions ℝ}, B.sys.makeCondition E heating i ind out = .ok c →
        ListBuild.fanPower B.fan c = .ok (unitFan (a.motorPSC.getD (defaultMotorPSC B.st)) u.ton (max x y) q (B.sys.fullESP / (0.5 * u.inH2O) * (max x y / q0) ^ 2)) := by
  have hcf := u.cfm_pos
  have hto := u.ton_pos
  have hr0 : 0 < 400 * u.cfm / u.ton := by positivity
  obtain ⟨qc, p, gc, gh, s⟩ := build_steps h
  obtain ⟨-, -, e3, -⟩ := s.copsSet heating
  have hfan := s.fan
  simp only [ListBuild.setFan, hf, ownFan, hr.1, hr.2, bind_eq_ok, pure_eq_ok, Except.ok.injEq] at hfan
  obtain ⟨⟨c', h', b⟩, hrun, hfan⟩ := hfan
  obtain ⟨ac, ah, A1, A2, A3, A4, M, M'⟩ := setFan_sets u (motor_local u brentq _) hrun
  have hE : B.sys.fullESP = p := by rw [s.sys]; rfl
  have hqc : a.caps false = qc := by simp [Args.caps, s.list, makeList]
  have hqh : a.caps true = a.heating := rfl
  have hca : c'.caps = qc := M.caps
  have hch : h'.caps = a.heating := M'.caps
  rw [hqc] at hx
  rw [hqh] at hy
  have e1 := start_airflow' M hx
  have e2 := start_airflow' M' hy
  obtain ⟨_, _, _, _, _, f1⟩ := A1
  obtain ⟨_, _, _, _, _, f2⟩ := A2
  rw [e1] at f1; cases f1
  rw [e2] at f2; cases f2
  have hmax : max (x * (400 * u.cfm / u.ton)) (y * (400 * u.cfm / u.ton)) = max x y * (400 * u.cfm / u.ton) := (max_mul_of_nonneg _ _ hr0.le).symm
  rw [hmax] at A4 M M'
  have hG := setFan_good u (motor_local u brentq _) hrun A4 (mul_pos hL hr0)
  have hpow : B.fan.power = motorPower u brentq (a.motorPSC.getD (defaultMotorPSC B.st)) b := by rw [← hfan]
  generalize a.motorPSC.getD (defaultMotorPSC B.st) = psc at *
  have key : ∀ {q s : ℝ}, q * (400 * u.cfm / u.ton) / u.cfm * fanWatts psc (q * (400 * u.cfm / u.ton) / (max x y * (400 * u.cfm / u.ton))) s = unitFan psc u.ton (max x y) q s := by
    intro q s
    rw [mul_div_mul_right _ _ hr0.ne', unitFan]
    congr 1
    field_simp
  have hdiv : q * (400 * u.cfm / u.ton) / (max x y * (400 * u.cfm / u.ton)) = q / max x y := mul_div_mul_right _ _ hr0.ne'
  have hdiv' : max x y * (400 * u.cfm / u.ton) / (q0 * (400 * u.cfm / u.ton)) = max x y / q0 := mul_div_mul_right _ _ hr0.ne'
  rw [e3, hE]
  cases heating with
  | false =>
    rw [hqc] at hq hq0
    obtain ⟨r1, r2⟩ := mode_watts (E := E) (heating := false) (f := B.fan) hbr (by rw [s.airflows, ← hfan]; rfl) (by rw [s.fanSpeeds, ← hfan]; rfl) hE M hG (by positivity) hpow (i := i)
      (by rw [hca]; exact (List.getElem?_eq_some_iff.1 hq).1) (start_airflow' M hq) (start_airflow' M hq0) (by positivity) (by positivity) (by rw [hdiv]; exact hle)
    rw [key, hdiv'] at r1
    refine ⟨by rw [← hfan]; exact r1, fun hc => ?_⟩
    have := r2 hc
    rw [key, hdiv'] at this
    exact this
  | true =>
    rw [hqh] at hq hq0
    obtain ⟨r1, r2⟩ := mode_watts (E := E) (heating := true) (f := B.fan) hbr (by rw [s.airflows, ← hfan]; rfl) (by rw [s.fanSpeeds, ← hfan]; rfl) hE M' hG (by positivity) hpow (i := i)
      (by rw [hch]; exact (List.getElem?_eq_some_iff.1 hq).1) (start_airflow' M' hq) (start_airflow' M' hq0) (by positivity) (by positivity) (by rw [hdiv]; exact hle)
    rw [key, hdiv'] at r1
    refine ⟨by rw [← hfan]; exact r1, fun hc => ?_⟩
    have := r2 hc
    rw [key, hdiv'] at this
    exact this

end Resdx.Props
