import Verif.Spec.ListSeason
import Verif.Props.ListFans
import Verif.Props.SeasonVariable

/-!
# C116: the seasonal ratings of RESNET units made from lists of capacities
-/

set_option linter.unusedSectionVars false
set_option linter.unusedSimpArgs false

namespace Resdx.Spec

/-- The external static pressure at full airflow as a share of 0.5 inH2O: that of ducted units after AHRI 210/240-2023; the 2017 edition grades it by the rated cooling capacity. -/
noncomputable def designPressure (edition2017 : Bool) (btuh : ℝ) (ducted : Bool) (q95 : ℝ) : ℝ := if edition2017 then pressure2017 btuh ducted q95 else if ducted then 1 else 0

end Resdx.Spec

namespace Resdx.Props

open Spec BaseModel Tabular ResnetFan Fan ListBuild UnitBuild DX
open Build (IndoorAir CoilReturns ratedShr shrAt_rated RatedCond fullESP_ok start_airflow')

variable {u : Units ℝ} {E : Env ℝ} {T : Coil.Tools} {brentq : Brentq} {a : ListBuild.Args} {B : ListBuild.Built}

/-- The fan draws the same at all conditions of a speed in a mode. -/
theorem fan_same {heating : Bool} {i : Nat} {ind ind' out out' : Option (Psych.PsychState ℝ)} {c c' : Conditions ℝ} (h : B.sys.makeCondition E heating i ind out = .ok c)
    (h' : B.sys.makeCondition E heating i ind' out' = .ok c') : ListBuild.fanPower B.fan c' = ListBuild.fanPower B.fan c := by
  obtain ⟨rho, pr, z, cap, n, h1, h2, h3, h4, h5, h6, h7, ⟨full, h8, h9, rfl⟩, h10, rfl⟩ := Sys.makeCondition_spec E B.sys heating _ _ _ _ h
  obtain ⟨rho', pr', z', cap', n', k1, k2, k3, k4, k5, k6, k7, ⟨full', k8, k9, rfl⟩, k10, rfl⟩ := Sys.makeCondition_spec E B.sys heating _ _ _ _ h'
  rw [h7] at k7; rw [h8] at k8; rw [h10] at k10
  cases k7; cases k8; cases k10
  simp only [ListBuild.fanPower, ratedFlow]

/-- The heating settings are those of the arguments. -/
theorem list_settings (h : ListBuild.build u E T brentq a = .ok B) (hon : a.heatingOn = none) :
    B.heatSettings.on = some B.heatSettings.off ∧ B.heatSettings.cd = Build.cd a.cdHeating ∧ B.heatingOff = DX.offTemperature a.heatingOff B.st ∧ B.standard = a.standard ∧ B.sys.defrost = a.defrost ∧
      B.cycling = a.cycling := by
  obtain ⟨qc, p, gc, gh, s⟩ := build_steps h
  have hd : B.sys.defrost = a.defrost := by rw [s.sys]; rfl
  unfold ListBuild.build at h
  simp only [bind_eq_ok] at h
  obtain ⟨st, h1, qc, h2, p, h3, f, h4, _, h5, gc, h6, gh, h7, cr, h8, P, h9, coil, h10, ⟨c, h'⟩, h11, _, h12, h13⟩ := h
  simp only [pure_eq_ok, Except.ok.injEq] at h13
  refine ⟨?_, by rw [← h13]; rfl, by rw [← h13], by rw [← h13], hd, by rw [← h13]⟩
  rw [← h13]
  simp only [ListBuild.Built.heatSettings, hon, DX.onTemperature]

/-- A speed's net performance at a heating condition. -/
theorem list_heating (h : ListBuild.build u E T brentq a = .ok B) (hd : a.chargeDeviation = 0) {i : Nat} {q Q w p P k C v : ℝ} (r : HasRatings B.heat i q Q w p P k C) (hQC : Q = C * P) (hC : C ≠ 0)
    {o : Psych.PsychState ℝ} {c : Conditions ℝ} (hc : B.sys.makeCondition E true i none (some o) = .ok c) (hw : ListBuild.fanPower B.fan c = .ok v) {t : ℝ} (ht : o.db = frF t) :
    (B.unit E T).netSteadyHeatingCapacity (some c) = .ok (heatingOn Q v t) ∧ (B.unit E T).netSteadyHeatingPower (some c) = .ok (heatingPowerOn P v t) ∧ (B.unit E T).db c = frF t ∧
      (t = 35 → (B.unit E T).netIntegratedHeatingCapacity (some c) = .ok (frosted (a.defrost.inDefrost (frF 35)) 0.0522 v (heatingOn Q v 35)) ∧
        (B.unit E T).netIntegratedHeatingPower (some c) = .ok (frosted (a.defrost.inDefrost (frF 35)) 0.0087 v (heatingPowerOn P v 35))) := by
  obtain ⟨e1, e2, e3, e4⟩ := C111_heating (T := T) h hd r hQC hC hc hw rfl
  rw [ht, toF_frF] at e1 e2 e3 e4
  have hdb : (B.unit E T).db c = frF t := by
    show c.outdoor.db = _
    rw [Build.makeCondition_outdoor hc]; exact ht
  refine ⟨e1, e2, hdb, fun h35 => ?_⟩
  subst h35
  rw [e3, e4]
  unfold frosted heatingOn heatingPowerOn
  constructor <;> congr 1 <;> split <;> norm_num

/-- C116: the heating tests at full speed, from the ratings of that speed and its fan power. -/
theorem C116_heat_tests (h : ListBuild.build u E T brentq a = .ok B) (hd : a.chargeDeviation = 0) {q Q w p P k C v : ℝ} (r : HasRatings B.heat a.rh.full q Q w p P k C) (hQC : Q = C * P) (hC : C ≠ 0)
    (hv : ListBuild.fanPower B.fan B.points.h1Full = .ok v) : HeatMatch (B.unit E T) B.points (curveHeatTests (a.defrost.inDefrost (frF 35)) Q P v) := by
  obtain ⟨qc, pr, gc, gh, s⟩ := build_steps h
  obtain ⟨-, -, p1, p3⟩ := Build.full_points s.points
  obtain ⟨p2, -⟩ := Build.frost_points s.points
  obtain ⟨a1, a2, a3, -⟩ := list_heating (T := T) h hd r hQC hC p1 hv (t := 47) rfl
  obtain ⟨-, -, b3, b4⟩ := list_heating (T := T) h hd r hQC hC p2 (by rw [fan_same p1 p2]; exact hv) (t := 35) rfl
  obtain ⟨c1, c2, c3, -⟩ := list_heating (T := T) h hd r hQC hC p3 (by rw [fan_same p1 p3]; exact hv) (t := 17) rfl
  obtain ⟨b1, b2⟩ := b4 rfl
  exact ⟨a1, a2, b1, b2, c1, c2, a3, b3, c3⟩

/-- C116: the heating tests at low speed of a unit that is not single-stage. -/
theorem C116_low_tests (h : ListBuild.build u E T brentq a = .ok B) (hst : B.st ≠ .single) (hd : a.chargeDeviation = 0) {j : Nat} (hj : a.rh.low = some j) {q Q w p P k C v : ℝ} (r : HasRatings B.heat j q Q w p P k C)
    (hQC : Q = C * P) (hC : C ≠ 0) (hv : ∀ c, B.points.h1Low = some c → ListBuild.fanPower B.fan c = .ok v) :
    HeatLowTwoMatch (B.unit E T) B.points (curveLowTests (a.defrost.inDefrost (frF 35)) Q P v) := by
  obtain ⟨qc, pr, gc, gh, s⟩ := build_steps h
  obtain ⟨i, j', b, f, c0, c1, c2, c3, -, hj', -, -, e0, e1, e2, e3, -, -, p0, p1, p2, p3⟩ := Build.low_points s.points hst
  rw [hj] at hj'; cases hj'
  have hv := hv _ e1
  obtain ⟨z1, z2, z3, -⟩ := list_heating (T := T) h hd r hQC hC p0 (by rw [fan_same p1 p0]; exact hv) (t := 62) rfl
  obtain ⟨a1, a2, a3, -⟩ := list_heating (T := T) h hd r hQC hC p1 hv (t := 47) rfl
  obtain ⟨-, -, b3, b4⟩ := list_heating (T := T) h hd r hQC hC p2 (by rw [fan_same p1 p2]; exact hv) (t := 35) rfl
  obtain ⟨c1, c2, c3, -⟩ := list_heating (T := T) h hd r hQC hC p3 (by rw [fan_same p1 p3]; exact hv) (t := 17) rfl
  obtain ⟨b1, b2⟩ := b4 rfl
  exact ⟨⟨⟨_, e0, z1, z2, z3⟩, ⟨_, e1, a1, a2, a3⟩⟩, ⟨_, e2, b1, b2, b3⟩, ⟨_, e3, c1, c2, c3⟩⟩

/-- A speed's net performance at a cooling condition. -/
theorem list_cooling (h : ListBuild.build u E T brentq a = .ok B) (hd : a.chargeDeviation = 0) {i : Nat} {q Q w p P k C v : ℝ} (r : HasRatings B.cool i q Q w p P k C) (hQC : Q = C * P) (hQ : 0 < Q) (hP : 0 < P)
    {o : Psych.PsychState ℝ} {c : Conditions ℝ} (hc : B.sys.makeCondition E false i none (some o) = .ok c) (hw : ListBuild.fanPower B.fan c = .ok v) {t : ℝ} (ht : o.db = frF t) (ht' : t ≤ 125) :
    (B.unit E T).netTotalCoolingCapacity (some c) = .ok (coolingOn Q v t) ∧ (B.unit E T).netCoolingPower (some c) = .ok (coolingPowerOn P v t) ∧ (B.unit E T).db c = frF t := by
  obtain ⟨e1, e2⟩ := C111_cooling (T := T) h hd r hQC hQ hP (by rw [ht, toF_frF]; exact ht') hc hw
  rw [ht, toF_frF] at e1 e2
  refine ⟨e1, e2, ?_⟩
  show c.outdoor.db = _
  rw [Build.makeCondition_outdoor hc]; exact ht

/-- C116: the cooling tests of a unit that is not single-stage, at full and low speed. -/
theorem C116_cool_tests (h : ListBuild.build u E T brentq a = .ok B) (hst : B.st ≠ .single) (hd : a.chargeDeviation = 0) {j : Nat} (hj : a.rc.low = some j) {q Q w p P k C v q' Q' w' p' P' k' C' v' : ℝ}
    (r : HasRatings B.cool a.rc.full q Q w p P k C) (hQC : Q = C * P) (hQ : 0 < Q) (hP : 0 < P) (hv : ListBuild.fanPower B.fan B.points.aFull = .ok v) (r' : HasRatings B.cool j q' Q' w' p' P' k' C') (hQC' : Q' = C' * P')
    (hQ' : 0 < Q') (hP' : 0 < P') (hv' : ∀ c, B.points.bLow = some c → ListBuild.fanPower B.fan c = .ok v') (Qi Pi vi : ℝ) :
    CoolMatch (B.unit E T) B.points (curveCoolTests Q P v Q' P' v' Qi Pi vi) := by
  obtain ⟨qc, pr, gc, gh, s⟩ := build_steps h
  obtain ⟨pA, pB, -, -⟩ := Build.full_points s.points
  obtain ⟨i, j', b, f, c0, c1, c2, c3, hi, -, eb, ef, -, -, -, -, pb, pf, -⟩ := Build.low_points s.points hst
  rw [hj] at hi; cases hi
  have hv' := hv' _ eb
  obtain ⟨a1, a2, a3⟩ := list_cooling (T := T) h hd r hQC hQ hP pA hv (t := 95) rfl (by norm_num)
  obtain ⟨b1, b2, b3⟩ := list_cooling (T := T) h hd r hQC hQ hP pB (by rw [fan_same pA pB]; exact hv) (t := 82) rfl (by norm_num)
  obtain ⟨d1, d2, d3⟩ := list_cooling (T := T) h hd r' hQC' hQ' hP' pb hv' (t := 82) rfl (by norm_num)
  obtain ⟨f1, f2, f3⟩ := list_cooling (T := T) h hd r' hQC' hQ' hP' pf (by rw [fan_same pb pf]; exact hv') (t := 67) rfl (by norm_num)
  exact ⟨a1, a2, b1, b2, a3, b3, b, f, eb, ef, d1, d2, f1, f2, d3, f3⟩

/-- C116: the intermediate cooling test of a variable-speed unit. -/
theorem C116_intermediate_test (h : ListBuild.build u E T brentq a = .ok B) (hst : B.st = .varSpeed) (hd : a.chargeDeviation = 0) {q Q w p P k C v : ℝ} (r : HasRatings B.cool a.rc.intermediate q Q w p P k C)
    (hQC : Q = C * P) (hQ : 0 < Q) (hP : 0 < P) (hv : ∀ c, B.points.eInt = some c → ListBuild.fanPower B.fan c = .ok v) (Q0 P0 v0 Q' P' v' : ℝ) :
    CoolMatch.Int (B.unit E T) B.points (curveCoolTests Q0 P0 v0 Q' P' v' Q P v) := by
  obtain ⟨qc, pr, gc, gh, s⟩ := build_steps h
  obtain ⟨e, h2, ee, -, pe, -⟩ := Build.int_points s.points hst
  obtain ⟨a1, a2, a3⟩ := list_cooling (T := T) h hd r hQC hQ hP pe (hv _ ee) (t := 87) rfl (by norm_num)
  exact ⟨e, ee, a1, a2⟩

/-! ## The heating season of single-stage units -/

theorem curve_values : (0.99 < heatEirT (70 : ℝ) 47 * heatCapT 70 47 ∧ heatEirT (70 : ℝ) 47 * heatCapT 70 47 < 1.01) ∧ (0.93 < heatEirT (70 : ℝ) 35 * heatCapT 70 35 ∧ heatEirT (70 : ℝ) 35 * heatCapT 70 35 < 0.94) ∧
    (0.85 < heatEirT (70 : ℝ) 17 * heatCapT 70 17 ∧ heatEirT (70 : ℝ) 17 * heatCapT 70 17 < 0.86) := by
  unfold heatEirT heatCapT
  norm_num

/-- The power at full speed is positive at all temperatures of the season. -/
theorem curve_heat_pos (b : Bool) {Q P v : ℝ} (hP : 0 < P) (hv : 0 ≤ v) : ∀ t ∈ (seasonTemperatures : List ℝ), 0 < (curveHeatTests b Q P v).p t := by
  obtain ⟨⟨a1, a2⟩, ⟨b1, b2⟩, ⟨c1, c2⟩⟩ := curve_values
  intro t ht
  have h1 : -23 ≤ t ∧ t ≤ 62 := Build.season_range t ht
  have hx1 : 0.99 * P < P * (heatEirT 70 47 * heatCapT 70 47) := by nlinarith
  have hx2 : P * (heatEirT 70 47 * heatCapT 70 47) < 1.01 * P := by nlinarith
  have hy1 : 0.93 * P < P * (heatEirT 70 35 * heatCapT 70 35) := by nlinarith
  have hy2 : P * (heatEirT 70 35 * heatCapT 70 35) < 0.94 * P := by nlinarith
  have hz1 : 0.85 * P < P * (heatEirT 70 17 * heatCapT 70 17) := by nlinarith
  have hz2 : P * (heatEirT 70 17 * heatCapT 70 17) < 0.86 * P := by nlinarith
  unfold HeatTests.p curveHeatTests heatingPowerOn
  simp only
  generalize P * (heatEirT (70 : ℝ) 47 * heatCapT 70 47) = x at *
  generalize P * (heatEirT (70 : ℝ) 35 * heatCapT 70 35) = y at *
  generalize P * (heatEirT (70 : ℝ) 17 * heatCapT 70 17) = z at *
  unfold lineAt frosted
  split
  · have e : (x + v - (z + v)) * ((t - 17) / (47 - 17)) = (x - z) * (t - 17) / 30 := by norm_num; ring
    rw [e]
    have : -40 * (x - z) ≤ (x - z) * (t - 17) := by nlinarith
    linarith
  · rename_i hn
    push Not at hn
    have key : ∀ y', 0.92 * P < y' → 0 < z + v + (y' + v - (z + v)) * ((t - 17) / (35 - 17)) := by
      intro y' hy'
      have e : (y' + v - (z + v)) * ((t - 17) / (35 - 17)) = (y' - z) * (t - 17) / 18 := by norm_num; ring
      rw [e]
      have : 0 ≤ (y' - z) * (t - 17) := mul_nonneg (by linarith) (by linarith)
      linarith
    split
    · have e : (y + v - v) * (1 - 0.0087) + v - (z + v) = (y * (1 - 0.0087) + v) - (z + v) := by ring
      rw [e]
      exact key _ (by linarith)
    · exact key _ (by linarith)

/-- C116, 2023 edition: the HSPF2 of a made single-stage unit, from the ratings of its full speed, the fan powers `v` in heating and `v'` in cooling and the published curves. -/
theorem C116_single_hspf (h : ListBuild.build u E T brentq a = .ok B) (hst : B.st = .single) (hd : a.chargeDeviation = 0) (hstd : a.standard = .ahri2023) (hon : a.heatingOn = none) (hcd : 0 ≤ Build.cd a.cdHeating)
    (hcd1 : Build.cd a.cdHeating < 1) {q Q w p P k C v q' Q' w' p' P' k' C' v' : ℝ} (r : HasRatings B.heat a.rh.full q Q w p P k C) (hQC : Q = C * P) (hC : C ≠ 0) (hP : 0 < P)
    (hv : ListBuild.fanPower B.fan B.points.h1Full = .ok v) (hv0 : 0 ≤ v) (r' : HasRatings B.cool a.rc.full q' Q' w' p' P' k' C') (hQC' : Q' = C' * P') (hQ' : 0 < Q') (hP' : 0 < P')
    (hv' : ListBuild.fanPower B.fan B.points.aFull = .ok v') (hq : 0 < coolingOn Q' v' 95) {n : Nat} {design z cx cv : ℝ} {hours : List ℝ} (hr : regionData .ahri2023 n = some (design, hours, some (cx, cv, z)))
    {f : ℝ} (hf : a.defrost.demandCredit u = .ok f) :
    B.hspf u E T n = .ok ((curveHeatTests (a.defrost.inDefrost (frF 35)) Q P v).oneStageSeason (Build.cd a.cdHeating) (toF (DX.offTemperature a.heatingOff .single))
      (heatBuildingLoad z design (cx * coolingOn Q' v' 95)) (seasonTemperatures.zip hours) * f / u.btuh) := by
  obtain ⟨qc, pr, gc, gh, s⟩ := build_steps h
  obtain ⟨pA, -, -, -⟩ := Build.full_points s.points
  have hM := C116_heat_tests (T := T) h hd r hQC hC hv
  have hA := (list_cooling (T := T) h hd r' hQC' hQ' hP' pA hv' (t := 95) rfl (by norm_num)).1
  obtain ⟨r1, r2, -, r3, ⟨m, r4, r5⟩, r6, d, k, e1, e2, e3, e4, e5, e6, -⟩ := Build.region_2023 hr
  obtain ⟨g1, g2, g3, g4, g5, g6⟩ := list_settings h hon
  have hs1 : B.heatSettings.st = .single := hst
  have hfull : 0 < cx * coolingOn Q' v' 95 := by positivity
  have := Build.one_stage_season hM (u := u) (std := .ahri2023) (s := B.heatSettings) (d := d) (f := f) hs1 g1 (by rw [g2]; exact hcd) (by rw [g2]; exact hcd1) (curve_heat_pos _ hP hv0) e3 e2 r3
    (load := heatBuildingLoad z design (cx * coolingOn Q' v' 95)) (fun t => Build.heatBuildingLoad_nonneg r1 hfull.le)
    (C50_load_2023 hA e4 e5 (by rw [hs1, if_neg (by decide)]; exact e6) r1 hfull.le) r4 r5 (Build.heatBuildingLoad_pos r1 hfull (by linarith))
  rw [g2] at this
  have hoff : B.heatSettings.off = DX.offTemperature a.heatingOff .single := by rw [← hst]; exact g3
  rw [hoff] at this
  simp only [ListBuild.Built.hspf, DX.hspf, g4, hstd, e1, g5, hf, bind_ok]
  exact this

/-- C116, 2017 edition: the load follows from the listed design heating requirement nearest to the one of the tested capacity. -/
theorem C116_single_hspf_2017 (h : ListBuild.build u E T brentq a = .ok B) (hst : B.st = .single) (hd : a.chargeDeviation = 0) (hstd : a.standard = .ahri2017) (hon : a.heatingOn = none) (hcd : 0 ≤ Build.cd a.cdHeating)
    (hcd1 : Build.cd a.cdHeating < 1) {q Q w p P k C v : ℝ} (r : HasRatings B.heat a.rh.full q Q w p P k C) (hQC : Q = C * P) (hC : C ≠ 0) (hP : 0 < P)
    (hv : ListBuild.fanPower B.fan B.points.h1Full = .ok v) (hv0 : 0 ≤ v) {n : Nat} {design dhr : ℝ} {hours : List ℝ} (hr : regionData .ahri2017 n = some (design, hours, none))
    (hdhr : IsEarliestNearest (listedRequirements.map (· * 1000 * u.btuh)) (heatingOn Q v 47 * (65 - design) / 60) dhr) {f : ℝ} (hf : a.defrost.demandCredit u = .ok f) :
    B.hspf u E T n = .ok ((curveHeatTests (a.defrost.inDefrost (frF 35)) Q P v).oneStageSeason (Build.cd a.cdHeating) (toF (DX.offTemperature a.heatingOff .single))
      (heatBuildingLoad 65 design (77 / 100 * dhr)) (seasonTemperatures.zip hours) * f / u.btuh) := by
  have hM := C116_heat_tests (T := T) h hd r hQC hC hv
  obtain ⟨r1, r3, ⟨m, r4, r5⟩, d, k, e1, e2, e3, e4⟩ := Build.region_2017 hr
  obtain ⟨g1, g2, g3, g4, g5, g6⟩ := list_settings h hon
  have hs1 : B.heatSettings.st = .single := hst
  obtain ⟨x, hx, hx'⟩ := Props.C03_findNearest_spec (designRequirements u) (heatingOn Q v 47 * (65 - design) / 60) (by rw [Build.designRequirements_list]; simp [listedRequirements])
  have hxd : x = dhr := by rw [Build.designRequirements_list] at hx'; exact C03_nearest_unique _ _ _ _ hx' hdhr
  subst hxd
  have hx0 : 0 < x := by
    obtain ⟨i, hi, e, -⟩ := hx'
    have := (C50_design_requirements u x (e ▸ List.getElem_mem hi)).1
    have hb := u.btuh_pos
    linarith
  have hfull : 0 < 77 / 100 * x := by positivity
  have := Build.one_stage_season hM (u := u) (std := .ahri2017) (s := B.heatSettings) (d := d) (f := f) hs1 g1 (by rw [g2]; exact hcd) (by rw [g2]; exact hcd1) (curve_heat_pos _ hP hv0) e3 e2 r3
    (load := heatBuildingLoad 65 design (77 / 100 * x)) (fun t => Build.heatBuildingLoad_nonneg r1 hfull.le)
    (C50_load_2017 hM.q1 e4 r1 hx hx0.le) r4 r5 (Build.heatBuildingLoad_pos r1 hfull (by norm_num))
  rw [g2] at this
  have hoff : B.heatSettings.off = DX.offTemperature a.heatingOff .single := by rw [← hst]; exact g3
  rw [hoff] at this
  simp only [ListBuild.Built.hspf, DX.hspf, g4, hstd, e1, g5, hf, bind_ok]
  exact this

/-! ## Single-speed units from their arguments -/

/-- The rating pressure of a made unit. -/
theorem list_pressure (h : ListBuild.build u E T brentq a = .ok B) {q : ℝ} {l : List ℝ} (hq : a.cooling = .list (q :: l)) :
    B.sys.fullESP / (0.5 * u.inH2O) = designPressure (decide (a.standard = .ahri2017)) u.btuh a.ducted q := by
  have hI := u.inH2O_pos
  obtain ⟨qc, p, gc, gh, s⟩ := build_steps h
  have hE : B.sys.fullESP = p := by rw [s.sys]; rfl
  have h1 := s.list
  rw [hq] at h1; cases h1
  have h3 := s.pressure
  rw [hE]
  unfold fullFlowPressure at h3
  unfold designPressure pressure2017
  cases hd : a.ducted
  · simp [hd] at h3; simp [← h3]
  · cases hs : a.standard
    · have g : pyGet (q :: l) 0 = Except.ok q := rfl
      simp only [hd, hs, Bool.not_true, Bool.true_eq_false, Bool.false_eq_true, if_false, if_true, g, bind_ok, decide_true, decide_false] at h3 ⊢
      split at h3
      · rename_i h1
        rw [if_pos h1]
        simp only [pure_eq_ok, Except.ok.injEq] at h3
        rw [← h3, mul_div_mul_right _ _ hI.ne']; norm_num
      · rename_i h1
        rw [if_neg h1]
        split at h3
        · rename_i h2
          rw [if_pos h2]
          simp only [pure_eq_ok, Except.ok.injEq] at h3
          rw [← h3, mul_div_mul_right _ _ hI.ne']; norm_num
        · rename_i h2
          rw [if_neg h2]
          simp only [pure_eq_ok, Except.ok.injEq] at h3
          rw [← h3, mul_div_mul_right _ _ hI.ne']; norm_num
    · simp [hd, hs] at h3 ⊢; rw [← h3, div_self (by positivity)]

theorem designPressure_bounds (e : Bool) (btuh : ℝ) (ducted : Bool) (q : ℝ) : 0 ≤ designPressure e btuh ducted q ∧ designPressure e btuh ducted q ≤ 1 := by
  unfold designPressure
  split
  · exact Build.pressure2017_bounds _ _ _
  · split <;> norm_num

/-- A fan draws little against the capacity. -/
theorem list_fan_bounds {psc : Bool} {L q s : ℝ} (hton : 2100 ≤ u.ton) (hq : 0 < q) (hle : q ≤ L) (hs : 0 ≤ s) (hs3 : s ≤ 3) : 0 < unitFan psc u.ton L q s ∧ unitFan psc u.ton L q s < 0.17 * q := by
  have ht := u.ton_pos
  have hL : 0 < L := hq.trans_le hle
  obtain ⟨f1, f2⟩ := Build.fanWatts_bounds (psc := psc) (div_pos hq hL) ((div_le_one hL).2 hle) hs hs3
  unfold unitFan
  have h4 : 400 / u.ton ≤ 400 / 2100 := by
    apply div_le_div_of_nonneg_left <;> linarith
  refine ⟨by positivity, ?_⟩
  calc q * (400 / u.ton) * fanWatts psc (q / L) s ≤ q * (400 / 2100) * 0.843 := by
        apply mul_le_mul (mul_le_mul_of_nonneg_left h4 hq.le) f2 f1.le (by positivity)
    _ < 0.17 * q := by linarith

theorem cooling_values : 0.99 < coolCapT (67 : ℝ) 95 := by
  unfold coolCapT
  norm_num

/-- C116: a single-speed unit from its arguments alone, ducted or not, with either fan motor and in either edition. With `s` the pressure share and `L` the larger capacity, the fan draws `wc` and `wh` when the unit is rated and `vc`
and `vh` in the tests (the same for PSC motors and for the mode of the larger capacity). EER, SEER and HSPF follow from these powers, the capacities, the COPs given and the published curves. -/
theorem C116_single {q h s wc vc wh vh : ℝ} {xc xh : OneCop} (o : OneSpeed a q h xc xh) (f : OwnFan a q h) (hton : 2100 ≤ u.ton) (hE : IndoorAir E) (hbr : a.motorPSC = some false → BrentqSpec brentq)
    (hC : ∀ t, 0 < t → t ≤ 1.2 * q → CoilReturns u E T q t) (hs : s = designPressure (decide (a.standard = .ahri2017)) u.btuh a.ducted q)
    (hwc : wc = unitFan (a.motorPSC.getD true) u.ton (max q h) q s) (hvc : vc = unitFan (a.motorPSC.getD true) u.ton (max q h) q (s * (max q h / q) ^ 2))
    (hwh : wh = unitFan (a.motorPSC.getD true) u.ton (max q h) h s) (hvh : vh = unitFan (a.motorPSC.getD true) u.ton (max q h) h (s * (max q h / h) ^ 2)) :
    ∃ B, ListBuild.build u E T brentq a = .ok B ∧ B.st = .single ∧ OneRatings xc B.cool q (q + wc) wc ∧ OneRatings xh B.heat h (h - wh) wh ∧
      B.eer u E T = .ok (coolingOn (q + wc) vc 95 / coolingPowerOn (xc.power q (q + wc) wc) vc 95 / u.btuh) ∧
      B.seer u E T = .ok ((1 - Build.cd a.cdCooling / 2) * (coolingOn (q + wc) vc 82 / coolingPowerOn (xc.power q (q + wc) wc) vc 82) / u.btuh) ∧
      (a.heatingOn = none → 0 ≤ Build.cd a.cdHeating → Build.cd a.cdHeating < 1 → ∀ (n : Nat) (design f : ℝ) (hours : List ℝ), a.defrost.demandCredit u = .ok f →
        (a.standard = .ahri2023 → ∀ cx cv z : ℝ, regionData .ahri2023 n = some (design, hours, some (cx, cv, z)) →
          B.hspf u E T n = .ok ((curveHeatTests (a.defrost.inDefrost (frF 35)) (h - wh) (xh.power h (h - wh) wh) vh).oneStageSeason (Build.cd a.cdHeating) (toF (DX.offTemperature a.heatingOff .single))
            (heatBuildingLoad z design (cx * coolingOn (q + wc) vc 95)) (seasonTemperatures.zip hours) * f / u.btuh)) ∧
        (a.standard = .ahri2017 → regionData .ahri2017 n = some (design, hours, none) → ∀ dhr,
          IsEarliestNearest (listedRequirements.map (· * 1000 * u.btuh)) (heatingOn (h - wh) vh 47 * (65 - design) / 60) dhr →
          B.hspf u E T n = .ok ((curveHeatTests (a.defrost.inDefrost (frF 35)) (h - wh) (xh.power h (h - wh) wh) vh).oneStageSeason (Build.cd a.cdHeating) (toF (DX.offTemperature a.heatingOff .single))
            (heatBuildingLoad 65 design (77 / 100 * dhr)) (seasonTemperatures.zip hours) * f / u.btuh))) := by
  obtain ⟨q0, h0⟩ := o.pos
  obtain ⟨sz1, sz2⟩ := f.sizes
  have hL : 0 < max q h := lt_max_of_lt_left q0
  have hLq : (max q h / q) ^ 2 ≤ 3 := by
    rw [div_pow, div_le_iff₀ (by positivity)]
    rcases max_cases q h with ⟨e, _⟩ | ⟨e, _⟩ <;> rw [e] <;> nlinarith
  have hLh : (max q h / h) ^ 2 ≤ 3 := by
    rw [div_pow, div_le_iff₀ (by positivity)]
    rcases max_cases q h with ⟨e, _⟩ | ⟨e, _⟩ <;> rw [e] <;> nlinarith
  obtain ⟨s0, s1⟩ := hs ▸ designPressure_bounds (decide (a.standard = Standard.ahri2017)) u.btuh a.ducted q
  have hm : ∀ x : ℝ, 0 ≤ x ^ 2 → x ^ 2 ≤ 3 → 0 ≤ s * x ^ 2 ∧ s * x ^ 2 ≤ 3 := fun x y z => ⟨by positivity, by nlinarith⟩
  obtain ⟨wc0, wc1⟩ := hwc ▸ list_fan_bounds (u := u) (psc := a.motorPSC.getD true) hton q0 (le_max_left q h) s0 (by linarith)
  obtain ⟨vc0, vc1⟩ := hvc ▸ list_fan_bounds (u := u) (psc := a.motorPSC.getD true) hton q0 (le_max_left q h) (hm _ (sq_nonneg _) hLq).1 (hm _ (sq_nonneg _) hLq).2
  obtain ⟨wh0, wh1⟩ := hwh ▸ list_fan_bounds (u := u) (psc := a.motorPSC.getD true) hton h0 (le_max_right q h) s0 (by linarith)
  obtain ⟨vh0, vh1⟩ := hvh ▸ list_fan_bounds (u := u) (psc := a.motorPSC.getD true) hton h0 (le_max_right q h) (hm _ (sq_nonneg _) hLh).1 (hm _ (sq_nonneg _) hLh).2
  obtain ⟨B, w, v, hb, hst, -, -, -, -, r, r'⟩ := C110_single_made (T := T) o f hton hE hbr hC
  have hpsc : defaultMotorPSC B.st = true := by rw [hst]; rfl
  have hbr' : a.motorPSC.getD (defaultMotorPSC B.st) = false → BrentqSpec brentq := by
    rw [hpsc]
    intro e
    apply hbr
    cases hp : a.motorPSC with
    | none => simp [hp] at e
    | some b => simp [hp] at e; rw [e]
  have hx : (a.caps false)[0]? = some q := by simp [Args.caps, o.cooling, makeList]
  have hy : (a.caps true)[0]? = some h := by simp [Args.caps, o.heating]
  have hx' : (a.caps false)[a.coolingFullSpeed]? = some q := by rw [o.full.1]; exact hx
  have hy' : (a.caps true)[a.heatingFullSpeed]? = some h := by rw [o.full.2]; exact hy
  have hp := list_pressure hb (q := q) (l := []) o.cooling
  rw [← hs] at hp
  have ffc : a.full false = 0 := o.full.1
  have ffh : a.full true = 0 := o.full.2
  have lesq : ∀ x, 0 < x → x ≤ max q h → (x / max q h) ^ 2 ≤ 3 := fun x x0 xl => by
    have : x / max q h ≤ 1 := (div_le_one hL).2 xl
    have : 0 ≤ x / max q h := by positivity
    nlinarith
  obtain ⟨fc1, fc2⟩ := C111_fan_power hb f.fan f.airflows hbr' hx' hy' hL false hx hx q0 q0 (lesq _ q0 (le_max_left _ _))
  obtain ⟨fh1, fh2⟩ := C111_fan_power hb f.fan f.airflows hbr' hx' hy' hL true hy hy h0 h0 (lesq _ h0 (le_max_right _ _))
  rw [hpsc, hp] at fc1 fc2 fh1 fh2
  rw [ffc, if_pos rfl, mul_one, ← hwc] at fc1
  rw [ffh, if_pos rfl, mul_one, ← hwh] at fh1
  rw [← hvc] at fc2
  rw [← hvh] at fh2
  obtain ⟨P0, r⟩ := r
  obtain ⟨P0', r'⟩ := r'
  have e1 := r.fan
  have e2 := r'.fan
  simp only [Built.side, Bool.false_eq_true, if_false, if_true] at fc1 fh1
  rw [fc1] at e1; cases e1
  rw [fh1] at e2; cases e2
  obtain ⟨qc, pr, gc, gh, S⟩ := build_steps hb
  obtain ⟨pA, pB, pH, -⟩ := Build.full_points S.points
  have hfc : a.rc.full = 0 := o.full.1
  have hfh : a.rh.full = 0 := o.full.2
  have ratings := And.intro (show OneRatings xc B.cool q (q + wc) wc from ⟨P0, r⟩) (show OneRatings xh B.heat h (h - wh) wh from ⟨P0', r'⟩)
  rw [hfc] at pA pB
  rw [hfh] at pH
  have wA := fc2 pA
  have wB := fc2 pB
  have wH := fh2 pH
  rw [← hfc] at r
  rw [← hfh] at r'
  have Q0 : 0 < q + wc := by linarith
  have Q0' : 0 < h - wh := by linarith
  have QC := (div_mul_cancel₀ (q + wc) P0.ne').symm
  have QC' := (div_mul_cancel₀ (h - wh) P0'.ne').symm
  have C0' : (h - wh) / xh.power h (h - wh) wh ≠ 0 := (div_pos Q0' P0').ne'
  obtain ⟨k1, k2⟩ := C112_ratings (u := u) (T := T) hb o.charge u.btuh_pos.ne' r QC Q0 P0 wA wB vc0.le vc0.le
  have m95 : max (75 : ℝ) 95 = 95 := by norm_num
  have m82 : max (75 : ℝ) 82 = 82 := by norm_num
  refine ⟨B, hb, hst, ratings.1, ratings.2, ?_, ?_, ?_⟩
  · simp only [coolingOn, coolingPowerOn, m95]; exact k1
  · simp only [coolingOn, coolingPowerOn, m82]; rw [k2 hst, S.cd]
  · intro hon hcd hcd1 n design f hours hf
    refine ⟨fun hstd cx cv z hr => ?_, fun hstd hr dhr hdhr => ?_⟩
    · refine C116_single_hspf (T := T) hb hst o.charge hstd hon hcd hcd1 r' QC' C0' P0' wH vh0.le r QC Q0 P0 wA ?_ hr hf
      simp only [coolingOn, m95]
      have := cooling_values
      nlinarith
    · exact C116_single_hspf_2017 (T := T) hb hst o.charge hstd hon hcd hcd1 r' QC' C0' P0' wH vh0.le hr hdhr hf

/-- C116: given a net cooling COP `k`, the EER is `k` to within 10⁻⁵ if the fan motor is a PSC motor, or the cooling capacity is the larger one, or the unit has no ducts. (See `C116_net_cop_refuted` for the rest.) -/
theorem C116_net_cop {q h k : ℝ} {xh : OneCop} (o : OneSpeed a q h (.net k) xh) (f : OwnFan a q h) (hm : a.motorPSC ≠ some false ∨ h ≤ q ∨ a.ducted = false) (hton : 2100 ≤ u.ton) (hE : IndoorAir E)
    (hbr : a.motorPSC = some false → BrentqSpec brentq) (hC : ∀ t, 0 < t → t ≤ 1.2 * q → CoilReturns u E T q t) :
    ∃ B x, ListBuild.build u E T brentq a = .ok B ∧ B.eer u E T = .ok (x / u.btuh) ∧ |x - k| ≤ 1 / 10 ^ 5 * k := by
  by_cases h1 : a.motorPSC ≠ some false ∨ a.ducted = false
  · exact C112_net_cop o f h1 hton hE hbr hC
  · push Not at h1
    have hle : h ≤ q := by
      rcases hm with e | e | e
      · exact absurd h1.1 e
      · exact e
      · exact absurd e h1.2
    obtain ⟨q0, h0⟩ := o.pos
    obtain ⟨k0, -⟩ := o.coolingCop.2
    obtain ⟨B, hb, -, ⟨P0, -⟩, -, he, -⟩ := C116_single (T := T) o f hton hE hbr hC rfl rfl rfl rfl rfl
    rw [max_eq_left hle] at P0
    rw [max_eq_left hle, div_self q0.ne', one_pow, mul_one] at he
    obtain ⟨s0, s1⟩ := designPressure_bounds (decide (a.standard = .ahri2017)) u.btuh a.ducted q
    obtain ⟨w0, w2⟩ := list_fan_bounds (u := u) (psc := a.motorPSC.getD true) hton q0 le_rfl s0 (by linarith)
    refine ⟨B, _, hb, he, ?_⟩
    generalize unitFan (a.motorPSC.getD true) u.ton q q (designPressure (decide (a.standard = .ahri2017)) u.btuh a.ducted q) = w at *
    simp only [coolingOn, coolingPowerOn, show max (75 : ℝ) 95 = 95 by norm_num]
    exact net_cop_close q0 k0 w0 w2.le P0

/-- C116: otherwise the fan is rated at less pressure than it is tested at and the EER falls short of the net COP given. -/
theorem C116_net_cop_short {q h k : ℝ} {xh : OneCop} (o : OneSpeed a q h (.net k) xh) (f : OwnFan a q h) (hp : a.motorPSC = some false) (hd : a.ducted = true) (hstd : a.standard = .ahri2023) (hle : q ≤ h)
    (hton : 2100 ≤ u.ton) (hE : IndoorAir E) (hbr : BrentqSpec brentq) (hC : ∀ t, 0 < t → t ≤ 1.2 * q → CoilReturns u E T q t) :
    ∃ B x, ListBuild.build u E T brentq a = .ok B ∧ B.eer u E T = .ok (x / u.btuh) ∧ x ≤ k * (1 + 1 / 10 ^ 5 - 44 / u.ton * (1 - (q / h) ^ 2)) := by
  obtain ⟨q0, h0⟩ := o.pos
  obtain ⟨k0, -⟩ := o.coolingCop.2
  have ht := u.ton_pos
  have hs : (1 : ℝ) = designPressure (decide (a.standard = .ahri2017)) u.btuh a.ducted q := by simp [designPressure, hd, hstd]
  obtain ⟨B, hb, -, ⟨P0, -⟩, -, he, -⟩ := C116_single (T := T) o f hton hE (fun _ => hbr) hC hs rfl rfl rfl rfl
  rw [max_eq_right hle] at P0 he
  simp only [hp, Option.getD_some, one_mul] at P0 he
  refine ⟨B, _, hb, he, ?_⟩
  simp only [coolingOn, coolingPowerOn, show max (75 : ℝ) 95 = 95 by norm_num]
  obtain ⟨w0, w2⟩ := list_fan_bounds (u := u) (psc := false) (s := 1) hton q0 hle (by norm_num) (by norm_num)
  have hr : 0 < q / h := by positivity
  have hr1 : q / h ≤ 1 := (div_le_one h0).2 hle
  have hδ : q * (44 / u.ton * (1 - (q / h) ^ 2)) ≤ unitFan false u.ton h q ((h / q) ^ 2) - unitFan false u.ton h q 1 := by
    have g1 : (q / h) ^ (2 : ℝ) ≤ (q / h) ^ (1.75 : ℝ) := Real.rpow_le_rpow_of_exponent_ge hr hr1 (by norm_num)
    rw [Real.rpow_two] at g1
    have g2 : (h / q) ^ 2 = 1 / (q / h) ^ 2 := by field_simp
    unfold unitFan fanWatts
    simp only [Bool.false_eq_true, if_false]
    rw [g2]
    generalize (q / h) ^ (1.75 : ℝ) = y at *
    generalize q / h = r at *
    have e : q * (44 / u.ton * (1 - r ^ 2)) = q * (400 / u.ton) * (0.11 * (1 - r ^ 2)) := by ring
    rw [e, ← mul_sub]
    apply mul_le_mul_of_nonneg_left _ (by positivity)
    have h2 : 0 < r ^ 2 := by positivity
    have h3 : r ^ 2 ≤ 1 := by nlinarith
    have h4 : 0 ≤ 1 / r ^ 2 - 1 := by rw [sub_nonneg, le_div_iff₀ h2]; linarith
    have h5 : 0.11 * r ^ 2 * (1 / r ^ 2 - 1) ≤ (0.281 * y - 0.171 * r ^ 2) * (1 / r ^ 2 - 1) := mul_le_mul_of_nonneg_right (by linarith) h4
    have h6 : 0.11 * r ^ 2 * (1 / r ^ 2 - 1) = 0.11 * (1 - r ^ 2) := by field_simp
    linarith
  have hδ0 : 0 ≤ 44 / u.ton * (1 - (q / h) ^ 2) := by
    have : (q / h) ^ 2 ≤ 1 := by nlinarith
    have : 0 ≤ 1 - (q / h) ^ 2 := by linarith
    positivity
  have hδ1 : 44 / u.ton * (1 - (q / h) ^ 2) ≤ 1 := by
    have : 44 / u.ton ≤ 1 := by rw [div_le_one ht]; linarith
    have h3 : 1 - (q / h) ^ 2 ≤ 1 := by linarith [sq_nonneg (q / h)]
    have h4 : 0 ≤ 44 / u.ton := by positivity
    nlinarith
  simp only [OneCop.power] at P0 ⊢
  generalize unitFan false u.ton h q ((h / q) ^ 2) = v at *
  generalize unitFan false u.ton h q 1 = w at *
  generalize 44 / u.ton * (1 - (q / h) ^ 2) = d at *
  obtain ⟨c1, c2, -⟩ := C74_rated (K := ℝ)
  have c3 := two_factors c1 c2 (by norm_num)
  generalize coolCapT (67 : ℝ) 95 = s at *
  generalize coolEirT (67 : ℝ) 95 * s = t at *
  rw [abs_le] at c1 c3
  have hqd : 0 ≤ q * d := by positivity
  obtain ⟨p, hp'⟩ : ∃ p, p = q / k := ⟨_, rfl⟩
  have hq : q = k * p := by rw [hp']; field_simp
  rw [← hp'] at P0 ⊢
  have hpw : 0 < p := by linarith
  have hD : 0 < (p - w) * t + v := by
    have : 0 < t := by linarith [c3.1]
    have : 0 < (p - w) * t := by positivity
    linarith
  have hD' : p * (1 - 5 / 10 ^ 6) ≤ (p - w) * t + v := by nlinarith [mul_le_mul_of_nonneg_left c3.1 P0.le]
  have e1 : (q + w) * s - v ≤ q * (1 + 2.34 / 10 ^ 6) - q * d := by nlinarith [mul_le_mul_of_nonneg_left c1.2 (by linarith : 0 ≤ q + w)]
  rw [div_le_iff₀ hD]
  have hk : 0 ≤ k * (1 + 1 / 10 ^ 5 - d) := mul_nonneg k0.le (by linarith)
  have e2 := mul_le_mul_of_nonneg_left hD' hk
  have e3 : q * (1 + 2.34 / 10 ^ 6) - q * d ≤ k * (1 + 1 / 10 ^ 5 - d) * (p * (1 - 5 / 10 ^ 6)) := by
    rw [show k * (1 + 1 / 10 ^ 5 - d) * (p * (1 - 5 / 10 ^ 6)) = q * ((1 + 1 / 10 ^ 5 - d) * (1 - 5 / 10 ^ 6)) by rw [hq]; ring, ← mul_sub]
    apply mul_le_mul_of_nonneg_left _ q0.le
    nlinarith
  linarith

/-! ## Examples -/

/-- The terminal heat pump of the examples of C110 has an EER, a SEER and, in region 4 of the 2017 edition, an HSPF. -/
example (brentq : Brentq) : ∃ B x y z, ListBuild.build Sample.units Sample.env Sample.tools brentq pthpArgs = .ok B ∧ B.eer Sample.units Sample.env Sample.tools = .ok x ∧
    B.seer Sample.units Sample.env Sample.tools = .ok y ∧ B.hspf Sample.units Sample.env Sample.tools 4 = .ok z := by
  obtain ⟨B, hb, -, -, -, h1, h2, h3⟩ := C116_single (u := Sample.units) (T := Sample.tools) (brentq := brentq) pthp_one pthp_own (by norm_num [Sample.units]) Sample.indoorAir (by simp [pthpArgs])
    (fun t h1 h2 => Sample.coilReturns' (by norm_num) h1 h2) rfl rfl rfl rfl rfl
  obtain ⟨d, -, hd⟩ := Props.C03_findNearest_spec (listedRequirements.map (· * 1000 * Sample.units.btuh)) (heatingOn (2344 - _) _ 47 * (65 - 5) / 60) (by simp [listedRequirements])
  exact ⟨B, _, _, _, hb, h1, h2, (h3 rfl (by norm_num [Build.cd, pthpArgs]) (by norm_num [Build.cd, pthpArgs]) 4 5 1 _ rfl).2 rfl rfl d hd⟩

/-- A ducted unit with a BPM motor which heats half as much again as it cools. -/
noncomputable def coldArgs : ListBuild.Args :=
  { cooling := .list [8000], heating := [12000], ducted := true, standard := .ahri2023, motorPSC := some false, defrost := Sample.oneArgs.defrost, netCoolingCop := some (.list [3.5]), netHeatingCop := some (.list [3.4])
    grossCoolingCop := none, grossHeatingCop := none }

theorem cold_one : OneSpeed coldArgs 8000 12000 (.net 3.5) (.net 3.4) :=
  ⟨rfl, rfl, .inl rfl, ⟨rfl, rfl⟩, rfl, ⟨⟨.inr rfl, rfl⟩, by simp only [OneCop.Fits]; norm_num⟩, ⟨⟨.inr rfl, rfl⟩, by simp only [OneCop.Fits]; norm_num⟩, by norm_num⟩

theorem cold_own : OwnFan coldArgs 8000 12000 := ⟨⟨rfl, rfl⟩, rfl, by norm_num⟩

/-- It has an HSPF2 in region 4. -/
example {brentq : Brentq} (hbr : BrentqSpec brentq) : ∃ B z, ListBuild.build Sample.units Sample.env Sample.tools brentq coldArgs = .ok B ∧ B.hspf Sample.units Sample.env Sample.tools 4 = .ok z := by
  obtain ⟨B, hb, -, -, -, h1, h2, h3⟩ := C116_single (u := Sample.units) (T := Sample.tools) (brentq := brentq) cold_one cold_own (by norm_num [Sample.units]) Sample.indoorAir (fun _ => hbr)
    (fun t h1 h2 => Sample.coilReturns' (by norm_num) h1 h2) rfl rfl rfl rfl rfl
  exact ⟨B, _, hb, (h3 rfl (by norm_num [Build.cd, coldArgs]) (by norm_num [Build.cd, coldArgs]) 4 5 1 _ rfl).1 rfl _ _ _ rfl⟩

/-- C116 refuted: "the EER of a single-speed unit made with a net cooling COP is that COP". That of this unit falls short by more than 0.6 %. -/
theorem C116_net_cop_refuted {brentq : Brentq} (hbr : BrentqSpec brentq) : ∃ B x, ListBuild.build Sample.units Sample.env Sample.tools brentq coldArgs = .ok B ∧
    B.cool.netCop[0]? = some (some (3.5 : ℝ)) ∧ B.eer Sample.units Sample.env Sample.tools = .ok (x / Sample.units.btuh) ∧ x ≤ 0.994 * 3.5 := by
  obtain ⟨B, x, hb, h1, h2⟩ := C116_net_cop_short (u := Sample.units) (T := Sample.tools) (brentq := brentq) cold_one cold_own rfl rfl rfl (by norm_num) (by norm_num [Sample.units]) Sample.indoorAir hbr
    (fun t h1 h2 => Sample.coilReturns' (by norm_num) h1 h2)
  obtain ⟨B', hb', -, r, -⟩ := C116_single (u := Sample.units) (T := Sample.tools) (brentq := brentq) cold_one cold_own (by norm_num [Sample.units]) Sample.indoorAir (fun _ => hbr)
    (fun t h1 h2 => Sample.coilReturns' (by norm_num) h1 h2) rfl rfl rfl rfl rfl
  rw [hb] at hb'; cases hb'
  refine ⟨B, x, hb, ?_, h1, h2.trans ?_⟩
  · refine r.cop (by norm_num) ?_ cold_one.coolingCop.2
    have := (list_fan_bounds (u := Sample.units) (psc := coldArgs.motorPSC.getD true) (L := max 8000 12000) (q := 8000) (s := designPressure (decide (coldArgs.standard = Standard.ahri2017)) Sample.units.btuh coldArgs.ducted 8000)
      (by norm_num [Sample.units]) (by norm_num) (by norm_num) (designPressure_bounds _ _ _ _).1 ((designPressure_bounds _ _ _ _).2.trans (by norm_num))).1
    linarith
  · norm_num [Sample.units]

end Resdx.Props
