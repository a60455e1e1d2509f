import Verif.Props.ListMade
import Verif.Props.CoolingTwo

/-!
# C116: seasonal ratings of two-stage and variable-speed units made from lists
-/

set_option linter.unusedSectionVars false
set_option linter.unusedSimpArgs false

namespace Resdx.Props

open Spec BaseModel Tabular ResnetFan Fan ListBuild UnitBuild DX
open Build (IndoorAir CoilReturns ratedShr shrAt_rated RatedCond fullESP_ok start_airflow')

variable {u : Units ℝ} {E : Env ℝ} {T : Coil.Tools} {brentq : Brentq} {a : ListBuild.Args} {B : ListBuild.Built}

theorem list_cooling_settings (h : ListBuild.build u E T brentq a = .ok B) : B.cdCooling = Build.cd a.cdCooling ∧ B.cycling = a.cycling := by
  unfold ListBuild.build at h
  simp only [bind_eq_ok] at h
  obtain ⟨st, h1, qc, h2, p, h3, f, h4, _, h5, gc, h6, gh, h7, cr, h8, P, h9, coil, h10, ⟨c, h'⟩, h11, _, h12, h13⟩ := h
  simp only [pure_eq_ok, Except.ok.injEq] at h13
  exact ⟨by rw [← h13], by rw [← h13]⟩

/-- C116: the SEER of a two-stage unit made from lists, from the gross ratings of its stages and its fan powers in the tests. -/
theorem C116_two_seer (h : ListBuild.build u E T brentq a = .ok B) (hst : B.st = .two) (hd : a.chargeDeviation = 0) (hcd : 0 ≤ Build.cd a.cdCooling) (hcd1 : Build.cd a.cdCooling < 1) {j : Nat} (hj : a.rc.low = some j)
    {q Q w p P k C v q' Q' w' p' P' k' C' v' : ℝ} (r : HasRatings B.cool a.rc.full q Q w p P k C) (hQC : Q = C * P) (hQ : 0 < Q) (hP : 0 < P) (hv : ListBuild.fanPower B.fan B.points.aFull = .ok v)
    (r' : HasRatings B.cool j q' Q' w' p' P' k' C') (hQC' : Q' = C' * P') (hQ' : 0 < Q') (hP' : 0 < P') (hv' : ∀ c, B.points.bLow = some c → ListBuild.fanPower B.fan c = .ok v') :
    let tests := curveCoolTests Q P v Q' P' v' 0 0 0
    0 ≤ tests.qA → (∀ t ∈ (coolingSeason : List (ℝ × ℝ)).map Prod.fst, 0 < tests.qLow t ∧ tests.qLow t ≤ tests.qFull t) →
    CoolTests.total (fun t => twoStageRate (Build.cd a.cdCooling) (decide (a.cycling = .lowFull)) (tests.qLow t) (tests.pLow t) (tests.qFull t) (tests.pFull t) (tests.load t)) coolingSeason ≠ 0 →
    B.seer u E T = .ok (tests.twoStageSeason (Build.cd a.cdCooling) (decide (a.cycling = .lowFull)) / u.btuh) := by
  intro tests hA ho hE
  have M : CoolMatch (B.unit E T) B.points tests := C116_cool_tests h (by rw [hst]; decide) hd hj r hQC hQ hP hv r' hQC' hQ' hP' hv' 0 0 0
  obtain ⟨z1, z2⟩ := list_cooling_settings h
  set rate := fun t => twoStageRate (Build.cd a.cdCooling) (decide (a.cycling = .lowFull)) (tests.qLow t) (tests.pLow t) (tests.qFull t) (tests.pFull t) (tests.load t) with hrate
  have key := C46_two_stage_seer M hcd hcd1 hA u a.cycling coolingBins (by
      rw [Build.season_bins]
      intro b hb
      obtain ⟨b', hb', rfl⟩ := List.mem_map.1 hb
      simp only [toF_frF]
      exact ho _ (List.mem_map.2 ⟨b', hb', rfl⟩)) _ rfl ((Build.total_season rate).symm ▸ hE)
  unfold Built.seer
  rw [hst, z1, z2, key, Build.total_season tests.delivered]
  congr 3
  exact Build.total_season rate

/-- C116: the SEER of a variable-speed unit made from lists. -/
theorem C116_variable_seer (h : ListBuild.build u E T brentq a = .ok B) (hst : B.st = .varSpeed) (hd : a.chargeDeviation = 0) (hcd : 0 ≤ Build.cd a.cdCooling) (hcd1 : Build.cd a.cdCooling < 1) {j : Nat}
    (hj : a.rc.low = some j) {q Q w p P k C v q' Q' w' p' P' k' C' v' qi Qi wi pi Pi ki Ci vi : ℝ} (r : HasRatings B.cool a.rc.full q Q w p P k C) (hQC : Q = C * P) (hQ : 0 < Q) (hP : 0 < P)
    (hv : ListBuild.fanPower B.fan B.points.aFull = .ok v) (r' : HasRatings B.cool j q' Q' w' p' P' k' C') (hQC' : Q' = C' * P') (hQ' : 0 < Q') (hP' : 0 < P')
    (hv' : ∀ c, B.points.bLow = some c → ListBuild.fanPower B.fan c = .ok v') (ri : HasRatings B.cool a.rc.intermediate qi Qi wi pi Pi ki Ci) (hQCi : Qi = Ci * Pi) (hQi : 0 < Qi) (hPi : 0 < Pi)
    (hvi : ∀ c, B.points.eInt = some c → ListBuild.fanPower B.fan c = .ok vi) :
    let tests := curveCoolTests Q P v Q' P' v' Qi Pi vi
    0 ≤ tests.qA →
    (∀ t ∈ (coolingSeason : List (ℝ × ℝ)).map Prod.fst, 0 < tests.qLow t ∧ tests.qLow t ≤ tests.qInt t ∧ tests.qInt t < tests.qFull t ∧ 0 < tests.pLow t ∧ 0 < tests.pInt t ∧ 0 < tests.pFull t) →
    tests.qLow 87 < tests.qFull 87 → tests.pFull 87 ≠ tests.pLow 87 →
    CoolTests.total (fun t => varSpeedRate (Build.cd a.cdCooling) (tests.qLow t) (tests.pLow t) (tests.qInt t) (tests.pInt t) (tests.qFull t) (tests.pFull t) (tests.load t)) coolingSeason ≠ 0 →
    B.seer u E T = .ok (tests.variableSeason (Build.cd a.cdCooling) / u.btuh) := by
  intro tests hA ho hq87 hp87 hE
  have M : CoolMatch (B.unit E T) B.points tests := C116_cool_tests h (by rw [hst]; decide) hd hj r hQC hQ hP hv r' hQC' hQ' hP' hv' _ _ _
  have hI : CoolMatch.Int (B.unit E T) B.points tests := C116_intermediate_test h hst hd ri hQCi hQi hPi hvi _ _ _ _ _ _
  obtain ⟨z1, z2⟩ := list_cooling_settings h
  set rate := fun t => varSpeedRate (Build.cd a.cdCooling) (tests.qLow t) (tests.pLow t) (tests.qInt t) (tests.pInt t) (tests.qFull t) (tests.pFull t) (tests.load t) with hrate
  have key := C46_variable_speed_seer M hcd hcd1 hA u a.cycling coolingBins hI (sub_ne_zero.2 hq87.ne') (sub_ne_zero.2 hp87) (by
      rw [Build.season_bins]
      intro b hb
      obtain ⟨b', hb', rfl⟩ := List.mem_map.1 hb
      simp only [toF_frF]
      exact ho _ (List.mem_map.2 ⟨b', hb', rfl⟩)) _ rfl ((Build.total_season rate).symm ▸ hE)
  unfold Built.seer
  rw [hst, z1, z2, key, Build.total_season tests.delivered]
  congr 3
  exact Build.total_season rate

/-! ## Heating -/

theorem list_std (B : ListBuild.Built) (n : Nat) (h : B.standard = .ahri2023) : B.hspf u E T n = DX.hspf (B.unit E T) B.points u .ahri2023 B.heatSettings B.sys.defrost n := by
  unfold Built.hspf
  rw [h]

/-- C116: the HSPF2 of a two-stage unit made from lists. -/
theorem C116_two_hspf (h : ListBuild.build u E T brentq a = .ok B) (hst : B.st = .two) (hd : a.chargeDeviation = 0) (hstd : a.standard = .ahri2023) (hon : a.heatingOn = none) (hcyc : a.cycling = .lowFull)
    (hcd : 0 ≤ Build.cd a.cdHeating) (hcd1 : Build.cd a.cdHeating < 1) {j : Nat} (hj : a.rh.low = some j) {q Q w p P k C v q' Q' w' p' P' k' C' v' qc Qc wc pc Pc kc Cc vc : ℝ}
    (r : HasRatings B.heat a.rh.full q Q w p P k C) (hQC : Q = C * P) (hC : C ≠ 0) (hv : ListBuild.fanPower B.fan B.points.h1Full = .ok v)
    (r' : HasRatings B.heat j q' Q' w' p' P' k' C') (hQC' : Q' = C' * P') (hC' : C' ≠ 0) (hv' : ∀ c, B.points.h1Low = some c → ListBuild.fanPower B.fan c = .ok v')
    (rc : HasRatings B.cool a.rc.full qc Qc wc pc Pc kc Cc) (hQCc : Qc = Cc * Pc) (hQc : 0 < Qc) (hPc : 0 < Pc) (hvc : ListBuild.fanPower B.fan B.points.aFull = .ok vc)
    {n : Nat} {design z cx cv : ℝ} {hours : List ℝ} (hr : regionData .ahri2023 n = some (design, hours, some (cx, cv, z))) {f : ℝ} (hf : a.defrost.demandCredit u = .ok f) :
    let T' := curveHeatTests (a.defrost.inDefrost (frF 35)) Q P v
    let TL := curveLowTests (a.defrost.inDefrost (frF 35)) Q' P' v'
    let load := heatBuildingLoad z design (cx * coolingOn Qc vc 95)
    let off := toF (DX.offTemperature a.heatingOff .two)
    0 < coolingOn Qc vc 95 → (∀ t ∈ (seasonTemperatures : List ℝ), 0 < T'.p t ∧ 0 < TL.p t ∧ 0 < TL.q t) →
    (∀ t ∈ (seasonTemperatures : List ℝ), load t ≤ TL.q t → off < t ∧ TL.p t ≤ TL.q t) → load 62 ≤ TL.q 62 →
    B.hspf u E T n = .ok (T'.twoStageSeason TL (Build.cd a.cdHeating) off load (seasonTemperatures.zip hours) * f / u.btuh) := by
  intro T' TL load off hq hp hlow h62
  have hns : B.st ≠ .single := by rw [hst]; decide
  obtain ⟨qc, pr, gc, gh, s⟩ := build_steps h
  obtain ⟨pA, -, -, -⟩ := Build.full_points s.points
  have hM := C116_heat_tests (T := T) h hd r hQC hC hv
  have hN := C116_low_tests (T := T) h hns hd hj r' hQC' hC' hv'
  have hA := (list_cooling (T := T) h hd rc hQCc hQc hPc pA hvc (t := 95) rfl (by norm_num)).1
  obtain ⟨r1, r2, -, r3, ⟨m, r4, r5⟩, r6, d, k, e1, e2, e3, e4, e5, e6, -⟩ := Build.region_2023 hr
  obtain ⟨g1, g2, g3, g4, g5, g6⟩ := list_settings h hon
  have hs1 : B.heatSettings.st = .two := hst
  have hoff : B.heatSettings.off = DX.offTemperature a.heatingOff .two := by rw [← hst]; exact g3
  have hfull : 0 < cx * coolingOn Qc vc 95 := by positivity
  have := Build.two_stage_season hM hN (u := u) (std := .ahri2023) (s := B.heatSettings) (d := d) (f := f) hs1 (g6.trans hcyc) g1 (by rw [g2]; exact hcd) (by rw [g2]; exact hcd1) hp e3 e2 r3
    (load := load) (fun t => Build.heatBuildingLoad_nonneg r1 hfull.le)
    (C50_load_2023 hA e4 e5 (by rw [hs1]; exact e6) r1 hfull.le) (by rw [hoff]; exact hlow) h62 r4 r5 (Build.heatBuildingLoad_pos r1 hfull r6)
  rw [g2, hoff] at this
  rw [list_std B n (g4.trans hstd), g5]
  simp only [DX.hspf, e1, hf, bind_ok]
  exact this

/-- C116: the tests of a variable-speed unit at intermediate speed and at 5 °F. -/
theorem C116_cold_tests (h : ListBuild.build u E T brentq a = .ok B) (hst : B.st = .varSpeed) (hd : a.chargeDeviation = 0) {q Q w p P k C v qi Qi wi pi Pi ki Ci vi : ℝ}
    (r : HasRatings B.heat a.rh.full q Q w p P k C) (hQC : Q = C * P) (hC : C ≠ 0) (hv : ListBuild.fanPower B.fan B.points.h1Full = .ok v)
    (ri : HasRatings B.heat a.rh.intermediate qi Qi wi pi Pi ki Ci) (hQCi : Qi = Ci * Pi) (hCi : Ci ≠ 0) (hvi : ∀ c, B.points.h2Int = some c → ListBuild.fanPower B.fan c = .ok vi) :
    HeatIntMatch (B.unit E T) B.points (frosted (a.defrost.inDefrost (frF 35)) 0.0522 vi (heatingOn Qi vi 35)) (frosted (a.defrost.inDefrost (frF 35)) 0.0087 vi (heatingPowerOn Pi vi 35)) (heatingOn Q v 5)
      (heatingPowerOn P v 5) := by
  obtain ⟨qc, pr, gc, gh, s⟩ := build_steps h
  obtain ⟨-, -, p1, -⟩ := Build.full_points s.points
  obtain ⟨-, p5⟩ := Build.frost_points s.points
  obtain ⟨-, h2, -, e2, -, e4⟩ := Build.int_points s.points hst
  obtain ⟨-, -, -, b4⟩ := list_heating (T := T) h hd ri hQCi hCi e4 (hvi _ e2) (t := 35) rfl
  obtain ⟨c1, c2, c3, -⟩ := list_heating (T := T) h hd r hQC hC p5 (by rw [fan_same p1 p5]; exact hv) (t := 5) rfl
  obtain ⟨b1, b2⟩ := b4 rfl
  exact ⟨⟨h2, e2, b1, b2⟩, c1, c2, c3⟩

/-- C116: the HSPF2 of a variable-speed unit made from lists. -/
theorem C116_variable_hspf (h : ListBuild.build u E T brentq a = .ok B) (hst : B.st = .varSpeed) (hd : a.chargeDeviation = 0) (hstd : a.standard = .ahri2023) (hon : a.heatingOn = none)
    (hcd : 0 ≤ Build.cd a.cdHeating) (hcd1 : Build.cd a.cdHeating < 1) {j : Nat} (hj : a.rh.low = some j) {q Q w p P k C v q' Q' w' p' P' k' C' v' qi Qi wi pi Pi ki Ci vi qc Qc wc pc Pc kc Cc vc : ℝ}
    (r : HasRatings B.heat a.rh.full q Q w p P k C) (hQC : Q = C * P) (hC : C ≠ 0) (hv : ListBuild.fanPower B.fan B.points.h1Full = .ok v)
    (r' : HasRatings B.heat j q' Q' w' p' P' k' C') (hQC' : Q' = C' * P') (hC' : C' ≠ 0) (hv' : ∀ c, B.points.h1Low = some c → ListBuild.fanPower B.fan c = .ok v')
    (ri : HasRatings B.heat a.rh.intermediate qi Qi wi pi Pi ki Ci) (hQCi : Qi = Ci * Pi) (hCi : Ci ≠ 0) (hvi : ∀ c, B.points.h2Int = some c → ListBuild.fanPower B.fan c = .ok vi)
    (rc : HasRatings B.cool a.rc.full qc Qc wc pc Pc kc Cc) (hQCc : Qc = Cc * Pc) (hQc : 0 < Qc) (hPc : 0 < Pc) (hvc : ListBuild.fanPower B.fan B.points.aFull = .ok vc)
    {n : Nat} {design z cx cv : ℝ} {hours : List ℝ} (hr : regionData .ahri2023 n = some (design, hours, some (cx, cv, z))) {f : ℝ} (hf : a.defrost.demandCredit u = .ok f) :
    let T' := curveVariableTests (a.defrost.inDefrost (frF 35)) Q P v Q' P' v' Qi Pi vi
    let load := heatBuildingLoad z design (cv * coolingOn Qc vc 95)
    let off := toF (DX.offTemperature a.heatingOff .varSpeed)
    0 < coolingOn Qc vc 95 → T'.full.q2 ≠ T'.qLow 35 → T'.full.p2 ≠ T'.pLow 35 →
    (∀ t ∈ (seasonTemperatures : List ℝ), T'.qLow t ≠ 0 ∧ T'.pLow t ≠ 0 ∧ T'.pInt t ≠ 0 ∧ T'.full.p t ≠ 0 ∧ (T'.qLow t < load t → load t < T'.full.q t → T'.cop load t ≠ 0)) →
    CoolTests.total (T'.energy (Build.cd a.cdHeating) off load) (seasonTemperatures.zip hours) + CoolTests.total (T'.resistance off load) (seasonTemperatures.zip hours) ≠ 0 →
    B.hspf u E T n = .ok (T'.season (Build.cd a.cdHeating) off load (seasonTemperatures.zip hours) * f / u.btuh) := by
  intro T' load off hq hq2 hp2 hne hD
  have hns : B.st ≠ .single := by rw [hst]; decide
  obtain ⟨qc, pr, gc, gh, s⟩ := build_steps h
  obtain ⟨pA, -, -, -⟩ := Build.full_points s.points
  have hM := C116_heat_tests (T := T) h hd r hQC hC hv
  have hN := C116_low_tests (T := T) h hns hd hj r' hQC' hC' hv'
  have hI := C116_cold_tests (T := T) h hst hd r hQC hC hv ri hQCi hCi hvi
  have hA := (list_cooling (T := T) h hd rc hQCc hQc hPc pA hvc (t := 95) rfl (by norm_num)).1
  obtain ⟨r1, -, r2, r3, ⟨m, r4, r5⟩, r6, d, k, e1, e2, e3, e4, e5, -, e6⟩ := Build.region_2023 hr
  obtain ⟨g1, g2, g3, g4, g5, g6⟩ := list_settings h hon
  have hs1 : B.heatSettings.st = .varSpeed := hst
  have hoff : B.heatSettings.off = DX.offTemperature a.heatingOff .varSpeed := by rw [← hst]; exact g3
  have hfull : 0 < cv * coolingOn Qc vc 95 := mul_pos r2 hq
  have := Build.variable_season (T := T') hM hN.toHeatLowMatch hI hq2 hp2 (u := u) (std := .ahri2023) (s := B.heatSettings) (d := d) (f := f) hs1 g1 (by rw [g2]; exact hcd) (by rw [g2]; exact hcd1) e3 e2
    (load := load) (C50_load_2023 hA e4 e5 (by rw [hs1]; exact e6) r1 hfull.le) hne (by rw [g2, hoff]; exact hD)
  rw [g2, hoff] at this
  rw [list_std B n (g4.trans hstd), g5]
  simp only [DX.hspf, e1, hf, bind_ok]
  exact this

/-! ## Two-stage units from their arguments -/

theorem pLow_eq (T : CoolTests ℝ) (t : ℝ) : T.qLow t = T.qFl + (T.qBl - T.qFl) * ((t - 67) / 15) ∧ T.pLow t = T.pFl + (T.pBl - T.pFl) * ((t - 67) / 15) ∧ T.qFull t = T.qB + (T.qA - T.qB) * ((t - 82) / 13) ∧
    T.pFull t = T.pB + (T.pA - T.pB) * ((t - 82) / 13) := by
  unfold CoolTests.qLow CoolTests.pLow CoolTests.qFull CoolTests.pFull lineAt
  norm_num

/-- A line that is positive at two temperatures is positive between them. -/
theorem line_pos {A B t lo hi : ℝ} (h : lo ≤ t) (h' : t ≤ hi) (h1 : 0 < A + B * lo) (h2 : 0 < A + B * hi) : 0 < A + B * t := by
  rcases le_total 0 B with hB | hB
  · nlinarith
  · nlinarith

theorem season_bounds : ∀ t ∈ (coolingSeason : List (ℝ × ℝ)).map Prod.fst, 67 ≤ t ∧ t ≤ 102 := by
  simp only [coolingSeason, List.map_cons, List.map_nil, List.forall_mem_cons, List.not_mem_nil, false_imp_iff, implies_true, and_true]
  norm_num

/-- In cooling, the low stage delivers something and less than the high stage, in all bins. -/
theorem two_cool_order {q q' w v w' : ℝ} (P P' : ℝ) (h0 : 0 < q') (hle : q' ≤ 0.88 * q) (w0 : 0 ≤ w) (w1 : w ≤ 0.17 * q) (v0 : w ≤ v) (v1 : v ≤ w + 0.044 * q) (w0' : 0 ≤ w') (w1' : w' ≤ 0.17 * q') :
    let T := curveCoolTests (q + w) P v (q' + w') P' w' 0 0 0
    ∀ t ∈ (coolingSeason : List (ℝ × ℝ)).map Prod.fst, 0 < T.qLow t ∧ T.qLow t ≤ T.qFull t ∧ (0 < P → 0 < P' → 0 < T.pLow t ∧ 0 < T.pFull t) := by
  intro T t ht
  have c82 : coolCapT (67 : ℝ) (max 75 82) = 1.068616725 := by unfold coolCapT; norm_num
  have c75 : coolCapT (67 : ℝ) (max 75 67) = 1.103771803 := by unfold coolCapT; norm_num
  have c95 : coolCapT (67 : ℝ) (max 75 95) = 0.999998643 := by unfold coolCapT; norm_num
  have e82 : 0.859 < coolEirT (67 : ℝ) (max 75 82) * coolCapT 67 (max 75 82) ∧ coolEirT (67 : ℝ) (max 75 82) * coolCapT 67 (max 75 82) < 0.86 := by unfold coolEirT coolCapT; norm_num
  have e75 : 0.799 < coolEirT (67 : ℝ) (max 75 67) * coolCapT 67 (max 75 67) ∧ coolEirT (67 : ℝ) (max 75 67) * coolCapT 67 (max 75 67) < 0.8 := by unfold coolEirT coolCapT; norm_num
  have e95 : 1 < coolEirT (67 : ℝ) (max 75 95) * coolCapT 67 (max 75 95) ∧ coolEirT (67 : ℝ) (max 75 95) * coolCapT 67 (max 75 95) < 1.01 := by unfold coolEirT coolCapT; norm_num
  obtain ⟨l1, l2, l3, l4⟩ := pLow_eq T t
  rw [l1, l2, l3, l4]
  simp only [T, curveCoolTests, coolingOn, coolingPowerOn]
  generalize coolEirT (67 : ℝ) (max 75 82) * coolCapT 67 (max 75 82) = k82 at *
  generalize coolEirT (67 : ℝ) (max 75 67) * coolCapT 67 (max 75 67) = k75 at *
  generalize coolEirT (67 : ℝ) (max 75 95) * coolCapT 67 (max 75 95) = k95 at *
  rw [c82, c75, c95]
  have hpow : 0 < P → 0 < P' → (0.859 * P < P * k82 ∧ P * k82 < 0.86 * P) ∧ (0.859 * P' < P' * k82 ∧ P' * k82 < 0.86 * P') ∧ (0.799 * P' < P' * k75 ∧ P' * k75 < 0.8 * P') ∧ (P < P * k95 ∧ P * k95 < 1.01 * P) := by
    intro hP hP'
    refine ⟨⟨?_, ?_⟩, ⟨?_, ?_⟩, ⟨?_, ?_⟩, ?_, ?_⟩ <;> nlinarith
  obtain ⟨t1, t2⟩ := season_bounds t ht
  have lo : ∀ x y : ℝ, x + (y - x) * ((t - 67) / 15) = (x - (y - x) * (67 / 15)) + (y - x) / 15 * t := fun x y => by ring
  have hi : ∀ x y : ℝ, x + (y - x) * ((t - 82) / 13) = (x - (y - x) * (82 / 13)) + (y - x) / 13 * t := fun x y => by ring
  refine ⟨?_, le_of_lt (sub_pos.1 ?_), fun hP hP' => ?_⟩
  · rw [lo]
    refine line_pos t1 t2 ?_ ?_ <;> linarith
  · rw [lo, hi, show ∀ a b c d : ℝ, a + b * t - (c + d * t) = (a - c) + (b - d) * t from fun a b c d => by ring]
    refine line_pos t1 t2 ?_ ?_ <;> linarith
  · obtain ⟨⟨a1, a2⟩, ⟨b1, b2⟩, ⟨c1, c2⟩, d1, d2⟩ := hpow hP hP'
    generalize P * k82 = x at *
    generalize P' * k82 = x' at *
    generalize P' * k75 = y' at *
    generalize P * k95 = z at *
    rw [lo, hi]
    exact ⟨line_pos t1 t2 (by linarith) (by linarith), line_pos t1 t2 (by linarith) (by linarith)⟩

/-- In heating, the low stage: positive, small in the cold, and with a COP above one otherwise. -/
theorem low_stage (b : Bool) {Q P v : ℝ} (hP : 0 < P) (hQ : 1.5 * P ≤ Q) (hv : 0 ≤ v) :
    let T := curveLowTests b Q P v
    ∀ t ∈ (seasonTemperatures : List ℝ), 0 < T.p t ∧ 0 < T.q t ∧ (t ≤ 12 → T.q t ≤ 0.58 * Q + v) ∧ (12 < t → T.p t ≤ T.q t) := by
  intro T t ht
  have c62 : 1.21 < heatCapT (70 : ℝ) 62 ∧ heatCapT (70 : ℝ) 62 < 1.22 := by unfold heatCapT; norm_num
  have c47 : 0.999 < heatCapT (70 : ℝ) 47 ∧ heatCapT (70 : ℝ) 47 < 1 := by unfold heatCapT; norm_num
  have c35 : 0.842 < heatCapT (70 : ℝ) 35 ∧ heatCapT (70 : ℝ) 35 < 0.843 := by unfold heatCapT; norm_num
  have c17 : 0.633 < heatCapT (70 : ℝ) 17 ∧ heatCapT (70 : ℝ) 17 < 0.634 := by unfold heatCapT; norm_num
  have e62 : 1.11 < heatEirT (70 : ℝ) 62 * heatCapT 70 62 ∧ heatEirT (70 : ℝ) 62 * heatCapT 70 62 < 1.12 := by unfold heatEirT heatCapT; norm_num
  have e47 : 1 < heatEirT (70 : ℝ) 47 * heatCapT 70 47 ∧ heatEirT (70 : ℝ) 47 * heatCapT 70 47 < 1.01 := by unfold heatEirT heatCapT; norm_num
  have e35 : 0.936 < heatEirT (70 : ℝ) 35 * heatCapT 70 35 ∧ heatEirT (70 : ℝ) 35 * heatCapT 70 35 < 0.937 := by unfold heatEirT heatCapT; norm_num
  have e17 : 0.858 < heatEirT (70 : ℝ) 17 * heatCapT 70 17 ∧ heatEirT (70 : ℝ) 17 * heatCapT 70 17 < 0.859 := by unfold heatEirT heatCapT; norm_num
  have mul : ∀ {x y lo hi : ℝ}, 0 < x → lo < y ∧ y < hi → lo * x < x * y ∧ x * y < hi * x := fun hx h => ⟨by nlinarith [h.1], by nlinarith [h.2]⟩
  have Q0 : 0 < Q := by linarith
  obtain ⟨q1, q1'⟩ := mul Q0 c62
  obtain ⟨q2, q2'⟩ := mul Q0 c47
  obtain ⟨q3, q3'⟩ := mul Q0 c35
  obtain ⟨q4, q4'⟩ := mul Q0 c17
  obtain ⟨p1, p1'⟩ := mul hP e62
  obtain ⟨p2, p2'⟩ := mul hP e47
  obtain ⟨p3, p3'⟩ := mul hP e35
  obtain ⟨p4, p4'⟩ := mul hP e17
  have hT : T.q t = (if 40 ≤ t then T.q1 + (T.q0 - T.q1) * ((t - 47) / 15) else if t ≤ 17 then T.q3 + (T.q1 - T.q3) * ((t - 17) / 30) else T.q3 + (T.q2 - T.q3) * ((t - 17) / 18)) ∧
      T.p t = (if 40 ≤ t then T.p1 + (T.p0 - T.p1) * ((t - 47) / 15) else if t ≤ 17 then T.p3 + (T.p1 - T.p3) * ((t - 17) / 30) else T.p3 + (T.p2 - T.p3) * ((t - 17) / 18)) := by
    unfold HeatLowTests.q HeatLowTests.p lineAt
    norm_num
  rw [hT.1, hT.2]
  simp only [T, curveLowTests, heatingOn, heatingPowerOn, frosted]
  generalize Q * heatCapT (70 : ℝ) 62 = Q1 at *
  generalize Q * heatCapT (70 : ℝ) 47 = Q2 at *
  generalize Q * heatCapT (70 : ℝ) 35 = Q3 at *
  generalize Q * heatCapT (70 : ℝ) 17 = Q4 at *
  generalize P * (heatEirT (70 : ℝ) 62 * heatCapT 70 62) = P1 at *
  generalize P * (heatEirT (70 : ℝ) 47 * heatCapT 70 47) = P2 at *
  generalize P * (heatEirT (70 : ℝ) 35 * heatCapT 70 35) = P3 at *
  generalize P * (heatEirT (70 : ℝ) 17 * heatCapT 70 17) = P4 at *
  obtain ⟨t1, t2⟩ := Build.season_range t ht
  have up : ∀ x y : ℝ, x + (y - x) * ((t - 47) / 15) = (x - (y - x) * (47 / 15)) + (y - x) / 15 * t := fun x y => by ring
  have down : ∀ x y : ℝ, x + (y - x) * ((t - 17) / 30) = (x - (y - x) * (17 / 30)) + (y - x) / 30 * t := fun x y => by ring
  have mid : ∀ x y : ℝ, x + (y - x) * ((t - 17) / 18) = (x - (y - x) * (17 / 18)) + (y - x) / 18 * t := fun x y => by ring
  have diff : ∀ a b c d : ℝ, a + b * t - (c + d * t) = (a - c) + (b - d) * t := fun a b c d => by ring
  by_cases h40 : 40 ≤ t
  · rw [if_pos h40, if_pos h40, up, up]
    refine ⟨line_pos h40 t2 (by linarith) (by linarith), line_pos h40 t2 (by linarith) (by linarith), fun h => absurd h (by linarith), fun _ => le_of_lt (sub_pos.1 ?_)⟩
    rw [diff]
    refine line_pos h40 t2 ?_ ?_ <;> linarith
  · rw [if_neg h40, if_neg h40]
    push Not at h40
    by_cases h17 : t ≤ 17
    · rw [if_pos h17, if_pos h17, down, down]
      refine ⟨line_pos t1 h17 (by linarith) (by linarith), line_pos t1 h17 (by linarith) (by linarith), fun h => le_of_lt (sub_pos.1 ?_), fun h => le_of_lt (sub_pos.1 ?_)⟩
      · rw [show ∀ a b c d : ℝ, a - (b + d * t) = (a - b) + (-d) * t from fun a b c d => by ring]
        · refine line_pos t1 h ?_ ?_ <;> linarith
        · exact 0
      · rw [diff]
        refine line_pos h.le h17 ?_ ?_ <;> linarith
    · rw [if_neg h17, if_neg h17, mid, mid]
      push Not at h17
      have hq3 : 0.79 * Q ≤ (if b = true then (Q3 + v - v) * (1 - 0.0522) + v else Q3 + v) - v ∧ (if b = true then (Q3 + v - v) * (1 - 0.0522) + v else Q3 + v) - v ≤ 0.843 * Q := by
        split <;> constructor <;> linarith
      have hp3 : 0.92 * P ≤ (if b = true then (P3 + v - v) * (1 - 0.0087) + v else P3 + v) - v ∧ (if b = true then (P3 + v - v) * (1 - 0.0087) + v else P3 + v) - v ≤ 0.937 * P := by
        split <;> constructor <;> linarith
      generalize (if b = true then (Q3 + v - v) * (1 - 0.0522) + v else Q3 + v) = Q5 at *
      generalize (if b = true then (P3 + v - v) * (1 - 0.0087) + v else P3 + v) = P5 at *
      refine ⟨line_pos h17.le h40.le (by linarith) (by linarith), line_pos h17.le h40.le (by linarith) (by linarith), fun h => absurd h (by linarith), fun _ => le_of_lt (sub_pos.1 ?_)⟩
      rw [diff]
      refine line_pos h17.le h40.le ?_ ?_ <;> linarith

/-- Half the design pressure is the unit in which the fan powers of a mode are computed; they grow with the pressure, but not by much. -/
theorem unit_fan_shift {psc : Bool} {L q s : ℝ} (hton : 2100 ≤ u.ton) (hq : 0 < q) (hle : q ≤ L) (hge : L ^ 2 ≤ 3 * q ^ 2) (hs : 0 ≤ s) (hs1 : s ≤ 1) :
    unitFan psc u.ton L q s ≤ unitFan psc u.ton L q (s * (L / q) ^ 2) ∧ unitFan psc u.ton L q (s * (L / q) ^ 2) ≤ unitFan psc u.ton L q s + 0.044 * q := by
  have hL : 0 < L := hq.trans_le hle
  have ht := u.ton_pos
  obtain ⟨c, c0, c1, hc⟩ := Build.fanWatts_diff (psc := psc) (r := q / L) (s := s) (s' := s * (L / q) ^ 2) (div_pos hq hL) ((div_le_one hL).2 hle)
  have h1 : 1 ≤ (L / q) ^ 2 := one_le_pow₀ ((one_le_div hq).2 hle)
  have h3 : (L / q) ^ 2 ≤ 3 := by rw [div_pow, div_le_iff₀ (by positivity)]; exact hge
  generalize (L / q) ^ 2 = m at *
  have d0 : 0 ≤ s * m - s := by nlinarith
  have d2 : s * m - s ≤ 2 := by nlinarith
  have h4 : 400 / u.ton ≤ 400 / 2100 := by
    apply div_le_div_of_nonneg_left <;> linarith
  have h40 : 0 ≤ 400 / u.ton := by positivity
  unfold unitFan
  have e : q * (400 / u.ton) * fanWatts psc (q / L) (s * m) = q * (400 / u.ton) * fanWatts psc (q / L) s + q * (400 / u.ton) * (c * (s * m - s)) := by rw [← hc]; ring
  rw [e]
  have k0 : 0 ≤ c * (s * m - s) := mul_nonneg c0 d0
  have k1 : c * (s * m - s) ≤ 0.231 := by nlinarith
  refine ⟨by have : 0 ≤ q * (400 / u.ton) * (c * (s * m - s)) := by positivity
             linarith, ?_⟩
  have : q * (400 / u.ton) * (c * (s * m - s)) ≤ q * (400 / 2100) * 0.231 := mul_le_mul (mul_le_mul_of_nonneg_left h4 hq.le) k1 k0 (by positivity)
  linarith

/-- The COP given for speed `i`. -/
noncomputable def ManyCop.at (c : ManyCop) (i : Nat) : ℝ :=
  match c with
  | .gross l => l[i]?.getD 0
  | .net l => l[i]?.getD 0

/-- A given COP of at least 1.5 means that the gross COP is. -/
theorem ManyCop.enough {c : ManyCop} {i : Nat} {q w : ℝ} (h : 1.5 ≤ c.at i) (hq : 0 < q) (w0 : 0 ≤ w) (hw : w ≤ 0.17 * q) : 1.5 * c.power i q (q - w) w ≤ q - w := by
  cases c with
  | gross l =>
    simp only [ManyCop.at] at h
    simp only [ManyCop.power]
    rw [← mul_div_assoc, div_le_iff₀ (by linarith)]
    nlinarith
  | net l =>
    simp only [ManyCop.at] at h
    simp only [ManyCop.power]
    have : 1.5 * (q / l[i]?.getD 0) ≤ q := by
      rw [← mul_div_assoc, div_le_iff₀ (by linarith)]
      nlinarith
    nlinarith

/-- C116: a two-stage unit from its arguments alone: capacities `q`, `q'` in cooling and `h`, `h'` in heating, ducted or not, with either fan motor. The low stage has at most 88 % of the cooling capacity of the high stage, and at most that
cooling capacity in heating. With `s` the pressure share and `L` the larger full capacity, the high stage's fan draws `wc` and `wh` when it is rated and `vc` and `vh` in the tests, that of the low stage `wc'` and `wh'`. -/
theorem C116_two {q q' h h' L s wc vc wc' wh vh wh' : ℝ} {xc xh : ManyCop} (o : ManySpeeds a .two [q, q'] [h, h'] xc xh) (f : ManyOwnFan a [q, q'] [h, h'] L) (hfs : a.coolingFullSpeed = 0 ∧ a.heatingFullSpeed = 0)
    (hton : 2100 ≤ u.ton) (hE : IndoorAir E) (hbr : a.motorPSC.getD false = false → BrentqSpec brentq) (hC : ∀ c ∈ [q, q'], ∀ t, 0 < t → t ≤ 1.2 * c → CoilReturns u E T c t)
    (hs : s = designPressure (decide (a.standard = .ahri2017)) u.btuh a.ducted q)
    (hwc : wc = unitFan (a.motorPSC.getD false) u.ton L q s) (hvc : vc = unitFan (a.motorPSC.getD false) u.ton L q (s * (L / q) ^ 2)) (hwc' : wc' = unitFan (a.motorPSC.getD false) u.ton L q' (s * (L / q) ^ 2))
    (hwh : wh = unitFan (a.motorPSC.getD false) u.ton L h s) (hvh : vh = unitFan (a.motorPSC.getD false) u.ton L h (s * (L / h) ^ 2)) (hwh' : wh' = unitFan (a.motorPSC.getD false) u.ton L h' (s * (L / h) ^ 2)) :
    ∃ B, ListBuild.build u E T brentq a = .ok B ∧ B.st = .two ∧ ManyRatings xc B.cool 0 q (q + wc) wc ∧ ManyRatings xc B.cool 1 q' (q' + wc') wc' ∧ ManyRatings xh B.heat 0 h (h - wh) wh ∧
      ManyRatings xh B.heat 1 h' (h' - wh') wh' ∧
      B.eer u E T = .ok (coolingOn (q + wc) vc 95 / coolingPowerOn (xc.power 0 q (q + wc) wc) vc 95 / u.btuh) ∧
      (q' ≤ 0.88 * q → a.cycling = .lowFull → 0 ≤ Build.cd a.cdCooling → Build.cd a.cdCooling < 1 →
        B.seer u E T = .ok ((curveCoolTests (q + wc) (xc.power 0 q (q + wc) wc) vc (q' + wc') (xc.power 1 q' (q' + wc') wc') wc' 0 0 0).twoStageSeason (Build.cd a.cdCooling) true / u.btuh)) ∧
      (h' ≤ q → 1.5 ≤ xh.at 1 → a.cycling = .lowFull → a.heatingOn = none → toF (DX.offTemperature a.heatingOff .two) ≤ 12 → a.standard = .ahri2023 → 0 ≤ Build.cd a.cdHeating → Build.cd a.cdHeating < 1 →
        ∀ (n : Nat) (design f cx cv z : ℝ) (hours : List ℝ), a.defrost.demandCredit u = .ok f → regionData .ahri2023 n = some (design, hours, some (cx, cv, z)) →
          B.hspf u E T n = .ok ((curveHeatTests (a.defrost.inDefrost (frF 35)) (h - wh) (xh.power 0 h (h - wh) wh) vh).twoStageSeason
            (curveLowTests (a.defrost.inDefrost (frF 35)) (h' - wh') (xh.power 1 h' (h' - wh') wh') wh') (Build.cd a.cdHeating) (toF (DX.offTemperature a.heatingOff .two))
            (heatBuildingLoad z design (cx * coolingOn (q + wc) vc 95)) (seasonTemperatures.zip hours) * f / u.btuh)) := by
  obtain ⟨Rc, Rh⟩ := f.sizes
  obtain ⟨x, y, hx, hy, hLm⟩ := f.largest
  rw [hfs.1] at hx; rw [hfs.2] at hy
  obtain rfl : q = x := by simpa using hx
  obtain rfl : h = y := by simpa using hy
  have q0 : 0 < q := Rc.pos q (by simp)
  have q0' : 0 < q' := Rc.pos q' (by simp)
  have h0 : 0 < h := Rh.pos h (by simp)
  have h0' : 0 < h' := Rh.pos h' (by simp)
  have hqL : q ≤ L := hLm ▸ le_max_left _ _
  have hhL : h ≤ L := hLm ▸ le_max_right _ _
  have hL : 0 < L := q0.trans_le hqL
  have oq : q' ≤ q := Rc.order 0 1 q q' (by norm_num) rfl rfl
  have oh : h' ≤ h := Rh.order 0 1 h h' (by norm_num) rfl rfl
  have gq : L ^ 2 ≤ 3 * q ^ 2 := Rc.above q rfl
  have gh : L ^ 2 ≤ 3 * h ^ 2 := Rh.above h rfl
  have hLq : (L / q) ^ 2 ≤ 3 := by rw [div_pow, div_le_iff₀ (by positivity)]; exact gq
  have hLh : (L / h) ^ 2 ≤ 3 := by rw [div_pow, div_le_iff₀ (by positivity)]; exact gh
  obtain ⟨s0, s1⟩ := hs ▸ designPressure_bounds (decide (a.standard = Standard.ahri2017)) u.btuh a.ducted q
  have hm : ∀ x : ℝ, 0 ≤ x ^ 2 → x ^ 2 ≤ 3 → 0 ≤ s * x ^ 2 ∧ s * x ^ 2 ≤ 3 := fun x y z => ⟨by positivity, by nlinarith⟩
  obtain ⟨wc0, wc1⟩ := hwc ▸ list_fan_bounds (u := u) (psc := a.motorPSC.getD false) hton q0 hqL s0 (by linarith)
  obtain ⟨wc0', wc1'⟩ := hwc' ▸ list_fan_bounds (u := u) (psc := a.motorPSC.getD false) hton q0' (oq.trans hqL) (hm _ (sq_nonneg _) hLq).1 (hm _ (sq_nonneg _) hLq).2
  obtain ⟨wh0, wh1⟩ := hwh ▸ list_fan_bounds (u := u) (psc := a.motorPSC.getD false) hton h0 hhL s0 (by linarith)
  obtain ⟨wh0', wh1'⟩ := hwh' ▸ list_fan_bounds (u := u) (psc := a.motorPSC.getD false) hton h0' (oh.trans hhL) (hm _ (sq_nonneg _) hLh).1 (hm _ (sq_nonneg _) hLh).2
  obtain ⟨vc0, vc1⟩ := hwc ▸ hvc ▸ unit_fan_shift (u := u) (psc := a.motorPSC.getD false) hton q0 hqL gq s0 s1
  obtain ⟨vh0, vh1⟩ := hwh ▸ hvh ▸ unit_fan_shift (u := u) (psc := a.motorPSC.getD false) hton h0 hhL gh s0 s1
  have hm0 : defaultMotorPSC .two = false := rfl
  obtain ⟨B, hb, hst, r, r'⟩ := C110_made (T := T) (brentq := brentq) o f hton hE (by rw [hm0]; exact hbr) hC
  have hpsc : defaultMotorPSC B.st = false := by rw [hst]; rfl
  have hcq : a.caps false = [q, q'] := by simp [Args.caps, o.cooling, makeList]
  have hch : a.caps true = [h, h'] := by simp [Args.caps, o.heating]
  have hx' : (a.caps false)[a.coolingFullSpeed]? = some q := by rw [hfs.1, hcq]; rfl
  have hy' : (a.caps true)[a.heatingFullSpeed]? = some h := by rw [hfs.2, hch]; rfl
  have hp := list_pressure hb (q := q) (l := [q']) o.cooling
  rw [← hs] at hp
  have ffc : a.full false = 0 := hfs.1
  have ffh : a.full true = 0 := hfs.2
  have lesq : ∀ x, 0 < x → x ≤ max q h → (x / max q h) ^ 2 ≤ 3 := fun x x0 xl => by
    have : x / max q h ≤ 1 := (div_le_one (x0.trans_le xl)).2 xl
    have : 0 ≤ x / max q h := div_nonneg x0.le (x0.le.trans xl)
    nlinarith
  have hbr' : a.motorPSC.getD (defaultMotorPSC B.st) = false → BrentqSpec brentq := by rw [hpsc]; exact hbr
  obtain ⟨fc1, fc2⟩ := C111_fan_power hb f.fan f.airflows hbr' hx' hy' (hLm ▸ hL) false (i := 0) (by rw [hcq]; rfl) (by rw [hcq]; rfl) q0 q0 (lesq _ q0 (hLm ▸ hqL))
  obtain ⟨fc3, fc4⟩ := C111_fan_power hb f.fan f.airflows hbr' hx' hy' (hLm ▸ hL) false (i := 1) (by rw [hcq]; rfl) (by rw [hcq]; rfl) q0' q0 (lesq _ q0' (hLm ▸ oq.trans hqL))
  obtain ⟨fh1, fh2⟩ := C111_fan_power hb f.fan f.airflows hbr' hx' hy' (hLm ▸ hL) true (i := 0) (by rw [hch]; rfl) (by rw [hch]; rfl) h0 h0 (lesq _ h0 (hLm ▸ hhL))
  obtain ⟨fh3, fh4⟩ := C111_fan_power hb f.fan f.airflows hbr' hx' hy' (hLm ▸ hL) true (i := 1) (by rw [hch]; rfl) (by rw [hch]; rfl) h0' h0 (lesq _ h0' (hLm ▸ oh.trans hhL))
  rw [hpsc, hp, ← hLm] at fc1 fc2 fc3 fc4 fh1 fh2 fh3 fh4
  rw [ffc, if_pos rfl, mul_one, ← hwc] at fc1
  rw [ffh, if_pos rfl, mul_one, ← hwh] at fh1
  rw [ffc, if_neg (by norm_num), ← hwc'] at fc3
  rw [ffh, if_neg (by norm_num), ← hwh'] at fh3
  rw [← hvc] at fc2
  rw [← hvh] at fh2
  rw [← hwc'] at fc4
  rw [← hwh'] at fh4
  simp only [Built.side, Bool.false_eq_true, if_false, if_true] at fc1 fc3 fh1 fh3
  obtain ⟨x1, -, -, P1, r1⟩ := r 0 q rfl
  obtain ⟨x2, -, -, P2, r2⟩ := r 1 q' rfl
  obtain ⟨x3, -, -, P3, r3⟩ := r' 0 h rfl
  obtain ⟨x4, -, -, P4, r4⟩ := r' 1 h' rfl
  obtain rfl : wc = x1 := Option.some.inj (Option.some.inj (fc1.symm.trans r1.fan))
  obtain rfl : wc' = x2 := Option.some.inj (Option.some.inj (fc3.symm.trans r2.fan))
  obtain rfl : wh = x3 := Option.some.inj (Option.some.inj (fh1.symm.trans r3.fan))
  obtain rfl : wh' = x4 := Option.some.inj (Option.some.inj (fh3.symm.trans r4.fan))
  have ratings := And.intro (And.intro (show ManyRatings xc B.cool 0 q (q + wc) wc from ⟨P1, r1⟩) (show ManyRatings xc B.cool 1 q' (q' + wc') wc' from ⟨P2, r2⟩))
    (And.intro (show ManyRatings xh B.heat 0 h (h - wh) wh from ⟨P3, r3⟩) (show ManyRatings xh B.heat 1 h' (h' - wh') wh' from ⟨P4, r4⟩))
  obtain ⟨qc, pr, gc, gh, S⟩ := build_steps hb
  obtain ⟨pA, pB, pH, -⟩ := Build.full_points S.points
  obtain ⟨i, j, b, fl, d0, d1, d2, d3, hi, hj, eb, -, -, e1, -, -, pb, -, -, p1, -⟩ := Build.low_points S.points (by rw [hst]; decide)
  have hi' : a.rc.low = some 1 := by simp [Args.rc, roles, ListBuild.Args.nC, numberOfSpeeds, o.cooling]
  have hj' : a.rh.low = some 1 := by simp [Args.rh, roles, ListBuild.Args.nH, o.heating]
  rw [hi'] at hi; cases hi
  rw [hj'] at hj; cases hj
  have hfc : a.rc.full = 0 := hfs.1
  have hfh : a.rh.full = 0 := hfs.2
  rw [hfc] at pA pB
  rw [hfh] at pH
  have wA := fc2 pA
  have wB := fc2 pB
  have wH := fh2 pH
  have wb : ∀ c, B.points.bLow = some c → ListBuild.fanPower B.fan c = .ok wc' := fun c hc => by
    rw [eb] at hc; cases hc; exact fc4 pb
  have w1 : ∀ c, B.points.h1Low = some c → ListBuild.fanPower B.fan c = .ok wh' := fun c hc => by
    rw [e1] at hc; cases hc; exact fh4 p1
  set Y1 := xc.power 0 q (q + wc) wc
  set Y3 := xh.power 0 h (h - wh) wh
  rw [← hfc] at r1
  rw [← hfh] at r3
  have QC := fun (Q : ℝ) {P : ℝ} (hP : 0 < P) => (div_mul_cancel₀ Q hP.ne').symm
  have Q1 : 0 < q + wc := by linarith
  have Q2 : 0 < q' + wc' := by linarith
  have Q3 : 0 < h - wh := by linarith
  have Q4 : 0 < h' - wh' := by linarith
  have hA : 0.95 * q < coolingOn (q + wc) vc 95 := by
    have c95 : coolCapT (67 : ℝ) (max 75 95) = 0.999998643 := by unfold coolCapT; norm_num
    unfold coolingOn
    rw [c95]
    linarith
  refine ⟨B, hb, hst, ratings.1.1, ratings.1.2, ratings.2.1, ratings.2.2, ?_, ?_, ?_⟩
  · obtain ⟨k1, -⟩ := C112_ratings (u := u) (T := T) hb o.charge u.btuh_pos.ne' r1 (QC _ P1) Q1 P1 wA wB (by linarith) (by linarith)
    simp only [coolingOn, coolingPowerOn, show max (75 : ℝ) 95 = 95 by norm_num]; exact k1
  · intro hle hcyc hcd hcd1
    have ord := two_cool_order (xc.power 0 q (q + wc) wc) (xc.power 1 q' (q' + wc') wc') q0' hle wc0.le wc1.le vc0 vc1 wc0'.le wc1'.le
    have key := C116_two_seer (T := T) (u := u) hb hst o.charge hcd hcd1 hi' r1 (QC _ P1) Q1 P1 wA r2 (QC _ P2) Q2 P2 wb
    simp only at ord key
    have hqA : 0 < (curveCoolTests (q + wc) Y1 vc (q' + wc') (xc.power 1 q' (q' + wc') wc') wc' 0 0 0).qA := lt_trans (by linarith) hA
    generalize curveCoolTests (q + wc) Y1 vc (q' + wc') (xc.power 1 q' (q' + wc') wc') wc' 0 0 0 = tests at *
    have ht : decide (a.cycling = .lowFull) = true := decide_eq_true hcyc
    rw [ht] at key
    refine key hqA.le (fun t ht => ⟨(ord t ht).1, (ord t ht).2.1⟩) (ne_of_gt ?_)
    have rate : ∀ b ∈ (coolingSeason : List (ℝ × ℝ)), 0 ≤ twoStageRate (Build.cd a.cdCooling) true (tests.qLow b.1) (tests.pLow b.1) (tests.qFull b.1) (tests.pFull b.1) (tests.load b.1) ∧
        (0 < tests.load b.1 → 0 < twoStageRate (Build.cd a.cdCooling) true (tests.qLow b.1) (tests.pLow b.1) (tests.qFull b.1) (tests.pFull b.1) (tests.load b.1)) := fun b hb => by
      obtain ⟨o1, o2, o3⟩ := ord b.1 (List.mem_map.2 ⟨b, hb, rfl⟩)
      obtain ⟨o4, o5⟩ := o3 P1 P2
      exact Build.twoStageRate_pos hcd hcd1 o1 o2 o4 o5 (Build.coolBuildingLoad_nonneg hqA.le _)
    refine Build.total_pos (b := ((67 : ℝ), 0.214)) (fun b hb => ⟨(rate b hb).1, ?_⟩) (by simp [coolingSeason]) ((rate _ (by simp [coolingSeason])).2 ?_) (by norm_num)
    · exact (Build.season_facts b hb).2.2.2.le
    · show 0 < coolBuildingLoad tests.qA 67
      unfold coolBuildingLoad
      rw [if_neg (by norm_num)]
      exact mul_pos (div_pos hqA (by norm_num)) (by norm_num)
  · intro hle hcop hcyc hon hoff hstd hcd hcd1 n design f cx cv z hours hf hr
    have low := low_stage (a.defrost.inDefrost (frF 35)) P4 (ManyCop.enough hcop h0' wh0'.le wh1'.le) wh0'.le
    have hi := curve_heat_pos (a.defrost.inDefrost (frF 35)) (Q := h - wh) (v := vh) P3 (by linarith)
    obtain ⟨l1, l2⟩ := Build.region_load hr (q := coolingOn (q + wc) vc 95) (by linarith)
    refine C116_two_hspf (T := T) hb hst o.charge hstd hon hcyc hcd hcd1 hj' r3 (QC _ P3) (div_pos Q3 P3).ne' wH r4 (QC _ P4) (div_pos Q4 P4).ne' w1 r1 (QC _ P1) Q1 P1 wA hr hf (by linarith) (fun t ht => ?_) (fun t ht hl => ?_) ?_
    · exact ⟨hi t ht, (low t ht).1, (low t ht).2.1⟩
    · obtain ⟨-, -, l3, l4⟩ := low t ht
      have : 12 < t := by
        by_contra hn
        push Not at hn
        have m1 := l2 t hn
        have m2 := l3 hn
        linarith only [m1, m2, hl, hA, wh1', hle, h0', q0]
      exact ⟨lt_of_le_of_lt hoff this, l4 this⟩
    · rw [l1]
      exact (low 62 (by simp [seasonTemperatures])).2.1.le

/-- A ducted two-stage unit with a BPM motor, rated by the 2023 edition. -/
noncomputable def stageArgs : ListBuild.Args :=
  { cooling := .list [10000, 7200], heating := [11000, 8000], ducted := true, standard := .ahri2023, motorPSC := none, defrost := Sample.oneArgs.defrost, netCoolingCop := some (.list [3.5, 3.9])
    netHeatingCop := none, grossCoolingCop := none, grossHeatingCop := some (.list [3.4, 3.8]) }

theorem stage_many : ManySpeeds stageArgs .two [10000, 7200] [11000, 8000] (.net [3.5, 3.9]) (.gross [3.4, 3.8]) where
  cooling := rfl
  heating := rfl
  staging := rfl
  full := ⟨by simp [stageArgs], by simp [stageArgs]⟩
  stages _ := ⟨by simp, by simp⟩
  between h := by cases h
  charge := rfl
  coolingCop := ⟨⟨rfl, rfl⟩, by simp only [ManyCop.Fits]; norm_num⟩
  heatingCop := ⟨⟨rfl, rfl⟩, by simp only [ManyCop.Fits]; norm_num⟩

theorem two_sorted {x y : ℝ} (h : y ≤ x) (i j : Nat) (v w : ℝ) (hij : i ≤ j) (hv : [x, y][i]? = some v) (hw : [x, y][j]? = some w) : w ≤ v := by
  match i, j with
  | 0, 0 => simp at hv hw; rw [← hv, ← hw]
  | 0, 1 => simp at hv hw; rw [← hv, ← hw]; exact h
  | 1, 1 => simp at hv hw; rw [← hv, ← hw]
  | 1, 0 => omega
  | _ + 2, _ => simp at hv
  | _, _ + 2 => simp at hw

theorem stage_own : ManyOwnFan stageArgs [10000, 7200] [11000, 8000] 11000 where
  airflows := ⟨rfl, rfl⟩
  fan := rfl
  largest := ⟨10000, 11000, rfl, rfl, by norm_num⟩
  sizes := by
    constructor
    · exact ⟨by norm_num, two_sorted (by norm_num), by norm_num, by norm_num⟩
    · exact ⟨by norm_num, two_sorted (by norm_num), by norm_num, by norm_num⟩

/-- It has an EER, a SEER and an HSPF2 in region 4. -/
example {brentq : Brentq} (hbr : BrentqSpec brentq) : ∃ B x y z, ListBuild.build Sample.units Sample.env Sample.tools brentq stageArgs = .ok B ∧ B.eer Sample.units Sample.env Sample.tools = .ok x ∧
    B.seer Sample.units Sample.env Sample.tools = .ok y ∧ B.hspf Sample.units Sample.env Sample.tools 4 = .ok z := by
  obtain ⟨B, hb, -, -, -, -, -, h1, h2, h3⟩ := C116_two (u := Sample.units) (T := Sample.tools) (brentq := brentq) stage_many stage_own ⟨rfl, rfl⟩ (by norm_num [Sample.units]) Sample.indoorAir (fun _ => hbr)
    (fun c hc t h1 h2 => Sample.coilReturns' (by simp at hc; rcases hc with rfl | rfl <;> norm_num) h1 h2) rfl rfl rfl rfl rfl rfl rfl
  refine ⟨B, _, _, _, hb, h1, h2 (by norm_num) rfl (by norm_num [Build.cd, stageArgs]) (by norm_num [Build.cd, stageArgs]),
    h3 (by norm_num) (by norm_num [ManyCop.at]) rfl rfl ?_ rfl (by norm_num [Build.cd, stageArgs]) (by norm_num [Build.cd, stageArgs]) 4 5 1 _ _ _ _ rfl rfl⟩
  show toF (frF (0 : ℝ)) ≤ 12
  rw [toF_frF]; norm_num

end Resdx.Props
