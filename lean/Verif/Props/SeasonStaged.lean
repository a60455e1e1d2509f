import Verif.Props.FanShift

/-!
# C96, C97: the heating and cooling seasons of two-stage and variable-speed RESNET units, whatever their fans draw
-/

set_option linter.unusedSectionVars false
set_option linter.unusedSimpArgs false

namespace Resdx.Build

open Spec Tabular BaseModel Props ResnetFan Fan Table DX

variable {u : Units ℝ} {E : Env ℝ} {T : Coil.Tools} {brentq : Brentq} {a : Args} {B : Built}

/-- Sums over the bins in °C with scaled hours are scaled sums over the bins in °F. -/
theorem season_sum {hours : List ℝ} {d : HeatDist ℝ} {k : ℝ} (hd : d.hours = hours.map (· / k)) (g : ℝ → ℝ) :
    CoolTests.total (fun t => g (toF t)) (heatingTemperatures.zip d.hours) = CoolTests.total g (seasonTemperatures.zip hours) / k := by
  have e0 : (heatingTemperatures : List ℝ).zip d.hours = (seasonTemperatures.map frF).zip (hours.map (· / k)) := by rw [season_temperatures, hd]
  rw [e0, total_frF, total_scale]
  simp only [toF_frF]

theorem season_ratio {hours : List ℝ} {d : HeatDist ℝ} {k : ℝ} (hd : d.hours = hours.map (· / k)) (hk : 0 < k) (load energy resistance : ℝ → ℝ) :
    CoolTests.total (fun t => load (toF t)) (heatingTemperatures.zip d.hours) / (CoolTests.total (fun t => energy (toF t)) (heatingTemperatures.zip d.hours) +
      CoolTests.total (fun t => resistance (toF t)) (heatingTemperatures.zip d.hours)) = seasonRatio load energy resistance (seasonTemperatures.zip hours) := by
  rw [season_sum hd, season_sum hd, season_sum hd, ← add_div]
  exact div_div_div_cancel_right₀ hk.ne' _ _

/-- In each bin a two-stage unit and its resistance heat use energy if there is a load. -/
theorem two_stage_pos {T : HeatTests ℝ} {TL : HeatLowTests ℝ} {cd off t : ℝ} {load : ℝ → ℝ} (hcd : 0 ≤ cd) (hcd1 : cd < 1) (hp : 0 < T.p t) (hpl : 0 < TL.p t) (hql : 0 < TL.q t) (hl : 0 ≤ load t) :
    0 ≤ T.twoStageEnergy TL cd off load t + T.twoStageResistance TL off load t ∧ (0 < load t → 0 < T.twoStageEnergy TL cd off load t + T.twoStageResistance TL off load t) := by
  have hcyc : ∀ {q p : ℝ}, load t ≤ q → 0 < q → 0 < p → 0 ≤ cyclingRate cd q p (load t) ∧ (0 < load t → 0 < cyclingRate cd q p (load t)) := by
    intro q p h1 hq hp
    unfold cyclingRate
    have h1 : load t / q ≤ 1 := (div_le_one hq).2 h1
    have h2 : 0 ≤ load t / q := div_nonneg hl hq.le
    have h3 : 0 < 1 - cd * (1 - load t / q) := by nlinarith
    exact ⟨div_nonneg (mul_nonneg h2 hp.le) h3.le, fun h0 => div_pos (mul_pos (div_pos h0 hq) hp) h3⟩
  unfold HeatTests.twoStageEnergy HeatTests.twoStageResistance HeatTests.twoStageRun twoStageRate
  by_cases h1 : load t ≤ TL.q t
  · rw [if_pos (.inr h1), if_pos h1, if_pos h1]
    obtain ⟨c1, c2⟩ := hcyc h1 hql hpl
    exact ⟨by linarith, fun h => by have := c2 h; linarith⟩
  · rw [if_neg h1, if_neg h1]
    by_cases h2 : load t < T.q t
    · rw [if_pos (.inl h2), if_pos h2, if_pos rfl, min_eq_left h2.le]
      have h1' := not_le.1 h1
      have hs : 0 < (load t - TL.q t) / (T.q t - TL.q t) := div_pos (by linarith) (by linarith)
      have hs1 : (load t - TL.q t) / (T.q t - TL.q t) < 1 := (div_lt_one (by linarith)).2 (by linarith)
      have : 0 < lineAt (TL.q t) (TL.p t) (T.q t) (T.p t) (load t) := by
        unfold lineAt
        generalize (load t - TL.q t) / (T.q t - TL.q t) = s at *
        nlinarith [mul_pos hs hp, mul_pos (sub_pos.2 hs1) hpl]
      exact ⟨by linarith, fun _ => by linarith⟩
    · rw [if_neg (by tauto), if_neg h2]
      unfold runFraction
      split
      · simp only [zero_mul, zero_add, sub_zero]; exact ⟨hl, id⟩
      · rename_i hn
        push Not at hn
        rw [if_pos hn.1]
        have := min_le_left (load t) (T.q t)
        exact ⟨by linarith, fun _ => by linarith⟩

/-- The season of a two-stage unit without cut-in temperature, for a load given in °F and unscaled hours. -/
theorem two_stage_season {C : Type} {U : DX.Performance C ℝ} {P : DX.Points C} {T : HeatTests ℝ} {TL : HeatLowTests ℝ} (hT : HeatMatch U P T) (hTL : HeatLowTwoMatch U P TL) {u : Units ℝ} {std : RatingStandard}
    {s : HeatSettings ℝ} {d : HeatDist ℝ} {f k : ℝ} {hours : List ℝ} (hs : s.st = .two) (hcyc : s.cyc = .lowFull) (hon : s.on = some s.off) (hcd : 0 ≤ s.cd) (hcd1 : s.cd < 1)
    (hp : ∀ t ∈ (seasonTemperatures : List ℝ), 0 < T.p t ∧ 0 < TL.p t ∧ 0 < TL.q t) (hd : d.hours = hours.map (· / k)) (hk : 0 < k)
    (hh : ∀ n ∈ hours, 0 ≤ n) {load : ℝ → ℝ} (hload : ∀ t, 0 ≤ load t) (hL : ∃ L, heatingLoad U P u s.st std d = .ok L ∧ ∀ t, L (frF t) = .ok (load t))
    (hlow : ∀ t ∈ (seasonTemperatures : List ℝ), load t ≤ TL.q t → toF s.off < t ∧ TL.p t ≤ TL.q t) (h62 : load 62 ≤ TL.q 62)
    {t n : ℝ} (hb : (t, n) ∈ seasonTemperatures.zip hours) (hn : 0 < n) (hl : 0 < load t) :
    hspfWith U P u std s d (.ok f) = .ok (T.twoStageSeason TL s.cd (toF s.off) load (seasonTemperatures.zip hours) * f / u.btuh) := by
  obtain ⟨L, hL, hL'⟩ := hL
  have hpos : 0 < CoolTests.total (T.twoStageEnergy TL s.cd (toF s.off) load) (seasonTemperatures.zip hours) + CoolTests.total (T.twoStageResistance TL (toF s.off) load) (seasonTemperatures.zip hours) := by
    rw [← total_add]
    have key := fun (b : ℝ × ℝ) (hb : b ∈ seasonTemperatures.zip hours) => by
      obtain ⟨x1, x2, x3⟩ := hp _ (List.of_mem_zip hb).1
      exact two_stage_pos (cd := s.cd) (off := toF s.off) hcd hcd1 x1 x2 x3 (hload b.1)
    exact total_pos (fun b hb => ⟨(key b hb).1, hh _ (List.of_mem_zip hb).2⟩) hb ((key _ hb).2 hl) hn
  have mem : ∀ {t : ℝ}, t ∈ heatingTemperatures → toF t ∈ (seasonTemperatures : List ℝ) := by
    intro t ht
    rw [season_temperatures] at ht
    obtain ⟨x, hx, rfl⟩ := List.mem_map.1 ht
    rwa [toF_frF]
  have off_lt : ∀ t : ℝ, toF s.off < toF t → s.off < t := fun t h => by rw [← frF_toF s.off, ← frF_toF t, frF_lt]; exact h
  have run : ∀ t c : ℝ, runFraction s.off s.off t c = runFraction (toF s.off) (toF s.off) (toF t) c := fun t c => by conv_lhs => rw [← frF_toF t, runFraction_F]
  have main := C50_two_stage_hspf_partial hT hTL (u := u) (std := std) (d := d) (f := f) hs hcyc hon hcd hcd1 (fun t ht => by
      obtain ⟨x1, x2, x3⟩ := hp _ (mem ht)
      exact ⟨x1.ne', x2.ne', x3.ne'⟩) (fun t => load (toF t)) (fun t => T.twoStageRun TL (toF s.off) load (toF t))
    (fun t => T.twoStageEnergy TL s.cd (toF s.off) load (toF t)) (fun t => T.twoStageResistance TL (toF s.off) load (toF t)) hL (fun t => by have := hL' (toF t); rwa [frF_toF] at this)
    (fun t ht hle => by
      obtain ⟨y1, y2⟩ := hlow _ (mem ht) hle
      exact ⟨off_lt t y1, off_lt t y1, (one_le_div (hp _ (mem ht)).2.1).2 y2⟩) (by rw [toF_frF]; exact h62)
    (fun t => by rw [run]; rfl) (fun t => rfl) (fun t => rfl)
    (by rw [season_sum hd, season_sum hd, ← add_div]; exact (div_pos hpos hk).ne')
  rw [main, season_ratio hd hk]
  rfl

/-- The season of a variable-speed unit. -/
theorem variable_season {C : Type} {U : DX.Performance C ℝ} {P : DX.Points C} {T : VariableTests ℝ} (hT : HeatMatch U P T.full) (hTL : HeatLowMatch U P T.low) (hTI : HeatIntMatch U P T.qi T.pi T.q4 T.p4)
    (hq2 : T.full.q2 ≠ T.qLow 35) (hp2 : T.full.p2 ≠ T.pLow 35) {u : Units ℝ} {std : RatingStandard}
    {s : HeatSettings ℝ} {d : HeatDist ℝ} {f k : ℝ} {hours : List ℝ} (hs : s.st = .varSpeed) (hon : s.on = some s.off) (hcd : 0 ≤ s.cd) (hcd1 : s.cd < 1)
    (hd : d.hours = hours.map (· / k)) (hk : 0 < k) {load : ℝ → ℝ} (hL : ∃ L, heatingLoad U P u s.st std d = .ok L ∧ ∀ t, L (frF t) = .ok (load t))
    (hne : ∀ t ∈ (seasonTemperatures : List ℝ), T.qLow t ≠ 0 ∧ T.pLow t ≠ 0 ∧ T.pInt t ≠ 0 ∧ T.full.p t ≠ 0 ∧ (T.qLow t < load t → load t < T.full.q t → T.cop load t ≠ 0))
    (hD : CoolTests.total (T.energy s.cd (toF s.off) load) (seasonTemperatures.zip hours) + CoolTests.total (T.resistance (toF s.off) load) (seasonTemperatures.zip hours) ≠ 0) :
    hspfWith U P u std s d (.ok f) = .ok (T.season s.cd (toF s.off) load (seasonTemperatures.zip hours) * f / u.btuh) := by
  obtain ⟨L, hL, hL'⟩ := hL
  have run : ∀ t c : ℝ, runFraction s.off s.off t c = runFraction (toF s.off) (toF s.off) (toF t) c := fun t c => by conv_lhs => rw [← frF_toF t, runFraction_F]
  have main := C50_variable_speed_hspf_partial hT hTL hTI hq2 hp2 (u := u) (std := std) (d := d) (f := f) hs hon hcd hcd1 (fun t => load (toF t)) (fun t => T.qLow (toF t)) (fun t => T.pLow (toF t))
    (fun t => T.qInt (toF t)) (fun t => T.pInt (toF t)) (fun t => T.full.q (toF t)) (fun t => T.full.p (toF t)) (fun t => T.cop load (toF t)) (fun t => T.energy s.cd (toF s.off) load (toF t))
    (fun t => T.resistance (toF s.off) load (toF t)) (fun t => rfl) (fun t => rfl) (fun t => rfl) (fun t => rfl) (fun t => rfl) (fun t => rfl) hL (fun t => by have := hL' (toF t); rwa [frF_toF] at this)
    (fun t => rfl) (fun t ht => by
      rw [season_temperatures] at ht
      obtain ⟨x, hx, rfl⟩ := List.mem_map.1 ht
      have := hne x hx
      rwa [toF_frF]) (fun t => by simp only [run]; rfl) (fun t => by simp only [run]; rfl)
    (by rw [season_sum hd, season_sum hd, ← add_div]; exact div_ne_zero hD hk.ne')
  rw [main, season_ratio hd hk]
  rfl

/-- The cooling capacity at 95 °F, on which the load is based. -/
theorem cooling_95 (h : build u E T brentq a = .ok B) (hst : B.core.st ≠ .single) (ht : ∀ d, a.tables = some d → RatedTables (tableSpeeds B.core.st) d) (hd : a.chargeDeviation = 0)
    (h95 : Outdoor E (frF 95)) {full : Curves ℝ} (hf : Follows B.core.net 2 full) {v w : ℝ} (hv : (B.unit u E T brentq).fanPower B.points.aFull = .ok v)
    (hw : B.core.cool.power[B.core.rc.full]? = some (some w)) (eh : ℝ) :
    (B.unit u E T brentq).netTotalCoolingCapacity (some B.points.aFull) = .ok ((full.withFan (v - w) eh).coolingCapacity (frF 95)) := by
  obtain ⟨st0, q47, nC, nH, b2, b3, b4, b6, b7, b8, b9, b10⟩ := build_steps h
  have RT := rated_net h ht
  obtain ⟨pA, -, -, -⟩ := full_points b10
  have hσ : TableSpeed B.core.st B.core.rc.full (fullTable B.core.st) := by rw [b6]; exact full_table _ _
  have e : ((2 : Int) : ℝ) = fullTable B.core.st := by unfold fullTable; rw [if_neg hst]; norm_num
  exact (C97_at_any h ht hd hσ (fullTable_ne _) e hf (o := defaultOutdoor E false) (by show toF (frF 95) ≤ _; rw [toF_frF]; norm_num) h95 pA
    ⟨⟨_, RT.cooling.1, le_rfl⟩, _, RT.cooling.2, le_rfl⟩ hv hw).1

theorem heat_cycling (h : build u E T brentq a = .ok B) : B.heatSettings.cyc = a.cycling := by
  obtain ⟨_, _, _, _, _, _, -, -, -, -, -, -, -, -, -, -, -, -, -, z2, -⟩ := build_ok h
  exact z2

/-- C96: the HSPF2 of a constructed two-stage unit, from the curves of its net tables and its fan powers: rated (`wc`, `w`, `w'`) and at full speed under the pressure of the conditions (`vc`, `v`). The low stage must be allowed to run wherever it suffices, and suffice at 62 °F. -/
theorem C96_two_hspf (h : build u E T brentq a = .ok B) (hst : B.core.st = .two) (ht : ∀ d, a.tables = some d → RatedTables 2 d) (hd : a.chargeDeviation = 0)
    (hstd : a.standard = .ahri2023) (hon : a.heatingOn = none) (hcyc : a.cycling = .lowFull) (hcd : 0 ≤ cd a.cdHeating) (hcd1 : cd a.cdHeating < 1)
    {vc v : ℝ} (hvc : (B.unit u E T brentq).fanPower B.points.aFull = .ok vc) (hv : (B.unit u E T brentq).fanPower B.points.h1Full = .ok v)
    (h95 : Outdoor E (frF 95)) (h62 : Outdoor E (frF 62)) (h47 : Outdoor E (frF 47)) (h35 : Outdoor E (frF 35)) (h17 : Outdoor E (frF 17))
    {low full : Curves ℝ} (hl : Follows B.core.net 1 low) (hf : Follows B.core.net 2 full)
    {wc w w' : ℝ} (hwc : B.core.cool.power[0]? = some (some wc)) (hw : B.core.heat.power[0]? = some (some w)) (hw' : B.core.heat.power[1]? = some (some w'))
    {r : Nat} {design z cx cv : ℝ} {hours : List ℝ} (hr : regionData .ahri2023 r = some (design, hours, some (cx, cv, z))) {f : ℝ} (hf' : a.defrost.demandCredit u = .ok f) :
    let full' := full.withFan (vc - wc) (v - w)
    let T' := full'.heatTests (a.defrost.inDefrost (frF 35)) v
    let TL := low.lowHeatTests (a.defrost.inDefrost (frF 35)) w'
    let load := heatBuildingLoad z design (cx * full'.coolingCapacity (frF 95))
    0 < full'.coolingCapacity (frF 95) →
    (∀ t ∈ (seasonTemperatures : List ℝ), 0 < T'.p t ∧ 0 < TL.p t ∧ 0 < TL.q t) →
    (∀ t ∈ (seasonTemperatures : List ℝ), load t ≤ TL.q t → toF B.heatingOff < t ∧ TL.p t ≤ TL.q t) → load 62 ≤ TL.q 62 →
    B.hspf u E T brentq r = .ok (T'.twoStageSeason TL (cd a.cdHeating) (toF B.heatingOff) load (seasonTemperatures.zip hours) * f / u.btuh) := by
  intro full' T' TL load hq hp hlow hl62
  have ht' : ∀ d, a.tables = some d → RatedTables (tableSpeeds B.core.st) d := fun d h => by rw [hst]; exact ht d h
  have hns : B.core.st ≠ .single := by rw [hst]; decide
  obtain ⟨st0, q47, nC, nH, b2, b3, b4, b6, b7, b8, b9, b10⟩ := build_steps h
  have hfullc : B.core.rc.full = 0 := by rw [b6, hst]; rfl
  have hfullh : B.core.rh.full = 0 := by rw [b7, hst]; rfl
  have hlowh : B.core.rh.low = some 1 := by rw [b7, hst]; rfl
  have hM := C96_full_tests_any h ht' hd h47 h35 h17 (c := full) (by rw [if_neg hns]; exact hf) hv (by rw [hfullh]; exact hw) (vc - wc)
  obtain ⟨j, x, hj, hx, hN⟩ := C96_low_tests h hns ht' hd h62 h47 h35 h17 hl
  rw [hlowh] at hj; cases hj
  rw [hw'] at hx; cases hx
  have hA := cooling_95 h hns ht' hd h95 hf hvc (by rw [hfullc]; exact hwc) (v - w)
  obtain ⟨r1, r2, -, r3, ⟨n, r4, r5⟩, r6, d, k, e1, e2, e3, e4, e5, e6, -⟩ := region_2023 hr
  obtain ⟨g1, g2, g3, g4⟩ := heat_settings h hon
  have hs1 : B.heatSettings.st = .two := hst
  have hstd' : hspfStandard B.standard = .ahri2023 := by rw [g3, hstd]; rfl
  have hfull : 0 < cx * full'.coolingCapacity (frF 95) := mul_pos r2 hq
  have := two_stage_season hM hN (u := u) (std := .ahri2023) (s := B.heatSettings) (d := d) (f := f) hs1 ((heat_cycling h).trans hcyc) g1 (by rw [g2]; exact hcd) (by rw [g2]; exact hcd1) hp e3 e2 r3
    (load := load) (fun t => heatBuildingLoad_nonneg r1 hfull.le)
    (C50_load_2023 hA e4 e5 (by rw [hs1]; exact e6) r1 hfull.le) hlow hl62 r4 r5 (heatBuildingLoad_pos r1 hfull r6)
  rw [g2] at this
  simp only [Built.hspf, DX.hspf, hstd', e1, g4, hf', bind_ok]
  exact this

/-! ## Variable-speed units -/

/-- Halfway between the speeds 1 and 2, heating. -/
theorem follows_half_heating {d : Perf ℝ} {mn mx : ℝ} {n : Nat} (S : StandardTables n mn mx d) (hn : 2 ≤ n) {low full : Curves ℝ} (hl : Follows d 1 low) (hf : Follows d 2 full) (x : ℝ) :
    d.heatingCapacity (3 / 2) x = .ok ((low.heatingCapacity x + full.heatingCapacity x) / 2) ∧ d.heatingPower (3 / 2) x = .ok ((low.heatingPower x + full.heatingPower x) / 2) := by
  have key : ∀ {t : Table ℝ} (_ : Fresh t) (_ : t.nSpeeds = n) {y z : ℝ}, t.calculate ((1 : Int) : ℝ) x = .ok y → t.calculate ((2 : Int) : ℝ) x = .ok z → t.calculate (3 / 2) x = .ok ((y + z) / 2) := by
    intro t ht e y z hy hz
    obtain ⟨y0, y1, w, g0, g1, g, hL⟩ := C30_linear_in_speed t ht 1 (3 / 2) x ⟨by norm_num, by omega⟩ ⟨by norm_num, by omega⟩ (.inr rfl) (.inl (by norm_num))
    rw [hy] at g0; cases g0
    rw [show ((1 : Int) : ℝ) + 1 = ((2 : Int) : ℝ) by norm_num, hz] at g1; cases g1
    rw [g]
    unfold OnLine at hL
    norm_num at hL
    congr 1; linarith
  exact ⟨key S.qh S.speeds.2.2.1 (hl x).2.2.1 (hf x).2.2.1, key S.ph S.speeds.2.2.2 (hl x).2.2.2 (hf x).2.2.2⟩

/-- C96, the other heating tests of a variable-speed unit: at 35 °F and intermediate speed the mean of the curves of low and full speed, lower by the amount by which the mean of their fan powers exceeds the fan
power of the intermediate speed and reduced by frost; at 5 °F the value of the full-speed curve, shifted by what the fan draws more than rated. -/
theorem C96_intermediate_tests (h : build u E T brentq a = .ok B) (ht : ∀ d, a.tables = some d → RatedTables (tableSpeeds B.core.st) d) (hd : a.chargeDeviation = 0) (hv : B.core.st = .varSpeed)
    {Q : ℝ} (hQ : B.sys.grossHeating[2]? = some (some Q)) (hQ0 : Q ≠ 0) {n : Nat} {mn mx : ℝ} (S : StandardTables n mn mx B.core.net) (hn : 2 ≤ n)
    {v : ℝ} (hv1 : (B.unit u E T brentq).fanPower B.points.h1Full = .ok v) (ec : ℝ) (h35 : Outdoor E (frF 35)) (h5 : Outdoor E (frF 5))
    {low full : Curves ℝ} (hl : Follows B.core.net 1 low) (hf : Follows B.core.net 2 full) :
    ∃ w w1 w3, B.core.heat.power[1]? = some (some w1) ∧ B.core.heat.power[2]? = some (some w) ∧ B.core.heat.power[3]? = some (some w3) ∧
      HeatIntMatch (B.unit u E T brentq) B.points
        (frosted (a.defrost.inDefrost (frF 35)) 0.0522 w ((low.heatingCapacity (frF 35) + full.heatingCapacity (frF 35)) / 2 - ((w1 + w3) / 2 - w)))
        (frosted (a.defrost.inDefrost (frF 35)) 0.0087 w ((low.heatingPower (frF 35) + full.heatingPower (frF 35)) / 2 - ((w1 + w3) / 2 - w)))
        ((full.withFan ec (v - w1)).heatingCapacity (frF 5)) ((full.withFan ec (v - w1)).heatingPower (frF 5)) := by
  obtain ⟨st0, q47, nC, nH, b2, b3, b4, b6, b7, b8, b9, b10⟩ := build_steps h
  obtain ⟨-, h2, -, e2, -, e4⟩ := int_points b10 hv
  obtain ⟨-, p5⟩ := frost_points b10
  have hi : B.core.rh.intermediate = 2 := by rw [b7, hv]; rfl
  have hfu : B.core.rh.full = 1 := by rw [b7, hv]; rfl
  rw [hi] at e4
  obtain ⟨fc, fh, F⟩ := built_facts h ht
  obtain ⟨_, _, _, _, _, _, -, -, -, -, -, -, -, -, hS, -⟩ := build_ok h
  rw [hv] at F
  have hσ : TableSpeed .varSpeed 2 (3 / 2) := .inr (.inr (.inl ⟨rfl, rfl⟩))
  have hσ1 : TableSpeed .varSpeed 1 2 := .inr (.inl ⟨rfl, rfl⟩)
  have hσ3 : TableSpeed .varSpeed 3 1 := .inr (.inr (.inr ⟨rfl, rfl⟩))
  obtain ⟨q, hq, hq'⟩ := F.gross.heatCap (3 / 2) (frF 35)
  obtain ⟨p, hp, hp'⟩ := F.gross.heatPow (3 / 2) (frF 35)
  obtain ⟨r, hr⟩ := h35
  have d2 : (wetState E.atm (frF 35) (frF 33)).db = frF 35 := rfl
  obtain ⟨g1, g2⟩ := gross_heating F hS hσ hQ hQ0 hr e4
  rw [d2] at g1 g2
  obtain ⟨-, -, -, s4, -, s6, s7, -, -, -, -, s12, s13⟩ := sys_ok hS
  obtain ⟨ac, ah, -, -, -, A4, -, M⟩ := F.fan
  obtain ⟨w, hw, hw'⟩ := fanPower_cond e4 (by simpa using s4) (by simpa using s6) s7 M (by rw [F.heatCaps.1]; exact tableSpeed_lt hσ) (.inr (.inl (by rw [hfu]; decide)))
  obtain ⟨_, _, _, w1, -, -, -, -, -, hw1⟩ := M.rated 1 (by rw [F.heatCaps.1]; exact tableSpeed_lt hσ1)
  obtain ⟨_, _, _, w3, -, -, -, -, -, hw3⟩ := M.rated 3 (by rw [F.heatCaps.1]; exact tableSpeed_lt hσ3)
  have f1 := F.heatFan 1 2 w1 hσ1 (by norm_num) hw1
  have f3 := F.heatFan 3 1 w3 hσ3 (by norm_num) hw3
  have hfm : fh (3 / 2) = (w1 + w3) / 2 := by rw [(F.half rfl).2, f1, f3]; ring
  obtain ⟨n3, n4⟩ := unit_integrated (u := u) (T := T) (P := B.points) (ntu := B.coil.ntu) (by rw [s12, hd]) (g1.trans hq') (g2.trans hp') hw'
  rw [makeCondition_outdoor e4, s13, d2, toF_frF, hfm] at n3 n4
  rw [frost35.1] at n3
  rw [frost35.2] at n4
  obtain ⟨m1, m2⟩ := follows_half_heating S hn hl hf (frF 35)
  cases hq.symm.trans m1
  cases hp.symm.trans m2
  have hσ' : TableSpeed B.core.st B.core.rh.full 2 := by rw [hv, hfu]; exact hσ1
  obtain ⟨-, -, p1, -⟩ := full_points b10
  obtain ⟨_, _, _, z1, z2, z3, z4, z5, -⟩ := C96_integrated_any h ht hd hσ' (by norm_num) (o := wetState E.atm (frF 5) (frF 3)) h5 p5 ((fanPower_same p5 p1).trans hv1)
  rw [hfu, hw1] at z3; cases z3
  have d5 : (wetState E.atm (frF 5) (frF 3)).db = frF 5 := rfl
  rw [d5] at z1 z2
  unfold Follows at hf
  rw [show ((2 : Int) : ℝ) = 2 by norm_num] at hf
  cases z1.symm.trans (hf (frF 5)).2.2.1
  cases z2.symm.trans (hf (frF 5)).2.2.2
  refine ⟨w, w1, w3, hw1, hw, hw3, ⟨h2, e2, ?_, ?_⟩, z4, z5, ?_⟩
  · rw [show ∀ x : ℝ, x - ((w1 + w3) / 2 - w) = x - (w1 + w3) / 2 + w from fun x => by ring]; exact n3
  · rw [show ∀ x : ℝ, x - ((w1 + w3) / 2 - w) = x - (w1 + w3) / 2 + w from fun x => by ring]; exact n4
  · show B.points.h4Full.outdoor.db = _; rw [makeCondition_outdoor p5]; rfl

/-- C96: the HSPF2 of a constructed variable-speed unit, from the curves of its net tables and its fan powers: rated (`wc` in cooling, `w1`, `w`, `w3` in heating) and at full speed under the pressure of the conditions
(`vc`, `v`). -/
theorem C96_variable_hspf (h : build u E T brentq a = .ok B) (hst : B.core.st = .varSpeed) (ht : ∀ d, a.tables = some d → RatedTables (tableSpeeds B.core.st) d) (hd : a.chargeDeviation = 0)
    (hstd : a.standard = .ahri2023) (hon : a.heatingOn = none) (hcd : 0 ≤ cd a.cdHeating) (hcd1 : cd a.cdHeating < 1)
    {vc v : ℝ} (hvc : (B.unit u E T brentq).fanPower B.points.aFull = .ok vc) (hv : (B.unit u E T brentq).fanPower B.points.h1Full = .ok v) {Q : ℝ} (hQ : B.sys.grossHeating[2]? = some (some Q)) (hQ0 : Q ≠ 0)
    {n : Nat} {mn mx : ℝ} (S : StandardTables n mn mx B.core.net) (hn : 2 ≤ n)
    (h95 : Outdoor E (frF 95)) (h62 : Outdoor E (frF 62)) (h47 : Outdoor E (frF 47)) (h35 : Outdoor E (frF 35)) (h17 : Outdoor E (frF 17)) (h5 : Outdoor E (frF 5))
    {low full : Curves ℝ} (hl : Follows B.core.net 1 low) (hf : Follows B.core.net 2 full)
    {wc w1 w w3 : ℝ} (hwc : B.core.cool.power[1]? = some (some wc)) (hw1 : B.core.heat.power[1]? = some (some w1)) (hw : B.core.heat.power[2]? = some (some w)) (hw3 : B.core.heat.power[3]? = some (some w3))
    {r : Nat} {design z cx cv : ℝ} {hours : List ℝ} (hr : regionData .ahri2023 r = some (design, hours, some (cx, cv, z))) {f : ℝ} (hf' : a.defrost.demandCredit u = .ok f) :
    let T' := low.variableTests full (a.defrost.inDefrost (frF 35)) w1 w w3 v
    let load := heatBuildingLoad z design (cv * (full.coolingCapacity (frF 95) - (vc - wc)))
    0 < full.coolingCapacity (frF 95) - (vc - wc) →
    T'.full.q2 ≠ T'.qLow 35 → T'.full.p2 ≠ T'.pLow 35 →
    (∀ t ∈ (seasonTemperatures : List ℝ), T'.qLow t ≠ 0 ∧ T'.pLow t ≠ 0 ∧ T'.pInt t ≠ 0 ∧ T'.full.p t ≠ 0 ∧ (T'.qLow t < load t → load t < T'.full.q t → T'.cop load t ≠ 0)) →
    CoolTests.total (T'.energy (cd a.cdHeating) (toF B.heatingOff) load) (seasonTemperatures.zip hours) + CoolTests.total (T'.resistance (toF B.heatingOff) load) (seasonTemperatures.zip hours) ≠ 0 →
    B.hspf u E T brentq r = .ok (T'.season (cd a.cdHeating) (toF B.heatingOff) load (seasonTemperatures.zip hours) * f / u.btuh) := by
  intro T' load hq hq2 hp2 hne hD
  have hns : B.core.st ≠ .single := by rw [hst]; decide
  obtain ⟨st0, q47, nC, nH, b2, b3, b4, b6, b7, b8, b9, b10⟩ := build_steps h
  have hfullc : B.core.rc.full = 1 := by rw [b6, hst]; rfl
  have hfullh : B.core.rh.full = 1 := by rw [b7, hst]; rfl
  have hlowh : B.core.rh.low = some 3 := by rw [b7, hst]; rfl
  have hM := C96_full_tests_any h ht hd h47 h35 h17 (c := full) (by rw [if_neg hns]; exact hf) hv (by rw [hfullh]; exact hw1) 0
  obtain ⟨j, x, hj, hx, hN⟩ := C96_low_tests h hns ht hd h62 h47 h35 h17 hl
  rw [hlowh] at hj; cases hj
  rw [hw3] at hx; cases hx
  obtain ⟨x, x1, x3, k1, k, k3, hI⟩ := C96_intermediate_tests h ht hd hst hQ hQ0 S hn hv 0 h35 h5 hl hf
  rw [hw1] at k1; cases k1
  rw [hw] at k; cases k
  rw [hw3] at k3; cases k3
  have hA := cooling_95 h hns ht hd h95 hf hvc (by rw [hfullc]; exact hwc) 0
  obtain ⟨r1, -, r2, r3, ⟨n, r4, r5⟩, r6, d, k, e1, e2, e3, e4, e5, -, e6⟩ := region_2023 hr
  obtain ⟨g1, g2, g3, g4⟩ := heat_settings h hon
  have hs1 : B.heatSettings.st = .varSpeed := hst
  have hstd' : hspfStandard B.standard = .ahri2023 := by rw [g3, hstd]; rfl
  have hfull : 0 < cv * (full.coolingCapacity (frF 95) - (vc - wc)) := mul_pos r2 hq
  have := variable_season (T := T') hM hN.toHeatLowMatch hI hq2 hp2 (u := u) (std := .ahri2023) (s := B.heatSettings) (d := d) (f := f) hs1 g1 (by rw [g2]; exact hcd) (by rw [g2]; exact hcd1) e3 e2
    (load := load) (C50_load_2023 hA e4 e5 (by rw [hs1]; exact e6) r1 hfull.le) hne (by rw [g2]; exact hD)
  rw [g2] at this
  simp only [Built.hspf, DX.hspf, hstd', e1, g4, hf', bind_ok]
  exact this

/-! ## Cooling -/

theorem cool_settings (h : build u E T brentq a = .ok B) : B.cdCooling = cd a.cdCooling ∧ B.cycling = a.cycling := by
  obtain ⟨_, _, _, _, _, _, -, -, -, -, -, -, -, -, -, -, z1, -, -, z2, -⟩ := build_ok h
  exact ⟨z1, z2⟩

/-- C97: the SEER2 of a constructed two-stage unit, from the curves of its net tables, its rated fan power `w` and the fan power `v` at full speed under the pressure of the conditions. -/
theorem C97_two_seer (h : build u E T brentq a = .ok B) (hst : B.core.st = .two) (ht : ∀ d, a.tables = some d → RatedTables 2 d) (hd : a.chargeDeviation = 0)
    (hcyc : a.cycling = .lowFull) (hcd : 0 ≤ cd a.cdCooling) (hcd1 : cd a.cdCooling < 1) (h95 : Outdoor E (frF 95)) (h82 : Outdoor E (frF 82)) (h67 : Outdoor E (frF 67)) {low full : Curves ℝ}
    (hl : Follows B.core.net 1 low) (hf : Follows B.core.net 2 full) (n95 : NotBelow B.core.net full (frF 95)) (n82 : NotBelow B.core.net full (frF 82)) (l82 : NotBelow B.core.net low (frF 82))
    (l67 : NotBelow B.core.net low (frF 67)) {v w : ℝ} (hv : (B.unit u E T brentq).fanPower B.points.aFull = .ok v) (hw : B.core.cool.power[0]? = some (some w)) :
    let tests := low.coolTests (full.withFan (v - w) 0) 0 0
    let rate := fun t => twoStageRate (cd a.cdCooling) true (tests.qLow t) (tests.pLow t) (tests.qFull t) (tests.pFull t) (tests.load t)
    0 ≤ tests.qA → (∀ t ∈ (coolingSeason : List (ℝ × ℝ)).map Prod.fst, 0 < tests.qLow t ∧ tests.qLow t ≤ tests.qFull t) → CoolTests.total rate coolingSeason ≠ 0 →
    B.seer u E T brentq = .ok (CoolTests.total tests.delivered coolingSeason / CoolTests.total rate coolingSeason / u.btuh) := by
  intro tests rate hA ho hE
  obtain ⟨st0, q47, nC, nH, b2, b3, b4, b6, b7, b8, b9, b10⟩ := build_steps h
  have hfullc : B.core.rc.full = 0 := by rw [b6, hst]; rfl
  have M : CoolMatch (B.unit u E T brentq) B.points tests := C97_tests_any h (by rw [hst]; decide) (fun d h => by rw [hst]; exact ht d h) hd h95 h82 h67 hl hf n95 n82 l82 l67 hv (by rw [hfullc]; exact hw) 0 0 0
  obtain ⟨z1, z2⟩ := cool_settings h
  have key := C46_two_stage_seer M hcd hcd1 hA u a.cycling coolingBins (by
      rw [season_bins]
      intro b hb
      obtain ⟨b', hb', rfl⟩ := List.mem_map.1 hb
      simp only [toF_frF]
      exact ho _ (List.mem_map.2 ⟨b', hb', rfl⟩)) _ rfl (by
      rw [hcyc]
      exact (total_season rate).symm ▸ hE)
  unfold Built.seer
  rw [hst, z1, z2, key, total_season tests.delivered, hcyc]
  congr 3
  exact total_season rate

/-- C97: the SEER2 of a constructed variable-speed unit, from the curves of its net tables, its rated fan powers `w1`, `w`, `w3` at full, intermediate and low speed and the fan power `v` at full speed under
the pressure of the conditions. -/
theorem C97_variable_seer (h : build u E T brentq a = .ok B) (hst : B.core.st = .varSpeed) (ht : ∀ d, a.tables = some d → RatedTables (tableSpeeds B.core.st) d) (hd : a.chargeDeviation = 0)
    (hcd : 0 ≤ cd a.cdCooling) (hcd1 : cd a.cdCooling < 1) {Q : ℝ} (hQ : B.sys.grossCooling[2]? = some (some Q)) (hQ0 : 0 < Q) {n : Nat} {mn mx : ℝ} (S : StandardTables n mn mx B.core.net) (hn : 2 ≤ n)
    (h95 : Outdoor E (frF 95)) (h87 : Outdoor E (frF 87)) (h82 : Outdoor E (frF 82)) (h67 : Outdoor E (frF 67)) {low full : Curves ℝ}
    (hl : Follows B.core.net 1 low) (hf : Follows B.core.net 2 full) (n95 : NotBelow B.core.net full (frF 95)) (n87 : NotBelow B.core.net full (frF 87)) (n82 : NotBelow B.core.net full (frF 82))
    (l87 : NotBelow B.core.net low (frF 87)) (l82 : NotBelow B.core.net low (frF 82)) (l67 : NotBelow B.core.net low (frF 67)) {v w1 w w3 : ℝ}
    (hv : (B.unit u E T brentq).fanPower B.points.aFull = .ok v) (hw1 : B.core.cool.power[1]? = some (some w1)) (hw : B.core.cool.power[2]? = some (some w)) (hw3 : B.core.cool.power[3]? = some (some w3)) :
    let tests := low.coolTests (full.withFan (v - w1) 0) ((low.coolingCapacity (frF 87) + full.coolingCapacity (frF 87)) / 2 + ((w1 + w3) / 2 - w))
      ((low.coolingPower (frF 87) + full.coolingPower (frF 87)) / 2 - ((w1 + w3) / 2 - w))
    let rate := fun t => varSpeedRate (cd a.cdCooling) (tests.qLow t) (tests.pLow t) (tests.qInt t) (tests.pInt t) (tests.qFull t) (tests.pFull t) (tests.load t)
    0 ≤ tests.qA →
    (∀ t ∈ (coolingSeason : List (ℝ × ℝ)).map Prod.fst, 0 < tests.qLow t ∧ tests.qLow t ≤ tests.qInt t ∧ tests.qInt t < tests.qFull t ∧ 0 < tests.pLow t ∧ 0 < tests.pInt t ∧ 0 < tests.pFull t) →
    tests.qLow 87 < tests.qFull 87 → tests.pFull 87 ≠ tests.pLow 87 → CoolTests.total rate coolingSeason ≠ 0 →
    B.seer u E T brentq = .ok (CoolTests.total tests.delivered coolingSeason / CoolTests.total rate coolingSeason / u.btuh) := by
  intro tests rate hA ho hQ' hP' hE
  obtain ⟨st0, q47, nC, nH, b2, b3, b4, b6, b7, b8, b9, b10⟩ := build_steps h
  have hfullc : B.core.rc.full = 1 := by rw [b6, hst]; rfl
  have M : CoolMatch (B.unit u E T brentq) B.points tests := C97_tests_any h (by rw [hst]; decide) ht hd h95 h82 h67 hl hf n95 n82 l82 l67 hv (by rw [hfullc]; exact hw1) 0 _ _
  obtain ⟨x, x1, x3, k1, k, k3, hI⟩ := C97_intermediate h ht hd hst hQ hQ0 S hn h87 hl hf l87 n87
  rw [hw1] at k1; cases k1
  rw [hw] at k; cases k
  rw [hw3] at k3; cases k3
  have hI' : CoolMatch.Int (B.unit u E T brentq) B.points tests := hI
  obtain ⟨z1, z2⟩ := cool_settings h
  have key := C46_variable_speed_seer M hcd hcd1 hA u a.cycling coolingBins hI' (sub_ne_zero.2 hQ'.ne') (sub_ne_zero.2 hP') (by
      rw [season_bins]
      intro b hb
      obtain ⟨b', hb', rfl⟩ := List.mem_map.1 hb
      simp only [toF_frF]
      exact ho _ (List.mem_map.2 ⟨b', hb', rfl⟩)) _ rfl ((total_season rate).symm ▸ hE)
  unfold Built.seer
  rw [hst, z1, z2, key, total_season tests.delivered]
  congr 3
  exact total_season rate

end Resdx.Build
