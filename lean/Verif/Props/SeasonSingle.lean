import Verif.Props.SeasonTwo

/-!
# C96: the HSPF2 of single-stage units with any motor
-/

set_option linter.unusedSectionVars false
set_option linter.unusedSimpArgs false

namespace Resdx.Build

open Spec Tabular BaseModel Props ResnetFan Fan Table DX

variable {u : Units ℝ} {E : Env ℝ} {T : Coil.Tools} {brentq : Brentq} {a : Args} {B : Built}

/-- The cooling capacity at 95 °F of a single-stage unit. -/
theorem cooling_95_single (h : build u E T brentq a = .ok B) (hst : B.core.st = .single) (ht : ∀ d, a.tables = some d → RatedTables (tableSpeeds B.core.st) d) (hd : a.chargeDeviation = 0)
    (h95 : Outdoor E (frF 95)) {c : Curves ℝ} (hf : Follows B.core.net 1 c) {v w : ℝ} (hv : (B.unit u E T brentq).fanPower B.points.aFull = .ok v)
    (hw : B.core.cool.power[B.core.rc.full]? = some (some w)) (eh : ℝ) :
    (B.unit u E T brentq).netTotalCoolingCapacity (some B.points.aFull) = .ok ((c.withFan (v - w) eh).coolingCapacity (frF 95)) := by
  obtain ⟨st0, q47, nC, nH, b2, b3, b4, b6, b7, b8, b9, b10⟩ := build_steps h
  have RT := rated_net h ht
  obtain ⟨pA, -, -, -⟩ := full_points b10
  have hσ : TableSpeed B.core.st B.core.rc.full (fullTable B.core.st) := by rw [b6]; exact full_table _ _
  have e : ((1 : Int) : ℝ) = fullTable B.core.st := by unfold fullTable; rw [if_pos hst]; norm_num
  exact (C97_at_any h ht hd hσ (fullTable_ne _) e hf (o := defaultOutdoor E false) (by show toF (frF 95) ≤ _; rw [toF_frF]; norm_num) h95 pA
    ⟨⟨_, RT.cooling.1, le_rfl⟩, _, RT.cooling.2, le_rfl⟩ hv hw).1

/-- C96: HSPF2 of a single-stage unit with any motor and any sizes, from the curves of its tables, the rated fan powers `wc`, `w` and those in the tests, `vc` and `v`. -/
theorem C96_single_hspf_any (h : build u E T brentq a = .ok B) (hst : B.core.st = .single) (ht : ∀ d, a.tables = some d → RatedTables 1 d) (hd : a.chargeDeviation = 0)
    (hstd : a.standard = .ahri2023) (hon : a.heatingOn = none) (hcd : 0 ≤ cd a.cdHeating) (hcd1 : cd a.cdHeating < 1) {vc wc v w : ℝ}
    (hvc : (B.unit u E T brentq).fanPower B.points.aFull = .ok vc) (hwc : B.core.cool.power[0]? = some (some wc)) (hv : (B.unit u E T brentq).fanPower B.points.h1Full = .ok v)
    (hw : B.core.heat.power[0]? = some (some w)) (h95 : Outdoor E (frF 95)) (h47 : Outdoor E (frF 47)) (h35 : Outdoor E (frF 35)) (h17 : Outdoor E (frF 17))
    {c : Curves ℝ} (hc : Follows B.core.net 1 c) (hq : 0 < (c.withFan (vc - wc) (v - w)).coolingCapacity (frF 95))
    {r : Nat} {design z cx cv : ℝ} {hours : List ℝ} (hr : regionData .ahri2023 r = some (design, hours, some (cx, cv, z))) {f : ℝ} (hf : a.defrost.demandCredit u = .ok f)
    (hp : ∀ t ∈ (seasonTemperatures : List ℝ), 0 < ((c.withFan (vc - wc) (v - w)).heatTests (a.defrost.inDefrost (frF 35)) v).p t) :
    B.hspf u E T brentq r = .ok (((c.withFan (vc - wc) (v - w)).heatTests (a.defrost.inDefrost (frF 35)) v).oneStageSeason (cd a.cdHeating) (toF B.heatingOff)
      (heatBuildingLoad z design (cx * (c.withFan (vc - wc) (v - w)).coolingCapacity (frF 95))) (seasonTemperatures.zip hours) * f / u.btuh) := by
  have ht' : ∀ d, a.tables = some d → RatedTables (tableSpeeds B.core.st) d := fun d h => by rw [hst]; exact ht d h
  obtain ⟨st0, q47, nC, nH, b2, b3, b4, b6, b7, b8, b9, b10⟩ := build_steps h
  have hfullc : B.core.rc.full = 0 := by rw [b6, hst]; rfl
  have hfullh : B.core.rh.full = 0 := by rw [b7, hst]; rfl
  have hM := C96_full_tests_any h ht' hd h47 h35 h17 (c := c) (by rw [if_pos hst]; exact hc) hv (by rw [hfullh]; exact hw) (vc - wc)
  have t3 := cooling_95_single h hst ht' hd h95 hc hvc (by rw [hfullc]; exact hwc) (v - w)
  obtain ⟨r1, r2, -, r3, ⟨n, r4, r5⟩, r6, d, k, e1, e2, e3, e4, e5, e6, -⟩ := region_2023 hr
  obtain ⟨g1, g2, g3, g4⟩ := heat_settings h hon
  have hs1 : B.heatSettings.st = .single := hst
  have hstd' : hspfStandard B.standard = .ahri2023 := by rw [g3, hstd]; rfl
  generalize (c.withFan (vc - wc) (v - w)).coolingCapacity (frF 95) = Q at *
  have hfull : 0 < cx * Q := mul_pos r2 hq
  have := one_stage_season hM (u := u) (std := .ahri2023) (s := B.heatSettings) (d := d) (f := f) hs1 g1 (by rw [g2]; exact hcd) (by rw [g2]; exact hcd1) hp e3 e2 r3
    (load := heatBuildingLoad z design (cx * Q)) (fun t => heatBuildingLoad_nonneg r1 hfull.le)
    (C50_load_2023 t3 e4 e5 (by rw [hs1]; exact e6) r1 hfull.le) r4 r5 (heatBuildingLoad_pos r1 hfull r6)
  rw [g2] at this
  simp only [Built.hspf, DX.hspf, hstd', e1, g4, hf, bind_ok]
  exact this

/-! ## From the ratings -/

/-- The fans of a single-stage unit: rated with the pressure at the larger airflow of both modes, in the tests at the pressure that has 0.5 inH2O at the airflow of the mode. -/
theorem single_fans {q95 q47 : ℝ} (ht : a.tables = none) (hbr : a.motorPSC.getD true = false → BrentqSpec brentq) (hs : a.standard = .ahri2023) (hB : build u E T brentq a = .ok B) {net : Perf ℝ}
    (hM : Made u E a .single net [q95] [q47] B) (h95 : 0 < q95) (h47 : 0 < q47) :
    let fan := unitFan (a.motorPSC.getD true) u.ton (max q95 q47)
    let s (x : ℝ) : ℝ := if a.ducted then x else 0
    B.core.cool.power[0]? = some (some (fan q95 (s 1))) ∧ (B.unit u E T brentq).fanPower B.points.aFull = .ok (fan q95 (s ((max q95 q47 / q95) ^ 2))) ∧
      B.core.heat.power[0]? = some (some (fan q47 (s 1))) ∧ (B.unit u E T brentq).fanPower B.points.h1Full = .ok (fan q47 (s ((max q95 q47 / q47) ^ 2))) := by
  intro fan s
  have hpsc : B.core.psc = a.motorPSC.getD true := hM.motor
  have ht : ∀ d, a.tables = some d → RatedTables (tableSpeeds B.core.st) d := fun d hd => by rw [ht] at hd; cases hd
  have hbr : B.core.psc = false → BrentqSpec brentq := fun e => hbr (by rw [← e, hpsc])
  have he := esp_2023 hB hs
  obtain ⟨st0, q, nC, nH, b2, b3, b4, b6, b7, b8, b9, b10⟩ := build_steps hB
  obtain ⟨g1, -, g3, -⟩ := full_points b10
  have fc : B.core.rc.full = 0 := hM.full.1
  have fh : B.core.rh.full = 0 := hM.full.2
  rw [fc] at g1
  rw [fh] at g3
  have hL : 0 < max q95 q47 := h95.trans_le (le_max_left _ _)
  have sq : ∀ {x : ℝ}, 0 < x → x ≤ max q95 q47 → (x / max q95 q47) ^ 2 ≤ 3 := by
    intro x h0 h1
    have : x / max q95 q47 ≤ 1 := (div_le_one hL).2 h1
    have : 0 < x / max q95 q47 := div_pos h0 hL
    nlinarith
  obtain ⟨c1, c2⟩ := C88_fan_power hB ht hM hbr (x := q95) (y := q47) rfl rfl hL false (i := 0) (q := q95) (q0 := q95) rfl rfl h95 h95 (sq h95 (le_max_left _ _))
  obtain ⟨d1, d2⟩ := C88_fan_power hB ht hM hbr (x := q95) (y := q47) rfl rfl hL true (i := 0) (q := q47) (q0 := q47) rfl rfl h47 h47 (sq h47 (le_max_right _ _))
  have c3 := c2 g1
  have d3 := d2 g3
  rw [he, hpsc] at c1 d1 c3 d3
  rw [if_pos (show (0 : Nat) = fullIndex .single from rfl), mul_one] at c1 d1
  simp only [Bool.false_eq_true, if_false, if_true] at c1 d1
  have ite : ∀ z : ℝ, ((if a.ducted = true then 1 else 0 : ℝ)) * z = s z := by intro z; simp only [s]; split <;> simp
  rw [ite] at c3 d3
  exact ⟨c1, c3, d1, d3⟩

theorem single_tests (btuh q95 seer2 eer2 q47 : ℝ) (q17 : Option ℝ) (hspf2 : ℝ) (cop : Option ℝ) (cd : ℝ) (b : Bool) (ec e v : ℝ) :
    ((singleCurves btuh q95 seer2 eer2 q47 q17 hspf2 cop cd).withFan ec e).heatTests b v = highTests b q47 (heating17 q47 q17) (heatingCop hspf2 cop) e v := by
  simp only [Curves.heatTests, Curves.withFan, singleCurves, highTests, ends_35, ends_heating.1, ends_heating.2.1, fullHeatingCapacity, fullHeatingPower]

/-- The cooling capacity of a single-stage unit in the test at 95 °F: the rated one less what its fan draws there more than rated. -/
noncomputable def singleCooling (psc ducted : Bool) (ton q95 q47 : ℝ) : ℝ :=
  let fan := unitFan psc ton (max q95 q47) q95
  q95 - (fan (if ducted then (max q95 q47 / q95) ^ 2 else 0) - fan (if ducted then 1 else 0))

/-- The seasonal heating performance of a single-stage unit with a cooling capacity `q95` and heating capacities `q47`, `q17`, COP `cop` at 47 °F and fan of the given motor, for a building whose load is `load Q` if the unit's cooling
capacity is `Q`. -/
noncomputable def singleHspf (psc ducted : Bool) (ton q95 q47 q17 cop : ℝ) (defrosts : Bool) (cd off : ℝ) (load : ℝ → ℝ → ℝ) (bins : List (ℝ × ℝ)) : ℝ :=
  let fan := unitFan psc ton (max q95 q47) q47
  let v := fan (if ducted then (max q95 q47 / q47) ^ 2 else 0)
  (highTests defrosts q47 q17 cop (v - fan (if ducted then 1 else 0)) v).oneStageSeason cd off (load (singleCooling psc ducted ton q95 q47)) bins

/-- What a fan draws in the tests and as rated. -/
theorem test_fan {q L : ℝ} (psc ducted : Bool) (hu : UsualUnits u) (hq : 0 < q) (hle : q ≤ L) (hge : L ^ 2 ≤ 3 * q ^ 2) :
    let w := unitFan psc u.ton L q (if ducted then 1 else 0)
    let v := unitFan psc u.ton L q (if ducted then (L / q) ^ 2 else 0)
    0 < w ∧ w ≤ v ∧ v < 0.096 * q := by
  intro w v
  have hL : 0 < L := hq.trans_le hle
  have e1 : 1 ≤ (L / q) ^ 2 := by
    have : 1 ≤ L / q := (one_le_div hq).2 hle
    nlinarith
  have e3 : (L / q) ^ 2 ≤ 3 := by rw [div_pow, div_le_iff₀ (by positivity)]; exact hge
  have z0 : (0 : ℝ) ≤ if ducted then 1 else 0 := by split <;> norm_num
  have z1 : (0 : ℝ) ≤ if ducted then (L / q) ^ 2 else 0 := by split <;> linarith
  have z2 : (if ducted then (L / q) ^ 2 else 0) ≤ 3 := by split <;> linarith
  have hto := u.ton_pos
  refine ⟨(unitFan_bounds hu hq hle z0 (by split <;> norm_num)).1, ?_, (unitFan_bounds hu hq hle z1 z2).2⟩
  exact mul_le_mul_of_nonneg_left (fanWatts_mono (div_pos hq hL) ((div_le_one hL).2 hle) (by split <;> linarith)) (by positivity)

theorem singleCooling_pos {q95 q47 : ℝ} (psc ducted : Bool) (hu : UsualUnits u) (h95 : 0 < q95) (h47 : 0 < q47) (hc : Comparable q95 q47) : 0 < singleCooling psc ducted u.ton q95 q47 := by
  obtain ⟨a1, a2, a3⟩ := test_fan psc ducted hu h95 (le_max_left q95 q47) (sizes_max h95 h47 hc le_rfl)
  unfold singleCooling
  simp only
  linarith

/-- The power in the tests is positive through the season. -/
theorem single_pos {b : Bool} {q h κ e v : ℝ} (hq : 0 < q) (h1 : 0.5 * q ≤ h) (h2 : h ≤ 2 * q) (hκ : 0 < κ) (he : 0 ≤ e) (hv : 0 ≤ v) :
    ∀ t ∈ (seasonTemperatures : List ℝ), 0 < (highTests b q h κ e v).p t := by
  have k0 : 0 < 1 / κ := one_div_pos.2 hκ
  have m1 := mul_nonneg (sub_nonneg.2 h1) k0.le
  have m2 := mul_nonneg (sub_nonneg.2 h2) k0.le
  have m3 := mul_pos hq k0
  refine tests_pos (b := b) (w := v) (p1 := q / κ + e) (p3 := h / κ * input17 + e) rfl rfl ?_ ?_ ?_ ?_ hv
  · show frosted b 0.0087 v _ = frosted b 0.0087 v _
    congr 1; ring
  all_goals
    rw [show q / κ = q * (1 / κ) by ring]
    try rw [show h / κ = h * (1 / κ) by ring]
    generalize 1 / κ = k at *
    try unfold input17
    linarith

/-- What the season of a single-stage unit needs besides its ratings, whatever its motor. -/
structure SingleSeason (E : Env ℝ) (a : Args) : Prop where
  standard : a.standard = .ahri2023
  cutIn : a.heatingOn = none
  cd : 0 ≤ cd a.cdHeating ∧ cd a.cdHeating < 1
  outdoor : Outdoor E (frF 47) ∧ Outdoor E (frF 35) ∧ Outdoor E (frF 17)

/-- C96, from the ratings to the HSPF2 of a single-stage unit, for both motors, ducted or not, whichever mode is larger: within the ranges of `C90_single_range` the unit can be made and its HSPF2 in every climate region is the one of
the specification. -/
theorem C96_single_any {q95 seer2 eer2 : ℝ} (hu : UsualUnits u) (ht : a.tables = none) (hst : a.staging = some .single) (hq : a.cooling = .num q95) (hs : a.seer = some seer2)
    (he : inputEer a = some eer2) (hh : a.netHeatingCop.isSome ∨ a.hspf.isSome) (heer : 0 < eer2) (hseer : eer2 ≤ seer2) (hseer' : seer2 ≤ 16.5) (hcd : 0 ≤ cd a.cdCooling ∧ cd a.cdCooling ≤ 0.25)
    (h95 : 0 < q95) (hsize : Comparable q95 (ratedHeating u a .single q95)) (hmx : UsualCooling a.coolingOff)
    (hheat : UsualHeating 5 0 (ratedHeating u a .single q95) (heating17 (ratedHeating u a .single q95) a.heating17) (heatingCop (a.hspf.getD 0) a.netHeatingCop) (lowestTemperature a .single))
    (hcold : heating17 (ratedHeating u a .single q95) a.heating17 ≤ 2 * ratedHeating u a .single q95) (h : Surroundings u E T brentq a .single [q95]) (hset : SingleSeason E a) :
    ∃ B, build u E T brentq a = .ok B ∧ B.core.st = .single ∧ ∀ {r : Nat} {design z cx cv : ℝ} {hours : List ℝ} {f : ℝ}, regionData .ahri2023 r = some (design, hours, some (cx, cv, z)) →
      a.defrost.demandCredit u = .ok f →
      B.hspf u E T brentq r = .ok (singleHspf (a.motorPSC.getD true) a.ducted u.ton q95 (ratedHeating u a .single q95) (heating17 (ratedHeating u a .single q95) a.heating17)
        (heatingCop (a.hspf.getD 0) a.netHeatingCop) (a.defrost.inDefrost (frF 35)) (cd a.cdHeating) (toF (lowestTemperature a .single)) (fun Q => heatBuildingLoad z design (cx * Q))
        (seasonTemperatures.zip hours) * f / u.btuh) := by
  obtain ⟨B, net, hB, hM, hF⟩ := C90_single_range hu ht hst hq hs he hh heer hseer hseer' hcd h95 hsize hmx hheat h
  refine ⟨B, hB, hM.staging, fun {r design z cx cv hours f} hr hf => ?_⟩
  have hpos := hheat.rated
  have hcop := hheat.cop_pos
  have hc1 := hheat.cold
  have hoff : B.heatingOff = lowestTemperature a .single := by
    obtain ⟨st0, _, _, _, _, _, b1, -, -, -, b5, -⟩ := build_ok hB
    rw [hst] at b1
    cases b1
    rw [b5, offTemperature_eq]
  obtain ⟨f1, f2, f3, f4⟩ := single_fans ht (fun e => h.root (by rw [← e]; rfl)) hset.standard hB hM h95 hpos
  obtain ⟨a1, a2, a3⟩ := test_fan (a.motorPSC.getD true) a.ducted hu hpos (le_max_right q95 _) (sizes_max' h95 hpos hsize le_rfl)
  have hQ := singleCooling_pos (a.motorPSC.getD true) a.ducted hu h95 hpos hsize
  have key := C96_single_hspf_any hB hM.staging (fun d hd => by rw [ht] at hd; cases hd) h.charge hset.standard hset.cutIn hset.cd.1 hset.cd.2 f2 f1 f4 f3 h.outdoor hset.outdoor.1
    hset.outdoor.2.1 hset.outdoor.2.2 (c := singleCurves u.btuh q95 seer2 eer2 (ratedHeating u a .single q95) a.heating17 (a.hspf.getD 0) a.netHeatingCop (cd a.cdCooling)) (by rw [hM.tables]; exact hF)
    (r := r) (f := f) (hours := hours) (design := design) (z := z) (cx := cx) (cv := cv)
  have e95 : ∀ ec eh, ((singleCurves u.btuh q95 seer2 eer2 (ratedHeating u a .single q95) a.heating17 (a.hspf.getD 0) a.netHeatingCop (cd a.cdCooling)).withFan ec eh).coolingCapacity (frF 95) = q95 - ec := by
    intro ec eh
    show Ends.cooling _ (frF 95) - ec = q95 - ec
    rw [show Ends.cooling _ (frF 95) = q95 from ends_cooling.2]
  rw [single_tests, e95, hoff] at key
  exact key hQ hr hf (single_pos hpos hc1 hcold hcop (sub_nonneg.2 a2) (a1.le.trans a2))

end Resdx.Build

namespace Resdx.Sample

open Spec Tabular BaseModel Props ResnetFan Fan Table Build DX

/-- A single-stage unit of any size with a BPM motor that heats more than it cools. -/
noncomputable def bpmArgs (q : ℝ) : Args :=
  { staging := some .single, cooling := .num q, heating := some (1.3 * q), netHeatingCop := some 3.2, seer := some 14, eer := some 12, hspf := some 8, motorPSC := some false, ducted := true, defrost }

/-- The hypotheses of `C96_single_any` hold for these units: their HSPF2 in region 4. -/
example {brentq : Brentq} (hbr : BrentqSpec brentq) {q : ℝ} (hq : 0 < q) : ∃ B v, build units env tools brentq (bpmArgs q) = .ok B ∧ B.hspf units env tools brentq 4 = .ok v := by
  have hr : ratedHeating units (bpmArgs q) .single q = 1.3 * q := rfl
  have h17 : heating17 (1.3 * q) (bpmArgs q).heating17 = (1.3 * q) * 0.626 := by norm_num [heating17, bpmArgs]; ring
  obtain ⟨B, hB, -, h⟩ := C96_single_any (u := units) (E := env) (T := tools) (brentq := brentq) (a := bpmArgs q) usualUnits rfl rfl rfl rfl rfl (.inl rfl) (by norm_num) (by norm_num) (by norm_num)
    (by norm_num [Build.cd, bpmArgs]) hq (by rw [hr]; constructor <;> nlinarith) off125
    (by rw [hr, h17]
        exact ⟨by positivity, by linarith, by norm_num [heatingCop, bpmArgs], by norm_num [heatingCop, bpmArgs], by simp [lowestTemperature, bpmArgs],
          by simp only [lowestTemperature, bpmArgs, Option.getD]; rw [if_neg (by decide), frF_lt]; norm_num⟩)
    (by rw [hr, h17]; linarith) (surroundings hbr rfl rfl rfl rfl rfl (by simpa using hq)) ⟨rfl, rfl, by norm_num [Build.cd, bpmArgs], outdoorAir _, outdoorAir _, outdoorAir _⟩
  exact ⟨B, _, hB, h rfl (f := 1) rfl⟩

end Resdx.Sample
