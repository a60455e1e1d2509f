import Verif.Props.SeasonSingle
import Verif.Props.Util

/-!
# C96: the HSPF of single-stage units after the 2017 edition
-/

set_option linter.unusedSectionVars false
set_option linter.unusedSimpArgs false

namespace Resdx.Spec

/-- The design heating requirements listed in AHRI 210/240-2017, in kBtu/h. -/
def listedRequirements : List ℝ := [5, 10, 15, 20, 25, 30, 35, 40, 50, 60, 70, 80, 90, 100, 110, 120, 130]

/-- The external static pressure at full airflow of AHRI 210/240-2017 as a share of 0.5 inH2O: 0.1, 0.15 or 0.2 inH2O for ducted units of up to 29, up to 43 and more than 43 kBtu/h. -/
noncomputable def pressure2017 (btuh : ℝ) (ducted : Bool) (q95 : ℝ) : ℝ := if ducted then (if q95 ≤ 29000 * btuh then 0.2 else if q95 ≤ 43000 * btuh then 0.3 else 0.4) else 0

/-- The seasonal heating performance of a single-stage unit whose design pressure is the share `s` of 0.5 inH2O. -/
noncomputable def singleHspfAt (psc : Bool) (s ton q95 q47 q17 cop : ℝ) (defrosts : Bool) (cd off : ℝ) (load : ℝ → ℝ) (bins : List (ℝ × ℝ)) : ℝ :=
  let fan := unitFan psc ton (max q95 q47) q47
  let v := fan (s * (max q95 q47 / q47) ^ 2)
  (highTests defrosts q47 q17 cop (v - fan s) v).oneStageSeason cd off load bins

/-- The heating capacity of such a unit in the test at 47 °F. -/
noncomputable def singleH1 (psc : Bool) (s ton q95 q47 : ℝ) : ℝ := q47 + (unitFan psc ton (max q95 q47) q47 (s * (max q95 q47 / q47) ^ 2) - unitFan psc ton (max q95 q47) q47 s)

end Resdx.Spec

namespace Resdx.Build

open Spec Tabular BaseModel Props ResnetFan Fan Table DX

variable {u : Units ℝ} {E : Env ℝ} {T : Coil.Tools} {brentq : Brentq} {a : Args} {B : Built}

theorem designRequirements_list : designRequirements u = listedRequirements.map (· * 1000 * u.btuh) := by
  simp only [designRequirements, listedRequirements, List.range, List.range.loop, List.map, List.cons_append, List.nil_append, List.cons.injEq, and_true]
  norm_num
  refine ⟨?_, ?_, ?_, ?_, ?_, ?_, ?_, ?_, ?_, ?_, ?_, ?_, ?_, ?_, ?_⟩ <;> ring

/-- The data of a region of AHRI 210/240-2017. -/
theorem region_2017 {r : Nat} {design : ℝ} {hours : List ℝ} (h : regionData .ahri2017 r = some (design, hours, none)) :
    design < 65 ∧ (∀ n ∈ hours, 0 ≤ n) ∧ (∃ n, ((52 : ℝ), n) ∈ seasonTemperatures.zip hours ∧ 0 < n) ∧
      ∃ d k, regional .ahri2017 r = .ok d ∧ 0 < k ∧ d.hours = hours.map (· / k) ∧ d.design = frF design := by
  have key : ∀ (hl : hours.length = 18) (hs : 0 < hours.sum), ∃ d k, regional .ahri2017 r = .ok d ∧ 0 < k ∧ d.hours = hours.map (· / k) ∧ d.design = frF design := by
    intro hl hs
    obtain ⟨d, hd⟩ := (C55_accepts (frF design) hours none none none).2 ⟨hl, hs.ne'⟩
    obtain ⟨-, -, -, ⟨k, h1, -, h2⟩, h3, h4, h5, h6⟩ := C55_accepted hd
    refine ⟨d, k, by simp only [regional, h]; exact hd, ?_, h1, h3⟩
    rcases h2 with rfl | ⟨rfl, -⟩
    · exact one_pos
    · exact hs
  have hr : 1 ≤ r ∧ r ≤ 6 := by
    by_contra hn
    have : regionData .ahri2017 r = (none : Option (ℝ × List ℝ × Option (ℝ × ℝ × ℝ))) := by
      unfold regionData
      split <;> first | rfl | omega | cases ‹RatingStandard.ahri2017 = _›
    rw [this] at h; cases h
  obtain ⟨r1, r6⟩ := hr
  interval_cases r <;> simp only [regionData, Option.some.injEq, Prod.mk.injEq] at h <;> obtain ⟨rfl, rfl, -⟩ := h <;>
    refine ⟨by norm_num, ?_, ⟨_, .tail _ (.tail _ (.head _)), by norm_num⟩, key rfl (by norm_num [List.sum_cons])⟩ <;>
    (simp only [List.forall_mem_cons, List.not_mem_nil, false_imp_iff, implies_true, and_true]; norm_num)

/-- C96, 2017 edition: the HSPF of a constructed single-stage unit with any motor, from the curves of its net tables, the rated fan power `w` and that in the tests, `v`. The load is 77 % of the listed design heating requirement
nearest to the one that follows from the capacity at 47 °F. -/
theorem C96_single_hspf_2017 (h : build u E T brentq a = .ok B) (hst : B.core.st = .single) (ht : ∀ d, a.tables = some d → RatedTables 1 d) (hd : a.chargeDeviation = 0)
    (hstd : a.standard = .ahri2017) (hon : a.heatingOn = none) (hcd : 0 ≤ cd a.cdHeating) (hcd1 : cd a.cdHeating < 1) {v w : ℝ} (hv : (B.unit u E T brentq).fanPower B.points.h1Full = .ok v)
    (hw : B.core.heat.power[0]? = some (some w)) (h47 : Outdoor E (frF 47)) (h35 : Outdoor E (frF 35)) (h17 : Outdoor E (frF 17)) {c : Curves ℝ} (hc : Follows B.core.net 1 c)
    {r : Nat} {design dhr : ℝ} {hours : List ℝ} (hr : regionData .ahri2017 r = some (design, hours, none)) {f : ℝ} (hf : a.defrost.demandCredit u = .ok f)
    (hdhr : IsEarliestNearest (listedRequirements.map (· * 1000 * u.btuh)) ((c.withFan 0 (v - w)).heatingCapacity (frF 47) * (65 - design) / 60) dhr)
    (hp : ∀ t ∈ (seasonTemperatures : List ℝ), 0 < ((c.withFan 0 (v - w)).heatTests (a.defrost.inDefrost (frF 35)) v).p t) :
    B.hspf u E T brentq r = .ok (((c.withFan 0 (v - w)).heatTests (a.defrost.inDefrost (frF 35)) v).oneStageSeason (cd a.cdHeating) (toF B.heatingOff)
      (heatBuildingLoad 65 design (77 / 100 * dhr)) (seasonTemperatures.zip hours) * f / u.btuh) := by
  have ht' : ∀ d, a.tables = some d → RatedTables (tableSpeeds B.core.st) d := fun d h => by rw [hst]; exact ht d h
  obtain ⟨st0, q47, nC, nH, b2, b3, b4, b6, b7, b8, b9, b10⟩ := build_steps h
  have hfullh : B.core.rh.full = 0 := by rw [b7, hst]; rfl
  have hM := C96_full_tests_any h ht' hd h47 h35 h17 (c := c) (by rw [if_pos hst]; exact hc) hv (by rw [hfullh]; exact hw) 0
  obtain ⟨r1, r3, ⟨n, r4, r5⟩, d, k, e1, e2, e3, e4⟩ := region_2017 hr
  obtain ⟨g1, g2, g3, g4⟩ := heat_settings h hon
  have hs1 : B.heatSettings.st = .single := hst
  have hstd' : hspfStandard B.standard = .ahri2017 := by rw [g3, hstd]; rfl
  obtain ⟨x, hx, hx'⟩ := Props.C03_findNearest_spec (designRequirements u) ((c.withFan 0 (v - w)).heatingCapacity (frF 47) * (65 - design) / 60) (by rw [designRequirements_list]; simp [listedRequirements])
  have hxd : x = dhr := by rw [designRequirements_list] at hx'; exact C03_nearest_unique _ _ _ _ hx' hdhr
  subst hxd
  have hx0 : 0 < x := by
    obtain ⟨i, hi, e, -⟩ := hx'
    have := (C50_design_requirements u x (e ▸ List.getElem_mem hi)).1
    have hb := u.btuh_pos
    linarith
  have hfull : 0 < 77 / 100 * x := by positivity
  have := one_stage_season hM (u := u) (std := .ahri2017) (s := B.heatSettings) (d := d) (f := f) hs1 g1 (by rw [g2]; exact hcd) (by rw [g2]; exact hcd1) hp e3 e2 r3
    (load := heatBuildingLoad 65 design (77 / 100 * x)) (fun t => heatBuildingLoad_nonneg r1 hfull.le)
    (C50_load_2017 hM.q1 e4 r1 hx hx0.le) r4 r5 (heatBuildingLoad_pos r1 hfull (by norm_num))
  rw [g2] at this
  simp only [Built.hspf, DX.hspf, hstd', e1, g4, hf, bind_ok]
  exact this

/-! ## From the ratings -/

theorem esp_2017 (h : build u E T brentq a = .ok B) (hs : a.standard = .ahri2017) {net : Perf ℝ} {st : Staging} {q95 : ℝ} {qc qh : List ℝ} (hM : Made u E a st net (q95 :: qc) qh B) :
    B.core.fullESP / (0.5 * u.inH2O) = pressure2017 u.btuh a.ducted q95 := by
  have hI := u.inH2O_pos
  obtain ⟨st0, q47, nC, nH, b2, b3, b4, b6, b7, hK, hS, b10⟩ := build_steps h
  unfold core at hK
  simp only [bind_eq_ok] at hK
  obtain ⟨qc', h1, qh, h2, esp, h3, ⟨cool, heat, fan⟩, h4, cp, h5, hp, h6, gross, h7, ncc, -, gcc, h9, nhc, -, ghc, h11, h12⟩ := hK
  simp only [pure_eq_ok, Except.ok.injEq] at h12
  have e : B.core.fullESP = esp := by rw [← h12]
  obtain ⟨ac, ah, A1, A2, A3, A4, A5, A6⟩ := setFan_sets u (motor_local u brentq _) h4
  have c1 : B.core.cool.caps = qc' := by rw [← h12]; exact A5.caps
  rw [hM.coolCaps] at c1
  subst c1
  rw [e]
  unfold fullFlowPressure at h3
  rw [hs] at h3
  unfold pressure2017
  cases hd : a.ducted
  · simp [hd] at h3; simp [← h3]
  · simp only [hd, Bool.true_eq_false, if_false, if_true, bind_eq_ok] at h3 ⊢
    obtain ⟨q, hq, h3⟩ := h3
    have hq' : q = q95 := by
      have : pyGet (q95 :: qc) 0 = Except.ok q95 := rfl
      rw [this] at hq; exact (Except.ok.inj hq).symm
    subst hq'
    split at h3
    · rename_i h1
      rw [if_pos h1]
      simp only [pure_eq_ok, Except.ok.injEq] at h3
      rw [← h3, mul_div_mul_right _ _ hI.ne']; norm_num
    · rename_i h1
      rw [if_neg h1]
      split at h3
      · rename_i h2
        rw [if_pos h2]
        simp only [pure_eq_ok, Except.ok.injEq] at h3
        rw [← h3, mul_div_mul_right _ _ hI.ne']; norm_num
      · rename_i h2
        rw [if_neg h2]
        simp only [pure_eq_ok, Except.ok.injEq] at h3
        rw [← h3, mul_div_mul_right _ _ hI.ne']; norm_num

theorem pressure2017_bounds (btuh : ℝ) (ducted : Bool) (q95 : ℝ) : 0 ≤ pressure2017 btuh ducted q95 ∧ pressure2017 btuh ducted q95 ≤ 1 := by
  unfold pressure2017
  split
  · split
    · norm_num
    · split <;> norm_num
  · norm_num

/-- The fan of a single-stage unit in heating at a design pressure of the share `s` of 0.5 inH2O. -/
theorem single_heat_fan {q95 q47 s : ℝ} (ht : a.tables = none) (hbr : a.motorPSC.getD true = false → BrentqSpec brentq) (hB : build u E T brentq a = .ok B) {net : Perf ℝ}
    (hM : Made u E a .single net [q95] [q47] B) (h95 : 0 < q95) (h47 : 0 < q47) (he : B.core.fullESP / (0.5 * u.inH2O) = s) :
    B.core.heat.power[0]? = some (some (unitFan (a.motorPSC.getD true) u.ton (max q95 q47) q47 s)) ∧
      (B.unit u E T brentq).fanPower B.points.h1Full = .ok (unitFan (a.motorPSC.getD true) u.ton (max q95 q47) q47 (s * (max q95 q47 / q47) ^ 2)) := by
  have hpsc : B.core.psc = a.motorPSC.getD true := hM.motor
  have ht : ∀ d, a.tables = some d → RatedTables (tableSpeeds B.core.st) d := fun d hd => by rw [ht] at hd; cases hd
  have hbr : B.core.psc = false → BrentqSpec brentq := fun e => hbr (by rw [← e, hpsc])
  obtain ⟨st0, q, nC, nH, b2, b3, b4, b6, b7, b8, b9, b10⟩ := build_steps hB
  obtain ⟨-, -, g3, -⟩ := full_points b10
  have fh : B.core.rh.full = 0 := hM.full.2
  rw [fh] at g3
  have hL : 0 < max q95 q47 := h95.trans_le (le_max_left _ _)
  have sq : (q47 / max q95 q47) ^ 2 ≤ 3 := by
    have : q47 / max q95 q47 ≤ 1 := (div_le_one hL).2 (le_max_right _ _)
    have : 0 < q47 / max q95 q47 := div_pos h47 hL
    nlinarith
  obtain ⟨d1, d2⟩ := C88_fan_power hB ht hM hbr (x := q95) (y := q47) rfl rfl hL true (i := 0) (q := q47) (q0 := q47) rfl rfl h47 h47 sq
  have d3 := d2 g3
  rw [he, hpsc] at d1 d3
  rw [if_pos (show (0 : Nat) = fullIndex .single from rfl), mul_one] at d1
  simp only [if_true] at d1
  exact ⟨d1, d3⟩

/-- C96, 2017 edition, from the ratings to the HSPF of a single-stage unit, for both motors, ducted or not: within the ranges of `C90_single_range` the unit can be made and its HSPF in every climate region is the one of the
specification, for the listed design heating requirement nearest to the one that follows from the tested capacity. -/
theorem C96_single_2017 {q95 seer2 eer2 : ℝ} (hu : UsualUnits u) (ht : a.tables = none) (hst : a.staging = some .single) (hq : a.cooling = .num q95) (hs : a.seer = some seer2)
    (he : inputEer a = some eer2) (hh : a.netHeatingCop.isSome ∨ a.hspf.isSome) (heer : 0 < eer2) (hseer : eer2 ≤ seer2) (hseer' : seer2 ≤ 16.5) (hcd : 0 ≤ cd a.cdCooling ∧ cd a.cdCooling ≤ 0.25)
    (h95 : 0 < q95) (hsize : Comparable q95 (ratedHeating u a .single q95)) (hmx : UsualCooling a.coolingOff)
    (hheat : UsualHeating 5 0 (ratedHeating u a .single q95) (heating17 (ratedHeating u a .single q95) a.heating17) (heatingCop (a.hspf.getD 0) a.netHeatingCop) (lowestTemperature a .single))
    (hcold : heating17 (ratedHeating u a .single q95) a.heating17 ≤ 2 * ratedHeating u a .single q95) (h : Surroundings u E T brentq a .single [q95]) (hstd : a.standard = .ahri2017)
    (hon : a.heatingOn = none) (hcdh : 0 ≤ cd a.cdHeating ∧ cd a.cdHeating < 1) (ho : Outdoor E (frF 47) ∧ Outdoor E (frF 35) ∧ Outdoor E (frF 17)) :
    let s := pressure2017 u.btuh a.ducted q95
    let q47 := ratedHeating u a .single q95
    ∃ B, build u E T brentq a = .ok B ∧ B.core.st = .single ∧ ∀ {r : Nat} {design dhr : ℝ} {hours : List ℝ} {f : ℝ}, regionData .ahri2017 r = some (design, hours, none) → a.defrost.demandCredit u = .ok f →
      IsEarliestNearest (listedRequirements.map (· * 1000 * u.btuh)) (singleH1 (a.motorPSC.getD true) s u.ton q95 q47 * (65 - design) / 60) dhr →
      B.hspf u E T brentq r = .ok (singleHspfAt (a.motorPSC.getD true) s u.ton q95 q47 (heating17 q47 a.heating17) (heatingCop (a.hspf.getD 0) a.netHeatingCop) (a.defrost.inDefrost (frF 35)) (cd a.cdHeating)
        (toF (lowestTemperature a .single)) (heatBuildingLoad 65 design (77 / 100 * dhr)) (seasonTemperatures.zip hours) * f / u.btuh) := by
  intro s q47
  obtain ⟨B, net, hB, hM, hF⟩ := C90_single_range hu ht hst hq hs he hh heer hseer hseer' hcd h95 hsize hmx hheat h
  refine ⟨B, hB, hM.staging, fun {r design dhr hours f} hr hf hdhr => ?_⟩
  have hpos : 0 < q47 := hheat.rated
  have hoff : B.heatingOff = lowestTemperature a .single := by
    obtain ⟨st0, _, _, _, _, _, b1, -, -, -, b5, -⟩ := build_ok hB
    rw [hst] at b1
    cases b1
    rw [b5, offTemperature_eq]
  obtain ⟨f3, f4⟩ := single_heat_fan ht (fun e => h.root (by rw [← e]; rfl)) hB hM h95 hpos (esp_2017 hB hstd hM)
  obtain ⟨s0, s1⟩ := pressure2017_bounds u.btuh a.ducted q95
  have hle : q47 ≤ max q95 q47 := le_max_right _ _
  have hL : 0 < max q95 q47 := hpos.trans_le hle
  have m1 : 1 ≤ (max q95 q47 / q47) ^ 2 := by
    have : 1 ≤ max q95 q47 / q47 := (one_le_div hpos).2 hle
    nlinarith
  have m3 : (max q95 q47 / q47) ^ 2 ≤ 3 := by rw [div_pow, div_le_iff₀ (by positivity)]; exact sizes_max' h95 hpos hsize le_rfl
  have z1 : s ≤ s * (max q95 q47 / q47) ^ 2 := by nlinarith
  have z3 : s * (max q95 q47 / q47) ^ 2 ≤ 3 := by nlinarith
  have hto := u.ton_pos
  have a1 := (unitFan_bounds (psc := a.motorPSC.getD true) hu hpos hle s0 (by linarith)).1
  have a2 : unitFan (a.motorPSC.getD true) u.ton (max q95 q47) q47 s ≤ unitFan (a.motorPSC.getD true) u.ton (max q95 q47) q47 (s * (max q95 q47 / q47) ^ 2) :=
    mul_le_mul_of_nonneg_left (fanWatts_mono (div_pos hpos hL) ((div_le_one hL).2 hle) z1) (by positivity)
  have key := C96_single_hspf_2017 hB hM.staging (fun d hd => by rw [ht] at hd; cases hd) h.charge hstd hon hcdh.1 hcdh.2 f4 f3 ho.1 ho.2.1 ho.2.2
    (c := singleCurves u.btuh q95 seer2 eer2 q47 a.heating17 (a.hspf.getD 0) a.netHeatingCop (cd a.cdCooling)) (by rw [hM.tables]; exact hF) (dhr := dhr) hr hf
  have e47 : ∀ e, ((singleCurves u.btuh q95 seer2 eer2 q47 a.heating17 (a.hspf.getD 0) a.netHeatingCop (cd a.cdCooling)).withFan 0 e).heatingCapacity (frF 47) = q47 + e := by
    intro e
    show Ends.heating _ (frF 47) + e = q47 + e
    rw [show Ends.heating _ (frF 47) = q47 from ends_heating.2.1]
  rw [single_tests, e47, hoff] at key
  exact key hdhr (single_pos hpos hheat.cold hcold hheat.cop_pos (sub_nonneg.2 a2) (a1.le.trans a2))

end Resdx.Build

namespace Resdx.Sample

open Spec Tabular BaseModel Props ResnetFan Fan Table Build DX

/-- The hypotheses of `C96_single_2017` hold for units of any size with a BPM motor that heat more than they cool: their HSPF in region 4. -/
example {brentq : Brentq} (hbr : BrentqSpec brentq) {q : ℝ} (hq : 0 < q) :
    ∃ B v, build units env tools brentq { bpmArgs q with standard := .ahri2017 } = .ok B ∧ B.hspf units env tools brentq 4 = .ok v := by
  have hr : ratedHeating units { bpmArgs q with standard := .ahri2017 } .single q = 1.3 * q := rfl
  have h17 : heating17 (1.3 * q) (bpmArgs q).heating17 = (1.3 * q) * 0.626 := by norm_num [heating17, bpmArgs]; ring
  obtain ⟨B, hB, -, h⟩ := C96_single_2017 (u := units) (E := env) (T := tools) (brentq := brentq) (a := { bpmArgs q with standard := .ahri2017 }) usualUnits rfl rfl rfl rfl rfl (.inl rfl) (by norm_num) (by norm_num)
    (by norm_num) (by norm_num [Build.cd, bpmArgs]) hq (by rw [hr]; constructor <;> nlinarith) off125
    (by rw [hr, h17]
        exact ⟨by positivity, by linarith, by norm_num [heatingCop, bpmArgs], by norm_num [heatingCop, bpmArgs], by simp [lowestTemperature, bpmArgs],
          by simp only [lowestTemperature, bpmArgs, Option.getD]; rw [if_neg (by decide), frF_lt]; norm_num⟩)
    (by rw [hr, h17]; linarith) (surroundings hbr rfl rfl rfl rfl rfl (by simpa using hq)) rfl rfl (by norm_num [Build.cd, bpmArgs]) ⟨outdoorAir _, outdoorAir _, outdoorAir _⟩
  obtain ⟨x, -, hx⟩ := Props.C03_findNearest_spec (listedRequirements.map (· * 1000 * units.btuh)) (singleH1 false (pressure2017 units.btuh true q) units.ton q (1.3 * q) * (65 - 5) / 60) (by simp [listedRequirements])
  exact ⟨B, _, hB, h rfl (f := 1) rfl hx⟩

end Resdx.Sample
