import Verif.Props.FanWatts
import Verif.Props.SeasonStaged
import Verif.Props.SeasonRatings
import Verif.Props.TwoStage

/-!
# C96: the HSPF2 of two-stage units from their ratings
-/

set_option linter.unusedSectionVars false
set_option linter.unusedSimpArgs false

namespace Resdx.Build

open Spec Tabular BaseModel Props ResnetFan Fan Table DX

variable {u : Units ℝ} {E : Env ℝ} {T : Coil.Tools} {brentq : Brentq} {a : Args} {B : Built}

/-- Ends at 62 °F. -/
theorem ends_62 (e : Ends ℝ) : e.heating (frF 62) = e.high := by
  rw [Ends.heating, if_neg (by rw [not_le, frF_lt]; norm_num)]

theorem high_tests (btuh q95 eer2 q47 : ℝ) (q17 : Option ℝ) (hspf2 : ℝ) (cop : Option ℝ) (b : Bool) (ec e v : ℝ) :
    ((highCurves btuh q95 eer2 q47 q17 hspf2 cop).withFan ec e).heatTests b v = highTests b q47 (heating17 q47 q17) (heatingCop hspf2 cop) e v := by
  simp only [Curves.heatTests, Curves.withFan, highCurves, highTests, ends_35, ends_heating.1, ends_heating.2.1, fullHeatingCapacity, fullHeatingPower]

theorem low_tests (q95 seer2 q47 : ℝ) (q17 : Option ℝ) (hspf2 : ℝ) (cop82 cop : Option ℝ) (b : Bool) (w : ℝ) :
    (lowCurves q95 seer2 q47 q17 hspf2 cop82 cop).lowHeatTests b w = lowTests b q47 (heating17 q47 q17) (heatingCop hspf2 cop) w := by
  simp only [Curves.lowHeatTests, lowCurves, lowTests, ends_35, ends_62, ends_heating.1, ends_heating.2.1, fullHeatingCapacity, fullHeatingPower, Ends.times]
  congr 2 <;> ring

/-- The fans of a two-stage unit whose heating capacity is at most its cooling capacity: rated at high and low stage, and at high stage in the conditions of the tests. -/
theorem two_fans {q95 eer2 : ℝ} (H : UsualTwoStage u a q95 eer2) (h : Surroundings u E T brentq a .two [q95, q95 * 0.728]) (hs : a.standard = .ahri2023) (hB : build u E T brentq a = .ok B) {net : Perf ℝ}
    (hM : Made u E a .two net [q95, q95 * 0.728] [ratedHeating u a .two q95, ratedHeating u a .two q95 * 0.712] B) :
    ∃ wc, B.core.cool.power[0]? = some (some wc) ∧ (B.unit u E T brentq).fanPower B.points.aFull = .ok wc ∧
      B.core.heat.power[0]? = some (some (unitFan (a.motorPSC.getD false) u.ton q95 (ratedHeating u a .two q95) (if a.ducted then 1 else 0))) ∧
      B.core.heat.power[1]? = some (some (unitFan (a.motorPSC.getD false) u.ton q95 (ratedHeating u a .two q95 * 0.712) (if a.ducted then (q95 / ratedHeating u a .two q95) ^ 2 else 0))) ∧
      (B.unit u E T brentq).fanPower B.points.h1Full = .ok (unitFan (a.motorPSC.getD false) u.ton q95 (ratedHeating u a .two q95) (if a.ducted then (q95 / ratedHeating u a .two q95) ^ 2 else 0)) := by
  have hpsc : B.core.psc = a.motorPSC.getD false := hM.motor
  have hq := H.heating.rated
  have hle := H.smaller
  have h95 := H.size
  have hmax : max q95 (ratedHeating u a .two q95) = q95 := max_eq_left hle
  generalize hqq : ratedHeating u a .two q95 = q47 at *
  have ht : ∀ d, a.tables = some d → RatedTables (tableSpeeds B.core.st) d := fun d hd => by rw [H.tables] at hd; cases hd
  have hbr : B.core.psc = false → BrentqSpec brentq := fun e => h.root (by rw [← e, hpsc]; rfl)
  have he := esp_2023 hB hs
  obtain ⟨st0, q, nC, nH, b2, b3, b4, b6, b7, b8, b9, b10⟩ := build_steps hB
  obtain ⟨g1, -, g3, -⟩ := full_points b10
  have fc : B.core.rc.full = 0 := hM.full.1
  have fh : B.core.rh.full = 0 := hM.full.2
  rw [fc] at g1
  rw [fh] at g3
  have sq : ∀ {x : ℝ}, 0 < x → x ≤ q95 → (x / q95) ^ 2 ≤ 3 := by
    intro x h0 h1
    have : x / q95 ≤ 1 := (div_le_one h95).2 h1
    have : 0 < x / q95 := div_pos h0 h95
    nlinarith
  obtain ⟨c1, c2⟩ := C88_fan_power hB ht hM hbr (x := q95) (y := q47) rfl rfl (by rw [hmax]; exact h95) false (i := 0) (q := q95) (q0 := q95) rfl rfl h95 h95 (by rw [hmax]; exact sq h95 le_rfl)
  obtain ⟨d1, d2⟩ := C88_fan_power hB ht hM hbr (x := q95) (y := q47) rfl rfl (by rw [hmax]; exact h95) true (i := 0) (q := q47) (q0 := q47) rfl rfl hq hq (by rw [hmax]; exact sq hq hle)
  obtain ⟨e1, -⟩ := C88_fan_power hB ht hM hbr (x := q95) (y := q47) rfl rfl (by rw [hmax]; exact h95) true (i := 1) (q := q47 * 0.712) (q0 := q47) rfl rfl (by positivity) hq
    (by rw [hmax]; exact sq (by positivity) (by linarith))
  rw [hmax, he, hpsc] at c1 d1 e1
  have c3 := c2 g1
  have d3 := d2 g3
  rw [hmax, he, hpsc] at c3 d3
  rw [div_self h95.ne'] at c3
  rw [if_pos (show (0 : Nat) = fullIndex .two from rfl), mul_one] at c1 d1
  rw [if_neg (show ¬ (1 : Nat) = fullIndex .two by decide)] at e1
  simp only [Bool.false_eq_true, if_false, if_true] at c1 d1 e1
  rw [one_pow, mul_one] at c3
  have ite : ∀ z : ℝ, ((if a.ducted = true then 1 else 0 : ℝ)) * z = if a.ducted = true then z else 0 := by intro z; split <;> simp
  rw [ite] at e1 d3
  exact ⟨_, c1, c3, d1, e1, d3⟩

/-- The bounds of these fan powers. -/
theorem unitFan_bounds {psc : Bool} {q95 q s : ℝ} (hu : UsualUnits u) (hq : 0 < q) (hle : q ≤ q95) (hs : 0 ≤ s) (hs3 : s ≤ 3) :
    0 < unitFan psc u.ton q95 q s ∧ unitFan psc u.ton q95 q s < 0.096 * q := by
  have hto := u.ton_pos
  have h95 : 0 < q95 := hq.trans_le hle
  obtain ⟨f1, f2⟩ := fanWatts_bounds (psc := psc) (div_pos hq h95) ((div_le_one h95).2 hle) hs hs3
  have hf := usual_fan hu
  unfold unitFan
  refine ⟨by positivity, ?_⟩
  calc q * (400 / u.ton) * fanWatts psc (q / q95) s ≤ q * (400 / u.ton) * 0.843 := mul_le_mul_of_nonneg_left f2 (by positivity)
    _ = 337.2 / u.ton * q := by ring
    _ < 0.096 * q := mul_lt_mul_of_pos_right hf hq

theorem season_gap : ∀ t ∈ (seasonTemperatures : List ℝ), 17 ≤ t ∨ t ≤ 12 := by
  simp only [seasonTemperatures, List.forall_mem_cons, List.not_mem_nil, false_imp_iff, implies_true, and_true]
  norm_num

/-- Below 17 °F the load exceeds the low stage, and there is none at 62 °F. -/
theorem region_load {r : Nat} {design z c cv : ℝ} {hours : List ℝ} (h : regionData .ahri2023 r = some (design, hours, some (c, cv, z))) {q : ℝ} (hq : 0 < q) :
    heatBuildingLoad z design (c * q) 62 = 0 ∧ ∀ t ≤ 12, 0.75 * q < heatBuildingLoad z design (c * q) t := by
  have hr : 1 ≤ r ∧ r ≤ 6 := by
    by_contra hn
    have : regionData .ahri2023 r = (none : Option (ℝ × List ℝ × Option (ℝ × ℝ × ℝ))) := by
      unfold regionData
      split <;> first | rfl | omega | cases ‹RatingStandard.ahri2023 = _›
    rw [this] at h; cases h
  obtain ⟨r1, r6⟩ := hr
  have hm : ∀ t : ℝ, t ≤ 12 → 0 ≤ q * (12 - t) := fun t ht => mul_nonneg hq.le (by linarith)
  interval_cases r <;> simp only [regionData, Option.some.injEq, Prod.mk.injEq] at h <;> obtain ⟨rfl, rfl, rfl, rfl, rfl⟩ := h <;>
    (unfold heatBuildingLoad
     refine ⟨by norm_num, fun t ht => ?_⟩
     have := hm t ht
     rw [if_neg (by linarith)]
     norm_num
     nlinarith)

/-- The power of the high stage is positive through the season. -/
theorem high_pos {b : Bool} {q h κ e v : ℝ} (hq : 0 < q) (h1 : 0.6 * q ≤ h) (h2 : h ≤ q) (hκ : 0 < κ) (he : 0 ≤ e) (hv : 0 ≤ v) :
    ∀ t ∈ (seasonTemperatures : List ℝ), 0 < (highTests b q h κ e v).p t := by
  have k0 : 0 < 1 / κ := one_div_pos.2 hκ
  have m1 := mul_nonneg (sub_nonneg.2 h1) k0.le
  have m2 := mul_nonneg (sub_nonneg.2 h2) k0.le
  have m3 := mul_pos hq k0
  refine tests_pos (b := b) (w := v) (p1 := q / κ + e) (p3 := h / κ * input17 + e) rfl rfl ?_ ?_ ?_ ?_ hv
  · show frosted b 0.0087 v _ = frosted b 0.0087 v _
    congr 1; ring
  all_goals
    rw [show q / κ = q * (1 / κ) by ring]
    try rw [show h / κ = h * (1 / κ) by ring]
    generalize 1 / κ = k at *
    try unfold input17
    linarith

/-- The high stage delivers at least what it draws at all temperatures of the season above 0 °F. -/
theorem high_delivers {b : Bool} {q h κ e v : ℝ} (hq : 0 < q) (h1 : 0.6 * q ≤ h) (h2 : h ≤ q) (hκ : 2.1 ≤ κ) (he : 0 ≤ e) (hv : e ≤ v) :
    ∀ t ∈ (seasonTemperatures : List ℝ), 0 ≤ t → (highTests b q h κ e v).p t ≤ (highTests b q h κ e v).q t := by
  have k0 : 0 < 1 / κ := one_div_pos.2 (by linarith)
  have k1 : 1 / κ ≤ 0.4763 := by rw [div_le_iff₀ (by linarith)]; linarith
  have eq : q / κ = q * (1 / κ) := by ring
  have eh : h / κ = h * (1 / κ) := by ring
  have m4 := mul_nonneg (sub_nonneg.2 h1) (sub_nonneg.2 k1)
  have m5 := mul_nonneg (sub_nonneg.2 h2) (sub_nonneg.2 k1)
  have m6 := mul_nonneg hq.le (sub_nonneg.2 k1)
  have m1 := mul_nonneg (sub_nonneg.2 h1) k0.le
  have m2 := mul_nonneg (sub_nonneg.2 h2) k0.le
  simp only [seasonTemperatures, List.forall_mem_cons, List.not_mem_nil, false_imp_iff, implies_true, and_true]
  unfold HeatTests.p HeatTests.q lineAt highTests
  rw [eq, eh]
  generalize 1 / κ = k at *
  simp only [frosted, input17]
  norm_num
  cases b <;> simp only [if_true, if_false, Bool.false_eq_true] <;> (refine ⟨?_, ?_, ?_, ?_, ?_, ?_, ?_, ?_, ?_, ?_, ?_, ?_, ?_⟩ <;> ring_nf at * <;> linarith)

/-- So is that of the low stage. -/
theorem low_pos {b : Bool} {q h κ w : ℝ} (hq : 0 < q) (h1 : 0.6 * q ≤ h) (h2 : h ≤ q) (hκ : 0 < κ) (hw : 0 ≤ w) :
    ∀ t ∈ (seasonTemperatures : List ℝ), 0 < (lowTests b q h κ w).p t := by
  have k0 : 0 < 1 / κ := one_div_pos.2 hκ
  have eq : q / κ = q * (1 / κ) := by ring
  have eh : h / κ = h * (1 / κ) := by ring
  have m1 := mul_nonneg (sub_nonneg.2 h1) k0.le
  have m2 := mul_nonneg (sub_nonneg.2 h2) k0.le
  have m3 := mul_pos hq k0
  simp only [seasonTemperatures, List.forall_mem_cons, List.not_mem_nil, false_imp_iff, implies_true, and_true]
  unfold HeatLowTests.p lineAt lowTests
  rw [eq, eh]
  generalize 1 / κ = k at *
  simp only [frosted, input17]
  norm_num
  cases b <;> simp only [if_true, if_false, Bool.false_eq_true] <;> (refine ⟨?_, ?_, ?_, ?_, ?_, ?_, ?_, ?_, ?_, ?_, ?_, ?_, ?_, ?_⟩ <;> ring_nf at * <;> linarith)

/-- And its capacity. -/
theorem low_capacity {b : Bool} {q h κ w : ℝ} (hq : 0 < q) (h1 : 0.6 * q ≤ h) (hw : 0 ≤ w) : ∀ t ∈ (seasonTemperatures : List ℝ), 0 < (lowTests b q h κ w).q t := by
  simp only [seasonTemperatures, List.forall_mem_cons, List.not_mem_nil, false_imp_iff, implies_true, and_true]
  unfold HeatLowTests.q lineAt lowTests
  simp only [frosted]
  norm_num
  cases b <;> simp only [if_true, if_false, Bool.false_eq_true] <;> (refine ⟨?_, ?_, ?_, ?_, ?_, ?_, ?_, ?_, ?_, ?_, ?_, ?_, ?_, ?_⟩ <;> ring_nf at * <;> linarith)

/-- From 17 °F on the low stage delivers at least what it draws; below, it cannot cover the load. -/
theorem low_delivers {b : Bool} {q h κ w : ℝ} (hq : 0 < q) (h1 : 0.6 * q ≤ h) (h2 : h ≤ q) (hκ : 2.1 ≤ κ) (hw : 0 ≤ w) :
    (∀ t ∈ (seasonTemperatures : List ℝ), 17 ≤ t → (lowTests b q h κ w).p t ≤ (lowTests b q h κ w).q t) ∧ ∀ t ≤ 12, (lowTests b q h κ w).q t ≤ 0.712 * q := by
  have k0 : 0 < 1 / κ := one_div_pos.2 (by linarith)
  have k1 : 1 / κ ≤ 0.4763 := by rw [div_le_iff₀ (by linarith)]; linarith
  have eq : q / κ = q * (1 / κ) := by ring
  have eh : h / κ = h * (1 / κ) := by ring
  have m4 := mul_nonneg (sub_nonneg.2 h1) (sub_nonneg.2 k1)
  have m5 := mul_nonneg (sub_nonneg.2 h2) (sub_nonneg.2 k1)
  have m6 := mul_nonneg hq.le (sub_nonneg.2 k1)
  have m1 := mul_nonneg (sub_nonneg.2 h1) k0.le
  have m2 := mul_nonneg (sub_nonneg.2 h2) k0.le
  constructor
  · simp only [seasonTemperatures, List.forall_mem_cons, List.not_mem_nil, false_imp_iff, implies_true, and_true]
    unfold HeatLowTests.p HeatLowTests.q lineAt lowTests
    rw [eq, eh]
    generalize 1 / κ = k at *
    simp only [frosted, input17]
    norm_num
    cases b <;> simp only [if_true, if_false, Bool.false_eq_true] <;> (refine ⟨?_, ?_, ?_, ?_, ?_, ?_⟩ <;> ring_nf at * <;> linarith)
  · intro t ht
    unfold HeatLowTests.q lineAt lowTests
    rw [if_neg (by linarith), if_pos (by linarith)]
    have : 0 ≤ (q - h) * (12 - t) := mul_nonneg (by linarith) (by linarith)
    simp only
    nlinarith

/-- What the season of a two-stage unit needs besides `UsualTwoStage`: the 2023 edition, no cut-in temperature, a degradation coefficient below one, a capacity at 17 °F between 60 and 100 % of that at 47 °F, a COP of at
least 2.1, and outdoor air that psychrolib knows at the test temperatures. -/
structure TwoStageSeason (u : Units ℝ) (E : Env ℝ) (a : Args) (q95 : ℝ) : Prop where
  standard : a.standard = .ahri2023
  cutIn : a.heatingOn = none
  cd : 0 ≤ cd a.cdHeating ∧ cd a.cdHeating < 1
  cold : 0.6 * ratedHeating u a .two q95 ≤ heating17 (ratedHeating u a .two q95) a.heating17
  cold_le : heating17 (ratedHeating u a .two q95) a.heating17 ≤ ratedHeating u a .two q95
  cop : 2.1 ≤ heatingCop (a.hspf.getD 0) a.netHeatingCop
  outdoor : Outdoor E (frF 62) ∧ Outdoor E (frF 47) ∧ Outdoor E (frF 35) ∧ Outdoor E (frF 17)

/-- The seasonal heating performance of a two-stage unit with a cooling capacity `q95` and heating capacities `q47`, `q17`, COP `cop` at 47 °F and fan of the given motor: the low stage and, in the tests, the high stage run at the
pressure that has 0.5 inH2O at the airflow of the heating mode, the high stage is rated with the pressure at the airflow of the cooling mode. -/
noncomputable def twoStageHspf (psc ducted : Bool) (ton q95 q47 q17 cop : ℝ) (defrosts : Bool) (cd off : ℝ) (load : ℝ → ℝ) (bins : List (ℝ × ℝ)) : ℝ :=
  let s := if ducted then (q95 / q47) ^ 2 else 0
  let v := unitFan psc ton q95 q47 s
  let w := unitFan psc ton q95 q47 (if ducted then 1 else 0)
  (highTests defrosts q47 q17 cop (v - w) v).twoStageSeason (lowTests defrosts q47 q17 cop (unitFan psc ton q95 (q47 * 0.712) s)) cd off load bins

/-- The bounds of the fans. -/
theorem two_fans_bounds {q95 q47 : ℝ} (psc ducted : Bool) (hu : UsualUnits u) (hq : 0 < q47) (hle : q47 ≤ q95) (hge : q95 ^ 2 ≤ 3 * q47 ^ 2) :
    let s : ℝ := if ducted then (q95 / q47) ^ 2 else 0
    let v := unitFan psc u.ton q95 q47 s
    let w := unitFan psc u.ton q95 q47 (if ducted then 1 else 0)
    0 < w ∧ w ≤ v ∧ v < 0.096 * q47 ∧ 0 < unitFan psc u.ton q95 (q47 * 0.712) s := by
  intro s v w
  have h95 : 0 < q95 := hq.trans_le hle
  have e1 : 1 ≤ (q95 / q47) ^ 2 := by
    have : 1 ≤ q95 / q47 := (one_le_div hq).2 hle
    nlinarith
  have e3 : (q95 / q47) ^ 2 ≤ 3 := by rw [div_pow, div_le_iff₀ (by positivity)]; exact hge
  have s0 : 0 ≤ s := by simp only [s]; split <;> linarith
  have s3 : s ≤ 3 := by simp only [s]; split <;> linarith
  have s1 : (if ducted then 1 else 0 : ℝ) ≤ s := by simp only [s]; split <;> linarith
  have z0 : (0 : ℝ) ≤ if ducted then 1 else 0 := by split <;> norm_num
  refine ⟨(unitFan_bounds hu hq hle z0 (by split <;> norm_num)).1, ?_, (unitFan_bounds hu hq hle s0 s3).2, (unitFan_bounds hu (by positivity) (by linarith) s0 s3).1⟩
  have hto := u.ton_pos
  exact mul_le_mul_of_nonneg_left (fanWatts_mono (div_pos hq h95) ((div_le_one h95).2 hle) s1) (by positivity)

/-- C96, from the ratings to the HSPF2 of a two-stage unit, for both motors, ducted or not: within the ranges of `UsualTwoStage` and `TwoStageSeason` the unit can be made and its HSPF2 in every climate region is the one of the specification. -/
theorem C96_two_ratings {q95 eer2 : ℝ} (H : UsualTwoStage u a q95 eer2) (hS : TwoStageSeason u E a q95) (h : Surroundings u E T brentq a .two [q95, q95 * 0.728]) :
    ∃ B, build u E T brentq a = .ok B ∧ B.core.st = .two ∧ ∀ {r : Nat} {design z cx cv : ℝ} {hours : List ℝ} {f : ℝ}, regionData .ahri2023 r = some (design, hours, some (cx, cv, z)) →
      a.defrost.demandCredit u = .ok f →
      B.hspf u E T brentq r = .ok (twoStageHspf (a.motorPSC.getD false) a.ducted u.ton q95 (ratedHeating u a .two q95) (heating17 (ratedHeating u a .two q95) a.heating17)
        (heatingCop (a.hspf.getD 0) a.netHeatingCop) (a.defrost.inDefrost (frF 35)) (cd a.cdHeating) (toF (lowestTemperature a .two)) (heatBuildingLoad z design (cx * q95)) (seasonTemperatures.zip hours) * f / u.btuh) := by
  have hc : Comparable q95 (ratedHeating u a .two q95) := ⟨by nlinarith [H.heating.rated, H.smaller, H.size], H.larger⟩
  obtain ⟨B, net, hB, hM, hF, hL⟩ := C90_two_range H.usual H.tables H.staging H.cooling H.seer H.eer H.hspf H.eer_pos H.eer_le H.low H.low_le H.size hc H.hottest H.heating h
  refine ⟨B, hB, hM.staging, fun {r design z cx cv hours f} hr hf => ?_⟩
  obtain ⟨wc, f1, f2, f3, f4, f5⟩ := two_fans H h hS.standard hB hM
  have hoff : B.heatingOff = lowestTemperature a .two := by
    obtain ⟨st0, _, _, _, _, _, b1, -, -, -, b5, -⟩ := build_ok hB
    rw [H.staging] at b1
    cases b1
    rw [b5, offTemperature_eq]
  have hpos := H.heating.rated
  have hle := H.smaller
  have hcop := hS.cop
  have c1 := hS.cold
  have c2 := hS.cold_le
  have h95 := H.size
  have hoff5 := H.heating.below
  obtain ⟨w0, w1, w2, w3⟩ := two_fans_bounds (a.motorPSC.getD false) a.ducted H.usual hpos hle H.larger
  have key := C96_two_hspf hB hM.staging (fun d hd => by rw [H.tables] at hd; cases hd) h.charge hS.standard hS.cutIn H.cycling hS.cd.1 hS.cd.2 f2 f5 h.outdoor hS.outdoor.1 hS.outdoor.2.1 hS.outdoor.2.2.1
    hS.outdoor.2.2.2 (by rw [hM.tables]; exact hL) (by rw [hM.tables]; exact hF) f1 f3 f4 hr hf
  have e95 : ((highCurves u.btuh q95 eer2 (ratedHeating u a .two q95) a.heating17 (a.hspf.getD 0) a.netHeatingCop).withFan (wc - wc)
      (unitFan (a.motorPSC.getD false) u.ton q95 (ratedHeating u a .two q95) (if a.ducted then (q95 / ratedHeating u a .two q95) ^ 2 else 0) -
        unitFan (a.motorPSC.getD false) u.ton q95 (ratedHeating u a .two q95) (if a.ducted then 1 else 0))).coolingCapacity (frF 95) = q95 := by
    show Ends.cooling _ (frF 95) - (wc - wc) = q95
    rw [sub_self, sub_zero]
    exact ends_cooling.2
  simp only at key
  rw [e95, high_tests, low_tests, hoff] at key
  obtain ⟨l1, l2⟩ := region_load hr h95
  have hv : 0 ≤ unitFan (a.motorPSC.getD false) u.ton q95 (ratedHeating u a .two q95) (if a.ducted then (q95 / ratedHeating u a .two q95) ^ 2 else 0) := w0.le.trans w1
  refine key h95 (fun t ht => ⟨high_pos hpos c1 c2 (by linarith) (sub_nonneg.2 w1) hv t ht, low_pos hpos c1 c2 (by linarith) w3.le t ht, low_capacity hpos c1 w3.le t ht⟩) (fun t ht hlo => ?_) ?_
  · obtain ⟨d1, d2⟩ := low_delivers (b := a.defrost.inDefrost (frF 35)) hpos c1 c2 hcop w3.le
    have h17 : 17 ≤ t := by
      by_contra hn
      have ht12 : t ≤ 12 := (season_gap t ht).resolve_left hn
      have := l2 t ht12
      have := d2 t ht12
      linarith
    refine ⟨?_, d1 t ht h17⟩
    have := toF_lt.2 hoff5
    rw [toF_frF] at this
    linarith
  · rw [l1]
    exact (low_capacity hpos c1 w3.le 62 (by simp [seasonTemperatures])).le

end Resdx.Build
