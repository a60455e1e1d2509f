import Verif.Props.SeasonSingle
import Verif.Props.CoolingVariable

/-!
# C97: the SEER2 of two-stage units of any sizes
-/

set_option linter.unusedSectionVars false
set_option linter.unusedSimpArgs false

namespace Resdx.Build

open Spec Tabular BaseModel Props ResnetFan Fan Table DX

variable {u : Units ℝ} {E : Env ℝ} {T : Coil.Tools} {brentq : Brentq} {a : Args} {B : Built}

/-- As `UsualTwoStage`, but the heating capacity may also exceed that of cooling, up to the factor √3. -/
structure AnyTwoStage (u : Units ℝ) (a : Args) (q95 eer2 : ℝ) : Prop where
  usual : UsualUnits u
  tables : a.tables = none
  staging : a.staging = some .two
  cycling : a.cycling = .lowFull
  cooling : a.cooling = .num q95
  size : 0 < q95
  seer : a.cop82.isSome ∨ a.seer.isSome
  eer : inputEer a = some eer2
  eer_pos : 0 < eer2
  eer_le : eer2 ≤ 22
  low : 0 < a.cop82.getD (a.seer.getD 0 / 2)
  low_le : a.cop82.getD (a.seer.getD 0 / 2) ≤ 8
  hspf : a.netHeatingCop.isSome ∨ a.hspf.isSome
  comparable : Comparable q95 (ratedHeating u a .two q95)
  hottest : UsualCooling a.coolingOff
  heating : UsualHeating 4.3 0 (ratedHeating u a .two q95) (heating17 (ratedHeating u a .two q95) a.heating17) (heatingCop (a.hspf.getD 0) a.netHeatingCop) (lowestTemperature a .two)

theorem twoStageRate_pos {cd qL pL qF pF l : ℝ} (hcd : 0 ≤ cd) (hcd1 : cd < 1) (hL : 0 < qL) (hLF : qL ≤ qF) (pL0 : 0 < pL) (pF0 : 0 < pF) (hl : 0 ≤ l) :
    0 ≤ twoStageRate cd true qL pL qF pF l ∧ (0 < l → 0 < twoStageRate cd true qL pL qF pF l) := by
  unfold twoStageRate
  split
  · rename_i h
    refine ⟨cyclingRate_nonneg hcd hcd1 hL pL0.le hl h, fun h0 => ?_⟩
    have h1 : l / qL ≤ 1 := (div_le_one hL).2 h
    have h2 : 0 < l / qL := div_pos h0 hL
    exact div_pos (mul_pos h2 pL0) (by nlinarith)
  · split
    · rename_i h1 h2
      push Not at h1
      have hlt : qL < qF := h1.trans h2
      have : 0 < lineAt qL pL qF pF l := by
        unfold lineAt
        have d : 0 < qF - qL := by linarith
        rw [show pL + (pF - pL) * ((l - qL) / (qF - qL)) = (pL * (qF - l) + pF * (l - qL)) / (qF - qL) by field_simp; ring]
        exact div_pos (add_pos (mul_pos pL0 (by linarith)) (mul_pos pF0 (by linarith))) d
      simp only [if_true]
      exact ⟨this.le, fun _ => this⟩
    · exact ⟨pF0.le, fun _ => pF0⟩

theorem season_capacity : ∀ b ∈ (coolingSeason : List (ℝ × ℝ)), 0.9 < unitCapacity b.1 := by
  simp only [coolingSeason, List.forall_mem_cons, List.not_mem_nil, false_imp_iff, implies_true, and_true]
  unfold unitCapacity lineAt capacity82
  norm_num

/-- What the fan draws more in the cooling tests of the high stage than rated. -/
noncomputable def coolingShift (psc ducted : Bool) (ton q95 q47 : ℝ) : ℝ :=
  let fan := unitFan psc ton (max q95 q47) q95
  fan (if ducted then (max q95 q47 / q95) ^ 2 else 0) - fan (if ducted then 1 else 0)

theorem coolingShift_bounds {q95 q47 : ℝ} (psc ducted : Bool) (hu : UsualUnits u) (h95 : 0 < q95) (h47 : 0 < q47) (hc : Comparable q95 q47) :
    0 ≤ coolingShift psc ducted u.ton q95 q47 ∧ coolingShift psc ducted u.ton q95 q47 < 0.096 * q95 := by
  obtain ⟨a1, a2, a3⟩ := test_fan psc ducted hu h95 (le_max_left q95 q47) (sizes_max h95 h47 hc le_rfl)
  unfold coolingShift
  simp only at a1 a2 a3 ⊢
  constructor <;> linarith

/-- There is none for units that heat at most as much as they cool, nor with a PSC motor, nor without ducts. -/
theorem coolingShift_zero {psc ducted : Bool} {ton q95 q47 : ℝ} (h95 : 0 < q95) (h : q47 ≤ q95 ∨ psc = true ∨ ducted = false) : coolingShift psc ducted ton q95 q47 = 0 := by
  unfold coolingShift
  rcases h with h | rfl | rfl
  · rw [max_eq_left h, div_self h95.ne', one_pow]; simp
  · simp [unitFan, fanWatts]
  · simp

/-- The fan of the high stage of a two-stage unit in cooling: rated with the pressure at the larger airflow of both modes, in the tests at the pressure that has 0.5 inH2O at the airflow of the mode. -/
theorem two_cool_fan {q95 q47 : ℝ} (ht : a.tables = none) (hbr : a.motorPSC.getD false = false → BrentqSpec brentq) (hs : a.standard = .ahri2023) (hB : build u E T brentq a = .ok B) {net : Perf ℝ}
    {l l' : ℝ} (hM : Made u E a .two net [q95, l] [q47, l'] B) (h95 : 0 < q95) :
    ∃ w, B.core.cool.power[0]? = some (some w) ∧ (B.unit u E T brentq).fanPower B.points.aFull = .ok (w + coolingShift (a.motorPSC.getD false) a.ducted u.ton q95 q47) := by
  have hpsc : B.core.psc = a.motorPSC.getD false := hM.motor
  have ht : ∀ d, a.tables = some d → RatedTables (tableSpeeds B.core.st) d := fun d hd => by rw [ht] at hd; cases hd
  have hbr : B.core.psc = false → BrentqSpec brentq := fun e => hbr (by rw [← hpsc]; exact e)
  have he := esp_2023 hB hs
  obtain ⟨st0, q, nC, nH, b2, b3, b4, b6, b7, b8, b9, b10⟩ := build_steps hB
  obtain ⟨g1, -, g3, -⟩ := full_points b10
  have fc : B.core.rc.full = 0 := hM.full.1
  rw [fc] at g1
  have hL : 0 < max q95 q47 := h95.trans_le (le_max_left _ _)
  have sq : (q95 / max q95 q47) ^ 2 ≤ 3 := by
    have : q95 / max q95 q47 ≤ 1 := (div_le_one hL).2 (le_max_left _ _)
    have : 0 < q95 / max q95 q47 := div_pos h95 hL
    nlinarith
  obtain ⟨c1, c2⟩ := C88_fan_power hB ht hM hbr (x := q95) (y := q47) rfl rfl hL false (i := 0) (q := q95) (q0 := q95) rfl rfl h95 h95 sq
  have c3 := c2 g1
  rw [he, hpsc] at c1 c3
  rw [if_pos (show (0 : Nat) = fullIndex .two from rfl), mul_one] at c1
  simp only [Bool.false_eq_true, if_false] at c1
  have ite : ∀ z : ℝ, ((if a.ducted = true then 1 else 0 : ℝ)) * z = if a.ducted = true then z else 0 := by intro z; split <;> simp
  rw [ite] at c3
  refine ⟨_, c1, c3.trans ?_⟩
  unfold coolingShift
  congr 1
  ring

/-- C97, two-stage units in usual ranges with a heating capacity that may exceed that of cooling: the unit can be made, and its SEER2 is the one of a unit whose high stage draws `coolingShift` more than rated. -/
theorem C97_two_any {q95 eer2 : ℝ} (H : AnyTwoStage u a q95 eer2) (h : Surroundings u E T brentq a .two [q95, q95 * 0.728]) (hstd : a.standard = .ahri2023) (o82 : Outdoor E (frF 82)) (o67 : Outdoor E (frF 67))
    (hcd : 0 ≤ cd a.cdCooling) (hcd1 : cd a.cdCooling < 1) :
    ∃ B, build u E T brentq a = .ok B ∧ B.core.st = .two ∧
      B.seer u E T brentq = .ok (twoStageSeer (cd a.cdCooling) q95 (q95 / (eer2 * u.btuh)) (a.cop82.getD (a.seer.getD 0 / 2))
        (coolingShift (a.motorPSC.getD false) a.ducted u.ton q95 (ratedHeating u a .two q95)) / u.btuh) := by
  obtain ⟨B, net, hB, hM, -⟩ := C90_two_range H.usual H.tables H.staging H.cooling H.seer H.eer H.hspf H.eer_pos H.eer_le H.low H.low_le H.size H.comparable H.hottest H.heating h
  refine ⟨B, hB, hM.staging, ?_⟩
  have h95 := H.size
  have hpos := H.heating.rated
  have heer := H.eer_pos
  have hlow := H.low
  have hb := u.btuh_pos
  obtain ⟨s1, s2, f2, f1⟩ := two_tables hB H.tables H.staging H.cooling H.seer H.eer H.hspf heer.ne' hlow.ne' H.heating.cop_pos.ne' hpos.ne' H.hottest.1 H.heating.below
  obtain ⟨w, hw, hv⟩ := two_cool_fan H.tables (fun e => h.root e) hstd hB hM h95
  obtain ⟨e0, e1⟩ := coolingShift_bounds (a.motorPSC.getD false) a.ducted H.usual h95 hpos H.comparable
  generalize coolingShift (a.motorPSC.getD false) a.ducted u.ton q95 (ratedHeating u a .two q95) = e at *
  set κ := a.cop82.getD (a.seer.getD 0 / 2) with hκ
  set hi := highCurves u.btuh q95 eer2 (ratedHeating u a .two q95) a.heating17 (a.hspf.getD 0) a.netHeatingCop with hhi
  set lo := lowCurves q95 (a.seer.getD 0) (ratedHeating u a .two q95) a.heating17 (a.hspf.getD 0) a.cop82 a.netHeatingCop with hlo
  set P := q95 / (eer2 * u.btuh) with hP
  set L := q95 * capacity82 * 0.728 / κ with hL
  have hL0 : 0 < L := by rw [hL]; unfold capacity82; positivity
  have hP0 : 0 < P := by positivity
  have c1 : lo.coolingCapacity (frF 82) = q95 * capacity82 * 0.728 := ends_cooling.1
  have c2 : lo.coolingPower (frF 82) = L := ends_cooling.1
  have c3 : hi.coolingCapacity (frF 82) = q95 * capacity82 := ends_cooling.1
  have c4 : hi.coolingPower (frF 82) = P * capacity82 * input82 := ends_cooling.1
  have c5 : hi.coolingCapacity (frF 95) = q95 := ends_cooling.2
  have c6 : hi.coolingPower (frF 95) = P := ends_cooling.2
  have hk : (0 : ℝ) < capacity82 * input82 := mul_pos capacity82_pos input82_pos
  have hinv : L / (capacity82 * input82) = L * (1 / (capacity82 * input82)) := by ring
  have hkn : (1.16 : ℝ) < 1 / ((capacity82 : ℝ) * input82) ∧ 1 / ((capacity82 : ℝ) * input82) < 1.17 := by
    rw [lt_div_iff₀ hk, div_lt_iff₀ hk]; unfold capacity82 input82; norm_num
  have g1 : (q95 * capacity82 * 0.728) / 2 ≤ (q95 * capacity82 * 0.728) - 22 / 13 * (q95 * 0.728 - q95 * capacity82 * 0.728) := by unfold capacity82; linarith
  have g2 : L / 2 ≤ L - 22 / 13 * (L / (capacity82 * input82) - L) := by rw [hinv]; nlinarith [hkn.1, hkn.2]
  have c7 : lo.coolingCapacity (frF 67) = (q95 * capacity82 * 0.728) - 15 / 13 * (q95 * 0.728 - q95 * capacity82 * 0.728) := ends_67 (e := ⟨q95 * capacity82 * 0.728, q95 * 0.728⟩) g1
  have c8 : lo.coolingPower (frF 67) = L - 15 / 13 * (L / (capacity82 * input82) - L) := ends_67 (e := ⟨L, L / (capacity82 * input82)⟩) g2
  have c9 : lo.coolingPower (frF 60) = L - 22 / 13 * (L / (capacity82 * input82) - L) := ends_60 (e := ⟨L, L / (capacity82 * input82)⟩) g2
  have mem : ∀ x ∈ [frF 60, frF 82, frF 95, a.coolingOff], x ∈ B.core.net.coolingCapacities.temperatures ∧ x ∈ B.core.net.coolingPowers.temperatures := fun x hx => by
    rw [s2.cooling.1, s2.cooling.2]; exact ⟨hx, hx⟩
  have at_ : ∀ {cv : Curves ℝ} {x}, x ∈ [frF 60, frF 82, frF 95, a.coolingOff] → NotBelow B.core.net cv x := fun hx => ⟨⟨_, (mem _ hx).1, le_rfl⟩, _, (mem _ hx).2, le_rfl⟩
  have key := C97_two_seer hB s1 (fun d hd => by rw [H.tables] at hd; cases hd) h.charge H.cycling hcd hcd1 h.outdoor o82 o67 f1 f2 (at_ (by simp)) (at_ (by simp)) (at_ (by simp))
    ⟨⟨frF 82, (mem _ (by simp)).1, by rw [c1, c7]; unfold capacity82; linarith⟩, frF 60, (mem _ (by simp)).2, by rw [c8, c9, hinv]; nlinarith [hkn.1]⟩ hv hw
  rw [add_sub_cancel_left] at key
  simp only at key
  set TT := lo.coolTests (hi.withFan e 0) 0 0 with hTT
  have hqF : TT.qFull = fun t => q95 * unitCapacity t - e := by
    funext t
    show lineAt 82 (hi.coolingCapacity (frF 82) - e) 95 (hi.coolingCapacity (frF 95) - e) t = _
    rw [c3, c5]; unfold unitCapacity lineAt; ring
  have hpF : TT.pFull = fun t => P * unitPower t + e := by
    funext t
    show lineAt 82 (hi.coolingPower (frF 82) + e) 95 (hi.coolingPower (frF 95) + e) t = _
    rw [c4, c6]; unfold unitPower lineAt; ring
  have hqL : TT.qLow = fun t => q95 * (0.728 * unitCapacity t) := by
    funext t
    show lineAt 67 (lo.coolingCapacity (frF 67)) 82 (lo.coolingCapacity (frF 82)) t = _
    rw [c7, c1]; unfold unitCapacity lineAt; ring
  have hpL : TT.pLow = fun t => q95 * 0.728 / (κ * input82) * unitPower t := by
    funext t
    show lineAt 67 (lo.coolingPower (frF 67)) 82 (lo.coolingPower (frF 82)) t = _
    rw [c8, c2, hL]; unfold unitPower lineAt
    have h1 : (capacity82 : ℝ) ≠ 0 := capacity82_pos.ne'
    have h2 : (input82 : ℝ) ≠ 0 := input82_pos.ne'
    field_simp; ring
  have hA : TT.qA = q95 - e := by show hi.coolingCapacity (frF 95) - e = _; rw [c5]
  have hlD : TT.load = coolBuildingLoad (q95 - e) := by
    funext t
    show coolBuildingLoad TT.qA t = _
    rw [hA]
  have hD : TT.delivered = fun t => min (coolBuildingLoad (q95 - e) t) (q95 * unitCapacity t - e) := by
    funext t
    show min (TT.load t) (TT.qFull t) = _
    rw [hlD, hqF]
  rw [hqF, hpF, hqL, hpL, hlD, hD, hA] at key
  have hA0 : 0 < q95 - e := by linarith
  have i0 := input82_pos (K := ℝ)
  have bnd : ∀ b ∈ (coolingSeason : List (ℝ × ℝ)), 0 < q95 * (0.728 * unitCapacity b.1) ∧ q95 * (0.728 * unitCapacity b.1) ≤ q95 * unitCapacity b.1 - e ∧ 0 < q95 * 0.728 / (κ * input82) * unitPower b.1 ∧
      0 < P * unitPower b.1 + e ∧ 0 ≤ b.2 := by
    intro b hb
    obtain ⟨x1, x2, x3, x4⟩ := season_facts b hb
    have x5 := season_capacity b hb
    have x6 := mul_lt_mul_of_pos_left x5 h95
    have x7 := mul_pos hP0 x2
    exact ⟨by positivity, by linarith, by positivity, by linarith, x4.le⟩
  refine key hA0.le (fun t ht => ?_) (ne_of_gt ?_)
  · obtain ⟨b, hb, rfl⟩ := List.mem_map.1 ht
    obtain ⟨x1, x2, -⟩ := bnd b hb
    exact ⟨x1, x2⟩
  · refine total_pos (b := ((67 : ℝ), 0.214)) (fun b hb => ?_) (by simp [coolingSeason]) ?_ (by norm_num)
    · obtain ⟨x1, x2, x3, x4, x5⟩ := bnd b hb
      exact ⟨(twoStageRate_pos hcd hcd1 x1 x2 x3 x4 (coolBuildingLoad_nonneg hA0.le _)).1, x5⟩
    · obtain ⟨x1, x2, x3, x4, x5⟩ := bnd (67, 0.214) (by simp [coolingSeason])
      refine (twoStageRate_pos hcd hcd1 x1 x2 x3 x4 (coolBuildingLoad_nonneg hA0.le _)).2 ?_
      unfold coolBuildingLoad
      rw [if_neg (by norm_num)]
      exact mul_pos (div_pos hA0 (by norm_num)) (by norm_num)

end Resdx.Build

namespace Resdx.Sample

open Spec Tabular BaseModel Props ResnetFan Fan Table Build DX

/-- Two-stage units that heat more than they cool. -/
theorem larger_usual {q : ℝ} (hq : 0 < q) : AnyTwoStage units { plainArgs with cooling := .num q, heating := some (1.3 * q) } q 12 :=
  { plain_usual hq with
    comparable := by simp only [Comparable, ratedHeating, Option.getD_some]; constructor <;> nlinarith
    heating := { (plain_usual hq).heating with
      rated := by simp only [ratedHeating, Option.getD_some]; positivity
      cold := by norm_num [ratedHeating, Spec.heating17, plainArgs]; linarith } }

/-- The hypotheses of `C97_two_any` hold for these units of any size. -/
example {brentq : Brentq} (hbr : BrentqSpec brentq) {q : ℝ} (hq : 0 < q) : ∃ B v, build units env tools brentq { plainArgs with cooling := .num q, heating := some (1.3 * q) } = .ok B ∧ B.seer units env tools brentq = .ok v := by
  obtain ⟨B, hB, -, h⟩ := C97_two_any (E := env) (T := tools) (brentq := brentq) (larger_usual hq) (surroundings hbr rfl rfl rfl rfl rfl (both_pos hq)) rfl (outdoorAir _) (outdoorAir _) (by norm_num [cd, plainArgs])
    (by norm_num [cd, plainArgs])
  exact ⟨B, _, hB, h⟩

end Resdx.Sample
