import Verif.Props.CoolingVariable

/-!
# C90, C96, C97: variable-speed units made from a given COP at 82 °F

Such a unit is the one made from the SEER2 that has the same ratio of energy inputs.
-/

set_option linter.unusedSectionVars false
set_option linter.unusedSimpArgs false

namespace Resdx.Tabular

open Spec Util Table Props

variable {K : Type} [Field K] [LinearOrder K] [IsStrictOrderedRing K]

/-- The cooling tables of a given COP at 82 °F are those of a SEER2 with the same ratio of energy inputs. -/
theorem neepStat_cop (u : Units K) {q95 seer2 seer2' eer2 mx c : K} {ratio : Option K} (hq : q95 ≠ 0) (heer : eer2 ≠ 0) (hc : c ≠ 0) (he : inputRatio82 seer2' eer2 = maxCop82 q95 (q95 / (eer2 * u.btuh)) / c) :
    neepStatCooling u q95 seer2 eer2 mx ratio (some c) = neepStatCooling u q95 seer2' eer2 mx ratio none := by
  have hbt := u.btuh_pos.ne'
  have s2 : (1 : Int) ≤ 2 ∧ (2 : Int) ≤ ((3 : Nat) : Int) := by norm_num
  obtain ⟨q1, e1, H1⟩ := (Holds.init 3 (sorted_82_95 (K := K))).set 2 (frF 95) q95 s2 (by simp) (by apart)
  obtain ⟨q2, e2, H2⟩ := H1.ratioMax (frF 95) 0.934 (q := q95) (by here) (by norm_num) (by apart)
  obtain ⟨q3, e3, H3⟩ := H2.coolDown 3 (frF 82) (frF 95) 0.940 (by here) (by simp) f82_95 (by norm_num) (by apart)
  obtain ⟨p1, f1, G1⟩ := (Holds.init 3 (sorted_82_95 (K := K))).set 2 (frF 95) (q95 / (eer2 * u.btuh)) s2 (by simp) (by apart)
  obtain ⟨p2, f2, G2⟩ := G1.ratioMax (frF 95) (0.934 * 0.928) (q := q95 / (eer2 * u.btuh)) (by here) (by norm_num) (by apart)
  obtain ⟨p3, f3, G3⟩ := G2.coolDown 3 (frF 82) (frF 95) (0.940 * 1.326) (by here) (by simp) f82_95 (by norm_num) (by apart)
  have hp : q95 / (eer2 * u.btuh) ≠ 0 := div_ne_zero hq (mul_ne_zero heer hbt)
  have hp3 : q95 / (eer2 * u.btuh) / (0.934 * 0.928) / (0.940 * 1.326) ≠ 0 := div_ne_zero (div_ne_zero hp (by norm_num)) (by norm_num)
  have hm0 : maxCop82 q95 (q95 / (eer2 * u.btuh)) ≠ 0 := by
    unfold maxCop82
    exact mul_ne_zero (mul_ne_zero (div_ne_zero hq hp) (by norm_num)) (by norm_num)
  have key : eirr82 seer2 eer2 (some c) q3 p3 = eirr82 seer2' eer2 none q3 p3 := by
    simp only [eirr82, pdiv_ok heer, bind_ok, H3.cop G3 (by here) (by here) hp3, max_cop hp, bracket_eq _ (0.2 : K) 1 (by norm_num)]
    have : max (0.2 : K) (min 1 (1.305 - 0.324 * seer2' / eer2)) = inputRatio82 seer2' eer2 := rfl
    simp only [this, pdiv_ok (inputRatio82_pos seer2' eer2).ne', pdiv_ok hc, bind_ok, pure_eq_ok]
    rw [he, div_div_cancel₀ hm0]
  have c2 : ((3 : Nat) : Int) = 3 := rfl
  rw [c2] at e2 f2
  simp only [neepStatCooling, bind_ok, e1, e2, e3, H3.over (show ((2 : Int), frF 95, q95) ∈ _ by here) (mul_ne_zero heer hbt), f1, f2, f3, key]

end Resdx.Tabular

namespace Resdx.Build

open Spec Tabular BaseModel Props ResnetFan Fan Table DX

variable {u : Units ℝ} {E : Env ℝ} {T : Coil.Tools} {brentq : Brentq} {a : Args} {B : Built}

/-- The ratio of the energy inputs at lowest and highest speed of a unit with the COP `c` at 82 °F. -/
noncomputable def copRatio (btuh eer2 c : ℝ) : ℝ := 0.928 * 1.326 * eer2 * btuh / c

/-- The SEER2 with this ratio. -/
noncomputable def copSeer (btuh eer2 c : ℝ) : ℝ := (1.305 - copRatio btuh eer2 c) / 0.324 * eer2

theorem copRatio_eq {btuh q95 eer2 c : ℝ} (hq : q95 ≠ 0) (he : eer2 * btuh ≠ 0) : maxCop82 q95 (q95 / (eer2 * btuh)) / c = copRatio btuh eer2 c := by
  unfold maxCop82 copRatio
  rw [div_div_cancel₀ hq]; ring

theorem copSeer_ratio {btuh eer2 c : ℝ} (he : eer2 ≠ 0) : 1.305 - 0.324 * copSeer btuh eer2 c / eer2 = copRatio btuh eer2 c := by
  unfold copSeer
  field_simp; ring

theorem copSeer_eq {btuh eer2 c : ℝ} (he : eer2 ≠ 0) (h0 : 0.2 ≤ copRatio btuh eer2 c) (h1 : copRatio btuh eer2 c ≤ 1) : inputRatio82 (copSeer btuh eer2 c) eer2 = copRatio btuh eer2 c := by
  unfold inputRatio82
  rw [copSeer_ratio he, min_eq_right h1, max_eq_right h0]

/-- The arguments with that SEER2 in place of the COP at 82 °F. -/
noncomputable def seerArgs (u : Units ℝ) (a : Args) (eer2 c : ℝ) : Args := { a with cop82 := none, seer := some (copSeer u.btuh eer2 c), eer := some eer2 }

/-- The constructor makes the same unit from both. -/
theorem build_cop {q95 eer2 c : ℝ} (ht : a.tables = none) (hst : a.staging = some .varSpeed) (hq : a.cooling = .num q95) (h95 : q95 ≠ 0) (he : inputEer a = some eer2) (heer : eer2 ≠ 0) (hc : a.cop82 = some c)
    (h0 : 0.2 ≤ copRatio u.btuh eer2 c) (h1 : copRatio u.btuh eer2 c ≤ 1) : build u E T brentq a = build u E T brentq (seerArgs u a eer2 c) := by
  have hc0 : c ≠ 0 := by
    rintro rfl
    simp only [copRatio, div_zero] at h0
    norm_num at h0
  have hn : ∀ off q47, netTables u a .varSpeed off q47 = netTables u (seerArgs u a eer2 c) .varSpeed off q47 := by
    intro off q47
    have e1 : inputEer (seerArgs u a eer2 c) = some eer2 := rfl
    have e2 : seerFor a = .ok (a.seer.getD 0) := by simp only [seerFor, hc, Option.isSome_some, if_true]
    have e3 : seerFor (seerArgs u a eer2 c) = .ok (copSeer u.btuh eer2 c) := rfl
    have e4 : hspfFor (seerArgs u a eer2 c) = hspfFor a := rfl
    have e5 : (seerArgs u a eer2 c).tables = none := ht
    have e6 : (seerArgs u a eer2 c).cooling = .num q95 := hq
    simp only [netTables, ht, e5, hq, e6, he, e1, e2, e3, e4, number, pyNum, bind_ok]
    have key := neepStat_cop u (seer2 := a.seer.getD 0) (mx := a.coolingOff) (ratio := a.ratio95) h95 heer hc0 ((copSeer_eq heer h0 h1).trans (copRatio_eq h95 (mul_ne_zero heer u.btuh_pos.ne')).symm)
    simp only [makeNeepStatistical, hc, key]
    rfl
  unfold build
  simp only [hst, show (seerArgs u a eer2 c).staging = some .varSpeed from hst, stagingOf, bind_ok, modelStaging, ht, show (seerArgs u a eer2 c).tables = none from ht, hn]
  rfl

/-- Variable-speed units with a given COP at 82 °F, in the ranges for which they can be made: the energy input at lowest speed lies between 20 and 100 % of that at highest speed, and the COP is at most 21.4 btuh/W (6.27). -/
structure UsualVariableCop (u : Units ℝ) (a : Args) (q95 eer2 c : ℝ) : Prop where
  usual : UsualUnits u
  tables : a.tables = none
  staging : a.staging = some .varSpeed
  cooling : a.cooling = .num q95
  size : 0 < q95
  eer : inputEer a = some eer2
  eer_pos : 0 < eer2
  eer_le : eer2 ≤ 16
  ratio : a.ratio95 = none
  cop82 : a.cop82 = some c
  cop82_ge : 0.928 * 1.326 * eer2 * u.btuh ≤ c
  cop82_le : 0.2 * c ≤ 0.928 * 1.326 * eer2 * u.btuh
  cop82_small : c ≤ 21.4 * u.btuh
  hspf : a.netHeatingCop.isSome ∨ a.hspf.isSome
  comparable : Comparable q95 (ratedHeating u a .varSpeed q95)
  hottest : UsualCooling a.coolingOff
  heating : UsualHeating 5 (-20) (ratedHeating u a .varSpeed q95) (varHeating17 (ratedHeating u a .varSpeed q95) a.heating17) (heatingCop (a.hspf.getD 0) a.netHeatingCop) (lowestTemperature a .varSpeed)

/-- The cooling capacities of such a unit. -/
noncomputable def variableSizesCop (u : Units ℝ) (q95 eer2 c : ℝ) : List ℝ :=
  let r := capacityRatio95 (copRatio u.btuh eer2 c)
  [q95 / 0.934, q95, (q95 / 0.934 * r + q95) / 2, q95 / 0.934 * r]

section
variable {q95 eer2 c : ℝ} (H : UsualVariableCop u a q95 eer2 c)
include H

theorem UsualVariableCop.pos : 0 < c := lt_of_lt_of_le (by have := H.eer_pos; have := u.btuh_pos; positivity) H.cop82_ge

theorem UsualVariableCop.ratio_ge : 0.2 ≤ copRatio u.btuh eer2 c := by
  unfold copRatio; rw [le_div_iff₀ H.pos]; exact H.cop82_le

theorem UsualVariableCop.ratio_le : copRatio u.btuh eer2 c ≤ 1 := by
  unfold copRatio; rw [div_le_one H.pos]; exact H.cop82_ge

theorem UsualVariableCop.usualSeer : UsualVariable u (seerArgs u a eer2 c) q95 eer2 where
  usual := H.usual
  tables := H.tables
  staging := H.staging
  cooling := H.cooling
  size := H.size
  seer := rfl
  eer := rfl
  eer_pos := H.eer_pos
  eer_le := H.eer_le
  ratio := by
    show eer2 ≤ 17.4 * (1.305 - 0.324 * copSeer u.btuh eer2 c / eer2)
    rw [copSeer_ratio H.eer_pos.ne']
    unfold copRatio
    rw [← mul_div_assoc, le_div_iff₀ H.pos]
    have := mul_le_mul_of_nonneg_left H.cop82_small H.eer_pos.le
    have : 0 < eer2 * u.btuh := mul_pos H.eer_pos u.btuh_pos
    nlinarith
  defaults := ⟨H.ratio, rfl⟩
  hspf := H.hspf
  comparable := H.comparable
  hottest := H.hottest
  heating := H.heating

theorem UsualVariableCop.build_eq : build u E T brentq a = build u E T brentq (seerArgs u a eer2 c) :=
  build_cop H.tables H.staging H.cooling H.size.ne' H.eer H.eer_pos.ne' H.cop82 H.ratio_ge H.ratio_le

theorem UsualVariableCop.cooling_eq (s : ℝ) : varCooling u.btuh q95 (copSeer u.btuh eer2 c) eer2 none none = varCooling u.btuh q95 s eer2 none (some c) := by
  have h0 : eer2 * u.btuh ≠ 0 := (mul_pos H.eer_pos u.btuh_pos).ne'
  simp only [varCooling, copSeer_eq H.eer_pos.ne' H.ratio_ge H.ratio_le, copRatio_eq H.size.ne' h0]

theorem UsualVariableCop.sizes : variableSizes u (seerArgs u a eer2 c) q95 eer2 = variableSizesCop u q95 eer2 c := by
  have e : (varCooling u.btuh q95 (copSeer u.btuh eer2 c) eer2 none none).ratio = capacityRatio95 (copRatio u.btuh eer2 c) := by
    simp only [varCooling, copSeer_eq H.eer_pos.ne' H.ratio_ge H.ratio_le, Option.getD_none]
  unfold variableSizes variableSizesCop
  rw [show (seerArgs u a eer2 c).seer.getD 0 = copSeer u.btuh eer2 c from rfl, e]

theorem UsualVariableCop.surroundings (h : Surroundings u E T brentq a .varSpeed (variableSizesCop u q95 eer2 c)) :
    Surroundings u E T brentq (seerArgs u a eer2 c) .varSpeed (variableSizes u (seerArgs u a eer2 c) q95 eer2) := by
  rw [H.sizes]
  exact ⟨h.airflows, h.charge, h.root, h.indoor, h.outdoor, h.coil, h.cops⟩

/-- C90, variable speed with a given COP at 82 °F: within the ranges of `UsualVariableCop` the unit can be made; its capacities, airflows and curves are those of the ratings. -/
theorem C90_variable_cop (h : Surroundings u E T brentq a .varSpeed (variableSizesCop u q95 eer2 c)) :
    ∃ B net, build u E T brentq a = .ok B ∧
      Made u E a .varSpeed net (variableSizesCop u q95 eer2 c) (let q47 := ratedHeating u a .varSpeed q95; [q47 / 0.908, q47, (q47 / 0.908 * 0.272 + q47) / 2, q47 / 0.908 * 0.272]) B ∧
      ∀ s : Int, 1 ≤ s → s ≤ 3 → Follows net s
        (varCurves u.btuh q95 (a.seer.getD 0) eer2 (ratedHeating u a .varSpeed q95) a.heating17 (a.hspf.getD 0) (lowestTemperature a .varSpeed) none (some c) a.netHeatingCop s) := by
  have S := H.usualSeer
  obtain ⟨B, net, hB, hM, hF⟩ := C90_variable_range S.usual S.tables S.staging S.cooling S.seer S.eer S.hspf S.defaults S.eer_pos S.eer_le S.ratio S.size S.comparable S.hottest S.heating (H.surroundings h)
  refine ⟨B, net, H.build_eq.trans hB, ?_, fun s s1 s2 => ?_⟩
  · have e := H.sizes
    unfold variableSizes at e
    rw [e] at hM
    exact ⟨hM.staging, hM.tables, hM.coolCaps, hM.heatCaps, hM.motor, hM.full, hM.coolAirflow, hM.heatAirflow, hM.design, hM.grossCool, hM.grossHeat, hM.conditions, hM.charge, hM.grossRated⟩
  · have := hF s s1 s2
    rw [show (seerArgs u a eer2 c).seer.getD 0 = copSeer u.btuh eer2 c from rfl] at this
    unfold varCurves at this ⊢
    rw [H.cooling_eq (a.seer.getD 0)] at this
    exact this

/-- C97, from the ratings to the SEER2 of a variable-speed unit with a given COP at 82 °F. -/
theorem C97_variable_cop (hstd : a.standard = .ahri2023) (hcd : 0 ≤ cd a.cdCooling) (hcd1 : cd a.cdCooling < 1) (o87 : Outdoor E (frF 87)) (o82 : Outdoor E (frF 82)) (o67 : Outdoor E (frF 67))
    (h : Surroundings u E T brentq a .varSpeed (variableSizesCop u q95 eer2 c)) :
    let q47 := ratedHeating u a .varSpeed q95
    let curve := varCurves u.btuh q95 (a.seer.getD 0) eer2 q47 a.heating17 (a.hspf.getD 0) (lowestTemperature a .varSpeed) none (some c) a.netHeatingCop
    ∃ B, build u E T brentq a = .ok B ∧ B.core.st = .varSpeed ∧
      B.seer u E T brentq = .ok (variableSeer (a.motorPSC.getD false) a.ducted u.ton q95 q47 (capacityRatio95 (copRatio u.btuh eer2 c)) (curve 1) (curve 2) (cd a.cdCooling) / u.btuh) := by
  intro q47 curve
  obtain ⟨B, hB, hst, hS⟩ := C97_variable_ratings H.usualSeer hstd hcd hcd1 o87 o82 o67 (H.surroundings h)
  refine ⟨B, H.build_eq.trans hB, hst, ?_⟩
  rw [show (seerArgs u a eer2 c).seer.getD 0 = copSeer u.btuh eer2 c from rfl, copSeer_eq H.eer_pos.ne' H.ratio_ge H.ratio_le] at hS
  unfold varCurves at hS
  rw [H.cooling_eq (a.seer.getD 0)] at hS
  exact hS

/-- C96: the COP at 82 °F has no part in the HSPF2. -/
theorem C96_variable_cop (hS : VariableSeason u E a q95) (h : Surroundings u E T brentq a .varSpeed (variableSizesCop u q95 eer2 c)) :
    ∃ B, build u E T brentq a = .ok B ∧ B.core.st = .varSpeed ∧ ∀ {r : Nat} {design z cx cv : ℝ} {hours : List ℝ} {f : ℝ}, regionData .ahri2023 r = some (design, hours, some (cx, cv, z)) →
      a.defrost.demandCredit u = .ok f →
      B.hspf u E T brentq r = .ok (variableHspf (a.motorPSC.getD false) a.ducted u.ton q95 (ratedHeating u a .varSpeed q95) (varHeating17 (ratedHeating u a .varSpeed q95) a.heating17)
        (heatingCop (a.hspf.getD 0) a.netHeatingCop) (a.defrost.inDefrost (frF 35)) (cd a.cdHeating) (toF (lowestTemperature a .varSpeed))
        (heatBuildingLoad z design (cv * variableCooling (a.motorPSC.getD false) a.ducted u.ton q95 (ratedHeating u a .varSpeed q95))) (seasonTemperatures.zip hours) * f / u.btuh) := by
  obtain ⟨B, hB, hst, hH⟩ := C96_variable_ratings (a := seerArgs u a eer2 c) H.usualSeer ⟨hS.standard, hS.cutIn, hS.cd, hS.cold, hS.cold_le, hS.warm, hS.cop, hS.outdoor⟩ (H.surroundings h)
  exact ⟨B, H.build_eq.trans hB, hst, hH⟩

end

end Resdx.Build

namespace Resdx.Sample

open Spec Tabular BaseModel Props ResnetFan Fan Table Build DX

/-- A variable-speed unit of any capacity and of COPs in the ranges. -/
noncomputable def varCops (q κ c : ℝ) : Args := { varSizes q κ with cop82 := some c }

theorem varCops_usual {q κ c : ℝ} (hq : 0 < q) (h1 : 2.1 ≤ κ) (h2 : κ ≤ 5) (c1 : 4.4 ≤ c) (c2 : c ≤ 6.2) : UsualVariableCop units (varCops q κ c) q 12 c where
  usual := usualUnits
  tables := rfl
  staging := rfl
  cooling := rfl
  size := hq
  eer := rfl
  eer_pos := by norm_num
  eer_le := by norm_num
  ratio := rfl
  cop82 := rfl
  cop82_ge := by rw [show units.btuh = (0.29307 : ℝ) from rfl]; norm_num at c1 ⊢; linarith
  cop82_le := by rw [show units.btuh = (0.29307 : ℝ) from rfl]; norm_num at c2 ⊢; linarith
  cop82_small := by rw [show units.btuh = (0.29307 : ℝ) from rfl]; norm_num at c2 ⊢; linarith
  hspf := .inl rfl
  comparable := (varSizes_usual hq h1 h2).comparable
  hottest := off125
  heating := (varSizes_usual hq h1 h2).heating

theorem varCops_surroundings {brentq : Brentq} (hbr : BrentqSpec brentq) {q κ c : ℝ} (hq : 0 < q) :
    Surroundings units env tools brentq (varCops q κ c) .varSpeed (variableSizesCop units q 12 c) :=
  surroundings hbr rfl rfl rfl rfl rfl (by
    intro x hx
    simp only [variableSizesCop, List.mem_cons, List.not_mem_nil, or_false] at hx
    have hr : 0 < capacityRatio95 (copRatio units.btuh 12 c) := lt_of_lt_of_le (by norm_num) (le_max_left _ _)
    rcases hx with rfl | rfl | rfl | rfl <;> positivity)

/-- The hypotheses of `C90_variable_cop`, `C96_variable_cop` and `C97_variable_cop` hold for units of any size. -/
example {brentq : Brentq} (hbr : BrentqSpec brentq) {q κ c : ℝ} (hq : 0 < q) (h1 : 2.1 ≤ κ) (h2 : κ ≤ 5) (c1 : 4.4 ≤ c) (c2 : c ≤ 6.2) :=
  C90_variable_cop (varCops_usual hq h1 h2 c1 c2) (varCops_surroundings (κ := κ) hbr hq)

example {brentq : Brentq} (hbr : BrentqSpec brentq) {q κ c : ℝ} (hq : 0 < q) (h1 : 2.1 ≤ κ) (h2 : κ ≤ 5) (c1 : 4.4 ≤ c) (c2 : c ≤ 6.2) :=
  C97_variable_cop (varCops_usual hq h1 h2 c1 c2) rfl (by norm_num [cd, varCops, varSizes, varArgs]) (by norm_num [cd, varCops, varSizes, varArgs]) (outdoorAir _) (outdoorAir _) (outdoorAir _)
    (varCops_surroundings (κ := κ) hbr hq)

example {brentq : Brentq} (hbr : BrentqSpec brentq) {q κ c : ℝ} (hq : 0 < q) (h1 : 2.1 ≤ κ) (h2 : κ ≤ 5) (c1 : 4.4 ≤ c) (c2 : c ≤ 6.2) :=
  C96_variable_cop (varCops_usual hq h1 h2 c1 c2) { varSizes_season hq h1 with } (varCops_surroundings (κ := κ) hbr hq)

end Resdx.Sample
