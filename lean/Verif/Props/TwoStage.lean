import Verif.Props.ResnetCooling

/-!
# C98: rated and evaluated SEER2 of two-stage units
-/

set_option linter.unusedSectionVars false
set_option linter.unusedSimpArgs false

namespace Resdx.Build

open Spec Tabular BaseModel Props ResnetFan Fan Table DX

variable {u : Units ℝ} {E : Env ℝ} {T : Coil.Tools} {brentq : Brentq} {a : Args} {B : Built}

/-- The weights are positive, and those of the default cycling coefficient 0.15 are numbers. -/
theorem weights_pos {cd : ℝ} (h0 : 0 ≤ cd) (h1 : cd < 1) : 0 < lowStageWeight cd ∧ 0 < (highStageWeight 0 : ℝ) := by
  obtain ⟨u1, u2, u3⟩ := stageUse_pos h0 h1
  have := unitDelivered_pos
  have := input82_pos (K := ℝ)
  rw [u3] at u2
  unfold lowStageWeight highStageWeight
  constructor <;> positivity

theorem weight_bounds : (0.9354 : ℝ) < lowStageWeight 0.15 ∧ lowStageWeight (0.15 : ℝ) < 0.9356 ∧ (0.1 : ℝ) < highStageWeight 0 ∧ (highStageWeight 0 : ℝ) < 0.1001 := by
  unfold lowStageWeight highStageWeight stageUse unitDelivered CoolTests.total coolingSeason unitCapacity unitPower twoStageRate cyclingRate coolBuildingLoad lineAt capacity82 input82
  norm_num [List.map, List.sum_cons]

/-- The arguments of a two-stage unit in usual ranges that is made from ratings: EER2 up to 22, low-stage COP at 82 °F up to 8, heating COP up to 4.3, at least half of the heating capacity at 17 °F, a heating
capacity at most that of cooling and no smaller than it by a factor of √3, a highest cooling temperature up to 125 °F. -/
structure UsualTwoStage (u : Units ℝ) (a : Args) (q95 eer2 : ℝ) : Prop where
  usual : UsualUnits u
  tables : a.tables = none
  staging : a.staging = some .two
  cycling : a.cycling = .lowFull
  cooling : a.cooling = .num q95
  size : 0 < q95
  seer : a.cop82.isSome ∨ a.seer.isSome
  eer : inputEer a = some eer2
  eer_pos : 0 < eer2
  eer_le : eer2 ≤ 22
  low : 0 < a.cop82.getD (a.seer.getD 0 / 2)
  low_le : a.cop82.getD (a.seer.getD 0 / 2) ≤ 8
  hspf : a.netHeatingCop.isSome ∨ a.hspf.isSome
  smaller : ratedHeating u a .two q95 ≤ q95
  larger : q95 ^ 2 ≤ 3 * ratedHeating u a .two q95 ^ 2
  hottest : UsualCooling a.coolingOff
  heating : UsualHeating 4.3 0 (ratedHeating u a .two q95) (heating17 (ratedHeating u a .two q95) a.heating17) (heatingCop (a.hspf.getD 0) a.netHeatingCop) (lowestTemperature a .two)

/-- C97, two-stage units in usual ranges: the unit can be made, and its SEER2 is the stated function of its EER2, its low-stage COP and its cycling coefficient. -/
theorem C97_two_range {q95 eer2 : ℝ} (H : UsualTwoStage u a q95 eer2) (h : Surroundings u E T brentq a .two [q95, q95 * 0.728]) (o82 : Outdoor E (frF 82)) (o67 : Outdoor E (frF 67))
    (hcd : 0 ≤ cd a.cdCooling) (hcd1 : cd a.cdCooling < 1) :
    ∃ B, build u E T brentq a = .ok B ∧ B.core.st = .two ∧
      B.seer u E T brentq = .ok (1 / (lowStageWeight (cd a.cdCooling) * u.btuh / a.cop82.getD (a.seer.getD 0 / 2) + highStageWeight 0 / eer2)) := by
  have hc : Comparable q95 (ratedHeating u a .two q95) := ⟨by nlinarith [H.heating.rated, H.smaller, H.size], H.larger⟩
  obtain ⟨B, net, hB, M, -⟩ := C90_two_range H.usual H.tables H.staging H.cooling H.seer H.eer H.hspf H.eer_pos H.eer_le H.low H.low_le H.size hc H.hottest H.heating h
  refine ⟨B, hB, M.staging, C97_two_stage hB H.tables H.staging H.cooling H.seer H.eer H.hspf H.size H.eer_pos H.low H.heating.cop_pos.ne' H.heating.rated.ne' H.hottest.1 H.heating.below h.charge H.cycling hcd hcd1
    ?_ h.outdoor o82 o67⟩
  have hd := M.design _ _ rfl rfl
  rw [max_eq_left H.smaller] at hd
  exact .inr (.inr ⟨_, hd, M.coolAirflow 0 _ rfl⟩)

/-- C98, the condition: the SEER2 of a two-stage unit in usual ranges is `s` exactly if its low-stage COP has one particular value. A default COP of half the SEER2 does not. -/
theorem C98_iff {q95 eer2 : ℝ} (H : UsualTwoStage u a q95 eer2) (h : Surroundings u E T brentq a .two [q95, q95 * 0.728]) (o82 : Outdoor E (frF 82)) (o67 : Outdoor E (frF 67))
    (hcd : 0 ≤ cd a.cdCooling) (hcd1 : cd a.cdCooling < 1) {s : ℝ} (hs : 0 < s) :
    ∃ B, build u E T brentq a = .ok B ∧ (B.seer u E T brentq = .ok s ↔ a.cop82.getD (a.seer.getD 0 / 2) * (1 / s - highStageWeight 0 / eer2) = lowStageWeight (cd a.cdCooling) * u.btuh) := by
  obtain ⟨B, hB, -, hv⟩ := C97_two_range H h o82 o67 hcd hcd1
  refine ⟨B, hB, ?_⟩
  rw [hv, Except.ok.injEq]
  obtain ⟨w1, w2⟩ := weights_pos hcd hcd1
  have hb := u.btuh_pos
  have hk := H.low
  have he := H.eer_pos
  generalize a.cop82.getD (a.seer.getD 0 / 2) = κ at *
  generalize lowStageWeight (cd a.cdCooling) = A at *
  generalize (highStageWeight (0 : ℝ)) = C at *
  have hp : 0 < A * u.btuh / κ + C / eer2 := by positivity
  rw [div_eq_iff hp.ne']
  constructor
  · intro e; field_simp at e ⊢; linarith
  · intro e; field_simp at e ⊢; linarith

/-- C98, units without a given low-stage COP: with the default cycling coefficient and a rated SEER2 of at most 1.5 times the EER2, the SEER2 of the unit exceeds its rating by 40 % or more, for every size
and every rating. -/
theorem C98_overstated {q95 eer2 s : ℝ} (H : UsualTwoStage u a q95 eer2) (h : Surroundings u E T brentq a .two [q95, q95 * 0.728]) (o82 : Outdoor E (frF 82)) (o67 : Outdoor E (frF 67))
    (hcd : a.cdCooling = none) (hcop : a.cop82 = none) (hs : a.seer = some s) (hle : s ≤ 1.5 * eer2) : ∃ B v, build u E T brentq a = .ok B ∧ B.seer u E T brentq = .ok v ∧ 1.4 * s ≤ v := by
  have e0 : cd a.cdCooling = 0.15 := by rw [hcd]; rfl
  obtain ⟨B, hB, -, hv⟩ := C97_two_range H h o82 o67 (by rw [e0]; norm_num) (by rw [e0]; norm_num)
  refine ⟨B, _, hB, hv, ?_⟩
  have hk := H.low
  have he := H.eer_pos
  rw [hcop, hs] at hk ⊢
  simp only [Option.getD_none, Option.getD_some] at hk ⊢
  rw [e0]
  obtain ⟨w1, w2, w3, w4⟩ := weight_bounds
  have hb := u.btuh_pos
  have hb' := H.usual.btuh
  have hs0 : 0 < s := by linarith
  generalize lowStageWeight (0.15 : ℝ) = A at *
  generalize (highStageWeight (0 : ℝ)) = C at *
  have h1 : A * u.btuh ≤ 0.9356 * 0.2931 := mul_le_mul w2.le hb' hb.le (by norm_num)
  have h2 : s * (C / eer2) ≤ 1.5 * 0.1001 := by
    rw [← mul_div_assoc, div_le_iff₀ he]
    nlinarith
  have hp : 0 < A * u.btuh / (s / 2) + C / eer2 := by positivity
  rw [le_div_iff₀ hp]
  have h3 : s * (A * u.btuh / (s / 2)) = 2 * (A * u.btuh) := by field_simp
  nlinarith

/-- C98: the better the low stage, the higher the SEER2. -/
theorem C98_increasing {q95 eer2 : ℝ} {κ κ' : ℝ} (H : UsualTwoStage u { a with cop82 := some κ } q95 eer2) (h : Surroundings u E T brentq a .two [q95, q95 * 0.728]) (o82 : Outdoor E (frF 82))
    (o67 : Outdoor E (frF 67)) (hcd : 0 ≤ cd a.cdCooling) (hcd1 : cd a.cdCooling < 1) (hlt : κ < κ') (hle : κ' ≤ 8) :
    ∃ B B' v v', build u E T brentq { a with cop82 := some κ } = .ok B ∧ build u E T brentq { a with cop82 := some κ' } = .ok B' ∧ B.seer u E T brentq = .ok v ∧ B'.seer u E T brentq = .ok v' ∧ v < v' := by
  have hκ : 0 < κ := H.low
  have H' : UsualTwoStage u { a with cop82 := some κ' } q95 eer2 := { H with low := hκ.trans hlt, low_le := hle, seer := .inl rfl }
  obtain ⟨B, hB, -, hv⟩ := C97_two_range H (E := E) (T := T) (brentq := brentq) ⟨h.airflows, h.charge, h.root, h.indoor, h.outdoor, h.coil, h.cops⟩ o82 o67 hcd hcd1
  obtain ⟨B', hB', -, hv'⟩ := C97_two_range H' (E := E) (T := T) (brentq := brentq) ⟨h.airflows, h.charge, h.root, h.indoor, h.outdoor, h.coil, h.cops⟩ o82 o67 hcd hcd1
  refine ⟨B, B', _, _, hB, hB', hv, hv', ?_⟩
  obtain ⟨w1, w2⟩ := weights_pos hcd hcd1
  have hb := u.btuh_pos
  have he := H.eer_pos
  have hκ' : 0 < κ' := hκ.trans hlt
  show 1 / (lowStageWeight (cd a.cdCooling) * u.btuh / κ + _) < 1 / (lowStageWeight (cd a.cdCooling) * u.btuh / κ' + _)
  refine one_div_lt_one_div_of_lt (by positivity) ?_
  have := div_lt_div_of_pos_left (mul_pos w1 hb) hκ hlt
  linarith

/-- The residual of the SEER2 search of `make_rating_unit` for a two-stage unit in usual ranges, in closed form. -/
theorem seerResidual_two {R : Request} {q95 eer2 κ : ℝ} (H : UsualTwoStage u (requestArgs u R κ none) q95 eer2) (h : Surroundings u E T brentq (requestArgs u R κ none) .two [q95, q95 * 0.728])
    (o82 : Outdoor E (frF 82)) (o67 : Outdoor E (frF 67)) :
    seerResidual u E T brentq R κ = .ok (1 / (lowStageWeight 0.15 * u.btuh / κ + highStageWeight 0 / eer2) - R.seer) := by
  obtain ⟨B, hB, -, hv⟩ := C97_two_range H h o82 o67 (by norm_num [cd, requestArgs]) (by norm_num [cd, requestArgs])
  simp only [seerResidual, hB, bind_ok, hv, pure_eq_ok]
  rfl

/-- C67, two-stage requests: within the COPs from 0 to 8 the SEER2 search has at most one root, and it has one exactly if the requested SEER2 is at most that of a unit with a low-stage COP of 8. -/
theorem C67_two_stage {R : Request} {q95 eer2 : ℝ} (H : UsualTwoStage u (requestArgs u R 3 none) q95 eer2) (h : Surroundings u E T brentq (requestArgs u R 3 none) .two [q95, q95 * 0.728])
    (o82 : Outdoor E (frF 82)) (o67 : Outdoor E (frF 67)) (hs : 0 < R.seer) :
    (∀ κ κ', 0 < κ → κ ≤ 8 → 0 < κ' → κ' ≤ 8 → seerResidual u E T brentq R κ = .ok 0 → seerResidual u E T brentq R κ' = .ok 0 → κ = κ') ∧
      ((∃ κ, 0 < κ ∧ κ ≤ 8 ∧ seerResidual u E T brentq R κ = .ok 0) ↔ R.seer ≤ 1 / (lowStageWeight 0.15 * u.btuh / 8 + highStageWeight 0 / eer2)) := by
  obtain ⟨w1, w2⟩ := weights_pos (cd := 0.15) (by norm_num) (by norm_num)
  have hb := u.btuh_pos
  have he := H.eer_pos
  have key : ∀ κ, 0 < κ → κ ≤ 8 → seerResidual u E T brentq R κ = .ok (1 / (lowStageWeight 0.15 * u.btuh / κ + highStageWeight 0 / eer2) - R.seer) := fun κ h0 h8 =>
    seerResidual_two (q95 := q95) { H with low := h0, low_le := h8 } ⟨h.airflows, h.charge, h.root, h.indoor, h.outdoor, h.coil, h.cops⟩ o82 o67
  have hiff : ∀ κ, 0 < κ → κ ≤ 8 → (seerResidual u E T brentq R κ = .ok 0 ↔ κ * (1 / R.seer - highStageWeight 0 / eer2) = lowStageWeight 0.15 * u.btuh) := fun κ h0 h8 => by
    rw [key κ h0 h8, Except.ok.injEq, sub_eq_zero]
    generalize lowStageWeight (0.15 : ℝ) = A at *
    generalize (highStageWeight (0 : ℝ)) = C at *
    have hp : 0 < A * u.btuh / κ + C / eer2 := by positivity
    rw [div_eq_iff hp.ne']
    constructor
    · intro e; field_simp at e ⊢; linarith
    · intro e; field_simp at e ⊢; linarith
  have hw := mul_pos w1 hb
  constructor
  · intro κ κ' h1 h2 h3 h4 e1 e2
    rw [hiff κ h1 h2] at e1
    rw [hiff κ' h3 h4] at e2
    have : 1 / R.seer - highStageWeight 0 / eer2 ≠ 0 := fun e => by rw [e, mul_zero] at e1; linarith
    exact mul_right_cancel₀ this (e1.trans e2.symm)
  · have hp : 0 < lowStageWeight 0.15 * u.btuh / 8 + highStageWeight 0 / eer2 := by positivity
    rw [le_one_div hs hp]
    constructor
    · rintro ⟨κ, h1, h2, e⟩
      rw [hiff κ h1 h2] at e
      have h3 : 1 / R.seer - highStageWeight 0 / eer2 = lowStageWeight 0.15 * u.btuh / κ := by rw [eq_div_iff h1.ne']; linarith
      have := div_le_div_of_nonneg_left hw.le h1 h2
      linarith
    · intro hle
      have hpos : 0 < 1 / R.seer - highStageWeight 0 / eer2 := by
        have : 0 < lowStageWeight 0.15 * u.btuh / 8 := by positivity
        linarith
      have h8 : lowStageWeight 0.15 * u.btuh / (1 / R.seer - highStageWeight 0 / eer2) ≤ 8 := by
        rw [div_le_iff₀ hpos]; linarith
      refine ⟨_, div_pos hw hpos, h8, (hiff _ (div_pos hw hpos) h8).2 (div_mul_cancel₀ _ hpos.ne')⟩

end Resdx.Build

namespace Resdx.Sample

open Build BaseModel Spec Tabular

/-- A two-stage unit of 10 kW, SEER2 15, EER2 12, with the default low-stage COP. -/
noncomputable def plainArgs : Args := { staging := some .two, cooling := .num 10000, heating := some 10000, seer := some 15, eer := some 12, hspf := some 8, defrost }

theorem both_pos {q : ℝ} (hq : 0 < q) : ∀ x ∈ [q, q * 0.728], 0 < x := by
  intro x hx
  simp only [List.mem_cons, List.not_mem_nil, or_false] at hx
  rcases hx with rfl | rfl <;> positivity

theorem plain_usual {q : ℝ} (hq : 0 < q) : UsualTwoStage units { plainArgs with cooling := .num q, heating := some q } q 12 where
  usual := usualUnits
  tables := rfl
  staging := rfl
  cycling := rfl
  cooling := rfl
  size := hq
  seer := .inr rfl
  eer := rfl
  eer_pos := by norm_num
  eer_le := by norm_num
  low := by norm_num [plainArgs]
  low_le := by norm_num [plainArgs]
  hspf := .inr rfl
  smaller := by simp [ratedHeating]
  larger := by simp [ratedHeating]; nlinarith
  hottest := off125
  heating :=
    { rated := by simpa [ratedHeating] using hq
      cold := by simp [ratedHeating, Spec.heating17, plainArgs]; linarith
      cop_pos := by norm_num [Spec.heatingCop, plainArgs]
      cop_le := by norm_num [Spec.heatingCop, plainArgs]
      above := by simp [lowestTemperature, plainArgs]
      below := by simp only [lowestTemperature, plainArgs, Option.getD]; rw [if_neg (by decide), frF_lt]; norm_num }

end Resdx.Sample

namespace Resdx.Build

open BaseModel Spec Fan

/-- C98 is false: the two-stage units made from SEER2 15 and EER2 12, of any size, have a SEER2 of at least 21. -/
theorem C98_refuted {q : ℝ} (hq : 0 < q) : ∃ brentq, BrentqSpec brentq ∧
    ∃ B v, build Sample.units Sample.env Sample.tools brentq { Sample.plainArgs with cooling := .num q, heating := some q } = .ok B ∧ B.seer Sample.units Sample.env Sample.tools brentq = .ok v ∧ 21 ≤ v := by
  obtain ⟨brentq, hbr⟩ := Props.brentqSpec_satisfiable
  refine ⟨brentq, hbr, ?_⟩
  obtain ⟨B, v, h1, h2, h3⟩ := C98_overstated (E := Sample.env) (T := Sample.tools) (brentq := brentq) (s := 15) (Sample.plain_usual hq)
    (Sample.surroundings hbr rfl rfl rfl rfl rfl (Sample.both_pos hq)) (Sample.outdoorAir _) (Sample.outdoorAir _) rfl rfl rfl (by norm_num)
  exact ⟨B, v, h1, h2, by linarith⟩

/-- The hypotheses of `C98_increasing` hold for these units with low-stage COPs 4 and 5. -/
example {brentq : Brentq} (hbr : BrentqSpec brentq) {q : ℝ} (hq : 0 < q) :=
  C98_increasing (E := Sample.env) (T := Sample.tools) (brentq := brentq) (κ := 4) (κ' := 5) (a := { Sample.plainArgs with cooling := .num q, heating := some q })
    { Sample.plain_usual hq with seer := .inl rfl, low := by norm_num, low_le := by norm_num } (Sample.surroundings hbr rfl rfl rfl rfl rfl (Sample.both_pos hq)) (Sample.outdoorAir _) (Sample.outdoorAir _)
    (by norm_num [cd, Sample.plainArgs]) (by norm_num [cd, Sample.plainArgs]) (by norm_num) (by norm_num)

/-- A request for a two-stage unit of SEER2 15, EER2 12: there is exactly one low-stage COP with which it is met. -/
example {brentq : Brentq} (hbr : BrentqSpec brentq) : ∃! κ, (0 < κ ∧ κ ≤ 8) ∧
    seerResidual Sample.units Sample.env Sample.tools brentq { staging := .two, seer := 15, hspf := 8, eer := some 12, q95 := 10000, q47 := some 10000 } κ = .ok 0 := by
  obtain ⟨h1, h2⟩ := C67_two_stage (E := Sample.env) (T := Sample.tools) (brentq := brentq) (u := Sample.units) (R := { staging := .two, seer := 15, hspf := 8, eer := some 12, q95 := 10000, q47 := some 10000 })
    (q95 := 10000) (eer2 := 12)
    { usual := Sample.usualUnits, tables := rfl, staging := rfl, cycling := rfl, cooling := rfl, size := by norm_num, seer := .inl rfl, eer := rfl, eer_pos := by norm_num, eer_le := by norm_num
      low := by norm_num [requestArgs], low_le := by norm_num [requestArgs], hspf := .inr rfl, smaller := by simp [ratedHeating, requestArgs], larger := by norm_num [ratedHeating, requestArgs]
      hottest := Sample.off125
      heating :=
        { rated := by norm_num [ratedHeating, requestArgs], cold := by norm_num [ratedHeating, requestArgs, Spec.heating17], cop_pos := by norm_num [Spec.heatingCop, requestArgs]
          cop_le := by norm_num [Spec.heatingCop, requestArgs], above := by simp [lowestTemperature, requestArgs]
          below := by simp only [lowestTemperature, requestArgs, Option.getD]; rw [if_neg (by decide), frF_lt]; norm_num } }
    (Sample.surroundings hbr rfl rfl rfl rfl rfl (Sample.both_pos (by norm_num))) (Sample.outdoorAir _) (Sample.outdoorAir _) (by norm_num)
  obtain ⟨κ, k1, k2, k3⟩ := h2.2 (by
    obtain ⟨w1, w2, w3, w4⟩ := weight_bounds
    rw [le_div_iff₀ (by have := Sample.units.btuh_pos; positivity)]
    rw [show Sample.units.btuh = (0.29307 : ℝ) from rfl]
    nlinarith)
  exact ⟨κ, ⟨⟨k1, k2⟩, k3⟩, fun y hy => h1 y κ hy.1.1 hy.1.2 k1 k2 hy.2 k3⟩

end Resdx.Build

namespace Resdx.Sample

open Spec Tabular BaseModel Props ResnetFan Fan Table Build DX

/-- The hypotheses of `C97_variable` hold for a variable-speed unit of any size with a PSC motor: its cooling tests are those of its curves. -/
example {brentq : Brentq} (hbr : BrentqSpec brentq) {q : ℝ} (hq : 0 < q) : ∃ B low full qE pE,
    build units env tools brentq { varArgs with cooling := .num q, heating := some q, heating17 := none, netHeatingCop := none, cop82 := none, ratio95 := none, motorPSC := some true } = .ok B ∧ Follows B.core.net 1 low ∧
      Follows B.core.net 2 full ∧ CoolMatch (B.unit units env tools brentq) B.points (low.coolTests full qE pE) ∧ CoolMatch.Int (B.unit units env tools brentq) B.points (low.coolTests full qE pE) := by
  have hr : 0 < (varCooling units.btuh q 18 12 none none).ratio := lt_of_lt_of_le (by norm_num) (le_max_left _ _)
  have hcold : lowestTemperature { varArgs with cooling := .num q, heating := some q, heating17 := none, netHeatingCop := none, cop82 := none, ratio95 := none, motorPSC := some true } .varSpeed = frF (-20) := by
    simp [lowestTemperature, varArgs]
  obtain ⟨B, net, h, M, F⟩ := C90_variable_range (a := { varArgs with cooling := .num q, heating := some q, heating17 := none, netHeatingCop := none, cop82 := none, ratio95 := none, motorPSC := some true }) usualUnits rfl rfl rfl rfl rfl
    (.inr rfl) ⟨rfl, rfl⟩ (by norm_num) (by norm_num) (by norm_num [varArgs]) hq (by norm_num [Comparable, ratedHeating]; nlinarith) off125
    ⟨hq, by norm_num [varHeating17, Spec.heating17, ratedHeating]; linarith, by norm_num [heatingCop, varArgs], by norm_num [heatingCop, varArgs], by rw [hcold], by rw [hcold, frF_lt]; norm_num⟩
    (surroundings hbr rfl rfl rfl rfl rfl (by
      intro x hx
      simp only [List.mem_cons, List.not_mem_nil, or_false] at hx
      have hr' : 0 < (varCooling units.btuh q (varArgs.seer.getD 0) 12 none none).ratio := hr
      rcases hx with rfl | rfl | rfl | rfl <;> positivity))
  obtain ⟨w, g1, g2, g3⟩ := M.grossCool 2 _ rfl
  have hr' : 0 < (varCooling units.btuh q (varArgs.seer.getD 0) 12 none none).ratio := hr
  obtain ⟨r1, r2⟩ := default_ratios units (seer2 := 18) (eer2 := 12) hq.ne' (by norm_num)
  obtain ⟨_, _, _, -, -, -, k1, k2, -⟩ := C97_variable h rfl rfl rfl rfl rfl (.inr rfl) hq (by norm_num) hq.ne' (by norm_num [varHeating17, Spec.heating17, ratedHeating]; exact hq.ne')
    (by norm_num [heatingCop, varArgs]) (by intro c hc; cases hc) off125.1 (by rw [hcold, frF_lt]; norm_num) (by rw [hcold, toF_frF]; norm_num) r1 r2 rfl (by norm_num [cd, varArgs]) (by norm_num [cd, varArgs])
    (.inl M.motor) g1 (by positivity) (outdoorAir _) (outdoorAir _) (outdoorAir _) (outdoorAir _)
  have e : B.core.net = net := M.tables
  exact ⟨B, _, _, _, _, h, e ▸ F 1 (by norm_num) (by norm_num), e ▸ F 2 (by norm_num) (by norm_num), k1, k2⟩

end Resdx.Sample
