import Verif.Props.VariableBound

/-!
# C67: variable-speed units with requested SEER2 and HSPF2
-/

set_option linter.unusedSectionVars false
set_option linter.unusedSimpArgs false

namespace Resdx.Build

open Spec Tabular BaseModel Props ResnetFan Fan Table DX Set

variable {u : Units ℝ} {E : Env ℝ} {T : Coil.Tools} {brentq : Brentq} {a : Args}

/-- The SEER2 of a variable-speed unit with a given COP at 82 °F, by way of the ratio of energy inputs. -/
theorem seer_of_ratio {q95 eer2 c : ℝ} (H : UsualVariableCop u a q95 eer2 c) (hstd : a.standard = .ahri2023) (hcd : 0 ≤ cd a.cdCooling) (hcd1 : cd a.cdCooling < 1) (o87 : Outdoor E (frF 87)) (o82 : Outdoor E (frF 82))
    (o67 : Outdoor E (frF 67)) (h : Surroundings u E T brentq a .varSpeed (variableSizesCop u q95 eer2 c)) :
    ∃ B, build u E T brentq a = .ok B ∧ B.core.st = .varSpeed ∧
      B.seer u E T brentq =
        .ok ((ratioTests u (a.motorPSC.getD false) a.ducted q95 (ratedHeating u a .varSpeed q95) eer2 (copRatio u.btuh eer2 c)).variableSeason (cd a.cdCooling) / u.btuh) := by
  obtain ⟨B, hB, hst, hS⟩ := C97_variable_ratings H.usualSeer hstd hcd hcd1 o87 o82 o67 (H.surroundings h)
  refine ⟨B, H.build_eq.trans hB, hst, hS.trans ?_⟩
  have hu := H.usual
  have ev : inputRatio82 (copSeer u.btuh eer2 c) eer2 = copRatio u.btuh eer2 c := copSeer_eq H.eer_pos.ne' H.ratio_ge H.ratio_le
  obtain ⟨v1, v2, v3, v4, v5⟩ := cool_values (seer2 := copSeer u.btuh eer2 c) u.btuh_pos H.size H.eer_pos
  unfold variableSeer ratioTests
  simp only
  rw [show (seerArgs u a eer2 c).seer.getD 0 = copSeer u.btuh eer2 c from rfl, shape_tests hu H.size H.eer_pos H.eer_le, v1, v2, v3, v4, v5, ev]
  rfl

/-- A continuous function without a sign change only if its ends have one sign. -/
theorem sign_change {f : ℝ → ℝ} {x1 x2 : ℝ} (hx : x1 ≤ x2) (hf : ContinuousOn f (Icc x1 x2)) (h : f x1 * f x2 ≤ 0) : ∃ x ∈ Icc x1 x2, f x = 0 := by
  rcases mul_nonpos_iff.1 h with ⟨h1, h2⟩ | ⟨h1, h2⟩
  · exact intermediate_value_Icc' hx hf ⟨h2, h1⟩
  · exact intermediate_value_Icc hx hf ⟨h1, h2⟩

/-- Between two admissible COPs all are admissible. -/
theorem between_cops {R : Request} {cop : Option ℝ} {q95 eer2 c1 c2 c : ℝ} (H1 : UsualVariableCop u (requestArgs u R c1 cop) q95 eer2 c1) (H2 : UsualVariableCop u (requestArgs u R c2 cop) q95 eer2 c2)
    (hc : c ∈ Icc c1 c2) : UsualVariableCop u (requestArgs u R c cop) q95 eer2 c :=
  { H1 with
    cop82 := rfl
    cop82_ge := H1.cop82_ge.trans hc.1
    cop82_le := by have := H2.cop82_le; have := hc.2; linarith
    cop82_small := hc.2.trans H2.cop82_small }

/-- C67, variable-speed requests, cooling: the residual of the SEER2 search is a continuous function of the COP at 82 °F in the range of `UsualVariableCop`. So if it has different signs at two COPs, there is one without residual
between them. -/
theorem C67_variable_seer {R : Request} {q95 eer2 c1 c2 : ℝ} (hc : c1 ≤ c2) (H1 : UsualVariableCop u (requestArgs u R c1 none) q95 eer2 c1) (H2 : UsualVariableCop u (requestArgs u R c2 none) q95 eer2 c2)
    (hstd : R.standard = .ahri2023) (o87 : Outdoor E (frF 87)) (o82 : Outdoor E (frF 82)) (o67 : Outdoor E (frF 67))
    (h : ∀ c ∈ Icc c1 c2, Surroundings u E T brentq (requestArgs u R c none) .varSpeed (variableSizesCop u q95 eer2 c)) :
    ∃ f : ℝ → ℝ, ContinuousOn f (Icc c1 c2) ∧ (∀ c ∈ Icc c1 c2, seerResidual u E T brentq R c = .ok (f c)) ∧ (f c1 * f c2 ≤ 0 → ∃ c ∈ Icc c1 c2, seerResidual u E T brentq R c = .ok 0) := by
  have cd0 : 0 ≤ cd (requestArgs u R c1 none).cdCooling ∧ cd (requestArgs u R c1 none).cdCooling < 1 := by norm_num [cd, requestArgs]
  have hE := fun c hc => between_cops (c := c) H1 H2 hc
  have hs : ContinuousOn (fun c => (ratioTests u ((requestArgs u R c1 none).motorPSC.getD false) (requestArgs u R c1 none).ducted q95 (ratedHeating u (requestArgs u R c1 none) .varSpeed q95) eer2
      (copRatio u.btuh eer2 c)).variableSeason (cd (requestArgs u R c1 none).cdCooling) / u.btuh - R.seer) (Icc c1 c2) := by
    refine ((ContinuousOn.comp (g := fun e => (ratioTests u ((requestArgs u R c1 none).motorPSC.getD false) (requestArgs u R c1 none).ducted q95 (ratedHeating u (requestArgs u R c1 none) .varSpeed q95) eer2
      e).variableSeason (cd (requestArgs u R c1 none).cdCooling)) (season_continuous _ _ H1.usual H1.size H1.eer_pos H1.eer_le H1.comparable cd0.1 cd0.2) (f := copRatio u.btuh eer2) ?_
      fun c hc => ⟨(hE c hc).ratio_ge, (hE c hc).ratio_le⟩).div_const _).sub continuousOn_const
    unfold copRatio
    exact continuousOn_const.div continuousOn_id fun c hc => (hE c hc).pos.ne'
  have hv : ∀ c ∈ Icc c1 c2, seerResidual u E T brentq R c = .ok ((ratioTests u ((requestArgs u R c1 none).motorPSC.getD false) (requestArgs u R c1 none).ducted q95
      (ratedHeating u (requestArgs u R c1 none) .varSpeed q95) eer2 (copRatio u.btuh eer2 c)).variableSeason (cd (requestArgs u R c1 none).cdCooling) / u.btuh - R.seer) := by
    intro c hc
    obtain ⟨B, hB, -, hS⟩ := seer_of_ratio (hE c hc) (E := E) (T := T) (brentq := brentq) hstd cd0.1 cd0.2 o87 o82 o67 (h c hc)
    unfold seerResidual
    rw [hB, bind_ok, hS, bind_ok]
    rfl
  refine ⟨_, hs, hv, fun hsign => ?_⟩
  obtain ⟨c, hc', h0⟩ := sign_change hc hs hsign
  exact ⟨c, hc', by rw [hv c hc', h0]⟩

/-- C67, variable-speed requests, heating: between the COPs 2.5 and 5 the residual of the HSPF2 search is a continuous function of the COP. So if it has different signs at two COPs, there is one without residual between them. -/
theorem C67_variable_hspf {R : Request} {q95 eer2 c κ1 κ2 : ℝ} (H : UsualVariableCop u (requestArgs u R c none) q95 eer2 c) (hS : VariableSeason u E (requestArgs u R c (some 3)) q95)
    (h : Surroundings u E T brentq (requestArgs u R c none) .varSpeed (variableSizesCop u q95 eer2 c)) (k1 : 2.5 ≤ κ1) (k2 : κ1 ≤ κ2) (k3 : κ2 ≤ 5) :
    ∃ f : ℝ → ℝ, ContinuousOn f (Icc κ1 κ2) ∧ (∀ κ ∈ Icc κ1 κ2, hspfResidual u E T brentq R c κ = .ok (f κ)) ∧ (f κ1 * f κ2 ≤ 0 → ∃ κ ∈ Icc κ1 κ2, hspfResidual u E T brentq R c κ = .ok 0) := by
  obtain ⟨design, hours, cx, cv, z, hr⟩ : ∃ d hours cx cv z, regionData (K := ℝ) .ahri2023 4 = some (d, hours, some (cx, cv, z)) := ⟨_, _, _, _, _, rfl⟩
  obtain ⟨q, hq⟩ : ∃ q, q = ratedHeating u (requestArgs u R c none) .varSpeed q95 := ⟨_, rfl⟩
  obtain ⟨h17, hh⟩ : ∃ h17, h17 = varHeating17 q (requestArgs u R c none).heating17 := ⟨_, rfl⟩
  have hpos : 0 < q := by rw [hq]; exact H.heating.rated
  have h95 := H.size
  have c1 : 0.6 * q ≤ h17 := by rw [hh, hq]; exact hS.cold
  have c2 : h17 ≤ q := by rw [hh, hq]; exact hS.cold_le
  have c3 : h17 ≤ 0.95 * q95 := by rw [hh, hq]; exact hS.warm
  have hcmp : Comparable q95 q := by rw [hq]; exact H.comparable
  obtain ⟨g1, g2, g3, g4, g5⟩ := variable_fan_bounds ((requestArgs u R c none).motorPSC.getD false) (requestArgs u R c none).ducted H.usual h95 hpos hcmp
  have val : ∀ κ, 2.5 ≤ κ → κ ≤ 5 → hspfResidual u E T brentq R c κ = .ok (variableHspf ((requestArgs u R c none).motorPSC.getD false) (requestArgs u R c none).ducted u.ton q95 q h17 κ
      ((requestArgs u R c none).defrost.inDefrost (frF 35)) (cd (requestArgs u R c none).cdHeating) (toF (lowestTemperature (requestArgs u R c none) .varSpeed))
      (heatBuildingLoad z design (cv * variableCooling ((requestArgs u R c none).motorPSC.getD false) (requestArgs u R c none).ducted u.ton q95 q)) (seasonTemperatures.zip hours) * 1 / u.btuh - R.hspf) := by
    intro κ l1 l2
    obtain ⟨B, hB, -, hH⟩ := C96_variable_cop (a := requestArgs u R c (some κ)) (E := E) (T := T) (brentq := brentq) (q95 := q95) (eer2 := eer2) (c := c)
      { H with hspf := .inl rfl, heating := { H.heating with cop_pos := by show 0 < κ; linarith, cop_le := l2 } } { hS with cop := by show 2.1 ≤ κ; linarith }
      ⟨h.airflows, h.charge, h.root, h.indoor, h.outdoor, h.coil, h.cops.1, .inl rfl⟩
    have := hH hr (f := 1) rfl
    unfold hspfResidual
    rw [hB, bind_ok, this, bind_ok, hh, hq]
    rfl
  obtain ⟨off, hoff⟩ : ∃ off, off = toF (lowestTemperature (requestArgs u R c none) .varSpeed) := ⟨_, rfl⟩
  obtain ⟨b, hb⟩ : ∃ b, b = (requestArgs u R c none).defrost.inDefrost (frF 35) := ⟨_, rfl⟩
  obtain ⟨dc, hdc⟩ : ∃ dc, dc = cd (requestArgs u R c none).cdHeating := ⟨_, rfl⟩
  have d0 : 0 ≤ dc ∧ dc < 1 := by rw [hdc]; exact hS.cd
  obtain ⟨VC, hVC⟩ : ∃ VC, VC = variableCooling ((requestArgs u R c none).motorPSC.getD false) (requestArgs u R c none).ducted u.ton q95 q := ⟨_, rfl⟩
  have hVC0 : 0.9785 * q95 ≤ VC := by rw [hVC]; unfold variableCooling; linarith
  rw [← hoff, ← hb, ← hdc, ← hVC] at val
  unfold variableHspf at val
  simp only at val
  generalize unitFan ((requestArgs u R c none).motorPSC.getD false) u.ton (max q95 q) q (if (requestArgs u R c none).ducted = true then 1 else 0) = w1 at *
  generalize unitFan ((requestArgs u R c none).motorPSC.getD false) u.ton (max q95 q) ((q / 0.908 * 0.272 + q) / 2) (if (requestArgs u R c none).ducted = true then (max q95 q / (q / 0.908)) ^ 2 else 0) = w at *
  generalize unitFan ((requestArgs u R c none).motorPSC.getD false) u.ton (max q95 q) (q / 0.908 * 0.272) (if (requestArgs u R c none).ducted = true then (max q95 q / (q / 0.908)) ^ 2 else 0) = w3 at *
  generalize unitFan ((requestArgs u R c none).motorPSC.getD false) u.ton (max q95 q) q (if (requestArgs u R c none).ducted = true then (max q95 q / (q / 0.908)) ^ 2 else 0) = v at *
  have inv_mem : ∀ κ, 2.5 ≤ κ → κ ≤ 5 → κ⁻¹ ∈ Icc (0.2 : ℝ) 0.4 := by
    intro κ l1 l2
    have hκ : 0 < κ := by linarith
    constructor
    · rw [le_inv_comm₀ (by norm_num) hκ]; norm_num; exact l2
    · rw [inv_le_comm₀ hκ (by norm_num)]; norm_num at l1 ⊢; exact l1
  have TB : ∀ k ∈ Icc (0.2 : ℝ) 0.4, TestBounds q h17 k⁻¹ w1 w w3 v := by
    intro k hk
    have hk0 : 0 < k := by linarith [hk.1]
    refine ⟨hpos, c1, c2, ?_, ?_, g1, g2, g3, g4.1, g4.2⟩
    · rw [le_inv_comm₀ (by norm_num) hk0]; exact hk.2.trans (by norm_num)
    · rw [inv_le_comm₀ hk0 (by norm_num)]; norm_num at hk ⊢; exact hk.1
  obtain ⟨l1, l2⟩ := region_load_variable hr (q := VC) (by linarith)
  obtain ⟨r1, -, r2, r3, ⟨n, r4, r5⟩, r6, -⟩ := region_2023 hr
  have hfull : 0 < cv * VC := mul_pos r2 (by linarith)
  have cont := heating_continuous (b := b) TB (cd := dc) (off := off) (load := heatBuildingLoad z design (cv * VC)) (bins := seasonTemperatures.zip hours)
    (fun x hx => ⟨(List.of_mem_zip hx).1, region_four hr x hx⟩) fun k hk => by
      have hpos' := fun t ht => variable_pos (b := b) (TB k hk) (off := off) d0.1 d0.2 l1 (fun t h12 => by have := l2 t h12; linarith) (t := t) ht (heatBuildingLoad_nonneg r1 hfull.le)
      simp only
      rw [← total_add]
      refine (total_pos (fun b hb => ⟨(hpos' b.1 (List.of_mem_zip hb).1).1, r3 _ (List.of_mem_zip hb).2⟩) r4 ?_ r5).ne'
      exact (hpos' 52 (List.of_mem_zip r4).1).2 (by norm_num) (heatBuildingLoad_pos r1 hfull r6)
  have hs : ContinuousOn (fun κ => (variableHeating b q h17 κ w1 w w3 v).season dc off (heatBuildingLoad z design (cv * VC)) (seasonTemperatures.zip hours) * 1 / u.btuh - R.hspf) (Icc κ1 κ2) := by
    have := (ContinuousOn.comp (g := fun k => (variableHeating b q h17 k⁻¹ w1 w w3 v).season dc off (heatBuildingLoad z design (cv * VC)) (seasonTemperatures.zip hours)) cont (f := fun κ => κ⁻¹) (s := Icc κ1 κ2)
      (continuousOn_id.inv₀ fun κ hκ => by have := hκ.1; simp only [id]; linarith) fun κ hκ => inv_mem κ (k1.trans hκ.1) (hκ.2.trans k3))
    simp only [Function.comp_def, inv_inv] at this
    exact ((this.mul continuousOn_const).div_const _).sub continuousOn_const
  have hv := fun κ (hκ : κ ∈ Icc κ1 κ2) => val κ (k1.trans hκ.1) (hκ.2.trans k3)
  refine ⟨_, hs, hv, fun hsign => ?_⟩
  obtain ⟨κ, hκ, h0⟩ := sign_change k2 hs hsign
  exact ⟨κ, hκ, by rw [hv κ hκ]; exact congrArg _ h0⟩

/-- C67, variable-speed requests that can be met: if the SEER2 search has residuals of different signs at two COPs in the range of `UsualVariableCop` and, for the COP it finds, the HSPF2 search has residuals of different signs at
two COPs between 2.5 and 5, both searches have a root; if the solver returns such roots, `make_rating_unit` returns a unit with exactly the requested SEER2 and HSPF2. -/
theorem C67_variable_attained {R : Request} {q95 eer2 c1 c2 κ1 κ2 : ℝ} (hc : c1 ≤ c2) (H1 : UsualVariableCop u (requestArgs u R c1 none) q95 eer2 c1) (H2 : UsualVariableCop u (requestArgs u R c2 none) q95 eer2 c2)
    (hS : VariableSeason u E (requestArgs u R c1 (some 3)) q95) (o87 : Outdoor E (frF 87)) (o82 : Outdoor E (frF 82)) (o67 : Outdoor E (frF 67))
    (h : ∀ c ∈ Icc c1 c2, Surroundings u E T brentq (requestArgs u R c none) .varSpeed (variableSizesCop u q95 eer2 c)) (k1 : 2.5 ≤ κ1) (k2 : κ1 ≤ κ2) (k3 : κ2 ≤ 5)
    {y1 y2 : ℝ} (hy1 : seerResidual u E T brentq R c1 = .ok y1) (hy2 : seerResidual u E T brentq R c2 = .ok y2) (hy : y1 * y2 ≤ 0) :
    (∃ c ∈ Icc c1 c2, seerResidual u E T brentq R c = .ok 0) ∧ ∀ c ∈ Icc c1 c2, seerResidual u E T brentq R c = .ok 0 →
      ∀ {z1 z2 : ℝ}, hspfResidual u E T brentq R c κ1 = .ok z1 → hspfResidual u E T brentq R c κ2 = .ok z2 → z1 * z2 ≤ 0 →
        (∃ κ ∈ Icc κ1 κ2, hspfResidual u E T brentq R c κ = .ok 0) ∧
        ∀ (newton : Coil.Newton) (κ : ℝ), κ ∈ Icc κ1 κ2 → hspfResidual u E T brentq R c κ = .ok 0 → newton (seerResidual u E T brentq R) (R.seer / 3) = .ok c →
          newton (hspfResidual u E T brentq R c) (R.hspf / 2) = .ok κ →
          ∃ B, makeRatingUnit u E T brentq newton R = .ok B ∧ B.core.st = .varSpeed ∧ B.seer u E T brentq = .ok R.seer ∧ B.hspf u E T brentq = .ok R.hspf := by
  have hst : R.staging = .varSpeed := by have := H1.staging; simpa [requestArgs] using this
  obtain ⟨f, -, hf, hroot⟩ := C67_variable_seer hc H1 H2 (show R.standard = .ahri2023 from hS.standard) o87 o82 o67 h
  have e1 := (hf c1 ⟨le_rfl, hc⟩).symm.trans hy1
  have e2 := (hf c2 ⟨hc, le_rfl⟩).symm.trans hy2
  rw [Except.ok.injEq] at e1 e2
  refine ⟨hroot (by rw [e1, e2]; exact hy), fun c hcm h0 z1 z2 hz1 hz2 hz => ?_⟩
  obtain ⟨g, -, hg, hgr⟩ := C67_variable_hspf (between_cops H1 H2 hcm) (E := E) (T := T) (brentq := brentq) { hS with } (h c hcm) k1 k2 k3
  have e3 := (hg κ1 ⟨le_rfl, k2⟩).symm.trans hz1
  have e4 := (hg κ2 ⟨k2, le_rfl⟩).symm.trans hz2
  rw [Except.ok.injEq] at e3 e4
  refine ⟨hgr (by rw [e3, e4]; exact hz), fun newton κ hκ hκ0 n82 n47 => ?_⟩
  have hκ0' := hκ0
  simp only [hspfResidual, bind_eq_ok, pure_eq_ok, Except.ok.injEq] at hκ0'
  obtain ⟨B, hB, w, hw, hw0⟩ := hκ0'
  have hM : makeRatingUnit u E T brentq newton R = .ok B := by
    unfold makeRatingUnit
    rw [if_neg (by rw [hst]; decide), n82, bind_ok]
    simp only
    rw [n47, bind_ok, hB]
  have h0' := h0
  simp only [seerResidual, bind_eq_ok, pure_eq_ok, Except.ok.injEq] at h0'
  obtain ⟨B0, hb, w', hw', hw0'⟩ := h0'
  have es := C94_cooling_ratings (cop := some κ) (hspf := some R.hspf) hb (B' := B) hB
  refine ⟨B, hM, ?_, ?_, by rw [hw, sub_eq_zero.1 hw0]⟩
  · obtain ⟨B', hB', hst', -⟩ := C96_variable_cop (a := requestArgs u R c (some κ)) (E := E) (T := T) (brentq := brentq) (q95 := q95) (eer2 := eer2) (c := c)
      { between_cops H1 H2 hcm with
        hspf := .inl rfl, heating := { H1.heating with cop_pos := by show 0 < κ; linarith [hκ.1], cop_le := hκ.2.trans k3 } } { hS with cop := by show 2.1 ≤ κ; linarith [hκ.1] }
      ⟨(h c hcm).airflows, (h c hcm).charge, (h c hcm).root, (h c hcm).indoor, (h c hcm).outdoor, (h c hcm).coil, (h c hcm).cops.1, .inl rfl⟩
    rw [hB, Except.ok.injEq] at hB'
    rw [hB']; exact hst'
  · rw [es.1, hw', sub_eq_zero.1 hw0']

end Resdx.Build

namespace Resdx.Sample

open Spec Tabular BaseModel Props ResnetFan Fan Table Build DX Set

/-- A variable-speed request with a SEER2 and an HSPF2. -/
noncomputable def varRequest (seer hspf : ℝ) : Request := { staging := .varSpeed, seer := seer, hspf := hspf, eer := some 12, q95 := 10000, q47 := some 10000, qm17 := 0.65 }

theorem varRequest_usual {seer hspf c : ℝ} {cop : Option ℝ} (hcop : 0 < heatingCop hspf cop ∧ heatingCop hspf cop ≤ 5) (h1 : 4.4 ≤ c) (h2 : c ≤ 6.2) : UsualVariableCop units (requestArgs units (varRequest seer hspf) c cop) 10000 12 c where
  usual := usualUnits
  tables := rfl
  staging := rfl
  cooling := rfl
  size := by norm_num
  eer := rfl
  eer_pos := by norm_num
  eer_le := by norm_num
  ratio := rfl
  cop82 := rfl
  cop82_ge := by rw [show units.btuh = (0.29307 : ℝ) from rfl]; norm_num at h1 ⊢; linarith
  cop82_le := by rw [show units.btuh = (0.29307 : ℝ) from rfl]; norm_num at h2 ⊢; linarith
  cop82_small := by rw [show units.btuh = (0.29307 : ℝ) from rfl]; norm_num at h2 ⊢; linarith
  hspf := .inr rfl
  comparable := by norm_num [Comparable, ratedHeating, requestArgs, varRequest]
  hottest := off125
  heating :=
    { rated := by norm_num [ratedHeating, requestArgs, varRequest], cold := by norm_num [ratedHeating, requestArgs, varHeating17, varRequest], cop_pos := hcop.1, cop_le := hcop.2
      above := by simp [lowestTemperature, requestArgs, varRequest]
      below := by simp only [lowestTemperature, requestArgs, varRequest, Option.getD, if_true]; rw [frF_lt]; norm_num }

theorem varRequest_season {seer hspf c κ : ℝ} (h : 2.1 ≤ κ) : VariableSeason units env (requestArgs units (varRequest seer hspf) c (some κ)) 10000 where
  standard := rfl
  cutIn := rfl
  cd := by norm_num [Build.cd, requestArgs]
  cold := by norm_num [varHeating17, ratedHeating, requestArgs, varRequest]
  cold_le := by norm_num [varHeating17, ratedHeating, requestArgs, varRequest]
  warm := by norm_num [varHeating17, ratedHeating, requestArgs, varRequest]
  cop := h
  outdoor := ⟨outdoorAir _, outdoorAir _, outdoorAir _, outdoorAir _, outdoorAir _⟩

theorem varRequest_surroundings {brentq : Brentq} (hbr : BrentqSpec brentq) {seer hspf c : ℝ} {cop : Option ℝ} :
    Surroundings units env tools brentq (requestArgs units (varRequest seer hspf) c cop) .varSpeed (variableSizesCop units 10000 12 c) :=
  surroundings hbr rfl rfl rfl rfl rfl (by
    intro x hx
    simp only [variableSizesCop, List.mem_cons, List.not_mem_nil, or_false] at hx
    have hr : 0 < capacityRatio95 (copRatio units.btuh 12 c) := lt_of_lt_of_le (by norm_num) (le_max_left _ _)
    rcases hx with rfl | rfl | rfl | rfl <;> positivity)

theorem mean_sign (a b : ℝ) : (a - (a + b) / 2) * (b - (a + b) / 2) ≤ 0 := by nlinarith [sq_nonneg (a - b)]

theorem varCop_ok {hspf : ℝ} (h0 : 0 < hspf) (h : hspf ≤ 32.5) : 0 < heatingCop hspf none ∧ heatingCop hspf none ≤ 5 := by
  unfold heatingCop; constructor <;> norm_num at h ⊢ <;> linarith

/-- The hypotheses of `C67_variable_attained` hold: there are a SEER2 and an HSPF2 such that the residuals of this request have different signs at the cooling COPs 4.5 and 6 and at the heating COPs 2.6 and 2.9, so that both
searches have roots. -/
example {brentq : Brentq} (hbr : BrentqSpec brentq) : ∃ seer hspf, ∃ c ∈ Icc (4.5 : ℝ) 6, ∃ κ ∈ Icc (2.6 : ℝ) 2.9,
    seerResidual units env tools brentq (varRequest seer hspf) c = .ok 0 ∧ hspfResidual units env tools brentq (varRequest seer hspf) c κ = .ok 0 := by
  obtain ⟨d, hours, cx, cv, z, hr⟩ : ∃ d hours cx cv z, regionData (K := ℝ) .ahri2023 4 = some (d, hours, some (cx, cv, z)) := ⟨_, _, _, _, _, rfl⟩
  -- the two HSPF2 values
  obtain ⟨V, hV⟩ : ∃ V : ℝ → ℝ, V = fun κ => variableHspf ((requestArgs units (varRequest 0 0) 5 none).motorPSC.getD false) (requestArgs units (varRequest 0 0) 5 none).ducted units.ton 10000
    (ratedHeating units (requestArgs units (varRequest 0 0) 5 none) .varSpeed 10000) (varHeating17 (ratedHeating units (requestArgs units (varRequest 0 0) 5 none) .varSpeed 10000) (requestArgs units (varRequest 0 0) 5 none).heating17)
    κ ((requestArgs units (varRequest 0 0) 5 none).defrost.inDefrost (frF 35)) (cd (requestArgs units (varRequest 0 0) 5 none).cdHeating) (toF (lowestTemperature (requestArgs units (varRequest 0 0) 5 none) .varSpeed))
    (heatBuildingLoad z d (cv * variableCooling ((requestArgs units (varRequest 0 0) 5 none).motorPSC.getD false) (requestArgs units (varRequest 0 0) 5 none).ducted units.ton 10000
      (ratedHeating units (requestArgs units (varRequest 0 0) 5 none) .varSpeed 10000))) (seasonTemperatures.zip hours) * 1 / units.btuh := ⟨_, rfl⟩
  have U := varRequest_usual (seer := 0) (hspf := 1) (c := 5) (cop := none) (varCop_ok (by norm_num) (by norm_num)) (by norm_num) (by norm_num)
  have S := varRequest_season (seer := 0) (hspf := 1) (c := 5) (κ := 3) (by norm_num)
  have bound : ∀ κ, 2.5 ≤ κ → κ ≤ 3 → 0 < V κ ∧ V κ ≤ 32.5 := by
    intro κ k1 k2
    obtain ⟨p1, p2⟩ := hspf_limit (psc := false) (ducted := (requestArgs units (varRequest 0 0) 5 none).ducted) (b := (requestArgs units (varRequest 0 0) 5 none).defrost.inDefrost (frF 35))
      (off := toF (lowestTemperature (requestArgs units (varRequest 0 0) 5 none) .varSpeed)) U.usual U.size U.heating.rated U.comparable S.cold S.cold_le S.warm k1 k2 S.cd hr
    have hb : units.btuh = (0.29307 : ℝ) := rfl
    rw [hV]
    constructor
    · exact div_pos (mul_pos p1 one_pos) (by rw [hb]; norm_num)
    · rw [div_le_iff₀ (by rw [hb]; norm_num), mul_one]
      exact p2.trans (by rw [hb]; norm_num)
  obtain ⟨b1, b2⟩ := bound 2.6 (by norm_num) (by norm_num)
  obtain ⟨b3, b4⟩ := bound 2.9 (by norm_num) (by norm_num)
  obtain ⟨hspf, hh⟩ : ∃ hspf, hspf = (V 2.6 + V 2.9) / 2 := ⟨_, rfl⟩
  have ok := varCop_ok (hspf := hspf) (by linarith) (by linarith)
  -- the two SEER2 values
  have seer : ∀ c, 4.4 ≤ c → c ≤ 6.2 → ∃ y, ∀ s, seerResidual units env tools brentq (varRequest s hspf) c = .ok (y - s) := by
    intro c h1 h2
    refine ⟨(ratioTests units false (requestArgs units (varRequest 0 0) 5 none).ducted 10000 (ratedHeating units (requestArgs units (varRequest 0 0) 5 none) .varSpeed 10000) 12
      (copRatio units.btuh 12 c)).variableSeason (cd none) / units.btuh, fun s => ?_⟩
    obtain ⟨B, hB, -, hS⟩ := seer_of_ratio (varRequest_usual (seer := s) (cop := none) ok h1 h2) (E := env) (T := tools) (brentq := brentq) rfl (by norm_num [cd, requestArgs]) (by norm_num [cd, requestArgs])
      (outdoorAir _) (outdoorAir _) (outdoorAir _) (varRequest_surroundings hbr)
    unfold seerResidual
    rw [hB, bind_ok, hS, bind_ok]
    rfl
  obtain ⟨y1, e1⟩ := seer 4.5 (by norm_num) (by norm_num)
  obtain ⟨y2, e2⟩ := seer 6 (by norm_num) (by norm_num)
  have hspfs : ∀ s c κ, 4.4 ≤ c → c ≤ 6.2 → 2.5 ≤ κ → κ ≤ 3 → hspfResidual units env tools brentq (varRequest s hspf) c κ = .ok (V κ - hspf) := by
    intro s c κ h1 h2 k1 k2
    obtain ⟨B, hB, -, hH⟩ := C96_variable_cop (varRequest_usual (seer := s) (hspf := hspf) (cop := some κ) ⟨by show 0 < κ; linarith, by show κ ≤ 5; linarith⟩ h1 h2) (E := env) (T := tools) (brentq := brentq)
      (varRequest_season (by linarith)) (varRequest_surroundings hbr)
    have := hH hr (f := 1) rfl
    unfold hspfResidual
    rw [hB, bind_ok, this, bind_ok, hV]
    rfl
  obtain ⟨⟨c, hc, h0⟩, hall⟩ := C67_variable_attained (R := varRequest ((y1 + y2) / 2) hspf) (q95 := 10000) (eer2 := 12) (c1 := 4.5) (c2 := 6) (κ1 := 2.6) (κ2 := 2.9) (E := env) (T := tools) (brentq := brentq) (by norm_num)
    (varRequest_usual ok (by norm_num) (by norm_num)) (varRequest_usual ok (by norm_num) (by norm_num)) (varRequest_season (by norm_num)) (outdoorAir _) (outdoorAir _) (outdoorAir _)
    (fun c _ => varRequest_surroundings hbr) (by norm_num) (by norm_num) (by norm_num) (e1 _) (e2 _) (mean_sign y1 y2)
  have c1 : 4.4 ≤ c := le_trans (by norm_num) hc.1
  have c2 : c ≤ 6.2 := hc.2.trans (by norm_num)
  obtain ⟨⟨κ, hκ, hκ0⟩, -⟩ := hall c hc h0 (hspfs _ c 2.6 c1 c2 (by norm_num) (by norm_num)) (hspfs _ c 2.9 c1 c2 (by norm_num) (by norm_num)) (by rw [hh]; exact mean_sign _ _)
  exact ⟨_, _, c, hc, κ, hκ, h0, hκ0⟩

end Resdx.Sample
