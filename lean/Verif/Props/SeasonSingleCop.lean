import Verif.Props.Season2017
import Verif.Props.SeasonTwoCop

/-!
# C96: the dependence of the HSPF2 of single-stage units on the rated COP, for any motor and both editions
-/

set_option linter.unusedSectionVars false
set_option linter.unusedSimpArgs false

namespace Resdx.Build

open Spec Tabular BaseModel Props ResnetFan Fan Table DX

variable {u : Units ℝ} {E : Env ℝ} {T : Coil.Tools} {brentq : Brentq} {a : Args} {B : Built}

/-- At all temperatures of the season above 0 °F the unit delivers at least what it draws. -/
theorem single_delivers {b : Bool} {q h κ e v : ℝ} (hq : 0 < q) (h1 : 0.5 * q ≤ h) (h2 : h ≤ 2 * q) (hκ : 2.1 ≤ κ) (he : 0 ≤ e) (hv : e ≤ v) :
    ∀ t ∈ (seasonTemperatures : List ℝ), 0 ≤ t → (highTests b q h κ e v).p t ≤ (highTests b q h κ e v).q t := by
  have k0 : 0 < 1 / κ := one_div_pos.2 (by linarith)
  have k1 : 1 / κ ≤ 0.4763 := by rw [div_le_iff₀ (by linarith)]; linarith
  have eq : q / κ = q * (1 / κ) := by ring
  have eh : h / κ = h * (1 / κ) := by ring
  have m4 := mul_nonneg (sub_nonneg.2 h1) (sub_nonneg.2 k1)
  have m5 := mul_nonneg (sub_nonneg.2 h2) (sub_nonneg.2 k1)
  have m6 := mul_nonneg hq.le (sub_nonneg.2 k1)
  have m1 := mul_nonneg (sub_nonneg.2 h1) k0.le
  have m2 := mul_nonneg (sub_nonneg.2 h2) k0.le
  have m3 := mul_pos hq k0
  simp only [seasonTemperatures, List.forall_mem_cons, List.not_mem_nil, false_imp_iff, implies_true, and_true]
  unfold HeatTests.p HeatTests.q lineAt highTests
  rw [eq, eh]
  generalize 1 / κ = k at *
  simp only [frosted, input17]
  norm_num
  cases b <;> simp only [if_true, if_false, Bool.false_eq_true] <;> (refine ⟨?_, ?_, ?_, ?_, ?_, ?_, ?_, ?_, ?_, ?_, ?_, ?_, ?_⟩ <;> ring_nf at * <;> linarith)

/-- The season of single-stage units of the same ratings but the COP: the energy used is affine in the reciprocal of the COP. -/
theorem single_season_affine {q h e v cd off : ℝ} {b : Bool} {load : ℝ → ℝ} {hours : List ℝ} (hq : 0 < q) (h1 : 0.5 * q ≤ h) (h2 : h ≤ 2 * q) (he : 0 ≤ e) (hv : e ≤ v)
    (hcd : 0 ≤ cd) (hcd1 : cd < 1) (hoff : 0 ≤ off) (hoff5 : off < 5) (hn : ∀ n ∈ hours, 0 ≤ n) (hl : ∀ t, 0 ≤ load t)
    (h52 : ∃ n, ((52 : ℝ), n) ∈ seasonTemperatures.zip hours ∧ 0 < n) (hl52 : 0 < load 52) :
    ∃ α β : ℝ, 0 < α ∧ 0 ≤ β ∧ ∀ κ : ℝ, 2.1 ≤ κ → (highTests b q h κ e v).oneStageSeason cd off load (seasonTemperatures.zip hours) = 1 / (α / κ + β) := by
  have hv0 : 0 ≤ v := he.trans hv
  set bins := (seasonTemperatures : List ℝ).zip hours with hbins
  set qt : ℝ → ℝ := (highTests b q h 1 e v).q with hqt
  set run : ℝ → ℝ := fun t => if t ≤ off then 0 else 1 with hrun
  set rate : ℝ → ℝ := fun t => oneStageRate cd (qt t) 1 (load t) with hrate
  set S := CoolTests.total load bins with hS
  set e1 := CoolTests.total (fun t => run t * ((highTests b q h 1 0 0).p t * rate t)) bins with he1
  set e0 := CoolTests.total (fun t => run t * ((highTests b 0 0 1 e v).p t * rate t)) bins with he0
  set res := CoolTests.total (fun t => load t - run t * min (load t) (qt t)) bins with hres
  have hmem : ∀ x ∈ bins, x.1 ∈ (seasonTemperatures : List ℝ) ∧ 0 ≤ x.2 := fun x hx => ⟨(List.of_mem_zip hx).1, hn _ (List.of_mem_zip hx).2⟩
  have hrun0 : ∀ t, 0 ≤ run t ∧ run t ≤ 1 := fun t => by simp only [hrun]; split <;> norm_num
  have hrate0 : ∀ t, 0 ≤ rate t := fun t => (oneStageRate_pos hcd hcd1 one_pos (hl t)).1
  have hin : ∀ t ∈ (seasonTemperatures : List ℝ), 0 < (highTests b q h 1 0 0).p t := single_pos hq h1 h2 one_pos le_rfl le_rfl
  have hfan : ∀ t ∈ (seasonTemperatures : List ℝ), 0 ≤ (highTests b 0 0 1 e v).p t := high_fan he hv0
  have hSpos : 0 < S := by
    obtain ⟨n, hb, hn0⟩ := h52
    exact total_pos (fun x hx => ⟨hl _, (hmem x hx).2⟩) hb hl52 hn0
  have he1pos : 0 < e1 := by
    obtain ⟨n, hb, hn0⟩ := h52
    refine total_pos (fun x hx => ⟨mul_nonneg (hrun0 _).1 (mul_nonneg (hin _ (hmem x hx).1).le (hrate0 _)), (hmem x hx).2⟩) hb ?_ hn0
    have : run 52 = 1 := by simp only [hrun]; rw [if_neg (by linarith)]
    show 0 < run 52 * _
    rw [this, one_mul]
    exact mul_pos (hin _ (hmem _ hb).1) ((oneStageRate_pos hcd hcd1 one_pos (hl _)).2 hl52)
  have he0pos : 0 ≤ e0 := total_nonneg fun x hx => ⟨mul_nonneg (hrun0 _).1 (mul_nonneg (hfan _ (hmem x hx).1) (hrate0 _)), (hmem x hx).2⟩
  have hrespos : 0 ≤ res := total_nonneg fun x hx => ⟨by
    show 0 ≤ load x.1 - run x.1 * min (load x.1) (qt x.1)
    simp only [hrun]
    split
    · linarith [hl x.1]
    · linarith [min_le_left (load x.1) (qt x.1)], (hmem x hx).2⟩
  refine ⟨e1 / S, (e0 + res) / S, div_pos he1pos hSpos, div_nonneg (by linarith) hSpos.le, fun κ hκ => ?_⟩
  have hκ0 : 0 < κ := by linarith
  have hrunF : ∀ t ∈ (seasonTemperatures : List ℝ), runFraction off off t (qt t / (highTests b q h κ e v).p t) = run t := by
    intro t ht
    unfold runFraction
    simp only [hrun]
    by_cases hto : t ≤ off
    · rw [if_pos (.inl hto), if_pos hto]
    · have hto' := not_le.1 hto
      have hp := single_delivers (b := b) hq h1 h2 hκ he hv t ht (by linarith)
      have hp0 := single_pos (b := b) hq h1 h2 hκ0 he hv0 t ht
      rw [if_neg hto, if_neg (by push Not; exact ⟨hto', (one_le_div hp0).2 hp⟩), if_pos hto']
  have hE : CoolTests.total ((highTests b q h κ e v).oneStageEnergy cd off load) bins = e1 * (1 / κ) + e0 := by
    rw [he1, he0, ← total_mul, ← total_add]
    refine total_congr fun x hx => ?_
    show runFraction off off x.1 (qt x.1 / _) * oneStageRate cd (qt x.1) _ (load x.1) = _
    rw [hrunF _ (hmem x hx).1, oneStageRate_mul, high_split]
    simp only [hrate]
    ring
  have hR : CoolTests.total ((highTests b q h κ e v).oneStageResistance off load) bins = res := by
    refine total_congr fun x hx => ?_
    show load x.1 - runFraction off off x.1 (qt x.1 / _) * min (load x.1) (qt x.1) = _
    rw [hrunF _ (hmem x hx).1]
  unfold HeatTests.oneStageSeason
  rw [hE, hR, ← hS]
  have : 0 < e1 * (1 / κ) := mul_pos he1pos (one_div_pos.2 hκ0)
  field_simp
  ring

/-- The ranges of the ratings of a single-stage unit, the heating COP excepted. -/
structure AnySingle (u : Units ℝ) (a : Args) (q95 seer2 eer2 : ℝ) : Prop where
  usual : UsualUnits u
  tables : a.tables = none
  staging : a.staging = some .single
  cooling : a.cooling = .num q95
  seer : a.seer = some seer2
  eer : inputEer a = some eer2
  eer_pos : 0 < eer2
  eer_le : eer2 ≤ seer2
  seer_le : seer2 ≤ 16.5
  cd : 0 ≤ Build.cd a.cdCooling ∧ Build.cd a.cdCooling ≤ 0.25
  size : 0 < q95
  size47 : 0 < ratedHeating u a .single q95
  comparable : Comparable q95 (ratedHeating u a .single q95)
  hottest : UsualCooling a.coolingOff
  cold : 0.5 * ratedHeating u a .single q95 ≤ heating17 (ratedHeating u a .single q95) a.heating17
  cold_le : heating17 (ratedHeating u a .single q95) a.heating17 ≤ 2 * ratedHeating u a .single q95
  coldest : frF 0 ≤ lowestTemperature a .single
  coldest_lt : lowestTemperature a .single < frF 5

theorem affine_scale {α β κ f : ℝ} {btuh : ℝ} (hα : 0 < α) (hβ : 0 ≤ β) (hκ : 0 < κ) (hf : 0 < f) (hb : 0 < btuh) : 1 / (α / κ + β) * f / btuh = 1 / (α * (btuh / f) / κ + β * (btuh / f)) := by
  have : 0 < α / κ + β := by have := div_pos hα hκ; linarith
  have e : α * (btuh / f) / κ + β * (btuh / f) = (α / κ + β) * (btuh / f) := by ring
  rw [e]
  generalize α / κ + β = x at *
  field_simp

/-- C96, the HSPF2 and the rated COP, for both motors, ducted or not, whichever mode is larger: for single-stage units with the same other ratings, whatever their HSPF2 argument, the reciprocal of the HSPF2 is affine in the
reciprocal of the COP at 47 °F between 2.1 and 5, with a positive slope. -/
theorem C96_any_cop {q95 seer2 eer2 : ℝ} (H : AnySingle u a q95 seer2 eer2) (h : Surroundings u E T brentq a .single [q95]) (hset : SingleSeason E a) {r : Nat} {design z cx cv : ℝ} {hours : List ℝ} {f : ℝ}
    (hr : regionData .ahri2023 r = some (design, hours, some (cx, cv, z))) (hf : a.defrost.demandCredit u = .ok f) (hf0 : 0 < f) :
    ∃ α β : ℝ, 0 < α ∧ 0 ≤ β ∧ ∀ (κ : ℝ) (hspf : Option ℝ), 2.1 ≤ κ → κ ≤ 5 →
      ∃ B, build u E T brentq { a with netHeatingCop := some κ, hspf := hspf } = .ok B ∧ B.core.st = .single ∧ B.hspf u E T brentq r = .ok (1 / (α / κ + β)) := by
  obtain ⟨r1, r2, -, r4, r5, r6, -⟩ := region_2023 hr
  have hpos := H.size47
  obtain ⟨w0, w1, -⟩ := test_fan (a.motorPSC.getD true) a.ducted H.usual hpos (le_max_right q95 _) (sizes_max' H.size hpos H.comparable le_rfl)
  have hQ := singleCooling_pos (a.motorPSC.getD true) a.ducted H.usual H.size hpos H.comparable
  obtain ⟨α, β, hα, hβ, key⟩ := single_season_affine (b := a.defrost.inDefrost (frF 35)) (load := heatBuildingLoad z design (cx * singleCooling (a.motorPSC.getD true) a.ducted u.ton q95 (ratedHeating u a .single q95)))
    (cd := cd a.cdHeating) (off := toF (lowestTemperature a .single)) hpos H.cold H.cold_le (sub_nonneg.2 w1) (sub_le_self _ w0.le) hset.cd.1 hset.cd.2
    (by have := toF_le.2 H.coldest; rwa [toF_frF] at this) (by have := toF_lt.2 H.coldest_lt; rwa [toF_frF] at this) r4
    (fun t => heatBuildingLoad_nonneg r1 (mul_pos r2 hQ).le) r5 (heatBuildingLoad_pos r1 (mul_pos r2 hQ) r6)
  have hb := u.btuh_pos
  refine ⟨α * (u.btuh / f), β * (u.btuh / f), mul_pos hα (div_pos hb hf0), mul_nonneg hβ (div_pos hb hf0).le, fun κ hspf k1 k2 => ?_⟩
  obtain ⟨B, hB, hst', hH⟩ := C96_single_any (a := { a with netHeatingCop := some κ, hspf := hspf }) (u := u) (E := E) (T := T) (brentq := brentq) H.usual H.tables H.staging H.cooling H.seer H.eer (.inl rfl)
    H.eer_pos H.eer_le H.seer_le H.cd H.size H.comparable H.hottest ⟨hpos, H.cold, by show 0 < κ; linarith, k2, H.coldest, H.coldest_lt⟩ H.cold_le
    ⟨h.airflows, h.charge, h.root, h.indoor, h.outdoor, h.coil, h.cops.1, .inl rfl⟩ ⟨hset.standard, hset.cutIn, hset.cd, hset.outdoor⟩
  refine ⟨B, hB, hst', ?_⟩
  rw [hH hr hf]
  exact (congrArg (fun x : ℝ => (Except.ok (x * f / u.btuh) : Py ℝ)) (key κ k1)).trans (congrArg Except.ok (affine_scale hα hβ (by linarith) hf0 hb))

/-- C96, the HSPF of the 2017 edition and the rated COP: as `C96_any_cop`. -/
theorem C96_2017_cop {q95 seer2 eer2 : ℝ} (H : AnySingle u a q95 seer2 eer2) (h : Surroundings u E T brentq a .single [q95]) (hstd : a.standard = .ahri2017) (hon : a.heatingOn = none)
    (hcdh : 0 ≤ cd a.cdHeating ∧ cd a.cdHeating < 1) (ho : Outdoor E (frF 47) ∧ Outdoor E (frF 35) ∧ Outdoor E (frF 17)) {r : Nat} {design : ℝ} {hours : List ℝ} {f : ℝ}
    (hr : regionData .ahri2017 r = some (design, hours, none)) (hf : a.defrost.demandCredit u = .ok f) (hf0 : 0 < f) :
    ∃ α β : ℝ, 0 < α ∧ 0 ≤ β ∧ ∀ (κ : ℝ) (hspf : Option ℝ), 2.1 ≤ κ → κ ≤ 5 →
      ∃ B, build u E T brentq { a with netHeatingCop := some κ, hspf := hspf } = .ok B ∧ B.core.st = .single ∧ B.hspf u E T brentq r = .ok (1 / (α / κ + β)) := by
  obtain ⟨r1, r4, r5, -⟩ := region_2017 hr
  have hpos := H.size47
  obtain ⟨s0, s1⟩ := pressure2017_bounds u.btuh a.ducted q95
  set q47 := ratedHeating u a .single q95 with hq47
  set s := pressure2017 u.btuh a.ducted q95 with hs
  have hle : q47 ≤ max q95 q47 := le_max_right _ _
  have hL : 0 < max q95 q47 := hpos.trans_le hle
  have m1 : 1 ≤ (max q95 q47 / q47) ^ 2 := by
    have : 1 ≤ max q95 q47 / q47 := (one_le_div hpos).2 hle
    nlinarith
  have z1 : s ≤ s * (max q95 q47 / q47) ^ 2 := by nlinarith
  have hto := u.ton_pos
  have w0 := (unitFan_bounds (psc := a.motorPSC.getD true) H.usual hpos hle s0 (by linarith)).1
  have w1 : unitFan (a.motorPSC.getD true) u.ton (max q95 q47) q47 s ≤ unitFan (a.motorPSC.getD true) u.ton (max q95 q47) q47 (s * (max q95 q47 / q47) ^ 2) :=
    mul_le_mul_of_nonneg_left (fanWatts_mono (div_pos hpos hL) ((div_le_one hL).2 hle) z1) (by positivity)
  obtain ⟨dhr, -, hd⟩ := Props.C03_findNearest_spec (listedRequirements.map (· * 1000 * u.btuh)) (singleH1 (a.motorPSC.getD true) s u.ton q95 q47 * (65 - design) / 60) (by simp [listedRequirements])
  have hb := u.btuh_pos
  have hx0 : 0 < dhr := by
    obtain ⟨i, hi, e, -⟩ := hd
    have := (C50_design_requirements u dhr (by rw [designRequirements_list]; exact e ▸ List.getElem_mem hi)).1
    linarith
  have hfull : 0 < 77 / 100 * dhr := by positivity
  obtain ⟨α, β, hα, hβ, key⟩ := single_season_affine (b := a.defrost.inDefrost (frF 35)) (load := heatBuildingLoad 65 design (77 / 100 * dhr))
    (cd := cd a.cdHeating) (off := toF (lowestTemperature a .single)) hpos H.cold H.cold_le (sub_nonneg.2 w1) (sub_le_self _ w0.le) hcdh.1 hcdh.2
    (by have := toF_le.2 H.coldest; rwa [toF_frF] at this) (by have := toF_lt.2 H.coldest_lt; rwa [toF_frF] at this) r4
    (fun t => heatBuildingLoad_nonneg r1 hfull.le) r5 (heatBuildingLoad_pos r1 hfull (by norm_num))
  refine ⟨α * (u.btuh / f), β * (u.btuh / f), mul_pos hα (div_pos hb hf0), mul_nonneg hβ (div_pos hb hf0).le, fun κ hspf k1 k2 => ?_⟩
  obtain ⟨B, hB, hst', hH⟩ := C96_single_2017 (a := { a with netHeatingCop := some κ, hspf := hspf }) (u := u) (E := E) (T := T) (brentq := brentq) H.usual H.tables H.staging H.cooling H.seer H.eer (.inl rfl)
    H.eer_pos H.eer_le H.seer_le H.cd H.size H.comparable H.hottest ⟨hpos, H.cold, by show 0 < κ; linarith, k2, H.coldest, H.coldest_lt⟩ H.cold_le
    ⟨h.airflows, h.charge, h.root, h.indoor, h.outdoor, h.coil, h.cops.1, .inl rfl⟩ hstd hon hcdh ho
  refine ⟨B, hB, hst', ?_⟩
  rw [hH hr hf hd]
  exact (congrArg (fun x : ℝ => (Except.ok (x * f / u.btuh) : Py ℝ)) (key κ k1)).trans (congrArg Except.ok (affine_scale hα hβ (by linarith) hf0 hb))

end Resdx.Build

namespace Resdx.Sample

open Spec Tabular BaseModel Props ResnetFan Fan Table Build DX

theorem bpm_any {q : ℝ} (hq : 0 < q) (std : Standard) : AnySingle units { bpmArgs q with standard := std } q 14 12 := by
  have hr : ratedHeating units { bpmArgs q with standard := std } .single q = 1.3 * q := rfl
  have h17 : heating17 (1.3 * q) (bpmArgs q).heating17 = (1.3 * q) * 0.626 := by norm_num [heating17, bpmArgs]; ring
  exact ⟨usualUnits, rfl, rfl, rfl, rfl, rfl, by norm_num, by norm_num, by norm_num, by norm_num [Build.cd, bpmArgs], hq, by rw [hr]; positivity, by rw [hr]; constructor <;> nlinarith, off125,
    by rw [hr, h17]; linarith, by rw [hr, h17]; linarith, by simp [lowestTemperature, bpmArgs], by simp only [lowestTemperature, bpmArgs, Option.getD]; rw [if_neg (by decide), frF_lt]; norm_num⟩

/-- The hypotheses of `C96_any_cop` and `C96_2017_cop` hold for units of any size with a BPM motor that heat more than they cool. -/
example {brentq : Brentq} (hbr : BrentqSpec brentq) {q : ℝ} (hq : 0 < q) : ∃ α β : ℝ, 0 < α ∧ 0 ≤ β ∧ ∀ (κ : ℝ) (hspf : Option ℝ), 2.1 ≤ κ → κ ≤ 5 →
    ∃ B, build units env tools brentq { bpmArgs q with netHeatingCop := some κ, hspf := hspf } = .ok B ∧ B.core.st = .single ∧ B.hspf units env tools brentq 4 = .ok (1 / (α / κ + β)) :=
  C96_any_cop (a := bpmArgs q) (bpm_any hq .ahri2023) (surroundings hbr rfl rfl rfl rfl rfl (by simpa using hq)) ⟨rfl, rfl, by norm_num [Build.cd, bpmArgs], outdoorAir _, outdoorAir _, outdoorAir _⟩
    (hr := rfl) (hf := rfl) one_pos

example {brentq : Brentq} (hbr : BrentqSpec brentq) {q : ℝ} (hq : 0 < q) : ∃ α β : ℝ, 0 < α ∧ 0 ≤ β ∧ ∀ (κ : ℝ) (hspf : Option ℝ), 2.1 ≤ κ → κ ≤ 5 →
    ∃ B, build units env tools brentq { bpmArgs q with standard := .ahri2017, netHeatingCop := some κ, hspf := hspf } = .ok B ∧ B.core.st = .single ∧ B.hspf units env tools brentq 4 = .ok (1 / (α / κ + β)) :=
  C96_2017_cop (a := { bpmArgs q with standard := .ahri2017 }) (bpm_any hq .ahri2017) (surroundings hbr rfl rfl rfl rfl rfl (by simpa using hq)) rfl rfl (by norm_num [Build.cd, bpmArgs])
    ⟨outdoorAir _, outdoorAir _, outdoorAir _⟩ (hr := rfl) (hf := rfl) one_pos

end Resdx.Sample
