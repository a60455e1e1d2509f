import Verif.Props.RatingSolver
import Verif.Props.ResnetSeason
import Verif.Props.DerivedRangeVariable

/-!
# C96: HSPF2 from the ratings, C67: units with a requested HSPF2
-/

set_option linter.unusedSectionVars false
set_option linter.unusedSimpArgs false

namespace Resdx.Build

open Spec Tabular BaseModel Props ResnetFan Fan Table DX

variable {u : Units ℝ} {E : Env ℝ} {T : Coil.Tools} {brentq : Brentq} {a : Args} {B : Built}

/-- The rated fan power of a PSC motor. -/
theorem psc_power {fullESP design d : ℝ} {fs : Nat} {s0 s : Side} {b : Base} (M : ModeSet (motorPower u brentq true) fullESP design fs s0 s b) {i : Nat} {x : ℝ} (hi : i < s.caps.length)
    (ha : s.airflow[i]? = some (some x)) (hb : b.airflow[0]? = some d) (hd : d ≠ 0) : s.power[i]? = some (some (x * (0.414 / u.cfm * (0.3 * (x / d) + 0.7)))) := by
  obtain ⟨a', k, p, w, ⟨q, c, -, -, -, g1⟩, -, g2, g3, g4, g5⟩ := M.rated i hi
  rw [ha] at g1; cases g1
  have e1 : ∀ p, resnetAirflow b k p = .ok x := by
    intro p
    obtain ⟨hlt, rfl⟩ := List.getElem?_eq_some_iff.1 g2
    exact pyGetI_nat hlt
  have e0 : ∀ p, resnetAirflow b 0 p = .ok d := by
    intro p
    obtain ⟨hlt, h⟩ := List.getElem?_eq_some_iff.1 hb
    have := pyGetI_nat hlt
    rw [h] at this
    exact this
  simp only [ResnetFan.motorPower, if_true, resnetPSCPower, resnetPSCEfficacy, resnetAirflowRatio, e1, e0, bind_ok, pdiv_ok hd, pure_eq_ok, Except.ok.injEq] at g4
  rw [g5, ← g4]
  have hs : PSC.slope = 0.3 := rfl
  rw [hs]
  norm_num

/-- The rated heating fan power of a single-stage unit with a PSC motor. -/
theorem single_fan (h : build u E T brentq a = .ok B) (ht : a.tables = none) {net : Perf ℝ} {q95 q47 : ℝ} (hM : Made u E a .single net [q95] [q47] B) (hp : a.motorPSC.getD true = true)
    (h0 : max q95 q47 ≠ 0) : B.core.psc = true ∧ B.core.heat.power[0]? = some (some (pscRatedPower u.ton (max q95 q47) q47)) := by
  obtain ⟨fc, fh, F⟩ := built_facts h (fun d hd => by rw [ht] at hd; cases hd)
  have hpsc : B.core.psc = true := hM.motor.trans hp
  refine ⟨hpsc, ?_⟩
  obtain ⟨ac, ah, -, -, -, -, -, M⟩ := F.fan
  rw [hpsc] at M
  have hc := u.cfm_pos.ne'
  have hton := u.ton_pos.ne'
  have hr : 400 * u.cfm / u.ton ≠ 0 := by positivity
  have := psc_power M (i := 0) (by rw [hM.heatCaps]; simp) (hM.heatAirflow 0 q47 rfl) (hM.design q95 q47 rfl rfl) (mul_ne_zero h0 hr)
  rw [this, mul_div_mul_right _ _ hr]
  congr 2
  unfold pscRatedPower
  field_simp

theorem pscRatedPower_bounds {largest q : ℝ} (hu : UsualUnits u) (hq : 0 < q) (hl : q ≤ largest) : 0 < pscRatedPower u.ton largest q ∧ pscRatedPower u.ton largest q < 0.048 * q := by
  unfold pscRatedPower
  have h1 : q / largest ≤ 1 := (div_le_one (hq.trans_le hl)).2 hl
  have h2 : 0 < q / largest := div_pos hq (hq.trans_le hl)
  have h3 : 400 * 0.414 / u.ton < 0.048 := by
    rw [div_lt_iff₀ u.ton_pos]; have := hu.ton; linarith
  have h4 : 0 < 400 * 0.414 / u.ton := div_pos (by norm_num) u.ton_pos
  constructor
  · positivity
  · have : q * (400 * 0.414 / u.ton) * (0.3 * (q / largest) + 0.7) ≤ q * (400 * 0.414 / u.ton) * 1 := mul_le_mul_of_nonneg_left (by linarith) (by positivity)
    nlinarith

/-- Ends at 35 °F. -/
theorem ends_35 (e : Ends ℝ) : e.heating (frF 35) = 0.6 * e.high + 0.4 * e.low := by
  rw [Ends.heating, if_pos (by rw [frF_le]; norm_num)]
  unfold lineAt
  rw [frF_sub, frF_sub]
  ring

/-- Tests of curves given by their ends. -/
theorem tests_pos {P : HeatTests ℝ} {p1 p3 w : ℝ} {b : Bool} (e1 : P.p1 = p1) (e3 : P.p3 = p3) (e2 : P.p2 = frosted b 0.0087 w (0.6 * p1 + 0.4 * p3)) (h1 : 0 < p1) (h3 : 4 * p1 < 7 * p3)
    (h4 : p3 < 3 * p1) (hw : 0 ≤ w) : ∀ t ∈ (seasonTemperatures : List ℝ), 0 < P.p t := by
  have hp2 : 0.99 * (0.6 * p1 + 0.4 * p3) ≤ P.p2 := by
    rw [e2]; unfold frosted; split <;> linarith
  simp only [seasonTemperatures, List.forall_mem_cons, List.not_mem_nil, false_imp_iff, implies_true, and_true]
  unfold HeatTests.p lineAt
  rw [e1, e3]
  norm_num
  refine ⟨?_, ?_, ?_, ?_, ?_, ?_, ?_, ?_, ?_, ?_, ?_, ?_, ?_, ?_, ?_, ?_, ?_, ?_⟩ <;> linarith

/-- What a single-stage unit's season needs besides its ratings: a PSC motor (the default), the 2023 edition, no cut-in temperature, a degradation coefficient below one, and outdoor air that
psychrolib knows at the test temperatures. -/
structure SeasonSettings (E : Env ℝ) (a : Args) : Prop where
  motor : a.motorPSC.getD true = true
  standard : a.standard = .ahri2023
  cutIn : a.heatingOn = none
  cd : 0 ≤ cd a.cdHeating ∧ cd a.cdHeating < 1
  outdoor : Outdoor E (frF 47) ∧ Outdoor E (frF 35) ∧ Outdoor E (frF 17)

/-- The tests that result from the heating ratings of a single-stage unit. -/
noncomputable def ratedTests (ton q95 q47 : ℝ) (q17 : Option ℝ) (hspf2 : ℝ) (cop : Option ℝ) (defrosts : Bool) : HeatTests ℝ :=
  let w := pscRatedPower ton (max q95 q47) q47
  let q := fullHeatingCapacity q47 q17
  let p := fullHeatingPower q47 q17 (heatingCop hspf2 cop)
  { q1 := q.high, p1 := p.high, q2 := frosted defrosts 0.0522 w (0.6 * q.high + 0.4 * q.low), p2 := frosted defrosts 0.0087 w (0.6 * p.high + 0.4 * p.low), q3 := q.low, p3 := p.low }

theorem ratedTests_eq (btuh ton q95 seer2 eer2 q47 : ℝ) (q17 : Option ℝ) (hspf2 : ℝ) (cop : Option ℝ) (cd : ℝ) (b : Bool) :
    (singleCurves btuh q95 seer2 eer2 q47 q17 hspf2 cop cd).heatTests b (pscRatedPower ton (max q95 q47) q47) = ratedTests ton q95 q47 q17 hspf2 cop b := by
  simp only [Curves.heatTests, singleCurves, ratedTests, ends_35, ends_heating.1, ends_heating.2.1]

/-- C96, from the ratings to the HSPF2 of a single-stage unit: within the ranges of `C90_single_range` the unit can be made and its HSPF2 in every climate region is the one of the specification. -/
theorem C96_single_ratings {q95 seer2 eer2 : ℝ} (hu : UsualUnits u) (ht : a.tables = none) (hst : a.staging = some .single) (hq : a.cooling = .num q95) (hs : a.seer = some seer2)
    (he : inputEer a = some eer2) (hh : a.netHeatingCop.isSome ∨ a.hspf.isSome) (heer : 0 < eer2) (hseer : eer2 ≤ seer2) (hseer' : seer2 ≤ 16.5) (hcd : 0 ≤ cd a.cdCooling ∧ cd a.cdCooling ≤ 0.25)
    (h95 : 0 < q95) (hsize : Comparable q95 (ratedHeating u a .single q95)) (hmx : UsualCooling a.coolingOff)
    (hheat : UsualHeating 5 0 (ratedHeating u a .single q95) (heating17 (ratedHeating u a .single q95) a.heating17) (heatingCop (a.hspf.getD 0) a.netHeatingCop) (lowestTemperature a .single))
    (hcold : heating17 (ratedHeating u a .single q95) a.heating17 ≤ 2 * ratedHeating u a .single q95) (h : Surroundings u E T brentq a .single [q95]) (hset : SeasonSettings E a) :
    ∃ B, build u E T brentq a = .ok B ∧ B.core.st = .single ∧ ∀ {r : Nat} {design z cx cv : ℝ} {hours : List ℝ} {f : ℝ}, regionData .ahri2023 r = some (design, hours, some (cx, cv, z)) →
      a.defrost.demandCredit u = .ok f →
      B.hspf u E T brentq r = .ok ((ratedTests u.ton q95 (ratedHeating u a .single q95) a.heating17 (a.hspf.getD 0) a.netHeatingCop (a.defrost.inDefrost (frF 35))).oneStageSeason (cd a.cdHeating)
        (toF (lowestTemperature a .single)) (heatBuildingLoad z design (cx * q95)) (seasonTemperatures.zip hours) * f / u.btuh) := by
  obtain ⟨B, net, hB, hM, hF⟩ := C90_single_range hu ht hst hq hs he hh heer hseer hseer' hcd h95 hsize hmx hheat h
  have hpos := hheat.rated
  obtain ⟨hpsc, hw⟩ := single_fan hB ht hM hset.motor (lt_of_lt_of_le h95 (le_max_left _ _)).ne'
  have hfull : B.core.rc.full = 0 ∧ B.core.rh.full = 0 := hM.full
  refine ⟨B, hB, hM.staging, fun {r design z cx cv hours f} hr hf => ?_⟩
  obtain ⟨w0, -⟩ := pscRatedPower_bounds hu hpos (le_max_right q95 _)
  have hcop := hheat.cop_pos
  have hc1 := hheat.cold
  have key := C96_single_hspf hB hM.staging (fun d hd => by rw [ht] at hd; cases hd) h.charge hset.standard hset.cutIn hset.cd.1 hset.cd.2 (.inl hpsc) (.inl hpsc) h.outdoor hset.outdoor.1
    hset.outdoor.2.1 hset.outdoor.2.2 (by rw [hM.tables]; exact hF) (by rw [show (singleCurves u.btuh q95 seer2 eer2 (ratedHeating u a .single q95) a.heating17 (a.hspf.getD 0) a.netHeatingCop (cd a.cdCooling)).coolingCapacity (frF 95) = q95 from ends_cooling.2]; exact h95) hw hr hf (by
      rw [ratedTests_eq]
      refine tests_pos (b := a.defrost.inDefrost (frF 35)) (p1 := ratedHeating u a .single q95 / heatingCop (a.hspf.getD 0) a.netHeatingCop)
        (p3 := heating17 (ratedHeating u a .single q95) a.heating17 / heatingCop (a.hspf.getD 0) a.netHeatingCop * input17) rfl rfl rfl (div_pos hpos hcop) ?_ ?_ w0.le
      all_goals
        generalize ratedHeating u a .single q95 = q47 at *
        generalize heatingCop (a.hspf.getD 0) a.netHeatingCop = κ at *
      · rw [show heating17 q47 a.heating17 / κ * input17 = heating17 q47 a.heating17 * input17 / κ by ring, ← mul_div_assoc, ← mul_div_assoc]
        refine div_lt_div_of_pos_right ?_ hcop
        unfold input17; linarith
      · rw [show heating17 q47 a.heating17 / κ * input17 = heating17 q47 a.heating17 * input17 / κ by ring, ← mul_div_assoc]
        refine div_lt_div_of_pos_right ?_ hcop
        unfold input17; linarith)
  rw [ratedTests_eq, show (singleCurves u.btuh q95 seer2 eer2 (ratedHeating u a .single q95) a.heating17 (a.hspf.getD 0) a.netHeatingCop (cd a.cdCooling)).coolingCapacity (frF 95) = q95 from ends_cooling.2] at key
  have hoff : B.heatingOff = lowestTemperature a .single := by
    obtain ⟨st0, _, _, _, _, _, b1, -, -, -, b5, -⟩ := build_ok hB
    rw [hst] at b1
    cases b1
    rw [b5, offTemperature_eq]
  rw [hoff] at key
  exact key

/-! ## The HSPF2 as a function of the rated COP -/

/-- The part of the rated tests proportional to the input at 47 °F. -/
noncomputable def perInput (q47 h17 : ℝ) (b : Bool) : HeatTests ℝ := { q1 := 0, p1 := q47, q2 := 0, p2 := frosted b 0.0087 0 (0.6 * q47 + 0.4 * (h17 * input17)), q3 := 0, p3 := h17 * input17 }

/-- The part due to the fan. -/
noncomputable def perFan (w : ℝ) (b : Bool) : HeatTests ℝ := { q1 := 0, p1 := 0, q2 := 0, p2 := frosted b 0.0087 w 0, q3 := 0, p3 := 0 }

theorem perFan_nonneg {w : ℝ} (hw : 0 ≤ w) (b : Bool) (t : ℝ) : 0 ≤ (perFan w b).p t := by
  unfold HeatTests.p lineAt perFan
  split
  · simp
  · rename_i ht
    push Not at ht
    have : 0 ≤ frosted b 0.0087 w 0 := by unfold frosted; split <;> linarith
    simp only [sub_zero, zero_add]
    have h2 : 0 ≤ (t - 17) / (35 - 17 : ℝ) := div_nonneg (by linarith [ht.2]) (by norm_num)
    have := mul_nonneg this h2
    ring_nf at this ⊢; exact this

theorem rated_split (ton q95 q47 : ℝ) (q17 : Option ℝ) (hspf2 κ : ℝ) (b : Bool) (t : ℝ) :
    (ratedTests ton q95 q47 q17 hspf2 (some κ) b).p t = (perInput q47 (heating17 q47 q17) b).p t * (1 / κ) + (perFan (pscRatedPower ton (max q95 q47) q47) b).p t := by
  have e1 : (ratedTests ton q95 q47 q17 hspf2 (some κ) b).p1 = q47 * (1 / κ) := by show q47 / κ = _; ring
  have e3 : (ratedTests ton q95 q47 q17 hspf2 (some κ) b).p3 = heating17 q47 q17 * input17 * (1 / κ) := by show heating17 q47 q17 / κ * input17 = _; ring
  have e2 : (ratedTests ton q95 q47 q17 hspf2 (some κ) b).p2 = frosted b 0.0087 (pscRatedPower ton (max q95 q47) q47) (0.6 * (q47 * (1 / κ)) + 0.4 * (heating17 q47 q17 * input17 * (1 / κ))) := by
    show frosted b 0.0087 _ (0.6 * (q47 / κ) + 0.4 * (heating17 q47 q17 / κ * input17)) = _
    congr 1; ring
  unfold HeatTests.p
  rw [e1, e2, e3]
  generalize pscRatedPower ton (max q95 q47) q47 = w
  simp only [perInput, perFan, lineAt, frosted]
  split
  · ring
  · split <;> ring

/-- Down to 2 °F a unit with a rated COP of at least 2.1 delivers at least what it draws. -/
theorem delivers {ton q95 q47 hspf2 κ : ℝ} {q17 : Option ℝ} {b : Bool} (h1 : 0 < q47) (h2 : 0.5 * q47 ≤ heating17 q47 q17) (h3 : heating17 q47 q17 ≤ 2 * q47)
    (hw : 0 ≤ pscRatedPower ton (max q95 q47) q47) (hκ : 2.1 ≤ κ) :
    ∀ t ∈ (seasonTemperatures : List ℝ), 0 ≤ t → (ratedTests ton q95 q47 q17 hspf2 (some κ) b).p t ≤ (ratedTests ton q95 q47 q17 hspf2 (some κ) b).q t := by
  have k0 : 0 < 1 / κ := one_div_pos.2 (by linarith)
  have k1 : 1 / κ ≤ 0.4763 := by rw [div_le_iff₀ (by linarith)]; linarith
  intro t ht
  rw [rated_split]
  generalize hk : 1 / κ = k at *
  have eq2 : (ratedTests ton q95 q47 q17 hspf2 (some κ) b).q2 = frosted b 0.0522 (pscRatedPower ton (max q95 q47) q47) (0.6 * q47 + 0.4 * heating17 q47 q17) := rfl
  have eq1 : (ratedTests ton q95 q47 q17 hspf2 (some κ) b).q1 = q47 := rfl
  have eq3 : (ratedTests ton q95 q47 q17 hspf2 (some κ) b).q3 = heating17 q47 q17 := rfl
  generalize heating17 q47 q17 = h at *
  generalize pscRatedPower ton (max q95 q47) q47 = w at *
  have m1 := mul_nonneg (sub_nonneg.2 h2) (sub_nonneg.2 k1)
  have m2 := mul_nonneg (sub_nonneg.2 h3) (sub_nonneg.2 k1)
  have m3 := mul_nonneg (sub_nonneg.2 h2) k0.le
  have m4 := mul_nonneg (sub_nonneg.2 h3) k0.le
  have m5 := mul_pos h1 k0
  have m6 := mul_nonneg h1.le (sub_nonneg.2 k1)
  revert t
  simp only [seasonTemperatures, List.forall_mem_cons, List.not_mem_nil, false_imp_iff, implies_true, and_true]
  unfold HeatTests.p HeatTests.q lineAt
  rw [eq1, eq2, eq3]
  simp only [perInput, perFan, frosted, input17]
  norm_num
  cases b <;> simp only [if_true, if_false, Bool.false_eq_true] <;> (refine ⟨?_, ?_, ?_, ?_, ?_, ?_, ?_, ?_, ?_, ?_, ?_, ?_, ?_⟩ <;> ring_nf at * <;> linarith)

theorem oneStageRate_mul (cd q p l : ℝ) : oneStageRate cd q p l = p * oneStageRate cd q 1 l := by
  unfold oneStageRate cyclingRate
  split
  · ring
  · ring

theorem oneStageRate_pos {cd q p l : ℝ} (h0 : 0 ≤ cd) (h1 : cd < 1) (hp : 0 < p) (hl : 0 ≤ l) : 0 ≤ oneStageRate cd q p l ∧ (0 < l → 0 < oneStageRate cd q p l) := by
  unfold oneStageRate cyclingRate
  split
  · rename_i hq
    have hx : 0 ≤ l / q := div_nonneg hl (by linarith)
    have hx1 : l / q < 1 := by rw [div_lt_one (by linarith)]; exact hq
    have hd : 0 < 1 - cd * (1 - l / q) := by nlinarith
    exact ⟨div_nonneg (mul_nonneg hx hp.le) hd.le, fun hl' => div_pos (mul_pos (div_pos hl' (by linarith)) hp) hd⟩
  · exact ⟨hp.le, fun _ => hp⟩

theorem total_congr {f g : ℝ → ℝ} {bins : List (ℝ × ℝ)} (h : ∀ b ∈ bins, f b.1 = g b.1) : CoolTests.total f bins = CoolTests.total g bins := by
  unfold CoolTests.total
  congr 1
  exact List.map_congr_left fun b hb => by rw [h b hb]

theorem total_mul (f : ℝ → ℝ) (k : ℝ) (bins : List (ℝ × ℝ)) : CoolTests.total (fun t => f t * k) bins = CoolTests.total f bins * k := by
  unfold CoolTests.total
  rw [← List.sum_map_mul_right]
  congr 1
  exact List.map_congr_left fun b _ => by ring

/-- The season of units of the same ratings but the COP: the energy used is affine in the reciprocal of the COP. -/
theorem season_affine {ton q95 q47 hspf2 cd off : ℝ} {q17 : Option ℝ} {b : Bool} {load : ℝ → ℝ} {hours : List ℝ} (h1 : 0 < q47) (h2 : 0.5 * q47 ≤ heating17 q47 q17) (h3 : heating17 q47 q17 ≤ 2 * q47)
    (hw : 0 ≤ pscRatedPower ton (max q95 q47) q47) (hcd : 0 ≤ cd) (hcd1 : cd < 1) (hoff : 0 ≤ off) (hoff5 : off < 5) (hn : ∀ n ∈ hours, 0 ≤ n) (hl : ∀ t, 0 ≤ load t)
    (h52 : ∃ n, ((52 : ℝ), n) ∈ seasonTemperatures.zip hours ∧ 0 < n) (hl52 : 0 < load 52) :
    ∃ α β : ℝ, 0 < α ∧ 0 ≤ β ∧ ∀ κ : ℝ, 2.1 ≤ κ → (ratedTests ton q95 q47 q17 hspf2 (some κ) b).oneStageSeason cd off load (seasonTemperatures.zip hours) = 1 / (α / κ + β) := by
  set bins := (seasonTemperatures : List ℝ).zip hours with hbins
  set w := pscRatedPower ton (max q95 q47) q47 with hwdef
  set h := heating17 q47 q17 with hh
  set qt : ℝ → ℝ := (ratedTests ton q95 q47 q17 hspf2 (some 1) b).q with hqt
  set run : ℝ → ℝ := fun t => if t ≤ off then 0 else 1 with hrun
  set rate : ℝ → ℝ := fun t => oneStageRate cd (qt t) 1 (load t) with hrate
  set S := CoolTests.total load bins with hS
  set e1 := CoolTests.total (fun t => run t * ((perInput q47 h b).p t * rate t)) bins with he1
  set e0 := CoolTests.total (fun t => run t * ((perFan w b).p t * rate t)) bins with he0
  set res := CoolTests.total (fun t => load t - run t * min (load t) (qt t)) bins with hres
  have hmem : ∀ x ∈ bins, x.1 ∈ (seasonTemperatures : List ℝ) ∧ 0 ≤ x.2 := fun x hx => ⟨(List.of_mem_zip hx).1, hn _ (List.of_mem_zip hx).2⟩
  have hrun0 : ∀ t, 0 ≤ run t ∧ run t ≤ 1 := fun t => by simp only [hrun]; split <;> norm_num
  have hrate0 : ∀ t, 0 ≤ rate t := fun t => (oneStageRate_pos hcd hcd1 one_pos (hl t)).1
  have hin : ∀ t ∈ (seasonTemperatures : List ℝ), 0 < (perInput q47 h b).p t := tests_pos (b := b) (w := 0) rfl rfl rfl h1 (by show 4 * q47 < 7 * (h * input17); unfold input17; linarith)
    (by show h * input17 < 3 * q47; unfold input17; linarith) le_rfl
  have hSpos : 0 < S := by
    obtain ⟨n, hb, hn0⟩ := h52
    exact total_pos (fun x hx => ⟨hl _, (hmem x hx).2⟩) hb hl52 hn0
  have he1pos : 0 < e1 := by
    obtain ⟨n, hb, hn0⟩ := h52
    refine total_pos (fun x hx => ⟨mul_nonneg (hrun0 _).1 (mul_nonneg (hin _ (hmem x hx).1).le (hrate0 _)), (hmem x hx).2⟩) hb ?_ hn0
    have : run 52 = 1 := by simp only [hrun]; rw [if_neg (by linarith)]
    show 0 < run 52 * _
    rw [this, one_mul]
    exact mul_pos (hin _ (hmem _ hb).1) ((oneStageRate_pos hcd hcd1 one_pos (hl _)).2 hl52)
  have he0pos : 0 ≤ e0 := total_nonneg fun x hx => ⟨mul_nonneg (hrun0 _).1 (mul_nonneg (perFan_nonneg hw b _) (hrate0 _)), (hmem x hx).2⟩
  have hrespos : 0 ≤ res := total_nonneg fun x hx => ⟨by
    show 0 ≤ load x.1 - run x.1 * min (load x.1) (qt x.1)
    simp only [hrun]
    split
    · linarith [hl x.1]
    · linarith [min_le_left (load x.1) (qt x.1)], (hmem x hx).2⟩
  refine ⟨e1 / S, (e0 + res) / S, div_pos he1pos hSpos, div_nonneg (by linarith) hSpos.le, fun κ hκ => ?_⟩
  have hκ0 : 0 < κ := by linarith
  have hq : (ratedTests ton q95 q47 q17 hspf2 (some κ) b).q = qt := rfl
  have hrunF : ∀ t ∈ (seasonTemperatures : List ℝ), runFraction off off t (qt t / (ratedTests ton q95 q47 q17 hspf2 (some κ) b).p t) = run t := by
    intro t ht
    unfold runFraction
    simp only [hrun]
    by_cases hto : t ≤ off
    · rw [if_pos (.inl hto), if_pos hto]
    · have hto' := not_le.1 hto
      have hp := delivers (ton := ton) (q95 := q95) (hspf2 := hspf2) (b := b) h1 h2 h3 hw hκ t ht (by linarith)
      have hp0 : 0 < (ratedTests ton q95 q47 q17 hspf2 (some κ) b).p t := by
        rw [rated_split]
        have := mul_pos (hin t ht) (one_div_pos.2 hκ0)
        have := perFan_nonneg hw b t
        linarith
      rw [if_neg hto, if_neg (by push Not; exact ⟨hto', (one_le_div hp0).2 hp⟩), if_pos hto']
  have hE : CoolTests.total ((ratedTests ton q95 q47 q17 hspf2 (some κ) b).oneStageEnergy cd off load) bins = e1 * (1 / κ) + e0 := by
    rw [he1, he0, ← total_mul, ← total_add]
    refine total_congr fun x hx => ?_
    show runFraction off off x.1 (qt x.1 / _) * oneStageRate cd (qt x.1) _ (load x.1) = _
    rw [hrunF _ (hmem x hx).1, oneStageRate_mul, rated_split]
    simp only [hrate]
    ring
  have hR : CoolTests.total ((ratedTests ton q95 q47 q17 hspf2 (some κ) b).oneStageResistance off load) bins = res := by
    refine total_congr fun x hx => ?_
    show load x.1 - runFraction off off x.1 (qt x.1 / _) * min (load x.1) (qt x.1) = _
    rw [hrunF _ (hmem x hx).1]
  unfold HeatTests.oneStageSeason
  rw [hE, hR, ← hS]
  have : 0 < e1 * (1 / κ) := mul_pos he1pos (one_div_pos.2 hκ0)
  field_simp
  ring

/-- C96, the HSPF2 and the rated COP: for units with the same other ratings, whatever their HSPF2 argument, the reciprocal of the HSPF2 is affine in the reciprocal of the COP at 47 °F between 2.1 and 5, with a positive slope. -/
theorem C96_cop {q95 seer2 eer2 : ℝ} (hu : UsualUnits u) (ht : a.tables = none) (hst : a.staging = some .single) (hq : a.cooling = .num q95) (hs : a.seer = some seer2)
    (he : inputEer a = some eer2) (heer : 0 < eer2) (hseer : eer2 ≤ seer2) (hseer' : seer2 ≤ 16.5) (hcd : 0 ≤ cd a.cdCooling ∧ cd a.cdCooling ≤ 0.25)
    (h95 : 0 < q95) (h47 : 0 < ratedHeating u a .single q95) (hsize : Comparable q95 (ratedHeating u a .single q95)) (hmx : UsualCooling a.coolingOff)
    (hcold : 0.5 * ratedHeating u a .single q95 ≤ heating17 (ratedHeating u a .single q95) a.heating17)
    (hcold2 : heating17 (ratedHeating u a .single q95) a.heating17 ≤ 2 * ratedHeating u a .single q95) (hoff : frF 0 ≤ lowestTemperature a .single) (hoff5 : lowestTemperature a .single < frF 5)
    (h : Surroundings u E T brentq a .single [q95]) (hset : SeasonSettings E a) {r : Nat} {design z cx cv : ℝ} {hours : List ℝ} {f : ℝ}
    (hr : regionData .ahri2023 r = some (design, hours, some (cx, cv, z))) (hf : a.defrost.demandCredit u = .ok f) (hf0 : 0 < f) :
    ∃ α β : ℝ, 0 < α ∧ 0 ≤ β ∧ ∀ (κ : ℝ) (hspf : Option ℝ), 2.1 ≤ κ → κ ≤ 5 →
      ∃ B, build u E T brentq { a with netHeatingCop := some κ, hspf := hspf } = .ok B ∧ B.core.st = .single ∧ B.hspf u E T brentq r = .ok (1 / (α / κ + β)) := by
  obtain ⟨r1, r2, -, r4, r5, r6, -⟩ := region_2023 hr
  have hw := (pscRatedPower_bounds hu h47 (le_max_right q95 _)).1.le
  obtain ⟨α, β, hα, hβ, key⟩ := season_affine (ton := u.ton) (q95 := q95) (q17 := a.heating17) (hspf2 := a.hspf.getD 0) (b := a.defrost.inDefrost (frF 35)) (load := heatBuildingLoad z design (cx * q95))
    (cd := cd a.cdHeating) (off := toF (lowestTemperature a .single)) h47 hcold hcold2 hw hset.cd.1 hset.cd.2 (by have := toF_le.2 hoff; rwa [toF_frF] at this)
    (by have := toF_lt.2 hoff5; rwa [toF_frF] at this) r4 (fun t => heatBuildingLoad_nonneg r1 (mul_pos r2 h95).le) r5 (heatBuildingLoad_pos r1 (mul_pos r2 h95) r6)
  have hb := u.btuh_pos
  refine ⟨α * (u.btuh / f), β * (u.btuh / f), mul_pos hα (div_pos hb hf0), mul_nonneg hβ (div_pos hb hf0).le, fun κ hspf k1 k2 => ?_⟩
  obtain ⟨B, hB, hst', hH⟩ := C96_single_ratings (a := { a with netHeatingCop := some κ, hspf := hspf }) (u := u) (E := E) (T := T) (brentq := brentq) hu ht hst hq hs he (.inl rfl) heer hseer hseer' hcd h95 hsize hmx
    ⟨h47, hcold, by show 0 < κ; linarith, k2, hoff, hoff5⟩ hcold2
    ⟨h.airflows, h.charge, h.root, h.indoor, h.outdoor, h.coil, h.cops.1, .inl rfl⟩ ⟨hset.motor, hset.standard, hset.cutIn, hset.cd, hset.outdoor⟩
  refine ⟨B, hB, hst', ?_⟩
  rw [hH hr hf]
  have := key κ k1
  change Except.ok ((ratedTests u.ton q95 (ratedHeating u a .single q95) a.heating17 (a.hspf.getD 0) (some κ) (a.defrost.inDefrost (frF 35))).oneStageSeason (cd a.cdHeating)
    (toF (lowestTemperature a .single)) (heatBuildingLoad z design (cx * q95)) (seasonTemperatures.zip hours) * f / u.btuh) = _
  rw [this]
  have hκ0 : 0 < κ := by linarith
  have : 0 < α / κ + β := by have := div_pos hα hκ0; linarith
  congr 1
  have e : α * (u.btuh / f) / κ + β * (u.btuh / f) = (α / κ + β) * (u.btuh / f) := by ring
  rw [e]
  generalize α / κ + β = x at *
  field_simp

theorem affine_lt {α β κ κ' : ℝ} (hα : 0 < α) (hβ : 0 ≤ β) (h0 : 0 < κ) (h : κ < κ') : 1 / (α / κ + β) < 1 / (α / κ' + β) := by
  have h1 : α / κ' < α / κ := div_lt_div_of_pos_left hα h0 h
  exact one_div_lt_one_div_of_lt (by have := div_pos hα (h0.trans h); linarith) (by linarith)

/-- C96: of two units with the same other ratings, the one with the larger COP has the larger HSPF2. The gain is less than proportional. -/
theorem C96_increasing {q95 seer2 eer2 : ℝ} (hu : UsualUnits u) (ht : a.tables = none) (hst : a.staging = some .single) (hq : a.cooling = .num q95) (hs : a.seer = some seer2)
    (he : inputEer a = some eer2) (heer : 0 < eer2) (hseer : eer2 ≤ seer2) (hseer' : seer2 ≤ 16.5) (hcd : 0 ≤ cd a.cdCooling ∧ cd a.cdCooling ≤ 0.25)
    (h95 : 0 < q95) (h47 : 0 < ratedHeating u a .single q95) (hsize : Comparable q95 (ratedHeating u a .single q95)) (hmx : UsualCooling a.coolingOff)
    (hcold : 0.5 * ratedHeating u a .single q95 ≤ heating17 (ratedHeating u a .single q95) a.heating17)
    (hcold2 : heating17 (ratedHeating u a .single q95) a.heating17 ≤ 2 * ratedHeating u a .single q95) (hoff : frF 0 ≤ lowestTemperature a .single) (hoff5 : lowestTemperature a .single < frF 5)
    (h : Surroundings u E T brentq a .single [q95]) (hset : SeasonSettings E a) {r : Nat} {design z cx cv : ℝ} {hours : List ℝ} {f : ℝ}
    (hr : regionData .ahri2023 r = some (design, hours, some (cx, cv, z))) (hf : a.defrost.demandCredit u = .ok f) (hf0 : 0 < f)
    {κ κ' : ℝ} (k1 : 2.1 ≤ κ) (k2 : κ < κ') (k3 : κ' ≤ 5) {B B' : Built} (hB : build u E T brentq { a with netHeatingCop := some κ } = .ok B)
    (hB' : build u E T brentq { a with netHeatingCop := some κ' } = .ok B') :
    ∃ v v', B.hspf u E T brentq r = .ok v ∧ B'.hspf u E T brentq r = .ok v' ∧ v < v' ∧ v' / v ≤ κ' / κ := by
  obtain ⟨α, β, hα, hβ, key⟩ := C96_cop hu ht hst hq hs he heer hseer hseer' hcd h95 h47 hsize hmx hcold hcold2 hoff hoff5 h hset hr hf hf0
  obtain ⟨C, c1, -, c3⟩ := key κ a.hspf k1 (by linarith)
  obtain ⟨C', d1, -, d3⟩ := key κ' a.hspf (by linarith) k3
  have hκ : 0 < κ := by linarith
  have e : C = B := by have := c1.symm.trans hB; cases this; rfl
  have e' : C' = B' := by have := d1.symm.trans hB'; cases this; rfl
  subst e e'
  refine ⟨_, _, c3, d3, affine_lt hα hβ hκ k2, ?_⟩
  have hκ' : 0 < κ' := by linarith
  have p1 : 0 < α / κ + β := by have := div_pos hα hκ; linarith
  have p2 : 0 < α / κ' + β := by have := div_pos hα hκ'; linarith
  rw [show 1 / (α / κ' + β) / (1 / (α / κ + β)) = (α / κ + β) / (α / κ' + β) by rw [one_div, one_div, div_inv_eq_mul, mul_comm, ← div_eq_mul_inv], div_le_div_iff₀ p2 hκ]
  have x1 : (α / κ + β) * κ = α + β * κ := by field_simp
  have x2 : κ' * (α / κ' + β) = α + β * κ' := by field_simp
  rw [x1, x2]
  have := mul_le_mul_of_nonneg_left k2.le hβ
  linarith

/-! ## C67: which requests can be met -/

/-- A request for a single-stage unit within usual ranges. The requested HSPF2 is not restricted. -/
structure UsualRequest (u : Units ℝ) (R : Request) (q47 eer2 : ℝ) : Prop where
  staging : R.staging = .single
  standard : R.standard = .ahri2023
  size : 0 < R.q95
  rated : R.q47.getD (R.q95 * 0.98 + 180 * u.btuh) = q47
  size47 : 0 < q47
  comparable : Comparable R.q95 q47
  cold : 0.5 * q47 ≤ R.q47.getD R.q95 * R.qm17
  cold_le : R.q47.getD R.q95 * R.qm17 ≤ 2 * q47
  eer : (match R.eer with | some e => e | none => if R.seer < 13 then 10 + 0.84 * (R.seer - 11.5) else 11.3 + 0.57 * (R.seer - 13)) = eer2
  eer_pos : 0 < eer2
  seer : eer2 ≤ R.seer
  seer_le : R.seer ≤ 16.5
  hottest : UsualCooling R.tMax
  coldest : frF 0 ≤ R.tMin.getD (frF 0)
  coldest_lt : R.tMin.getD (frF 0) < frF 5

/-- C67, requests that can be met: for a single-stage unit in usual ranges there are two HSPF2 values, those at the COPs 2.1 and 5, such that for every request between them exactly one COP between 2.1 and 5 has no residual;
if the solver returns it, `make_rating_unit` returns a unit with exactly the requested SEER2 and HSPF2. -/
theorem C67_attained {q47 eer2 : ℝ} {R : Request} (hu : UsualUnits u) (hR : UsualRequest u R q47 eer2) (h : Surroundings u E T brentq (requestArgs u R 3 (some 3)) .single [R.q95])
    (ho : Outdoor E (frF 82) ∧ Outdoor E (frF 47) ∧ Outdoor E (frF 35) ∧ Outdoor E (frF 17)) :
    ∃ lo hi : ℝ, 0 < lo ∧ lo < hi ∧ ∀ target, lo ≤ target → target ≤ hi →
      (∃! κ, (2.1 ≤ κ ∧ κ ≤ 5) ∧ hspfResidual u E T brentq { R with hspf := target } 3 κ = .ok 0) ∧
      ∀ (newton : Coil.Newton) (κ : ℝ), 2.1 ≤ κ → κ ≤ 5 → hspfResidual u E T brentq { R with hspf := target } 3 κ = .ok 0 →
        newton (hspfResidual u E T brentq { R with hspf := target } 3) (target / 2) = .ok κ →
        ∃ B, makeRatingUnit u E T brentq newton { R with hspf := target } = .ok B ∧ B.seer u E T brentq = .ok R.seer ∧ B.hspf u E T brentq = .ok target := by
  obtain ⟨d, hours, cx, cv, z, hr⟩ : ∃ d hours cx cv z, regionData (K := ℝ) .ahri2023 4 = some (d, hours, some (cx, cv, z)) := ⟨_, _, _, _, _, rfl⟩
  have e47 : ratedHeating u (requestArgs u R 3 (some 3)) .single R.q95 = q47 := hR.rated
  have e17 : heating17 q47 (requestArgs u R 3 (some 3)).heating17 = R.q47.getD R.q95 * R.qm17 := rfl
  obtain ⟨α, β, hα, hβ, key⟩ := C96_cop (a := requestArgs u R 3 (some 3)) (q95 := R.q95) (seer2 := R.seer) (eer2 := eer2) hu rfl (congrArg some hR.staging) rfl rfl
    (by have := hR.eer; simp only [inputEer, requestArgs]; rw [← this]; cases R.eer <;> rfl) hR.eer_pos hR.seer hR.seer_le (by norm_num [cd, requestArgs]) hR.size
    (by rw [e47]; exact hR.size47) (by rw [e47]; exact hR.comparable) hR.hottest (by rw [e47, e17]; exact hR.cold) (by rw [e47, e17]; exact hR.cold_le) hR.coldest hR.coldest_lt h
    ⟨rfl, hR.standard, rfl, by norm_num [cd, requestArgs], ho.2⟩ (r := 4) hr (f := 1) rfl one_pos
  have val : ∀ (κ target : ℝ), 2.1 ≤ κ → κ ≤ 5 → ∃ B, build u E T brentq (requestArgs u { R with hspf := target } 3 (some κ)) = .ok B ∧ B.hspf u E T brentq = .ok (1 / (α / κ + β)) ∧
      hspfResidual u E T brentq { R with hspf := target } 3 κ = .ok (1 / (α / κ + β) - target) := by
    intro κ target k1 k2
    obtain ⟨B, hB, -, hH⟩ := key κ (some target) k1 k2
    have hB' : build u E T brentq (requestArgs u { R with hspf := target } 3 (some κ)) = .ok B := hB
    refine ⟨B, hB', hH, ?_⟩
    simp only [hspfResidual, hB', hH, bind_ok, pure_eq_ok]
  have p5 : 0 < α / 5 + β := by have := div_pos hα (show (0 : ℝ) < 5 by norm_num); linarith
  have p2 : 0 < α / 2.1 + β := by have := div_pos hα (show (0 : ℝ) < 2.1 by norm_num); linarith
  refine ⟨1 / (α / 2.1 + β), 1 / (α / 5 + β), one_div_pos.2 p2, affine_lt hα hβ (by norm_num) (by norm_num), fun target t1 t2 => ?_⟩
  have ht0 : 0 < target := lt_of_lt_of_le (one_div_pos.2 p2) t1
  rw [div_le_iff₀ p2] at t1
  rw [le_div_iff₀ p5] at t2
  refine ⟨?_, fun newton κ k1 k2 h0 hn => ?_⟩
  · have hd : 0 < 1 / target - β := by
      have : β < 1 / target := by rw [lt_div_iff₀ ht0]; have := mul_pos (div_pos hα (show (0 : ℝ) < 5 by norm_num)) ht0; nlinarith
      linarith
    have l1 : α / 5 ≤ 1 / target - β := by
      have : α / 5 + β ≤ 1 / target := by rw [le_div_iff₀ ht0]; linarith
      linarith
    have l2 : 1 / target - β ≤ α / 2.1 := by
      have : 1 / target ≤ α / 2.1 + β := by rw [div_le_iff₀ ht0]; linarith
      linarith
    have k1 : 2.1 ≤ α / (1 / target - β) := by
      rw [le_div_iff₀ hd]; rw [le_div_iff₀ (by norm_num)] at l2; linarith
    have k2 : α / (1 / target - β) ≤ 5 := by
      rw [div_le_iff₀ hd]; rw [div_le_iff₀ (by norm_num)] at l1; linarith
    refine ⟨α / (1 / target - β), ⟨⟨k1, k2⟩, ?_⟩, ?_⟩
    · obtain ⟨-, -, -, e⟩ := val _ target k1 k2
      rw [e]
      have : α / (α / (1 / target - β)) = 1 / target - β := by rw [div_div_cancel₀ hα.ne']
      rw [this]; congr 1; field_simp; ring
    · rintro κ ⟨⟨c1, c2⟩, hκ⟩
      obtain ⟨-, -, -, e⟩ := val κ target c1 c2
      rw [e, Except.ok.injEq] at hκ
      have hκ0 : 0 < κ := by linarith
      have e2 : α / κ + β = 1 / target := by rw [← sub_eq_zero.1 hκ, one_div_one_div]
      rw [← e2, add_sub_cancel_right, div_div_cancel₀ hα.ne']
  · obtain ⟨B, hB, hH, e⟩ := val κ target k1 k2
    rw [e, Except.ok.injEq] at h0
    have hM : makeRatingUnit u E T brentq newton { R with hspf := target } = .ok B := by
      unfold makeRatingUnit
      rw [if_pos hR.staging]
      simp only [bind_ok, hn]
      exact hB
    exact ⟨B, hM, (C67_seer_single hM hR.staging h.outdoor ho.1).1, by rw [hH, sub_eq_zero.1 h0]⟩

end Resdx.Build

/-! ## Sample units -/

namespace Resdx.Sample

open Spec Tabular BaseModel Props ResnetFan Fan Table Build

/-- A request without a capacity at 47 °F. -/
noncomputable def request : Request := { staging := .single, seer := 14, hspf := 8, eer := some 12, q95 := 10000 }

/-- A solver that finds exact roots between 2.1 and 5. -/
noncomputable def exactNewton : Coil.Newton := fun f _ => by
  classical exact if h : ∃ r, (2.1 ≤ r ∧ r ≤ 5) ∧ f r = .ok 0 then .ok h.choose else .error .runtime

theorem exactNewton_solves : SolvesWithin 0 exactNewton := by
  intro f x r h
  unfold exactNewton at h
  split at h
  · rename_i hx
    cases h
    exact ⟨0, hx.choose_spec.2, by simp⟩
  · cases h

theorem request_usual : UsualRequest units request (10000 * 0.98 + 180 * 0.29307) 12 where
  staging := rfl
  standard := rfl
  size := by norm_num [request]
  rated := rfl
  size47 := by norm_num
  comparable := by norm_num [Comparable, request]
  cold := by norm_num [request]
  cold_le := by norm_num [request]
  eer := rfl
  eer_pos := by norm_num
  seer := by norm_num [request]
  seer_le := by norm_num [request]
  hottest := off125
  coldest := le_rfl
  coldest_lt := by rw [show request.tMin.getD (frF 0) = (frF 0 : ℝ) from rfl, frF_lt]; norm_num

theorem request_returns {brentq : Brentq} (hbr : BrentqSpec brentq) :
    ∃ target B, makeRatingUnit units env tools brentq exactNewton { request with hspf := target } = .ok B ∧ B.seer units env tools brentq = .ok 14 ∧ B.hspf units env tools brentq = .ok target := by
  obtain ⟨lo, hi, -, hlt, key⟩ := C67_attained (E := env) (T := tools) (brentq := brentq) usualUnits request_usual
    (surroundings hbr rfl rfl rfl rfl rfl (by norm_num [request])) ⟨outdoorAir _, outdoorAir _, outdoorAir _, outdoorAir _⟩
  obtain ⟨⟨κ, h1, -⟩, h2⟩ := key lo le_rfl hlt.le
  have hx : ∃ r, (2.1 ≤ r ∧ r ≤ 5) ∧ hspfResidual units env tools brentq { request with hspf := lo } 3 r = .ok 0 := ⟨κ, h1⟩
  have hn : exactNewton (hspfResidual units env tools brentq { request with hspf := lo } 3) (lo / 2) = .ok hx.choose := by
    unfold exactNewton
    rw [dif_pos hx]
  have hc := hx.choose_spec
  obtain ⟨B, b1, b2, b3⟩ := h2 exactNewton hx.choose hc.1.1 hc.1.2 hc.2 hn
  exact ⟨lo, B, b1, b2, b3⟩

end Resdx.Sample

namespace Resdx.Build

open BaseModel Spec Fan

/-- C67 is false of requests without a capacity at 47 °F: there is a unit returned by `make_rating_unit`, with an exact solver, whose capacity at 17 °F is not the requested fraction of that at 47 °F. -/
theorem C67_refuted : ¬ ∀ (u : Units ℝ) (E : Env ℝ) (T : Coil.Tools) (brentq : Brentq) (newton : Coil.Newton) (R : Request) (B : Built), BrentqSpec brentq → SolvesWithin 0 newton → R.staging = .single →
    makeRatingUnit u E T brentq newton R = .ok B → ∀ v1 v3, (B.unit u E T brentq).netSteadyHeatingCapacity none = .ok v1 →
      (B.unit u E T brentq).netSteadyHeatingCapacity (some B.points.h3Full) = .ok v3 → v3 = R.qm17 * v1 := by
  intro hall
  obtain ⟨brentq, hbr⟩ := Props.brentqSpec_satisfiable
  obtain ⟨target, B, hB, -⟩ := Sample.request_returns hbr
  obtain ⟨v1, v3, e1, e3, hiff⟩ := C67_fraction_default hB rfl rfl (Sample.outdoorAir _) (Sample.outdoorAir _)
  rcases hiff.1 (hall _ _ _ _ _ _ _ hbr Sample.exactNewton_solves rfl hB v1 v3 e1 e3) with h | h
  · norm_num [Sample.request] at h
  · change (10000 : ℝ) = 9000 * 0.29307 at h
    norm_num at h

/-- The hypotheses of `C96_cop` hold for the sample unit scaled to any capacity, in the climate of region 4. -/
example {brentq : Brentq} (hbr : BrentqSpec brentq) {q : ℝ} (hq : 0 < q) : ∃ α β : ℝ, 0 < α ∧ 0 ≤ β ∧ ∀ (κ : ℝ) (hspf : Option ℝ), 2.1 ≤ κ → κ ≤ 5 →
    ∃ B, build Sample.units Sample.env Sample.tools brentq { Sample.oneArgs with cooling := .num q, heating := some q, heating17 := none, netHeatingCop := some κ, hspf := hspf } = .ok B ∧ B.core.st = .single ∧
      B.hspf Sample.units Sample.env Sample.tools brentq 4 = .ok (1 / (α / κ + β)) :=
  C96_cop (a := { Sample.oneArgs with cooling := .num q, heating := some q, heating17 := none }) Sample.usualUnits rfl rfl rfl rfl rfl (by norm_num) (by norm_num) (by norm_num)
    (by norm_num [cd, Sample.oneArgs]) hq hq (by norm_num [Comparable, ratedHeating]; nlinarith) Sample.off125
    (by norm_num [heating17, ratedHeating]; linarith) (by norm_num [heating17, ratedHeating]; linarith) (by simp [lowestTemperature, Sample.oneArgs])
    (by simp only [lowestTemperature, Sample.oneArgs, Option.getD]; rw [if_neg (by decide), frF_lt]; norm_num)
    (Sample.surroundings hbr rfl rfl rfl rfl rfl (by simpa using hq)) ⟨rfl, rfl, rfl, by norm_num [cd, Sample.oneArgs], Sample.outdoorAir _, Sample.outdoorAir _, Sample.outdoorAir _⟩
    (hr := rfl) (hf := rfl) one_pos

end Resdx.Build
