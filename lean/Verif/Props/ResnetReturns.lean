import Verif.Lemmas.ResnetSample
import Verif.Props.ResnetStaged
import Verif.Props.FanRep

/-!
# Construction of RESNET units returns (C90), and sample units for C45, C88 and C89
-/

set_option linter.unusedSectionVars false
set_option linter.unusedSimpArgs false

namespace Resdx.Build

open Spec Tabular BaseModel Props ResnetFan Fan Table

variable {u : Units ℝ} {E : Env ℝ} {T : Coil.Tools} {brentq : Brentq} {a : Args}

/-! ## C90: construction returns -/

/-- What construction needs beside the tables: default airflows, the charge of the nameplate, solvable air properties at the rating conditions, a root finder that converges for BPM motors and for
the coil, and a COP of each mode. -/
structure Surroundings (u : Units ℝ) (E : Env ℝ) (T : Coil.Tools) (brentq : Brentq) (a : Args) (st : Staging) (qc : List ℝ) : Prop where
  airflows : a.coolingPerCap = none ∧ a.heatingPerCap = none
  charge : a.chargeDeviation = 0
  root : a.motorPSC.getD (defaultMotorPSC st) = false → BrentqSpec brentq
  indoor : IndoorAir E
  outdoor : Outdoor E (frF 95)
  coil : ∀ q ∈ qc, ∀ t, q < t → t ≤ (1 + 337.2 / u.ton) * q → CoilReturns u E T q t
  cops : (a.hasNetCoolingCop = true ∨ a.hasGrossCoolingCop = true) ∧ (a.netHeatingCop.isSome ∨ a.hasGrossHeatingCop = true)

/-- C90, supplied tables: a unit can be made from any sound net tables, whatever its staging argument: staging, rated capacities and airflows are those of the tables. -/
theorem C90_tables {st : Staging} {d : Perf ℝ} {qc qh : List ℝ} {q : ℝ} (ht : a.tables = some d) (hs : Sound u st d qc qh) (hq : a.cooling = .num q)
    (h : Surroundings u E T brentq a st qc) : ∃ B, build u E T brentq a = .ok B ∧ Made u E a st d qc qh B := by
  obtain ⟨st0, h1⟩ : ∃ st0, stagingOf (numberOfSpeeds (a.heating.map NumArg.num) a.staging) a.staging = .ok st0 := by
    cases hst : a.staging with
    | some s => exact ⟨s, rfl⟩
    | none => cases a.heating <;> exact ⟨.single, rfl⟩
  have h2 : modelStaging a st0 = .ok st := by
    simp only [modelStaging, ht, hs.rated.speeds.1]
    cases st <;> rfl
  obtain ⟨q47, h3⟩ : ∃ q47, heating47 u a st = .ok q47 := by
    unfold heating47
    rw [hq]
    split
    · exact ⟨_, rfl⟩
    · exact ⟨_, rfl⟩
  have h4 : netTables u a st (DX.offTemperature a.heatingOff st0) q47 = .ok d := by simp only [netTables, ht]
  exact build_returns h1 h2 h3 h4 hs h.airflows.1 h.airflows.2 h.charge h.root h.indoor h.outdoor h.coil h.cops.1 h.cops.2

/-- C90, tables from ratings: if the ratings yield sound tables, the unit can be made and its tables are these. -/
theorem C90_ratings {st : Staging} {net : Perf ℝ} {qc qh : List ℝ} {q47 : ℝ} (ht : a.tables = none) (hst : a.staging = some st) (h47 : heating47 u a st = .ok q47)
    (hN : netTables u a st (DX.offTemperature a.heatingOff st) q47 = .ok net) (hs : Sound u st net qc qh) (h : Surroundings u E T brentq a st qc) :
    ∃ B, build u E T brentq a = .ok B ∧ Made u E a st net qc qh B :=
  build_returns (st0 := st) (by rw [hst]; rfl) (by simp only [modelStaging, ht]) h47 hN hs h.airflows.1 h.airflows.2 h.charge h.root h.indoor h.outdoor h.coil h.cops.1 h.cops.2

end Resdx.Build

/-! ## Sample units -/

namespace Resdx.Sample

open Spec Tabular BaseModel Props ResnetFan Fan Table Build Transfer

/-- The sample surroundings suit every unit with default airflows. -/
theorem surroundings {brentq : Brentq} {a : Args} {st : Staging} {qc : List ℝ} (hbr : BrentqSpec brentq) (h1 : a.coolingPerCap = none) (h2 : a.heatingPerCap = none) (h3 : a.chargeDeviation = 0)
    (h4 : a.hasGrossCoolingCop = true) (h5 : a.hasGrossHeatingCop = true) (hq : ∀ q ∈ qc, 0 < q) : Surroundings units env tools brentq a st qc :=
  ⟨⟨h1, h2⟩, h3, fun _ => hbr, indoorAir, outdoorAir _, fun q hm _ g1 g2 => coilReturns (hq q hm) g1 g2, .inr h4, .inr h5⟩

/-- Defrost settings. -/
noncomputable def defrost : Defrost ℝ :=
  { resistivePower := 0, control := .timed, strategy := .reverseCycle, highTemperature := frF 41, lowTemperature := none, period := 5400, maxTime := 720 }

/-- Tables that satisfy a check. -/
theorem of_check {α : Type} {x : Py α} {p : α → Bool} (h : (match x with | .ok d => p d | .error _ => false) = true) : ∃ d, x = .ok d ∧ p d = true := by
  cases x with
  | error e => simp at h
  | ok d => exact ⟨d, rfl, h⟩

theorem frF_cast (x : ℚ) : ((frF x : ℚ) : ℝ) = frF (x : ℝ) := frF_map (φ := φ) x

/-- A single-stage unit of 10 kW. -/
noncomputable def oneArgs : Args :=
  { staging := some .single, cooling := .num 10000, heating := some 10000, netHeatingCop := some 3.2, seer := some 14, eer := some 12, hspf := some 8, heating17 := some 6500, defrost }

/-- A two-stage unit of 10 kW (11 kW heating). -/
noncomputable def twoArgs : Args :=
  { staging := some .two, cooling := .num 10000, heating := some 11000, netHeatingCop := some 3.2, seer := some 16, eer := some 12, hspf := some 8, heating17 := some 6500, cop82 := some 5, defrost }

/-- A variable-speed unit of 10 kW. -/
noncomputable def varArgs : Args :=
  { staging := some .varSpeed, cooling := .num 10000, heating := some 10000, netHeatingCop := some 3.2, seer := some 18, eer := some 12, hspf := some 9, heating17 := some 6890, cop82 := some 4,
    ratio95 := some 0.3, defrost }

theorem one_made {brentq : Brentq} (hbr : BrentqSpec brentq) : ∃ B net, build units env tools brentq oneArgs = .ok B ∧ Made units env oneArgs .single net [10000] [10000] B := by
  obtain ⟨d, hd, hs⟩ := of_check (x := makeSingleSpeed unitsQ 10000 14 12 10000 (some 6500) 8 (frF 125) (frF 0) (some 3.2) 0.15) (p := fun d => soundB .single d [10000] [10000]) (by decide +kernel)
  have hm : makeSingleSpeed units 10000 14 12 10000 (some 6500) 8 (frF 125) (frF 0) (some 3.2) 0.15 = .ok (pT φ d) := by
    have := makeSingleSpeed_map φ_mono units_btuh 10000 14 12 10000 (some 6500) 8 (frF 125) (frF 0) (some 3.2) 0.15
    rw [hd] at this
    refine Eq.trans ?_ this
    congr 1 <;> norm_num [frF_cast]
  have hS := sound_of (st := .single) (single_rated hm) hs
  simp only [List.map, Rat.coe_castHom, Rat.cast_ofNat] at hS
  obtain ⟨B, h, hB⟩ := C90_ratings (a := oneArgs) (brentq := brentq) rfl rfl (q47 := 10000) rfl (by simpa [netTables, oneArgs, number, pyNum, inputEer, hspfFor, bind_ok, cd, DX.offTemperature] using hm) hS
    (surroundings hbr rfl rfl rfl rfl rfl (by simp))
  exact ⟨B, _, h, hB⟩

theorem two_made {brentq : Brentq} (hbr : BrentqSpec brentq) : ∃ B net, build units env tools brentq twoArgs = .ok B ∧ Made units env twoArgs .two net [10000, 7280] [11000, 7832] B := by
  obtain ⟨d, hd, hs⟩ := of_check (x := makeTwoSpeed unitsQ 10000 16 12 11000 (some 6500) 8 (frF 125) (frF 0) (some 5) (some 3.2)) (p := fun d => soundB .two d [10000, 7280] [11000, 7832])
    (by decide +kernel)
  have hm : makeTwoSpeed units 10000 16 12 11000 (some 6500) 8 (frF 125) (frF 0) (some 5) (some 3.2) = .ok (pT φ d) := by
    have := makeTwoSpeed_map φ_mono units_btuh 10000 16 12 11000 (some 6500) 8 (frF 125) (frF 0) (some 5) (some 3.2)
    rw [hd] at this
    refine Eq.trans ?_ this
    congr 1 <;> norm_num [frF_cast]
  have hS := sound_of (st := .two) (two_rated hm) hs
  simp only [List.map, Rat.coe_castHom, Rat.cast_ofNat] at hS
  obtain ⟨B, h, hB⟩ := C90_ratings (a := twoArgs) (brentq := brentq) rfl rfl (q47 := 11000) rfl
    (by simpa [netTables, twoArgs, number, pyNum, inputEer, hspfFor, bind_ok, seerFor, cd, DX.offTemperature] using hm) hS (surroundings hbr rfl rfl rfl rfl rfl (by simp))
  exact ⟨B, _, h, hB⟩

theorem var_made {brentq : Brentq} (hbr : BrentqSpec brentq) :
    ∃ B net, build units env tools brentq varArgs = .ok B ∧ Made units env varArgs .varSpeed net [5000000 / 467, 10000, 3085000 / 467, 1500000 / 467] [2500000 / 227, 10000, 1475000 / 227, 680000 / 227] B := by
  obtain ⟨d, hd, hs⟩ := of_check (x := makeNeepStatistical unitsQ 10000 18 12 10000 (some 6890) 9 (frF 125) (frF (-20)) (some 0.3) (some 4) (some 3.2))
    (p := fun d => soundB .varSpeed d [5000000 / 467, 10000, 3085000 / 467, 1500000 / 467] [2500000 / 227, 10000, 1475000 / 227, 680000 / 227]) (by decide +kernel)
  have hm : makeNeepStatistical units 10000 18 12 10000 (some 6890) 9 (frF 125) (frF (-20)) (some 0.3) (some 4) (some 3.2) = .ok (pT φ d) := by
    have := makeNeepStatistical_map φ_mono units_btuh 10000 18 12 10000 (some 6890) 9 (frF 125) (frF (-20)) (some 0.3) (some 4) (some 3.2)
    rw [hd] at this
    refine Eq.trans ?_ this
    congr 1 <;> norm_num [frF_cast]
  have hS := sound_of (st := .varSpeed) (variable_rated hm) hs
  simp only [List.map, Rat.coe_castHom, Rat.cast_ofNat, Rat.cast_div] at hS
  obtain ⟨B, h, hB⟩ := C90_ratings (a := varArgs) (brentq := brentq) rfl rfl (q47 := 10000) rfl
    (by simpa [netTables, varArgs, number, pyNum, inputEer, hspfFor, bind_ok, seerFor, cd, DX.offTemperature] using hm) hS (surroundings hbr rfl rfl rfl rfl rfl (by simp))
  exact ⟨B, _, h, hB⟩

/-- Hypotheses of `C90_tables`: the two-stage tables supplied for a unit with a single-stage staging argument. -/
example {brentq : Brentq} (hbr : BrentqSpec brentq) : ∃ d B, build units env tools brentq { oneArgs with tables := some d } = .ok B ∧ B.core.st = .two := by
  obtain ⟨d, hd, hs⟩ := of_check (x := makeTwoSpeed unitsQ 10000 16 12 11000 (some 6500) 8 (frF 125) (frF 0) (some 5) (some 3.2)) (p := fun d => soundB .two d [10000, 7280] [11000, 7832])
    (by decide +kernel)
  have hm := makeTwoSpeed_map φ_mono units_btuh 10000 16 12 11000 (some 6500) 8 (frF 125) (frF 0) (some 5) (some 3.2)
  rw [hd] at hm
  have hS := sound_of (st := .two) (two_rated hm) hs
  obtain ⟨B, h, hB⟩ := C90_tables (a := { oneArgs with tables := some (pT φ d) }) (brentq := brentq) rfl hS rfl (surroundings hbr rfl rfl rfl rfl rfl (by simp))
  exact ⟨_, B, h, hB.staging⟩

/-! ### C45 and C88: the single-stage unit has a PSC motor -/

/-- C45: the sample unit's EER2, SEER2 and capacities are the ratings 12, 14, 10 kW, and its COP and capacities in heating are 3.2, 10 kW and 6.5 kW. -/
example : ∃ brentq B, build units env tools brentq oneArgs = .ok B ∧ B.eer units env tools brentq = .ok 12 ∧ B.seer units env tools brentq = .ok 14 ∧
    (B.unit units env tools brentq).netTotalCoolingCapacity none = .ok 10000 ∧ (B.unit units env tools brentq).netSteadyHeatingCapacity none = .ok 10000 ∧
    (B.unit units env tools brentq).netSteadyHeatingCOP none = .ok 3.2 ∧ (B.unit units env tools brentq).netSteadyHeatingCapacity (some B.points.h3Full) = .ok 6500 := by
  obtain ⟨brentq, hbr⟩ := brentqSpec_satisfiable
  obtain ⟨B, net, h, hB⟩ := one_made hbr
  have hp : B.core.psc = true := hB.motor
  obtain ⟨q, s, e, h1, h2, h3, h4, h5, h6⟩ := C45_cooling h hB.staging rfl rfl (.inl hp) (outdoorAir _) (outdoorAir _)
  obtain ⟨q', g1, g2, g3, g4⟩ := C45_heating h hB.staging rfl rfl (.inl hp) (outdoorAir _) (outdoorAir _)
  cases h1; cases h2; cases h3; cases g1
  exact ⟨brentq, B, h, h4, h5, h6, g2, g3 _ rfl, g4 _ rfl⟩

/-- C88: the hypotheses for the single-stage unit (PSC motor) at any outdoor temperature up to 125 °F. -/
example (db : ℝ) (hdb : toF db ≤ 125) : ∃ brentq B c q p w, build units env tools brentq oneArgs = .ok B ∧ B.sys.makeCondition env false 0 none (some (wetState env.atm db (frF 60))) = .ok c ∧
    B.core.net.coolingCapacity 1 db = .ok q ∧ B.core.net.coolingPower 1 db = .ok p ∧
    (B.unit units env tools brentq).netTotalCoolingCapacity (some c) = (if q + w < 0 then .error .exception else .ok q) := by
  obtain ⟨brentq, hbr⟩ := brentqSpec_satisfiable
  obtain ⟨B, net, h, hB⟩ := one_made hbr
  obtain ⟨c, hc⟩ := hB.conditions false 0 (wetState env.atm db (frF 60)) (by decide)
  obtain ⟨q, p, w, h1, h2, h3, h4, h5⟩ := C88_cooling (σ := 1) h (fun d hd => by cases hd) rfl (by rw [hB.staging]; exact ⟨rfl, rfl⟩) (by norm_num) (.inl hB.motor)
    (o := wetState env.atm db (frF 60)) hdb (outdoorAir _) hc
  exact ⟨brentq, B, c, q, p, w, h, hc, h1, h2, h4⟩

/-- C88, heating: the low speed of the two-stage unit (BPM motor). -/
example (db : ℝ) : ∃ brentq B c q p, build units env tools brentq twoArgs = .ok B ∧ B.sys.makeCondition env true 1 none (some (wetState env.atm db (frF 60))) = .ok c ∧
    B.core.net.heatingCapacity 1 db = .ok q ∧ B.core.net.heatingPower 1 db = .ok p ∧
    (B.unit units env tools brentq).netSteadyHeatingCapacity (some c) = .ok q ∧ (B.unit units env tools brentq).netSteadyHeatingPower (some c) = .ok p := by
  obtain ⟨brentq, hbr⟩ := brentqSpec_satisfiable
  obtain ⟨B, net, h, hB⟩ := two_made hbr
  obtain ⟨c, hc⟩ := hB.conditions true 1 (wetState env.atm db (frF 60)) (by decide)
  obtain ⟨q, p, h1, h2, h4, h5⟩ := C88_heating (σ := 1) (i := 1) h (fun d hd => by cases hd) rfl (by rw [hB.staging]; exact .inr ⟨rfl, rfl⟩) (by norm_num)
    (.inr (.inl (by rw [hB.full.2]; decide))) (o := wetState env.atm db (frF 60)) (outdoorAir _) hc
  exact ⟨brentq, B, c, q, p, h, hc, h1, h2, h4, h5⟩

/-! ### C88 and C89: the full speed of the variable-speed unit (BPM motor) -/

theorem var_airflows {brentq : Brentq} {B : Built} {net : Perf ℝ}
    (hB : Made units env varArgs .varSpeed net [5000000 / 467, 10000, 3085000 / 467, 1500000 / 467] [2500000 / 227, 10000, 1475000 / 227, 680000 / 227] B) :
    FullAirflows B.core B.core.cool B.core.rc.full (10000 * (400 * units.cfm / units.ton)) (5000000 / 467 * (400 * units.cfm / units.ton)) (10000 * (400 * units.cfm / units.ton)) ∧
      FullAirflows B.core B.core.heat B.core.rh.full (10000 * (400 * units.cfm / units.ton)) (2500000 / 227 * (400 * units.cfm / units.ton)) (10000 * (400 * units.cfm / units.ton)) := by
  have := units.cfm_pos
  have := units.ton_pos
  have hd : B.core.fan.airflow[0]? = some (10000 * (400 * units.cfm / units.ton)) := by
    have := hB.design 10000 10000 rfl rfl
    rwa [max_self] at this
  exact ⟨⟨by rw [hB.full.1]; exact hB.coolAirflow 1 _ rfl, hB.coolAirflow 0 _ rfl, hd, by positivity, by positivity⟩,
    ⟨by rw [hB.full.2]; exact hB.heatAirflow 1 _ rfl, hB.heatAirflow 0 _ rfl, hd, by positivity, by positivity⟩⟩

theorem two_airflows {brentq : Brentq} {B : Built} {net : Perf ℝ} (hB : Made units env twoArgs .two net [10000, 7280] [11000, 7832] B) :
    FullAirflows B.core B.core.cool B.core.rc.full (10000 * (400 * units.cfm / units.ton)) (10000 * (400 * units.cfm / units.ton)) (11000 * (400 * units.cfm / units.ton)) := by
  have := units.cfm_pos
  have := units.ton_pos
  have hd : B.core.fan.airflow[0]? = some (11000 * (400 * units.cfm / units.ton)) := by
    have := hB.design 10000 11000 rfl rfl
    rwa [max_eq_right (by norm_num)] at this
  exact ⟨by rw [hB.full.1]; exact hB.coolAirflow 0 _ rfl, hB.coolAirflow 0 _ rfl, hd, by positivity, by positivity⟩

/-- C88: the intermediate speed of the variable-speed unit meets the hypotheses in both modes. -/
example (db : ℝ) (hdb : toF db ≤ 125) : ∃ brentq B Q Q' c c', build units env tools brentq varArgs = .ok B ∧ B.core.st = .varSpeed ∧ B.sys.grossCooling[2]? = some (some Q) ∧ 0 < Q ∧
    SameFan B.core B.core.rc B.core.cool 2 ∧ B.sys.makeCondition env false 2 none (some (wetState env.atm db (frF 60))) = .ok c ∧ B.sys.grossHeating[2]? = some (some Q') ∧ Q' ≠ 0 ∧
    SameFan B.core B.core.rh B.core.heat 2 ∧ B.sys.makeCondition env true 2 none (some (wetState env.atm db (frF 60))) = .ok c' := by
  obtain ⟨brentq, hbr⟩ := brentqSpec_satisfiable
  obtain ⟨B, net, h, hB⟩ := var_made hbr
  obtain ⟨c, hc⟩ := hB.conditions false 2 (wetState env.atm db (frF 60)) (by decide)
  obtain ⟨c', hc'⟩ := hB.conditions true 2 (wetState env.atm db (frF 60)) (by decide)
  obtain ⟨w, g1, g2, -⟩ := hB.grossCool 2 _ rfl
  obtain ⟨w', g3, g4, g5⟩ := hB.grossHeat 2 _ rfl
  refine ⟨brentq, B, _, _, c, c', h, hB.staging, g1, by positivity, .inr (.inl (by rw [hB.full.1]; decide)), hc, g3, ?_, .inr (.inl (by rw [hB.full.2]; decide)), hc'⟩
  have : (337.2 / units.ton : ℝ) < 1 := by norm_num [units]
  nlinarith

/-- C89 is false of the code for BPM motors: a variable-speed unit made with an EER2 of 12 and a cooling capacity of 10 kW has a larger EER2 and capacity, and a smaller heating capacity than the
10 kW asked for; a two-stage unit made with an EER2 of 12 and a cooling capacity of 10 kW has a smaller EER2 and capacity. -/
theorem C89_refuted : ∃ brentq, BrentqSpec brentq ∧
    (∃ B eer q q', build units env tools brentq varArgs = .ok B ∧ inputEer varArgs = some 12 ∧ B.eer units env tools brentq = .ok eer ∧ 12 < eer ∧
      (B.unit units env tools brentq).netTotalCoolingCapacity none = .ok q ∧ 10000 < q ∧ (B.unit units env tools brentq).netSteadyHeatingCapacity none = .ok q' ∧ q' < 10000) ∧
    ∃ B eer q, build units env tools brentq twoArgs = .ok B ∧ inputEer twoArgs = some 12 ∧ B.eer units env tools brentq = .ok eer ∧ eer < 12 ∧
      (B.unit units env tools brentq).netTotalCoolingCapacity none = .ok q ∧ q < 10000 := by
  obtain ⟨brentq, hbr⟩ := brentqSpec_satisfiable
  have hk : 0 < 400 * units.cfm / units.ton := by have := units.cfm_pos; have := units.ton_pos; positivity
  refine ⟨brentq, hbr, ?_, ?_⟩
  · obtain ⟨B, net, h, hB⟩ := var_made hbr
    obtain ⟨a1, a2⟩ := var_airflows (brentq := brentq) hB
    obtain ⟨e, e', q', h1, h2, h3, h4, -, h6, -⟩ := C89_cooling_bpm h rfl rfl hbr hB.motor rfl a1 (outdoorAir _) (q := 10000) rfl (by norm_num)
    obtain ⟨p, p', g1, g2, g3, -⟩ := C89_heating_bpm h rfl rfl hbr hB.motor rfl a2 (outdoorAir _)
    rw [hB.staging] at g1
    cases h1; cases g1
    exact ⟨B, e', q', p', h, rfl, h2, h4.2 (mul_lt_mul_of_pos_right (by norm_num) hk), h3, h6.2 (mul_lt_mul_of_pos_right (by norm_num) hk), g2,
      g3.2 (mul_lt_mul_of_pos_right (by norm_num) hk)⟩
  · obtain ⟨B, net, h, hB⟩ := two_made hbr
    obtain ⟨e, e', q', h1, h2, h3, -, h5, -, h7⟩ := C89_cooling_bpm h rfl rfl hbr hB.motor rfl (two_airflows (brentq := brentq) hB) (outdoorAir _) (q := 10000) rfl (by norm_num)
    cases h1
    exact ⟨B, e', q', h, rfl, h2, h5.2 (mul_lt_mul_of_pos_right (by norm_num) hk), h3, h7.2 (mul_lt_mul_of_pos_right (by norm_num) hk)⟩

end Resdx.Sample
