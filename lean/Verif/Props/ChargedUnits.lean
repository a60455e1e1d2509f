import Verif.Lemmas.ResnetCoil
import Verif.Props.Airflow
import Verif.Props.FanShift
import Verif.Lemmas.IdfResnet
import Verif.Props.ResnetReturns

/-!
# C131: constructed RESNET units with a refrigerant charge fault

C88, C96 and C97 relate the tests of a nominal unit to its tables. Here the charge is any within half of the nominal charge.
-/

set_option linter.unusedSectionVars false
set_option linter.unusedSimpArgs false

namespace Resdx.Build

open Spec Tabular BaseModel Props ResnetFan Fan Table DX

variable {u : Units ℝ} {E : Env ℝ} {T : Coil.Tools} {brentq : Brentq} {a : Args} {B : Built}

/-- Whether conditions can be made does not depend on the outdoor air. -/
theorem makeCondition_default {S : Sys ℝ} {heating : Bool} {i : Nat} {n : Option (Psych.PsychState ℝ)} {o : Psych.PsychState ℝ} {c : Conditions ℝ} (h : S.makeCondition E heating i n (some o) = .ok c) :
    ∃ c', S.makeCondition E heating i n = .ok c' := by
  simp only [Sys.makeCondition, bind_eq_ok, pure_eq_ok, Except.ok.injEq] at h ⊢
  obtain ⟨_, h1, _, h2, _, h3, _, h4, _, h5, _, h6, _, h7, _, h8, _, h9, _, h10, -⟩ := h
  exact ⟨_, _, h1, _, h2, _, h3, _, h4, _, h5, _, h6, _, h7, _, h8, _, h9, _, h10, rfl⟩

theorem airScale_cool {d : ℝ} (h1 : -(1 / 2) ≤ d) (h2 : d ≤ 1 / 2) : 0.9 ≤ airScale false d ∧ airScale false d ≤ 1.9 := by
  have e : ∀ x : ℝ, toC (frF x) = (x - 32) * (5 / 9) := by intro x; simp only [toC, frF]; ring
  simp only [airScale, faultFactor, faultCoefficients, faultCurve, Bool.false_eq_true, if_false, e]
  rcases lt_or_ge d 0 with h | h
  · simp only [not_le.2 h, decide_false]
    constructor
    · rw [le_div_iff₀ (by nlinarith)]; nlinarith
    · rw [div_le_iff₀ (by nlinarith)]; nlinarith
  · simp only [h, decide_true]
    constructor
    · rw [le_div_iff₀ (by nlinarith)]; nlinarith
    · rw [div_le_iff₀ (by nlinarith)]; nlinarith

theorem airScale_heat {d : ℝ} (h1 : -(1 / 2) ≤ d) (h2 : d ≤ 1 / 2) : 0.9 ≤ airScale true d ∧ airScale true d ≤ 3.7 := by
  have e : ∀ x : ℝ, toC (frF x) = (x - 32) * (5 / 9) := by intro x; simp only [toC, frF]; ring
  simp only [airScale, faultFactor, faultCoefficients, faultCurve, if_true, e]
  rcases lt_or_ge d 0 with h | h
  · simp only [not_le.2 h, decide_false]
    constructor
    · rw [le_div_iff₀ (by nlinarith)]; nlinarith
    · rw [div_le_iff₀ (by nlinarith)]; nlinarith
  · simp only [h, decide_true]
    constructor
    · rw [le_div_iff₀ (by nlinarith)]; nlinarith
    · rw [div_le_iff₀ (by nlinarith)]; nlinarith

/-- The charge factor exists where the model's function does at the rating conditions of the mode, at the rated and at the rescaled airflow, and is not zero there. -/
theorem grading_exists {S : Sys ℝ} {R : Nrel.Raw ℝ} {ft : Nrel.FunctionType} {c rated : Conditions ℝ} (hd : S.chargeDeviation ≠ 0) (hr : c.flow.ratio = some 1)
    (hc : S.makeCondition E c.heating c.flow.compressorSpeed = .ok rated) (hs : airScale c.heating S.chargeDeviation ≠ 0)
    (hR : ∀ c', c'.indoor = rated.indoor → c'.outdoor = rated.outdoor → c'.flow.compressorSpeed = c.flow.compressorSpeed →
      (c'.flow.ratio = some 1 ∨ c'.flow.ratio = some (airScale c.heating S.chargeDeviation)) → ∃ y, R.pick c.heating ft c' = .ok y ∧ y ≠ 0) :
    ∃ v, Nrel.gradingModel E S R ft c = .ok v := by
  have hf : faultFactor c.heating (decide (Nrel.FunctionType.capacity = Nrel.FunctionType.power)) rated.indoor.dbC rated.outdoor.dbC S.chargeDeviation ≠ 0 ∧
      1 / faultFactor c.heating (decide (Nrel.FunctionType.capacity = Nrel.FunctionType.power)) rated.indoor.dbC rated.outdoor.dbC S.chargeDeviation = airScale c.heating S.chargeDeviation := by
    obtain ⟨rho, pr, x, cap, fs, h1, h2, h3, h4, _, _, _, _, _, rfl⟩ := Sys.makeCondition_spec E S _ _ _ _ _ hc
    have e : 1 / faultFactor c.heating (decide (Nrel.FunctionType.capacity = Nrel.FunctionType.power)) ((none : Option (Psych.PsychState ℝ)).getD (defaultIndoor E c.heating)).dbC
        ((none : Option (Psych.PsychState ℝ)).getD (defaultOutdoor E c.heating)).dbC S.chargeDeviation = airScale c.heating S.chargeDeviation := by
      cases c.heating <;> rfl
    refine ⟨fun h0 => hs ?_, e⟩
    rw [← e, h0, div_zero]
  obtain ⟨rho, pr, x, cap, fs, h1, h2, h3, h4, h5, h6, h7, h8, h9, e⟩ := Sys.makeCondition_spec E S _ _ _ _ _ hc
  obtain ⟨y0, hy0, n0⟩ := hR rated rfl rfl (by rw [e]; rfl) (.inl (by rw [e]; rfl))
  obtain ⟨c1, w1, -, i1, o1, r1, s1⟩ := withRatio_made hc (airScale c.heating S.chargeDeviation)
  obtain ⟨c2, w2, -, i2, o2, r2, s2⟩ := withRatio_made hc 1
  obtain ⟨y1, hy1, n1⟩ := hR c1 i1 o1 s1 (.inr r1)
  obtain ⟨y2, hy2, n2⟩ := hR c2 i2 o2 s2 (.inl r2)
  simp only [Nrel.gradingModel, if_neg hd, bind_eq_ok, hr, pyAttr, Except.ok.injEq, pdiv_eq_ok, chargeFactor_spec, exists_eq_left', one_mul]
  exact ⟨_, rated, hc, y0, hy0, _, ⟨hf.1, hf.2⟩, c1, w1, y1, hy1, _, ⟨n0, rfl⟩, c1, w1, y1, hy1, _, ⟨n0, rfl⟩, c2, w2, y2, hy2, _, ⟨n0, rfl⟩, _, ⟨div_ne_zero n1 n0, rfl⟩, div_ne_zero n2 n0, rfl⟩

section
variable {st : Staging} {rc rh : Roles} {net : Perf ℝ} {k : Core} {fc fh : ℝ → ℝ} {S : Sys ℝ}

/-- The charge factors in cooling at rated indoor conditions and airflow. -/
theorem grading_cooling (F : CoreFacts u brentq a st rc rh net k fc fh) (hS : sys a k = .ok S) (hd : a.chargeDeviation ≠ 0) (d1 : -(1 / 2) ≤ a.chargeDeviation) (d2 : a.chargeDeviation ≤ 1 / 2)
    {i : Nat} {σ : ℝ} (hσ : TableSpeed st i σ) {Q : ℝ} (hQ : S.grossCooling[i]? = some (some Q)) (hQ0 : 0 < Q) (h95 : Outdoor E (frF 95)) {o : Psych.PsychState ℝ} {c : Conditions ℝ}
    (hc : S.makeCondition E false i none (some o) = .ok c) (ft : Nrel.FunctionType) :
    Nrel.gradingModel E S (Resnet.raw E S (data k)) ft c = .ok (faultFactor false (decide (ft = .power)) (toC (frF 80)) o.dbC a.chargeDeviation) := by
  obtain ⟨-, -, -, -, -, -, -, -, -, -, -, s12, -⟩ := sys_ok hS
  obtain ⟨rated, hrated⟩ := makeCondition_default hc
  obtain ⟨ro, hro⟩ := h95
  obtain ⟨qc, pc, -, -, hqc, qc0, hpc, pc0, -⟩ := F.pos i σ hσ
  obtain ⟨rho, pr, x, cap, fs, _, _, _, _, _, _, _, _, _, rfl⟩ := Sys.makeCondition_spec E S false _ _ _ _ hc
  obtain ⟨k1, k2⟩ := airScale_cool d1 d2
  have hro' : ∃ r', S.makeCondition E false i none (some ro) = .ok r' := by
    simp only [Sys.makeCondition, bind_eq_ok, pure_eq_ok, Except.ok.injEq] at hc ⊢
    obtain ⟨_, h1, _, h2, _, h3, _, h4, _, h5, _, h6, _, h7, _, h8, _, h9, _, h10, -⟩ := hc
    exact ⟨_, _, h1, _, h2, _, h3, _, h4, _, h5, _, h6, _, h7, _, h8, _, h9, _, h10, rfl⟩
  obtain ⟨r', hr'⟩ := hro'
  obtain ⟨v, hv⟩ := grading_exists (R := Resnet.raw E S (data k)) (ft := ft) (c := ⟨false, defaultIndoor E false, o, ratedFlow rho E.rhoStd i fs pr x cap⟩) (rated := rated) (by rw [s12]; exact hd) rfl
    hrated (by rw [s12]; show airScale false _ ≠ 0; intro h0; rw [h0] at k1; norm_num at k1) (by
      intro c' hi ho hs hr
      obtain ⟨rho', pr', x', cap', fs', _, _, _, _, _, _, _, _, _, rfl⟩ := Sys.makeCondition_spec E S _ _ _ _ _ hrated
      have hwb : (Psych.getWb c'.indoor).1 = .ok (frF (67 : ℝ)) := by rw [hi]; rfl
      have hdb : c'.outdoor.db = frF 95 := by rw [ho]; rfl
      have hcase : ∃ r : ℝ, c'.flow.ratio = some r ∧ 0.9 ≤ r ∧ r ≤ 1.9 := by
        rcases hr with hr | hr
        · exact ⟨1, hr, by norm_num, by norm_num⟩
        · exact ⟨_, hr, by rw [s12]; exact k1, by rw [s12]; exact k2⟩
      obtain ⟨r, hr, r1, r2⟩ := hcase
      have p1 : 0 < coolCapF r := by unfold coolCapF; nlinarith
      have p2 : 0 < coolEirF r := by unfold coolEirF; nlinarith
      obtain ⟨q, p, g1, g2, g3, g4⟩ := gross_cooling_at F hS hσ hQ hQ0 (c := c') (w := frF 67) (r := r) (o := ro) hs hwb hr p1 p2 (by rw [hdb, toF_frF]; norm_num) (by rw [hdb]; exact hro) hr'
      rw [hdb] at g1 g2
      rw [hqc] at g1; cases g1
      rw [hpc] at g2; cases g2
      have t1 : clip 57 72 (toF (frF (67 : ℝ))) = 67 := by rw [toF_frF]; unfold clip; norm_num
      have t2 : max 75 (toF c'.outdoor.db) = (95 : ℝ) := by rw [hdb, toF_frF]; norm_num
      rw [t1, t2] at g3 g4
      obtain ⟨z1, z2⟩ := C74_cooling_positive (67 : ℝ) 95 (by norm_num) (by norm_num) (by norm_num) (by norm_num)
      rw [div_self z1.ne'] at g3 g4
      rw [div_self z2.ne'] at g4
      cases ft
      · exact ⟨_, g3, by positivity⟩
      · exact ⟨_, g4, by positivity⟩)
  refine hv.trans ?_
  have := C42_rated_airflow E S _ _ ft v (by rw [s12]; exact hd) rfl hv
  rw [this, s12]
  rfl

/-- The charge factors in heating at rated indoor conditions and airflow. -/
theorem grading_heating (F : CoreFacts u brentq a st rc rh net k fc fh) (hS : sys a k = .ok S) (hd : a.chargeDeviation ≠ 0) (d1 : -(1 / 2) ≤ a.chargeDeviation) (d2 : a.chargeDeviation ≤ 1 / 2)
    {i : Nat} {σ : ℝ} (hσ : TableSpeed st i σ) {Q : ℝ} (hQ : S.grossHeating[i]? = some (some Q)) (hQ0 : 0 < Q) (h47 : Outdoor E (frF 47)) {o : Psych.PsychState ℝ} {c : Conditions ℝ}
    (hc : S.makeCondition E true i none (some o) = .ok c) (ft : Nrel.FunctionType) :
    Nrel.gradingModel E S (Resnet.raw E S (data k)) ft c = .ok (faultFactor true (decide (ft = .power)) (toC (frF 70)) o.dbC a.chargeDeviation) := by
  obtain ⟨-, -, -, -, -, -, -, -, -, -, -, s12, -⟩ := sys_ok hS
  obtain ⟨rated, hrated⟩ := makeCondition_default hc
  obtain ⟨ro, hro⟩ := h47
  obtain ⟨-, -, qh, ph, -, -, -, -, hqh, qh0, hph, ph0⟩ := F.pos i σ hσ
  obtain ⟨rho, pr, x, cap, fs, _, _, _, _, _, _, _, _, _, rfl⟩ := Sys.makeCondition_spec E S true _ _ _ _ hc
  obtain ⟨k1, k2⟩ := airScale_heat d1 d2
  have hro' : ∃ r', S.makeCondition E true i none (some ro) = .ok r' := by
    simp only [Sys.makeCondition, bind_eq_ok, pure_eq_ok, Except.ok.injEq] at hc ⊢
    obtain ⟨_, h1, _, h2, _, h3, _, h4, _, h5, _, h6, _, h7, _, h8, _, h9, _, h10, -⟩ := hc
    exact ⟨_, _, h1, _, h2, _, h3, _, h4, _, h5, _, h6, _, h7, _, h8, _, h9, _, h10, rfl⟩
  obtain ⟨r', hr'⟩ := hro'
  obtain ⟨v, hv⟩ := grading_exists (R := Resnet.raw E S (data k)) (ft := ft) (c := ⟨true, defaultIndoor E true, o, ratedFlow rho E.rhoStd i fs pr x cap⟩) (rated := rated) (by rw [s12]; exact hd) rfl
    hrated (by rw [s12]; show airScale true _ ≠ 0; intro h0; rw [h0] at k1; norm_num at k1) (by
      intro c' hi ho hs hr
      obtain ⟨rho', pr', x', cap', fs', _, _, _, _, _, _, _, _, _, rfl⟩ := Sys.makeCondition_spec E S _ _ _ _ _ hrated
      have hin : toF c'.indoor.db = (70 : ℝ) := by rw [hi]; simp [defaultIndoor, wetState, Psych.blank, toF_frF]
      have hdb : c'.outdoor.db = frF 47 := by rw [ho]; rfl
      have hcase : ∃ r : ℝ, c'.flow.ratio = some r ∧ 0.9 ≤ r ∧ r ≤ 3.7 := by
        rcases hr with hr | hr
        · exact ⟨1, hr, by norm_num, by norm_num⟩
        · exact ⟨_, hr, by rw [s12]; exact k1, by rw [s12]; exact k2⟩
      obtain ⟨r, hr, r1, r2⟩ := hcase
      have p1 : 0 < heatCapF r := by unfold heatCapF; nlinarith
      have p2 : 0 < heatEirF r := by unfold heatEirF; nlinarith [sq_nonneg (r - 1.28)]
      obtain ⟨q, p, g1, g2, g3, g4⟩ := gross_heating_at F hS hσ hQ hQ0.ne' (c := c') (r := r) (o := ro) hs hr (by rw [hdb]; exact hro) hr'
      rw [hdb] at g1 g2
      rw [hqh] at g1; cases g1
      rw [hph] at g2; cases g2
      rw [hin, div_self (heatCapT_pos _).ne'] at g3 g4
      rw [div_self (heatEirT_pos _).ne'] at g4
      cases ft
      · exact ⟨_, g3, by positivity⟩
      · exact ⟨_, g4, by positivity⟩)
  refine hv.trans ?_
  have := C42_rated_airflow E S _ _ ft v (by rw [s12]; exact hd) rfl hv
  rw [this, s12]
  rfl
end

/-- A factor is 1 at the nominal charge. -/
theorem faultFactor_zero (heating power : Bool) (ti to_ : ℝ) : faultFactor heating power ti to_ 0 = 1 := by
  simp [faultFactor, faultCurve]

/-- C131, gross cooling at rated indoor conditions and airflow: the gross tables times the published factors, at every speed with a positive rated gross capacity (at the whole table speeds it
always is). -/
theorem C131_gross_cooling (h : build u E T brentq a = .ok B) (ht : ∀ d, a.tables = some d → RatedTables (tableSpeeds B.core.st) d) (d1 : -(1 / 2) ≤ a.chargeDeviation) (d2 : a.chargeDeviation ≤ 1 / 2)
    (h95 : Outdoor E (frF 95)) {i : Nat} {σ : ℝ} (hσ : TableSpeed B.core.st i σ) {Q : ℝ} (hQ : B.sys.grossCooling[i]? = some (some Q)) (hQ0 : 0 < Q) {o : Psych.PsychState ℝ} (ho : toF o.db ≤ 125)
    (hr : Outdoor E o.db) {c : Conditions ℝ} (hc : B.sys.makeCondition E false i none (some o) = .ok c) :
    ∃ g p, B.core.gross.coolingCapacity σ o.db = .ok g ∧ B.core.gross.coolingPower σ o.db = .ok p ∧
      (B.unit u E T brentq).grossTotalCoolingCapacity (some c) = (if g * faultFactor false false (toC (frF 80)) o.dbC a.chargeDeviation < 0 then .error .exception
        else .ok (g * faultFactor false false (toC (frF 80)) o.dbC a.chargeDeviation)) ∧
      (B.unit u E T brentq).grossCoolingPower (some c) = (if p * faultFactor false true (toC (frF 80)) o.dbC a.chargeDeviation < 0 then .error .exception
        else .ok (p * faultFactor false true (toC (frF 80)) o.dbC a.chargeDeviation)) := by
  obtain ⟨fc, fh, F⟩ := built_facts h ht
  obtain ⟨_, _, _, _, _, _, -, -, -, -, -, -, -, -, hS, -⟩ := build_ok h
  obtain ⟨q, -, hq'⟩ := F.gross.coolCap σ o.db
  obtain ⟨p, -, hp'⟩ := F.gross.coolPow σ o.db
  obtain ⟨r, hr⟩ := hr
  obtain ⟨g1, g2⟩ := gross_cooling F hS hσ hQ hQ0 ho hr hc
  replace g1 := g1.trans hq'
  replace g2 := g2.trans hp'
  refine ⟨_, _, hq', hp', ?_⟩
  by_cases hd : a.chargeDeviation = 0
  · obtain ⟨-, -, -, -, -, -, -, -, -, -, -, s12, -⟩ := sys_ok hS
    rw [hd] at s12
    rw [hd, faultFactor_zero, faultFactor_zero, mul_one, mul_one]
    simp only [Built.unit, DX.Performance.grossTotalCoolingCapacity, DX.Performance.grossCoolingPower, performance, Resnet.unit, Option.getD_some, g1, g2, Nrel.gradingModel, s12, if_true, bind_ok,
      mul_one, limitCheck_zero, and_self]
  · have c1 := grading_cooling F hS hd d1 d2 hσ hQ hQ0 h95 hc .capacity
    have c2 := grading_cooling F hS hd d1 d2 hσ hQ hQ0 h95 hc .power
    simp only [Built.unit, DX.Performance.grossTotalCoolingCapacity, DX.Performance.grossCoolingPower, performance, Resnet.unit, Option.getD_some, g1, g2, c1, c2, bind_ok, limitCheck_zero,
      reduceCtorEq, decide_false, decide_true, and_self]

/-- C131, gross steady-state heating at rated indoor conditions and airflow. -/
theorem C131_gross_heating (h : build u E T brentq a = .ok B) (ht : ∀ d, a.tables = some d → RatedTables (tableSpeeds B.core.st) d) (d1 : -(1 / 2) ≤ a.chargeDeviation) (d2 : a.chargeDeviation ≤ 1 / 2)
    (h47 : Outdoor E (frF 47)) {i : Nat} {σ : ℝ} (hσ : TableSpeed B.core.st i σ) {Q : ℝ} (hQ : B.sys.grossHeating[i]? = some (some Q)) (hQ0 : 0 < Q) {o : Psych.PsychState ℝ}
    (hr : Outdoor E o.db) {c : Conditions ℝ} (hc : B.sys.makeCondition E true i none (some o) = .ok c) :
    ∃ g p, B.core.gross.heatingCapacity σ o.db = .ok g ∧ B.core.gross.heatingPower σ o.db = .ok p ∧
      (B.unit u E T brentq).grossSteadyHeatingCapacity (some c) = .ok (g * faultFactor true false (toC (frF 70)) o.dbC a.chargeDeviation) ∧
      (B.unit u E T brentq).grossSteadyHeatingPower (some c) = .ok (p * faultFactor true true (toC (frF 70)) o.dbC a.chargeDeviation) := by
  obtain ⟨fc, fh, F⟩ := built_facts h ht
  obtain ⟨_, _, _, _, _, _, -, -, -, -, -, -, -, -, hS, -⟩ := build_ok h
  obtain ⟨q, -, hq'⟩ := F.gross.heatCap σ o.db
  obtain ⟨p, -, hp'⟩ := F.gross.heatPow σ o.db
  obtain ⟨r, hr⟩ := hr
  obtain ⟨g1, g2⟩ := gross_heating F hS hσ hQ hQ0.ne' hr hc
  replace g1 := g1.trans hq'
  replace g2 := g2.trans hp'
  refine ⟨_, _, hq', hp', ?_⟩
  by_cases hd : a.chargeDeviation = 0
  · obtain ⟨-, -, -, -, -, -, -, -, -, -, -, s12, -⟩ := sys_ok hS
    rw [hd] at s12
    rw [hd, faultFactor_zero, faultFactor_zero, mul_one, mul_one]
    simp only [Built.unit, DX.Performance.grossSteadyHeatingCapacity, DX.Performance.grossSteadyHeatingPower, performance, Resnet.unit, Option.getD_some, g1, g2, Nrel.gradingModel, s12, if_true,
      bind_ok, mul_one, pure_eq_ok, and_self]
  · have c1 := grading_heating F hS hd d1 d2 hσ hQ hQ0 h47 hc .capacity
    have c2 := grading_heating F hS hd d1 d2 hσ hQ hQ0 h47 hc .power
    simp only [Built.unit, DX.Performance.grossSteadyHeatingCapacity, DX.Performance.grossSteadyHeatingPower, performance, Resnet.unit, Option.getD_some, g1, g2, c1, c2, bind_ok, pure_eq_ok,
      reduceCtorEq, decide_false, decide_true, and_self]

/-- C131, cooling at rated indoor conditions and airflow: the tables without the rated fan power, times the published factors, with the fan power `v` of the condition. -/
theorem C131_cooling (h : build u E T brentq a = .ok B) (ht : ∀ d, a.tables = some d → RatedTables (tableSpeeds B.core.st) d) (d1 : -(1 / 2) ≤ a.chargeDeviation) (d2 : a.chargeDeviation ≤ 1 / 2)
    (h95 : Outdoor E (frF 95)) {i : Nat} {σ : ℝ} (hσ : TableSpeed B.core.st i σ) (h32 : σ ≠ 3 / 2) {o : Psych.PsychState ℝ} (ho : toF o.db ≤ 125) (hr : Outdoor E o.db)
    {c : Conditions ℝ} (hc : B.sys.makeCondition E false i none (some o) = .ok c) {v : ℝ} (hv : (B.unit u E T brentq).fanPower c = .ok v) :
    ∃ q p w, B.core.net.coolingCapacity σ o.db = .ok q ∧ B.core.net.coolingPower σ o.db = .ok p ∧ B.core.cool.power[i]? = some (some w) ∧
      (B.unit u E T brentq).netTotalCoolingCapacity (some c) = (if (q + w) * faultFactor false false (toC (frF 80)) o.dbC a.chargeDeviation < 0 then .error .exception
        else .ok ((q + w) * faultFactor false false (toC (frF 80)) o.dbC a.chargeDeviation - v)) ∧
      (B.unit u E T brentq).netCoolingPower (some c) = (if (p - w) * faultFactor false true (toC (frF 80)) o.dbC a.chargeDeviation < 0 then .error .exception
        else .ok ((p - w) * faultFactor false true (toC (frF 80)) o.dbC a.chargeDeviation + v)) := by
  by_cases hd : a.chargeDeviation = 0
  · obtain ⟨q, p, w, e1, e2, e3, e4, e5⟩ := C88_cooling_any h ht hd hσ h32 ho hr hc hv
    refine ⟨q, p, w, e1, e2, e3, ?_, ?_⟩
    · rw [e4, hd, faultFactor_zero, mul_one, show q + w - v = q - (v - w) by ring]
    · rw [e5, hd, faultFactor_zero, mul_one, show p - w + v = p + (v - w) by ring]
  obtain ⟨fc, fh, F⟩ := built_facts h ht
  obtain ⟨_, _, _, _, _, _, -, -, -, -, -, -, -, -, hS, -⟩ := build_ok h
  obtain ⟨q, hq, hq'⟩ := F.gross.coolCap σ o.db
  obtain ⟨p, hp, hp'⟩ := F.gross.coolPow σ o.db
  obtain ⟨Q, hQ, hQ0⟩ := rated_cooling F hS hσ h32
  obtain ⟨r, hr⟩ := hr
  obtain ⟨g1, g2⟩ := gross_cooling F hS hσ hQ hQ0 ho hr hc
  have c1 := grading_cooling F hS hd d1 d2 hσ hQ hQ0 h95 hc .capacity
  have c2 := grading_cooling F hS hd d1 d2 hσ hQ hQ0 h95 hc .power
  obtain ⟨ac, ah, -, -, -, A4, M, -⟩ := F.fan
  obtain ⟨_, _, _, w, -, -, -, -, -, hw⟩ := M.rated i (by rw [F.coolCaps.1]; exact tableSpeed_lt hσ)
  have hf := F.coolFan i σ w hσ h32 hw
  rw [hf] at hq' hp'
  replace g1 := g1.trans hq'
  replace g2 := g2.trans hp'
  have hv' : fanPower u brentq B.core c = .ok v := hv
  refine ⟨q, p, w, hq, hp, hw, ?_, ?_⟩
  · simp only [Built.unit, DX.Performance.netTotalCoolingCapacity, DX.Performance.grossTotalCoolingCapacity, DX.Performance.coolingFanHeat, DX.Performance.coolingFanPower, performance, Resnet.unit,
      Option.getD_some, g1, c1, bind_ok, limitCheck_zero, hv', pure_eq_ok, reduceCtorEq, decide_false]
    split <;> simp [bind_ok, bind_error]
  · simp only [Built.unit, DX.Performance.netCoolingPower, DX.Performance.grossCoolingPower, DX.Performance.coolingFanPower, performance, Resnet.unit,
      Option.getD_some, g2, c2, bind_ok, limitCheck_zero, hv', pure_eq_ok, decide_true]
    split <;> simp [bind_ok, bind_error]

/-- C131, steady-state heating at rated indoor conditions and airflow. -/
theorem C131_heating (h : build u E T brentq a = .ok B) (ht : ∀ d, a.tables = some d → RatedTables (tableSpeeds B.core.st) d) (d1 : -(1 / 2) ≤ a.chargeDeviation) (d2 : a.chargeDeviation ≤ 1 / 2)
    (h47 : Outdoor E (frF 47)) {i : Nat} {σ : ℝ} (hσ : TableSpeed B.core.st i σ) (h32 : σ ≠ 3 / 2) {o : Psych.PsychState ℝ} (hr : Outdoor E o.db)
    {c : Conditions ℝ} (hc : B.sys.makeCondition E true i none (some o) = .ok c) {v : ℝ} (hv : (B.unit u E T brentq).fanPower c = .ok v) :
    ∃ q p w, B.core.net.heatingCapacity σ o.db = .ok q ∧ B.core.net.heatingPower σ o.db = .ok p ∧ B.core.heat.power[i]? = some (some w) ∧
      (B.unit u E T brentq).netSteadyHeatingCapacity (some c) = .ok ((q - w) * faultFactor true false (toC (frF 70)) o.dbC a.chargeDeviation + v) ∧
      (B.unit u E T brentq).netSteadyHeatingPower (some c) = .ok ((p - w) * faultFactor true true (toC (frF 70)) o.dbC a.chargeDeviation + v) := by
  by_cases hd : a.chargeDeviation = 0
  · obtain ⟨q, p, w, e1, e2, e3, e4, e5, -⟩ := C96_integrated_any h ht hd hσ h32 hr hc hv
    refine ⟨q, p, w, e1, e2, e3, ?_, ?_⟩
    · rw [e4, hd, faultFactor_zero, mul_one, show q - w + v = q + (v - w) by ring]
    · rw [e5, hd, faultFactor_zero, mul_one, show p - w + v = p + (v - w) by ring]
  obtain ⟨fc, fh, F⟩ := built_facts h ht
  obtain ⟨_, _, _, _, _, _, -, -, -, -, -, -, -, -, hS, -⟩ := build_ok h
  obtain ⟨q, hq, hq'⟩ := F.gross.heatCap σ o.db
  obtain ⟨p, hp, hp'⟩ := F.gross.heatPow σ o.db
  obtain ⟨Q, hQ, hQ0⟩ := rated_heating F hS hσ h32
  obtain ⟨r, hr⟩ := hr
  obtain ⟨g1, g2⟩ := gross_heating F hS hσ hQ hQ0.ne' hr hc
  have c1 := grading_heating F hS hd d1 d2 hσ hQ hQ0 h47 hc .capacity
  have c2 := grading_heating F hS hd d1 d2 hσ hQ hQ0 h47 hc .power
  obtain ⟨ac, ah, -, -, -, A4, -, M⟩ := F.fan
  obtain ⟨_, _, _, w, -, -, -, -, -, hw⟩ := M.rated i (by rw [F.heatCaps.1]; exact tableSpeed_lt hσ)
  have hf := F.heatFan i σ w hσ h32 hw
  rw [hf] at hq' hp'
  replace g1 := g1.trans hq'
  replace g2 := g2.trans hp'
  have hv' : fanPower u brentq B.core c = .ok v := hv
  refine ⟨q, p, w, hq, hp, hw, ?_, ?_⟩
  · simp only [Built.unit, DX.Performance.netSteadyHeatingCapacity, DX.Performance.grossSteadyHeatingCapacity, DX.Performance.heatingFanPower, performance, Resnet.unit,
      Option.getD_some, g1, c1, bind_ok, hv', pure_eq_ok, reduceCtorEq, decide_false]
  · simp only [Built.unit, DX.Performance.netSteadyHeatingPower, DX.Performance.grossSteadyHeatingPower, DX.Performance.heatingFanPower, performance, Resnet.unit,
      Option.getD_some, g2, c2, bind_ok, hv', pure_eq_ok, decide_true]

/-- C131, the intermediate speed of a variable-speed unit, cooling: the fan power in its tables is the mean of the rated fan powers of the full and the low speed. -/
theorem C131_cooling_intermediate (h : build u E T brentq a = .ok B) (ht : ∀ d, a.tables = some d → RatedTables (tableSpeeds B.core.st) d) (d1 : -(1 / 2) ≤ a.chargeDeviation)
    (d2 : a.chargeDeviation ≤ 1 / 2) (h95 : Outdoor E (frF 95)) (hst : B.core.st = .varSpeed) {Q : ℝ} (hQ : B.sys.grossCooling[2]? = some (some Q)) (hQ0 : 0 < Q) {o : Psych.PsychState ℝ}
    (ho : toF o.db ≤ 125) (hr : Outdoor E o.db) {c : Conditions ℝ} (hc : B.sys.makeCondition E false 2 none (some o) = .ok c) {v : ℝ} (hv : (B.unit u E T brentq).fanPower c = .ok v) :
    ∃ q p w1 w3, B.core.net.coolingCapacity (3 / 2) o.db = .ok q ∧ B.core.net.coolingPower (3 / 2) o.db = .ok p ∧ B.core.cool.power[1]? = some (some w1) ∧ B.core.cool.power[3]? = some (some w3) ∧
      (B.unit u E T brentq).netTotalCoolingCapacity (some c) = (if (q + (w1 + w3) / 2) * faultFactor false false (toC (frF 80)) o.dbC a.chargeDeviation < 0 then .error .exception
        else .ok ((q + (w1 + w3) / 2) * faultFactor false false (toC (frF 80)) o.dbC a.chargeDeviation - v)) ∧
      (B.unit u E T brentq).netCoolingPower (some c) = (if (p - (w1 + w3) / 2) * faultFactor false true (toC (frF 80)) o.dbC a.chargeDeviation < 0 then .error .exception
        else .ok ((p - (w1 + w3) / 2) * faultFactor false true (toC (frF 80)) o.dbC a.chargeDeviation + v)) := by
  have hσ : TableSpeed B.core.st 2 (3 / 2) := by rw [hst]; exact .inr (.inr (.inl ⟨rfl, rfl⟩))
  obtain ⟨g, p', e1, e2, e3, e4⟩ := C131_gross_cooling h ht d1 d2 h95 hσ hQ hQ0 ho hr hc
  obtain ⟨fc, fh, F⟩ := built_facts h ht
  rw [hst] at F
  have hσ1 : TableSpeed .varSpeed 1 2 := .inr (.inl ⟨rfl, rfl⟩)
  have hσ3 : TableSpeed .varSpeed 3 1 := .inr (.inr (.inr ⟨rfl, rfl⟩))
  obtain ⟨q, hq, hq'⟩ := F.gross.coolCap (3 / 2) o.db
  obtain ⟨p, hp, hp'⟩ := F.gross.coolPow (3 / 2) o.db
  obtain ⟨ac, ah, -, -, -, A4, M, -⟩ := F.fan
  obtain ⟨_, _, _, w1, -, -, -, -, -, hw1⟩ := M.rated 1 (by rw [F.coolCaps.1]; exact tableSpeed_lt hσ1)
  obtain ⟨_, _, _, w3, -, -, -, -, -, hw3⟩ := M.rated 3 (by rw [F.coolCaps.1]; exact tableSpeed_lt hσ3)
  have f1 := F.coolFan 1 2 w1 hσ1 (by norm_num) hw1
  have f3 := F.coolFan 3 1 w3 hσ3 (by norm_num) hw3
  have hf : fc (3 / 2) = (w1 + w3) / 2 := by rw [(F.half rfl).1, f1, f3]; ring
  rw [hf] at hq' hp'
  obtain rfl := Except.ok.inj (e1.symm.trans hq')
  obtain rfl := Except.ok.inj (e2.symm.trans hp')
  refine ⟨q, p, w1, w3, hq, hp, hw1, hw3, ?_, ?_⟩
  · simp only [DX.Performance.netTotalCoolingCapacity, DX.Performance.coolingFanHeat, DX.Performance.coolingFanPower, Option.getD_some, e3, hv]
    split <;> simp [bind_ok, bind_error, pure_eq_ok]
  · simp only [DX.Performance.netCoolingPower, DX.Performance.coolingFanPower, Option.getD_some, e4, hv]
    split <;> simp [bind_ok, bind_error, pure_eq_ok]

/-- C131, the intermediate speed of a variable-speed unit, heating. -/
theorem C131_heating_intermediate (h : build u E T brentq a = .ok B) (ht : ∀ d, a.tables = some d → RatedTables (tableSpeeds B.core.st) d) (d1 : -(1 / 2) ≤ a.chargeDeviation)
    (d2 : a.chargeDeviation ≤ 1 / 2) (h47 : Outdoor E (frF 47)) (hst : B.core.st = .varSpeed) {Q : ℝ} (hQ : B.sys.grossHeating[2]? = some (some Q)) (hQ0 : 0 < Q) {o : Psych.PsychState ℝ}
    (hr : Outdoor E o.db) {c : Conditions ℝ} (hc : B.sys.makeCondition E true 2 none (some o) = .ok c) {v : ℝ} (hv : (B.unit u E T brentq).fanPower c = .ok v) :
    ∃ q p w1 w3, B.core.net.heatingCapacity (3 / 2) o.db = .ok q ∧ B.core.net.heatingPower (3 / 2) o.db = .ok p ∧ B.core.heat.power[1]? = some (some w1) ∧ B.core.heat.power[3]? = some (some w3) ∧
      (B.unit u E T brentq).netSteadyHeatingCapacity (some c) = .ok ((q - (w1 + w3) / 2) * faultFactor true false (toC (frF 70)) o.dbC a.chargeDeviation + v) ∧
      (B.unit u E T brentq).netSteadyHeatingPower (some c) = .ok ((p - (w1 + w3) / 2) * faultFactor true true (toC (frF 70)) o.dbC a.chargeDeviation + v) := by
  have hσ : TableSpeed B.core.st 2 (3 / 2) := by rw [hst]; exact .inr (.inr (.inl ⟨rfl, rfl⟩))
  obtain ⟨g, p', e1, e2, e3, e4⟩ := C131_gross_heating h ht d1 d2 h47 hσ hQ hQ0 hr hc
  obtain ⟨fc, fh, F⟩ := built_facts h ht
  rw [hst] at F
  have hσ1 : TableSpeed .varSpeed 1 2 := .inr (.inl ⟨rfl, rfl⟩)
  have hσ3 : TableSpeed .varSpeed 3 1 := .inr (.inr (.inr ⟨rfl, rfl⟩))
  obtain ⟨q, hq, hq'⟩ := F.gross.heatCap (3 / 2) o.db
  obtain ⟨p, hp, hp'⟩ := F.gross.heatPow (3 / 2) o.db
  obtain ⟨ac, ah, -, -, -, A4, -, M⟩ := F.fan
  obtain ⟨_, _, _, w1, -, -, -, -, -, hw1⟩ := M.rated 1 (by rw [F.heatCaps.1]; exact tableSpeed_lt hσ1)
  obtain ⟨_, _, _, w3, -, -, -, -, -, hw3⟩ := M.rated 3 (by rw [F.heatCaps.1]; exact tableSpeed_lt hσ3)
  have f1 := F.heatFan 1 2 w1 hσ1 (by norm_num) hw1
  have f3 := F.heatFan 3 1 w3 hσ3 (by norm_num) hw3
  have hf : fh (3 / 2) = (w1 + w3) / 2 := by rw [(F.half rfl).2, f1, f3]; ring
  rw [hf] at hq' hp'
  obtain rfl := Except.ok.inj (e1.symm.trans hq')
  obtain rfl := Except.ok.inj (e2.symm.trans hp')
  refine ⟨q, p, w1, w3, hq, hp, hw1, hw3, ?_, ?_⟩
  · simp [DX.Performance.netSteadyHeatingCapacity, DX.Performance.heatingFanPower, Option.getD_some, e3, hv, bind_ok, pure_eq_ok]
  · simp [DX.Performance.netSteadyHeatingPower, DX.Performance.heatingFanPower, Option.getD_some, e4, hv, bind_ok, pure_eq_ok]

/-- The charge changes nothing else in a constructed unit: not its tables, its fan, its capacities, its airflows or its rating conditions. -/
theorem C131_same {B0 : Built} {d : ℝ} (h0 : build u E T brentq a = .ok B0) (h : build u E T brentq { a with chargeDeviation := d } = .ok B) :
    B.core = B0.core ∧ B.sys = charged B0.sys d ∧ B.points = B0.points ∧ B.cdCooling = B0.cdCooling ∧ B.cycling = B0.cycling := by
  unfold build at h h0
  simp only [bind_eq_ok] at h h0
  obtain ⟨st0, h1, st, h2, q47, h3, net, h4, k, h5, S, h6, cr, h7, P, h8, coil, h9, h10⟩ := h0
  obtain ⟨st0', g1, st', g2, q47', g3, net', g4, k', g5, S', g6, cr', g7, P', g8, coil', g9, g10⟩ := h
  cases Except.ok.inj (h1.symm.trans g1)
  cases Except.ok.inj (h2.symm.trans g2)
  cases Except.ok.inj (h3.symm.trans g3)
  cases Except.ok.inj (h4.symm.trans g4)
  cases Except.ok.inj (h5.symm.trans g5)
  have e : S' = charged S d := by
    simp only [sys, bind_eq_ok, pure_eq_ok, Except.ok.injEq] at h6 g6
    obtain ⟨gc, f1, gh, f2, rfl⟩ := h6
    obtain ⟨gc', f3, gh', f4, rfl⟩ := g6
    cases Except.ok.inj (f1.symm.trans f3)
    cases Except.ok.inj (f2.symm.trans f4)
    rfl
  subst e
  cases Except.ok.inj (h8.symm.trans g8)
  split at h10
  · cases h10
  split at h10
  · cases h10
  split at g10
  · cases g10
  simp only [bind_eq_ok, pure_eq_ok, Except.ok.injEq] at h10 g10
  obtain ⟨_, -, rfl⟩ := h10
  obtain ⟨_, -, rfl⟩ := g10
  exact ⟨rfl, rfl, rfl, rfl, rfl⟩

/-- The constructed units by charge, leaving the sensible capacity aside. -/
theorem built_byCharge (B0 : Built) : ByCharge E (fanPower u brentq B0.core) fun d =>
    Resnet.unit E (charged B0.sys d) (data B0.core) (fun _ => .error .attribute) (fanPower u brentq B0.core) B0.points.aFull B0.points.h1Full :=
  .resnet ..

/-- C131: too little charge never raises the EER2 of a constructed unit, nor the SEER2 of a single-stage one. -/
theorem C131_undercharged {B0 : Built} {d : ℝ} (h0 : build u E T brentq { a with chargeDeviation := 0 } = .ok B0) (h : build u E T brentq { a with chargeDeviation := d } = .ok B) (hd : d < 0)
    (hfan : ∀ v, (B0.unit u E T brentq).fanPower B0.points.aFull = .ok v → 0 ≤ v) :
    (∀ e e0, B.eer u E T brentq = .ok e → B0.eer u E T brentq = .ok e0 → 0 ≤ e0 → e ≤ e0) ∧
      (B0.core.st = .single → B0.cdCooling ≤ 2 → ∀ s s0, B.seer u E T brentq = .ok s → B0.seer u E T brentq = .ok s0 →
        (∀ x, (B0.unit u E T brentq).netTotalCoolingCOP (some B0.points.bFull) = .ok x → 0 ≤ x) → s ≤ s0) := by
  have hz : charged B0.sys 0 = B0.sys := by
    obtain ⟨_, _, _, _, _, _, -, -, -, -, -, -, -, -, hS, -⟩ := build_ok h0
    obtain ⟨-, -, -, -, -, -, -, -, -, -, -, s12, -⟩ := sys_ok hS
    have s12' : B0.sys.chargeDeviation = 0 := s12
    unfold charged
    rw [← s12']
  obtain ⟨e1, e2, e3, e4, e5⟩ := C131_same (a := { a with chargeDeviation := 0 }) (d := d) h0 h
  obtain ⟨st0, q47, nC, nH, b2, b3, b4, b6, b7, b8, b9, b10⟩ := build_steps h0
  obtain ⟨p1, p2, -⟩ := full_points b10
  have hf : ∀ v, fanPower u brentq B0.core B0.points.bFull = .ok v → 0 ≤ v := fun v hv => hfan v ((fanPower_same p2 p1).symm.trans hv)
  obtain ⟨rho, pr, x, cap, fs, _, _, _, _, _, _, _, _, _, f1⟩ := Sys.makeCondition_spec E _ false _ _ _ _ p1
  obtain ⟨rho', pr', x', cap', fs', _, _, _, _, _, _, _, _, _, f2⟩ := Sys.makeCondition_spec E _ false _ _ _ _ p2
  have t1 : ∀ x : ℝ, toC (frF x) = (x - 32) * (5 / 9) := by intro x; simp only [toC, frF]; ring
  constructor
  · intro e e0 he he0 hp
    have := (C129_ratings (built_byCharge (E := E) (u := u) (brentq := brentq) B0) (c := B0.points.aFull) (by rw [f1]; rfl) u { B0.points with bFull := B0.points.aFull } (cd := 0) (by norm_num)
      B0.cycling [] (by rw [f1]) rfl (by rw [f1]; show 22 ≤ toC (frF 80); rw [t1]; norm_num) (by rw [f1]; show toC (frF 95) ≤ 50; rw [t1]; norm_num) hfan hd).1 e e0
    refine this ?_ ?_ hp
    · rw [← he]; unfold Built.eer Built.unit; rw [e1, e2, e3]; rfl
    · rw [← he0]; unfold Built.eer Built.unit; rw [hz]; rfl
  · intro hst hcd s s0 hs hs0 hp
    have := (C129_ratings (built_byCharge (E := E) (u := u) (brentq := brentq) B0) (c := B0.points.bFull) (by rw [f2]; rfl) u B0.points (cd := B0.cdCooling) hcd
      B0.cycling DX.coolingBins (by rw [f2]) rfl (by rw [f2]; show 22 ≤ toC (frF 80); rw [t1]; norm_num) (by rw [f2]; show toC (frF 82) ≤ 50; rw [t1]; norm_num) hf hd).2 s s0
    refine this ?_ ?_ ?_
    · rw [← hs]; unfold Built.seer Built.unit; rw [e1, e2, e3, e4, e5, hst]; rfl
    · rw [← hs0]; unfold Built.seer Built.unit; rw [hz, hst]; rfl
    · rw [hz]; exact hp

/-- C131, integrated heating: the capacity is that of the steady state with the frost loss, but the power is taken from the tables without the fault factor. -/
theorem C131_integrated (h : build u E T brentq a = .ok B) (ht : ∀ d, a.tables = some d → RatedTables (tableSpeeds B.core.st) d) (d1 : -(1 / 2) ≤ a.chargeDeviation) (d2 : a.chargeDeviation ≤ 1 / 2)
    (h47 : Outdoor E (frF 47)) {i : Nat} {σ : ℝ} (hσ : TableSpeed B.core.st i σ) (h32 : σ ≠ 3 / 2) {o : Psych.PsychState ℝ} (hr : Outdoor E o.db)
    {c : Conditions ℝ} (hc : B.sys.makeCondition E true i none (some o) = .ok c) {v : ℝ} (hv : (B.unit u E T brentq).fanPower c = .ok v) :
    ∃ q p w, B.core.net.heatingCapacity σ o.db = .ok q ∧ B.core.net.heatingPower σ o.db = .ok p ∧ B.core.heat.power[i]? = some (some w) ∧
      (B.unit u E T brentq).netIntegratedHeatingCapacity (some c) =
        .ok (frosted (a.defrost.inDefrost o.db) (1.8 * frostShare (toF o.db)) v ((q - w) * faultFactor true false (toC (frF 70)) o.dbC a.chargeDeviation + v)) ∧
      (B.unit u E T brentq).netIntegratedHeatingPower (some c) = .ok (frosted (a.defrost.inDefrost o.db) (0.3 * frostShare (toF o.db)) v (p - w + v)) := by
  by_cases hd : a.chargeDeviation = 0
  · obtain ⟨q, p, w, e1, e2, e3, -, -, e4, e5⟩ := C96_integrated_any h ht hd hσ h32 hr hc hv
    refine ⟨q, p, w, e1, e2, e3, ?_, ?_⟩
    · rw [e4, hd, faultFactor_zero, mul_one, show q - w + v = q + (v - w) by ring]
    · rw [e5, show p - w + v = p + (v - w) by ring]
  obtain ⟨fc, fh, F⟩ := built_facts h ht
  obtain ⟨_, _, _, _, _, _, -, -, -, -, -, -, -, -, hS, -⟩ := build_ok h
  obtain ⟨q, hq, hq'⟩ := F.gross.heatCap σ o.db
  obtain ⟨p, hp, hp'⟩ := F.gross.heatPow σ o.db
  obtain ⟨Q, hQ, hQ0⟩ := rated_heating F hS hσ h32
  obtain ⟨r, hr⟩ := hr
  obtain ⟨g1, g2⟩ := gross_heating F hS hσ hQ hQ0.ne' hr hc
  have c1 := grading_heating F hS hd d1 d2 hσ hQ hQ0 h47 hc .capacity
  obtain ⟨-, -, -, -, -, -, -, -, -, -, -, -, s13⟩ := sys_ok hS
  obtain ⟨ac, ah, -, -, -, A4, -, M⟩ := F.fan
  obtain ⟨_, _, _, w, -, -, -, -, -, hw⟩ := M.rated i (by rw [F.heatCaps.1]; exact tableSpeed_lt hσ)
  have hf := F.heatFan i σ w hσ h32 hw
  rw [hf] at hq' hp'
  replace g1 := g1.trans hq'
  replace g2 := g2.trans hp'
  have hv' : fanPower u brentq B.core c = .ok v := hv
  have ho : c.outdoor = o := makeCondition_outdoor hc
  have e1 : Resnet.grossIntegratedHeatingCapacity E B.sys (data B.core) c = .ok (if a.defrost.inDefrost o.db then
      (q - w) * faultFactor true false (toC (frF 70)) o.dbC a.chargeDeviation * (1 - 1.8 * frostShare (toF o.db)) else (q - w) * faultFactor true false (toC (frF 70)) o.dbC a.chargeDeviation) := by
    have : Nrel.steadyCapacity E B.sys (Resnet.raw E B.sys (data B.core)) c = .ok ((q - w) * faultFactor true false (toC (frF 70)) o.dbC a.chargeDeviation) := by
      have e : (Resnet.raw E B.sys (data B.core)).heatCap c = .ok (q - w) := g1
      simp only [Nrel.steadyCapacity, e, c1, bind_ok, pure_eq_ok, reduceCtorEq, decide_false]
    simp only [Resnet.grossIntegratedHeatingCapacity, this, bind_ok, pure_eq_ok, frostShare_eq, ho, s13]
    split <;> rfl
  have e2 : Resnet.grossIntegratedHeatingPower E B.sys (data B.core) c = .ok (if a.defrost.inDefrost o.db then (p - w) * (1 - 0.3 * frostShare (toF o.db)) else p - w) := by
    simp only [Resnet.grossIntegratedHeatingPower, g2, bind_ok, pure_eq_ok, frostShare_eq, ho, s13]
    split <;> rfl
  have h1 : (B.unit u E T brentq).intCap c = Resnet.grossIntegratedHeatingCapacity E B.sys (data B.core) c := rfl
  have h2 : (B.unit u E T brentq).intPow c = Resnet.grossIntegratedHeatingPower E B.sys (data B.core) c := rfl
  refine ⟨q, p, w, hq, hp, hw, ?_, ?_⟩
  · simp only [DX.Performance.netIntegratedHeatingCapacity, DX.Performance.grossIntegratedHeatingCapacity, DX.Performance.heatingFanPower, Option.getD_some, h1, hv, e1, bind_ok, pure_eq_ok]
    unfold frosted
    split <;> simp
  · simp only [DX.Performance.netIntegratedHeatingPower, DX.Performance.grossIntegratedHeatingPower, DX.Performance.heatingFanPower, Option.getD_some, h2, hv, e2, bind_ok, pure_eq_ok]
    unfold frosted
    split <;> simp

/-- C131: hence the two powers of an undercharged unit differ even where it does not defrost: at the 47 °F test the integrated power is above the steady-state power at every whole table speed. -/
theorem C131_no_defrost (h : build u E T brentq a = .ok B) (ht : ∀ d, a.tables = some d → RatedTables (tableSpeeds B.core.st) d) (d1 : -(1 / 2) ≤ a.chargeDeviation) (d2 : a.chargeDeviation < 0)
    (h47 : Outdoor E (frF 47)) (hdf : a.defrost.inDefrost (frF 47) = false) {i : Nat} {σ : ℝ} (hσ : TableSpeed B.core.st i σ) (h32 : σ ≠ 3 / 2)
    {c : Conditions ℝ} (hc : B.sys.makeCondition E true i = .ok c) {v : ℝ} (hv : (B.unit u E T brentq).fanPower c = .ok v) :
    ∃ x y, (B.unit u E T brentq).netSteadyHeatingPower (some c) = .ok x ∧ (B.unit u E T brentq).netIntegratedHeatingPower (some c) = .ok y ∧ x < y := by
  have hc' : B.sys.makeCondition E true i none (some (defaultOutdoor E true)) = .ok c := hc
  obtain ⟨q, p, w, -, e2, e3, -, e4⟩ := C131_heating h ht d1 (by linarith) h47 hσ h32 (o := defaultOutdoor E true) h47 hc' hv
  obtain ⟨q', p', w', -, f2, f3, -, f4⟩ := C131_integrated h ht d1 (by linarith) h47 hσ h32 (o := defaultOutdoor E true) h47 hc' hv
  rw [e2] at f2; cases f2
  rw [e3] at f3; cases f3
  have hdf' : a.defrost.inDefrost (defaultOutdoor E true).db = false := hdf
  rw [hdf'] at f4
  refine ⟨_, _, e4, f4, ?_⟩
  obtain ⟨fc, fh, F⟩ := built_facts h ht
  obtain ⟨-, -, -, ph, -, -, -, -, -, -, hph, ph0⟩ := F.pos i σ hσ
  obtain ⟨p1, g1, g2⟩ := F.gross.heatPow σ (frF 47)
  have : p = p1 := Except.ok.inj (e2.symm.trans g1)
  subst this
  rw [F.heatFan i σ w hσ h32 e3] at g2
  have : ph = p - w := Except.ok.inj (hph.symm.trans g2)
  have t1 : (defaultOutdoor E true).dbC = (47 - 32) * (5 / 9 : ℝ) := by show toC (frF 47) = _; simp only [toC, frF]; ring
  have hβ : faultFactor true true (toC (frF 70)) (defaultOutdoor E true).dbC a.chargeDeviation < 1 := by
    rw [t1]
    simp only [faultFactor, faultCoefficients, faultCurve, not_le.2 d2, decide_false]
    nlinarith
  unfold frosted
  simp only [Bool.false_eq_true, if_false]
  rw [this] at ph0
  nlinarith

/-- A charge fault does not hinder the construction: a unit that can be made with the nominal charge can be made with any charge deviation up to a half, if its coil data exist for the
gross capacities the fault leaves. -/
theorem C131_returns {B0 : Built} {st : Staging} {net : Perf ℝ} {qc qh : List ℝ} {d : ℝ} (h0 : build u E T brentq a = .ok B0) (hB : Made u E a st net qc qh B0) (ht : a.tables = none) (d1 : -(1 / 2) ≤ d)
    (d2 : d ≤ 1 / 2) (hd : d ≠ 0) (h95 : Outdoor E (frF 95))
    (hC : ∀ q ∈ qc, ∀ t, q < t → t ≤ (1 + 337.2 / u.ton) * q → CoilReturns u E T q (t * faultFactor false false (toC (frF 80)) (toC (frF 95)) d)) :
    ∃ B, build u E T brentq { a with chargeDeviation := d } = .ok B := by
  have hpos : 0 < faultFactor false false (toC (frF (80 : ℝ))) (toC (frF 95)) d := by
    have := (airScale_cool d1 d2).1
    simp only [airScale, Bool.false_eq_true, if_false] at this
    have h' : 0 < 1 / faultFactor false false (toC (frF (80 : ℝ))) (toC (frF 95)) d := by linarith
    simpa using h'
  have h0' := h0
  obtain ⟨fc, fh, F0⟩ := built_facts h0 (fun d h => by rw [ht] at h; cases h)
  unfold build at h0
  simp only [bind_eq_ok] at h0
  obtain ⟨st0, h1, st', h2, q47, h3, net', h4, k, h5, S, h6, cr, h7, P, h8, coil, h9, h10⟩ := h0
  split at h10
  · cases h10
  rename_i n1
  split at h10
  · cases h10
  rename_i n2
  simp only [bind_eq_ok, pure_eq_ok, Except.ok.injEq] at h10
  obtain ⟨_, hchk, rfl⟩ := h10
  simp only at F0 hB
  have hst : k.st = st := hB.staging
  have hst' : st' = st := by
    unfold core at h5
    simp only [bind_eq_ok, pure_eq_ok, Except.ok.injEq] at h5
    obtain ⟨qc, -, qh, -, esp, -, ⟨cool, heat, fan⟩, -, cp, -, hp, -, gross, -, ncc, -, gcc, -, nhc, -, ghc, -, h12⟩ := h5
    rw [← h12] at hst; exact hst
  subst hst'
  have g6 : sys { a with chargeDeviation := d } k = .ok (charged S d) := by
    simp only [sys, bind_eq_ok, pure_eq_ok, Except.ok.injEq] at h6 ⊢
    obtain ⟨gc, f1, gh, f2, rfl⟩ := h6
    exact ⟨gc, f1, gh, f2, rfl⟩
  have F : CoreFacts u brentq { a with chargeDeviation := d } k.st k.rc k.rh k.net k fc fh := ⟨F0.1, F0.2, F0.3, F0.4, F0.5, F0.6, F0.7, F0.8, F0.9, F0.10, F0.11, F0.12, F0.13, F0.14, F0.15, F0.16⟩
  obtain ⟨pF, pI, pB, pL⟩ := a_points h8
  have hlen : qc.length = speedCount st' := by
    have := F.coolCaps.1
    rw [hst] at this
    rw [← hB.coolCaps]; exact this
  have step : ∀ (i : Nat) (c : Conditions ℝ), i < speedCount st' → S.makeCondition E false i = .ok c → ∀ (x : CoilData), x.shr.length = speedCount st' → x.bf.length = speedCount st' →
      x.ntu.length = speedCount st' → ∃ y, coilStep u T (fun c => (performance u E T brentq k (charged S d) P []).grossTotalCoolingCapacity (some c)) i c x = .ok y ∧
        y.shr.length = speedCount st' ∧ y.bf.length = speedCount st' ∧ y.ntu.length = speedCount st' := by
    intro i c hi hm x x1 x2 x3
    obtain ⟨q, hq⟩ : ∃ q, qc[i]? = some q := ⟨_, List.getElem?_eq_getElem (by omega)⟩
    obtain ⟨q0, c', t, hc, hg, t1, t2⟩ := hB.grossRated i q hq
    have hcP : c' = c := Except.ok.inj (hc.made.symm.trans hm)
    subst hcP
    obtain ⟨σ, hσ⟩ := speed_at k.st (i := i) (by rw [hst]; exact hi)
    have hcd : (charged S d).makeCondition E false i none (some (defaultOutdoor E false)) = .ok c' := hc.made
    obtain ⟨w, hQ, w0, -⟩ := hB.grossCool i q hq
    have gr := grading_cooling F g6 (by exact hd) (by exact d1) (by exact d2) hσ hQ (by linarith) h95 hcd .capacity
    have hg' : Resnet.grossTotalCoolingCapacity E (charged S d) (data k) c' = .ok t := hg
    have total : (performance u E T brentq k (charged S d) P []).grossTotalCoolingCapacity (some c') = .ok (t * faultFactor false false (toC (frF 80)) (toC (frF 95)) d) := by
      have e : faultFactor false false (toC (frF (80 : ℝ))) (defaultOutdoor E false).dbC d = faultFactor false false (toC (frF 80)) (toC (frF 95)) d := rfl
      simp only [reduceCtorEq, decide_false, e] at gr
      have nn : ¬ t * faultFactor false false (toC (frF 80)) (toC (frF 95)) d < 0 := not_lt.2 (by nlinarith)
      simp only [DX.Performance.grossTotalCoolingCapacity, performance, Resnet.unit, Option.getD_some, hg', gr, bind_ok, limitCheck_zero, nn, if_false]
    exact coilStep_returns (u := u) (T := T) (E := E) hi hc.indoor (by rw [hc.outdoor]; rfl) hc.speed hc.perCap hc.mass total (hC q (List.mem_of_getElem? hq) t t1 t2) x1 x2 x3
  have keeps : ∀ (t0 : Conditions ℝ → Py ℝ) (i : Nat) (c : Conditions ℝ) (x y : CoilData), coilStep u T t0 i c x = .ok y → y.shr.length = x.shr.length := by
    intro t0 i c x y hx
    simp only [coilStep, bind_eq_ok, pure_eq_ok, Except.ok.injEq] at hx
    obtain ⟨_, -, _, -, _, -, s, hs, _, -, _, -, _, -, _, -, _, -, rfl⟩ := hx
    rw [pySet_eq_ok] at hs
    show s.length = _
    rw [hs.2, List.length_set]
  generalize hR : roles (numberOfSpeeds (some a.cooling) a.staging) a.coolingFullSpeed a.coolingIntermediateSpeed = R at *
  obtain ⟨coil', hcoil, hc1, hc0⟩ : ∃ coil', coilData u T (fun c => (performance u E T brentq k (charged S d) P []).grossTotalCoolingCapacity (some c)) st' (modelRoles st' R) P = .ok coil' ∧
      coil'.shr.length = speedCount st' ∧ coil.shr.length = speedCount st' := by
    obtain ⟨x, X, X1, X2, X3⟩ := step (modelRoles st' R).full P.aFull (by cases st' <;> simp [modelRoles, speedCount, Staging.value]) pF
      ⟨List.replicate (speedCount st') none, List.replicate (speedCount st') none, List.replicate (speedCount st') none⟩ (by simp) (by simp) (by simp)
    cases st' with
    | single =>
      simp only [coilData, bind_eq_ok, pure_eq_ok, Except.ok.injEq] at h9 ⊢
      obtain ⟨y, y1, rfl⟩ := h9
      exact ⟨x, ⟨x, X, rfl⟩, X1, by rw [keeps _ _ _ _ _ y1]; simp⟩
    | two =>
      obtain ⟨j, c, j1, j2, j3⟩ := pL (by decide)
      have hj : j < speedCount .two := by cases j1; decide
      obtain ⟨y, Y, Y1, -, -⟩ := step j c hj j3 x X1 X2 X3
      simp only [coilData, coilData.low, j1, j2, Ratings.speedIndex, pyNum, pyAttr, bind_eq_ok, pure_eq_ok, Except.ok.injEq, exists_eq_left'] at h9 ⊢
      obtain ⟨z, z1, z2⟩ := h9
      exact ⟨y, ⟨x, X, Y⟩, Y1, by rw [keeps _ _ _ _ _ z2, keeps _ _ _ _ _ z1]; simp⟩
    | varSpeed =>
      obtain ⟨j, c, j1, j2, j3⟩ := pL (by decide)
      have hj : j < speedCount .varSpeed := by cases j1; decide
      obtain ⟨ci, i1, i2⟩ := pI rfl
      obtain ⟨cb, b1, b2⟩ := pB (by decide) 0 rfl
      have hb : (modelRoles .varSpeed R).boost = some 0 := rfl
      obtain ⟨y, Y, Y1, Y2, Y3⟩ := step (modelRoles .varSpeed R).intermediate ci (by simp [modelRoles, speedCount, Staging.value]) i2 x X1 X2 X3
      obtain ⟨z, Z, Z1, Z2, Z3⟩ := step 0 cb (by decide) b2 y Y1 Y2 Y3
      obtain ⟨w, W, W1, -, -⟩ := step j c hj j3 z Z1 Z2 Z3
      simp only [coilData, coilData.low, coilData.boost, j1, j2, i1, b1, hb, Ratings.speedIndex, pyNum, pyAttr, bind_eq_ok, pure_eq_ok, Except.ok.injEq, exists_eq_left'] at h9 ⊢
      obtain ⟨v1, e1, v2, e2, v3, e3, e4⟩ := h9
      exact ⟨w, ⟨x, X, y, Y, z, Z, W⟩, W1, by rw [keeps _ _ _ _ _ e4, keeps _ _ _ _ _ e3, keeps _ _ _ _ _ e2, keeps _ _ _ _ _ e1]; simp⟩
  have hchk' : finalChecks (speedCount st') (speedCount st') k.cool.caps coil'.shr (k.grossHeatingCop.map some) k.heat.caps = .ok () := by
    simp only [finalChecks, checkArrayLengths, checkArrayLength, hc0, hc1] at hchk ⊢
    exact hchk
  unfold build
  simp only [bind_eq_ok]
  refine ⟨⟨k, charged S d, P, coil', cd a.cdCooling, cd a.cdHeating, a.coolingOff, DX.offTemperature a.heatingOff st0,
    DX.onTemperature a.heatingOn (DX.offTemperature a.heatingOff st0), cr, a.cycling, a.standard⟩, st0, h1, st', h2, q47, h3, net', h4, k, by simp only [hR]; exact h5, charged S d, g6, cr, h7, P,
    by simp only [hR]; exact h8, coil', by simp only [hR]; exact hcoil, ?_⟩
  rw [if_neg n1, if_neg n2]
  simp only [hchk', bind_ok, pure_eq_ok]

end Resdx.Build

namespace Resdx.Sample

open Spec Tabular BaseModel Props ResnetFan Fan Table Build Transfer

/-- The sample unit with a tenth of its charge missing can be made; it meets the hypotheses of C131, and its EER2 is not above the 12 of the nominal unit. -/
example : ∃ brentq B c v, build units env tools brentq { oneArgs with chargeDeviation := -(1 / 10) } = .ok B ∧ B.sys.makeCondition env false 0 none (some (wetState env.atm (frF 82) (frF 65))) = .ok c ∧
    (B.unit units env tools brentq).fanPower c = .ok v ∧ ∀ e, B.eer units env tools brentq = .ok e → e ≤ 12 := by
  obtain ⟨brentq, hbr⟩ := brentqSpec_satisfiable
  obtain ⟨B0, net, h0, hB⟩ := one_made hbr
  have hα : 0 < faultFactor false false (toC (frF (80 : ℝ))) (toC (frF 95)) (-(1 / 10)) ∧ faultFactor false false (toC (frF (80 : ℝ))) (toC (frF 95)) (-(1 / 10)) ≤ 1 := by
    have e : ∀ x : ℝ, toC (frF x) = (x - 32) * (5 / 9) := by intro x; simp only [toC, frF]; ring
    simp only [e, faultFactor, faultCoefficients, faultCurve]
    norm_num
  obtain ⟨B, h⟩ := C131_returns (d := -(1 / 10)) h0 hB rfl (by norm_num) (by norm_num) (by norm_num) (outdoorAir _) (fun q hq t t1 t2 => by
    have q0 : 0 < q := by simp at hq; rw [hq]; norm_num
    refine coilReturns' q0 (mul_pos (q0.trans t1) hα.1) ?_
    have : (1 + 337.2 / units.ton) * q ≤ 1.2 * q := mul_le_mul_of_nonneg_right (by norm_num [units]) q0.le
    nlinarith)
  obtain ⟨e1, e2, e3, -⟩ := C131_same h0 h
  have ht : ∀ d, oneArgs.tables = some d → RatedTables (tableSpeeds B0.core.st) d := fun d hd => by cases hd
  obtain ⟨w, hw, hv⟩ := (C88_fan_as_rated h0 ht).1 (.inl hB.motor)
  obtain ⟨_, _, _, _, _, _, _, _, _, _, _, b10⟩ := build_steps h0
  obtain ⟨p1, p2, -⟩ := full_points b10
  have hf : B0.core.rc.full = 0 := hB.full.1
  rw [hf] at p1 p2
  obtain ⟨q, s, e, g1, g2, g3, g4, -⟩ := C45_cooling h0 hB.staging rfl rfl (.inl hB.motor) (outdoorAir _) (outdoorAir _)
  cases g3
  refine ⟨brentq, B, B0.points.bFull, w, h, by rw [e2]; exact p2, ?_, ?_⟩
  · refine Eq.trans ?_ ((fanPower_same p2 p1).trans hv)
    unfold Built.unit; rw [e1]; rfl
  · intro x hx
    refine (C131_undercharged (a := oneArgs) h0 h (by norm_num) ?_).1 x 12 hx g4 (by norm_num)
    intro v' hv'
    obtain ⟨fc, fh, F⟩ := built_facts h0 ht
    rw [hv] at hv'; cases hv'
    obtain ⟨w', g5, g6, -⟩ := hB.grossCool 0 10000 rfl
    obtain ⟨_, _, _, _, _, _, -, -, -, -, -, -, -, -, hS, -⟩ := build_ok h0
    obtain ⟨-, -, -, -, -, -, -, s8, -⟩ := sys_ok hS
    have := grossList_get s8 (i := 0) (q := 10000) (w := w) (by rw [hB.staging]; decide) (by rw [hB.coolCaps]; rfl) (by rw [← hf]; exact hw)
    rw [this] at g5
    simp only [Option.some.injEq] at g5
    linarith

/-- The variable-speed sample unit with a tenth of its charge missing can be made; its intermediate speed meets the hypotheses of C131 in both modes. -/
example (db : ℝ) : ∃ brentq B Q Q' c c' v v', build units env tools brentq { varArgs with chargeDeviation := -(1 / 10) } = .ok B ∧ B.core.st = .varSpeed ∧
    B.sys.grossCooling[2]? = some (some Q) ∧ 0 < Q ∧ B.sys.makeCondition env false 2 none (some (wetState env.atm db (frF 60))) = .ok c ∧ (B.unit units env tools brentq).fanPower c = .ok v ∧
    B.sys.grossHeating[2]? = some (some Q') ∧ 0 < Q' ∧ B.sys.makeCondition env true 2 none (some (wetState env.atm db (frF 60))) = .ok c' ∧ (B.unit units env tools brentq).fanPower c' = .ok v' := by
  obtain ⟨brentq, hbr⟩ := brentqSpec_satisfiable
  obtain ⟨B0, net, h0, hB⟩ := var_made hbr
  have hα : 0 < faultFactor false false (toC (frF (80 : ℝ))) (toC (frF 95)) (-(1 / 10)) ∧ faultFactor false false (toC (frF (80 : ℝ))) (toC (frF 95)) (-(1 / 10)) ≤ 1 := by
    have e : ∀ x : ℝ, toC (frF x) = (x - 32) * (5 / 9) := by intro x; simp only [toC, frF]; ring
    simp only [e, faultFactor, faultCoefficients, faultCurve]
    norm_num
  obtain ⟨B, h⟩ := C131_returns (d := -(1 / 10)) h0 hB rfl (by norm_num) (by norm_num) (by norm_num) (outdoorAir _) (fun q hq t t1 t2 => by
    obtain ⟨i, hi⟩ := List.getElem?_of_mem hq
    have q0 : 0 < q := (hB.grossRated i q hi).1
    refine coilReturns' q0 (mul_pos (q0.trans t1) hα.1) ?_
    have : (1 + 337.2 / units.ton) * q ≤ 1.2 * q := mul_le_mul_of_nonneg_right (by norm_num [units]) q0.le
    nlinarith)
  obtain ⟨e1, e2, -⟩ := C131_same h0 h
  have ht : ∀ d, varArgs.tables = some d → RatedTables (tableSpeeds B0.core.st) d := fun d hd => by cases hd
  obtain ⟨c, hc⟩ := hB.conditions false 2 (wetState env.atm db (frF 60)) (by decide)
  obtain ⟨c', hc'⟩ := hB.conditions true 2 (wetState env.atm db (frF 60)) (by decide)
  obtain ⟨w, g1, g2, -⟩ := hB.grossCool 2 _ rfl
  obtain ⟨w', g3, g4, g5⟩ := hB.grossHeat 2 _ rfl
  obtain ⟨fc, fh, F⟩ := built_facts h0 ht
  obtain ⟨_, _, _, _, _, _, -, -, -, -, -, -, -, -, hS, -⟩ := build_ok h0
  have hf : B0.core.rc.full = 1 := hB.full.1
  have hf' : B0.core.rh.full = 1 := hB.full.2
  obtain ⟨s1, -, s3, s4, s5, s6, s7, -⟩ := sys_ok hS
  obtain ⟨ac, ah, -, -, -, A4, M, M'⟩ := F.fan
  rw [hB.staging] at F
  have hσ : TableSpeed .varSpeed 2 (3 / 2 : ℝ) := .inr (.inr (.inl ⟨rfl, rfl⟩))
  obtain ⟨x, -, hx⟩ := fanPower_cond hc (by simpa using s3) (by simpa using s5) s7 M (by rw [F.coolCaps.1]; exact tableSpeed_lt hσ) (.inr (.inl (by rw [hf]; decide)))
  obtain ⟨y, -, hy⟩ := fanPower_cond hc' (by simpa using s4) (by simpa using s6) s7 M' (by rw [F.heatCaps.1]; exact tableSpeed_lt hσ) (.inr (.inl (by rw [hf']; decide)))
  refine ⟨brentq, B, _, _, c, c', x, y, h, by rw [e1]; exact hB.staging, by rw [e2]; exact g1, by positivity, by rw [e2]; exact hc, ?_, by rw [e2]; exact g3, ?_, by rw [e2]; exact hc', ?_⟩
  · unfold Built.unit; rw [e1]; exact hx
  · have : (337.2 / units.ton : ℝ) < 1 := by norm_num [units]
    nlinarith
  · unfold Built.unit; rw [e1]; exact hy

end Resdx.Sample
