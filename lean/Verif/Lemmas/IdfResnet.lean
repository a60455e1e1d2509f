import Verif.Model.IdfResnet
import Verif.Lemmas.ResnetConstruct
import Verif.Props.ResnetBuild
import Verif.Spec.IdfResnet

/-! # Gross performance of a RESNET unit at any indoor air and airflow -/

set_option linter.unusedSectionVars false
set_option linter.unusedSimpArgs false

namespace Resdx.Build

open Spec BaseModel Fan ResnetFan Tabular Resdx.Props

variable {u : Units ℝ} {brentq : Brentq} {a : Args} {st : Staging} {rc rh : Roles} {net : Perf ℝ} {k : Core} {fc fh : ℝ → ℝ} {S : Sys ℝ} {E : Env ℝ} {T : Coil.Tools}

/-! ## The conditions of the file -/

theorem withRatio_ok {c : Conditions ℝ} {r : ℝ} {f : Cond.OpCond ℝ} (h : Cond.setMassAirflowRatio r c.flow = (.ok (), f)) : Nrel.withRatio c r = .ok { c with flow := f } := by
  simp only [Nrel.withRatio, PyM.exec, h, bind_ok, pure_eq_ok]

/-- A made condition with another airflow ratio. -/
theorem withRatio_made {heating : Bool} {i : Nat} {indoor outdoor : Option (Psych.PsychState ℝ)} {c : Conditions ℝ} (h : S.makeCondition E heating i indoor outdoor = .ok c) (r : ℝ) :
    ∃ c', Nrel.withRatio c r = .ok c' ∧ c'.heating = c.heating ∧ c'.indoor = c.indoor ∧ c'.outdoor = c.outdoor ∧ c'.flow.ratio = some r ∧ c'.flow.compressorSpeed = i := by
  obtain ⟨rho, pr, x, cap, fs, h1, h2, h3, h4, h5, h6, h7, ⟨full, h8, h9, rfl⟩, h10, rfl⟩ := Sys.makeCondition_spec E S heating _ _ _ _ h
  have hrun := Cond.setRatio_run (ratedFlow rho E.rhoStd i fs (S.fullESP * (x / full) ^ 2) x cap) r
  have hok : (Cond.setMassAirflowRatio r (ratedFlow rho E.rhoStd i fs (S.fullESP * (x / full) ^ 2) x cap)).1 = .ok () := by
    refine hrun.2.2.2 h1 h2 rfl ?_ ?_ rfl rfl
    · intro rm hrm; cases hrm; exact mul_ne_zero h3 h2
    · intro rm hrm; cases hrm; exact h4
  obtain ⟨rm, cap', -, -, e, -⟩ := hrun.2.2.1 hok rfl
  have hrun' := Prod.ext (x := Cond.setMassAirflowRatio r (ratedFlow rho E.rhoStd i fs (S.fullESP * (x / full) ^ 2) x cap)) (y := (.ok (), _)) hok e
  exact ⟨_, withRatio_ok hrun', rfl, rfl, rfl, rfl, rfl⟩

theorem setRatio_made {heating : Bool} {i : Nat} {indoor outdoor : Option (Psych.PsychState ℝ)} {c : Conditions ℝ} (h : S.makeCondition E heating i indoor outdoor = .ok c) (r : ℝ) :
    (setRatio c r).heating = c.heating ∧ (setRatio c r).indoor = c.indoor ∧ (setRatio c r).outdoor = c.outdoor ∧ (setRatio c r).flow.ratio = some r ∧ (setRatio c r).flow.compressorSpeed = i := by
  obtain ⟨c', h1, h2⟩ := withRatio_made h r
  simp only [setRatio, h1]
  exact h2

theorem humid_db {t : ℝ} {s : Psych.PsychState ℝ} (h : humid E t = .ok s) : s.db = frF t := ratedOutdoor_db E _ s h

theorem fileCooling_at {i : Nat} {x y : ℝ} {c : Conditions ℝ} (h : fileCooling E S i (some (x, y)) = .ok c) :
    c.flow.compressorSpeed = i ∧ (Psych.getWb c.indoor).1 = .ok (frF x) ∧ c.flow.ratio = some 1 ∧ c.outdoor.db = frF y := by
  simp only [fileCooling, bind_eq_ok] at h
  obtain ⟨o, ho, h⟩ := h
  obtain ⟨rho, pr, v, cap, fs, -, -, -, -, -, -, -, -, -, rfl⟩ := Sys.makeCondition_spec E S false _ _ _ _ h
  exact ⟨rfl, rfl, rfl, humid_db ho⟩

theorem fileCooling_rated {i : Nat} {c : Conditions ℝ} (h : fileCooling E S i none = .ok c) :
    S.makeCondition E false i = .ok c ∧ c.flow.compressorSpeed = i ∧ (Psych.getWb c.indoor).1 = .ok (frF (67 : ℝ)) ∧ c.flow.ratio = some 1 ∧ c.outdoor.db = frF (95 : ℝ) ∧
      ∃ v rho, S.coolingAirflow[i]? = some (some v) ∧ (Psych.getRho E.lib (defaultIndoor E false)).1 = .ok rho ∧ c.flow.ratedVol = some (v * E.rhoStd / rho) := by
  refine ⟨h, ?_⟩
  obtain ⟨rho, pr, v, cap, fs, -, -, -, -, h1, -, h2, -, -, rfl⟩ := Sys.makeCondition_spec E S false _ _ _ _ h
  exact ⟨rfl, rfl, rfl, rfl, v, rho, h2, h1, rfl⟩

theorem fileHeating_at {i : Nat} {x y : ℝ} {c : Conditions ℝ} (h : fileHeating E S i (some (x, y)) = .ok c) :
    c.flow.compressorSpeed = i ∧ c.indoor.db = frF x ∧ c.flow.ratio = some 1 ∧ c.outdoor.db = frF y := by
  simp only [fileHeating, bind_eq_ok] at h
  obtain ⟨d, hd, o, ho, h⟩ := h
  obtain ⟨rho, pr, v, cap, fs, -, -, -, -, -, -, -, -, -, rfl⟩ := Sys.makeCondition_spec E S true _ _ _ _ h
  exact ⟨rfl, humid_db hd, rfl, humid_db ho⟩

theorem fileHeating_rated {i : Nat} {c : Conditions ℝ} (h : fileHeating E S i none = .ok c) :
    S.makeCondition E true i = .ok c ∧ c.flow.compressorSpeed = i ∧ c.indoor.db = frF (70 : ℝ) ∧ c.flow.ratio = some 1 ∧ c.outdoor.db = frF (47 : ℝ) ∧
      ∃ v rho, S.heatingAirflow[i]? = some (some v) ∧ (Psych.getRho E.lib (defaultIndoor E true)).1 = .ok rho ∧ c.flow.ratedVol = some (v * E.rhoStd / rho) := by
  refine ⟨h, ?_⟩
  obtain ⟨rho, pr, v, cap, fs, -, -, -, -, h1, -, h2, -, -, rfl⟩ := Sys.makeCondition_spec E S true _ _ _ _ h
  exact ⟨rfl, rfl, rfl, rfl, v, rho, h2, h1, rfl⟩

/-! ## The gross functions -/

/-- The gross capacity at any airflow. -/
theorem gross_capacity_at (F : CoreFacts u brentq a st rc rh net k fc fh) (hS : sys a k = .ok S) {i : Nat} {σ : ℝ} (hσ : TableSpeed st i σ) {Q : ℝ}
    (hQ : S.grossCooling[i]? = some (some Q)) (hQ0 : 0 < Q) {c rated : Conditions ℝ} {o : Psych.PsychState ℝ} {w r : ℝ} (hi : c.flow.compressorSpeed = i)
    (hw : (Psych.getWb c.indoor).1 = .ok w) (hr : c.flow.ratio = some r) (ht : toF c.outdoor.db ≤ 125)
    (ho : Resnet.ratedOutdoor E c.outdoor.db = .ok o) (hc : S.makeCondition E false i none (some o) = .ok rated) :
    ∃ q, k.gross.coolingCapacity σ c.outdoor.db = .ok q ∧
      Resnet.grossTotalCoolingCapacity E S (data k) c = .ok (q * (coolCapF r * (coolCapT (clip 57 72 (toF w)) (max 75 (toF c.outdoor.db)) / coolCapT 67 (max 75 (toF c.outdoor.db))))) := by
  subst hi
  obtain ⟨q0, -, hq⟩ := F.gross.coolCap σ c.outdoor.db
  have hdb := ratedOutdoor_db E _ o ho
  have hc' := hc
  obtain ⟨rho, pr, x, cap, fs, _, _, _, _, _, _, _, _, _, rfl⟩ := Sys.makeCondition_spec E S false _ _ _ _ hc
  have hwb : (Psych.getWb (defaultIndoor E false)).1 = .ok (frF (67 : ℝ)) := rfl
  have e1 := C74_cooling_capacity S c w r Q hw hr hQ
  have d1 := C74_cooling_capacity S ⟨false, defaultIndoor E false, o, ratedFlow rho E.rhoStd c.flow.compressorSpeed fs pr x cap⟩ (frF 67) 1 Q hwb rfl hQ
  have f1 : coolCapF (1 : ℝ) = 1 := by unfold coolCapF; norm_num
  have f3 : clip 57 72 (toF (frF (67 : ℝ))) = 67 := by rw [toF_frF]; unfold clip; norm_num
  simp only [f1, f3, hdb] at d1
  have hm1 : (75 : ℝ) ≤ max 75 (toF c.outdoor.db) := le_max_left _ _
  have hm2 : max 75 (toF c.outdoor.db) ≤ (125 : ℝ) := max_le (by norm_num) ht
  generalize max 75 (toF c.outdoor.db) = m at *
  obtain ⟨p1, p2⟩ := C74_cooling_positive (67 : ℝ) m (by norm_num) (by norm_num) hm1 hm2
  have n1 : 0 < 1 * coolCapT 67 m * Q := by positivity
  have k1 := (C73_correction E S false (Nrel.grossTotalCoolingCapacity S) c _ o _ _ ho hc' e1 d1 n1.ne').1
  have hk : Resnet.mapGet (data k).coolingMap c.flow.compressorSpeed = .ok σ := by
    simp only [Resnet.mapGet]
    rw [show (data k).coolingMap[c.flow.compressorSpeed]? = some σ by rw [data, F.isSt]; exact speedMap_get.2 hσ]
  refine ⟨_, hq, ?_⟩
  simp only [Resnet.grossTotalCoolingCapacity]
  rw [show (data k).gross = some k.gross from rfl]
  simp only [hk, bind_ok, hq, k1, pure_eq_ok, Except.ok.injEq]
  field_simp

theorem gross_cooling_at' (F : CoreFacts u brentq a st rc rh net k fc fh) (hS : sys a k = .ok S) {i : Nat} {σ : ℝ} (hσ : TableSpeed st i σ) {Q : ℝ}
    (hQ : S.grossCooling[i]? = some (some Q)) (hQ0 : 0 < Q) {c rated : Conditions ℝ} {o : Psych.PsychState ℝ} {w r : ℝ} (hi : c.flow.compressorSpeed = i)
    (hw : (Psych.getWb c.indoor).1 = .ok w) (hr : c.flow.ratio = some r) (hr1 : 0 ≤ coolEirF r * coolCapF r) (ht : toF c.outdoor.db ≤ 125)
    (ho : Resnet.ratedOutdoor E c.outdoor.db = .ok o) (hc : S.makeCondition E false i none (some o) = .ok rated) :
    ∃ q p, k.gross.coolingCapacity σ c.outdoor.db = .ok q ∧ k.gross.coolingPower σ c.outdoor.db = .ok p ∧
      Resnet.grossTotalCoolingCapacity E S (data k) c = .ok (q * (coolCapF r * (coolCapT (clip 57 72 (toF w)) (max 75 (toF c.outdoor.db)) / coolCapT 67 (max 75 (toF c.outdoor.db))))) ∧
      Resnet.grossCoolingPower E S (data k) c = .ok (p * (coolEirF r * coolCapF r *
        (coolEirT (clip 57 72 (toF w)) (max 75 (toF c.outdoor.db)) / coolEirT 67 (max 75 (toF c.outdoor.db)) *
          (coolCapT (clip 57 72 (toF w)) (max 75 (toF c.outdoor.db)) / coolCapT 67 (max 75 (toF c.outdoor.db)))))) := by
  subst hi
  obtain ⟨cop, hcop, hcop0⟩ := cop_cooling F hS hσ
  obtain ⟨q0, -, hq⟩ := F.gross.coolCap σ c.outdoor.db
  obtain ⟨p0, -, hp⟩ := F.gross.coolPow σ c.outdoor.db
  have hdb := ratedOutdoor_db E _ o ho
  have hc' := hc
  obtain ⟨rho, pr, x, cap, fs, _, _, _, _, _, _, _, _, _, rfl⟩ := Sys.makeCondition_spec E S false _ _ _ _ hc
  have hwb : (Psych.getWb (defaultIndoor E false)).1 = .ok (frF (67 : ℝ)) := rfl
  have e1 := C74_cooling_capacity S c w r Q hw hr hQ
  have e2 := C74_cooling_power S c w r Q cop hw hr hQ hcop hcop0.ne' _ rfl
  have d1 := C74_cooling_capacity S ⟨false, defaultIndoor E false, o, ratedFlow rho E.rhoStd c.flow.compressorSpeed fs pr x cap⟩ (frF 67) 1 Q hwb rfl hQ
  have d2 := C74_cooling_power S ⟨false, defaultIndoor E false, o, ratedFlow rho E.rhoStd c.flow.compressorSpeed fs pr x cap⟩ (frF 67) 1 Q cop hwb rfl hQ hcop hcop0.ne' _ rfl
  have f1 : coolCapF (1 : ℝ) = 1 := by unfold coolCapF; norm_num
  have f2 : coolEirF (1 : ℝ) = 1 := by unfold coolEirF; norm_num
  have f3 : clip 57 72 (toF (frF (67 : ℝ))) = 67 := by rw [toF_frF]; unfold clip; norm_num
  simp only [f1, f2, f3, hdb] at d1 d2
  obtain ⟨-, -, -, g1, g2⟩ := C74_limits (57 : ℝ) 72 (toF w) 0 (by norm_num)
  generalize clip 57 72 (toF w) = W at *
  have hm1 : (75 : ℝ) ≤ max 75 (toF c.outdoor.db) := le_max_left _ _
  have hm2 : max 75 (toF c.outdoor.db) ≤ (125 : ℝ) := max_le (by norm_num) ht
  generalize max 75 (toF c.outdoor.db) = m at *
  obtain ⟨p1, p2⟩ := C74_cooling_positive (67 : ℝ) m (by norm_num) (by norm_num) hm1 hm2
  obtain ⟨p3, p4⟩ := C74_cooling_positive W m g1 g2 hm1 hm2
  have n1 : 0 < 1 * coolCapT 67 m * Q := by positivity
  have n2 : 0 < 1 * 1 * coolEirT 67 m * coolCapT 67 m * Q / cop := by positivity
  have n3 : 0 ≤ coolEirF r * coolCapF r * coolEirT W m * coolCapT W m * Q / cop := by positivity
  rw [if_neg (not_lt.2 n2.le)] at d2
  rw [if_neg (not_lt.2 n3)] at e2
  have k1 := (C73_correction E S false (Nrel.grossTotalCoolingCapacity S) c _ o _ _ ho hc' e1 d1 n1.ne').1
  have k2 := (C73_correction E S false (Nrel.grossCoolingPower S) c _ o _ _ ho hc' e2 d2 n2.ne').1
  have hk : Resnet.mapGet (data k).coolingMap c.flow.compressorSpeed = .ok σ := by
    simp only [Resnet.mapGet]
    rw [show (data k).coolingMap[c.flow.compressorSpeed]? = some σ by rw [data, F.isSt]; exact speedMap_get.2 hσ]
  refine ⟨_, _, hq, hp, ?_, ?_⟩
  · simp only [Resnet.grossTotalCoolingCapacity]
    rw [show (data k).gross = some k.gross from rfl]
    simp only [hk, bind_ok, hq, k1, pure_eq_ok, Except.ok.injEq]
    field_simp
  · simp only [Resnet.grossCoolingPower]
    rw [show (data k).gross = some k.gross from rfl]
    simp only [hk, bind_ok, hp, k2, pure_eq_ok, Except.ok.injEq]
    field_simp

theorem gross_cooling_at (F : CoreFacts u brentq a st rc rh net k fc fh) (hS : sys a k = .ok S) {i : Nat} {σ : ℝ} (hσ : TableSpeed st i σ) {Q : ℝ}
    (hQ : S.grossCooling[i]? = some (some Q)) (hQ0 : 0 < Q) {c rated : Conditions ℝ} {o : Psych.PsychState ℝ} {w r : ℝ} (hi : c.flow.compressorSpeed = i)
    (hw : (Psych.getWb c.indoor).1 = .ok w) (hr : c.flow.ratio = some r) (hr1 : 0 < coolCapF r) (hr2 : 0 < coolEirF r) (ht : toF c.outdoor.db ≤ 125)
    (ho : Resnet.ratedOutdoor E c.outdoor.db = .ok o) (hc : S.makeCondition E false i none (some o) = .ok rated) :
    ∃ q p, k.gross.coolingCapacity σ c.outdoor.db = .ok q ∧ k.gross.coolingPower σ c.outdoor.db = .ok p ∧
      Resnet.grossTotalCoolingCapacity E S (data k) c = .ok (q * (coolCapF r * (coolCapT (clip 57 72 (toF w)) (max 75 (toF c.outdoor.db)) / coolCapT 67 (max 75 (toF c.outdoor.db))))) ∧
      Resnet.grossCoolingPower E S (data k) c = .ok (p * (coolEirF r * coolCapF r *
        (coolEirT (clip 57 72 (toF w)) (max 75 (toF c.outdoor.db)) / coolEirT 67 (max 75 (toF c.outdoor.db)) *
          (coolCapT (clip 57 72 (toF w)) (max 75 (toF c.outdoor.db)) / coolCapT 67 (max 75 (toF c.outdoor.db)))))) :=
  gross_cooling_at' F hS hσ hQ hQ0 hi hw hr (mul_nonneg hr2.le hr1.le) ht ho hc

theorem gross_heating_at (F : CoreFacts u brentq a st rc rh net k fc fh) (hS : sys a k = .ok S) {i : Nat} {σ : ℝ} (hσ : TableSpeed st i σ) {Q : ℝ}
    (hQ : S.grossHeating[i]? = some (some Q)) (hQ0 : Q ≠ 0) {c rated : Conditions ℝ} {o : Psych.PsychState ℝ} {r : ℝ} (hi : c.flow.compressorSpeed = i)
    (hr : c.flow.ratio = some r) (ho : Resnet.ratedOutdoor E c.outdoor.db = .ok o) (hc : S.makeCondition E true i none (some o) = .ok rated) :
    ∃ q p, k.gross.heatingCapacity σ c.outdoor.db = .ok q ∧ k.gross.heatingPower σ c.outdoor.db = .ok p ∧
      Resnet.grossSteadyHeatingCapacity E S (data k) c = .ok (q * (heatCapF r * (heatCapT (toF c.indoor.db) (toF c.outdoor.db) / heatCapT 70 (toF c.outdoor.db)))) ∧
      Resnet.grossSteadyHeatingPower E S (data k) c = .ok (p * (heatEirF r * heatCapF r * (heatEirT (toF c.indoor.db) (toF c.outdoor.db) / heatEirT 70 (toF c.outdoor.db) *
        (heatCapT (toF c.indoor.db) (toF c.outdoor.db) / heatCapT 70 (toF c.outdoor.db))))) := by
  subst hi
  obtain ⟨cop, hcop, hcop0⟩ := cop_heating F hS hσ
  obtain ⟨q0, -, hq⟩ := F.gross.heatCap σ c.outdoor.db
  obtain ⟨p0, -, hp⟩ := F.gross.heatPow σ c.outdoor.db
  have hdb := ratedOutdoor_db E _ o ho
  have hc' := hc
  obtain ⟨rho, pr, x, cap, fs, _, _, _, _, _, _, _, _, _, rfl⟩ := Sys.makeCondition_spec E S true _ _ _ _ hc
  obtain ⟨e1, e2⟩ := C74_heating S c r Q cop hr hQ hcop hcop0.ne'
  obtain ⟨d1, d2⟩ := C74_heating S ⟨true, defaultIndoor E true, o, ratedFlow rho E.rhoStd c.flow.compressorSpeed fs pr x cap⟩ 1 Q cop rfl hQ hcop hcop0.ne'
  have f1 : heatCapF (1 : ℝ) = 1 := by unfold heatCapF; norm_num
  have f2 : heatEirF (1 : ℝ) = 1 := by unfold heatEirF; norm_num
  have f3 : toF (defaultIndoor E true).db = (70 : ℝ) := by simp [defaultIndoor, wetState, Psych.blank, toF_frF]
  simp only [f1, f2, f3, hdb] at d1 d2
  have p1 := heatCapT_pos (toF c.outdoor.db)
  have p2 := heatEirT_pos (toF c.outdoor.db)
  generalize toF c.indoor.db = I at *
  generalize toF c.outdoor.db = m at *
  have n1 : 1 * heatCapT 70 m * Q ≠ 0 := mul_ne_zero (mul_ne_zero one_ne_zero p1.ne') hQ0
  have n2 : 1 * 1 * heatEirT 70 m * heatCapT 70 m * Q / cop ≠ 0 := div_ne_zero (mul_ne_zero (mul_ne_zero (mul_ne_zero (by norm_num) p2.ne') p1.ne') hQ0) hcop0.ne'
  have k1 := (C73_correction E S true (Nrel.grossSteadyHeatingCapacity S) c _ o _ _ ho hc' e1 d1 n1).1
  have k2 := (C73_correction E S true (Nrel.grossSteadyHeatingPower S) c _ o _ _ ho hc' e2 d2 n2).1
  have hk : Resnet.mapGet (data k).heatingMap c.flow.compressorSpeed = .ok σ := by
    simp only [Resnet.mapGet]
    rw [show (data k).heatingMap[c.flow.compressorSpeed]? = some σ by rw [data, F.isSt]; exact speedMap_get.2 hσ]
  refine ⟨_, _, hq, hp, ?_, ?_⟩
  · simp only [Resnet.grossSteadyHeatingCapacity]
    rw [show (data k).gross = some k.gross from rfl]
    simp only [hk, bind_ok, hq, k1, pure_eq_ok, Except.ok.injEq]
    field_simp
  · simp only [Resnet.grossSteadyHeatingPower]
    rw [show (data k).gross = some k.gross from rfl]
    simp only [hk, bind_ok, hp, k2, pure_eq_ok, Except.ok.injEq]
    field_simp

/-! ## The unit -/

theorem unit_gross_cooling {P : DX.Points (Conditions ℝ)} {ntu : List (Option ℝ)} {c : Conditions ℝ} {q p : ℝ} (hd : S.chargeDeviation = 0)
    (hq : Resnet.grossTotalCoolingCapacity E S (data k) c = .ok q) (hp : Resnet.grossCoolingPower E S (data k) c = .ok p) :
    (performance u E T brentq k S P ntu).grossTotalCoolingCapacity (some c) = (if q < 0 then .error .exception else .ok q) ∧
    (performance u E T brentq k S P ntu).grossCoolingPower (some c) = (if p < 0 then .error .exception else .ok p) := by
  constructor <;> simp only [DX.Performance.grossTotalCoolingCapacity, DX.Performance.grossCoolingPower, performance, Resnet.unit, Option.getD_some, hq, hp, Nrel.gradingModel, hd, if_true, bind_ok,
    mul_one, limitCheck_zero]

theorem unit_gross_heating {P : DX.Points (Conditions ℝ)} {ntu : List (Option ℝ)} {c : Conditions ℝ} {q p : ℝ} (hd : S.chargeDeviation = 0)
    (hq : Resnet.grossSteadyHeatingCapacity E S (data k) c = .ok q) (hp : Resnet.grossSteadyHeatingPower E S (data k) c = .ok p) :
    (performance u E T brentq k S P ntu).grossSteadyHeatingCapacity (some c) = .ok q ∧ (performance u E T brentq k S P ntu).grossSteadyHeatingPower (some c) = .ok p := by
  constructor <;> simp only [DX.Performance.grossSteadyHeatingCapacity, DX.Performance.grossSteadyHeatingPower, performance, Resnet.unit, Option.getD_some, hq, hp, Nrel.gradingModel, hd, if_true,
    bind_ok, mul_one, pure_eq_ok]

/-- The gross cooling capacity returned by a unit shows that the outdoor air has a state and the rated condition can be made. -/
theorem cooling_rated {P : DX.Points (Conditions ℝ)} {ntu : List (Option ℝ)} {c : Conditions ℝ} {q : ℝ} (h : (performance u E T brentq k S P ntu).grossTotalCoolingCapacity (some c) = .ok q) :
    ∃ o rated, Resnet.ratedOutdoor E c.outdoor.db = .ok o ∧ S.makeCondition E false c.flow.compressorSpeed none (some o) = .ok rated := by
  simp only [DX.Performance.grossTotalCoolingCapacity, performance, Resnet.unit, Option.getD_some, Resnet.grossTotalCoolingCapacity] at h
  rw [show (data k).gross = some k.gross from rfl] at h
  simp only [bind_eq_ok, Resnet.correction] at h
  obtain ⟨_, ⟨_, _, _, _, _, ⟨o, ho, rated, hr, -⟩, -⟩, -⟩ := h
  exact ⟨o, rated, ho, hr⟩

theorem heating_rated {P : DX.Points (Conditions ℝ)} {ntu : List (Option ℝ)} {c : Conditions ℝ} {q : ℝ} (h : (performance u E T brentq k S P ntu).grossSteadyHeatingCapacity (some c) = .ok q) :
    ∃ o rated, Resnet.ratedOutdoor E c.outdoor.db = .ok o ∧ S.makeCondition E true c.flow.compressorSpeed none (some o) = .ok rated := by
  simp only [DX.Performance.grossSteadyHeatingCapacity, performance, Resnet.unit, Option.getD_some, Resnet.grossSteadyHeatingCapacity] at h
  rw [show (data k).gross = some k.gross from rfl] at h
  simp only [bind_eq_ok, Resnet.correction] at h
  obtain ⟨_, ⟨_, _, _, _, _, ⟨o, ho, rated, hr, -⟩, -⟩, -⟩ := h
  exact ⟨o, rated, ho, hr⟩

open Spec.Idf

theorem heatCapT_ne {x : ℝ} (hx : 60 ≤ x) (hx' : x ≤ 80) (t : ℝ) : 0 < heatCapT x t := by
  unfold heatCapT
  nlinarith [sq_nonneg (t + 90), mul_nonneg (sub_nonneg.2 hx) (sub_nonneg.2 hx')]

theorem heatEirT_ne {x : ℝ} (hx : 60 ≤ x) (hx' : x ≤ 80) (t : ℝ) : 0 < heatEirT x t := by
  unfold heatEirT
  nlinarith [sq_nonneg (t - 73), sq_nonneg (t - 20 - 0.76 * x), mul_nonneg (sub_nonneg.2 hx) (sub_nonneg.2 hx')]

/-- What a unit returns in cooling. -/
theorem cooling_values (F : CoreFacts u brentq a st rc rh net k fc fh) (hS : sys a k = .ok S) (hd : a.chargeDeviation = 0) {i : Nat} {σ : ℝ} (hσ : TableSpeed st i σ) {Q : ℝ}
    (hQ : S.grossCooling[i]? = some (some Q)) (hQ0 : 0 < Q) {c : Conditions ℝ} {w r : ℝ} (hi : c.flow.compressorSpeed = i)
    (hw : (Psych.getWb c.indoor).1 = .ok (frF w)) (hr : c.flow.ratio = some r) (hr1 : 0 < coolCapF r) (hr2 : 0 < coolEirF r) {t : ℝ} (htd : c.outdoor.db = frF t) (ht : t ≤ 125)
    {P : DX.Points (Conditions ℝ)} {ntu : List (Option ℝ)} {v : ℝ} (hv : (performance u E T brentq k S P ntu).grossTotalCoolingCapacity (some c) = .ok v) :
    ∃ q p, k.gross.coolingCapacity σ (frF t) = .ok q ∧ k.gross.coolingPower σ (frF t) = .ok p ∧ v = q * (coolCapF r * coolCapX w t) ∧
      ∀ e, (performance u E T brentq k S P ntu).grossTotalCoolingCOP (some c) = .ok e → e = q * (coolCapF r * coolCapX w t) / (p * (coolEirF r * coolCapF r * (coolEirX w t * coolCapX w t))) ∧ p ≠ 0 := by
  obtain ⟨o, rated, ho, hc⟩ := cooling_rated hv
  rw [hi] at hc
  obtain ⟨q, p, h1, h2, h3, h4⟩ := gross_cooling_at F hS hσ hQ hQ0 hi hw hr hr1 hr2 (by rw [htd, toF_frF]; exact ht) ho hc
  obtain ⟨-, -, -, -, -, -, -, -, -, -, -, hdev, -⟩ := sys_ok hS
  obtain ⟨g1, g2⟩ := unit_gross_cooling (u := u) (T := T) (brentq := brentq) (P := P) (ntu := ntu) (hdev.trans hd) h3 h4
  rw [htd] at h1 h2
  simp only [htd, toF_frF] at g1 g2
  refine ⟨q, p, h1, h2, ?_, ?_⟩
  · rw [g1] at hv
    split at hv
    · cases hv
    · cases hv; rfl
  · intro e he
    simp only [DX.Performance.grossTotalCoolingCOP, g1, g2] at he
    split at he
    · cases he
    · simp only [bind_ok] at he
      split at he
      · cases he
      · simp only [bind_ok, pdiv_eq_ok] at he
        refine ⟨he.2.symm ▸ rfl, fun hp => he.1 ?_⟩
        rw [hp]; ring

theorem heating_values (F : CoreFacts u brentq a st rc rh net k fc fh) (hS : sys a k = .ok S) (hd : a.chargeDeviation = 0) {i : Nat} {σ : ℝ} (hσ : TableSpeed st i σ) {Q : ℝ}
    (hQ : S.grossHeating[i]? = some (some Q)) (hQ0 : Q ≠ 0) {c : Conditions ℝ} {x r : ℝ} (hi : c.flow.compressorSpeed = i)
    (hx : c.indoor.db = frF x) (hr : c.flow.ratio = some r) {t : ℝ} (htd : c.outdoor.db = frF t)
    {P : DX.Points (Conditions ℝ)} {ntu : List (Option ℝ)} {v : ℝ} (hv : (performance u E T brentq k S P ntu).grossSteadyHeatingCapacity (some c) = .ok v) :
    ∃ q p, k.gross.heatingCapacity σ (frF t) = .ok q ∧ k.gross.heatingPower σ (frF t) = .ok p ∧ v = q * (heatCapF r * heatCapX x t) ∧
      ∀ e, (performance u E T brentq k S P ntu).grossSteadyHeatingCOP (some c) = .ok e → e = q * (heatCapF r * heatCapX x t) / (p * (heatEirF r * heatCapF r * (heatEirX x t * heatCapX x t))) ∧ p ≠ 0 := by
  obtain ⟨o, rated, ho, hc⟩ := heating_rated hv
  rw [hi] at hc
  obtain ⟨q, p, h1, h2, h3, h4⟩ := gross_heating_at F hS hσ hQ hQ0 hi hr ho hc
  obtain ⟨-, -, -, -, -, -, -, -, -, -, -, hdev, -⟩ := sys_ok hS
  obtain ⟨g1, g2⟩ := unit_gross_heating (u := u) (T := T) (brentq := brentq) (P := P) (ntu := ntu) (hdev.trans hd) h3 h4
  rw [htd] at h1 h2
  simp only [htd, hx, toF_frF] at g1 g2
  refine ⟨q, p, h1, h2, ?_, ?_⟩
  · rw [g1] at hv; cases hv; rfl
  · intro e he
    simp only [DX.Performance.grossSteadyHeatingCOP, g1, g2, bind_ok, pdiv_eq_ok] at he
    refine ⟨he.2.symm ▸ rfl, fun hp => he.1 ?_⟩
    rw [hp]; ring

end Resdx.Build
