import Verif.Lemmas.UnitBuild
import Verif.Props.Title24

/-! # Construction of a unit with the Title-24 model -/

set_option linter.unusedSectionVars false
set_option linter.unusedSimpArgs false

namespace Resdx.UnitBuild

open BaseModel Fan Spec

variable {u : Units ℝ} {E : Env ℝ} {T : Coil.Tools}

theorem constEff_init_efficacies (l es : List ℝ) (p : ℝ) (hp : 0 ≤ p) (h0 : l.headD 0 ≠ 0) : ∃ s, ConstEff.init l p (.list es) = .ok s ∧ s.base.airflow = l ∧ s.designEfficacy = .list es := by
  cases l with
  | nil => simp at h0
  | cons a l =>
    have ha : a ≠ 0 := by simpa using h0
    have hst : Base.start p (a :: l) = .ok { designESP := p, n := 0, airflow := [], ratio := [], sysConst := Real.sqrt p / a } := by
      simp [Base.start, systemCurveConstant, pyGet, bind_ok, ppow_half hp, pdiv_ok ha, pure_eq_ok]
    obtain ⟨s', k1, k2, k3, k4⟩ := constEff_addAll (a :: l)
      { base := { designESP := p, n := 0, airflow := [], ratio := [], sysConst := Real.sqrt p / a }, designEfficacy := .list es } h0
    refine ⟨s', ?_, by simpa using k2, by simpa using k4⟩
    simp only [ConstEff.init, hst, bind_ok, PyM.exec, k1, pure_eq_ok]

/-- The two regressions at the rated conditions and 350 cfm/ton. -/
theorem rated24 : Title24.shrAt (⟨67, 95, 80, 350⟩ : Title24.Point ℝ) = .ok 0.6908748 ∧ Title24.capFactor (⟨67, 95, 80, 350⟩ : Title24.Point ℝ) 0.6908748 = .ok 0.98076225 := by
  have h : pdiv (0 : ℝ) 350 = .ok 0 := by rw [pdiv_ok (by norm_num)]; simp
  constructor
  · simp only [Title24.shrAt, Title24.Point.regress, Title24.caRegression, Title24.shrCoeffs, h, bind_ok, pure_eq_ok, Except.ok.injEq]
    rw [min_eq_right (by norm_num)]; norm_num
  · have h1 : (0.6908748 : ℝ) < 1 := by norm_num
    have h2 : pdiv (-53.542300000 : ℝ) 350 = .ok (-53.542300000 / 350) := pdiv_ok (by norm_num)
    simp only [Title24.capFactor, if_pos h1, Title24.Point.regress, Title24.caRegression, Title24.wetCap, h2, bind_ok, pure_eq_ok, Except.ok.injEq]
    norm_num

/-- A single-speed unit with the default fan of the Title-24 model. -/
structure Made24 (u : Units ℝ) (E : Env ℝ) (q h : ℝ) (B : Built) : Prop where
  staging : B.st = .single
  netCool : B.sys.netCooling = [q]
  netHeat : B.sys.netHeating = [h]
  grossCool : B.sys.grossCooling = [some (q + 500 * u.btuh / u.ton * q)]
  grossHeat : B.sys.grossHeating = [some (h - 500 * u.btuh / u.ton * q)]
  coolAirflow : B.sys.coolingAirflow = [some (q * (350 * u.cfm / u.ton))]
  heatAirflow : B.sys.heatingAirflow = [some (q * (350 * u.cfm / u.ton))]
  coolSpeed : B.sys.ratedCoolingFanSpeed = [some 0]
  heatSpeed : B.sys.ratedHeatingFanSpeed = [some 1]
  fan : ∀ p, B.made.assigned.fan.power 0 p = .ok (500 * u.btuh / u.ton * q) ∧ B.made.assigned.fan.power 1 p = .ok (500 * u.btuh / u.ton * q)
  shr : B.coil.shr = [some 0.6908748]

theorem title24_condition {S : Sys ℝ} {heating : Bool} {a cap : ℝ} {fs : Nat} (hE : Build.IndoorAir E) (ha : 0 < a) (hcap0 : 0 < cap) (hcap : (if heating then S.netHeating else S.netCooling) = [cap])
    (hA : (if heating then S.heatingAirflow else S.coolingAirflow) = [some a]) (hF : (if heating then S.ratedHeatingFanSpeed else S.ratedCoolingFanSpeed) = [some fs]) (o : Option (Psych.PsychState ℝ)) :
    ∃ c, S.makeCondition E heating 0 none o = .ok c ∧ c.indoor = defaultIndoor E heating ∧ c.outdoor = o.getD (defaultOutdoor E heating) ∧ c.flow.compressorSpeed = 0 ∧ c.flow.mass = some (a * E.rhoStd) ∧
      c.flow.stdVolPerCap = some (a / cap) ∧ c.flow.fanSpeed = some fs ∧ ∃ p, c.flow.esp = some p := by
  obtain ⟨rho, r0, hrho⟩ := hE.2 heating
  have hc := Sys.makeCondition_ok E S heating 0 none o rho a cap a (some fs) r0 hE.1 ha.ne' hcap0.ne' ha.ne' hrho (by rw [hcap]; rfl) (by rw [hA]; rfl) (by rw [hA]; rfl) (by rw [hF]; rfl)
  exact ⟨_, hc, rfl, rfl, rfl, rfl, rfl, rfl, _, rfl⟩

theorem title24_values {U : Title24.Unit24 ℝ} {c : Conditions ℝ} {Q : ℝ} (hi : c.indoor = defaultIndoor E false) (ho : c.outdoor = defaultOutdoor E false) (hs : c.flow.compressorSpeed = 0)
    (hv : c.flow.stdVolPerCap = some (350 * U.u.cfm / U.u.ton)) (hQ : U.sys.grossCooling = [some Q]) (hQ0 : 0 < Q) :
    Title24.grossShr U c = .ok 0.6908748 ∧ Title24.grossTotal U c = .ok (0.98076225 * Q) ∧ Title24.systemTotal U c = .ok (0.98076225 * Q) := by
  have hcf := U.u.cfm_pos
  have hto := U.u.ton_pos
  have hwb : (Psych.getWb c.indoor).1 = .ok (frF (67 : ℝ)) := by rw [hi]; rfl
  have hdb : c.indoor.db = frF 80 := by rw [hi]; rfl
  have hodb : c.outdoor.db = frF 95 := by rw [ho]; rfl
  have h350 : 350 * U.u.cfm / U.u.ton * U.u.ton / U.u.cfm = 350 := by field_simp
  have hp : Title24.pointOf U c = .ok ⟨67, 95, 80, 350⟩ := by
    simp only [Title24.pointOf, hwb, hv, pyAttr, bind_ok, h350, pure_eq_ok, hdb, hodb, toF_frF]
  obtain ⟨r1, r2⟩ := rated24
  have g : Title24.grossTotal U c = .ok (0.98076225 * Q) := by
    simp only [Title24.grossTotal, hp, r1, r2, bind_ok, hs, Sys.at_, hQ, pyGet, List.getElem?_cons_zero, pyNum, pure_eq_ok]
  refine ⟨by simp only [Title24.grossShr, hp, bind_ok, r1], g, ?_⟩
  have : ¬ ((0.98076225 * Q : ℝ) < 0) := not_lt.2 (by positivity)
  simp only [Title24.systemTotal, g, bind_ok, mul_one, Build.limitCheck_zero, this, if_false]

theorem title24_returns {a : Args} {q h : ℝ} (hkw : ∀ k ∈ a.otherKwargs, k = "base_model") (hfan : a.fan = none) (hm1 : a.coolingFanSpeed = none) (hm2 : a.heatingFanSpeed = none)
    (hc : a.cooling = .num q) (hh : a.heating = some (.num h) ∨ a.heating = none ∧ h = q) (hst : a.staging = none ∨ a.staging = some .single) (q0 : 0 < q) (h0 : 0 < h)
    (f1 : a.coolingFullSpeed = 0) (f2 : a.heatingFullSpeed = 0) (k1 : 500 * u.btuh / u.ton < 1) (k2 : 500 * u.btuh / u.ton * q < h)
    (cc : CopsUsable (500 * u.btuh / u.ton) 1 a.netCoolingCop a.grossCoolingCop) (ch : CopsUsable (500 * u.btuh / u.ton * q / h) 1 a.netHeatingCop a.grossHeatingCop) (hE : Build.IndoorAir E)
    (hT : ∀ c : Conditions ℝ, c.indoor = defaultIndoor E false → c.flow.mass = some (q * (350 * u.cfm / u.ton) * E.rhoStd) →
      ∃ r, Coil.ratedBypass T c 0.6908748 (0.98076225 * (q + 500 * u.btuh / u.ton * q)) = .ok r) : ∃ B, build u E T .title24 a = .ok B ∧ Made24 u E q h B := by
  have hto := u.ton_pos
  have hcf := u.cfm_pos
  have hbt := u.btuh_pos
  have hin := u.inH2O_pos
  set k := 500 * u.btuh / u.ton with hk
  have k0 : 0 < k := by rw [hk]; positivity
  have nC : a.nC = 1 := by rcases hst with h | h <;> simp [Args.nC, numberOfSpeeds, hc, h, Staging.value]
  have nH : a.nH = 1 := by
    rcases hh with h' | ⟨h', -⟩ <;> rcases hst with h | h <;> simp [Args.nH, numberOfSpeeds, h', h, Staging.value]
  have est : stagingOf 1 a.staging = .ok .single := by rcases hst with h | h <;> rw [h] <;> rfl
  have e1 : netCoolingCapacity 1 (.num q) = [q] := rfl
  have e2 : netHeatingCapacity 1 [q] a.heating = .ok [h] := by
    rcases hh with h' | ⟨h', rfl⟩ <;> rw [h'] <;> rfl
  have ef := Title24.C80_single_speed_partial u q 1 (by norm_num)
  have p1 : 0 < q * (350 * u.cfm / u.ton) := by positivity
  obtain ⟨f, g1, g2, g3⟩ := constEff_init_efficacies [q * (350 * u.cfm / u.ton), q * (350 * u.cfm / u.ton)] [500 * u.btuh / (350 * u.cfm), 500 * u.btuh / (350 * u.cfm)] (0.2 * u.inH2O) (by positivity)
    (by simpa using p1.ne')
  have pw : q * (350 * u.cfm / u.ton) * (500 * u.btuh / (350 * u.cfm)) = k * q := by rw [hk]; field_simp
  have pw' : q * (500 * u.btuh / u.ton) = k * q := by rw [hk]; ring
  rw [pw'] at ef
  have fp : ∀ p, f.power 0 p = .ok (k * q) ∧ f.power 1 p = .ok (k * q) := by
    intro p
    have i0 : pyGetI f.base.airflow 0 = .ok (q * (350 * u.cfm / u.ton)) := by rw [g2]; rfl
    have i1 : pyGetI f.base.airflow 1 = .ok (q * (350 * u.cfm / u.ton)) := by rw [g2]; rfl
    have j0 : pyGetI [500 * u.btuh / (350 * u.cfm), 500 * u.btuh / (350 * u.cfm)] 0 = .ok (500 * u.btuh / (350 * u.cfm)) := rfl
    have j1 : pyGetI [500 * u.btuh / (350 * u.cfm), 500 * u.btuh / (350 * u.cfm)] 1 = .ok (500 * u.btuh / (350 * u.cfm)) := rfl
    constructor
    · simp only [ConstEff.power, ConstEff.airflow, ConstEff.efficacy, g3, i0, j0, bind_ok, pure_eq_ok, pw]
    · simp only [ConstEff.power, ConstEff.airflow, ConstEff.efficacy, g3, i1, j1, bind_ok, pure_eq_ok, pw]
  obtain ⟨s, hs, s1, s2, s3, s4, s5, s6, s7, s8, s9⟩ : ∃ s, assign u a .title24 = .ok s ∧ s.coolCaps = [q] ∧ s.heatCaps = [h] ∧ s.coolAirflow = [some (q * (350 * u.cfm / u.ton))] ∧
      s.heatAirflow = [some (q * (350 * u.cfm / u.ton))] ∧ s.coolPower = [some (k * q)] ∧ s.heatPower = [some (k * q)] ∧ s.coolSpeed = some [0] ∧ s.heatSpeed = some [1] ∧ s.fan = ⟨f.airflow, f.power⟩ := by
    simp only [assign, title24Assign, nC, nH, hc, e1, e2, bind_ok, hfan, hm1, hm2, Option.isSome_none, ef, g1, pure_eq_ok]
    exact ⟨_, rfl, rfl, rfl, rfl, rfl, rfl, rfl, rfl, rfl, rfl⟩
  obtain ⟨esp, hesp⟩ : ∃ p, ResnetFan.fullFlowPressure u a.ducted a.standard s.coolCaps = .ok p := by
    unfold ResnetFan.fullFlowPressure
    by_cases hd : a.ducted = false
    · exact ⟨0, if_pos hd⟩
    · rw [if_neg hd]
      cases a.standard with
      | ahri2023 => exact ⟨_, rfl⟩
      | ahri2017 =>
        simp only [s1, pyGet, List.getElem?_cons_zero, bind_ok, pure_eq_ok]
        split
        · exact ⟨_, rfl⟩
        · split
          · exact ⟨_, rfl⟩
          · exact ⟨_, rfl⟩
  have hgc : Build.grossList 1 s.coolCaps s.coolPower 1 = .ok [some (q + k * q)] := by
    simp [Build.grossList, comp, s1, s5, numAt, pyGet, pyNum, bind_ok, pure_eq_ok]
  have hgh : Build.grossList 1 s.heatCaps s.heatPower (-1) = .ok [some (h - k * q)] := by
    simp [Build.grossList, comp, s2, s6, numAt, pyGet, pyNum, bind_ok, pure_eq_ok, sub_eq_add_neg]
  have hg : grossOf u a (assign u a .title24) = .ok ⟨s, esp, [some (q + k * q)], [some (h - k * q)]⟩ := by
    simp only [grossOf, hs, bind_ok, hesp, nC, nH, hgc, hgh, pure_eq_ok]
  obtain ⟨cr, hcr⟩ : ∃ c, crankcase u a s = .ok c := by
    unfold crankcase
    cases a.crankcase with
    | some c => exact ⟨c, rfl⟩
    | none => simp only [s1, f1, pyGet, List.getElem?_cons_zero, bind_ok, pure_eq_ok]; exact ⟨_, rfl⟩
  set m : Made := ⟨s, esp, [some (q + k * q)], [some (h - k * q)]⟩ with hm
  set S0 := m.sys a [0] [1] (List.replicate 1 none) (List.replicate 1 none) with hS0
  have fc : RolesFit .single 1 (roles 1 a.coolingFullSpeed a.coolingIntermediateSpeed) := ⟨by simp [roles, f1], by simp [roles, f1], by simp, by simp⟩
  have fh : RolesFit .single 1 (roles 1 a.heatingFullSpeed a.heatingIntermediateSpeed) := ⟨by simp [roles, f2], by simp [roles, f2], by simp, by simp⟩
  have CC := title24_condition (S := S0) (heating := false) (fs := 0) hE p1 q0 (by simp [hS0, hm, Made.sys, s1]) (by simp [hS0, hm, Made.sys, s3]) (by simp [hS0, hm, Made.sys])
  have CH := title24_condition (S := S0) (heating := true) (fs := 1) hE p1 h0 (by simp [hS0, hm, Made.sys, s2]) (by simp [hS0, hm, Made.sys, s4]) (by simp [hS0, hm, Made.sys])
  obtain ⟨P, hP, P1, -, P3, P4, P5⟩ := points_return (E := E) (S := S0) (st := .single) fc fh
    (by intro i hi o; obtain rfl : i = 0 := by omega
        obtain ⟨c, hc', -⟩ := CC o; exact ⟨c, hc'⟩)
    (by intro i hi o; obtain rfl : i = 0 := by omega
        obtain ⟨c, hc', -⟩ := CH o; exact ⟨c, hc'⟩)
  have hrf : (roles 1 a.coolingFullSpeed a.coolingIntermediateSpeed).full = 0 := f1
  rw [hrf] at P1
  set U := m.unit24 u a S0 (List.replicate 1 none) (List.replicate 1 none) with hU
  obtain ⟨coil, hcoil, coil1⟩ : ∃ d, coilData T (shrAndTotal .title24 S0 U) 1 .single (roles 1 a.coolingFullSpeed a.coolingIntermediateSpeed) P = .ok d ∧ d.shr = [some 0.6908748] := by
    obtain ⟨c, d1, d2, d3, d4, d5, d6, -⟩ := CC none
    rw [P1] at d1; cases d1
    have hv : P.aFull.flow.stdVolPerCap = some (350 * U.u.cfm / U.u.ton) := by
      rw [d6, hU]; simp only [Made.unit24]; congr 1; field_simp
    obtain ⟨v1, -, v3⟩ := title24_values (E := E) (U := U) (Q := q + k * q) d2 d3 d4 hv (by rw [hU]; rfl) (by positivity)
    obtain ⟨r, hr⟩ := hT P.aFull d2 d5
    simp only [coilData, coilStep, hrf, shrAndTotal, v1, v3, hr, bind_ok, pySet, d4, Sys.at_, pyGet, pyNum, List.replicate, pure_eq_ok]
    simp [hr, bind_ok]
  obtain ⟨c1, c', E1, E2, E3, E4, E5, E6⟩ := cops_return (sign := 1) k0 k1 (.inl rfl) (s := { Rated.fresh 1 s.coolCaps s.coolPower with grossCap := [some (q + k * q)] }) (net := a.netCoolingCop) (gross := a.grossCoolingCop) cc (by
    intro i hi
    obtain rfl : i = 0 := by have : i < 1 := hi; omega
    refine ⟨q, q0, ?_, ?_, ?_⟩
    · simp [Rated.fresh, s1]
    · rw [one_mul]; rfl
    · simp [Rated.fresh, s5])
  have k3 : 0 < k * q / h := by positivity
  have k4 : k * q / h < 1 := (div_lt_one h0).2 k2
  have k5 : k * q / h * h = k * q := by field_simp
  obtain ⟨h1, h', H1, H2, H3, H4, H5, H6⟩ := cops_return (sign := -1) k3 k4 (.inr rfl) (s := { Rated.fresh 1 s.heatCaps s.heatPower with grossCap := [some (h - k * q)] }) (net := a.netHeatingCop) (gross := a.grossHeatingCop) ch (by
    intro i hi
    obtain rfl : i = 0 := by have : i < 1 := hi; omega
    refine ⟨h, h0, ?_, ?_, ?_⟩
    · simp [Rated.fresh, s2]
    · rw [neg_one_mul, ← sub_eq_add_neg, k5]; rfl
    · rw [k5]; simp [Rated.fresh, s6])
  have hcops : cops a m = .ok (c', h') := by
    unfold cops
    rw [if_neg, if_neg]
    · simp only [nC, nH, hm, E1, E2, H1, H2, bind_ok, pure_eq_ok]
    · rintro ⟨x1, x2⟩; rcases ch.1 with h | h <;> simp_all
    · rintro ⟨x1, x2⟩; rcases cc.1 with h | h <;> simp_all
  have hfin : finalChecks 1 1 s.coolCaps coil.shr h'.grossCop s.heatCaps = .ok () := by
    have H4' : h'.grossCop.length = 1 := H4
    simp [finalChecks, checkArrayLengths, checkArrayLength, s1, s2, coil1, H4', bind_ok, checkArrayOrder]
  have hsys : setSystem .title24 a.kwargs = .ok () := setSystem_ok.2 (by
    intro x hx
    simp only [Args.kwargs, List.mem_append] at hx
    rcases hx with (((hx | hx) | hx) | hx) | hx
    · split at hx <;> simp at hx; subst hx; decide
    · split at hx <;> simp at hx; subst hx; decide
    · split at hx <;> simp at hx; subst hx; decide
    · split at hx <;> simp at hx; subst hx; decide
    · rw [hkw x hx]; decide)
  refine ⟨{ made := m, sys := m.sys a [0] [1] c'.grossCop h'.grossCop, st := .single, points := P, coil, cool := c', heat := h', crankcase := cr }, ?_, ?_⟩
  · have hms : m.assigned = s := rfl
    simp only [build, hsys, bind_ok, nC, nH, est, hg, hms, hcr, s7, s8, pyNum, ← hS0, hP, ← hU, hcoil, hcops, hfin, pure_eq_ok]
  · exact { staging := rfl, netCool := s1, netHeat := s2, grossCool := rfl, grossHeat := rfl, coolAirflow := s3, heatAirflow := s4, coolSpeed := rfl, heatSpeed := rfl
            fan := by intro p; have : m.assigned.fan = _ := s9; rw [this]; exact fp p, shr := coil1 }

end Resdx.UnitBuild
