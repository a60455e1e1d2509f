import Verif.Model.Resnet
import Verif.Lemmas.Conditions
import Verif.Lemmas.DXUnit
import Verif.Lemmas.Util

/-! # Lemmas about `make_condition` -/

set_option linter.unusedSectionVars false
set_option linter.unusedSimpArgs false

namespace Resdx

variable {K : Type} [Field K] [LinearOrder K] [IsStrictOrderedRing K]

theorem exec_iff {σ : Type} {m : PyM σ Unit} {s s' : σ} : m.exec s = .ok s' ↔ m s = (.ok (), s') := by
  unfold PyM.exec
  rcases h : m s with ⟨r, t⟩
  cases r <;> simp

/-- The airflow record of a condition at its rated airflow. -/
def ratedFlow (rho std : K) (speed : Nat) (fs : Option Nat) (pr a cap : K) : Cond.OpCond K :=
  { rhoIn := rho, rhoStd := std, compressorSpeed := speed, fanSpeed := fs, ratedESP := some pr, ratedAirflowSet := true
    ratedNetCapacity := some cap, ratedStdVol := some a, ratedVol := some (a * std / rho), ratedMass := some (a * std)
    vol := some (a * std / rho), mass := some (a * std), stdVol := some a, ratio := some 1, stdVolPerCap := some (a / cap)
    esp := some pr }

theorem setRated_exec (rho std : K) (speed : Nat) (fs : Option Nat) (pr a cap : K) (f : Cond.OpCond K)
    (h : (Cond.setRatedVolumetricAirflow a cap).exec (Cond.init rho std speed fs (some pr)) = .ok f) :
    rho ≠ 0 ∧ std ≠ 0 ∧ a ≠ 0 ∧ cap ≠ 0 ∧ f = ratedFlow rho std speed fs pr a cap := by
  rw [exec_iff] at h
  by_cases h1 : rho = 0
  · subst h1; simp [Cond.setRated_run, Cond.init] at h
  by_cases h2 : std = 0
  · subst h2
    simp [Cond.setRatedVolumetricAirflow, Cond.setVolumetricAirflow, Cond.init, PyM.bind_run, PyM.modify_run, PyM.get_run, PyM.liftM_run,
      PyM.monadLift_run, pyAttr, pdiv_zero, pdiv_ok h1] at h
  by_cases h3 : a = 0
  · subst h3
    simp [Cond.setRatedVolumetricAirflow, Cond.setVolumetricAirflow, Cond.init, PyM.bind_run, PyM.modify_run, PyM.get_run, PyM.liftM_run,
      PyM.monadLift_run, pyAttr, pdiv_zero, pdiv_ok h1, pdiv_ok h2] at h
  have h4 : a * std / rho * rho = a * std := div_mul_cancel₀ _ h1
  have h5 : a * std ≠ 0 := mul_ne_zero h3 h2
  by_cases h6 : cap = 0
  · subst h6
    simp [Cond.setRatedVolumetricAirflow, Cond.setVolumetricAirflow, Cond.init, PyM.bind_run, PyM.modify_run, PyM.get_run, PyM.liftM_run,
      PyM.monadLift_run, pyAttr, pdiv_zero, pdiv_ok h1, pdiv_ok h2, h4, pdiv_ok h5] at h
  refine ⟨h1, h2, h3, h6, ?_⟩
  simp [Cond.setRatedVolumetricAirflow, Cond.setVolumetricAirflow, Cond.init, PyM.bind_run, PyM.modify_run, PyM.get_run, PyM.liftM_run,
    PyM.monadLift_run, pyAttr, pdiv_zero, pdiv_ok h1, pdiv_ok h2, h4, pdiv_ok h5, pdiv_ok h6, div_self h5, mul_div_cancel_right₀ _ h2] at h
  rw [← h]; rfl

theorem setRated_exec_ok (rho std : K) (speed : Nat) (fs : Option Nat) (pr a cap : K) (h1 : rho ≠ 0) (h2 : std ≠ 0) (h3 : a ≠ 0) (h6 : cap ≠ 0) :
    (Cond.setRatedVolumetricAirflow a cap).exec (Cond.init rho std speed fs (some pr)) = .ok (ratedFlow rho std speed fs pr a cap) := by
  rw [exec_iff]
  have h4 : a * std / rho * rho = a * std := div_mul_cancel₀ _ h1
  have h5 : a * std ≠ 0 := mul_ne_zero h3 h2
  simp [Cond.setRatedVolumetricAirflow, Cond.setVolumetricAirflow, Cond.init, PyM.bind_run, PyM.modify_run, PyM.get_run, PyM.liftM_run,
    PyM.monadLift_run, pyAttr, pdiv_zero, pdiv_ok h1, pdiv_ok h2, h4, pdiv_ok h5, pdiv_ok h6, div_self h5, mul_div_cancel_right₀ _ h2, ratedFlow]

/-- Setting a mass-flow ratio on a rated condition. -/
theorem setRatio_rated (rho std : K) (speed : Nat) (fs : Option Nat) (pr a cap r : K) (h1 : rho ≠ 0) (h2 : std ≠ 0) (h6 : cap ≠ 0) :
    (Cond.setMassAirflowRatio r).exec (ratedFlow rho std speed fs pr a cap) =
      .ok { ratedFlow rho std speed fs pr a cap with
        ratio := some r, esp := some (pr * r ^ 2), mass := some (r * (a * std)), vol := some (r * (a * std) / rho)
        stdVol := some (r * (a * std) / std), stdVolPerCap := some (r * (a * std) / std / cap) } := by
  rw [exec_iff]
  simp [Cond.setMassAirflowRatio, ratedFlow, PyM.bind_run, PyM.modify_run, PyM.get_run, PyM.liftM_run,
    PyM.monadLift_run, pyAttr, pdiv_ok h1, pdiv_ok h2, pdiv_ok h6]

theorem setRatio_one (rho std : K) (speed : Nat) (fs : Option Nat) (pr a cap : K) (h1 : rho ≠ 0) (h2 : std ≠ 0) (h6 : cap ≠ 0) :
    (Cond.setMassAirflowRatio 1).exec (ratedFlow rho std speed fs pr a cap) = .ok (ratedFlow rho std speed fs pr a cap) := by
  rw [setRatio_rated _ _ _ _ _ _ _ _ h1 h2 h6]
  simp [ratedFlow, mul_div_cancel_right₀ _ h2]

namespace Sys

/-- What a successful `make_condition` returns. -/
theorem makeCondition_spec (E : Env K) (S : Sys K) (heating : Bool) (speed : Nat) (indoor outdoor : Option (Psych.PsychState K)) (c : Conditions K)
    (h : S.makeCondition E heating speed indoor outdoor = .ok c) :
    ∃ rho pr a cap fs, rho ≠ 0 ∧ E.rhoStd ≠ 0 ∧ a ≠ 0 ∧ cap ≠ 0 ∧
      (Psych.getRho E.lib (indoor.getD (defaultIndoor E heating))).1 = .ok rho ∧
      (if heating then S.netHeating else S.netCooling)[speed]? = some cap ∧
      (if heating then S.heatingAirflow else S.coolingAirflow)[speed]? = some (some a) ∧
      (∃ full, (if heating then S.heatingAirflow else S.coolingAirflow)[0]? = some (some full) ∧ full ≠ 0 ∧ pr = S.fullESP * (a / full) ^ 2) ∧
      (if heating then S.ratedHeatingFanSpeed else S.ratedCoolingFanSpeed)[speed]? = some fs ∧
      c = { heating, indoor := indoor.getD (defaultIndoor E heating), outdoor := outdoor.getD (defaultOutdoor E heating)
            flow := ratedFlow rho E.rhoStd speed fs pr a cap } := by
  simp only [makeCondition, ratedPressure, bind_eq_ok, pyGet_eq_ok, pdiv_eq_ok, pure_eq_ok, Except.ok.injEq] at h
  obtain ⟨cap, hcap, airflow, ha, full, hfull, fs, hfs, x, hx, y, hy, pr, ⟨z, ⟨hz, rfl⟩, rfl⟩, rho, hrho, w, hw, flow, hflow, rfl⟩ := h
  have hxw : x = w := by simpa [hx] using hw
  subst hxw
  cases airflow with
  | none => simp [pyNum] at hx
  | some a' =>
    cases full with
    | none => simp [pyNum] at hy
    | some f' =>
      simp only [pyNum, Except.ok.injEq] at hx hy
      subst hx; subst hy
      obtain ⟨h1, h2, h3, h4, rfl⟩ := setRated_exec _ _ _ _ _ _ _ _ hflow
      exact ⟨rho, _, a', cap, fs, h1, h2, h3, h4, hrho, hcap, ha, ⟨f', hfull, hz, rfl⟩, hfs, rfl⟩

/-- Sufficient conditions for `make_condition` to succeed. -/
theorem makeCondition_ok (E : Env K) (S : Sys K) (heating : Bool) (speed : Nat) (indoor outdoor : Option (Psych.PsychState K))
    (rho a cap full : K) (fs : Option Nat) (h1 : rho ≠ 0) (h2 : E.rhoStd ≠ 0) (h3 : a ≠ 0) (h4 : cap ≠ 0) (h5 : full ≠ 0)
    (hrho : (Psych.getRho E.lib (indoor.getD (defaultIndoor E heating))).1 = .ok rho)
    (hcap : (if heating then S.netHeating else S.netCooling)[speed]? = some cap)
    (ha : (if heating then S.heatingAirflow else S.coolingAirflow)[speed]? = some (some a))
    (hfull : (if heating then S.heatingAirflow else S.coolingAirflow)[0]? = some (some full))
    (hfs : (if heating then S.ratedHeatingFanSpeed else S.ratedCoolingFanSpeed)[speed]? = some fs) :
    S.makeCondition E heating speed indoor outdoor = .ok
      { heating, indoor := indoor.getD (defaultIndoor E heating), outdoor := outdoor.getD (defaultOutdoor E heating)
        flow := ratedFlow rho E.rhoStd speed fs (S.fullESP * (a / full) ^ 2) a cap } := by
  simp only [makeCondition, ratedPressure, bind_eq_ok, pyGet_eq_ok, pdiv_eq_ok, pure_eq_ok, Except.ok.injEq]
  exact ⟨cap, hcap, some a, ha, some full, hfull, fs, hfs, a, rfl, full, rfl, _, ⟨_, ⟨h5, rfl⟩, rfl⟩, rho, hrho, a, rfl, _,
    setRated_exec_ok _ _ _ _ _ _ _ h1 h2 h3 h4, rfl⟩

end Sys
end Resdx
