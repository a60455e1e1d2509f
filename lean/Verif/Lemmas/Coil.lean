import Verif.Spec.Coil
import Verif.Lemmas.Psychrometrics
import Verif.Lemmas.DXUnit

/-! # Helper lemmas for the cooling coil -/

set_option linter.unusedSectionVars false
set_option linter.unusedSimpArgs false

namespace Resdx.Coil

open Psych Spec

variable {T : Tools}

theorem read_enthalpy {db p v : ℝ} {s : PsychState ℝ} (h : Psych.init T.lib db p [("enthalpy", v)] = .ok s) :
    s.db = db ∧ s.dbC = toC db ∧ s.p = p ∧ (getH T.lib s).1 = .ok v ∧ ∃ w, T.lib.humRatioFromEnthalpyAndTDryBulb v (toC db) = .ok w ∧ (getHr T.lib s).1 = .ok w ∧ s.hr = some w := by
  rw [init_enthalpy] at h
  simp only [bind_eq_ok] at h
  obtain ⟨w, hw, b, hb, h⟩ := h
  cases h
  exact ⟨rfl, rfl, rfl, rfl, w, hw, rfl, rfl⟩

theorem read_humRat {db p v : ℝ} {s : PsychState ℝ} (h : Psych.init T.lib db p [("hum_rat", v)] = .ok s) :
    s.db = db ∧ s.dbC = toC db ∧ s.p = p ∧ (getHr T.lib s).1 = .ok v ∧ (getH T.lib s).1 = T.lib.moistAirEnthalpy (toC db) v ∧ s.hr = some v := by
  rw [init_humRat] at h
  simp only [bind_eq_ok] at h
  obtain ⟨b, hb, h⟩ := h
  cases h
  refine ⟨rfl, rfl, rfl, rfl, ?_, rfl⟩
  simp only [getH, getHr, PyM.bind_run, PyM.get_run, PyM.pure_run, PyM.liftM_run, blank]
  cases T.lib.moistAirEnthalpy (toC db) v <;> rfl

theorem outlet_spec {c : Conditions ℝ} {total sens m : ℝ} {out : PsychState ℝ} {tI wI : ℝ} (hin : Reports T c.indoor tI wI) (hm : c.flow.mass = some m) (m0 : 0 < m)
    (ho : outletState T c total sens = .ok out) : out.db = frC (tI - sens / (m * 1006)) ∧ out.dbC = tI - sens / (m * 1006) ∧ (getH T.lib out).1 = .ok (airEnthalpy tI wI - total / m) ∧
      ∃ w, T.lib.humRatioFromEnthalpyAndTDryBulb (airEnthalpy tI wI - total / m) (tI - sens / (m * 1006)) = .ok w ∧ (getHr T.lib out).1 = .ok w := by
  have hmc : m * cp ≠ 0 := by unfold cp; positivity
  simp only [outletState, hin.h, hm, pyAttr, pdiv_ok m0.ne', pdiv_ok hmc, bind_ok, hin.db] at ho
  obtain ⟨h1, h2, -, h3, w, h4, h5, -⟩ := read_enthalpy ho
  have e : toC (frC tI - sens / (m * cp)) = tI - sens / (m * 1006) := by unfold toC frC cp; ring
  have e' : frC tI - sens / (m * cp) = frC (tI - sens / (m * 1006)) := by unfold frC cp; ring
  rw [e] at h2 h4
  exact ⟨by rw [h1, e'], h2, h3, w, h4, h5⟩

theorem adp_spec {a b adp : PsychState ℝ} {tI wI tO wO : ℝ} (L : MoistAirLaws T) (i1 : a.dbC = tI) (i2 : (getHr T.lib a).1 = .ok wI) (o1 : b.dbC = tO) (o2 : (getHr T.lib b).1 = .ok wO) (hne : tI ≠ tO)
    (ha : adpState T a b = .ok adp) : ∃ t w, adp.db = frC t ∧ adp.dbC = t ∧ adp.hr = some w ∧ (getHr T.lib adp).1 = .ok w ∧ (getH T.lib adp).1 = T.lib.moistAirEnthalpy t w ∧ T.coil.satHumRatio t a.p = .ok w ∧ t ≤ tO ∧ w ≤ wO ∧
      w = wI - (wI - wO) / (tI - tO) * (tI - t) := by
  simp only [adpState, i1, i2, o1, o2, bind_ok, bind_eq_ok] at ha
  obtain ⟨t, ht, w, hw, ha⟩ := ha
  have hd : tI - tO ≠ 0 := sub_ne_zero.2 hne
  have hr := L.root _ _ _ ht
  simp only [lineHumRatio, pdiv_ok hd, bind_ok, pure_eq_ok, Except.ok.injEq] at hw
  simp only [adpResidual, lineHumRatio, pdiv_ok hd, bind_ok, pure_eq_ok, bind_eq_ok, Except.ok.injEq] at hr
  obtain ⟨v, hv, hr⟩ := hr
  have hvw : v = w := by rw [← hw]; linarith
  subst hvw
  split at ha
  · cases ha
  · next hc =>
    rw [not_or, not_lt, not_lt] at hc
    obtain ⟨a1, a2, -, a4, a5, a6⟩ := read_humRat ha
    have e : toC (frC t) = t := by unfold toC frC; ring
    rw [e] at a2 a5
    exact ⟨t, v, a1, a2, a6, a4, a5, L.saturated _ _ _ hv, hc.1, hc.2, hw.symm⟩

/-- What a returning `gross_sensible_cooling_capacity` has computed. -/
theorem sensible_spec {c : Conditions ℝ} {total bf m s tI wI : ℝ} (L : MoistAirLaws T) (hin : Reports T c.indoor tI wI) (hm : c.flow.mass = some m)
    (hs : sensibleFrom T c (.ok total) (.ok bf) = .ok s) : ∃ t w, T.coil.satHumRatio t c.indoor.p = .ok w ∧ m * (1 - bf) ≠ 0 ∧ airEnthalpy t w = airEnthalpy tI wI - total / (m * (1 - bf)) ∧
      total ≠ 0 ∧ s = total * (airEnthalpy tI w - airEnthalpy t w) / (airEnthalpy tI wI - airEnthalpy t w) := by
  simp only [sensibleFrom, bind_ok, hin.h, hm, pyAttr, hin.dbC, bind_eq_ok] at hs
  obtain ⟨x, hx, t, ht, w, hw, h, hh, hs⟩ := hs
  obtain ⟨hx0, rfl⟩ := pdiv_eq_ok.1 hx
  have hr := L.root _ _ _ ht
  simp only [bind_eq_ok, pure_eq_ok, Except.ok.injEq] at hr
  obtain ⟨v, hv, hr⟩ := hr
  obtain ⟨-, w0, hsat⟩ := L.satEnthalpy _ _ _ hw
  rw [hsat] at hv
  cases hv
  have hh' := L.enthalpy _ _ _ w0 hh
  subst hh'
  have e : airEnthalpy t w = airEnthalpy tI wI - total / (m * (1 - bf)) := by linarith
  obtain ⟨hd, rfl⟩ := pdiv_eq_ok.1 hs
  refine ⟨t, w, hw, hx0, e, ?_, by rw [e]⟩
  rintro rfl
  apply hd
  simp

theorem sat_unique (L : MoistAirLaws T) {t t' w w' p : ℝ} (h : T.coil.satHumRatio t p = .ok w) (h' : T.coil.satHumRatio t' p = .ok w') (e : airEnthalpy t w = airEnthalpy t' w') : t = t' ∧ w = w' := by
  have h1 := (L.satEnthalpy _ _ _ h).2.2
  have h2 := (L.satEnthalpy _ _ _ h').2.2
  have : t = t' := by
    rcases lt_trichotomy t t' with hl | rfl | hl
    · exact absurd e (L.increasing _ _ _ _ _ hl h1 h2).ne
    · rfl
    · exact absurd e (L.increasing _ _ _ _ _ hl h2 h1).ne'
  subst this
  rw [h] at h'
  cases h'
  exact ⟨rfl, rfl⟩

/-- The rated coil: the outlet and apparatus-dew-point states of a returning `calculate_rated_bypass_factor`, and the sensible capacity with the resulting bypass factor. -/
theorem rated_coil (L : MoistAirLaws T) {c : Conditions ℝ} {m shr total bf ntu tI wI : ℝ} (hin : Reports T c.indoor tI wI) (wI0 : 1e-7 ≤ wI) (hm : c.flow.mass = some m) (m0 : 0 < m) (q0 : 0 < total) (s0 : 0 < shr)
    (hb : ratedBypass T c shr total = .ok (bf, ntu)) :
    ∃ out adp tO wO tA wA, outletState T c total (shr * total) = .ok out ∧ adpState T c.indoor out = .ok adp ∧ out.dbC = tO ∧ (getHr T.lib out).1 = .ok wO ∧ Reports T adp tA wA ∧
      T.coil.satHumRatio tA c.indoor.p = .ok wA ∧ -100 ≤ tA ∧ 1e-7 ≤ wA ∧ tA < tO ∧ tO < tI ∧ wA ≤ wO ∧ wO ≤ wI ∧ (wI - wA) * (tI - tO) = (wI - wO) * (tI - tA) ∧
      airEnthalpy tI wI - total / m ≤ airEnthalpy tO wO ∧ (1e-7 < wO → airEnthalpy tI wI - total / m = airEnthalpy tO wO) ∧ tI - tO = shr * total / (m * 1006) ∧
      0 < bf ∧ bf * (airEnthalpy tI wI - airEnthalpy tA wA) = airEnthalpy tI wI - total / m - airEnthalpy tA wA ∧ ntu = -m * Real.log bf := by
  simp only [ratedBypass, bind_eq_ok, hin.h, hm, pyAttr, bind_ok] at hb
  obtain ⟨out, ho, adp, ha, hO, hO', hA, hA', hb⟩ := hb
  obtain ⟨-, o2, o3, wO, o4, o5⟩ := outlet_spec hin hm m0 ho
  rw [o3] at hO'
  cases hO'
  set tO := tI - shr * total / (m * 1006) with htO
  have hdrop : 0 < shr * total / (m * 1006) := by positivity
  have hlt : tO < tI := by linarith
  obtain ⟨tA, wA, a1, a2, a3, a4, a5, a6, a7, a8, a9⟩ := adp_spec L hin.dbC hin.hr o2 o5 hlt.ne' ha
  obtain ⟨t100, wA0, -⟩ := L.satEnthalpy _ _ _ a6
  rw [a5] at hA'
  have := L.enthalpy _ _ _ wA0 hA'
  subst this
  have hw := L.humRatio _ _ _ (by linarith) o4
  set h := airEnthalpy tI wI - total / m with hh
  have den : 0 < 2501000 + 1860 * tO := by linarith
  have hle : h ≤ airEnthalpy tO wO := by
    have : (h - 1006 * tO) / (2501000 + 1860 * tO) ≤ wO := by rw [hw]; exact le_max_left _ _
    rw [div_le_iff₀ den] at this
    unfold airEnthalpy; linarith
  have heq : 1e-7 < wO → h = airEnthalpy tO wO := by
    intro hwO
    have : wO = (h - 1006 * tO) / (2501000 + 1860 * tO) := by
      rcases max_choice ((h - 1006 * tO) / (2501000 + 1860 * tO)) (1e-7 : ℝ) with e | e
      · rw [hw, e]
      · rw [hw, e] at hwO; exact absurd hwO (lt_irrefl _)
    rw [eq_div_iff den.ne'] at this
    unfold airEnthalpy; linarith
  have hline : (wI - wA) * (tI - tO) = (wI - wO) * (tI - tA) := by
    rw [a9]
    have : tI - tO ≠ 0 := by linarith
    field_simp
    ring
  simp only [DX.ratedBypassFactor, bind_eq_ok, pure_eq_ok, Except.ok.injEq, Prod.mk.injEq] at hb
  obtain ⟨x, hx, y, hy, rfl, rfl⟩ := hb
  obtain ⟨hd, hx⟩ := pdiv_eq_ok.1 hx
  have hy' : 0 < x ∧ y = Real.log x := by
    unfold plog at hy
    split at hy
    · next h => cases hy; exact ⟨h, rfl⟩
    · cases hy
  have hbf : x * (airEnthalpy tI wI - airEnthalpy tA wA) = h - airEnthalpy tA wA := by rw [← hx]; field_simp
  have htA : tA < tO := by
    rcases a7.lt_or_eq with h1 | h1
    · exact h1
    · exfalso
      have hwe : wA = wO := by
        rw [h1] at hline
        have : tI - tO ≠ 0 := by linarith
        have := mul_right_cancel₀ this hline
        linarith
      rcases wA0.lt_or_eq with h2 | h2
      · have : h = airEnthalpy tA wA := by rw [heq (by rw [← hwe]; exact h2), h1, hwe]
        rw [this, sub_self] at hbf
        rcases mul_eq_zero.1 hbf with h3 | h3
        · exact hy'.1.ne' h3
        · exact hd h3
      · have hpos : 0 < airEnthalpy tI wI - airEnthalpy tA wA := by
          unfold airEnthalpy
          nlinarith [mul_nonneg (sub_nonneg.2 (h2 ▸ wI0 : wA ≤ wI)) (by linarith : (0:ℝ) ≤ 2501000 + 1860 * tI), mul_pos (by linarith : (0:ℝ) < wA) (by linarith : 0 < tI - tA)]
        have h3 : h ≤ airEnthalpy tA wA := by rw [hwe, h1]; exact hle
        nlinarith [mul_pos hy'.1 hpos]
  have hwO : wO ≤ wI := by
    by_contra hc
    push Not at hc
    have h1 : (wI - wO) * (tI - tA) < (wI - wO) * (tI - tO) := by nlinarith
    have h2 : (wI - wO) * (tI - tO) ≤ (wI - wA) * (tI - tO) := mul_le_mul_of_nonneg_right (by linarith) (by linarith)
    linarith
  exact ⟨out, adp, tO, wO, tA, wA, ho, ha, o2, o5, ⟨a1, a2, a4, by rw [a5]; exact hA'⟩, a6, t100, wA0, htA, hlt, a8, hwO, hline, hle, heq, by rw [htO]; ring, hy'.1, hbf, by rw [hy'.2]⟩

end Resdx.Coil
