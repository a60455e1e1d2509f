import Verif.Lemmas.ResnetCoil
import Verif.Spec.RatedAir
import Verif.Props.ResnetReturns
import Verif.Lemmas.Coil
import Mathlib.Topology.Order.IntermediateValue
import Mathlib.Analysis.Convex.Mul

/-!
# C90 and C102: the coil calculation returns for air as published

The surroundings that the theorems about constructed units assume follow from published properties of moist air and from a root finder that converges for convex functions.
-/

set_option linter.unusedSectionVars false
set_option linter.unusedSimpArgs false

namespace Resdx.Build

open Spec Tabular BaseModel Props ResnetFan Fan Table Set

variable {u : Units ℝ} {E : Env ℝ} {T : Coil.Tools} {brentq : Brentq} {a : Args} {sat : ℝ → ℝ}

theorem indoor80 : toC (frF (80 : ℝ)) = 26 + 2 / 3 := by unfold toC frF; norm_num

/-- A convex function that is negative at 12 and positive at 13 is positive beyond. -/
theorem positive_beyond {F : ℝ → ℝ} {b t : ℝ} (hF : ConvexOn ℝ (Icc 12 b) F) (h12 : F 12 < 0) (h13 : 0 < F 13) (ht : 13 ≤ t) (hb : t ≤ b) : 0 < F t := by
  have hd : 0 < t - 12 := by linarith
  have h := hF.2 (show (12 : ℝ) ∈ Icc 12 b from ⟨le_refl _, by linarith⟩) (show t ∈ Icc 12 b from ⟨by linarith, hb⟩) (show 0 ≤ (t - 13) / (t - 12) from div_nonneg (by linarith) hd.le)
    (show 0 ≤ 1 / (t - 12) by positivity) (by field_simp; ring)
  have e : ((t - 13) / (t - 12)) • (12 : ℝ) + (1 / (t - 12)) • t = 13 := by simp only [smul_eq_mul]; field_simp; ring
  rw [e] at h
  simp only [smul_eq_mul] at h
  have h1 : (t - 13) / (t - 12) * F 12 ≤ 0 := mul_nonpos_of_nonneg_of_nonpos (div_nonneg (by linarith) hd.le) h12.le
  have h2 : 0 < 1 / (t - 12) * F t := by linarith
  exact (mul_pos_iff_of_pos_left (by positivity)).mp h2

theorem wet_hr {lib : Psych.PsychLib ℝ} {atm db wb w : ℝ} (h : lib.humRatioFromTWetBulb (toC db) (toC wb) atm = .ok w) : (Psych.getHr lib (wetState atm db wb)).1 = .ok w := by
  simp [Psych.getHr, Psych.getWbC, Psych.setHr, PyM.bind_run, PyM.get_run, PyM.pure_run, PyM.liftM_run, PyM.modify_run, wetState, Psych.blank, h]

theorem wet_h {lib : Psych.PsychLib ℝ} {atm db wb w v : ℝ} (h : lib.humRatioFromTWetBulb (toC db) (toC wb) atm = .ok w) (h' : lib.moistAirEnthalpy (toC db) w = .ok v) :
    (Psych.getH lib (wetState atm db wb)).1 = .ok v := by
  simp [Psych.getH, Psych.getHr, Psych.getWbC, Psych.setHr, Psych.setH, PyM.bind_run, PyM.get_run, PyM.pure_run, PyM.liftM_run, PyM.modify_run, wetState, Psych.blank, h, h']

theorem wet_rho {lib : Psych.PsychLib ℝ} {atm db wb w v : ℝ} (h : lib.humRatioFromTWetBulb (toC db) (toC wb) atm = .ok w) (h' : lib.moistAirDensity (toC db) w atm = .ok v) :
    (Psych.getRho lib (wetState atm db wb)).1 = .ok v := by
  simp [Psych.getRho, Psych.getHr, Psych.getWbC, Psych.setHr, Psych.setRho, PyM.bind_run, PyM.get_run, PyM.pure_run, PyM.liftM_run, PyM.modify_run, wetState, Psych.blank, h, h']

/-- The slope of the line from the rated indoor air to the outlet: `y` is the temperature drop. -/
theorem outlet_line {w x y tO : ℝ} (hw1 : 0.0111 ≤ w) (hw2 : w ≤ 0.0112) (hy0 : 0 < y) (hy : ratedShr * x = 1006 * y) (htO : tO = 26 + 2 / 3 - y) (ht1 : 13 ≤ tO) :
    ∃ s, 0.000147 ≤ s ∧ s ≤ 0.000149 ∧ (airEnthalpy (26 + 2 / 3) w - x - 1006 * tO) / (2501000 + 1860 * tO) = w - s * y := by
  have hD : 0 < 2501000 + 1860 * tO := by linarith
  refine ⟨(1006 / ratedShr - 1006 - 1860 * w) / (2501000 + 1860 * tO), ?_, ?_, ?_⟩
  · rw [le_div_iff₀ hD]
    have : (396 : ℝ) ≤ 1006 / ratedShr - 1006 := by unfold ratedShr; norm_num
    have ht2 : tO ≤ 26 + 2 / 3 := by linarith
    linarith
  · rw [div_le_iff₀ hD]
    have : 1006 / ratedShr - 1006 ≤ 396.2 := by unfold ratedShr; norm_num
    linarith
  · have hx : x = 1006 / ratedShr * y := by
      have : (ratedShr : ℝ) ≠ 0 := by unfold ratedShr; norm_num
      field_simp; linarith
    rw [hx]
    unfold airEnthalpy
    generalize (1006 / ratedShr : ℝ) = k
    have htO' : y = 26 + 2 / 3 - tO := by linarith
    rw [htO']
    field_simp
    ring

/-- What the coil calculation finds at the rated conditions: the humidity ratio `w` of the indoor air, the slope `s` of the line to the apparatus dew point `tA`, and the bypass factor. -/
structure Found (T : Coil.Tools) (sat : ℝ → ℝ) (c : Conditions ℝ) (t m w s tA bf ntu : ℝ) : Prop where
  inside : (Psych.getH T.lib c.indoor).1 = .ok (airEnthalpy (26 + 2 / 3) w)
  humid : 0.0111 ≤ w ∧ w ≤ 0.0112
  slope : 0.000147 ≤ s ∧ s ≤ 0.000149
  dew : 12 < tA ∧ tA < 13
  line : sat tA = w - s * (26 + 2 / 3 - tA)
  below : w < sat (26 + 2 / 3)
  stored : Coil.ratedBypass T c ratedShr t = .ok (bf, ntu)
  bypass : DX.bypassFactor ntu m = .ok bf
  flow : m * (1 - bf) ≠ 0
  drop : t / (m * (1 - bf)) = airEnthalpy (26 + 2 / 3) w - airEnthalpy tA (sat tA)

/-- The coil calculation returns for every capacity up to 1.2 times the rated one, if the mass flow at 400 cfm/ton is at least 64 mg/s per watt (it is 64.4). -/
theorem coil_found (hA : RatedAir T E.atm sat) (hN : FindsConvexRoots T.newton) (hm : 6.4e-5 ≤ 400 * u.cfm / u.ton * E.rhoStd) {q t : ℝ} (hq : 0 < q) (ht0 : 0 < t) (ht : t ≤ 1.2 * q)
    {c : Conditions ℝ} (hin : c.indoor = defaultIndoor E false) (hmass : c.flow.mass = some (q * (400 * u.cfm / u.ton) * E.rhoStd)) :
    ∃ w s tA bf ntu, Found T sat c t (q * (400 * u.cfm / u.ton) * E.rhoStd) w s tA bf ntu := by
  rw [mul_assoc q]
  obtain ⟨w, hw1, hw2, hw⟩ := hA.indoor
  rw [mul_assoc] at hmass
  set m := q * (400 * u.cfm / u.ton * E.rhoStd) with hmdef
  have hm1 : q * 6.4e-5 ≤ m := mul_le_mul_of_nonneg_left hm hq.le
  have hm0 : 0 < m := lt_of_lt_of_le (by positivity) hm1
  obtain ⟨x, hx⟩ : ∃ x, x = t / m := ⟨_, rfl⟩
  have hx0 : 0 < x := by rw [hx]; positivity
  have hx1 : x ≤ 18750 := by rw [hx, div_le_iff₀ hm0]; linarith
  have hmc : m * Coil.cp ≠ 0 := by unfold Coil.cp; positivity
  obtain ⟨y, hy⟩ : ∃ y, y = ratedShr * t / (m * Coil.cp) := ⟨_, rfl⟩
  have hxy : ratedShr * x = 1006 * y := by rw [hy, hx]; unfold Coil.cp; field_simp
  have hy0 : 0 < y := by have : 0 < ratedShr * x := by unfold ratedShr; positivity
                         linarith
  have hy1 : y ≤ 13.4 := by have : ratedShr * x ≤ 0.7174748 * 18750 := by unfold ratedShr; linarith
                            linarith
  have hdb : c.indoor.db = frF 80 := by rw [hin]; rfl
  have hdbC : c.indoor.dbC = 26 + 2 / 3 := by rw [hin, ← indoor80]; rfl
  have hp : c.indoor.p = E.atm := by rw [hin]; rfl
  have hin' : c.indoor = wetState E.atm (frF 80) (frF 67) := hin
  have e2 : (Psych.getHr T.lib c.indoor).1 = .ok w := by rw [hin']; exact wet_hr hw
  have e1 : (Psych.getH T.lib c.indoor).1 = .ok (airEnthalpy (26 + 2 / 3) w) := by
    rw [hin']; exact wet_h hw (by rw [indoor80]; exact hA.enthalpy (26 + 2 / 3) w (by norm_num) (by norm_num) (by linarith))
  obtain ⟨tO, htO⟩ : ∃ tO, tO = 26 + 2 / 3 - y := ⟨_, rfl⟩
  have htO1 : 13.2 ≤ tO := by rw [htO]; linarith
  have htO2 : tO < 26 + 2 / 3 := by rw [htO]; linarith
  obtain ⟨s, hs1, hs2, hs⟩ := outlet_line hw1 hw2 hy0 hxy htO (by linarith)
  -- the residual
  have hF : ConvexOn ℝ (Icc 12 (26 + 2 / 3 + 1)) (fun t => sat t - (w - s * (26 + 2 / 3 - t))) := by
    have h1 := hA.convex.subset (s := Icc 12 (26 + 2 / 3 + 1)) (Icc_subset_Icc (by norm_num) (by norm_num)) (convex_Icc _ _)
    refine ⟨h1.1, fun x hx y hy a b ha hb hab => ?_⟩
    have h2 := h1.2 hx hy ha hb hab
    simp only [smul_eq_mul] at h2 ⊢
    have hb' : b = 1 - a := by linarith
    rw [hb'] at h2 ⊢
    linarith
  have hC : ContinuousOn (fun t => sat t - (w - s * (26 + 2 / 3 - t))) (Icc 12 (26 + 2 / 3 + 1)) :=
    (hA.continuous.mono (Icc_subset_Icc (by norm_num) (by norm_num))).sub (by fun_prop)
  have h12 : sat 12 - (w - s * (26 + 2 / 3 - 12)) < 0 := by have := hA.at12; linarith
  have h13 : 0 < sat 13 - (w - s * (26 + 2 / 3 - 13)) := by have := hA.at13; linarith
  have hpos : ∀ t, 13 ≤ t → t ≤ 26 + 2 / 3 + 1 → 0 < sat t - (w - s * (26 + 2 / 3 - t)) := fun t g1 g2 =>
    positive_beyond (F := fun t => sat t - (w - s * (26 + 2 / 3 - t))) hF h12 h13 g1 g2
  have hwO : 0.009 ≤ w - s * y := by
    have : s * y ≤ 0.000149 * 13.4 := mul_le_mul hs2 hy1 hy0.le (by norm_num)
    linarith
  have hline (t : ℝ) : Coil.lineHumRatio (26 + 2 / 3) w tO (w - s * y) t = .ok (w - s * (26 + 2 / 3 - t)) := by
    have hd : (26 + 2 / 3 : ℝ) - tO = y := by rw [htO]; ring
    simp only [Coil.lineHumRatio, hd, pdiv_ok hy0.ne', bind_ok, pure_eq_ok]
    have : (w - (w - s * y)) / y = s := by field_simp; ring
    rw [this]
  -- the outlet
  have hdbO : toC (frF (80 : ℝ) - y) = tO := by rw [htO, ← indoor80]; unfold toC; ring
  have hsatO : w - s * y ≤ sat tO := by
    have := hpos tO (by linarith) (by linarith)
    have e : 26 + 2 / 3 - tO = y := by rw [htO]; ring
    rw [e] at this; linarith
  obtain ⟨b, hb⟩ := hA.wetBulb tO (w - s * y) (by linarith) (by linarith) (by linarith) hsatO
  have hwr : T.lib.humRatioFromEnthalpyAndTDryBulb (airEnthalpy (26 + 2 / 3) w - x) tO = .ok (w - s * y) := by
    rw [hA.humRatio _ _ (by linarith) (by linarith), hs, max_eq_left (by linarith)]
  obtain ⟨out, hout⟩ : ∃ out, Psych.init T.lib (frF 80 - y) E.atm [("enthalpy", airEnthalpy (26 + 2 / 3) w - x)] = .ok out := by
    rw [Psych.init_enthalpy]
    simp only [hdbO, hwr, bind_ok, hb]
    exact ⟨_, rfl⟩
  obtain ⟨o1, o2, o3, o4, w', o5, o6, o7⟩ := Coil.read_enthalpy hout
  rw [hdbO, hwr] at o5
  cases o5
  have eo : Coil.outletState T c t (ratedShr * t) = .ok out := by
    unfold Coil.outletState
    simp only [e1, bind_ok, hmass, pyAttr, pdiv_ok hm0.ne', pdiv_ok hmc, ← hx, ← hy, hdb, hp, hout]
  -- the apparatus dew point
  obtain ⟨tA, hn, hA1, hA2, hA3⟩ := hN (Coil.adpResidual T (26 + 2 / 3) w tO (w - s * y) E.atm) (fun t => sat t - (w - s * (26 + 2 / 3 - t))) 12 (26 + 2 / 3) (by norm_num)
    (fun t ht => by
      simp only [Coil.adpResidual, hline, hA.saturated t (by linarith [ht.1]) (by linarith [ht.2]), bind_ok, pure_eq_ok]) hC hF h12 (hpos _ (by norm_num) (by norm_num))
  have hA4 : tA < 13 := by
    by_contra h
    exact absurd hA3 (hpos tA (not_lt.mp h) (by linarith)).ne'
  have hwA : w - s * (26 + 2 / 3 - tA) < w - s * y := by
    have e : y = 26 + 2 / 3 - tO := by rw [htO]; ring
    rw [e]
    have : 0 < s * (tO - tA) := mul_pos (by linarith) (by linarith)
    linarith
  have hwA0 : 0.008 ≤ w - s * (26 + 2 / 3 - tA) := by
    have : s * (26 + 2 / 3 - tA) ≤ 0.000149 * (26 + 2 / 3 - 12) := mul_le_mul hs2 (by linarith) (by linarith) (by norm_num)
    linarith
  obtain ⟨b', hb'⟩ := hA.wetBulb tA (w - s * (26 + 2 / 3 - tA)) (by linarith) (by linarith) (by linarith) (by linarith)
  obtain ⟨adp, hadp⟩ : ∃ adp, Psych.init T.lib (frC tA) E.atm [("hum_rat", w - s * (26 + 2 / 3 - tA))] = .ok adp := by
    rw [Psych.init_humRat]
    simp only [toC_frC, hb', bind_ok]
    exact ⟨_, rfl⟩
  obtain ⟨a1, a2, a3, a4, a5, a6⟩ := Coil.read_humRat hadp
  rw [toC_frC, hA.enthalpy _ _ (by linarith) (by linarith) (by linarith)] at a5
  have ea : Coil.adpState T c.indoor out = .ok adp := by
    unfold Coil.adpState
    rw [hdbC, o2, hdbO, hp]
    have hn' : ¬ (tO < tA ∨ w - s * y < w - s * (26 + 2 / 3 - tA)) := by
      rw [not_or, not_lt, not_lt]; exact ⟨by linarith, hwA.le⟩
    simp only [e2, o6, bind_ok, hn, hline, if_neg hn', hadp]
  -- the bypass factor
  set wA := w - s * (26 + 2 / 3 - tA) with hwAdef
  have hO : airEnthalpy (26 + 2 / 3) w - x = airEnthalpy tO (w - s * y) := by
    rw [← hs]
    have hD : (2501000 + 1860 * tO : ℝ) ≠ 0 := by positivity
    unfold airEnthalpy
    field_simp
    ring
  have hlt : airEnthalpy tA wA < airEnthalpy (26 + 2 / 3) w - x := by
    rw [hO]
    unfold airEnthalpy
    have h1 : wA * (2501000 + 1860 * tA) < (w - s * y) * (2501000 + 1860 * tO) := mul_lt_mul hwA (by linarith) (by linarith) (by linarith)
    linarith
  have p1 : 0 < airEnthalpy (26 + 2 / 3) w - airEnthalpy tA wA := by linarith
  have p2 : 0 < airEnthalpy (26 + 2 / 3) w - x - airEnthalpy tA wA := by linarith
  have p3 := div_pos p2 p1
  obtain ⟨bf, hbf⟩ : ∃ bf, bf = (airEnthalpy (26 + 2 / 3) w - x - airEnthalpy tA wA) / (airEnthalpy (26 + 2 / 3) w - airEnthalpy tA wA) := ⟨_, rfl⟩
  rw [← hbf] at p3
  have h1 : 1 - bf = x / (airEnthalpy (26 + 2 / 3) w - airEnthalpy tA wA) := by
    rw [hbf, eq_div_iff p1.ne', sub_mul, div_mul_cancel₀ _ p1.ne']; ring
  have h1' : 1 - bf ≠ 0 := by rw [h1]; positivity
  have hsA : sat tA = wA := by linarith
  refine ⟨w, s, tA, bf, -m * Real.log bf, e1, ⟨hw1, hw2⟩, ⟨hs1, hs2⟩, ⟨lt_of_le_of_ne hA1 ?_, hA4⟩, by rw [hsA, hwAdef], ?_, ?_, ?_, mul_ne_zero hm0.ne' h1', ?_⟩
  · rintro rfl
    linarith
  · have := hpos (26 + 2 / 3) (by norm_num) (by norm_num)
    simp only [sub_self, mul_zero, sub_zero] at this
    linarith
  · unfold Coil.ratedBypass
    simp only [eo, ea, bind_ok, e1, o4, a5, hmass, pyAttr, DX.ratedBypassFactor, pdiv_ok p1.ne', plog, ← hbf, if_pos p3, pure_eq_ok]
  · have : -(-m * Real.log bf) / m = Real.log bf := by field_simp
    simp only [DX.bypassFactor, pdiv_ok hm0.ne', bind_ok, pure_eq_ok, this, Real.exp_log p3]
  · rw [h1, hsA, hx]
    have : airEnthalpy (26 + 2 / 3) w - airEnthalpy tA wA ≠ 0 := p1.ne'
    field_simp

theorem coil_returns (hA : RatedAir T E.atm sat) (hN : FindsConvexRoots T.newton) (hm : 6.4e-5 ≤ 400 * u.cfm / u.ton * E.rhoStd) {q t : ℝ} (hq : 0 < q) (ht0 : 0 < t) (ht : t ≤ 1.2 * q) :
    CoilReturns u E T q t := by
  intro c hin hmass
  obtain ⟨w, s, tA, bf, ntu, F⟩ := coil_found hA hN hm hq ht0 ht hin hmass
  exact ⟨_, F.stored⟩

/-- The enthalpy of saturated air is a convex function of its temperature. -/
theorem saturated_convex (hA : RatedAir T E.atm sat) {a b : ℝ} (h0 : 0 ≤ a) (h1 : b ≤ 60) (k : ℝ) : ConvexOn ℝ (Icc a b) (fun t => airEnthalpy t (sat t) - k) := by
  have hs : Icc a b ⊆ Icc (0 : ℝ) 60 := Icc_subset_Icc h0 h1
  refine ⟨convex_Icc _ _, fun x hx y hy p q hp hq hpq => ?_⟩
  have c1 := hA.convex.2 (hs hx) (hs hy) hp hq hpq
  have hz : (p • x + q • y) ∈ Icc a b := convex_Icc _ _ hx hy hp hq hpq
  simp only [smul_eq_mul] at c1 hz ⊢
  have hmono : 0 ≤ (sat x - sat y) * (x - y) := by
    rcases le_total x y with h | h
    · exact mul_nonneg_of_nonpos_of_nonpos (sub_nonpos.2 (hA.increasing (hs hx) (hs hy) h)) (sub_nonpos.2 h)
    · exact mul_nonneg (sub_nonneg.2 (hA.increasing (hs hy) (hs hx) h)) (sub_nonneg.2 h)
  have hD : 0 ≤ 2501000 + 1860 * (p * x + q * y) := by linarith [hz.1]
  have c2 := mul_le_mul_of_nonneg_right c1 hD
  have c3 := mul_nonneg (mul_nonneg hp hq) hmono
  unfold airEnthalpy
  generalize sat (p * x + q * y) = S at *
  have hq' : q = 1 - p := by linarith
  subst hq'
  nlinarith only [c2, c3]

/-- Warmer saturated air holds more heat. -/
theorem saturated_lt (hA : RatedAir T E.atm sat) {x y : ℝ} (h0 : 12 ≤ x) (h : x < y) (h1 : y ≤ 60) (hx : 0 ≤ sat x) : airEnthalpy x (sat x) < airEnthalpy y (sat y) := by
  have hs := hA.increasing ⟨by linarith, by linarith⟩ ⟨by linarith, h1⟩ h.le
  have : sat x * (2501000 + 1860 * x) ≤ sat y * (2501000 + 1860 * y) := mul_le_mul hs (by linarith) (by linarith) (by linarith)
  unfold airEnthalpy
  linarith

/-- At the rated conditions, the sensible capacity found from the stored bypass factor is 72.9 to 73.2 percent of the total. -/
theorem sensible_found (hA : RatedAir T E.atm sat) (hN : FindsConvexRoots T.newton) {c : Conditions ℝ} (hin : c.indoor = defaultIndoor E false) {t m w s tA bf ntu : ℝ} (ht : 0 < t)
    (hm : c.flow.mass = some m) (F : Found T sat c t m w s tA bf ntu) : ∃ x, Coil.sensibleFrom T c (.ok t) (DX.bypassFactor ntu m) = .ok x ∧ 0.729 * t < x ∧ x < 0.732 * t := by
  have hdbC : c.indoor.dbC = 26 + 2 / 3 := by rw [hin, ← indoor80]; rfl
  have hp : c.indoor.p = E.atm := by rw [hin]; rfl
  obtain ⟨hs1, hs2⟩ := F.slope
  obtain ⟨hw1, hw2⟩ := F.humid
  obtain ⟨hA1, hA2⟩ := F.dew
  have hl := F.line
  have k1 : 0.000147 * (26 + 2 / 3 - tA) ≤ s * (26 + 2 / 3 - tA) := mul_le_mul_of_nonneg_right hs1 (by linarith)
  have k2 : s * (26 + 2 / 3 - tA) ≤ 0.000149 * (26 + 2 / 3 - tA) := mul_le_mul_of_nonneg_right hs2 (by linarith)
  have w1 : 0.0089 ≤ sat tA := by linarith
  have w2 : sat tA ≤ 0.0092 := by linarith
  have hlt : airEnthalpy tA (sat tA) < airEnthalpy (26 + 2 / 3) w := by
    unfold airEnthalpy
    have : sat tA * (2501000 + 1860 * tA) ≤ w * (2501000 + 1860 * (26 + 2 / 3)) := mul_le_mul (by linarith) (by linarith) (by linarith) (by linarith)
    linarith
  have h12 : airEnthalpy 12 (sat 12) - airEnthalpy tA (sat tA) < 0 := by
    have hs := hA.increasing (show (12 : ℝ) ∈ Icc 0 60 by constructor <;> norm_num) (show tA ∈ Icc 0 60 from ⟨by linarith, by linarith⟩) hA1.le
    unfold airEnthalpy
    have : sat 12 * (2501000 + 1860 * 12) ≤ sat tA * (2501000 + 1860 * 12) := mul_le_mul_of_nonneg_right hs (by norm_num)
    have : sat tA * (2501000 + 1860 * 12) ≤ sat tA * (2501000 + 1860 * tA) := mul_le_mul_of_nonneg_left (by linarith) (by linarith)
    linarith
  have h26 : 0 < airEnthalpy (26 + 2 / 3) (sat (26 + 2 / 3)) - airEnthalpy tA (sat tA) := by
    have := F.below
    have : airEnthalpy (26 + 2 / 3) w < airEnthalpy (26 + 2 / 3) (sat (26 + 2 / 3)) := by unfold airEnthalpy; linarith
    linarith
  have hC : ContinuousOn (fun t => airEnthalpy t (sat t) - airEnthalpy tA (sat tA)) (Icc 12 (26 + 2 / 3 + 1)) := by
    have := hA.continuous.mono (Icc_subset_Icc (show (0:ℝ) ≤ 12 by norm_num) (show (26 + 2 / 3 + 1 : ℝ) ≤ 60 by norm_num))
    unfold airEnthalpy
    fun_prop
  obtain ⟨z, hz, z1, z2, z3⟩ := hN (fun t => do return (← T.coil.satAirEnthalpy t c.indoor.p) - airEnthalpy tA (sat tA)) (fun t => airEnthalpy t (sat t) - airEnthalpy tA (sat tA)) 12 (26 + 2 / 3)
    (by norm_num) (fun t ht => by rw [hp]; simp only [hA.satEnthalpy t (by linarith [ht.1]) (by linarith [ht.2]), bind_ok, pure_eq_ok]) hC (saturated_convex hA (by norm_num) (by norm_num) _) h12 h26
  have hzA : z = tA := by
    rcases lt_trichotomy z tA with h | h | h
    · exfalso
      have hs := hA.increasing (show z ∈ Icc 0 60 from ⟨by linarith, by linarith⟩) (show tA ∈ Icc 0 60 from ⟨by linarith, by linarith⟩) h.le
      have e1 : sat z * (2501000 + 1860 * z) ≤ sat tA * (2501000 + 1860 * z) := mul_le_mul_of_nonneg_right hs (by linarith)
      have e2 : sat tA * (2501000 + 1860 * z) ≤ sat tA * (2501000 + 1860 * tA) := mul_le_mul_of_nonneg_left (by linarith) (by linarith)
      unfold airEnthalpy at z3
      linarith
    · exact h
    · exfalso
      have := saturated_lt hA hA1.le h (by linarith) (by linarith)
      linarith
  subst hzA
  have hD : airEnthalpy (26 + 2 / 3) w - airEnthalpy z (sat z) ≠ 0 := by linarith
  refine ⟨t * (airEnthalpy (26 + 2 / 3) (sat z) - airEnthalpy z (sat z)) / (airEnthalpy (26 + 2 / 3) w - airEnthalpy z (sat z)), ?_, ?_⟩
  · unfold Coil.sensibleFrom
    have e : airEnthalpy (26 + 2 / 3) w - (airEnthalpy (26 + 2 / 3) w - airEnthalpy z (sat z)) = airEnthalpy z (sat z) := by ring
    have hsat : T.coil.satHumRatio z c.indoor.p = .ok (sat z) := by rw [hp]; exact hA.satHumRatio z (by linarith) (by linarith)
    simp only [bind_ok, F.inside, hm, pyAttr, F.bypass, pdiv_ok F.flow, F.drop, e, hdbC, hz, hsat,
      hA.enthalpy (26 + 2 / 3) (sat z) (by norm_num) (by norm_num) (by linarith), pdiv_ok hD]
  · have hY : 0 < 26 + 2 / 3 - z := by linarith
    obtain ⟨Y, hYd⟩ : ∃ Y, Y = 26 + 2 / 3 - z := ⟨_, rfl⟩
    obtain ⟨W, hWd⟩ : ∃ W, W = sat z := ⟨_, rfl⟩
    rw [← hYd] at hl hY
    rw [← hWd] at hl w1 w2 ⊢
    have n1 : airEnthalpy (26 + 2 / 3) W - airEnthalpy z W = (1006 + 1860 * W) * Y := by rw [hYd]; unfold airEnthalpy; ring
    have n2 : airEnthalpy (26 + 2 / 3) w - airEnthalpy z W = (1006 + 1860 * W + s * 2550600) * Y := by
      have : w = W + s * Y := by linarith
      rw [this, hYd]; unfold airEnthalpy; ring
    have n3 : 0 < 1006 + 1860 * W + s * 2550600 := by linarith
    have n4 : t * ((1006 + 1860 * W) * Y) / ((1006 + 1860 * W + s * 2550600) * Y) = t * ((1006 + 1860 * W) / (1006 + 1860 * W + s * 2550600)) := by field_simp
    rw [n1, n2, n4, mul_comm _ t, mul_comm _ t]
    exact ⟨mul_lt_mul_of_pos_left ((lt_div_iff₀ n3).2 (by linarith)) ht, mul_lt_mul_of_pos_left ((div_lt_iff₀ n3).2 (by linarith)) ht⟩

/-- The published air and the two root finders: all that construction needs from outside. -/
structure Published (u : Units ℝ) (E : Env ℝ) (T : Coil.Tools) (sat : ℝ → ℝ) : Prop where
  lib : E.lib = T.lib
  air : RatedAir T E.atm sat
  newton : FindsConvexRoots T.newton
  flow : 6.4e-5 ≤ 400 * u.cfm / u.ton * E.rhoStd
  rho : 0 < E.rhoStd
  ton : 2100 ≤ u.ton

theorem Published.indoor (h : Published u E T sat) : IndoorAir E := by
  have key : ∀ db wb : ℝ, 0 ≤ toC wb → toC wb ≤ toC db → toC db ≤ 60 → ∃ rho, rho ≠ 0 ∧ (Psych.getRho E.lib (wetState E.atm db wb)).1 = .ok rho := by
    intro db wb h1 h2 h3
    obtain ⟨w, hw⟩ := h.air.humid (toC db) (toC wb) h1 h2 h3
    obtain ⟨r, hr, hr'⟩ := h.air.density (toC db) w (by linarith) h3
    exact ⟨r, hr.ne', by rw [h.lib]; exact wet_rho hw hr'⟩
  refine ⟨h.rho.ne', fun heating => ?_⟩
  cases heating
  · exact key _ _ (by unfold toC frF; norm_num) (by unfold toC frF; norm_num) (by unfold toC frF; norm_num)
  · exact key _ _ (by unfold toC frF; norm_num) (by unfold toC frF; norm_num) (by unfold toC frF; norm_num)

theorem Published.outdoor (h : Published u E T sat) {f : ℝ} (h1 : 32 ≤ f) (h2 : f ≤ 140) : Outdoor E (frF f) := by
  have e : toC (frF f) = (f - 32) * 5 / 9 := by unfold toC frF; ring
  obtain ⟨b, hb⟩ := h.air.wetBulbRel (toC (frF f)) 0.4 (by rw [e]; linarith) (by rw [e]; linarith) (by norm_num) (by norm_num)
  unfold Outdoor Resnet.ratedOutdoor
  rw [h.lib, Psych.init_relHum, hb]
  exact ⟨_, rfl⟩

/-- C90: with air as published, a root finder for convex functions and `brentq`, the surroundings suit every unit with default airflows, nameplate charge and a COP for each mode. -/
theorem C90_published {st : Staging} {qc : List ℝ} (h : Published u E T sat) (hbr : BrentqSpec brentq) (h1 : a.coolingPerCap = none) (h2 : a.heatingPerCap = none) (h3 : a.chargeDeviation = 0)
    (h4 : a.hasNetCoolingCop = true ∨ a.hasGrossCoolingCop = true) (h5 : a.netHeatingCop.isSome ∨ a.hasGrossHeatingCop = true) (hq : ∀ q ∈ qc, 0 < q) :
    Surroundings u E T brentq a st qc := by
  refine ⟨⟨h1, h2⟩, h3, fun _ => hbr, h.indoor, h.outdoor (by norm_num) (by norm_num), fun q hm t g1 g2 => ?_, h4, h5⟩
  have q0 := hq q hm
  refine coil_returns h.air h.newton h.flow q0 (q0.trans g1) (g2.trans (mul_le_mul_of_nonneg_right ?_ q0.le))
  have : 337.2 / u.ton ≤ 0.2 := by
    rw [div_le_iff₀ u.ton_pos]; have := h.ton; linarith
  linarith

/-- C102, in numbers: with air as published, the gross sensible heat ratio that a RESNET unit reports at the rating condition of each of its speeds lies between 0.729 and 0.732; the rated
one is 0.7174748. -/
theorem C102_published (h : Published u E T sat) {B : Built} (hB : build u E T brentq a = .ok B) {net : Perf ℝ} {st : Staging} {qc qh : List ℝ} (hM : Made u E a st net qc qh B) {i : Nat} {q : ℝ}
    (hi : qc[i]? = some q) (hn : i < speedCount st) :
    B.coil.shr[i]? = some (some 0.7174748) ∧ ∃ c x, B.sys.makeCondition E false i = .ok c ∧ (B.unit u E T brentq).grossSHR (some c) = .ok x ∧ 0.729 < x ∧ x < 0.732 := by
  obtain ⟨q0, c, t, hc, hg, t1, t2⟩ := hM.grossRated i q hi
  obtain ⟨c', s, t', bf, n, h1, h2, h3, h4, -, h6, wb, v, r1, r2, r3⟩ := coil_stored hB (by rw [hM.staging]; exact hn)
  have hmade : B.sys.makeCondition E false i = .ok c := hc.made
  rw [hmade] at h1; cases h1
  have hgt : (B.unit u E T brentq).grossTotalCoolingCapacity (some c) = .ok t := grossTotal_returns hM.charge hg (by linarith)
  simp only [hgt] at h2
  cases h2
  have t0 : 0 < t := q0.trans t1
  have hcf := u.cfm_pos
  have hto := u.ton_pos
  have hwb : wb = frF 67 := by
    have : (Psych.getWb c.indoor).1 = .ok (frF (67 : ℝ)) := by rw [hc.indoor]; rfl
    rw [this] at r1; exact (Except.ok.inj r1).symm
  have hv : v * u.ton / u.cfm = 400 := by
    rw [hc.perCap] at r2; cases r2
    field_simp
  have hs : s = ratedShr := by
    have e1 : c.outdoor.db = frF 95 := by rw [hc.outdoor]; rfl
    have e2 : c.indoor.db = frF 80 := by rw [hc.indoor]; rfl
    rw [hwb, hv, e1, e2, shrAt_rated] at r3
    exact (Except.ok.inj r3).symm
  subst hs
  have hle : t ≤ 1.2 * q := by
    refine t2.trans (mul_le_mul_of_nonneg_right ?_ q0.le)
    have : 337.2 / u.ton ≤ 0.2 := by rw [div_le_iff₀ hto]; have := h.ton; linarith
    linarith
  obtain ⟨w, sl, tA, bf', ntu, F⟩ := coil_found h.air h.newton h.flow q0 t0 hle hc.indoor hc.mass
  have hF := F.stored
  rw [h3] at hF
  obtain ⟨rfl, rfl⟩ := Prod.mk.inj (Except.ok.inj hF)
  obtain ⟨x, hx, x1, x2⟩ := sensible_found h.air h.newton hc.indoor t0 hc.mass F
  have hsens : (B.unit u E T brentq).grossSensibleCoolingCapacity (some c) = .ok x := by
    refine DX.Performance.grossSensible_eq_ok.2 ⟨?_, by nlinarith⟩
    have e1 : (B.unit u E T brentq).sensible c = Coil.sensibleFrom T c ((B.unit u E T brentq).grossTotalCoolingCapacity (some c)) (Coil.bypass B.coil.ntu c) := rfl
    have e2 : Coil.bypass B.coil.ntu c = DX.bypassFactor n (q * (400 * u.cfm / u.ton) * E.rhoStd) := by
      simp [Coil.bypass, Sys.at_, hc.speed, pyGet, h6, bind_ok, pyNum, hc.mass, pyAttr]
    change (B.unit u E T brentq).sensible c = _
    rw [e1, e2, hgt]
    exact hx
  refine ⟨by rw [h4, ratedShr], c, x / t, hmade, ?_, (lt_div_iff₀ t0).2 x1, (div_lt_iff₀ t0).2 x2⟩
  simp only [DX.Performance.grossSHR, hsens, hgt, bind_ok, pdiv_ok t0.ne']
  exact DX.Performance.limitCheck_both_eq_ok.2 ⟨by have := (lt_div_iff₀ t0).2 x1; linarith, by have := (div_lt_iff₀ t0).2 x2; linarith, rfl⟩

end Resdx.Build

/-! ## Air and tools that meet these requirements -/

namespace Resdx.Sample

open Spec Tabular BaseModel Props ResnetFan Fan Table Build Transfer Set

/-- The humidity ratio of saturated air, as a parabola through 8.73 g/kg at 12 °C and 9.33 g/kg at 13 °C. -/
noncomputable def moistSat (t : ℝ) : ℝ := 0.00873 + 0.0006 * (t - 12) + 0.00002 * (t - 12) * (t - 13)

/-- Air: enthalpies as published, saturated air as above, and fixed wet-bulb temperatures. -/
noncomputable def moistLib : Psych.PsychLib ℝ :=
  { humRatioFromTWetBulb := fun _ _ _ => .ok 0.01117, tWetBulbFromHumRatio := fun _ _ _ => .ok 15, tWetBulbFromRelHum := fun _ _ _ => .ok 15
    moistAirEnthalpy := fun t w => .ok (airEnthalpy t w), humRatioFromEnthalpyAndTDryBulb := fun h t => .ok (max ((h - 1006 * t) / (2501000 + 1860 * t)) 1e-7)
    moistAirDensity := fun _ _ _ => .ok 1.2, relHumFromTWetBulb := fun _ _ _ => .ok 0.5 }

/-- The largest zero not beyond a point. -/
def LargestZero (f : ℝ → Py ℝ) (x t : ℝ) : Prop := t ≤ x ∧ f t = .ok 0 ∧ ∀ t', t' ≤ x → f t' = .ok 0 → t' ≤ t

/-- A root finder that reports the largest zero not beyond its start. -/
noncomputable def moistNewton : Coil.Newton := by
  classical exact fun f x => if h : ∃ t, LargestZero f x t then .ok h.choose else .error .runtime

/-- The tools. -/
noncomputable def moistTools : Coil.Tools :=
  { lib := moistLib
    coil := { humRatioFromRelHum := fun t r _ => if 0 ≤ t ∧ t ≤ 60 then .ok (r * moistSat t) else .error .value
              satHumRatio := fun t _ => if 0 ≤ t ∧ t ≤ 60 then .ok (moistSat t) else .error .value
              satAirEnthalpy := fun t _ => if 0 ≤ t ∧ t ≤ 60 then .ok (airEnthalpy t (moistSat t)) else .error .value }
    newton := moistNewton }

/-- The surroundings. -/
noncomputable def moistEnv : Env ℝ := { lib := moistLib, atm := 101325, rhoStd := 1.2 }

theorem moistNewton_zero {f : ℝ → Py ℝ} {x t : ℝ} (h : moistNewton f x = .ok t) : LargestZero f x t := by
  unfold moistNewton at h
  split at h
  · next h' => cases h; exact h'.choose_spec
  · cases h

theorem moistNewton_finds : FindsConvexRoots moistNewton := by
  intro f F a x hax hf hc _ ha hx
  have hsub : Icc a x ⊆ Icc a (x + 1) := Icc_subset_Icc_right (by linarith)
  have hc' : ContinuousOn F (Icc a x) := hc.mono hsub
  obtain ⟨t0, ht0, hz0⟩ := intermediate_value_Icc hax.le hc' ⟨ha.le, hx.le⟩
  have hcl : IsCompact (Icc a x ∩ F ⁻¹' {0}) := isCompact_Icc.of_isClosed_subset (hc'.preimage_isClosed_of_isClosed isClosed_Icc isClosed_singleton) inter_subset_left
  obtain ⟨t, ⟨ht, hz⟩, hmax⟩ := hcl.exists_isGreatest ⟨t0, ht0, hz0⟩
  have hL : LargestZero f x t := by
    refine ⟨ht.2, by rw [hf t (hsub ht)]; exact congrArg _ hz, fun t' h1 h2 => ?_⟩
    by_cases h3 : a ≤ t'
    · refine hmax ⟨⟨h3, h1⟩, ?_⟩
      rw [hf t' (hsub ⟨h3, h1⟩)] at h2
      cases h2' : F t' with
      | _ => simpa using h2
    · exact (not_le.mp h3).le.trans ht.1
  obtain ⟨t', h'⟩ : ∃ t', moistNewton f x = .ok t' := by
    unfold moistNewton
    rw [dif_pos ⟨t, hL⟩]; exact ⟨_, rfl⟩
  have hL' := moistNewton_zero h'
  have : t' = t := le_antisymm (hL.2.2 t' hL'.1 hL'.2.1) (hL'.2.2 t hL.1 hL.2.1)
  subst this
  exact ⟨t', h', ht.1, ht.2, hz⟩

theorem moistSat_mono {t t' : ℝ} (h0 : 0 ≤ t) (h : t < t') : moistSat t < moistSat t' := by
  unfold moistSat
  nlinarith [mul_pos (sub_pos.2 h) (by linarith : 0 < t + t' + 5)]

theorem moistSat_ge {t : ℝ} (h0 : 0 ≤ t) : 0.004 ≤ moistSat t := by
  unfold moistSat; nlinarith [sq_nonneg t]

theorem moist_published : Published units moistEnv moistTools moistSat := by
  refine ⟨rfl, ?_, moistNewton_finds, by norm_num [units, moistEnv], by norm_num [moistEnv], by norm_num [units]⟩
  refine ⟨fun _ _ _ _ _ => rfl, fun _ _ _ _ => rfl, fun t h1 h2 => ?_, fun t h1 h2 => ?_, fun t h1 h2 => ?_, fun _ _ _ _ _ _ => ⟨15, rfl⟩, fun _ _ _ _ _ _ => ⟨15, rfl⟩, fun _ _ _ _ _ => ⟨0.01117, rfl⟩,
    fun _ _ _ _ => ⟨1.2, by norm_num, rfl⟩, ?_, ?_, ?_, by norm_num [moistSat], by norm_num [moistSat], ⟨0.01117, by norm_num, by norm_num, rfl⟩⟩
  · simp [moistTools, h1, h2]
  · simp [moistTools, h1, h2]
  · simp [moistTools, h1, h2]
  · intro x hx y _ hxy
    rcases hxy.lt_or_eq with h | rfl
    · exact (moistSat_mono hx.1 h).le
    · exact le_rfl
  · refine ⟨convex_Icc _ _, fun x _ y _ p q hp hq hpq => ?_⟩
    simp only [moistSat, smul_eq_mul]
    have hq' : q = 1 - p := by linarith
    subst hq'
    nlinarith [mul_nonneg (mul_nonneg hp hq) (sq_nonneg (x - y))]
  · unfold moistSat; fun_prop

/-- These tools also obey the laws that the theorems about the sensible heat ratio assume. -/
theorem moist_laws : MoistAirLaws moistTools := by
  refine ⟨fun t w h _ hh => ?_, fun h t w _ hh => ?_, fun t p w hh => ?_, fun t p w hh => ?_, fun t t' p h h' hlt h1 h2 => ?_, fun f x t h => (moistNewton_zero h).2.1⟩
  · cases hh; rfl
  · cases hh; rfl
  · simp only [moistTools, one_mul] at hh ⊢; exact hh
  · simp only [moistTools] at hh ⊢
    split at hh
    · next hr => cases hh; exact ⟨by linarith [hr.1], by linarith [moistSat_ge hr.1], by rw [if_pos hr]⟩
    · cases hh
  · simp only [moistTools] at h1 h2
    split at h1
    · next hr =>
      cases h1
      split at h2
      · next hr' =>
        cases h2
        have g1 := moistSat_mono hr.1 hlt
        have g2 := moistSat_ge hr.1
        unfold airEnthalpy
        have : moistSat t * (2501000 + 1860 * t) < moistSat t' * (2501000 + 1860 * t') := mul_lt_mul g1 (by linarith) (by linarith [hr.1]) (by linarith)
        linarith
      · cases h2
    · cases h1

/-- `C90_published` holds of these surroundings and every positive size. -/
example {brentq : Brentq} (hbr : BrentqSpec brentq) (hq : (0 : ℝ) < 10000) : Surroundings units moistEnv moistTools brentq oneArgs .single [10000] :=
  C90_published moist_published hbr rfl rfl rfl (.inr rfl) (.inr rfl) (by simpa using hq)

theorem moist_made {brentq : Brentq} (hbr : BrentqSpec brentq) : ∃ B net, build units moistEnv moistTools brentq oneArgs = .ok B ∧ Made units moistEnv oneArgs .single net [10000] [10000] B := by
  obtain ⟨d, hd, hs⟩ := of_check (x := makeSingleSpeed unitsQ 10000 14 12 10000 (some 6500) 8 (frF 125) (frF 0) (some 3.2) 0.15) (p := fun d => soundB .single d [10000] [10000]) (by decide +kernel)
  have hm : makeSingleSpeed units 10000 14 12 10000 (some 6500) 8 (frF 125) (frF 0) (some 3.2) 0.15 = .ok (pT φ d) := by
    have := makeSingleSpeed_map φ_mono units_btuh 10000 14 12 10000 (some 6500) 8 (frF 125) (frF 0) (some 3.2) 0.15
    rw [hd] at this
    refine Eq.trans ?_ this
    congr 1 <;> norm_num [frF_cast]
  have hS := sound_of (st := .single) (single_rated hm) hs
  simp only [List.map, Rat.coe_castHom, Rat.cast_ofNat] at hS
  obtain ⟨B, h, hB⟩ := C90_ratings (a := oneArgs) (brentq := brentq) rfl rfl (q47 := 10000) rfl (by simpa [netTables, oneArgs, number, pyNum, inputEer, hspfFor, bind_ok, cd, DX.offTemperature] using hm) hS
    (C90_published moist_published hbr rfl rfl rfl (.inr rfl) (.inr rfl) (by simp))
  exact ⟨B, _, h, hB⟩

/-- Hypotheses of `C102_published`: a single-stage unit of 10 kW. -/
example {brentq : Brentq} (hbr : BrentqSpec brentq) : ∃ B c x, build units moistEnv moistTools brentq oneArgs = .ok B ∧ B.sys.makeCondition moistEnv false 0 = .ok c ∧
    (B.unit units moistEnv moistTools brentq).grossSHR (some c) = .ok x ∧ 0.729 < x := by
  obtain ⟨B, net, h, hB⟩ := moist_made hbr
  obtain ⟨-, c, x, h1, h2, h3, -⟩ := C102_published moist_published h hB (i := 0) (q := 10000) rfl (by decide)
  exact ⟨B, c, x, h, h1, h2, h3⟩

end Resdx.Sample
