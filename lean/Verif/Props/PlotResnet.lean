import Verif.Props.IdfWritten
import Verif.Props.ReportsResnet
import Verif.Props.RatedAir

/-! # C109: the plot of a RESNET unit can be made -/

set_option linter.unusedSectionVars false
set_option linter.unusedSimpArgs false

namespace Resdx.Build

open Spec BaseModel Fan ResnetFan Tabular Props Reports DX Set

variable {u : Units ℝ} {E : Env ℝ} {T : Coil.Tools} {brentq : Brentq} {a : Args} {B : Built} {qc qh : List ℝ}

/-- The net performance map at the outdoor temperatures of the plot: positive cooling capacities, and powers and heating capacities above the largest fan power at the rated capacity of the speed. -/
structure PlotMap (u : Units ℝ) (st : Staging) (net : Perf ℝ) (qc qh : List ℝ) (heatingOff coolingOff : ℝ) : Prop where
  cool : ∀ i σ, TableSpeed st i σ → ∀ t ∈ plotSpan false coolingOff, ∃ Q P, net.coolingCapacity σ t = .ok Q ∧ 0 < Q ∧ net.coolingPower σ t = .ok P ∧
    ∀ q, qc[i]? = some q → 337.2 / u.ton * q < P
  heat : ∀ i σ, TableSpeed st i σ → ∀ t ∈ plotSpan true heatingOff, ∃ Q P, net.heatingCapacity σ t = .ok Q ∧ net.heatingPower σ t = .ok P ∧
    ∀ q, qh[i]? = some q → 337.2 / u.ton * q < Q ∧ 337.2 / u.ton * q < P

/-- The fan of a constructed unit draws a positive power at every speed. -/
theorem fan_positive (h : build u E T brentq a = .ok B) (ht : ∀ d, a.tables = some d → RatedTables (tableSpeeds B.core.st) d) (hbr : BrentqSpec brentq) (hm : Made u E a B.core.st B.core.net qc qh B)
    (hpos : (∀ q ∈ qc, 0 < q) ∧ ∀ q ∈ qh, 0 < q) {heating : Bool} {i : Nat} {n o : Option (Psych.PsychState ℝ)} {c : Conditions ℝ} (hi : i < speedCount B.core.st)
    (hc : B.sys.makeCondition E heating i n o = .ok c) : ∃ w, fanPower u brentq B.core c = .ok w ∧ 0 < w := by
  obtain ⟨fc, fh, F⟩ := built_facts h ht
  obtain ⟨st0, q47, nC, nH, b2, b3, b4, b6, b7, b8, hS, b10⟩ := build_steps h
  obtain ⟨-, -, s3, s4, s5, s6, s7, g1, g2, -⟩ := sys_ok hS
  obtain ⟨ac, ah, A1, A2, -, A4, M1, M2⟩ := F.fan
  have hcf := u.cfm_pos
  have hton := u.ton_pos
  have hr : 0 < 400 * u.cfm / u.ton := by positivity
  have hfull : fullIndex B.core.st < speedCount B.core.st := by cases B.core.st <;> decide
  have hesp := core_esp b8
  have hesp0 : 0 ≤ B.core.fullESP := by
    cases hdu : a.ducted <;> rw [hdu] at hesp
    · exact (show B.core.fullESP = 0 from hesp).ge
    · exact le_of_lt hesp
  have getC : ∀ j, j < speedCount B.core.st → ∃ q, qc[j]? = some q ∧ 0 < q := by
    intro j hj
    have : j < qc.length := by rw [← hm.coolCaps, F.coolCaps.1]; exact hj
    exact ⟨_, List.getElem?_eq_getElem this, hpos.1 _ (List.getElem_mem this)⟩
  have getH : ∀ j, j < speedCount B.core.st → ∃ q, qh[j]? = some q ∧ 0 < q := by
    intro j hj
    have : j < qh.length := by rw [← hm.heatCaps, F.heatCaps.1]; exact hj
    exact ⟨_, List.getElem?_eq_getElem this, hpos.2 _ (List.getElem_mem this)⟩
  cases heating with
  | false =>
    obtain ⟨q, hq, q0⟩ := getC i hi
    by_cases hok : B.core.psc = true ∨ i ≠ B.core.rc.full
    · obtain ⟨w, hw, hw'⟩ := fanPower_cond hc (by simpa using s3) (by simpa using s5) s7 M1 (by rw [F.coolCaps.1]; exact hi) (hok.imp_right .inl)
      obtain ⟨w', e, p1, -⟩ := hm.grossCool i q hq
      rw [grossList_get g1 hi (hm.coolCaps.symm ▸ hq) hw] at e
      have : w = w' := by simp at e; exact e
      exact ⟨w, hw', this ▸ p1⟩
    · rw [not_or, not_not] at hok
      obtain ⟨hp, rfl⟩ := hok
      obtain ⟨q2, hq2, q20⟩ := getC 0 (by omega)
      have af := hm.coolAirflow _ _ hq
      have a0 := hm.coolAirflow _ _ hq2
      have e1 : ac = q * (400 * u.cfm / u.ton) := by
        obtain ⟨_, _, _, _, _, e⟩ := A1
        rw [af] at e; exact (Option.some.inj (Option.some.inj e)).symm
      have pf : 0 < q * (400 * u.cfm / u.ton) := mul_pos q0 hr
      have hG := core_good b8 A4 (by rw [e1]; exact pf.trans_le (le_max_left _ _))
      obtain ⟨w, w', g, -, w2, -, w3, -⟩ := fanPower_full hbr hc (by simpa using s3) (by simpa using s5) s7 M1 (by rw [F.coolCaps.1]; exact hi) (by simpa using hp) hG hesp0 af a0 pf
        (by rw [e1]; exact le_max_left _ _) (mul_pos q20 hr)
      exact ⟨w', w2, w3⟩
  | true =>
    obtain ⟨q, hq, q0⟩ := getH i hi
    by_cases hok : B.core.psc = true ∨ i ≠ B.core.rh.full
    · obtain ⟨w, hw, hw'⟩ := fanPower_cond hc (by simpa using s4) (by simpa using s6) s7 M2 (by rw [F.heatCaps.1]; exact hi) (hok.imp_right .inl)
      obtain ⟨w', e, p1, -⟩ := hm.grossHeat i q hq
      rw [grossList_get g2 hi (hm.heatCaps.symm ▸ hq) hw] at e
      have : w = w' := by simp at e; linarith
      exact ⟨w, hw', this ▸ p1⟩
    · rw [not_or, not_not] at hok
      obtain ⟨hp, rfl⟩ := hok
      obtain ⟨q2, hq2, q20⟩ := getH 0 (by omega)
      have af := hm.heatAirflow _ _ hq
      have a0 := hm.heatAirflow _ _ hq2
      have e1 : ah = q * (400 * u.cfm / u.ton) := by
        obtain ⟨_, _, _, _, _, e⟩ := A2
        rw [af] at e; exact (Option.some.inj (Option.some.inj e)).symm
      have pf : 0 < q * (400 * u.cfm / u.ton) := mul_pos q0 hr
      have hG := core_good b8 A4 (by rw [e1]; exact pf.trans_le (le_max_right _ _))
      obtain ⟨w, w', g, -, w2, -, w3, -⟩ := fanPower_full hbr hc (by simpa using s4) (by simpa using s6) s7 M2 (by rw [F.heatCaps.1]; exact hi) (by simpa using hp) hG hesp0 af a0 pf
        (by rw [e1]; exact le_max_right _ _) (mul_pos q20 hr)
      exact ⟨w', w2, w3⟩

theorem speed_of {i : Nat} (hi : i < speedCount B.core.st) : ∃ σ, TableSpeed B.core.st i σ := by
  have := speedMap_get (st := B.core.st) (i := i) (σ := (speedMap B.core.st)[i]'(by rw [speedMap_length]; exact hi))
  exact ⟨_, this.1 (List.getElem?_eq_getElem _)⟩

theorem frostShare_range (t : ℝ) : 0 ≤ frostShare t ∧ frostShare t ≤ 0.08 := by
  unfold frostShare
  split
  · norm_num
  · split
    · constructor <;> linarith
    · norm_num

/-- Gross heating of a constructed unit at an outdoor temperature of its map. -/
theorem plot_heating (h : build u E T brentq a = .ok B) (ht : ∀ d, a.tables = some d → RatedTables (tableSpeeds B.core.st) d) (hd : a.chargeDeviation = 0)
    (hm : Made u E a B.core.st B.core.net qc qh B) {i : Nat} {σ q t Q P : ℝ} (hσ : TableSpeed B.core.st i σ) (hq : qh[i]? = some q) {o : Psych.PsychState ℝ} (ho : Resnet.ratedOutdoor E t = .ok o)
    {c : Conditions ℝ} (hc : B.sys.makeCondition E true i none (some o) = .ok c) (hQ : B.core.net.heatingCapacity σ t = .ok Q) (hP : B.core.net.heatingPower σ t = .ok P)
    (h47 : 337.2 / u.ton * q < q) (hb : 337.2 / u.ton * q < Q ∧ 337.2 / u.ton * q < P) :
    ∃ x y x' y', Resnet.grossSteadyHeatingCapacity E B.sys (data B.core) c = .ok x ∧ Resnet.grossSteadyHeatingPower E B.sys (data B.core) c = .ok y ∧
      (B.unit u E T brentq).grossSteadyHeatingCapacity (some c) = .ok x ∧ (B.unit u E T brentq).grossSteadyHeatingPower (some c) = .ok y ∧
      (B.unit u E T brentq).grossIntegratedHeatingCapacity (some c) = .ok x' ∧ (B.unit u E T brentq).grossIntegratedHeatingPower (some c) = .ok y' ∧ 0 < x ∧ 0 < y ∧ 0 < x' ∧ 0 < y' := by
  obtain ⟨fc, fh, F⟩ := built_facts h ht
  obtain ⟨_, _, _, _, _, _, -, -, -, -, -, -, -, -, hS, -⟩ := build_ok h
  obtain ⟨w0, hQ0, w1, w2⟩ := hm.grossHeat i q hq
  have hdb : o.db = t := ratedOutdoor_db E _ o ho
  obtain ⟨g1, g2⟩ := gross_heating F hS hσ hQ0 (by linarith) (r := o) (by rw [hdb]; exact ho) hc
  rw [hdb] at g1 g2
  obtain ⟨Q', e1, e2⟩ := F.gross.heatCap σ t
  obtain ⟨P', e3, e4⟩ := F.gross.heatPow σ t
  rw [hQ] at e1; cases e1
  rw [hP] at e3; cases e3
  rw [e2] at g1
  rw [e4] at g2
  obtain ⟨f1, f2⟩ := (fan_powers F (built_rated h ht) hS hm).2 i σ q hσ hq
  have hch : B.sys.chargeDeviation = 0 := hm.charge
  obtain ⟨k1, k2⟩ := unit_gross_heating (u := u) (T := T) (brentq := brentq) (P := B.points) (ntu := B.coil.ntu) hch g1 g2
  obtain ⟨r1, r2⟩ := frostShare_range (toF c.outdoor.db)
  have x0 : 0 < Q - fh σ := by linarith
  have y0 : 0 < P - fh σ := by linarith
  have i1 : Resnet.grossIntegratedHeatingCapacity E B.sys (data B.core) c = .ok (if B.sys.defrost.inDefrost c.outdoor.db then (Q - fh σ) * (1 - 1.8 * frostShare (toF c.outdoor.db)) else Q - fh σ) := by
    have : Nrel.steadyCapacity E B.sys (Resnet.raw E B.sys (data B.core)) c = .ok (Q - fh σ) := by
      simp only [Nrel.steadyCapacity, Resnet.raw, g1, Nrel.gradingModel, hch, if_true, bind_ok, mul_one, pure_eq_ok]
    simp only [Resnet.grossIntegratedHeatingCapacity, this, bind_ok, pure_eq_ok, frostShare_eq]
    split <;> rfl
  have i2 : Resnet.grossIntegratedHeatingPower E B.sys (data B.core) c = .ok (if B.sys.defrost.inDefrost c.outdoor.db then (P - fh σ) * (1 - 0.3 * frostShare (toF c.outdoor.db)) else P - fh σ) := by
    simp only [Resnet.grossIntegratedHeatingPower, g2, bind_ok, pure_eq_ok, frostShare_eq]
    split <;> rfl
  refine ⟨_, _, _, _, g1, g2, k1, k2, i1, i2, x0, y0, ?_, ?_⟩
  · split
    · exact mul_pos x0 (by linarith)
    · exact x0
  · split
    · exact mul_pos y0 (by linarith)
    · exact y0

/-- Gross cooling of a constructed unit at an outdoor temperature of its map. -/
theorem plot_cooling (h : build u E T brentq a = .ok B) (ht : ∀ d, a.tables = some d → RatedTables (tableSpeeds B.core.st) d)
    (hm : Made u E a B.core.st B.core.net qc qh B) {i : Nat} {σ q t Q P : ℝ} (hσ : TableSpeed B.core.st i σ) (hq : qc[i]? = some q) (h125 : toF t ≤ 125) {o : Psych.PsychState ℝ}
    (ho : Resnet.ratedOutdoor E t = .ok o) {c : Conditions ℝ} (hc : B.sys.makeCondition E false i none (some o) = .ok c) (hQ : B.core.net.coolingCapacity σ t = .ok Q)
    (hP : B.core.net.coolingPower σ t = .ok P) (h0 : 0 < Q) (hb : 337.2 / u.ton * q < P) :
    ∃ x y, (B.unit u E T brentq).grossTotalCoolingCapacity (some c) = .ok x ∧ (B.unit u E T brentq).grossCoolingPower (some c) = .ok y ∧ 0 < x ∧ 0 < y ∧
      ∃ f, f ≤ 337.2 / u.ton * q ∧ x = Q + f := by
  obtain ⟨fc, fh, F⟩ := built_facts h ht
  obtain ⟨_, _, _, _, _, _, -, -, -, -, -, -, -, -, hS, -⟩ := build_ok h
  obtain ⟨w0, hQ0, w1, w2⟩ := hm.grossCool i q hq
  obtain ⟨q0, -⟩ := hm.grossRated i q hq
  have hdb : o.db = t := ratedOutdoor_db E _ o ho
  obtain ⟨g1, g2⟩ := gross_cooling F hS hσ hQ0 (by linarith) (r := o) (by rw [hdb]; exact h125) (by rw [hdb]; exact ho) hc
  rw [hdb] at g1 g2
  obtain ⟨Q', e1, e2⟩ := F.gross.coolCap σ t
  obtain ⟨P', e3, e4⟩ := F.gross.coolPow σ t
  rw [hQ] at e1; cases e1
  rw [hP] at e3; cases e3
  rw [e2] at g1
  rw [e4] at g2
  obtain ⟨f1, f2⟩ := (fan_powers F (built_rated h ht) hS hm).1 i σ q hσ hq
  obtain ⟨k1, k2⟩ := unit_gross_cooling (u := u) (T := T) (brentq := brentq) (P := B.points) (ntu := B.coil.ntu) hm.charge g1 g2
  have x0 : 0 < Q + fc σ := by linarith
  have y0 : 0 < P - fc σ := by linarith
  rw [if_neg (not_lt.2 x0.le)] at k1
  rw [if_neg (not_lt.2 y0.le)] at k2
  exact ⟨_, _, k1, k2, x0, y0, _, f2, rfl⟩

/-! ## The sensible capacity away from the rated outdoor temperature -/

variable {sat : ℝ → ℝ}

/-- With the indoor air and the airflow of the rating, the sensible capacity is found for every total capacity up to one and a half times the rated one. -/
theorem sensible_other (hA : RatedAir T E.atm sat) (hN : FindsConvexRoots T.newton) {c c' : Conditions ℝ} (hin : c'.indoor = defaultIndoor E false) (hin0 : c.indoor = defaultIndoor E false)
    {t t' m w s tA bf ntu : ℝ} (ht : 0 < t) (ht' : 0 < t') (hle : t' ≤ 1.5 * t) (hm : c'.flow.mass = some m) (F : Found T sat c t m w s tA bf ntu) :
    ∃ x, Coil.sensibleFrom T c' (.ok t') (DX.bypassFactor ntu m) = .ok x ∧ 0 < x := by
  have hdbC : c'.indoor.dbC = 26 + 2 / 3 := by rw [hin, ← indoor80]; rfl
  have hp : c'.indoor.p = E.atm := by rw [hin]; rfl
  have hinside : (Psych.getH T.lib c'.indoor).1 = .ok (airEnthalpy (26 + 2 / 3) w) := by rw [hin, ← hin0]; exact F.inside
  obtain ⟨hs1, hs2⟩ := F.slope
  obtain ⟨hw1, hw2⟩ := F.humid
  obtain ⟨hA1, hA2⟩ := F.dew
  have hl := F.line
  have k1 : 0.000147 * (26 + 2 / 3 - tA) ≤ s * (26 + 2 / 3 - tA) := mul_le_mul_of_nonneg_right hs1 (by linarith)
  have k2 : s * (26 + 2 / 3 - tA) ≤ 0.000149 * (26 + 2 / 3 - tA) := mul_le_mul_of_nonneg_right hs2 (by linarith)
  have w1 : 0.0089 ≤ sat tA := by linarith
  have e0 : 34500 ≤ airEnthalpy tA (sat tA) := by
    unfold airEnthalpy
    have : 0.0089 * (2501000 + 1860 * 12) ≤ sat tA * (2501000 + 1860 * tA) := mul_le_mul w1 (by linarith) (by norm_num) (by linarith)
    linarith
  have e1 : 55000 ≤ airEnthalpy (26 + 2 / 3) w ∧ airEnthalpy (26 + 2 / 3) w ≤ 55400 := by unfold airEnthalpy; constructor <;> linarith
  have D0 : 0 < airEnthalpy (26 + 2 / 3) w - airEnthalpy tA (sat tA) := by
    have w2 : sat tA ≤ 0.0092 := by linarith
    unfold airEnthalpy
    have : sat tA * (2501000 + 1860 * tA) ≤ w * (2501000 + 1860 * (26 + 2 / 3)) := mul_le_mul (by linarith) (by linarith) (by linarith) (by linarith)
    linarith
  obtain ⟨l, hl'⟩ : ∃ l, l = t' / t := ⟨_, rfl⟩
  have l0 : 0 < l := by rw [hl']; positivity
  have l1 : l ≤ 1.5 := by rw [hl', div_le_iff₀ ht]; exact hle
  have hdrop : t' / (m * (1 - bf)) = l * (airEnthalpy (26 + 2 / 3) w - airEnthalpy tA (sat tA)) := by
    rw [← F.drop, hl']
    have := F.flow
    generalize m * (1 - bf) = z at *
    field_simp
  obtain ⟨hADP, hh⟩ : ∃ x, x = airEnthalpy (26 + 2 / 3) w - l * (airEnthalpy (26 + 2 / 3) w - airEnthalpy tA (sat tA)) := ⟨_, rfl⟩
  have d1 : 0 < l * (airEnthalpy (26 + 2 / 3) w - airEnthalpy tA (sat tA)) := mul_pos l0 D0
  have d2 : l * (airEnthalpy (26 + 2 / 3) w - airEnthalpy tA (sat tA)) ≤ 1.5 * 20900 := mul_le_mul l1 (by linarith [e1.2]) D0.le (by norm_num)
  have h0 : airEnthalpy 0 (sat 0) - hADP < 0 := by
    have hs := hA.increasing (show (0 : ℝ) ∈ Icc 0 60 by constructor <;> norm_num) (show (12 : ℝ) ∈ Icc 0 60 by constructor <;> norm_num) (by norm_num)
    have := hA.at12
    have : airEnthalpy 0 (sat 0) ≤ 22010 := by unfold airEnthalpy; linarith
    rw [hh]
    linarith [e1.1]
  have h26 : 0 < airEnthalpy (26 + 2 / 3) (sat (26 + 2 / 3)) - hADP := by
    have := F.below
    have : airEnthalpy (26 + 2 / 3) w < airEnthalpy (26 + 2 / 3) (sat (26 + 2 / 3)) := by unfold airEnthalpy; linarith
    linarith
  have hC : ContinuousOn (fun t => airEnthalpy t (sat t) - hADP) (Icc 0 (26 + 2 / 3 + 1)) := by
    have := hA.continuous.mono (Icc_subset_Icc (le_refl (0:ℝ)) (show (26 + 2 / 3 + 1 : ℝ) ≤ 60 by norm_num))
    unfold airEnthalpy
    fun_prop
  obtain ⟨z, hz, z1, z2, z3⟩ := hN (fun t => do return (← T.coil.satAirEnthalpy t c'.indoor.p) - hADP) (fun t => airEnthalpy t (sat t) - hADP) 0 (26 + 2 / 3)
    (by norm_num) (fun t ht => by rw [hp]; simp only [hA.satEnthalpy t (by linarith [ht.1]) (by linarith [ht.2]), bind_ok, pure_eq_ok]) hC (saturated_convex hA (by norm_num) (by norm_num) _) h0 h26
  have hz26 : z < 26 + 2 / 3 := by
    refine lt_of_le_of_ne z2 ?_
    rintro rfl
    linarith
  -- saturated air at the root is not dry
  have hsz : 1e-7 ≤ sat z := by
    rcases le_total tA z with h | h
    · have := hA.increasing (show tA ∈ Icc 0 60 from ⟨by linarith, by linarith⟩) (show z ∈ Icc 0 60 from ⟨z1, by linarith⟩) h
      exact le_trans (by norm_num) (w1.trans this)
    · by_contra hlt
      have hlt := not_le.1 hlt
      have a1 : sat z * (2501000 + 1860 * z) ≤ 1e-7 * (2501000 + 1860 * z) := mul_le_mul_of_nonneg_right hlt.le (by linarith)
      have a2 : 23650 ≤ hADP := by rw [hh]; linarith [e1.1]
      unfold airEnthalpy at z3
      linarith
  have hne : airEnthalpy (26 + 2 / 3) w - hADP ≠ 0 := by rw [hh]; linarith
  refine ⟨t' * (airEnthalpy (26 + 2 / 3) (sat z) - hADP) / (airEnthalpy (26 + 2 / 3) w - hADP), ?_, ?_⟩
  · unfold Coil.sensibleFrom
    have hsat : T.coil.satHumRatio z c'.indoor.p = .ok (sat z) := by rw [hp]; exact hA.satHumRatio z z1 (by linarith)
    simp only [bind_ok, hinside, hm, pyAttr, F.bypass, pdiv_ok F.flow, hdrop, ← hh, hdbC, hz, hsat,
      hA.enthalpy (26 + 2 / 3) (sat z) (by norm_num) (by norm_num) hsz, pdiv_ok hne]
  · have p1 : 0 < airEnthalpy (26 + 2 / 3) (sat z) - hADP := by
      have : hADP = airEnthalpy z (sat z) := by linarith
      rw [this]
      unfold airEnthalpy
      nlinarith
    have p2 : 0 < airEnthalpy (26 + 2 / 3) w - hADP := by rw [hh]; linarith
    positivity

theorem made_same {S : Sys ℝ} {heating : Bool} {i : Nat} {n o o' : Option (Psych.PsychState ℝ)} {c c' : Conditions ℝ} (h : S.makeCondition E heating i n o = .ok c)
    (h' : S.makeCondition E heating i n o' = .ok c') : c.indoor = c'.indoor ∧ c.flow = c'.flow := by
  obtain ⟨rho, pr, x, cap, fs, h1, h2, h3, h4, h5, h6, h7, ⟨full, h8, h9, rfl⟩, h10, rfl⟩ := Sys.makeCondition_spec E S heating _ _ _ _ h
  obtain ⟨rho', pr', x', cap', fs', g1, g2, g3, g4, g5, g6, g7, ⟨full', g8, g9, rfl⟩, g10, rfl⟩ := Sys.makeCondition_spec E S heating _ _ _ _ h'
  rw [h7] at g7; cases g7
  rw [h8] at g8; cases g8
  rw [h10] at g10; cases g10
  rw [h6] at g6; cases g6
  rw [h5] at g5; cases g5
  exact ⟨rfl, rfl⟩

/-- The coil data of a constructed unit. -/
theorem coil_data (h : Published u E T sat) (hB : build u E T brentq a = .ok B) (hM : Made u E a B.core.st B.core.net qc qh B) {i : Nat} {q : ℝ} (hq : qc[i]? = some q) (hn : i < speedCount B.core.st) :
    0 < q ∧ ∃ c t w s tA bf n, B.sys.makeCondition E false i none (some (defaultOutdoor E false)) = .ok c ∧ c.indoor = defaultIndoor E false ∧ c.flow.mass = some (q * (400 * u.cfm / u.ton) * E.rhoStd) ∧
      q < t ∧ Found T sat c t (q * (400 * u.cfm / u.ton) * E.rhoStd) w s tA bf n ∧ B.coil.ntu[i]? = some (some n) := by
  obtain ⟨q0, c, t, hc, hg, t1, t2⟩ := hM.grossRated i q hq
  obtain ⟨c', s, t', bf, n, h1, h2, h3, -, -, h6, wb, v, r1, r2, r3⟩ := coil_stored hB hn
  have hmade : B.sys.makeCondition E false i = .ok c := hc.made
  rw [hmade] at h1; cases h1
  have hgt : (B.unit u E T brentq).grossTotalCoolingCapacity (some c) = .ok t := grossTotal_returns hM.charge hg (by linarith)
  simp only [hgt] at h2
  cases h2
  have hcf := u.cfm_pos
  have hto := u.ton_pos
  have hwb : wb = frF 67 := by
    have : (Psych.getWb c.indoor).1 = .ok (frF (67 : ℝ)) := by rw [hc.indoor]; rfl
    rw [this] at r1; exact (Except.ok.inj r1).symm
  have hv : v * u.ton / u.cfm = 400 := by
    rw [hc.perCap] at r2; cases r2
    field_simp
  have hs : s = ratedShr := by
    have e1 : c.outdoor.db = frF 95 := by rw [hc.outdoor]; rfl
    have e2 : c.indoor.db = frF 80 := by rw [hc.indoor]; rfl
    rw [hwb, hv, e1, e2, shrAt_rated] at r3
    exact (Except.ok.inj r3).symm
  subst hs
  have hle : t ≤ 1.2 * q := by
    refine t2.trans (mul_le_mul_of_nonneg_right ?_ q0.le)
    have : 337.2 / u.ton ≤ 0.2 := by rw [div_le_iff₀ hto]; have := h.ton; linarith
    linarith
  obtain ⟨w, sl, tA, bf', ntu, F⟩ := coil_found h.air h.newton h.flow q0 (q0.trans t1) hle hc.indoor hc.mass
  have hF := F.stored
  rw [h3] at hF
  obtain ⟨rfl, rfl⟩ := Prod.mk.inj (Except.ok.inj hF)
  exact ⟨q0, c, t, w, sl, tA, bf, n, hc.made, hc.indoor, hc.mass, t1, F, h6⟩

/-- **C102.** With air as published, a constructed unit reports a sensible capacity at every outdoor temperature and speed at which its gross capacity is at most one and a half times the rated net capacity. -/
theorem C102_other_temperatures (h : Published u E T sat) (hB : build u E T brentq a = .ok B) (hM : Made u E a B.core.st B.core.net qc qh B) {i : Nat} {q : ℝ} (hq : qc[i]? = some q)
    (hn : i < speedCount B.core.st) {o : Psych.PsychState ℝ} {c : Conditions ℝ} (hc : B.sys.makeCondition E false i none (some o) = .ok c) {t : ℝ}
    (hg : (B.unit u E T brentq).grossTotalCoolingCapacity (some c) = .ok t) (ht : 0 < t) (hle : t ≤ 1.5 * q) :
    ∃ x, (B.unit u E T brentq).grossSensibleCoolingCapacity (some c) = .ok x ∧ 0 < x := by
  obtain ⟨q0, c0, t0, w, s, tA, bf, n, hc0, hin, hmass, hlt, F, hntu⟩ := coil_data h hB hM hq hn
  obtain ⟨e1, e2⟩ := made_same hc hc0
  obtain ⟨x, hx, x0⟩ := sensible_other h.air h.newton (c := c0) (c' := c) (e1.trans hin) hin (q0.trans hlt) ht (by linarith) (by rw [e2]; exact hmass) F
  refine ⟨x, DX.Performance.grossSensible_eq_ok.2 ⟨?_, x0.le⟩, x0⟩
  have e3 : (B.unit u E T brentq).sensible c = Coil.sensibleFrom T c ((B.unit u E T brentq).grossTotalCoolingCapacity (some c)) (Coil.bypass B.coil.ntu c) := rfl
  have e4 : Coil.bypass B.coil.ntu c = DX.bypassFactor n (q * (400 * u.cfm / u.ton) * E.rhoStd) := by
    have e5 : c0.flow.compressorSpeed = i := by rw [← e2]; exact made_speed hc
    simp [Coil.bypass, Sys.at_, e5, pyGet, hntu, bind_ok, pyNum, e2, hmass, pyAttr]
  change (B.unit u E T brentq).sensible c = _
  rw [e3, e4, hg]
  exact hx

theorem groups_heating : plotGroups true = ["Net Steady State Heating Capacity", "Net Steady State Heating Power", "Net Steady State Heating COP", "Net Integrated Heating Capacity",
    "Net Integrated Heating Power", "Net Integrated Heating COP", "Gross Steady State Heating Capacity", "Gross Steady State Heating Power", "Gross Steady State Heating COP",
    "Gross Integrated Heating Capacity", "Gross Integrated Heating Power", "Gross Integrated Heating COP"] := by decide +kernel

theorem groups_cooling : plotGroups false = ["Net Total Cooling Capacity", "Net Sensible Cooling Capacity", "Net Cooling Power", "Net Total Cooling COP", "Net Sensible Cooling COP",
    "Gross Total Cooling Capacity", "Gross Sensible Cooling Capacity", "Gross Cooling Power", "Gross Total Cooling COP", "Gross Sensible Cooling COP"] := by decide +kernel

/-- **C109.** The plot of a constructed RESNET unit is made: the library evaluates the air at the outdoor temperatures of the plot, the map is positive (above the fan power) there, the unit stops
cooling at 125 °F or below, and the coil calculation returns for the plotted points. -/
theorem C109_resnet_made (h : build u E T brentq a = .ok B) (ht : ∀ d, a.tables = some d → RatedTables (tableSpeeds B.core.st) d) (hbr : BrentqSpec brentq) (hd : a.chargeDeviation = 0)
    (hm : Made u E a B.core.st B.core.net qc qh B) (hpos : (∀ q ∈ qc, 0 < q) ∧ ∀ q ∈ qh, 0 < q)
    (hA : ∀ heating, ∀ t ∈ plotSpan heating (if heating then B.heatingOff else B.coolingOff), ∃ o, Psych.init E.lib t E.atm [("rel_hum", 0.4)] = .ok o)
    (hM : PlotMap u B.core.st B.core.net qc qh B.heatingOff B.coolingOff) (hoff : toF B.coolingOff ≤ 125)
    (hcoil : ∀ i < speedCount B.core.st, ∀ t ∈ plotSpan false B.coolingOff, ∀ o c, Psych.init E.lib t E.atm [("rel_hum", 0.4)] = .ok o → B.sys.makeCondition E false i none (some o) = .ok c →
      ∃ s, (B.unit u E T brentq).grossSensibleCoolingCapacity (some c) = .ok s) :
    ∃ cs, plot (B.report u E T brentq) = .ok cs := by
  obtain ⟨fc, fh, F⟩ := built_facts h ht
  refine C109_returns_iff.2 ⟨fun heating s hs => C109_resnet h heating hs, fun heating i hi t hspan => ?_⟩
  have hi : i < speedCount B.core.st := by cases heating <;> simpa [Built.report] using hi
  have hspan : t ∈ plotSpan heating (if heating then B.heatingOff else B.coolingOff) := by cases heating <;> exact hspan
  obtain ⟨o, ho⟩ := hA heating t hspan
  obtain ⟨c, hc⟩ := hm.conditions heating i o hi
  obtain ⟨w, hw, w0⟩ := fan_positive h ht hbr hm hpos hi hc
  obtain ⟨σ, hσ⟩ := speed_of hi
  refine ⟨o, c, ho, hc, ?_⟩
  show ∀ g ∈ plotGroups heating, ∀ f, plotted (B.unit u E T brentq) g = some f → ∃ y, f (some c) = .ok y
  cases heating with
  | true =>
    obtain ⟨Q, P, m1, m2, m3⟩ := hM.heat i σ hσ t hspan
    obtain ⟨q, hq, h47⟩ := F.heatCaps.2 i σ hσ
    obtain ⟨Q47, P47, n1, -, n3⟩ := hM.heat i σ hσ (frF 47) (by simp [plotSpan])
    rw [h47] at n1; cases n1
    have hq := hm.heatCaps ▸ hq
    obtain ⟨x, y, x', y', -, -, h1, h2, h3, h4, p1, p2, p3, p4⟩ := plot_heating h ht hd hm hσ hq ho hc m1 m2 (n3 q hq).1 (m3 q hq)
    have hf : (B.unit u E T brentq).heatingFanPower (some c) = .ok w := hw
    have n1 : (B.unit u E T brentq).netSteadyHeatingCapacity (some c) = .ok (x + w) := by simp only [Performance.netSteadyHeatingCapacity, h1, hf, bind_ok, pure_eq_ok]
    have n2 : (B.unit u E T brentq).netSteadyHeatingPower (some c) = .ok (y + w) := by simp only [Performance.netSteadyHeatingPower, h2, hf, bind_ok, pure_eq_ok]
    have n3 : (B.unit u E T brentq).netIntegratedHeatingCapacity (some c) = .ok (x' + w) := by simp only [Performance.netIntegratedHeatingCapacity, h3, hf, bind_ok, pure_eq_ok]
    have n4 : (B.unit u E T brentq).netIntegratedHeatingPower (some c) = .ok (y' + w) := by simp only [Performance.netIntegratedHeatingPower, h4, hf, bind_ok, pure_eq_ok]
    have c1 : (B.unit u E T brentq).grossSteadyHeatingCOP (some c) = .ok (x / y) := by simp only [Performance.grossSteadyHeatingCOP, h1, h2, bind_ok, pdiv_ok p2.ne']
    have c2 : (B.unit u E T brentq).grossIntegratedHeatingCOP (some c) = .ok (x' / y') := by simp only [Performance.grossIntegratedHeatingCOP, h3, h4, bind_ok, pdiv_ok p4.ne']
    have c3 : (B.unit u E T brentq).netSteadyHeatingCOP (some c) = .ok ((x + w) / (y + w)) := by simp only [Performance.netSteadyHeatingCOP, n1, n2, bind_ok, pdiv_ok (add_pos p2 w0).ne']
    have c4 : (B.unit u E T brentq).netIntegratedHeatingCOP (some c) = .ok ((x' + w) / (y' + w)) := by simp only [Performance.netIntegratedHeatingCOP, n3, n4, bind_ok, pdiv_ok (add_pos p4 w0).ne']
    intro g hg f hf'
    have this := hg
    rw [groups_heating] at this
    simp only [List.mem_cons, List.not_mem_nil, or_false] at this
    rcases this with rfl | rfl | rfl | rfl | rfl | rfl | rfl | rfl | rfl | rfl | rfl | rfl <;> (simp only [plotted, Option.some.injEq] at hf'; subst hf')
    exacts [⟨_, n1⟩, ⟨_, n2⟩, ⟨_, c3⟩, ⟨_, n3⟩, ⟨_, n4⟩, ⟨_, c4⟩, ⟨_, h1⟩, ⟨_, h2⟩, ⟨_, c1⟩, ⟨_, h3⟩, ⟨_, h4⟩, ⟨_, c2⟩]
  | false =>
    obtain ⟨Q, P, m1, m2, m3, m4⟩ := hM.cool i σ hσ t hspan
    obtain ⟨q, hq, -⟩ := F.coolCaps.2 i σ hσ
    have hq := hm.coolCaps ▸ hq
    have h125 : toF t ≤ 125 := by
      simp only [plotSpan, Bool.false_eq_true, if_false, List.map, List.cons_append, List.nil_append, List.mem_cons, List.not_mem_nil, or_false] at hspan
      rcases hspan with rfl | rfl | rfl | rfl
      · rw [toF_frF]; norm_num
      · rw [toF_frF]; norm_num
      · rw [toF_frF]; norm_num
      · exact hoff
    obtain ⟨x, y, h1, h2, p1, p2, -⟩ := plot_cooling (T := T) h ht hm hσ hq h125 ho hc m1 m3 m2 (m4 q hq)
    obtain ⟨s, hs⟩ := hcoil i hi t hspan o c ho hc
    have hf : (B.unit u E T brentq).coolingFanPower (some c) = .ok w := hw
    have hf2 : (B.unit u E T brentq).coolingFanHeat (some c) = .ok w := hw
    have n1 : (B.unit u E T brentq).netTotalCoolingCapacity (some c) = .ok (x - w) := by simp only [Performance.netTotalCoolingCapacity, h1, hf2, bind_ok, pure_eq_ok]
    have n2 : (B.unit u E T brentq).netCoolingPower (some c) = .ok (y + w) := by simp only [Performance.netCoolingPower, h2, hf, bind_ok, pure_eq_ok]
    have n3 : (B.unit u E T brentq).netSensibleCoolingCapacity (some c) = .ok (s - w) := by simp only [Performance.netSensibleCoolingCapacity, hs, hf2, bind_ok, pure_eq_ok]
    have c1 : (B.unit u E T brentq).grossTotalCoolingCOP (some c) = .ok (x / y) := by simp only [Performance.grossTotalCoolingCOP, h1, h2, bind_ok, pdiv_ok p2.ne']
    have c2 : (B.unit u E T brentq).grossSensibleCoolingCOP (some c) = .ok (s / y) := by simp only [Performance.grossSensibleCoolingCOP, hs, h2, bind_ok, pdiv_ok p2.ne']
    have c3 : (B.unit u E T brentq).netTotalCoolingCOP (some c) = .ok ((x - w) / (y + w)) := by simp only [Performance.netTotalCoolingCOP, n1, n2, bind_ok, pdiv_ok (add_pos p2 w0).ne']
    have c4 : (B.unit u E T brentq).netSensibleCoolingCOP (some c) = .ok ((s - w) / (y + w)) := by simp only [Performance.netSensibleCoolingCOP, n3, n2, bind_ok, pdiv_ok (add_pos p2 w0).ne']
    intro g hg f hf'
    have this := hg
    rw [groups_cooling] at this
    simp only [List.mem_cons, List.not_mem_nil, or_false] at this
    rcases this with rfl | rfl | rfl | rfl | rfl | rfl | rfl | rfl | rfl | rfl <;> (simp only [plotted, Option.some.injEq] at hf'; subst hf')
    exacts [⟨_, n1⟩, ⟨_, n3⟩, ⟨_, n2⟩, ⟨_, c3⟩, ⟨_, c4⟩, ⟨_, h1⟩, ⟨_, hs⟩, ⟨_, h2⟩, ⟨_, c1⟩, ⟨_, c2⟩]

/-- **C109.** With air as published, the coil calculation need not be assumed to return if no net cooling capacity at the outdoor temperatures of the plot exceeds 1.3 times the rated one of its speed. -/
theorem C109_resnet_published (hP : Published u E T sat) (h : build u E T brentq a = .ok B) (ht : ∀ d, a.tables = some d → RatedTables (tableSpeeds B.core.st) d) (hbr : BrentqSpec brentq)
    (hd : a.chargeDeviation = 0) (hm : Made u E a B.core.st B.core.net qc qh B) (hpos : ∀ q ∈ qh, 0 < q)
    (hA : ∀ t ∈ [B.heatingOff, frF 5, frF 17], ∃ o, Psych.init E.lib t E.atm [("rel_hum", 0.4)] = .ok o)
    (hM : PlotMap u B.core.st B.core.net qc qh B.heatingOff B.coolingOff) (hoff : 32 ≤ toF B.coolingOff ∧ toF B.coolingOff ≤ 125)
    (hcap : ∀ i σ q, TableSpeed B.core.st i σ → qc[i]? = some q → ∀ t ∈ plotSpan false B.coolingOff, ∀ Q, B.core.net.coolingCapacity σ t = .ok Q → Q ≤ 1.3 * q) :
    ∃ cs, plot (B.report u E T brentq) = .ok cs := by
  have warm : ∀ f : ℝ, 32 ≤ f → f ≤ 140 → ∃ o, Psych.init E.lib (frF f) E.atm [("rel_hum", 0.4)] = .ok o := fun f h1 h2 => hP.outdoor h1 h2
  have span : ∀ t ∈ plotSpan false B.coolingOff, toF t ≤ 125 ∧ ∃ o, Psych.init E.lib t E.atm [("rel_hum", 0.4)] = .ok o := by
    intro t hspan
    simp only [plotSpan, Bool.false_eq_true, if_false, List.map, List.cons_append, List.nil_append, List.mem_cons, List.not_mem_nil, or_false] at hspan
    rcases hspan with rfl | rfl | rfl | rfl
    · exact ⟨by rw [toF_frF]; norm_num, warm _ (by norm_num) (by norm_num)⟩
    · exact ⟨by rw [toF_frF]; norm_num, warm _ (by norm_num) (by norm_num)⟩
    · exact ⟨by rw [toF_frF]; norm_num, warm _ (by norm_num) (by norm_num)⟩
    · exact ⟨hoff.2, by rw [← frF_toF B.coolingOff]; exact warm _ hoff.1 (by linarith [hoff.2])⟩
  have hcpos : ∀ q ∈ qc, 0 < q := by
    intro q hq
    obtain ⟨i, hi⟩ := List.getElem?_of_mem hq
    exact (hm.grossRated i q hi).1
  refine C109_resnet_made h ht hbr hd hm ⟨hcpos, hpos⟩ ?_ hM hoff.2 ?_
  · intro heating t hspan
    cases heating with
    | false => exact (span t hspan).2
    | true =>
      simp only [plotSpan, if_true, List.map, List.mem_cons, List.not_mem_nil, or_false] at hspan
      rcases hspan with rfl | rfl | rfl | rfl | rfl | rfl
      · exact hA _ (by simp)
      · exact hA _ (by simp)
      · exact hA _ (by simp)
      · exact warm _ (by norm_num) (by norm_num)
      · exact warm _ (by norm_num) (by norm_num)
      · exact warm _ (by norm_num) (by norm_num)
  · intro i hi t hspan o c ho hc
    obtain ⟨fc, fh, F⟩ := built_facts h ht
    obtain ⟨_, _, _, _, _, _, -, -, -, -, -, -, -, -, hS, -⟩ := build_ok h
    obtain ⟨σ, hσ⟩ := speed_of hi
    obtain ⟨Q, P, m1, m2, m3, m4⟩ := hM.cool i σ hσ t hspan
    obtain ⟨q, hq, -⟩ := F.coolCaps.2 i σ hσ
    have hq := hm.coolCaps ▸ hq
    obtain ⟨x, y, h1, -, p1, -, f, f1, f2⟩ := plot_cooling (T := T) h ht hm hσ hq (span t hspan).1 ho hc m1 m3 m2 (m4 q hq)
    have q0 := hcpos q (List.mem_of_getElem? hq)
    have f3 : 337.2 / u.ton * q ≤ 0.2 * q := by
      refine mul_le_mul_of_nonneg_right ?_ q0.le
      rw [div_le_iff₀ u.ton_pos]; have := hP.ton; linarith
    obtain ⟨s, hs, -⟩ := C102_other_temperatures hP h hm hq hi hc h1 p1 (by have := hcap i σ q hσ hq t hspan Q m1; linarith)
    exact ⟨s, hs⟩

end Resdx.Build

namespace Resdx.Sample

open Spec Tabular BaseModel Props ResnetFan Fan Table Build Transfer Set Reports DX

/-- `PlotMap`, with cooling capacities up to 1.3 times the rated ones -/
def plotB (st : Staging) (d : Perf ℚ) (qc qh : List ℚ) (off offC : ℚ) : Bool :=
  (List.range (speedCount st)).all fun i =>
    ([60, 82, 95, offC].all fun t =>
      match d.coolingCapacity ((speedsQ st).getD i 0) (frF t), d.coolingPower ((speedsQ st).getD i 0) (frF t) with
      | .ok Q, .ok P => decide (0 < Q) && decide (337.2 / unitsQ.ton * qc.getD i 0 < P) && decide (Q ≤ 1.3 * qc.getD i 0)
      | _, _ => false) &&
    [off, 5, 17, 35, 47, 60].all fun t =>
      match d.heatingCapacity ((speedsQ st).getD i 0) (frF t), d.heatingPower ((speedsQ st).getD i 0) (frF t) with
      | .ok Q, .ok P => decide (337.2 / unitsQ.ton * qh.getD i 0 < Q) && decide (337.2 / unitsQ.ton * qh.getD i 0 < P)
      | _, _ => false

theorem plot_of {st : Staging} {d : Perf ℚ} {qc qh : List ℚ} {off offC : ℚ} (h : plotB st d qc qh off offC = true) :
    PlotMap units st (pT φ d) (qc.map φ) (qh.map φ) (frF (φ off)) (frF (φ offC)) ∧
      ∀ i σ q, TableSpeed st i σ → (qc.map φ)[i]? = some q → ∀ t ∈ plotSpan false (frF (φ offC)), ∀ Q, (pT φ d).coolingCapacity σ t = .ok Q → Q ≤ 1.3 * q := by
  have hton : φ (337.2 / unitsQ.ton) = 337.2 / units.ton := by simp [unitsQ, units]
  have h13 : φ 1.3 = 1.3 := by norm_num
  simp only [plotB, List.all_eq_true, Bool.and_eq_true, List.mem_range] at h
  have cast : ∀ (l : List ℚ) (t : ℝ), t ∈ l.map (fun x => frF (φ x)) → ∃ t' ∈ l, frF (φ t') = t := fun l t ht => List.mem_map.1 ht
  refine ⟨⟨?_, ?_⟩, ?_⟩
  · intro i σ hσ t ht
    have hi := tableSpeed_lt hσ
    obtain ⟨t', ht', rfl⟩ := cast [60, 82, 95, offC] t (by simpa [plotSpan] using ht)
    have h1 := (h i hi).1 t' ht'
    rw [← frF_map, ← speedsQ_of hσ]
    generalize (speedsQ st).getD i 0 = σ' at h1 ⊢
    simp only [Perf.coolingCapacity, Perf.coolingPower, pT] at h1 ⊢
    rw [calculate_map φ_mono, calculate_map φ_mono]
    cases hQ : d.coolingCapacities.calculate σ' (frF t') with
    | error e => rw [hQ] at h1; simp at h1
    | ok Q =>
      cases hP : d.coolingPowers.calculate σ' (frF t') with
      | error e => rw [hQ, hP] at h1; simp at h1
      | ok P =>
        rw [hQ, hP] at h1
        simp only [Bool.and_eq_true, decide_eq_true_eq] at h1
        refine ⟨φ Q, φ P, rfl, by rw [← map_zero φ]; exact φ_mono h1.1.1, rfl, fun q hq => ?_⟩
        obtain ⟨rfl, -⟩ := getD_cast hq
        rw [← hton, ← map_mul]
        exact φ_mono h1.1.2
  · intro i σ hσ t ht
    have hi := tableSpeed_lt hσ
    obtain ⟨t', ht', rfl⟩ := cast [off, 5, 17, 35, 47, 60] t (by simpa [plotSpan] using ht)
    have h1 := (h i hi).2 t' ht'
    rw [← frF_map, ← speedsQ_of hσ]
    generalize (speedsQ st).getD i 0 = σ' at h1 ⊢
    simp only [Perf.heatingCapacity, Perf.heatingPower, pT] at h1 ⊢
    rw [calculate_map φ_mono, calculate_map φ_mono]
    cases hQ : d.heatingCapacities.calculate σ' (frF t') with
    | error e => rw [hQ] at h1; simp at h1
    | ok Q =>
      cases hP : d.heatingPowers.calculate σ' (frF t') with
      | error e => rw [hQ, hP] at h1; simp at h1
      | ok P =>
        rw [hQ, hP] at h1
        simp only [Bool.and_eq_true, decide_eq_true_eq] at h1
        refine ⟨φ Q, φ P, rfl, rfl, fun q hq => ?_⟩
        obtain ⟨rfl, -⟩ := getD_cast hq
        rw [← hton, ← map_mul]
        exact ⟨φ_mono h1.1, φ_mono h1.2⟩
  · intro i σ q hσ hq t ht Q' hQ'
    have hi := tableSpeed_lt hσ
    obtain ⟨t', ht', rfl⟩ := cast [60, 82, 95, offC] t (by simpa [plotSpan] using ht)
    have h1 := (h i hi).1 t' ht'
    rw [← frF_map, ← speedsQ_of hσ] at hQ'
    generalize (speedsQ st).getD i 0 = σ' at h1 hQ'
    simp only [Perf.coolingCapacity, Perf.coolingPower, pT] at h1 hQ'
    rw [calculate_map φ_mono] at hQ'
    cases hQ : d.coolingCapacities.calculate σ' (frF t') with
    | error e => rw [hQ] at h1; simp at h1
    | ok Q =>
      cases hP : d.coolingPowers.calculate σ' (frF t') with
      | error e => rw [hQ, hP] at h1; simp at h1
      | ok P =>
        rw [hQ, hP] at h1
        rw [hQ] at hQ'
        simp only [Bool.and_eq_true, decide_eq_true_eq] at h1
        obtain rfl : φ Q = Q' := Except.ok.inj hQ'
        obtain ⟨rfl, -⟩ := getD_cast hq
        rw [← h13, ← map_mul]
        exact φ_mono.monotone h1.2

theorem moist_outdoor (t : ℝ) : ∃ o, Psych.init moistEnv.lib t moistEnv.atm [("rel_hum", 0.4)] = .ok o := ⟨_, rfl⟩

/-- C109 and C102: the plot of the single-stage unit is made, and the unit reports a positive sensible capacity at 82 °F outdoors. -/
theorem moist_plot {brentq : Brentq} (hbr : BrentqSpec brentq) :
    ∃ B, build units moistEnv moistTools brentq oneArgs = .ok B ∧ ∃ cs, plot (B.report units moistEnv moistTools brentq) = .ok cs := by
  obtain ⟨d, hd, hs⟩ := of_check (x := makeSingleSpeed unitsQ 10000 14 12 10000 (some 6500) 8 (frF 125) (frF 0) (some 3.2) 0.15)
    (p := fun d => soundB .single d [10000] [10000] && plotB .single d [10000] [10000] 0 125) (by decide +kernel)
  rw [Bool.and_eq_true] at hs
  have hm : makeSingleSpeed units 10000 14 12 10000 (some 6500) 8 (frF 125) (frF 0) (some 3.2) 0.15 = .ok (pT φ d) := by
    have := makeSingleSpeed_map φ_mono units_btuh 10000 14 12 10000 (some 6500) 8 (frF 125) (frF 0) (some 3.2) 0.15
    rw [hd] at this
    refine Eq.trans ?_ this
    congr 1 <;> norm_num [frF_cast]
  have hS := sound_of (st := .single) (single_rated hm) hs.1
  have hF := plot_of (st := .single) hs.2
  simp only [List.map, Rat.coe_castHom, Rat.cast_ofNat, Rat.cast_zero] at hS hF
  obtain ⟨B, h, hB⟩ := C90_ratings (a := oneArgs) (brentq := brentq) rfl rfl (q47 := 10000) rfl (by simpa [netTables, oneArgs, number, pyNum, inputEer, hspfFor, bind_ok, cd, DX.offTemperature] using hm) hS
    (C90_published moist_published hbr rfl rfl rfl (.inr rfl) (.inr rfl) (by simp))
  obtain ⟨_, _, _, _, _, _, h1, -, -, -, h2, -, -, -, -, -, -, -, h3, -⟩ := build_ok h
  have hoff : B.heatingOff = frF 0 := by
    have : stagingOf (numberOfSpeeds (oneArgs.heating.map NumArg.num) oneArgs.staging) oneArgs.staging = .ok .single := rfl
    rw [this] at h1; cases h1; exact h2
  have hoffC : B.coolingOff = frF 125 := h3
  obtain hst := hB.staging
  obtain htb := hB.tables
  refine ⟨B, h, C109_resnet_published (qc := [10000]) (qh := [10000]) moist_published h (fun d hd => by cases hd) hbr rfl (by rw [htb, hst]; exact hB) (by simp) (fun t _ => moist_outdoor t) ?_ (by rw [hoffC, toF_frF]; norm_num) ?_⟩
  · rw [htb, hst, hoff, hoffC]; exact hF.1
  · rw [htb, hst, hoffC]; exact hF.2

example : ∃ brentq B cs, build units moistEnv moistTools brentq oneArgs = .ok B ∧ plot (B.report units moistEnv moistTools brentq) = .ok cs := by
  obtain ⟨brentq, hbr⟩ := brentqSpec_satisfiable
  obtain ⟨B, h, cs, hcs⟩ := moist_plot hbr
  exact ⟨brentq, B, cs, h, hcs⟩

end Resdx.Sample
