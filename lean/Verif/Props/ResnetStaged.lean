import Verif.Lemmas.ResnetRatings
import Verif.Props.ResnetBuild

/-!
# Full-speed ratings of constructed RESNET units of every staging type (C89), and the full speed of units with a BPM motor (C88)

`set_fan` rates the fan power at full speed with the static pressure of the fan's design airflow (the larger of the two modes' full-speed airflows), whereas `make_condition` takes the pressure relative to
the airflow of the mode's fastest speed. A PSC motor's power does not depend on the pressure; a BPM motor's power does.
-/

set_option linter.unusedSectionVars false
set_option linter.unusedSimpArgs false

namespace Resdx.Build

open Spec Tabular BaseModel Props ResnetFan Fan Table

variable {u : Units ℝ} {E : Env ℝ} {T : Coil.Tools} {brentq : Brentq} {a : Args} {B : Built}

/-! ## C88: the full speed with a BPM motor -/

/-- The airflows the two pressures depend on: `af` at full speed, `a0` at the mode's fastest speed, `d` the fan's design airflow. -/
structure FullAirflows (k : Core) (s : Side) (fs : Nat) (af a0 d : ℝ) : Prop where
  full : s.airflow[fs]? = some (some af)
  fastest : s.airflow[0]? = some (some a0)
  design : k.fan.airflow[0]? = some d
  posFull : 0 < af
  posFastest : 0 < a0

/-- C88, full-speed cooling with a BPM motor: net capacity and power are those of the tables shifted by the same amount `δ` in opposite directions. Ducted units whose fastest cooling airflow exceeds the
design airflow perform better than their tables, those with a smaller one worse. -/
theorem C88_cooling_bpm (h : build u E T brentq a = .ok B) (ht : ∀ d, a.tables = some d → RatedTables (tableSpeeds B.core.st) d) (hd : a.chargeDeviation = 0) (hbr : BrentqSpec brentq)
    (hpsc : B.core.psc = false) {σ : ℝ} (hσ : TableSpeed B.core.st B.core.rc.full σ) (h32 : σ ≠ 3 / 2) {af a0 d : ℝ} (hair : FullAirflows B.core B.core.cool B.core.rc.full af a0 d)
    {o : Psych.PsychState ℝ} (ho : toF o.db ≤ 125) (hr : Outdoor E o.db) {c : Conditions ℝ} (hc : B.sys.makeCondition E false B.core.rc.full none (some o) = .ok c) :
    ∃ q p w δ, B.core.net.coolingCapacity σ o.db = .ok q ∧ B.core.net.coolingPower σ o.db = .ok p ∧ B.core.cool.power[B.core.rc.full]? = some (some w) ∧
      (B.unit u E T brentq).netTotalCoolingCapacity (some c) = (if q + w < 0 then .error .exception else .ok (q + δ)) ∧
      (B.unit u E T brentq).netCoolingPower (some c) = (if p - w < 0 then .error .exception else .ok (p - δ)) ∧ 0 < w ∧ 0 < w - δ ∧
      (a.ducted = true → (0 < δ ↔ d < a0) ∧ (δ < 0 ↔ a0 < d)) ∧ (a.ducted = false → δ = 0) := by
  obtain ⟨fc, fh, F⟩ := built_facts h ht
  obtain ⟨st0, q47, nC, nH, -, -, -, -, -, hK, hS, -⟩ := build_steps h
  obtain ⟨q, hq, hq'⟩ := F.gross.coolCap σ o.db
  obtain ⟨p, hp, hp'⟩ := F.gross.coolPow σ o.db
  obtain ⟨Q, hQ, hQ0⟩ := rated_cooling F hS hσ h32
  obtain ⟨r, hr⟩ := hr
  obtain ⟨g1, g2⟩ := gross_cooling F hS hσ hQ hQ0 ho hr hc
  obtain ⟨s1, -, s3, -, s5, -, s7, -, -, -, -, s12, -⟩ := sys_ok hS
  obtain ⟨ac, ah, A1, A2, A3, A4, M, -⟩ := F.fan
  obtain ⟨i1, i2, i3, i4, i5⟩ := hair
  have e1 : ac = af := by
    obtain ⟨_, _, _, _, _, e⟩ := A1
    rw [i1] at e; exact (Option.some.inj (Option.some.inj e)).symm
  subst e1
  rw [i3] at A4; cases A4
  have hG := core_good hK i3 (i4.trans_le (le_max_left _ _))
  have hesp := core_esp hK
  have hesp0 : 0 ≤ B.core.fullESP := by
    cases hdu : a.ducted <;> rw [hdu] at hesp
    · exact (show B.core.fullESP = 0 from hesp).ge
    · exact le_of_lt hesp
  obtain ⟨w, w', g, w1, w2, w3, w3', w4, w5⟩ := fanPower_full hbr hc (by simpa using s3) (by simpa using s5) s7 M (by rw [F.coolCaps.1]; exact tableSpeed_lt hσ) hpsc hG hesp0 i1 i2 i4 (le_max_left _ _) i5
  have hf := F.coolFan _ σ w hσ h32 w1
  obtain ⟨n1, n2⟩ := unit_cooling (u := u) (T := T) (P := B.points) (ntu := B.coil.ntu) (by rw [s12, hd]) (g1.trans hq') (g2.trans hp') w2
  rw [hf] at n1 n2
  have hdp : 0 < max ac ah := i4.trans_le (le_max_left _ _)
  refine ⟨q, p, w, w - w', hq, hp, w1, ?_, ?_, w3, by linarith, ?_, ?_⟩
  · rw [show q + w - w' = q + (w - w') by ring] at n1; exact n1
  · rw [show p - w + w' = p - (w - w') by ring] at n2; exact n2
  · intro hdu
    rw [hdu] at hesp
    have hesp : 0 < B.core.fullESP := hesp
    have hgk : 0 < g * B.core.fullESP := mul_pos w4 hesp
    have sq : (max ac ah / a0) ^ 2 < 1 ↔ max ac ah < a0 := by
      rw [sq_lt_one_iff₀ (by positivity), div_lt_one i5]
    have sq' : 1 < (max ac ah / a0) ^ 2 ↔ a0 < max ac ah := by
      rw [one_lt_sq_iff₀ (by positivity), one_lt_div i5]
    rw [w5]
    constructor
    · rw [← sq, mul_pos_iff_of_pos_left hgk, sub_pos]
    · rw [← sq']
      exact ⟨fun hh => by by_contra hn; exact absurd (mul_nonneg hgk.le (sub_nonneg.2 (not_lt.1 hn))) (not_le.2 hh), fun hh => mul_neg_of_pos_of_neg hgk (by linarith)⟩
  · intro hdu
    rw [hdu] at hesp
    have hesp : B.core.fullESP = 0 := hesp
    rw [w5, hesp]; ring

/-- C88, full-speed heating with a BPM motor: capacity and power shift by the same amount in the same direction. -/
theorem C88_heating_bpm (h : build u E T brentq a = .ok B) (ht : ∀ d, a.tables = some d → RatedTables (tableSpeeds B.core.st) d) (hd : a.chargeDeviation = 0) (hbr : BrentqSpec brentq)
    (hpsc : B.core.psc = false) {σ : ℝ} (hσ : TableSpeed B.core.st B.core.rh.full σ) (h32 : σ ≠ 3 / 2) {af a0 d : ℝ} (hair : FullAirflows B.core B.core.heat B.core.rh.full af a0 d)
    {o : Psych.PsychState ℝ} (hr : Outdoor E o.db) {c : Conditions ℝ} (hc : B.sys.makeCondition E true B.core.rh.full none (some o) = .ok c) :
    ∃ q p δ, B.core.net.heatingCapacity σ o.db = .ok q ∧ B.core.net.heatingPower σ o.db = .ok p ∧
      (B.unit u E T brentq).netSteadyHeatingCapacity (some c) = .ok (q - δ) ∧ (B.unit u E T brentq).netSteadyHeatingPower (some c) = .ok (p - δ) ∧
      (a.ducted = true → (0 < δ ↔ d < a0) ∧ (δ < 0 ↔ a0 < d)) ∧ (a.ducted = false → δ = 0) := by
  obtain ⟨fc, fh, F⟩ := built_facts h ht
  obtain ⟨st0, q47, nC, nH, -, -, -, -, -, hK, hS, -⟩ := build_steps h
  obtain ⟨q, hq, hq'⟩ := F.gross.heatCap σ o.db
  obtain ⟨p, hp, hp'⟩ := F.gross.heatPow σ o.db
  obtain ⟨Q, hQ, hQ0⟩ := rated_heating F hS hσ h32
  obtain ⟨r, hr⟩ := hr
  obtain ⟨g1, g2⟩ := gross_heating F hS hσ hQ hQ0.ne' hr hc
  obtain ⟨-, -, -, s4, -, s6, s7, -, -, -, -, s12, -⟩ := sys_ok hS
  obtain ⟨ac, ah, A1, A2, A3, A4, -, M⟩ := F.fan
  obtain ⟨i1, i2, i3, i4, i5⟩ := hair
  have e1 : ah = af := by
    obtain ⟨_, _, _, _, _, e⟩ := A2
    rw [i1] at e; exact (Option.some.inj (Option.some.inj e)).symm
  subst e1
  rw [i3] at A4; cases A4
  have hG := core_good hK i3 (i4.trans_le (le_max_right _ _))
  have hesp := core_esp hK
  have hesp0 : 0 ≤ B.core.fullESP := by
    cases hdu : a.ducted <;> rw [hdu] at hesp
    · exact (show B.core.fullESP = 0 from hesp).ge
    · exact le_of_lt hesp
  obtain ⟨w, w', g, w1, w2, w3, w3', w4, w5⟩ := fanPower_full hbr hc (by simpa using s4) (by simpa using s6) s7 M (by rw [F.heatCaps.1]; exact tableSpeed_lt hσ) hpsc hG hesp0 i1 i2 i4 (le_max_right _ _) i5
  have hf := F.heatFan _ σ w hσ h32 w1
  obtain ⟨n1, n2⟩ := unit_heating (u := u) (T := T) (P := B.points) (ntu := B.coil.ntu) (by rw [s12, hd]) (g1.trans hq') (g2.trans hp') w2
  rw [hf] at n1 n2
  have hdp : 0 < max ac ah := i4.trans_le (le_max_right _ _)
  refine ⟨q, p, w - w', hq, hp, ?_, ?_, ?_, ?_⟩
  · rw [show q - w + w' = q - (w - w') by ring] at n1; exact n1
  · rw [show p - w + w' = p - (w - w') by ring] at n2; exact n2
  · intro hdu
    rw [hdu] at hesp
    have hesp : 0 < B.core.fullESP := hesp
    have hgk : 0 < g * B.core.fullESP := mul_pos w4 hesp
    have sq : (max ac ah / a0) ^ 2 < 1 ↔ max ac ah < a0 := by
      rw [sq_lt_one_iff₀ (by positivity), div_lt_one i5]
    have sq' : 1 < (max ac ah / a0) ^ 2 ↔ a0 < max ac ah := by
      rw [one_lt_sq_iff₀ (by positivity), one_lt_div i5]
    rw [w5]
    constructor
    · rw [← sq, mul_pos_iff_of_pos_left hgk, sub_pos]
    · rw [← sq']
      exact ⟨fun hh => by by_contra hn; exact absurd (mul_nonneg hgk.le (sub_nonneg.2 (not_lt.1 hn))) (not_le.2 hh), fun hh => mul_neg_of_pos_of_neg hgk (by linarith)⟩
  · intro hdu
    rw [hdu] at hesp
    have hesp : B.core.fullESP = 0 := hesp
    rw [w5, hesp]; ring

/-! ## C89: full-speed ratings -/

/-- The gross values at the A test are positive. -/
theorem a_test_positive (h : build u E T brentq a = .ok B) (ht : a.tables = none) {σ q p w : ℝ} (hσ : TableSpeed B.core.st B.core.rc.full σ) (h32 : σ ≠ 3 / 2)
    (hq : B.core.net.coolingCapacity σ (frF 95) = .ok q) (hp : B.core.net.coolingPower σ (frF 95) = .ok p) (hw : B.core.cool.power[B.core.rc.full]? = some (some w)) :
    0 < q + w ∧ 0 < p - w := by
  obtain ⟨fc, fh, F⟩ := built_facts h (fun d h => by rw [ht] at h; cases h)
  obtain ⟨qc, pc, _, _, z1, z2, z3, z4, -⟩ := F.pos _ σ hσ
  obtain ⟨_, k1, k2⟩ := F.gross.coolCap σ (frF 95)
  obtain ⟨_, k3, k4⟩ := F.gross.coolPow σ (frF 95)
  rw [hq] at k1; cases k1
  rw [hp] at k3; cases k3
  rw [z1] at k2; cases k2
  rw [z3] at k4; cases k4
  rw [F.coolFan _ σ w hσ h32 hw] at z2 z4
  exact ⟨z2, z4⟩

/-- A rating condition needs a capacity that is not zero. -/
theorem rated_cooling_ne (h : build u E T brentq a = .ok B) (ht : a.tables = none) {σ q : ℝ} (hσ : TableSpeed B.core.st B.core.rc.full σ)
    (hq : B.core.net.coolingCapacity σ (frF 95) = .ok q) : q ≠ 0 := by
  obtain ⟨fc, fh, F⟩ := built_facts h (fun d h => by rw [ht] at h; cases h)
  obtain ⟨st0, q47, nC, nH, -, -, -, -, -, hK, hS, hP⟩ := build_steps h
  obtain ⟨rho, pr, x, cap, fs, -, -, -, hcap, -, hcap', -⟩ := Sys.makeCondition_spec E B.sys false _ _ _ _ (full_points hP).1
  obtain ⟨q', z1, z2⟩ := F.coolCaps.2 _ σ hσ
  have hz : q = q' := Except.ok.inj (hq.symm.trans z2)
  subst hz
  rw [(sys_ok hS).1] at hcap'
  simp only [Bool.false_eq_true, if_false] at hcap'
  rw [z1] at hcap'; cases hcap'
  exact hcap

theorem rated_heating_ne (h : build u E T brentq a = .ok B) (ht : a.tables = none) {σ q : ℝ} (hσ : TableSpeed B.core.st B.core.rh.full σ)
    (hq : B.core.net.heatingCapacity σ (frF 47) = .ok q) : q ≠ 0 := by
  obtain ⟨fc, fh, F⟩ := built_facts h (fun d h => by rw [ht] at h; cases h)
  obtain ⟨st0, q47, nC, nH, -, -, -, -, -, hK, hS, hP⟩ := build_steps h
  obtain ⟨rho, pr, x, cap, fs, -, -, -, hcap, -, hcap', -⟩ := Sys.makeCondition_spec E B.sys true _ _ _ _ (full_points hP).2.2.1
  obtain ⟨q', z1, z2⟩ := F.heatCaps.2 _ σ hσ
  have hz : q = q' := Except.ok.inj (hq.symm.trans z2)
  subst hz
  rw [(sys_ok hS).2.1] at hcap'
  simp only [if_true] at hcap'
  rw [z1] at hcap'; cases hcap'
  exact hcap

/-- C89, cooling: a unit of any staging type made from ratings has the rated EER2 and net cooling capacity at the A test, if the full speed is rated at the fan pressure its conditions use (`SameFan`: any
PSC motor, or a BPM motor whose design airflow is that of the fastest cooling speed). -/
theorem C89_cooling_partial (h : build u E T brentq a = .ok B) (ht : a.tables = none) (hd : a.chargeDeviation = 0)
    (hfan : SameFan B.core B.core.rc B.core.cool B.core.rc.full) (h95 : Outdoor E (frF 95)) :
    ∃ q eer, a.cooling = .num q ∧ inputEer a = some eer ∧ B.eer u E T brentq = .ok eer ∧ (B.unit u E T brentq).netTotalCoolingCapacity none = .ok q := by
  have ht' : ∀ d, a.tables = some d → RatedTables (tableSpeeds B.core.st) d := fun d h => by rw [ht] at h; cases h
  obtain ⟨st0, q47, nC, nH, -, -, hN, hrc, -, hK, hS, hP⟩ := build_steps h
  obtain ⟨q, eer, c1, c2, c3, c4, c5⟩ := ratings_cooling hN ht
  have hσ : TableSpeed B.core.st B.core.rc.full (fullTable B.core.st) := by rw [hrc]; exact full_table _ _
  have h32 := fullTable_ne B.core.st
  have hq0 := rated_cooling_ne h ht hσ c4
  have c5 := c5 hq0
  obtain ⟨q', p', w, t1, t2, t3, t4, t5⟩ := C88_cooling h ht' hd hσ h32 hfan (o := defaultOutdoor E false)
    (by simp [defaultOutdoor, wetState, Psych.blank, toF_frF]; norm_num) h95 (full_points hP).1
  have hdb : (defaultOutdoor E false).db = frF 95 := rfl
  rw [hdb] at t1 t2
  obtain ⟨p1, p2⟩ := a_test_positive h ht hσ h32 t1 t2 t3
  rw [if_neg (not_lt.2 p1.le)] at t4
  rw [if_neg (not_lt.2 p2.le)] at t5
  rw [c4] at t1; cases t1
  rw [c5] at t2; cases t2
  have hb := u.btuh_pos.ne'
  have e1 : (B.unit u E T brentq).netTotalCoolingCapacity none = .ok q := t4
  have e2 : (B.unit u E T brentq).netCoolingPower none = .ok (q / (eer * u.btuh)) := t5
  refine ⟨q, eer, c1, c2, ?_, t4⟩
  simp only [Built.eer, DX.Performance.eer, DX.Performance.netTotalCoolingCOP, e1, e2, bind_ok, pdiv_ok (div_ne_zero hq0 (mul_ne_zero c3 hb)), pdiv_ok hb, Except.ok.injEq]
  field_simp

/-- C89, heating: the rated net heating capacity (given or default) and COP at the H1 test and the given capacity at the H3 test. -/
theorem C89_heating_partial (h : build u E T brentq a = .ok B) (ht : a.tables = none) (hd : a.chargeDeviation = 0)
    (hfan : SameFan B.core B.core.rh B.core.heat B.core.rh.full) (h47 : Outdoor E (frF 47)) (h17 : Outdoor E (frF 17)) :
    ∃ q, heating47 u a B.core.st = .ok q ∧ (B.unit u E T brentq).netSteadyHeatingCapacity none = .ok q ∧
      (∀ c, a.netHeatingCop = some c → (B.unit u E T brentq).netSteadyHeatingCOP none = .ok c) ∧
      ∀ q17, a.heating17 = some q17 → (B.unit u E T brentq).netSteadyHeatingCapacity (some B.points.h3Full) = .ok q17 := by
  have ht' : ∀ d, a.tables = some d → RatedTables (tableSpeeds B.core.st) d := fun d h => by rw [ht] at h; cases h
  obtain ⟨st0, q47, nC, nH, -, h47', hN, -, hrh, hK, hS, hP⟩ := build_steps h
  obtain ⟨c1, c2, c3⟩ := ratings_heating hN ht
  have hσ : TableSpeed B.core.st B.core.rh.full (fullTable B.core.st) := by rw [hrh]; exact full_table _ _
  have h32 := fullTable_ne B.core.st
  have hq0 := rated_heating_ne h ht hσ c1
  obtain ⟨-, -, p1, p2⟩ := full_points hP
  obtain ⟨q, w, t1, t2, t3, t4⟩ := C88_heating h ht' hd hσ h32 hfan (o := defaultOutdoor E true) h47 p1
  obtain ⟨q', w', s1, s2, s3, s4⟩ := C88_heating h ht' hd hσ h32 hfan (o := wetState E.atm (frF 17) (frF 15)) h17 p2
  have hdb : (defaultOutdoor E true).db = frF 47 := rfl
  have hdb' : (wetState E.atm (frF 17) (frF 15)).db = frF 17 := rfl
  rw [hdb] at t1 t2
  rw [hdb'] at s1
  rw [c1] at t1; cases t1
  refine ⟨q47, h47', t3, ?_, ?_⟩
  · intro c hc
    obtain ⟨hc0, hp⟩ := c2 hq0 c hc
    rw [hp] at t2; cases t2
    have e1 : (B.unit u E T brentq).netSteadyHeatingCapacity none = .ok q47 := t3
    have e2 : (B.unit u E T brentq).netSteadyHeatingPower none = .ok (q47 / c) := t4
    simp only [DX.Performance.netSteadyHeatingCOP, e1, e2, bind_ok, pdiv_ok (div_ne_zero hq0 hc0), Except.ok.injEq]
    field_simp
  · intro q17 h
    rw [c3 q17 h] at s1; cases s1
    exact s3

/-- C89, cooling with a BPM motor: the EER2 and the net capacity at the A test exceed the rated ones exactly if the airflow of the fastest cooling speed exceeds the fan's design airflow, and fall short of them
exactly if it is smaller. -/
theorem C89_cooling_bpm (h : build u E T brentq a = .ok B) (ht : a.tables = none) (hd : a.chargeDeviation = 0) (hbr : BrentqSpec brentq) (hpsc : B.core.psc = false) (hdu : a.ducted = true)
    {af a0 d : ℝ} (hair : FullAirflows B.core B.core.cool B.core.rc.full af a0 d) (h95 : Outdoor E (frF 95)) {q : ℝ} (hq : a.cooling = .num q) (hpos : 0 < q) :
    ∃ eer eer' q', inputEer a = some eer ∧ B.eer u E T brentq = .ok eer' ∧ (B.unit u E T brentq).netTotalCoolingCapacity none = .ok q' ∧
      (eer < eer' ↔ d < a0) ∧ (eer' < eer ↔ a0 < d) ∧ (q < q' ↔ d < a0) ∧ (q' < q ↔ a0 < d) := by
  have ht' : ∀ d, a.tables = some d → RatedTables (tableSpeeds B.core.st) d := fun d h => by rw [ht] at h; cases h
  obtain ⟨st0, q47, nC, nH, -, -, hN, hrc, -, hK, hS, hP⟩ := build_steps h
  obtain ⟨q2, eer, c1, c2, c3, c4, c5⟩ := ratings_cooling hN ht
  rw [hq] at c1; cases c1
  have hσ : TableSpeed B.core.st B.core.rc.full (fullTable B.core.st) := by rw [hrc]; exact full_table _ _
  have h32 := fullTable_ne B.core.st
  have c5 := c5 hpos.ne'
  obtain ⟨q', p', w, δ, t1, t2, t3, t4, t5, t6, t7, t8, -⟩ := C88_cooling_bpm h ht' hd hbr hpsc hσ h32 hair (o := defaultOutdoor E false)
    (by simp [defaultOutdoor, wetState, Psych.blank, toF_frF]; norm_num) h95 (full_points hP).1
  have hdb : (defaultOutdoor E false).db = frF 95 := rfl
  rw [hdb] at t1 t2
  obtain ⟨p1, p2⟩ := a_test_positive h ht hσ h32 t1 t2 t3
  rw [if_neg (not_lt.2 p1.le)] at t4
  rw [if_neg (not_lt.2 p2.le)] at t5
  rw [c4] at t1; cases t1
  rw [c5] at t2; cases t2
  obtain ⟨o1, o2⟩ := t8 hdu
  have hb := u.btuh_pos
  set p := q / (eer * u.btuh) with hpdef
  have hp : 0 < p := by linarith
  have hpδ : 0 < p - δ := by linarith
  have e1 : (B.unit u E T brentq).netTotalCoolingCapacity none = .ok (q + δ) := t4
  have e2 : (B.unit u E T brentq).netCoolingPower none = .ok (p - δ) := t5
  have he : eer = q / p / u.btuh := by rw [hpdef]; field_simp
  refine ⟨eer, (q + δ) / (p - δ) / u.btuh, q + δ, c2, ?_, t4, ?_, ?_, ?_, ?_⟩
  · simp only [Built.eer, DX.Performance.eer, DX.Performance.netTotalCoolingCOP, e1, e2, bind_ok, pdiv_ok hpδ.ne', pdiv_ok hb.ne']
  · rw [← o1, he, div_lt_div_iff_of_pos_right hb, div_lt_div_iff₀ hp hpδ]
    constructor <;> intro hh <;> nlinarith
  · rw [← o2, he, div_lt_div_iff_of_pos_right hb, div_lt_div_iff₀ hpδ hp]
    constructor <;> intro hh <;> nlinarith
  · rw [← o1]; constructor <;> intro hh <;> linarith
  · rw [← o2]; constructor <;> intro hh <;> linarith

/-- C89, heating with a BPM motor: the net capacity at the H1 test falls short of the rated one exactly if the airflow of the fastest heating speed exceeds the fan's design airflow, and exceeds it exactly if
it is smaller. -/
theorem C89_heating_bpm (h : build u E T brentq a = .ok B) (ht : a.tables = none) (hd : a.chargeDeviation = 0) (hbr : BrentqSpec brentq) (hpsc : B.core.psc = false) (hdu : a.ducted = true)
    {af a0 d : ℝ} (hair : FullAirflows B.core B.core.heat B.core.rh.full af a0 d) (h47 : Outdoor E (frF 47)) :
    ∃ q q', heating47 u a B.core.st = .ok q ∧ (B.unit u E T brentq).netSteadyHeatingCapacity none = .ok q' ∧ (q' < q ↔ d < a0) ∧ (q < q' ↔ a0 < d) := by
  have ht' : ∀ d, a.tables = some d → RatedTables (tableSpeeds B.core.st) d := fun d h => by rw [ht] at h; cases h
  obtain ⟨st0, q47, nC, nH, -, h47', hN, -, hrh, hK, hS, hP⟩ := build_steps h
  obtain ⟨c1, -⟩ := ratings_heating hN ht
  have hσ : TableSpeed B.core.st B.core.rh.full (fullTable B.core.st) := by rw [hrh]; exact full_table _ _
  have h32 := fullTable_ne B.core.st
  obtain ⟨-, -, p1, -⟩ := full_points hP
  obtain ⟨q, p, δ, t1, t2, t3, t4, t5, -⟩ := C88_heating_bpm h ht' hd hbr hpsc hσ h32 hair (o := defaultOutdoor E true) h47 p1
  have hdb : (defaultOutdoor E true).db = frF 47 := rfl
  rw [hdb] at t1 t2
  rw [c1] at t1; cases t1
  obtain ⟨o1, o2⟩ := t5 hdu
  refine ⟨q47, q47 - δ, h47', t3, ?_, ?_⟩
  · rw [← o1]; constructor <;> intro hh <;> linarith
  · rw [← o2]; constructor <;> intro hh <;> linarith

end Resdx.Build
