import Verif.Spec.SeasonStaged
import Verif.Props.ResnetCooling

/-!
# C96, C97: the tests of constructed RESNET units whatever the fan draws

The conditions of the tests use a fan pressure relative to the airflow of the mode's fastest speed, the rated fan power one relative to the design airflow (`ResnetStaged`). Where a BPM fan draws more or less
at full speed than rated, the tests depart from the tables by that amount: the tests are those of the curves `withFan`.
-/

set_option linter.unusedSectionVars false
set_option linter.unusedSimpArgs false

namespace Resdx.Build

open Spec Tabular BaseModel Props ResnetFan Fan Table DX

variable {u : Units ℝ} {E : Env ℝ} {T : Coil.Tools} {brentq : Brentq} {a : Args} {B : Built}

/-- The fan power depends on the mode and the speed only, not on the air. -/
theorem fanPower_same {S : Sys ℝ} {k : Core} {heating : Bool} {i : Nat} {n n' o o' : Option (Psych.PsychState ℝ)} {c c' : Conditions ℝ} (h : S.makeCondition E heating i n o = .ok c)
    (h' : S.makeCondition E heating i n' o' = .ok c') : Build.fanPower u brentq k c = Build.fanPower u brentq k c' := by
  obtain ⟨rho, pr, x, cap, fs, h1, h2, h3, h4, h5, h6, h7, ⟨full, h8, h9, rfl⟩, h10, rfl⟩ := Sys.makeCondition_spec E S heating _ _ _ _ h
  obtain ⟨rho', pr', x', cap', fs', g1, g2, g3, g4, g5, g6, g7, ⟨full', g8, g9, rfl⟩, g10, rfl⟩ := Sys.makeCondition_spec E S heating _ _ _ _ h'
  rw [h7] at g7; cases g7
  rw [h8] at g8; cases g8
  rw [h10] at g10; cases g10
  rfl

theorem withFan_zero (c : Curves ℝ) : c.withFan 0 0 = c := by
  unfold Curves.withFan; simp

/-- Cooling at rated indoor conditions and airflow, with the fan power `v` of the condition: what the fan draws more than rated is added to the power and subtracted from the capacity of the tables. -/
theorem C88_cooling_any (h : build u E T brentq a = .ok B) (ht : ∀ d, a.tables = some d → RatedTables (tableSpeeds B.core.st) d) (hd : a.chargeDeviation = 0)
    {i : Nat} {σ : ℝ} (hσ : TableSpeed B.core.st i σ) (h32 : σ ≠ 3 / 2) {o : Psych.PsychState ℝ} (ho : toF o.db ≤ 125) (hr : Outdoor E o.db)
    {c : Conditions ℝ} (hc : B.sys.makeCondition E false i none (some o) = .ok c) {v : ℝ} (hv : (B.unit u E T brentq).fanPower c = .ok v) :
    ∃ q p w, B.core.net.coolingCapacity σ o.db = .ok q ∧ B.core.net.coolingPower σ o.db = .ok p ∧ B.core.cool.power[i]? = some (some w) ∧
      (B.unit u E T brentq).netTotalCoolingCapacity (some c) = (if q + w < 0 then .error .exception else .ok (q - (v - w))) ∧
      (B.unit u E T brentq).netCoolingPower (some c) = (if p - w < 0 then .error .exception else .ok (p + (v - w))) := by
  obtain ⟨fc, fh, F⟩ := built_facts h ht
  obtain ⟨_, _, _, _, _, _, -, -, -, -, -, -, -, -, hS, -⟩ := build_ok h
  obtain ⟨q, hq, hq'⟩ := F.gross.coolCap σ o.db
  obtain ⟨p, hp, hp'⟩ := F.gross.coolPow σ o.db
  obtain ⟨Q, hQ, hQ0⟩ := rated_cooling F hS hσ h32
  obtain ⟨r, hr⟩ := hr
  obtain ⟨g1, g2⟩ := gross_cooling F hS hσ hQ hQ0 ho hr hc
  obtain ⟨s1, -, s3, -, s5, -, s7, -, -, -, -, s12, -⟩ := sys_ok hS
  obtain ⟨ac, ah, -, -, -, A4, M, -⟩ := F.fan
  obtain ⟨_, _, _, w, -, -, -, -, -, hw⟩ := M.rated i (by rw [F.coolCaps.1]; exact tableSpeed_lt hσ)
  have hf := F.coolFan i σ w hσ h32 hw
  obtain ⟨n1, n2⟩ := unit_cooling (u := u) (T := T) (P := B.points) (ntu := B.coil.ntu) (by rw [s12, hd]) (g1.trans hq') (g2.trans hp') hv
  rw [hf] at n1 n2
  refine ⟨q, p, w, hq, hp, hw, ?_, ?_⟩
  · rw [show q + w - v = q - (v - w) by ring] at n1; exact n1
  · rw [show p - w + v = p + (v - w) by ring] at n2; exact n2

/-- The same at an outdoor temperature at which the speed does not do less than everywhere in its table. -/
theorem C97_at_any (h : build u E T brentq a = .ok B) (ht : ∀ d, a.tables = some d → RatedTables (tableSpeeds B.core.st) d) (hd : a.chargeDeviation = 0)
    {i : Nat} {σ : ℝ} (hσ : TableSpeed B.core.st i σ) (h32 : σ ≠ 3 / 2) {k : Int} (hk : (k : ℝ) = σ) {cv : Curves ℝ} (hcv : Follows B.core.net k cv)
    {o : Psych.PsychState ℝ} (ho : toF o.db ≤ 125) (hr : Outdoor E o.db) {c : Conditions ℝ} (hc : B.sys.makeCondition E false i none (some o) = .ok c) (hn : NotBelow B.core.net cv o.db)
    {v w : ℝ} (hv : (B.unit u E T brentq).fanPower c = .ok v) (hw : B.core.cool.power[i]? = some (some w)) :
    (B.unit u E T brentq).netTotalCoolingCapacity (some c) = .ok (cv.coolingCapacity o.db - (v - w)) ∧ (B.unit u E T brentq).netCoolingPower (some c) = .ok (cv.coolingPower o.db + (v - w)) := by
  subst hk
  obtain ⟨fc, fh, F⟩ := built_facts h ht
  obtain ⟨q, p, w', t1, t2, t3, t4, t5⟩ := C88_cooling_any h ht hd hσ h32 ho hr hc hv
  rw [hw] at t3; cases t3
  obtain ⟨f1, f2⟩ := F.posAt i _ hσ
  obtain ⟨⟨x, hx, hxq⟩, y, hy, hyp⟩ := hn
  obtain ⟨y', g1, g2⟩ := f1 _ hx
  obtain ⟨z', g3, g4⟩ := f2 _ hy
  obtain ⟨_, k1, k2⟩ := F.gross.coolCap k x
  obtain ⟨_, k3, k4⟩ := F.gross.coolPow k y
  cases (hcv x).1.symm.trans k1
  cases (hcv y).2.1.symm.trans k3
  cases t1.symm.trans (hcv o.db).1
  cases t2.symm.trans (hcv o.db).2.1
  rw [g1] at k2; cases k2
  rw [g3] at k4; cases k4
  rw [F.coolFan i _ w hσ h32 hw] at g2 g4
  rw [if_neg (not_lt.2 (by linarith))] at t4
  rw [if_neg (not_lt.2 (by linarith))] at t5
  exact ⟨t4, t5⟩

/-- C97: the cooling tests of a two-stage or variable-speed unit at full and low speed, whatever its fan draws at full speed. -/
theorem C97_tests_any (h : build u E T brentq a = .ok B) (hst : B.core.st ≠ .single) (ht : ∀ d, a.tables = some d → RatedTables (tableSpeeds B.core.st) d) (hd : a.chargeDeviation = 0)
    (h95 : Outdoor E (frF 95)) (h82 : Outdoor E (frF 82)) (h67 : Outdoor E (frF 67)) {low full : Curves ℝ}
    (hl : Follows B.core.net 1 low) (hf : Follows B.core.net 2 full) (n95 : NotBelow B.core.net full (frF 95)) (n82 : NotBelow B.core.net full (frF 82)) (l82 : NotBelow B.core.net low (frF 82))
    (l67 : NotBelow B.core.net low (frF 67)) {v w : ℝ} (hv : (B.unit u E T brentq).fanPower B.points.aFull = .ok v) (hw : B.core.cool.power[B.core.rc.full]? = some (some w)) (eh qE pE : ℝ) :
    CoolMatch (B.unit u E T brentq) B.points (low.coolTests (full.withFan (v - w) eh) qE pE) := by
  obtain ⟨st0, q47, nC, nH, b2, b3, b4, b6, b7, b8, b9, b10⟩ := build_steps h
  obtain ⟨i, j, b, f, _, _, _, _, hi, -, e1, e2, -, -, -, -, p1, p2, -⟩ := low_points b10 hst
  obtain ⟨g1, g2, -⟩ := full_points b10
  have hσ : TableSpeed B.core.st B.core.rc.full (fullTable B.core.st) := by rw [b6]; exact full_table _ _
  obtain ⟨hτ, hne⟩ : TableSpeed B.core.st i 1 ∧ i ≠ B.core.rc.full := by rw [b6] at hi ⊢; exact low_table hst hi
  have e : ((2 : Int) : ℝ) = fullTable B.core.st := by unfold fullTable; rw [if_neg hst]; norm_num
  have hx := C97_at_any h ht hd hσ (fullTable_ne _) e hf (o := defaultOutdoor E false) (by show toF (frF 95) ≤ _; rw [toF_frF]; norm_num) h95 g1 n95 hv hw
  have hy := C97_at_any h ht hd hσ (fullTable_ne _) e hf (o := wetState E.atm (frF 82) (frF 65)) (by show toF (frF 82) ≤ _; rw [toF_frF]; norm_num) h82 g2 n82
    ((fanPower_same g2 g1).trans hv) hw
  have hz := C97_at h ht hd hτ (by norm_num) (.inr (.inl hne)) Int.cast_one hl (o := wetState E.atm (frF 82) (frF 65)) (by show toF (frF 82) ≤ _; rw [toF_frF]; norm_num) h82 p1 l82
  have hw := C97_at h ht hd hτ (by norm_num) (.inr (.inl hne)) Int.cast_one hl (o := wetState E.atm (frF 67) (frF 53.5)) (by show toF (frF 67) ≤ _; rw [toF_frF]; norm_num) h67 p2 l67
  refine ⟨hx.1, hx.2, hy.1, hy.2, ?_, ?_, b, f, e1, e2, hz.1, hz.2, hw.1, hw.2, ?_, ?_⟩
  · show B.points.aFull.outdoor.db = _; rw [makeCondition_outdoor g1]; rfl
  · show B.points.bFull.outdoor.db = _; rw [makeCondition_outdoor g2]; rfl
  · show b.outdoor.db = _; rw [makeCondition_outdoor p1]; rfl
  · show f.outdoor.db = _; rw [makeCondition_outdoor p2]; rfl

/-- C96: net heating at rated indoor conditions and airflow, with the fan power `v` of the condition. -/
theorem C96_integrated_any (h : build u E T brentq a = .ok B) (ht : ∀ d, a.tables = some d → RatedTables (tableSpeeds B.core.st) d) (hd : a.chargeDeviation = 0)
    {i : Nat} {σ : ℝ} (hσ : TableSpeed B.core.st i σ) (h32 : σ ≠ 3 / 2) {o : Psych.PsychState ℝ} (hr : Outdoor E o.db)
    {c : Conditions ℝ} (hc : B.sys.makeCondition E true i none (some o) = .ok c) {v : ℝ} (hv : (B.unit u E T brentq).fanPower c = .ok v) :
    ∃ q p w, B.core.net.heatingCapacity σ o.db = .ok q ∧ B.core.net.heatingPower σ o.db = .ok p ∧ B.core.heat.power[i]? = some (some w) ∧
      (B.unit u E T brentq).netSteadyHeatingCapacity (some c) = .ok (q + (v - w)) ∧ (B.unit u E T brentq).netSteadyHeatingPower (some c) = .ok (p + (v - w)) ∧
      (B.unit u E T brentq).netIntegratedHeatingCapacity (some c) = .ok (frosted (a.defrost.inDefrost o.db) (1.8 * frostShare (toF o.db)) v (q + (v - w))) ∧
      (B.unit u E T brentq).netIntegratedHeatingPower (some c) = .ok (frosted (a.defrost.inDefrost o.db) (0.3 * frostShare (toF o.db)) v (p + (v - w))) := by
  obtain ⟨fc, fh, F⟩ := built_facts h ht
  obtain ⟨_, _, _, _, _, _, -, -, -, -, -, -, -, -, hS, -⟩ := build_ok h
  obtain ⟨q, hq, hq'⟩ := F.gross.heatCap σ o.db
  obtain ⟨p, hp, hp'⟩ := F.gross.heatPow σ o.db
  obtain ⟨Q, hQ, hQ0⟩ := rated_heating F hS hσ h32
  obtain ⟨r, hr⟩ := hr
  obtain ⟨g1, g2⟩ := gross_heating F hS hσ hQ hQ0.ne' hr hc
  obtain ⟨-, -, -, s4, -, s6, s7, -, -, -, -, s12, s13⟩ := sys_ok hS
  obtain ⟨ac, ah, -, -, -, A4, -, M⟩ := F.fan
  obtain ⟨_, _, _, w, -, -, -, -, -, hw⟩ := M.rated i (by rw [F.heatCaps.1]; exact tableSpeed_lt hσ)
  have hf := F.heatFan i σ w hσ h32 hw
  obtain ⟨n1, n2⟩ := unit_heating (u := u) (T := T) (P := B.points) (ntu := B.coil.ntu) (by rw [s12, hd]) (g1.trans hq') (g2.trans hp') hv
  obtain ⟨n3, n4⟩ := unit_integrated (u := u) (T := T) (P := B.points) (ntu := B.coil.ntu) (by rw [s12, hd]) (g1.trans hq') (g2.trans hp') hv
  rw [hf] at n1 n2 n3 n4
  rw [makeCondition_outdoor hc, s13] at n3 n4
  rw [show q - w + v = q + (v - w) by ring] at n1 n3
  rw [show p - w + v = p + (v - w) by ring] at n2 n4
  exact ⟨q, p, w, hq, hp, hw, n1, n2, n3, n4⟩

/-- C96: the full-speed heating tests, for every staging type and whatever the fan draws. -/
theorem C96_full_tests_any (h : build u E T brentq a = .ok B) (ht : ∀ d, a.tables = some d → RatedTables (tableSpeeds B.core.st) d) (hd : a.chargeDeviation = 0)
    (h47 : Outdoor E (frF 47)) (h35 : Outdoor E (frF 35)) (h17 : Outdoor E (frF 17)) {c : Curves ℝ} (hc : Follows B.core.net (if B.core.st = .single then 1 else 2) c)
    {v w : ℝ} (hv : (B.unit u E T brentq).fanPower B.points.h1Full = .ok v) (hw : B.core.heat.power[B.core.rh.full]? = some (some w)) (ec : ℝ) :
    HeatMatch (B.unit u E T brentq) B.points ((c.withFan ec (v - w)).heatTests (a.defrost.inDefrost (frF 35)) v) := by
  obtain ⟨st0, q47, nC, nH, b2, b3, b4, b6, b7, b8, b9, b10⟩ := build_steps h
  obtain ⟨-, -, p1, p3⟩ := full_points b10
  obtain ⟨p2, -⟩ := frost_points b10
  have hσ : TableSpeed B.core.st B.core.rh.full (fullTable B.core.st) := by rw [b7]; exact full_table _ _
  have e : ((if B.core.st = .single then 1 else 2 : Int) : ℝ) = fullTable B.core.st := by unfold fullTable; split <;> norm_num
  unfold Follows at hc
  rw [e] at hc
  obtain ⟨_, _, w1, x1, x2, x3, x4, x5, -⟩ := C96_integrated_any h ht hd hσ (fullTable_ne _) (o := defaultOutdoor E true) h47 p1 hv
  obtain ⟨_, _, w2, y1, y2, y3, -, -, y4, y5⟩ := C96_integrated_any h ht hd hσ (fullTable_ne _) (o := wetState E.atm (frF 35) (frF 33)) h35 p2 ((fanPower_same p2 p1).trans hv)
  obtain ⟨_, _, w3, z1, z2, z3, z4, z5, -⟩ := C96_integrated_any h ht hd hσ (fullTable_ne _) (o := wetState E.atm (frF 17) (frF 15)) h17 p3 ((fanPower_same p3 p1).trans hv)
  have d1 : (defaultOutdoor E true).db = frF 47 := rfl
  have d2 : (wetState E.atm (frF 35) (frF 33)).db = frF 35 := rfl
  have d3 : (wetState E.atm (frF 17) (frF 15)).db = frF 17 := rfl
  rw [d1] at x1 x2
  rw [d2] at y1 y2 y4 y5
  rw [d3] at z1 z2
  rw [hw] at x3 y3 z3
  cases x3; cases y3; cases z3
  cases x1.symm.trans (hc (frF 47)).2.2.1
  cases x2.symm.trans (hc (frF 47)).2.2.2
  cases y1.symm.trans (hc (frF 35)).2.2.1
  cases y2.symm.trans (hc (frF 35)).2.2.2
  cases z1.symm.trans (hc (frF 17)).2.2.1
  cases z2.symm.trans (hc (frF 17)).2.2.2
  rw [toF_frF, frost35.1] at y4
  rw [toF_frF, frost35.2] at y5
  refine ⟨x4, x5, y4, y5, z4, z5, ?_, ?_, ?_⟩
  · show B.points.h1Full.outdoor.db = _; rw [makeCondition_outdoor p1]; rfl
  · show B.points.h2Full.outdoor.db = _; rw [makeCondition_outdoor p2]; rfl
  · show B.points.h3Full.outdoor.db = _; rw [makeCondition_outdoor p3]; rfl

/-- Where the fan is rated at the pressure of the conditions it draws the rated power. -/
theorem C88_fan_as_rated (h : build u E T brentq a = .ok B) (ht : ∀ d, a.tables = some d → RatedTables (tableSpeeds B.core.st) d) :
    (SameFan B.core B.core.rc B.core.cool B.core.rc.full → ∃ w, B.core.cool.power[B.core.rc.full]? = some (some w) ∧ (B.unit u E T brentq).fanPower B.points.aFull = .ok w) ∧
      (SameFan B.core B.core.rh B.core.heat B.core.rh.full → ∃ w, B.core.heat.power[B.core.rh.full]? = some (some w) ∧ (B.unit u E T brentq).fanPower B.points.h1Full = .ok w) := by
  obtain ⟨fc, fh, F⟩ := built_facts h ht
  obtain ⟨st0, q47, nC, nH, b2, b3, b4, b6, b7, b8, hS, b10⟩ := build_steps h
  obtain ⟨g1, -, g3, -⟩ := full_points b10
  obtain ⟨-, -, s3, s4, s5, s6, s7, -⟩ := sys_ok hS
  obtain ⟨ac, ah, -, -, -, A4, M, M'⟩ := F.fan
  have hσ : TableSpeed B.core.st B.core.rc.full (fullTable B.core.st) := by rw [b6]; exact full_table _ _
  have hσ' : TableSpeed B.core.st B.core.rh.full (fullTable B.core.st) := by rw [b7]; exact full_table _ _
  constructor
  · intro hfan
    exact fanPower_cond g1 (by simpa using s3) (by simpa using s5) s7 M (by rw [F.coolCaps.1]; exact tableSpeed_lt hσ) (by
      rcases hfan with h | h | ⟨d, h1, h2⟩
      · exact .inl h
      · exact .inr (.inl h)
      · rw [A4] at h1; cases h1; exact .inr (.inr h2))
  · intro hfan
    exact fanPower_cond g3 (by simpa using s4) (by simpa using s6) s7 M' (by rw [F.heatCaps.1]; exact tableSpeed_lt hσ') (by
      rcases hfan with h | h | ⟨d, h1, h2⟩
      · exact .inl h
      · exact .inr (.inl h)
      · rw [A4] at h1; cases h1; exact .inr (.inr h2))

/-- A BPM fan draws at full speed what it is rated at, and a multiple of the static pressure that depends on the airflows: nothing if the mode's fastest speed has the design airflow. -/
theorem C88_fan_bpm (h : build u E T brentq a = .ok B) (ht : ∀ d, a.tables = some d → RatedTables (tableSpeeds B.core.st) d) (hbr : BrentqSpec brentq) (hpsc : B.core.psc = false) {af a0 d : ℝ} :
    (FullAirflows B.core B.core.cool B.core.rc.full af a0 d → ∃ w v g, B.core.cool.power[B.core.rc.full]? = some (some w) ∧ (B.unit u E T brentq).fanPower B.points.aFull = .ok v ∧
        0 < w ∧ 0 < v ∧ 0 < g ∧ v - w = g * B.core.fullESP * ((d / a0) ^ 2 - 1)) ∧
      (FullAirflows B.core B.core.heat B.core.rh.full af a0 d → ∃ w v g, B.core.heat.power[B.core.rh.full]? = some (some w) ∧ (B.unit u E T brentq).fanPower B.points.h1Full = .ok v ∧
        0 < w ∧ 0 < v ∧ 0 < g ∧ v - w = g * B.core.fullESP * ((d / a0) ^ 2 - 1)) := by
  obtain ⟨fc, fh, F⟩ := built_facts h ht
  obtain ⟨st0, q47, nC, nH, b2, b3, b4, b6, b7, hK, hS, b10⟩ := build_steps h
  obtain ⟨g1, -, g3, -⟩ := full_points b10
  obtain ⟨-, -, s3, s4, s5, s6, s7, -⟩ := sys_ok hS
  obtain ⟨ac, ah, A1, A2, A3, A4, M, M'⟩ := F.fan
  have hσ : TableSpeed B.core.st B.core.rc.full (fullTable B.core.st) := by rw [b6]; exact full_table _ _
  have hσ' : TableSpeed B.core.st B.core.rh.full (fullTable B.core.st) := by rw [b7]; exact full_table _ _
  have hesp := core_esp hK
  have hesp0 : 0 ≤ B.core.fullESP := by
    cases hdu : a.ducted <;> rw [hdu] at hesp
    · exact (show B.core.fullESP = 0 from hesp).ge
    · exact le_of_lt hesp
  constructor
  · intro ⟨i1, i2, i3, i4, i5⟩
    have e1 : ac = af := by
      obtain ⟨_, _, _, _, _, e⟩ := A1
      rw [i1] at e; exact (Option.some.inj (Option.some.inj e)).symm
    subst e1
    rw [i3] at A4; cases A4
    have hG := core_good hK i3 (i4.trans_le (le_max_left _ _))
    obtain ⟨w, w', g, w1, w2, w3, w3', w4, w5⟩ := fanPower_full hbr g1 (by simpa using s3) (by simpa using s5) s7 M (by rw [F.coolCaps.1]; exact tableSpeed_lt hσ) hpsc hG hesp0 i1 i2 i4 (le_max_left _ _) i5
    exact ⟨w, w', g, w1, w2, w3, w3', w4, by linarith⟩
  · intro ⟨i1, i2, i3, i4, i5⟩
    have e1 : ah = af := by
      obtain ⟨_, _, _, _, _, e⟩ := A2
      rw [i1] at e; exact (Option.some.inj (Option.some.inj e)).symm
    subst e1
    rw [i3] at A4; cases A4
    have hG := core_good hK i3 (i4.trans_le (le_max_right _ _))
    obtain ⟨w, w', g, w1, w2, w3, w3', w4, w5⟩ := fanPower_full hbr g3 (by simpa using s4) (by simpa using s6) s7 M' (by rw [F.heatCaps.1]; exact tableSpeed_lt hσ') hpsc hG hesp0 i1 i2 i4 (le_max_right _ _) i5
    exact ⟨w, w', g, w1, w2, w3, w3', w4, by linarith⟩

end Resdx.Build
