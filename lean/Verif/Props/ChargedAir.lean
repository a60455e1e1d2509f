import Verif.Props.ChargedUnits
import Verif.Props.RatedAir
import Verif.Props.PlotResnet
import Verif.Props.RatingsOutputs

/-!
# C132: making units with a charge fault in air as published

With the published properties of moist air, every unit that can be made with the nominal charge can be made with any charge deviation up to a half, and it reports a gross sensible heat
ratio close to the rated one at the rating condition of each of its speeds.
-/

set_option linter.unusedSectionVars false
set_option linter.unusedSimpArgs false

namespace Resdx.Build

open Spec Tabular BaseModel Props ResnetFan Fan Table

variable {u : Units ℝ} {E : Env ℝ} {T : Coil.Tools} {brentq : Brentq} {a : Args} {B : Built} {sat : ℝ → ℝ}

/-- What a charge fault leaves of the gross cooling capacity at 80/95 °F: never more than 1.032 times. -/
theorem rated_fault {d : ℝ} (d1 : -(1 / 2) ≤ d) (d2 : d ≤ 1 / 2) :
    0 < faultFactor false false (toC (frF (80 : ℝ))) (toC (frF 95)) d ∧ faultFactor false false (toC (frF (80 : ℝ))) (toC (frF 95)) d ≤ 1.032 := by
  have e : ∀ x : ℝ, toC (frF x) = (x - 32) * (5 / 9) := by intro x; simp only [toC, frF]; ring
  simp only [faultFactor, faultCoefficients, faultCurve, e]
  rcases lt_or_ge d 0 with h | h
  · simp only [not_le.2 h, decide_false]
    constructor <;> nlinarith
  · simp only [h, decide_true]
    constructor <;> nlinarith [sq_nonneg (d - 0.4773)]

theorem charged_coils (h : Published u E T sat) {d q t : ℝ} (d1 : -(1 / 2) ≤ d) (d2 : d ≤ 1 / 2) (hq : 0 < q) (t1 : q < t) (t2 : t ≤ (1 + 337.2 / u.ton) * q) :
    0 < t * faultFactor false false (toC (frF (80 : ℝ))) (toC (frF 95)) d ∧ t * faultFactor false false (toC (frF (80 : ℝ))) (toC (frF 95)) d ≤ 1.2 * q := by
  obtain ⟨f1, f2⟩ := rated_fault d1 d2
  have h1 : 337.2 / u.ton ≤ 337.2 / 2100 := div_le_div_of_nonneg_left (by norm_num) (by norm_num) h.ton
  have h2 : (1 + 337.2 / u.ton) * q ≤ (1 + 337.2 / 2100) * q := mul_le_mul_of_nonneg_right (by linarith) hq.le
  have t0 : 0 < t := hq.trans t1
  refine ⟨mul_pos t0 f1, (mul_le_mul_of_nonneg_left f2 t0.le).trans ?_⟩
  have := mul_le_mul_of_nonneg_right (t2.trans h2) (show (0 : ℝ) ≤ 1.032 by norm_num)
  refine this.trans ?_
  nlinarith

/-- The gross capacity of a unit with a charge fault at the rating condition of each speed. -/
theorem charged_total {B0 : Built} {st : Staging} {net : Perf ℝ} {qc qh : List ℝ} {d : ℝ} (h0 : build u E T brentq a = .ok B0) (hM : Made u E a st net qc qh B0) (ht : a.tables = none)
    (d1 : -(1 / 2) ≤ d) (d2 : d ≤ 1 / 2) (h95 : Outdoor E (frF 95)) (h : build u E T brentq { a with chargeDeviation := d } = .ok B) {i : Nat} {q : ℝ} (hq : qc[i]? = some q) :
    ∃ c t, 0 < q ∧ RatedCond u E B.sys false i q (defaultOutdoor E false) c ∧ q < t ∧ t ≤ (1 + 337.2 / u.ton) * q ∧
      (B.unit u E T brentq).grossTotalCoolingCapacity (some c) = .ok (t * faultFactor false false (toC (frF 80)) (toC (frF 95)) d) := by
  obtain ⟨e1, e2, e3, -⟩ := C131_same h0 h
  obtain ⟨q0, c, t, hc, hg, t1, t2⟩ := hM.grossRated i q hq
  obtain ⟨f1, -⟩ := rated_fault d1 d2
  obtain ⟨fc, fh, F⟩ := built_facts h (fun x hx => by have h' : a.tables = some x := hx; rw [ht] at h'; cases h')
  obtain ⟨_, _, _, _, _, _, -, -, -, -, -, -, -, -, hS, -⟩ := build_ok h
  have hc' : RatedCond u E B.sys false i q (defaultOutdoor E false) c := ⟨by rw [e2]; exact hc.made, hc.indoor, hc.outdoor, hc.speed, hc.perCap, hc.mass⟩
  have hg' : Resnet.grossTotalCoolingCapacity E B.sys (data B.core) c = .ok t := by rw [e1, e2]; exact hg
  have t0 : 0 < t := q0.trans t1
  refine ⟨c, t, q0, hc', t1, t2, ?_⟩
  have nn : ¬ t * faultFactor false false (toC (frF 80)) (toC (frF 95)) d < 0 := not_lt.2 (mul_pos t0 f1).le
  by_cases hd : d = 0
  · obtain ⟨-, -, -, -, -, -, -, -, -, -, -, s12, -⟩ := sys_ok hS
    have s0 : B.sys.chargeDeviation = 0 := by rw [s12]; exact hd
    rw [hd, faultFactor_zero, mul_one]
    exact grossTotal_returns s0 hg' t0.le
  · have hlen : i < speedCount B.core.st := by
      have := F.coolCaps.1
      rw [e1, hM.coolCaps] at this
      rw [e1, ← this]
      exact (List.getElem?_eq_some_iff.1 hq).1
    obtain ⟨σ, hσ⟩ := speed_at B.core.st hlen
    obtain ⟨w, hQ, w0, -⟩ := hM.grossCool i q hq
    have gr := grading_cooling F hS (by exact hd) (by exact d1) (by exact d2) hσ (Q := q + w) (by rw [e2]; exact hQ) (by linarith) h95 hc'.made .capacity
    have e : faultFactor false false (toC (frF (80 : ℝ))) (defaultOutdoor E false).dbC d = faultFactor false false (toC (frF 80)) (toC (frF 95)) d := rfl
    simp only [reduceCtorEq, decide_false, e] at gr
    simp only [Built.unit, DX.Performance.grossTotalCoolingCapacity, performance, Resnet.unit, Option.getD_some, hg', gr, bind_ok, limitCheck_zero, nn, if_false]

/-- C132: in air as published, a unit that can be made with the nominal charge can be made with any charge deviation up to a half. -/
theorem C132_published {B0 : Built} {st : Staging} {net : Perf ℝ} {qc qh : List ℝ} {d : ℝ} (hP : Published u E T sat) (h0 : build u E T brentq a = .ok B0) (hM : Made u E a st net qc qh B0)
    (ht : a.tables = none) (d1 : -(1 / 2) ≤ d) (d2 : d ≤ 1 / 2) : ∃ B, build u E T brentq { a with chargeDeviation := d } = .ok B := by
  by_cases hd : d = 0
  · have : ({ a with chargeDeviation := d } : Args) = a ∨ a.chargeDeviation ≠ 0 := by
      by_cases h : a.chargeDeviation = 0
      · left; rw [hd, ← h]
      · exact .inr h
    rcases this with h | h
    · exact ⟨B0, by rw [h]; exact h0⟩
    · obtain ⟨_, _, _, _, _, _, -, -, -, -, -, -, -, -, hS, -⟩ := build_ok h0
      obtain ⟨-, -, -, -, -, -, -, -, -, -, -, s12, -⟩ := sys_ok hS
      exact absurd (s12.symm.trans hM.charge) h
  refine C131_returns h0 hM ht d1 d2 hd (hP.outdoor (by norm_num) (by norm_num)) fun q hq t t1 t2 => ?_
  obtain ⟨i, hi⟩ := List.getElem?_of_mem hq
  have q0 := (hM.grossRated i q hi).1
  obtain ⟨g1, g2⟩ := charged_coils hP d1 d2 q0 t1 t2
  exact coil_returns hP.air hP.newton hP.flow q0 g1 g2

/-- C132: the rated sensible heat ratio does not depend on the charge, and the one reported at the rating condition of each speed stays within 0.729 and 0.732. -/
theorem C132_shr {B0 : Built} {st : Staging} {net : Perf ℝ} {qc qh : List ℝ} {d : ℝ} (hP : Published u E T sat) (h0 : build u E T brentq a = .ok B0) (hM : Made u E a st net qc qh B0)
    (ht : a.tables = none) (d1 : -(1 / 2) ≤ d) (d2 : d ≤ 1 / 2) (h : build u E T brentq { a with chargeDeviation := d } = .ok B) {i : Nat} {q : ℝ} (hi : qc[i]? = some q) :
    B.coil.shr[i]? = some (some 0.7174748) ∧ ∃ c x, B.sys.makeCondition E false i = .ok c ∧ (B.unit u E T brentq).grossSHR (some c) = .ok x ∧ 0.729 < x ∧ x < 0.732 := by
  obtain ⟨c, t', q0, hc, t1, t2, hgt⟩ := charged_total h0 hM ht d1 d2 (hP.outdoor (by norm_num) (by norm_num)) h hi
  obtain ⟨t0, hle⟩ := charged_coils hP d1 d2 q0 t1 t2
  generalize t' * faultFactor false false (toC (frF 80)) (toC (frF 95)) d = t at *
  have hn : i < speedCount B.core.st := by
    obtain ⟨e1, -⟩ := C131_same h0 h
    obtain ⟨fc, fh, F⟩ := built_facts h0 (fun d h => by rw [ht] at h; cases h)
    have := F.coolCaps.1
    rw [hM.coolCaps] at this
    rw [e1, ← this]
    exact (List.getElem?_eq_some_iff.1 hi).1
  obtain ⟨c', s, t', bf, n, h1, h2, h3, h4, -, h6, wb, v, r1, r2, r3⟩ := coil_stored h hn
  have hmade : B.sys.makeCondition E false i = .ok c := hc.made
  rw [hmade] at h1; cases h1
  simp only [hgt] at h2
  cases h2
  have hcf := u.cfm_pos
  have hto := u.ton_pos
  have hwb : wb = frF 67 := by
    have : (Psych.getWb c.indoor).1 = .ok (frF (67 : ℝ)) := by rw [hc.indoor]; rfl
    rw [this] at r1; exact (Except.ok.inj r1).symm
  have hv : v * u.ton / u.cfm = 400 := by
    rw [hc.perCap] at r2; cases r2
    field_simp
  have hs : s = ratedShr := by
    have e1 : c.outdoor.db = frF 95 := by rw [hc.outdoor]; rfl
    have e2 : c.indoor.db = frF 80 := by rw [hc.indoor]; rfl
    rw [hwb, hv, e1, e2, shrAt_rated] at r3
    exact (Except.ok.inj r3).symm
  subst hs
  obtain ⟨w, sl, tA, bf', ntu, F⟩ := coil_found hP.air hP.newton hP.flow q0 t0 hle hc.indoor hc.mass
  have hF := F.stored
  rw [h3] at hF
  obtain ⟨rfl, rfl⟩ := Prod.mk.inj (Except.ok.inj hF)
  obtain ⟨x, hx, x1, x2⟩ := sensible_found hP.air hP.newton hc.indoor t0 hc.mass F
  have hsens : (B.unit u E T brentq).grossSensibleCoolingCapacity (some c) = .ok x := by
    refine DX.Performance.grossSensible_eq_ok.2 ⟨?_, by nlinarith⟩
    have e1 : (B.unit u E T brentq).sensible c = Coil.sensibleFrom T c ((B.unit u E T brentq).grossTotalCoolingCapacity (some c)) (Coil.bypass B.coil.ntu c) := rfl
    have e2 : Coil.bypass B.coil.ntu c = DX.bypassFactor n (q * (400 * u.cfm / u.ton) * E.rhoStd) := by
      simp [Coil.bypass, Sys.at_, hc.speed, pyGet, h6, bind_ok, pyNum, hc.mass, pyAttr]
    change (B.unit u E T brentq).sensible c = _
    rw [e1, e2, hgt]
    exact hx
  refine ⟨by rw [h4, ratedShr], c, x / t, hmade, ?_, (lt_div_iff₀ t0).2 x1, (div_lt_iff₀ t0).2 x2⟩
  simp only [DX.Performance.grossSHR, hsens, hgt, bind_ok, pdiv_ok t0.ne']
  exact DX.Performance.limitCheck_both_eq_ok.2 ⟨by have := (lt_div_iff₀ t0).2 x1; linarith, by have := (div_lt_iff₀ t0).2 x2; linarith, rfl⟩

theorem nominal {B0 : Built} {st : Staging} {net : Perf ℝ} {qc qh : List ℝ} (h0 : build u E T brentq a = .ok B0) (hM : Made u E a st net qc qh B0) : ({ a with chargeDeviation := 0 } : Args) = a := by
  obtain ⟨_, _, _, _, _, _, -, -, -, -, -, -, -, -, hS, -⟩ := build_ok h0
  obtain ⟨-, -, -, -, -, -, -, -, -, -, -, s12, -⟩ := sys_ok hS
  have : a.chargeDeviation = 0 := s12.symm.trans hM.charge
  rw [← this]

theorem test_fault {t d : ℝ} (h1 : 82 ≤ t) (h2 : t ≤ 95) (d1 : -(1 / 2) ≤ d) (d2 : d ≤ 1 / 2) :
    0 < faultFactor false false (toC (frF (80 : ℝ))) (toC (frF t)) d ∧ 0 < faultFactor false true (toC (frF (80 : ℝ))) (toC (frF t)) d := by
  have e : ∀ x : ℝ, toC (frF x) = (x - 32) * (5 / 9) := by intro x; simp only [toC, frF]; ring
  simp only [faultFactor, faultCoefficients, faultCurve, e]
  rcases lt_or_ge d 0 with h | h
  · simp only [not_le.2 h, decide_false]
    have k1 : 0 ≤ -d * (t - 82) := mul_nonneg (by linarith) (by linarith)
    have k2 : 0 ≤ -d * (95 - t) := mul_nonneg (by linarith) (by linarith)
    constructor <;> nlinarith
  · simp only [h, decide_true]
    have k1 : 0 ≤ d * (t - 82) := mul_nonneg h (by linarith)
    have k2 : 0 ≤ d * (95 - t) := mul_nonneg h (by linarith)
    constructor <;> nlinarith

/-- The net COP of the faulty unit at a test condition of full speed exists once that of the nominal unit does. -/
theorem charged_cop {B0 : Built} {st : Staging} {net : Perf ℝ} {qc qh : List ℝ} {d t x0 : ℝ} {o : Psych.PsychState ℝ} {c : Conditions ℝ} (hP : Published u E T sat) (hbr : BrentqSpec brentq)
    (h0 : build u E T brentq a = .ok B0) (hM : Made u E a st net qc qh B0) (ht : a.tables = none) (hpos : ∀ q ∈ qh, 0 < q) (d1 : -(1 / 2) ≤ d) (d2 : d ≤ 1 / 2)
    (h : build u E T brentq { a with chargeDeviation := d } = .ok B) (t1 : 82 ≤ t) (t2 : t ≤ 95) (ho : o.db = frF t) (hoC : o.dbC = toC (frF t))
    (hc : B0.sys.makeCondition E false (fullIndex st) none (some o) = .ok c) (hx : (B0.unit u E T brentq).netTotalCoolingCOP (some c) = .ok x0) :
    ∃ v x, (B0.unit u E T brentq).fanPower c = .ok v ∧ 0 < v ∧ (B.unit u E T brentq).netTotalCoolingCOP (some c) = .ok x := by
  have h95 := hP.outdoor (f := 95) (by norm_num) (by norm_num)
  have hot : Outdoor E o.db := by rw [ho]; exact hP.outdoor (by linarith) (by linarith)
  obtain ⟨e1, e2, -⟩ := C131_same h0 h
  have ht0 : ∀ d, a.tables = some d → RatedTables (tableSpeeds B0.core.st) d := fun d h => by rw [ht] at h; cases h
  have ht1 : ∀ d', ({ a with chargeDeviation := d } : Args).tables = some d' → RatedTables (tableSpeeds B.core.st) d' := fun x hx => by have h' : a.tables = some x := hx; rw [ht] at h'; cases h'
  obtain ⟨fc, fh, F⟩ := built_facts h0 ht0
  have hlen := F.coolCaps.1
  rw [hM.coolCaps] at hlen
  have hi : fullIndex st < speedCount B0.core.st := by rw [hM.staging]; exact full_lt st
  obtain ⟨q, hq⟩ : ∃ q, qc[fullIndex st]? = some q := ⟨_, List.getElem?_eq_getElem (by omega)⟩
  obtain ⟨w, hQ, w0, -⟩ := hM.grossCool _ q hq
  have q0 := (hM.grossRated _ q hq).1
  obtain ⟨σ, hσ⟩ := speed_at B0.core.st hi
  have hS0 : a.chargeDeviation = 0 := by
    obtain ⟨_, _, _, _, _, _, -, -, -, -, -, -, -, -, hS, -⟩ := build_ok h0
    obtain ⟨-, -, -, -, -, -, -, -, -, -, -, s12, -⟩ := sys_ok hS
    exact s12.symm.trans hM.charge
  have hM' : Made u E a B0.core.st B0.core.net qc qh B0 := by rw [hM.tables, hM.staging]; exact hM
  have hposc : ∀ q ∈ qc, 0 < q := by
    intro x hx
    obtain ⟨i, hi⟩ := List.getElem?_of_mem hx
    exact (hM.grossRated i x hi).1
  obtain ⟨v, hv, v0⟩ := fan_positive h0 ht0 hbr hM' ⟨hposc, hpos⟩ hi hc
  have o125 : toF o.db ≤ 125 := by rw [ho]; unfold toF frF; linarith
  obtain ⟨g, p, g1, g2, g3, g4⟩ := C131_gross_cooling h0 ht0 (by rw [hS0]; norm_num) (by rw [hS0]; norm_num) h95 hσ hQ (by linarith) o125 hot hc
  obtain ⟨g', p', g1', g2', g3', g4'⟩ := C131_gross_cooling h ht1 d1 d2 h95 (i := fullIndex st) (σ := σ) (by rw [e1]; exact hσ) (Q := q + w) (by rw [e2]; exact hQ) (by linarith) o125 hot
    (c := c) (by rw [e2]; exact hc)
  rw [e1, g1] at g1'; cases g1'
  rw [e1, g2] at g2'; cases g2'
  rw [hS0, faultFactor_zero, mul_one] at g3 g4
  have hx' := hx
  simp only [DX.Performance.netTotalCoolingCOP, DX.Performance.netTotalCoolingCapacity, DX.Performance.netCoolingPower, bind_eq_ok, g3, g4] at hx'
  obtain ⟨_, ⟨x, hx1, -⟩, _, ⟨y, hy, -⟩, -⟩ := hx'
  have gn : 0 ≤ g := by by_contra hn; rw [if_pos (not_le.1 hn)] at hx1; cases hx1
  have pn : 0 ≤ p := by by_contra hn; rw [if_pos (not_le.1 hn)] at hy; cases hy
  obtain ⟨f1, f2⟩ := test_fault t1 t2 d1 d2
  rw [hoC] at g3' g4'
  rw [if_neg (not_lt.2 (mul_nonneg gn f1.le))] at g3'
  rw [if_neg (not_lt.2 (mul_nonneg pn f2.le))] at g4'
  have hv' : (B.unit u E T brentq).coolingFanPower (some c) = .ok v := by
    show fanPower u brentq B.core c = .ok v
    rw [e1]; exact hv
  have hh' : (B.unit u E T brentq).coolingFanHeat (some c) = .ok v := hv'
  refine ⟨v, (g * faultFactor false false (toC (frF 80)) (toC (frF t)) d - v) / (p * faultFactor false true (toC (frF 80)) (toC (frF t)) d + v), hv, v0, ?_⟩
  simp only [DX.Performance.netTotalCoolingCOP, DX.Performance.netTotalCoolingCapacity, DX.Performance.netCoolingPower, g3', g4', hv', hh', bind_ok, pure_eq_ok]
  exact pdiv_ok (add_pos_of_nonneg_of_pos (mul_nonneg pn f2.le) v0).ne'

/-- C132: if the unit with the nominal charge reports an EER2, so does the unit with any other charge; with too little charge it is not larger. -/
theorem C132_eer {B0 : Built} {st : Staging} {net : Perf ℝ} {qc qh : List ℝ} {d e0 : ℝ} (hP : Published u E T sat) (hbr : BrentqSpec brentq) (h0 : build u E T brentq a = .ok B0)
    (hM : Made u E a st net qc qh B0) (ht : a.tables = none) (hpos : ∀ q ∈ qh, 0 < q) (d1 : -(1 / 2) ≤ d) (d2 : d ≤ 1 / 2) (he : B0.eer u E T brentq = .ok e0) :
    ∃ B e, build u E T brentq { a with chargeDeviation := d } = .ok B ∧ B.eer u E T brentq = .ok e ∧ (d < 0 → 0 ≤ e0 → e ≤ e0) := by
  obtain ⟨B, h⟩ := C132_published hP h0 hM ht d1 d2
  obtain ⟨-, -, e3, -⟩ := C131_same h0 h
  obtain ⟨_, _, _, _, _, _, _, _, _, _, _, b10⟩ := build_steps h0
  obtain ⟨p1, -⟩ := full_points b10
  rw [show B0.core.rc.full = fullIndex st from hM.full.1] at p1
  have he' : (do pdiv (← (B0.unit u E T brentq).netTotalCoolingCOP (some B0.points.aFull)) u.btuh : Py ℝ) = .ok e0 := he
  simp only [bind_eq_ok] at he'
  obtain ⟨x0, hx0, -⟩ := he'
  obtain ⟨v, x, hv, v0, hx⟩ := charged_cop hP hbr h0 hM ht hpos d1 d2 h (by norm_num : (82 : ℝ) ≤ 95) le_rfl rfl rfl p1 hx0
  have eer : B.eer u E T brentq = .ok (x / u.btuh) := by
    have : B.eer u E T brentq = (do pdiv (← (B.unit u E T brentq).netTotalCoolingCOP (some B.points.aFull)) u.btuh : Py ℝ) := rfl
    rw [this, e3, hx, bind_ok, pdiv_ok u.btuh_pos.ne']
  refine ⟨B, _, h, eer, fun hd h00 => ?_⟩
  refine (C131_undercharged (a := a) (B0 := B0) (by rw [nominal h0 hM]; exact h0) h hd ?_).1 _ e0 eer he h00
  intro v' hv'
  rw [hv] at hv'; cases hv'; exact v0.le

/-- C132: the same for the SEER2 of single-stage units. -/
theorem C132_seer {B0 : Built} {net : Perf ℝ} {qc qh : List ℝ} {d s0 : ℝ} (hP : Published u E T sat) (hbr : BrentqSpec brentq) (h0 : build u E T brentq a = .ok B0)
    (hM : Made u E a .single net qc qh B0) (ht : a.tables = none) (hpos : ∀ q ∈ qh, 0 < q) (d1 : -(1 / 2) ≤ d) (d2 : d ≤ 1 / 2) (he : B0.seer u E T brentq = .ok s0) :
    ∃ B s, build u E T brentq { a with chargeDeviation := d } = .ok B ∧ B.seer u E T brentq = .ok s ∧ (d < 0 → cd a.cdCooling < 2 → 0 ≤ s0 → s ≤ s0) := by
  obtain ⟨B, h⟩ := C132_published hP h0 hM ht d1 d2
  obtain ⟨e1, -, e3, e4, e5⟩ := C131_same h0 h
  have hst := hM.staging
  obtain ⟨_, _, _, _, _, _, _, _, _, _, _, b10⟩ := build_steps h0
  obtain ⟨p1, p2, -⟩ := full_points b10
  rw [show B0.core.rc.full = fullIndex .single from hM.full.1] at p1 p2
  have he' := he
  simp only [Built.seer, hst, DX.seer, bind_eq_ok] at he'
  obtain ⟨x0, hx0, hs0⟩ := he'
  rw [pdiv_ok u.btuh_pos.ne', Except.ok.injEq] at hs0
  obtain ⟨v, x, hv, v0, hx⟩ := charged_cop hP hbr h0 hM ht hpos d1 d2 h (le_refl (82 : ℝ)) (by norm_num) rfl rfl p2 hx0
  have seer : B.seer u E T brentq = .ok ((1 - 0.5 * B0.cdCooling) * x / u.btuh) := by
    simp only [Built.seer, DX.seer, e1, hst, e3, e4, hx, bind_ok, pdiv_ok u.btuh_pos.ne']
  refine ⟨B, _, h, seer, fun hd hcd h00 => ?_⟩
  have hcd' : B0.cdCooling < 2 := by
    obtain ⟨_, _, _, _, _, _, -, -, -, -, -, -, -, -, -, -, hc, -⟩ := build_ok h0
    rw [hc]; exact hcd
  refine (C131_undercharged (a := a) (B0 := B0) (by rw [nominal h0 hM]; exact h0) h hd ?_).2 hst hcd'.le _ s0 seer he ?_
  · intro v' hv'
    have g1 : fanPower u brentq B0.core B0.points.bFull = .ok v := hv
    have g2 : fanPower u brentq B0.core B0.points.aFull = .ok v' := hv'
    rw [fanPower_same p1 p2, g1] at g2; cases g2; exact v0.le
  · intro y hy
    rw [hx0] at hy; cases hy
    by_contra hn
    have k : 0 < 1 - 0.5 * B0.cdCooling := by linarith
    have : (1 - 0.5 * B0.cdCooling) * x0 / u.btuh < 0 := div_neg_of_neg_of_pos (mul_neg_of_pos_of_neg k (not_le.1 hn)) u.btuh_pos
    linarith

/-- What C132 says of a unit with arguments `a` and any charge deviation `d`: it can be made, and its sensible heat ratios are as rated. -/
def MadeAnyCharge (u : Units ℝ) (E : Env ℝ) (T : Coil.Tools) (brentq : Brentq) (a : Args) (speeds : Nat) : Prop :=
  ∀ d : ℝ, -(1 / 2) ≤ d → d ≤ 1 / 2 → ∃ B, build u E T brentq { a with chargeDeviation := d } = .ok B ∧
    ∀ i < speeds, B.coil.shr[i]? = some (some 0.7174748) ∧ ∃ c x, B.sys.makeCondition E false i = .ok c ∧ (B.unit u E T brentq).grossSHR (some c) = .ok x ∧ 0.729 < x ∧ x < 0.732

theorem made_any_charge {B0 : Built} {st : Staging} {net : Perf ℝ} {qc qh : List ℝ} (hP : Published u E T sat) (h0 : build u E T brentq a = .ok B0) (hM : Made u E a st net qc qh B0)
    (ht : a.tables = none) : MadeAnyCharge u E T brentq a (speedCount st) := by
  intro d d1 d2
  obtain ⟨B, h⟩ := C132_published hP h0 hM ht d1 d2
  refine ⟨B, h, fun i hi => ?_⟩
  obtain ⟨fc, fh, F⟩ := built_facts h0 (fun d h => by rw [ht] at h; cases h)
  have := F.coolCaps.1
  rw [hM.coolCaps, hM.staging] at this
  exact C132_shr hP h0 hM ht d1 d2 h (List.getElem?_eq_getElem (by omega))

/-- C132, from the ratings of a single-stage unit and any charge deviation up to a half. -/
theorem C132_single_ratings {q95 seer2 eer2 : ℝ} (H : UsualSingle u a q95 seer2 eer2) (D : UsualArgs a) (hP : Published u E T sat) (hbr : BrentqSpec brentq) :
    MadeAnyCharge u E T brentq a 1 := by
  obtain ⟨B, net, h, hM, -⟩ := single_made H D hP hbr
  exact made_any_charge hP h hM D.tables

/-- C132, two-stage units. -/
theorem C132_two_ratings {q95 eer2 : ℝ} (H : UsualTwo u a q95 eer2) (D : UsualArgs a) (hP : Published u E T sat) (hbr : BrentqSpec brentq) : MadeAnyCharge u E T brentq a 2 := by
  obtain ⟨B, net, h, hM, -⟩ := two_made H D hP hbr
  exact made_any_charge hP h hM D.tables

/-- C132, variable-speed units. -/
theorem C132_variable_ratings {q95 eer2 : ℝ} (H : UsualVariableAny u a q95 eer2) (D : UsualArgs a) (hP : Published u E T sat) (hbr : BrentqSpec brentq) : MadeAnyCharge u E T brentq a 4 := by
  obtain ⟨B, net, h, hM, -⟩ := C90_variable_any (brentq := brentq) H (D.surroundings hP hbr (sizesOf_pos H))
  exact made_any_charge hP h hM D.tables

end Resdx.Build

namespace Resdx.Sample

open Spec Tabular BaseModel Props ResnetFan Fan Table Build Transfer

/-- Single-stage and two-stage units of any capacity in the sample air. -/
example {brentq : Brentq} (hbr : BrentqSpec brentq) {q κ : ℝ} (hq : 0 < q) (h1 : 2.1 ≤ κ) (h2 : κ ≤ 4.3) :
    MadeAnyCharge units moistEnv mapTools brentq (oneSizes q κ) 1 ∧ MadeAnyCharge units moistEnv mapTools brentq (twoSizes q κ) 2 :=
  ⟨C132_single_ratings (oneSizes_usual hq h1 (by linarith)) ⟨rfl, rfl, rfl, rfl, .inr rfl, .inr rfl⟩ map_published hbr,
    C132_two_ratings (twoSizes_usual hq h1 h2) ⟨rfl, rfl, rfl, rfl, .inr rfl, .inr rfl⟩ map_published hbr⟩

/-- Variable-speed units of any capacity. -/
example {brentq : Brentq} (hbr : BrentqSpec brentq) {q κ r c : ℝ} (hq : 0 < q) (h1 : 2.1 ≤ κ) (h2 : κ ≤ 5) (r0 : 0 < r) (r1 : r ≤ 0.85) (c1 : 4.4 ≤ c) (c2 : c ≤ 6.2) :=
  C132_variable_ratings (varGiven_usual hq h1 h2 r0 r1 c1 c2) ⟨rfl, rfl, rfl, rfl, .inr rfl, .inr rfl⟩ map_published hbr

/-- The sample unit with an EER2 of 12 and a SEER2 of 14: with a quarter of the charge missing it still has both, and they are at most 12 and 14. -/
example {brentq : Brentq} (hbr : BrentqSpec brentq) : ∃ B e s, build units moistEnv moistTools brentq { oneArgs with chargeDeviation := -(1 / 4) } = .ok B ∧
    B.eer units moistEnv moistTools brentq = .ok e ∧ e ≤ 12 ∧ B.seer units moistEnv moistTools brentq = .ok s ∧ s ≤ 14 := by
  obtain ⟨B0, net, h0, hB⟩ := moist_made hbr
  obtain ⟨q, s, e, -, g2, g3, g4, g5, -⟩ := C45_cooling h0 hB.staging rfl rfl (.inl hB.motor) (moist_published.outdoor (by norm_num) (by norm_num)) (moist_published.outdoor (by norm_num) (by norm_num))
  cases g2; cases g3
  obtain ⟨B', s, h', hs, hle'⟩ := C132_seer (d := -(1 / 4)) moist_published hbr h0 hB rfl (by simp) (by norm_num) (by norm_num) g5
  obtain ⟨B, e, h, he, hle⟩ := C132_eer (d := -(1 / 4)) moist_published hbr h0 hB rfl (by simp) (by norm_num) (by norm_num) g4
  rw [h] at h'; cases h'
  exact ⟨_, e, s, h, he, hle (by norm_num) (by norm_num), hs, hle' (by norm_num) (by norm_num [cd, oneArgs]) (by norm_num)⟩

end Resdx.Sample
