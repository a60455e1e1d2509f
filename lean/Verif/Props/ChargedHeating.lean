import Verif.Props.ChargedAir

/-!
# C132, heating: the COP of units with a charge fault

At outdoor temperatures from 17 to 47 °F a unit with any charge deviation up to a half reports a steady-state heating COP wherever the nominal unit works as a heat pump, and too little charge
does not raise it unless the outdoor air is cold and the deviation small.
-/

set_option linter.unusedSectionVars false
set_option linter.unusedSimpArgs false

namespace Resdx.Build

open Spec Tabular BaseModel Props ResnetFan Fan Table

variable {u : Units ℝ} {E : Env ℝ} {T : Coil.Tools} {brentq : Brentq} {a : Args} {B : Built} {sat : ℝ → ℝ}

/-- Between 17 and 47 °F no charge deviation up to a half takes all of the heating capacity or power; too little charge never adds capacity at 47 °F, nor where it lowers the gross COP. -/
theorem heating_fault {t d ti : ℝ} (h1 : 17 ≤ t) (h2 : t ≤ 47) (d1 : -(1 / 2) ≤ d) (d2 : d ≤ 1 / 2) :
    0 < faultFactor true false ti (toC (frF t)) d ∧ 0 < faultFactor true true ti (toC (frF t)) d ∧
      (d < 0 → 2.36 * d ≤ 0.0088 * (t - 32) - 0.0955 → faultFactor true false ti (toC (frF t)) d ≤ 1 ∧ faultFactor true false ti (toC (frF t)) d ≤ faultFactor true true ti (toC (frF t)) d) := by
  have e : toC (frF t) = (t - 32) * (5 / 9) := by simp only [toC, frF]; ring
  simp only [faultFactor, faultCoefficients, faultCurve, e]
  rcases lt_or_ge d 0 with h | h
  · simp only [not_le.2 h, decide_false]
    have k1 : 0 ≤ -d * (t - 17) := mul_nonneg (by linarith) (by linarith)
    have k2 : 0 ≤ -d * (47 - t) := mul_nonneg (by linarith) (by linarith)
    have k3 : 0 ≤ -d * (d + 1 / 2) := mul_nonneg (by linarith) (by linarith)
    refine ⟨by nlinarith, by nlinarith, fun _ hk => ?_⟩
    have k4 : 0 ≤ -d * (0.0088 * (t - 32) - 0.0955 - 2.36 * d) := mul_nonneg (by linarith) (by linarith)
    constructor <;> nlinarith
  · simp only [h, decide_true]
    have k1 : 0 ≤ d * (t - 17) := mul_nonneg h (by linarith)
    have k2 : 0 ≤ d * (47 - t) := mul_nonneg h (by linarith)
    have k3 : 0 ≤ d * (1 / 2 - d) := mul_nonneg h (by linarith)
    refine ⟨by nlinarith, by nlinarith [sq_nonneg (d - 0.05)], fun hd => absurd hd (not_lt.2 h)⟩

/-- C132, heating: at every speed and every outdoor temperature from 17 to 47 °F, the unit with any other charge reports a steady-state net COP if the
gross capacity and power of the nominal unit are not negative there. With too little charge it is not larger than a nominal COP of at least one, unless the deviation is small and it is cold
outside. -/
theorem C132_heating_cop {B0 : Built} {st : Staging} {net : Perf ℝ} {qc qh : List ℝ} {d t g0 p0 : ℝ} {o : Psych.PsychState ℝ} {c : Conditions ℝ} (hP : Published u E T sat)
    (hbr : BrentqSpec brentq) (h0 : build u E T brentq a = .ok B0) (hM : Made u E a st net qc qh B0) (ht : a.tables = none) (hpos : ∀ q ∈ qh, 0 < q)
    (d1 : -(1 / 2) ≤ d) (d2 : d ≤ 1 / 2) (t1 : 17 ≤ t) (t2 : t ≤ 47) (hoC : o.dbC = toC (frF t)) (hot : Outdoor E o.db) {i : Nat} (hi : i < speedCount st)
    (hc : B0.sys.makeCondition E true i none (some o) = .ok c) (hg : (B0.unit u E T brentq).grossSteadyHeatingCapacity (some c) = .ok g0)
    (hp : (B0.unit u E T brentq).grossSteadyHeatingPower (some c) = .ok p0) (p00 : 0 ≤ p0) (g00 : 0 ≤ g0) :
    ∃ B x x0, build u E T brentq { a with chargeDeviation := d } = .ok B ∧ (B0.unit u E T brentq).netSteadyHeatingCOP (some c) = .ok x0 ∧
      (B.unit u E T brentq).netSteadyHeatingCOP (some c) = .ok x ∧ 0 < x ∧ (d < 0 → 2.36 * d ≤ 0.0088 * (t - 32) - 0.0955 → 1 ≤ x0 → x ≤ x0) := by
  obtain ⟨B, h⟩ := C132_published hP h0 hM ht d1 d2
  have h47 := hP.outdoor (f := 47) (by norm_num) (by norm_num)
  obtain ⟨e1, e2, -⟩ := C131_same h0 h
  have ht0 : ∀ d, a.tables = some d → RatedTables (tableSpeeds B0.core.st) d := fun d h => by rw [ht] at h; cases h
  have ht1 : ∀ d', ({ a with chargeDeviation := d } : Args).tables = some d' → RatedTables (tableSpeeds B.core.st) d' := fun x hx => by have h' : a.tables = some x := hx; rw [ht] at h'; cases h'
  obtain ⟨fc, fh, F⟩ := built_facts h0 ht0
  have hlen := F.heatCaps.1
  rw [hM.heatCaps] at hlen
  rw [← hM.staging] at hi
  obtain ⟨σ, hσ0⟩ := speed_at B0.core.st hi
  obtain ⟨q, hq⟩ : ∃ q, qh[i]? = some q := ⟨_, List.getElem?_eq_getElem (by omega)⟩
  obtain ⟨w, hQ, w0, w1⟩ := hM.grossHeat _ q hq
  have q0 := hpos q (List.mem_of_getElem? hq)
  have hQ0 : 0 < q - w := by
    have : 337.2 / u.ton * q < 1 * q := mul_lt_mul_of_pos_right ((div_lt_one u.ton_pos).2 (by linarith [hP.ton])) q0
    linarith
  have hS0 : a.chargeDeviation = 0 := by
    obtain ⟨_, _, _, _, _, _, -, -, -, -, -, -, -, -, hS, -⟩ := build_ok h0
    obtain ⟨-, -, -, -, -, -, -, -, -, -, -, s12, -⟩ := sys_ok hS
    exact s12.symm.trans hM.charge
  have hM' : Made u E a B0.core.st B0.core.net qc qh B0 := by rw [hM.tables, hM.staging]; exact hM
  have hposc : ∀ q ∈ qc, 0 < q := by
    intro x hx
    obtain ⟨i, hi⟩ := List.getElem?_of_mem hx
    exact (hM.grossRated i x hi).1
  obtain ⟨v, hv, v0⟩ := fan_positive h0 ht0 hbr hM' ⟨hposc, hpos⟩ hi hc
  obtain ⟨g, p, g1, g2, g3, g4⟩ := C131_gross_heating h0 ht0 (by rw [hS0]; norm_num) (by rw [hS0]; norm_num) h47 hσ0 hQ hQ0 hot hc
  obtain ⟨g', p', g1', g2', g3', g4'⟩ := C131_gross_heating h ht1 d1 d2 h47 (i := i) (σ := σ) (by rw [e1]; exact hσ0) (Q := q - w) (by rw [e2]; exact hQ) hQ0 hot
    (c := c) (by rw [e2]; exact hc)
  rw [e1, g1] at g1'; cases g1'
  rw [e1, g2] at g2'; cases g2'
  rw [hS0, faultFactor_zero, mul_one] at g3 g4
  rw [g3] at hg; cases hg
  rw [g4] at hp; cases hp
  rw [hoC] at g3' g4'
  obtain ⟨f1, f2, f3⟩ := heating_fault (ti := toC (frF 70)) t1 t2 d1 d2
  change _ = Except.ok (g0 * faultFactor true false (toC (frF 70)) (toC (frF t)) d) at g3'
  change _ = Except.ok (p0 * faultFactor true true (toC (frF 70)) (toC (frF t)) d) at g4'
  generalize faultFactor true false (toC (frF 70)) (toC (frF t)) d = x1 at *
  generalize faultFactor true true (toC (frF 70)) (toC (frF t)) d = x2 at *
  have hv0 : (B0.unit u E T brentq).heatingFanPower (some c) = .ok v := hv
  have hv' : (B.unit u E T brentq).heatingFanPower (some c) = .ok v := by
    show fanPower u brentq B.core c = .ok v
    rw [e1]; exact hv
  have n0 : 0 < p0 + v := by linarith
  have n1 : 0 < p0 * x2 + v := add_pos_of_nonneg_of_pos (mul_nonneg p00 f2.le) v0
  refine ⟨B, (g0 * x1 + v) / (p0 * x2 + v), (g0 + v) / (p0 + v), h, ?_, ?_, div_pos (add_pos_of_nonneg_of_pos (mul_nonneg g00 f1.le) v0) n1, fun hd hk hx => ?_⟩
  · simp only [DX.Performance.netSteadyHeatingCOP, DX.Performance.netSteadyHeatingCapacity, DX.Performance.netSteadyHeatingPower, g3, g4, hv0, bind_ok, pure_eq_ok]
    exact pdiv_ok n0.ne'
  · simp only [DX.Performance.netSteadyHeatingCOP, DX.Performance.netSteadyHeatingCapacity, DX.Performance.netSteadyHeatingPower, g3', g4', hv', bind_ok, pure_eq_ok]
    exact pdiv_ok n1.ne'
  · obtain ⟨k1, k2⟩ := f3 hd hk
    have hgp : p0 ≤ g0 := by rw [le_div_iff₀ n0] at hx; linarith
    rw [div_le_div_iff₀ n1 n0]
    have m1 : 0 ≤ g0 * p0 * (x2 - x1) := mul_nonneg (mul_nonneg g00 p00) (by linarith)
    have m2 : 0 ≤ p0 * v * (x2 - x1) := mul_nonneg (mul_nonneg p00 v0.le) (by linarith)
    have m3 : 0 ≤ (g0 - p0) * (v * (1 - x1)) := mul_nonneg (by linarith) (mul_nonneg v0.le (by linarith))
    nlinarith

/-- C132, heating: at the 47 °F rating condition of each speed the nominal unit and the unit with any other charge both report a net COP; too little charge never raises one of at least one. -/
theorem C132_heating_rated {B0 : Built} {st : Staging} {net : Perf ℝ} {qc qh : List ℝ} {d : ℝ} (hP : Published u E T sat) (hbr : BrentqSpec brentq) (h0 : build u E T brentq a = .ok B0)
    (hM : Made u E a st net qc qh B0) (ht : a.tables = none) (hpos : ∀ q ∈ qh, 0 < q) (d1 : -(1 / 2) ≤ d) (d2 : d ≤ 1 / 2) {i : Nat} (hi : i < speedCount st) :
    ∃ B c x x0, build u E T brentq { a with chargeDeviation := d } = .ok B ∧ B0.sys.makeCondition E true i = .ok c ∧ (B0.unit u E T brentq).netSteadyHeatingCOP (some c) = .ok x0 ∧
      (B.unit u E T brentq).netSteadyHeatingCOP (some c) = .ok x ∧ 0 < x0 ∧ 0 < x ∧ (d < 0 → 1 ≤ x0 → x ≤ x0) := by
  have h47 := hP.outdoor (f := 47) (by norm_num) (by norm_num)
  have ht0 : ∀ d, a.tables = some d → RatedTables (tableSpeeds B0.core.st) d := fun d h => by rw [ht] at h; cases h
  obtain ⟨c, hc⟩ := hM.conditions true i (defaultOutdoor E true) hi
  have hS0 : a.chargeDeviation = 0 := by
    obtain ⟨_, _, _, _, _, _, -, -, -, -, -, -, -, -, hS, -⟩ := build_ok h0
    obtain ⟨-, -, -, -, -, -, -, -, -, -, -, s12, -⟩ := sys_ok hS
    exact s12.symm.trans hM.charge
  obtain ⟨fc, fh, F⟩ := built_facts h0 ht0
  have hlen := F.heatCaps.1
  rw [hM.heatCaps, hM.staging] at hlen
  obtain ⟨q, hq⟩ : ∃ q, qh[i]? = some q := ⟨_, List.getElem?_eq_getElem (by omega)⟩
  obtain ⟨w, hQ, w0, w1⟩ := hM.grossHeat _ q hq
  have hQ0 : 0 < q - w := by
    have : 337.2 / u.ton * q < 1 * q := mul_lt_mul_of_pos_right ((div_lt_one u.ton_pos).2 (by linarith [hP.ton])) (hpos q (List.mem_of_getElem? hq))
    linarith
  obtain ⟨σ, hσ⟩ := speed_at B0.core.st (by rw [hM.staging]; exact hi)
  obtain ⟨g, p, g1, g2, g3, g4⟩ := C131_gross_heating h0 ht0 (by rw [hS0]; norm_num) (by rw [hS0]; norm_num) h47 hσ hQ hQ0 (o := defaultOutdoor E true) h47 hc
  rw [hS0, faultFactor_zero, mul_one] at g3 g4
  obtain ⟨_, _, qg, pg, -, -, -, -, f1, f2, f3, f4⟩ := F.pos i σ hσ
  have g1' : B0.core.gross.heatingCapacity σ (frF 47) = .ok g := g1
  have g2' : B0.core.gross.heatingPower σ (frF 47) = .ok p := g2
  rw [g1'] at f1; cases f1
  rw [g2'] at f3; cases f3
  obtain ⟨B, x, x0, b1, b2, b3, b4, b5⟩ := C132_heating_cop (t := 47) hP hbr h0 hM ht hpos d1 d2 (by norm_num) le_rfl rfl h47 hi hc g3 g4 f4.le f2.le
  obtain ⟨B', y, y0, c1, c2, c3, c4, -⟩ := C132_heating_cop (t := 47) (d := 0) hP hbr h0 hM ht hpos (by norm_num) (by norm_num) (by norm_num) le_rfl rfl h47 hi hc g3 g4 f4.le f2.le
  refine ⟨B, c, x, x0, b1, hc, b2, b3, ?_, b4, fun hd h1 => b5 hd (by norm_num; linarith) h1⟩
  rw [nominal h0 hM, h0] at c1; cases c1
  rw [b2] at c3; cases c3
  exact c4

end Resdx.Build

namespace Resdx.Sample

open Spec Tabular BaseModel Props ResnetFan Fan Table Build Transfer

/-- The sample unit with a COP of 3.2: with a quarter of the charge missing its COP at 47 °F is positive and at most 3.2. -/
example {brentq : Brentq} (hbr : BrentqSpec brentq) : ∃ B c x, build units moistEnv moistTools brentq { oneArgs with chargeDeviation := -(1 / 4) } = .ok B ∧
    B.sys.makeCondition moistEnv true 0 = .ok c ∧ (B.unit units moistEnv moistTools brentq).netSteadyHeatingCOP (some c) = .ok x ∧ 0 < x ∧ x ≤ 3.2 := by
  obtain ⟨B0, net, h0, hB⟩ := moist_made hbr
  obtain ⟨B, c, x, x0, h, hc, hx0, hx, -, p2, hle⟩ := C132_heating_rated (d := -(1 / 4)) moist_published hbr h0 hB rfl (by simp) (by norm_num) (by norm_num) (i := 0) (by decide)
  obtain ⟨-, e2, -⟩ := C131_same h0 h
  refine ⟨B, c, x, h, by rw [e2]; exact hc, hx, p2, ?_⟩
  have out : ∀ x, Outdoor moistEnv x := fun x => ⟨_, rfl⟩
  obtain ⟨q, -, -, g3, -⟩ := C45_heating h0 hB.staging rfl rfl (.inl hB.motor) (out _) (out _)
  have g3 := g3 _ rfl
  obtain ⟨_, _, _, _, _, _, _, _, _, _, _, b10⟩ := build_steps h0
  obtain ⟨-, -, p3, -⟩ := full_points b10
  rw [show B0.core.rh.full = 0 from hB.full.2] at p3
  have hc' : B0.sys.makeCondition moistEnv true 0 none (some (defaultOutdoor moistEnv true)) = .ok c := hc
  rw [p3] at hc'; cases hc'
  have g3' : (B0.unit units moistEnv moistTools brentq).netSteadyHeatingCOP (some B0.points.h1Full) = .ok 3.2 := g3
  rw [hx0] at g3'; cases g3'
  exact hle (by norm_num) (by norm_num)

end Resdx.Sample
