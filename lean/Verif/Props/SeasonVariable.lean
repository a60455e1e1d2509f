import Verif.Props.SeasonTwoCop
import Verif.Props.DerivedRangeVariable

/-!
# C96: the HSPF2 of variable-speed units from their ratings
-/

set_option linter.unusedSectionVars false
set_option linter.unusedSimpArgs false

namespace Resdx.Build

open Spec Tabular BaseModel Props ResnetFan Fan Table DX

variable {u : Units ℝ} {E : Env ℝ} {T : Coil.Tools} {brentq : Brentq} {a : Args} {B : Built}

/-- Values at the temperatures of the tests. -/
theorem cold_values (v : Cold ℝ) (mn : ℝ) : v.heating mn (frF 62) = v.at47 ∧ v.heating mn (frF 47) = v.at47 ∧ v.heating mn (frF 35) = 0.6 * v.at47 + 0.4 * v.at17 ∧ v.heating mn (frF 17) = v.at17 := by
  have h1 := f17_47 (K := ℝ)
  have h2 := f5_17 (K := ℝ)
  refine ⟨?_, ?_, ?_, ?_⟩
  · rw [Cold.heating, if_neg (by rw [not_le, frF_lt]; norm_num), if_neg (by rw [not_le, frF_lt]; norm_num), if_neg (by rw [not_le, frF_lt]; norm_num)]
  · rw [Cold.heating, if_neg (by order), if_neg (by order), if_pos le_rfl]
    unfold lineAt; field_simp [sub_ne_zero.2 h1.ne']; ring
  · rw [Cold.heating, if_neg (by rw [not_le, frF_lt]; norm_num), if_neg (by rw [not_le, frF_lt]; norm_num), if_pos (by rw [frF_le]; norm_num)]
    unfold lineAt frF; field_simp; ring
  · rw [Cold.heating, if_neg (by order), if_pos le_rfl]
    unfold lineAt; field_simp [sub_ne_zero.2 h2.ne']; ring

theorem cold_5 (v : Cold ℝ) {mn : ℝ} (h : mn < frF 5) : v.heating mn (frF 5) = v.at5 := by
  rw [Cold.heating, if_pos le_rfl]
  unfold lineAt; field_simp [sub_ne_zero.2 h.ne']; ring

/-- The tests of the curves from the ratings. -/
theorem variable_tests (btuh q95 seer2 eer2 q47 : ℝ) (q17 : Option ℝ) (hspf2 : ℝ) {mn : ℝ} (hmn : mn < frF 5) (ratio cop82 cop : Option ℝ) (b : Bool) (w1 w w3 v : ℝ) :
    (varCurves btuh q95 seer2 eer2 q47 q17 hspf2 mn ratio cop82 cop 1).variableTests (varCurves btuh q95 seer2 eer2 q47 q17 hspf2 mn ratio cop82 cop 2) b w1 w w3 v =
      variableHeating b q47 (varHeating17 q47 q17) (heatingCop hspf2 cop) w1 w w3 v := by
  have c1 := fun x => cold_values x mn
  have c5 := fun x => cold_5 x hmn
  simp only [Curves.variableTests, Curves.heatTests, Curves.withFan, Curves.lowHeatTests, varCurves, variableHeating, (c1 _).1, (c1 _).2.1, (c1 _).2.2.1, (c1 _).2.2.2, c5, VarHeating.speed, VarHeating.at47, VarHeating.at17,
    VarHeating.at5, Three.speed, varHeatingCapacity, varHeatingPower, if_true, if_false, show ¬ ((2 : Int) = 1) by decide]

/-- Ranges of the ratings of a variable-speed unit. -/
structure UsualVariable (u : Units ℝ) (a : Args) (q95 eer2 : ℝ) : Prop where
  usual : UsualUnits u
  tables : a.tables = none
  staging : a.staging = some .varSpeed
  cooling : a.cooling = .num q95
  size : 0 < q95
  seer : a.seer.isSome
  eer : inputEer a = some eer2
  eer_pos : 0 < eer2
  eer_le : eer2 ≤ 16
  ratio : eer2 ≤ 17.4 * (1.305 - 0.324 * a.seer.getD 0 / eer2)
  defaults : a.ratio95 = none ∧ a.cop82 = none
  hspf : a.netHeatingCop.isSome ∨ a.hspf.isSome
  comparable : Comparable q95 (ratedHeating u a .varSpeed q95)
  hottest : UsualCooling a.coolingOff
  heating : UsualHeating 5 (-20) (ratedHeating u a .varSpeed q95) (varHeating17 (ratedHeating u a .varSpeed q95) a.heating17) (heatingCop (a.hspf.getD 0) a.netHeatingCop) (lowestTemperature a .varSpeed)

/-- The cooling capacities of such a unit. -/
noncomputable def variableSizes (u : Units ℝ) (a : Args) (q95 eer2 : ℝ) : List ℝ :=
  let r := (varCooling u.btuh q95 (a.seer.getD 0) eer2 none none).ratio
  [q95 / 0.934, q95, (q95 / 0.934 * r + q95) / 2, q95 / 0.934 * r]

/-- The fans of a variable-speed unit: rated at full, intermediate and low speed in heating, rated at full speed in cooling, and at full speed in the conditions of the tests. -/
theorem variable_fans {q95 q47 : ℝ} (h95 : 0 < q95) (h47 : 0 < q47) (ht : a.tables = none) (hroot : a.motorPSC.getD false = false → BrentqSpec brentq) (hs : a.standard = .ahri2023)
    (hB : build u E T brentq a = .ok B) {net : Perf ℝ} {qc : List ℝ} (hc : ∃ x y, qc = [q95 / 0.934, q95, x, y])
    (hM : Made u E a .varSpeed net qc [q47 / 0.908, q47, (q47 / 0.908 * 0.272 + q47) / 2, q47 / 0.908 * 0.272] B) :
    let fan := unitFan (a.motorPSC.getD false) u.ton (max q95 q47)
    let s (x : ℝ) : ℝ := if a.ducted then x else 0
    B.core.cool.power[1]? = some (some (fan q95 (s 1))) ∧ (B.unit u E T brentq).fanPower B.points.aFull = .ok (fan q95 (s ((max q95 q47 / (q95 / 0.934)) ^ 2))) ∧
      B.core.heat.power[1]? = some (some (fan q47 (s 1))) ∧ B.core.heat.power[2]? = some (some (fan ((q47 / 0.908 * 0.272 + q47) / 2) (s ((max q95 q47 / (q47 / 0.908)) ^ 2)))) ∧
      B.core.heat.power[3]? = some (some (fan (q47 / 0.908 * 0.272) (s ((max q95 q47 / (q47 / 0.908)) ^ 2)))) ∧
      (B.unit u E T brentq).fanPower B.points.h1Full = .ok (fan q47 (s ((max q95 q47 / (q47 / 0.908)) ^ 2))) := by
  intro fan s
  obtain ⟨x, y, rfl⟩ := hc
  have hpsc : B.core.psc = a.motorPSC.getD false := hM.motor
  have ht' : ∀ d, a.tables = some d → RatedTables (tableSpeeds B.core.st) d := fun d hd => by rw [ht] at hd; cases hd
  have hbr : B.core.psc = false → BrentqSpec brentq := fun e => hroot (hpsc.symm.trans e)
  have he := esp_2023 hB hs
  obtain ⟨st0, q, nC, nH, b2, b3, b4, b6, b7, b8, b9, b10⟩ := build_steps hB
  obtain ⟨g1, -, g3, -⟩ := full_points b10
  have fc : B.core.rc.full = 1 := hM.full.1
  have fh : B.core.rh.full = 1 := hM.full.2
  rw [fc] at g1
  rw [fh] at g3
  have hL : 0 < max q95 q47 := lt_max_of_lt_left h95
  have sq : ∀ {x : ℝ}, 0 < x → x ≤ max q95 q47 → (x / max q95 q47) ^ 2 ≤ 3 := by
    intro x h0 h1
    have : x / max q95 q47 ≤ 1 := (div_le_one hL).2 h1
    have : 0 < x / max q95 q47 := div_pos h0 hL
    nlinarith
  have lo2 : q47 / 0.908 * 0.272 ≤ q47 := by rw [div_mul_eq_mul_div, div_le_iff₀ (by norm_num)]; linarith
  have lo1 : (q47 / 0.908 * 0.272 + q47) / 2 ≤ q47 := by linarith
  have l47 : q47 ≤ max q95 q47 := le_max_right _ _
  obtain ⟨c1, c2⟩ := C88_fan_power hB ht' hM hbr (x := q95) (y := q47) rfl rfl hL false (i := 1) (q := q95) (q0 := q95 / 0.934) rfl rfl h95 (by positivity) (sq h95 (le_max_left _ _))
  obtain ⟨d1, d2⟩ := C88_fan_power hB ht' hM hbr (x := q95) (y := q47) rfl rfl hL true (i := 1) (q := q47) (q0 := q47 / 0.908) rfl rfl h47 (by positivity) (sq h47 l47)
  obtain ⟨e1, -⟩ := C88_fan_power hB ht' hM hbr (x := q95) (y := q47) rfl rfl hL true (i := 2) (q := (q47 / 0.908 * 0.272 + q47) / 2) (q0 := q47 / 0.908) rfl rfl (by positivity) (by positivity)
    (sq (by positivity) (lo1.trans l47))
  obtain ⟨f1, -⟩ := C88_fan_power hB ht' hM hbr (x := q95) (y := q47) rfl rfl hL true (i := 3) (q := q47 / 0.908 * 0.272) (q0 := q47 / 0.908) rfl rfl (by positivity) (by positivity)
    (sq (by positivity) (lo2.trans l47))
  have c3 := c2 g1
  have d3 := d2 g3
  rw [he, hpsc] at c1 d1 e1 f1 c3 d3
  rw [if_pos (show (1 : Nat) = fullIndex .varSpeed from rfl), mul_one] at c1 d1
  rw [if_neg (show ¬ (2 : Nat) = fullIndex .varSpeed by decide)] at e1
  rw [if_neg (show ¬ (3 : Nat) = fullIndex .varSpeed by decide)] at f1
  have ite : ∀ z : ℝ, ((if a.ducted = true then 1 else 0 : ℝ)) * z = if a.ducted = true then z else 0 := by intro z; split <;> simp
  rw [ite] at e1 f1 c3 d3
  exact ⟨c1, c3, d1, e1, f1, d3⟩

/-- How the power of a fan depends on the pressure. -/
theorem fanWatts_diff {psc : Bool} {r s s' : ℝ} (hr : 0 < r) (hr1 : r ≤ 1) : ∃ c, 0 ≤ c ∧ c ≤ 0.1155 ∧ fanWatts psc r s' - fanWatts psc r s = c * (s' - s) := by
  unfold fanWatts
  cases psc
  · have h1 : r ^ (2 : ℝ) ≤ r ^ (1.75 : ℝ) := Real.rpow_le_rpow_of_exponent_ge hr hr1 (by norm_num)
    have h2 : r ^ (1.75 : ℝ) ≤ r ^ (1 : ℝ) := Real.rpow_le_rpow_of_exponent_ge hr hr1 (by norm_num)
    rw [Real.rpow_two] at h1
    rw [Real.rpow_one] at h2
    refine ⟨0.281 * r ^ (1.75 : ℝ) - 0.171 * r ^ 2, by nlinarith [sq_nonneg r], ?_, by simp only [Bool.false_eq_true, if_false]; ring⟩
    nlinarith [sq_nonneg (r - 0.8216)]
  · exact ⟨0, le_rfl, by norm_num, by simp⟩

/-- At most the design pressure a fan takes at most 0.414 W/cfm. -/
theorem fanWatts_le {psc : Bool} {r s : ℝ} (hr : 0 < r) (hr1 : r ≤ 1) (hs : s ≤ 1) : fanWatts psc r s ≤ 0.414 := by
  refine (fanWatts_mono hr hr1 hs).trans ?_
  unfold fanWatts
  split
  · linarith
  · have h2 : r ^ (1.75 : ℝ) ≤ 1 := Real.rpow_le_one hr.le hr1 (by norm_num)
    linarith

/-- What the fan of a full speed draws more in the tests than rated, for a mode whose highest capacity is the share `1 / f` of the full one. -/
theorem fan_shift {q L f : ℝ} (psc ducted : Bool) (hu : UsualUnits u) (hq : 0 < q) (hle : q ≤ L) (hge : L ^ 2 ≤ 3 * q ^ 2) (hf : 0.908 ≤ f) (hf' : f ≤ 0.934) :
    let s (x : ℝ) : ℝ := if ducted then x else 0
    let z := s ((L / (q / f)) ^ 2)
    (0 ≤ z ∧ z ≤ 3) ∧ (0 < unitFan psc u.ton L q (s 1) ∧ unitFan psc u.ton L q (s 1) ≤ 0.048 * q) ∧ 0 < unitFan psc u.ton L q z ∧
      -0.0024 * q ≤ unitFan psc u.ton L q z - unitFan psc u.ton L q (s 1) ∧ unitFan psc u.ton L q z - unitFan psc u.ton L q (s 1) ≤ 0.0215 * q := by
  intro s z
  have hL : 0 < L := hq.trans_le hle
  have hto := u.ton_pos
  have hto' := hu.ton
  have r0 : 0 < q / L := div_pos hq hL
  have r1 : q / L ≤ 1 := (div_le_one hL).2 hle
  have hx : (L / (q / f)) ^ 2 = f ^ 2 * (L / q) ^ 2 := by rw [div_div_eq_mul_div, mul_div_right_comm, mul_pow]; ring
  have m1 : 1 ≤ (L / q) ^ 2 := by
    have : 1 ≤ L / q := (one_le_div hq).2 hle
    nlinarith
  have m3 : (L / q) ^ 2 ≤ 3 := by rw [div_pow, div_le_iff₀ (by positivity)]; exact hge
  have f1 : 0.824464 ≤ f ^ 2 := by nlinarith
  have f2 : f ^ 2 ≤ 0.872356 := by nlinarith
  have x1 : 0.824464 ≤ (L / (q / f)) ^ 2 := by rw [hx]; nlinarith
  have x3 : (L / (q / f)) ^ 2 ≤ 2.618 := by rw [hx]; nlinarith
  have z0 : 0 ≤ z := by simp only [z, s]; split <;> [positivity; exact le_rfl]
  have z3 : z ≤ 3 := by simp only [z, s]; split <;> linarith
  have s1 : s 1 ≤ 1 := by simp only [s]; split <;> norm_num
  have s0 : 0 ≤ s 1 := by simp only [s]; split <;> norm_num
  have d1 : -0.1756 ≤ z - s 1 := by simp only [z, s]; split <;> linarith
  have d2 : z - s 1 ≤ 1.618 := by simp only [z, s]; split <;> linarith
  have t4 : 400 / u.ton ≤ 0.11377 := by rw [div_le_iff₀ hto]; linarith
  have t0 : 0 < 400 / u.ton := by positivity
  refine ⟨⟨z0, z3⟩, ⟨(unitFan_bounds hu hq hle s0 (by linarith)).1, ?_⟩, (unitFan_bounds hu hq hle z0 z3).1, ?_⟩
  · have := fanWatts_le (psc := psc) r0 r1 s1
    simp only [unitFan]
    have f0 : 0 < fanWatts psc (q / L) (s 1) := (fanWatts_bounds r0 r1 s0 (by linarith)).1
    have := mul_le_mul t4 this f0.le (by norm_num)
    have := mul_le_mul_of_nonneg_left this hq.le
    linarith
  · obtain ⟨c, c0, c1, hd⟩ := fanWatts_diff (psc := psc) (s := s 1) (s' := z) r0 r1
    have e : unitFan psc u.ton L q z - unitFan psc u.ton L q (s 1) = q * (400 / u.ton * c * (z - s 1)) := by
      simp only [unitFan]
      rw [← mul_sub, hd]; ring
    rw [e]
    have g0 : 0 ≤ 400 / u.ton * c := by positivity
    have g1 : 400 / u.ton * c ≤ 0.01315 := by have := mul_le_mul t4 c1 c0 (by norm_num); linarith
    generalize 400 / u.ton * c = g at *
    have h1 : -0.0024 ≤ g * (z - s 1) := by nlinarith
    have h2 : g * (z - s 1) ≤ 0.0215 := by nlinarith
    constructor <;> nlinarith

/-- Bounds of the fans of a variable-speed unit. -/
theorem variable_fan_bounds {q95 q47 : ℝ} (psc ducted : Bool) (hu : UsualUnits u) (h95 : 0 < q95) (h47 : 0 < q47) (hc : Comparable q95 q47) :
    let fan := unitFan psc u.ton (max q95 q47)
    let s (x : ℝ) : ℝ := if ducted then x else 0
    let z := s ((max q95 q47 / (q47 / 0.908)) ^ 2)
    (0 < fan q47 (s 1) ∧ fan q47 (s 1) ≤ 0.048 * q47) ∧ (0 < fan ((q47 / 0.908 * 0.272 + q47) / 2) z ∧ fan ((q47 / 0.908 * 0.272 + q47) / 2) z ≤ 0.0624 * q47) ∧
      (0 < fan (q47 / 0.908 * 0.272) z ∧ fan (q47 / 0.908 * 0.272) z ≤ 0.029 * q47) ∧ (0 < fan q47 z ∧ -0.0024 * q47 ≤ fan q47 z - fan q47 (s 1) ∧ fan q47 z - fan q47 (s 1) ≤ 0.0215 * q47) ∧
      fan q95 (s ((max q95 q47 / (q95 / 0.934)) ^ 2)) - fan q95 (s 1) ≤ 0.0215 * q95 := by
  intro fan s z
  have l47 : q47 ≤ max q95 q47 := le_max_right _ _
  have hm : max q95 q47 ^ 2 ≤ 3 * q47 ^ 2 ∧ max q95 q47 ^ 2 ≤ 3 * q95 ^ 2 := by
    rcases max_choice q95 q47 with e | e <;> rw [e]
    · exact ⟨hc.2, by nlinarith [sq_nonneg q95]⟩
    · exact ⟨by nlinarith [sq_nonneg q47], hc.1⟩
  obtain ⟨⟨z0, z3⟩, a1, a2, a3⟩ := fan_shift psc ducted hu h47 l47 hm.1 (f := 0.908) le_rfl (by norm_num)
  obtain ⟨-, -, -, -, b1⟩ := fan_shift psc ducted hu h95 (le_max_left q95 q47) hm.2 (f := 0.934) (by norm_num) le_rfl
  have lo2 : q47 / 0.908 * 0.272 ≤ 0.29956 * q47 := by rw [div_mul_eq_mul_div, div_le_iff₀ (by norm_num)]; linarith
  have g1 := unitFan_bounds (psc := psc) hu (show 0 < (q47 / 0.908 * 0.272 + q47) / 2 by positivity) (show (q47 / 0.908 * 0.272 + q47) / 2 ≤ max q95 q47 by linarith) z0 z3
  have g2 := unitFan_bounds (psc := psc) hu (show 0 < q47 / 0.908 * 0.272 by positivity) (show q47 / 0.908 * 0.272 ≤ max q95 q47 by linarith) z0 z3
  exact ⟨a1, ⟨g1.1, g1.2.le.trans (by linarith)⟩, ⟨g2.1, g2.2.le.trans (by linarith)⟩, ⟨a2, a3⟩, b1⟩

/-! ## The tests within these bounds -/

/-- Bounds of the data of the tests of a variable-speed unit: capacity at 17 °F between 60 and 100 % of that at 47 °F, COP between 2.1 and 5, fan powers. -/
structure TestBounds (q h κ w1 w w3 v : ℝ) : Prop where
  rated : 0 < q
  cold : 0.6 * q ≤ h
  cold_le : h ≤ q
  cop : 2.1 ≤ κ
  cop_le : κ ≤ 5
  full : 0 < w1 ∧ w1 ≤ 0.048 * q
  mid : 0 < w ∧ w ≤ 0.0624 * q
  low : 0 < w3 ∧ w3 ≤ 0.029 * q
  test : 0 < v
  shift : -0.0024 * q ≤ v - w1 ∧ v - w1 ≤ 0.0215 * q

section
variable {b : Bool} {q h κ w1 w w3 v : ℝ} (H : TestBounds q h κ w1 w w3 v)
include H

/-- The products of the capacities and the inverse of the COP. -/
theorem TestBounds.products : ∃ x y, q / κ = x ∧ h / κ = y ∧ 0.2 * q ≤ x ∧ x ≤ 0.4763 * q ∧ 0.6 * x ≤ y ∧ y ≤ x ∧ 0.2 * h ≤ y ∧ y ≤ 0.4763 * h := by
  have hκ : 0 < κ := by linarith [H.cop]
  have hh : 0 < h := by linarith [H.cold, H.rated]
  refine ⟨_, _, rfl, rfl, ?_, ?_, ?_, ?_, ?_, ?_⟩
  · rw [le_div_iff₀ hκ]; nlinarith [H.cop_le, H.rated]
  · rw [div_le_iff₀ hκ]; nlinarith [H.cop, H.rated]
  · rw [← mul_div_assoc]; exact div_le_div_of_nonneg_right H.cold hκ.le
  · exact div_le_div_of_nonneg_right H.cold_le hκ.le
  · rw [le_div_iff₀ hκ]; nlinarith [H.cop_le]
  · rw [div_le_iff₀ hκ]; nlinarith [H.cop]

/-- Low speed does not depend on the temperature. -/
theorem low_const (t : ℝ) : (variableHeating b q h κ w1 w w3 v).qLow t = 68 / 227 * q ∧ (variableHeating b q h κ w1 w w3 v).pLow t = 4964 / 21315.3 * (q / κ) := by
  unfold VariableTests.qLow VariableTests.pLow lineAt variableHeating
  generalize q / κ = x
  constructor <;> ring

/-- The tests at 35 °F at full speed and their slopes. -/
theorem full_35 : let T := variableHeating b q h κ w1 w w3 v
    0.49 * q ≤ T.full.q2 - 68 / 227 * q ∧ -0.06 * q ≤ T.full.q2 - T.full.q3 ∧ T.full.q2 - T.full.q3 ≤ 0.24 * q ∧ 0.66 * (q / κ) ≤ T.full.p2 - 4964 / 21315.3 * (q / κ) := by
  obtain ⟨x, y, ex, ey, k1, k2, k3, k4, k5, k6⟩ := H.products
  obtain ⟨h1, h2, h3, -, -, h4, h5, h6, h7, h8⟩ := H
  intro T
  simp only [T, variableHeating, ex, ey, frosted]
  cases b <;> simp only [if_true, if_false, Bool.false_eq_true] <;> (refine ⟨?_, ?_, ?_, ?_⟩ <;> linarith)

omit H in
theorem season_range : ∀ t ∈ (seasonTemperatures : List ℝ), -23 ≤ t ∧ t ≤ 62 := by
  simp only [seasonTemperatures, List.forall_mem_cons, List.not_mem_nil, false_imp_iff, implies_true, and_true]
  norm_num

omit H in
/-- An intermediate line is positive if its test lies above the low speed and the full speed does not change too fast. -/
theorem intermediate_pos {low full m d t D : ℝ} (h1 : 0 < low) (h2 : low ≤ m) (h3 : low < full) (hD : d / 18 * (t - 35) = D) (h4 : -((full - low) * low) < (m - low) * (full - low + D)) :
    0 < intermediateLine low 0 full (d / 18) m t := by
  have h0 : 0 < full - low := sub_pos.2 h3
  have e : intermediateLine low 0 full (d / 18) m t = (m * (full - low) + (m - low) * D) / (full - low) := by
    unfold intermediateLine
    simp only [mul_zero, zero_add]
    rw [mul_assoc, hD]; field_simp
  rw [e]
  refine div_pos ?_ h0
  nlinarith

omit H in
theorem low_factors (q h x y : ℝ) : q / 0.908 * 0.272 = 68 / 227 * q ∧ h / 0.817 * 0.341 = 341 / 817 * h ∧ x / (0.908 * 0.939) * (0.272 * 0.730) = 4964 / 21315.3 * x ∧
    y * 1.351 / (0.817 * 0.902) * (0.341 * 0.798) = 1.351 * 0.341 * 0.798 / (0.817 * 0.902) * y ∧ h / 0.817 * 0.866 * 0.988 = 0.866 * 0.988 / 0.817 * h ∧
    y * 1.351 / (0.817 * 0.902) * (0.866 * 1.164) * 0.988 = 1.351 * 0.866 * 1.164 * 0.988 / (0.817 * 0.902) * y := by
  refine ⟨?_, ?_, ?_, ?_, ?_, ?_⟩ <;> ring

/-- The tests at intermediate speed. -/
theorem mid_35 : let T := variableHeating b q h κ w1 w w3 v
    68 / 227 * q ≤ T.qi ∧ T.qi ≤ 0.75 * q ∧ 4964 / 21315.3 * (q / κ) ≤ T.pi ∧ -0.24 * (q / κ) ≤ T.full.p2 - T.full.p3 ∧ T.full.p2 - T.full.p3 ≤ 0.12 * (q / κ) := by
  obtain ⟨x, y, ex, ey, k1, k2, k3, k4, k5, k6⟩ := H.products
  obtain ⟨h1, h2, h3, -, -, h4, h5, h6, h7, h8⟩ := H
  intro T
  obtain ⟨e1, e2, e3, e4, -⟩ := low_factors q h x y
  simp only [T, variableHeating, ex, ey, frosted]
  rw [e1, e2, e3, e4]
  cases b <;> simp only [if_true, if_false, Bool.false_eq_true] <;> (refine ⟨?_, ?_, ?_, ?_, ?_⟩ <;> norm_num <;> linarith)

/-- The intermediate speed delivers and draws something at all temperatures of the season. -/
theorem mid_pos {t : ℝ} (ht : -23 ≤ t) (ht' : t ≤ 62) : 0 < (variableHeating b q h κ w1 w w3 v).qInt t ∧ 0 < (variableHeating b q h κ w1 w w3 v).pInt t := by
  obtain ⟨l1, l2⟩ := low_const (b := b) H 35
  obtain ⟨f1, f2, f3, f4⟩ := full_35 (b := b) H
  obtain ⟨m1, m2, m3, m4, m5⟩ := mid_35 (b := b) H
  have hq := H.rated
  have hx : 0 < q / κ := div_pos hq (by linarith [H.cop])
  have s1 : (variableHeating b q h κ w1 w w3 v).low.q0 - (variableHeating b q h κ w1 w w3 v).low.q1 = 0 := sub_self _
  have s2 : (variableHeating b q h κ w1 w w3 v).low.p0 - (variableHeating b q h κ w1 w w3 v).low.p1 = 0 := sub_self _
  unfold VariableTests.qInt VariableTests.pInt
  rw [l1, l2, s1, s2, zero_div]
  generalize variableHeating b q h κ w1 w w3 v = T at *
  generalize q / κ = x at *
  constructor
  · refine intermediate_pos (by linarith) m1 (by linarith) rfl ?_
    have hD : -0.8 * q ≤ (T.full.q2 - T.full.q3) / 18 * (t - 35) := by
      rcases le_total t 35 with h35 | h35
      · nlinarith [mul_nonneg (sub_nonneg.2 f3) (sub_nonneg.2 h35)]
      · nlinarith [mul_nonneg (sub_nonneg.2 f2) (sub_nonneg.2 h35)]
    generalize (T.full.q2 - T.full.q3) / 18 * (t - 35) = D at *
    generalize T.full.q2 - 68 / 227 * q = F at *
    have : -(F * (68 / 227 * q)) ≤ -(0.49 * q * (68 / 227 * q)) := by nlinarith
    have g1 : 0 ≤ T.qi - 68 / 227 * q := by linarith
    have g2 : T.qi - 68 / 227 * q ≤ 0.4505 * q := by linarith
    have g3 : -0.31 * q ≤ F + D := by linarith
    generalize T.qi - 68 / 227 * q = M at *
    have : M * (-0.31 * q) ≤ M * (F + D) := mul_le_mul_of_nonneg_left g3 g1
    have : M * (-0.31 * q) ≥ 0.4505 * q * (-0.31 * q) := by nlinarith
    nlinarith [mul_pos hq hq]
  · refine intermediate_pos (by linarith) m3 (by linarith) rfl ?_
    have hD : -0.4 * x ≤ (T.full.p2 - T.full.p3) / 18 * (t - 35) := by
      rcases le_total t 35 with h35 | h35
      · nlinarith [mul_nonneg (sub_nonneg.2 m5) (sub_nonneg.2 h35)]
      · nlinarith [mul_nonneg (sub_nonneg.2 m4) (sub_nonneg.2 h35)]
    generalize (T.full.p2 - T.full.p3) / 18 * (t - 35) = D at *
    generalize T.full.p2 - 4964 / 21315.3 * x = F at *
    have : 0 < F * (4964 / 21315.3 * x) := by have : 0 < F := by linarith
                                              positivity
    have : 0 ≤ (T.pi - 4964 / 21315.3 * x) * (F + D) := mul_nonneg (by linarith) (by linarith)
    linarith

/-- Full speed draws something at all temperatures of the season. -/
theorem full_pos : ∀ t ∈ (seasonTemperatures : List ℝ), 0 < (variableHeating b q h κ w1 w w3 v).full.p t := by
  obtain ⟨x, y, ex, ey, k1, k2, k3, k4, k5, k6⟩ := H.products
  obtain ⟨h1, h2, h3, -, -, h4, h5, h6, h7, h8⟩ := H
  refine tests_pos (b := b) (w := v) (p1 := q / κ + (v - w1)) (p3 := h / κ * 1.351 + (v - w1)) rfl rfl ?_ ?_ ?_ ?_ h7.le
  · show frosted b 0.0087 v _ = frosted b 0.0087 v _
    congr 1; ring
  all_goals rw [ex]
  all_goals try rw [ey]
  all_goals linarith

/-- The lines through the tests at 5 and 17 °F: up to 57 °F what they deliver beyond what they draw is less than the capacity of full speed, and below 17 °F it is at most 71 % of the capacity at 17 °F. -/
theorem cold_lines : let T := variableHeating b q h κ w1 w w3 v
    (∀ t ∈ (seasonTemperatures : List ℝ), 17 ≤ t → t ≤ 57 → lineAt 5 T.q4 17 T.full.q3 t - lineAt 5 T.p4 17 T.full.p3 t < T.full.q t) ∧
      ∀ t ≤ 12, lineAt 5 T.q4 17 T.full.q3 t - lineAt 5 T.p4 17 T.full.p3 t ≤ 0.7102 * h := by
  obtain ⟨x, y, ex, ey, k1, k2, k3, k4, k5, k6⟩ := H.products
  obtain ⟨h1, h2, h3, -, -, h4, h5, h6, h7, h8⟩ := H
  intro T
  constructor
  · simp only [seasonTemperatures, List.forall_mem_cons, List.not_mem_nil, false_imp_iff, implies_true, and_true, T, variableHeating, ex, ey, frosted, HeatTests.q, lineAt]
    norm_num
    cases b <;> simp only [if_true, if_false, Bool.false_eq_true] <;> ((repeat' constructor) <;> linarith)
  · intro t ht
    simp only [T, variableHeating, ex, ey, lineAt]
    have : 0 ≤ (y - 0.2 * h) * (12 - t) := mul_nonneg (by linarith) (by linarith)
    have : 0 ≤ h * (12 - t) := mul_nonneg (by linarith) (by linarith)
    obtain ⟨-, -, -, -, e5, e6⟩ := low_factors q h x y
    rw [e5, e6]
    norm_num
    nlinarith

omit H in
/-- A modulated COP lies between positive ones. -/
theorem modulated_pos {qL cL qI cI qF cF l : ℝ} (h1 : 0 < cL) (h2 : 0 < cI) (h3 : 0 < cF) (hl : qL < l) (hf : l < qF) : 0 < modulatedCop qL cL qI cI qF cF l := by
  unfold modulatedCop
  split
  · exact lineAt_pos (by linarith) hl.le (by assumption) h1 h2
  · rename_i hn
    exact lineAt_pos (by linarith [not_le.1 hn]) (not_le.1 hn).le hf.le h2 h3

/-- While it modulates, the COP is positive. -/
theorem cop_pos {load : ℝ → ℝ} {t : ℝ} (ht : t ∈ (seasonTemperatures : List ℝ)) (h1 : (variableHeating b q h κ w1 w w3 v).qLow t < load t) (h2 : load t < (variableHeating b q h κ w1 w w3 v).full.q t) :
    0 < (variableHeating b q h κ w1 w w3 v).cop load t := by
  obtain ⟨l1, l2⟩ := low_const (b := b) H t
  obtain ⟨r1, r2⟩ := season_range t ht
  obtain ⟨m1, m2⟩ := mid_pos (b := b) H r1 r2
  have hq := H.rated
  have hx : 0 < q / κ := div_pos hq (by linarith [H.cop])
  have g1 : 0 < (variableHeating b q h κ w1 w w3 v).qLow t := by rw [l1]; positivity
  have g2 : 0 < (variableHeating b q h κ w1 w w3 v).pLow t := by rw [l2]; positivity
  exact modulated_pos (div_pos g1 g2) (div_pos m1 m2) (div_pos (by linarith) (full_pos (b := b) H t ht)) h1 h2

/-- In each bin the unit and its resistance heat use energy if there is a load. The load is zero at 62 °F and, below 17 °F, more than 71 % of the capacity at 17 °F. -/
theorem variable_pos {cd off : ℝ} {load : ℝ → ℝ} (hcd : 0 ≤ cd) (hcd1 : cd < 1) (l62 : load 62 = 0) (l12 : ∀ t ≤ 12, 0.7102 * h ≤ load t) {t : ℝ} (ht : t ∈ (seasonTemperatures : List ℝ)) (hl : 0 ≤ load t) :
    let T := variableHeating b q h κ w1 w w3 v
    0 ≤ T.energy cd off load t + T.resistance off load t ∧ (17 ≤ t → 0 < load t → 0 < T.energy cd off load t + T.resistance off load t) := by
  intro T
  obtain ⟨c1, c2⟩ := low_const (b := b) H t
  have hq := H.rated
  have hx : 0 < q / κ := div_pos hq (by linarith [H.cop])
  have g1 : 0 < T.qLow t := by rw [c1]; positivity
  have g2 : 0 < T.pLow t := by rw [c2]; positivity
  have run : ∀ c, runFraction off off t c = 0 ∨ runFraction off off t c = 1 := by
    intro c
    unfold runFraction
    split
    · exact .inl rfl
    · rename_i hn
      push Not at hn
      rw [if_pos hn.1]; exact .inr rfl
  unfold VariableTests.energy VariableTests.resistance
  by_cases h1 : load t ≤ T.qLow t
  · rw [if_pos h1, if_pos h1]
    have hr1 : load t / T.qLow t ≤ 1 := (div_le_one g1).2 h1
    have hr2 : 0 ≤ load t / T.qLow t := div_nonneg hl g1.le
    have hr3 : 0 < 1 - cd * (1 - load t / T.qLow t) := by nlinarith
    rcases run (T.qLow t / T.pLow t) with e | e <;> rw [e]
    · simp only [zero_mul, zero_add, sub_zero]; exact ⟨hl, fun _ h => h⟩
    · unfold cyclingRate
      simp only [one_mul, sub_self, add_zero]
      exact ⟨div_nonneg (mul_nonneg hr2 g2.le) hr3.le, fun _ h0 => div_pos (mul_pos (div_pos h0 g1) g2) hr3⟩
  · rw [if_neg h1, if_neg h1]
    by_cases h2 : load t < T.full.q t
    · rw [if_pos h2, if_pos h2]
      have hc := cop_pos (b := b) H ht (not_le.1 h1) h2
      rcases run (T.cop load t) with e | e <;> rw [e]
      · simp only [zero_mul, zero_add, sub_zero]; exact ⟨hl, fun _ h => h⟩
      · simp only [one_mul, sub_self, add_zero]
        exact ⟨div_nonneg hl hc.le, fun _ h0 => div_pos h0 hc⟩
    · rw [if_neg h2, if_neg h2]
      obtain ⟨k1, k2⟩ := cold_lines (b := b) H
      rcases run (T.full.q t / T.full.p t) with e | e <;> rw [e]
      · simp only [zero_mul, zero_add, sub_zero]; exact ⟨hl, fun _ h => h⟩
      · simp only [one_mul]
        rcases season_gap t ht with h17 | h12
        · have h57 : t ≤ 57 := by
            by_contra hn
            have : t = 62 := by
              revert hn
              revert ht
              clear * -
              simp only [seasonTemperatures, List.mem_cons, List.not_mem_nil, or_false]
              rintro (rfl | rfl | rfl | rfl | rfl | rfl | rfl | rfl | rfl | rfl | rfl | rfl | rfl | rfl | rfl | rfl | rfl | rfl) h <;> first | rfl | (exfalso; exact h (by norm_num))
            rw [this, l62] at h1
            rw [this] at g1
            exact h1 g1.le
          have := k1 t ht h17 h57
          have := not_lt.1 h2
          exact ⟨by linarith, fun _ _ => by linarith⟩
        · have := k2 t h12
          have := l12 t h12
          exact ⟨by linarith, fun h => by linarith⟩

end

/-- The load of a variable-speed unit: nothing at 62 °F, at least 71 % of the cooling capacity below 17 °F. -/
theorem region_load_variable {r : Nat} {design z c cv : ℝ} {hours : List ℝ} (h : regionData .ahri2023 r = some (design, hours, some (c, cv, z))) {q : ℝ} (hq : 0 < q) :
    heatBuildingLoad z design (cv * q) 62 = 0 ∧ ∀ t ≤ 12, 0.71 * q < heatBuildingLoad z design (cv * q) t := by
  have hr : 1 ≤ r ∧ r ≤ 6 := by
    by_contra hn
    have : regionData .ahri2023 r = (none : Option (ℝ × List ℝ × Option (ℝ × ℝ × ℝ))) := by
      unfold regionData
      split <;> first | rfl | omega | cases ‹RatingStandard.ahri2023 = _›
    rw [this] at h; cases h
  obtain ⟨r1, r6⟩ := hr
  have hm : ∀ t : ℝ, t ≤ 12 → 0 ≤ q * (12 - t) := fun t ht => mul_nonneg hq.le (by linarith)
  interval_cases r <;> simp only [regionData, Option.some.injEq, Prod.mk.injEq] at h <;> obtain ⟨rfl, rfl, rfl, rfl, rfl⟩ := h <;>
    (unfold heatBuildingLoad
     refine ⟨by norm_num, fun t ht => ?_⟩
     have := hm t ht
     rw [if_neg (by linarith)]
     norm_num
     nlinarith)

/-- What the season of a variable-speed unit needs besides `UsualVariable`: the 2023 edition, no cut-in temperature, a degradation coefficient below one, a capacity at 17 °F between 60 and 100 % of that at 47 °F and at most 95 % of
the cooling capacity, a COP of at least 2.1, and outdoor air that psychrolib knows at the test temperatures. -/
structure VariableSeason (u : Units ℝ) (E : Env ℝ) (a : Args) (q95 : ℝ) : Prop where
  standard : a.standard = .ahri2023
  cutIn : a.heatingOn = none
  cd : 0 ≤ cd a.cdHeating ∧ cd a.cdHeating < 1
  cold : 0.6 * ratedHeating u a .varSpeed q95 ≤ varHeating17 (ratedHeating u a .varSpeed q95) a.heating17
  cold_le : varHeating17 (ratedHeating u a .varSpeed q95) a.heating17 ≤ ratedHeating u a .varSpeed q95
  warm : varHeating17 (ratedHeating u a .varSpeed q95) a.heating17 ≤ 0.95 * q95
  cop : 2.1 ≤ heatingCop (a.hspf.getD 0) a.netHeatingCop
  outdoor : Outdoor E (frF 62) ∧ Outdoor E (frF 47) ∧ Outdoor E (frF 35) ∧ Outdoor E (frF 17) ∧ Outdoor E (frF 5)

/-- The cooling capacity of a variable-speed unit in the tests: the fan draws more than rated, as the pressure has 0.5 inH2O at the airflow of the highest speed. -/
noncomputable def variableCooling (psc ducted : Bool) (ton q95 q47 : ℝ) : ℝ :=
  let fan := unitFan psc ton (max q95 q47) q95
  q95 - (fan (if ducted then (max q95 q47 / (q95 / 0.934)) ^ 2 else 0) - fan (if ducted then 1 else 0))

/-- The seasonal heating performance of a variable-speed unit with a cooling capacity `q95` and heating capacities `q47`, `q17`, COP `cop` at 47 °F and fan of the given motor: full speed is rated with the pressure at the larger
airflow of both modes; the other speeds and, in the tests, full speed run at the pressure that has 0.5 inH2O at the airflow of the highest heating speed. -/
noncomputable def variableHspf (psc ducted : Bool) (ton q95 q47 q17 cop : ℝ) (defrosts : Bool) (cd off : ℝ) (load : ℝ → ℝ) (bins : List (ℝ × ℝ)) : ℝ :=
  let fan := unitFan psc ton (max q95 q47)
  let s := if ducted then (max q95 q47 / (q47 / 0.908)) ^ 2 else 0
  (variableHeating defrosts q47 q17 cop (fan q47 (if ducted then 1 else 0)) (fan ((q47 / 0.908 * 0.272 + q47) / 2) s) (fan (q47 / 0.908 * 0.272) s) (fan q47 s)).season cd off load bins

/-- C96, from the ratings to the HSPF2 of a variable-speed unit, for both motors, ducted or not: within the ranges of `UsualVariable` and `VariableSeason` the unit can be made and its HSPF2 in every climate region is the one of the
specification. -/
theorem C96_variable_ratings {q95 eer2 : ℝ} (H : UsualVariable u a q95 eer2) (hS : VariableSeason u E a q95) (h : Surroundings u E T brentq a .varSpeed (variableSizes u a q95 eer2)) :
    ∃ B, build u E T brentq a = .ok B ∧ B.core.st = .varSpeed ∧ ∀ {r : Nat} {design z cx cv : ℝ} {hours : List ℝ} {f : ℝ}, regionData .ahri2023 r = some (design, hours, some (cx, cv, z)) →
      a.defrost.demandCredit u = .ok f →
      B.hspf u E T brentq r = .ok (variableHspf (a.motorPSC.getD false) a.ducted u.ton q95 (ratedHeating u a .varSpeed q95) (varHeating17 (ratedHeating u a .varSpeed q95) a.heating17)
        (heatingCop (a.hspf.getD 0) a.netHeatingCop) (a.defrost.inDefrost (frF 35)) (cd a.cdHeating) (toF (lowestTemperature a .varSpeed))
        (heatBuildingLoad z design (cv * variableCooling (a.motorPSC.getD false) a.ducted u.ton q95 (ratedHeating u a .varSpeed q95))) (seasonTemperatures.zip hours) * f / u.btuh) := by
  obtain ⟨B, net, hB, hM, hF⟩ := C90_variable_range H.usual H.tables H.staging H.cooling H.seer H.eer H.hspf H.defaults H.eer_pos H.eer_le H.ratio H.size H.comparable H.hottest H.heating h
  refine ⟨B, hB, hM.staging, fun {r design z cx cv hours f} hr hf => ?_⟩
  have hpos := H.heating.rated
  have h95 := H.size
  have c1 := hS.cold
  have c2 := hS.cold_le
  have c3 := hS.warm
  have hmn := H.heating.below
  have hoff : B.heatingOff = lowestTemperature a .varSpeed := by
    obtain ⟨st0, _, _, _, _, _, b1, -, -, -, b5, -⟩ := build_ok hB
    rw [H.staging] at b1
    cases b1
    rw [b5, offTemperature_eq]
  have hl : -20 ≤ toF (lowestTemperature a .varSpeed) := by have := toF_le.2 H.heating.above; rwa [toF_frF] at this
  obtain ⟨-, hST, -⟩ := variable_tables hB H.tables H.staging H.cooling H.seer H.eer H.hspf h95.ne' H.eer_pos.ne' hpos.ne' (by linarith) H.heating.cop_pos.ne' (by rw [H.defaults.2]; simp) H.hottest.1 hmn
    (by intro hc; rw [hc] at hl; norm_num at hl) (by rw [H.defaults.1, H.defaults.2]; exact (default_ratios u h95.ne' H.eer_pos.ne').1) (by rw [H.defaults.1, H.defaults.2]; exact (default_ratios u h95.ne' H.eer_pos.ne').2)
  obtain ⟨f1, f2, f3, f4, f5, f6⟩ := variable_fans h95 hpos H.tables (fun e => h.root e) hS.standard hB ⟨_, _, rfl⟩ hM
  obtain ⟨g1, g2, g3, g4, g5⟩ := variable_fan_bounds (a.motorPSC.getD false) a.ducted H.usual h95 hpos H.comparable
  obtain ⟨x, hQ, hx0, hx1⟩ := hM.grossHeat 2 ((ratedHeating u a .varSpeed q95 / 0.908 * 0.272 + ratedHeating u a .varSpeed q95) / 2) rfl
  have hfan := usual_fan H.usual
  have hQ0 : (ratedHeating u a .varSpeed q95 / 0.908 * 0.272 + ratedHeating u a .varSpeed q95) / 2 - x ≠ 0 := by
    have : 0 < (ratedHeating u a .varSpeed q95 / 0.908 * 0.272 + ratedHeating u a .varSpeed q95) / 2 := by positivity
    nlinarith
  have key := C96_variable_hspf hB hM.staging (fun d hd => by rw [H.tables] at hd; cases hd) h.charge hS.standard hS.cutIn hS.cd.1 hS.cd.2 f2 f6 hQ hQ0 hST (by norm_num) h.outdoor hS.outdoor.1 hS.outdoor.2.1
    hS.outdoor.2.2.1 hS.outdoor.2.2.2.1 hS.outdoor.2.2.2.2 (by rw [hM.tables]; exact hF 1 (by norm_num) (by norm_num)) (by rw [hM.tables]; exact hF 2 (by norm_num) (by norm_num)) f1 f3 f4 f5 hr hf
  have e95 : (varCurves u.btuh q95 (a.seer.getD 0) eer2 (ratedHeating u a .varSpeed q95) a.heating17 (a.hspf.getD 0) (lowestTemperature a .varSpeed) none none a.netHeatingCop 2).coolingCapacity (frF 95) = q95 := ends_cooling.2
  simp only at key
  rw [e95, variable_tests _ _ _ _ _ _ _ hmn, hoff] at key
  have TB : TestBounds (ratedHeating u a .varSpeed q95) (varHeating17 (ratedHeating u a .varSpeed q95) a.heating17) (heatingCop (a.hspf.getD 0) a.netHeatingCop) _ _ _ _ :=
    ⟨hpos, c1, c2, hS.cop, H.heating.cop_le, g1, g2, g3, g4.1, g4.2⟩
  have hx : 0 < ratedHeating u a .varSpeed q95 / heatingCop (a.hspf.getD 0) a.netHeatingCop := div_pos hpos H.heating.cop_pos
  obtain ⟨l1, l2⟩ := region_load_variable hr (q := variableCooling (a.motorPSC.getD false) a.ducted u.ton q95 (ratedHeating u a .varSpeed q95)) (by unfold variableCooling; linarith)
  have hVC : 0.9785 * q95 ≤ variableCooling (a.motorPSC.getD false) a.ducted u.ton q95 (ratedHeating u a .varSpeed q95) := by unfold variableCooling; linarith
  obtain ⟨r1, -, r2, r3, ⟨n, r4, r5⟩, r6, -⟩ := region_2023 hr
  have hfull : 0 < cv * variableCooling (a.motorPSC.getD false) a.ducted u.ton q95 (ratedHeating u a .varSpeed q95) := mul_pos r2 (by linarith)
  have hpos' := fun t ht => variable_pos (b := a.defrost.inDefrost (frF 35)) TB (off := toF (lowestTemperature a .varSpeed)) hS.cd.1 hS.cd.2 l1 (fun t h12 => by have := l2 t h12; linarith) (t := t) ht
    (heatBuildingLoad_nonneg r1 hfull.le)
  obtain ⟨k1, -, -, k4⟩ := full_35 (b := a.defrost.inDefrost (frF 35)) TB
  refine key (by unfold variableCooling at hVC; linarith) ?_ ?_ (fun t ht => ?_) ?_
  · rw [(low_const TB 35).1]; intro hc; rw [hc] at k1; linarith
  · rw [(low_const TB 35).2]; intro hc; rw [hc] at k4; linarith
  · obtain ⟨s1, s2⟩ := season_range t ht
    refine ⟨?_, ?_, (mid_pos TB s1 s2).2.ne', (full_pos TB t ht).ne', fun i1 i2 => (cop_pos TB ht i1 i2).ne'⟩
    · rw [(low_const TB t).1]; positivity
    · rw [(low_const TB t).2]; positivity
  · rw [← total_add]
    refine (total_pos (fun b hb => ⟨(hpos' b.1 (List.of_mem_zip hb).1).1, r3 _ (List.of_mem_zip hb).2⟩) r4 ?_ r5).ne'
    exact (hpos' 52 (List.of_mem_zip r4).1).2 (by norm_num) (heatBuildingLoad_pos r1 hfull r6)

end Resdx.Build

namespace Resdx.Sample

open Spec Tabular BaseModel Props ResnetFan Fan Table Build DX

/-- A variable-speed unit of any capacity and of a COP in the range, with a constant-torque motor. -/
noncomputable def varSizes (q κ : ℝ) : Args := { varArgs with cooling := .num q, heating := some q, heating17 := none, netHeatingCop := some κ, cop82 := none, ratio95 := none }

theorem varSizes_cold (q κ : ℝ) : lowestTemperature (varSizes q κ) .varSpeed = frF (-20) := by simp [lowestTemperature, varSizes, varArgs]

theorem varSizes_usual {q κ : ℝ} (hq : 0 < q) (h1 : 2.1 ≤ κ) (h2 : κ ≤ 5) : UsualVariable units (varSizes q κ) q 12 where
  usual := usualUnits
  tables := rfl
  staging := rfl
  cooling := rfl
  size := hq
  seer := rfl
  eer := rfl
  eer_pos := by norm_num
  eer_le := by norm_num
  ratio := by norm_num [varSizes, varArgs]
  defaults := ⟨rfl, rfl⟩
  hspf := .inl rfl
  comparable := by norm_num [Comparable, ratedHeating, varSizes]; nlinarith
  hottest := off125
  heating := ⟨hq, by norm_num [varHeating17, ratedHeating, varSizes]; linarith, by simp only [heatingCop, varSizes, Option.getD]; linarith, h2, by rw [varSizes_cold], by rw [varSizes_cold, frF_lt]; norm_num⟩

theorem varSizes_season {q κ : ℝ} (hq : 0 < q) (h1 : 2.1 ≤ κ) : VariableSeason units env (varSizes q κ) q where
  standard := rfl
  cutIn := rfl
  cd := by norm_num [Build.cd, varSizes, varArgs]
  cold := by norm_num [varHeating17, ratedHeating, varSizes]; linarith
  cold_le := by norm_num [varHeating17, ratedHeating, varSizes]; linarith
  warm := by norm_num [varHeating17, ratedHeating, varSizes]; linarith
  cop := h1
  outdoor := ⟨outdoorAir _, outdoorAir _, outdoorAir _, outdoorAir _, outdoorAir _⟩

theorem varSizes_surroundings {brentq : Brentq} (hbr : BrentqSpec brentq) {q κ : ℝ} (hq : 0 < q) : Surroundings units env tools brentq (varSizes q κ) .varSpeed (variableSizes units (varSizes q κ) q 12) :=
  surroundings hbr rfl rfl rfl rfl rfl (by
    intro x hx
    simp only [variableSizes, List.mem_cons, List.not_mem_nil, or_false] at hx
    have hr : 0 < (varCooling units.btuh q ((varSizes q κ).seer.getD 0) 12 none none).ratio := lt_of_lt_of_le (by norm_num) (le_max_left _ _)
    rcases hx with rfl | rfl | rfl | rfl <;> positivity)

/-- The hypotheses of `C96_variable_ratings` hold for these units: their HSPF2 in region 4. -/
example {brentq : Brentq} (hbr : BrentqSpec brentq) {q κ : ℝ} (hq : 0 < q) (h1 : 2.1 ≤ κ) (h2 : κ ≤ 5) : ∃ B v, build units env tools brentq (varSizes q κ) = .ok B ∧ B.hspf units env tools brentq 4 = .ok v := by
  obtain ⟨B, hB, -, h⟩ := C96_variable_ratings (varSizes_usual hq h1 h2) (varSizes_season hq h1) (varSizes_surroundings hbr hq)
  exact ⟨B, _, hB, h rfl (f := 1) rfl⟩

end Resdx.Sample
