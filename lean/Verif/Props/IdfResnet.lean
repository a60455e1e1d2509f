import Verif.Lemmas.IdfResnet
import Verif.Props.Idf

/-! # The EnergyPlus file of a RESNET unit: C113 -/

set_option linter.unusedSectionVars false
set_option linter.unusedSimpArgs false

namespace Resdx.Props

open Spec Spec.Idf BaseModel Fan ResnetFan Tabular Build Idf

variable {u : Units ℝ} {E : Env ℝ} {T : Coil.Tools} {brentq : Brentq} {a : Args} {B : Built} {X : FileContext} {cached : Option ℝ} {fmt : ℝ → Nat → String} {name : Option String}
  {st : SystemType} {autosize normalize : Bool} {objs : List IObj}

/-! ## C113: the file holds the performance map -/

theorem relative (n : Bool) (x y : ℝ) : (if n then x / y else x) = x / if n then y else 1 := by cases n <;> simp

theorem flow_positive {r : ℝ} (h : r ∈ [(0.75 : ℝ), 1, 1.25]) : 0 < coolCapF r ∧ 0 < coolEirF r ∧ 0 < heatCapF r ∧ 0 < heatEirF r := by
  simp only [List.mem_cons, List.not_mem_nil, or_false] at h
  rcases h with rfl | rfl | rfl <;> refine ⟨?_, ?_, ?_, ?_⟩ <;> simp only [coolCapF, coolEirF, heatCapF, heatEirF] <;> norm_num

theorem coolX_positive {x t : ℝ} (ht : t ≤ 125) : 0 < coolCapX x t ∧ 0 < coolEirX x t := by
  obtain ⟨-, -, -, g1, g2⟩ := C74_limits (57 : ℝ) 72 x 0 (by norm_num)
  have hm1 : (75 : ℝ) ≤ max 75 t := le_max_left _ _
  have hm2 : max 75 t ≤ (125 : ℝ) := max_le (by norm_num) ht
  obtain ⟨p1, p2⟩ := C74_cooling_positive (67 : ℝ) _ (by norm_num) (by norm_num) hm1 hm2
  obtain ⟨p3, p4⟩ := C74_cooling_positive _ _ g1 g2 hm1 hm2
  exact ⟨div_pos p3 p1, div_pos p4 p2⟩

theorem coolX_rated {t : ℝ} (ht : t ≤ 125) : coolCapX 67 t = 1 ∧ coolEirX 67 t = 1 := by
  have hm1 : (75 : ℝ) ≤ max 75 t := le_max_left _ _
  have hm2 : max 75 t ≤ (125 : ℝ) := max_le (by norm_num) ht
  obtain ⟨p1, p2⟩ := C74_cooling_positive (67 : ℝ) _ (by norm_num) (by norm_num) hm1 hm2
  have f3 : clip 57 72 (67 : ℝ) = 67 := by unfold clip; norm_num
  simp only [coolCapX, coolEirX, f3]
  exact ⟨div_self p1.ne', div_self p2.ne'⟩

theorem heatX_rated (t : ℝ) : heatCapX 70 t = 1 ∧ heatEirX 70 t = 1 := ⟨div_self (heatCapT_pos t).ne', div_self (heatEirT_pos t).ne'⟩

theorem flow_rated : coolCapF (1 : ℝ) = 1 ∧ coolEirF (1 : ℝ) = 1 ∧ heatCapF (1 : ℝ) = 1 ∧ heatEirF (1 : ℝ) = 1 := by
  refine ⟨?_, ?_, ?_, ?_⟩ <;> simp only [coolCapF, coolEirF, heatCapF, heatEirF] <;> norm_num

theorem cop_cap {U : DX.Performance (Conditions ℝ) ℝ} {c : Conditions ℝ} {e : ℝ} (h : U.grossTotalCoolingCOP (some c) = .ok e) : ∃ q, U.grossTotalCoolingCapacity (some c) = .ok q := by
  simp only [DX.Performance.grossTotalCoolingCOP, bind_eq_ok] at h
  obtain ⟨q, hq, -⟩ := h
  exact ⟨q, hq⟩

/-- C113, cooling: the file of a unit has a group of fields for each compressor speed. The group of the speed with table speed `σ` holds the gross capacity and COP of the unit's own performance
map at 95 °F (net table values with the fan power of the speed), its rated airflow and the names of four tables; the tables hold the map at the outdoor temperatures of the file, times the NREL
curve for the indoor wet bulb relative to 67 °F, and the NREL curves for the airflow. -/
theorem C113_cooling (h : build u E T brentq a = .ok B) (ht : ∀ d, a.tables = some d → RatedTables (tableSpeeds B.core.st) d) (hd : a.chargeDeviation = 0)
    (hpos : ∀ i < speedCount B.core.st, ∃ Q, B.sys.grossCooling[i]? = some (some Q) ∧ 0 < Q)
    (hw : idfObjects fmt name st autosize normalize (B.idf u E T brentq X cached) = .ok objs) :
    ∃ (fan : ℝ → ℝ) (coil : IObj) (groups : List (List IField)), coil ∈ objs ∧ coil.cls = "Coil:Cooling:DX:VariableSpeed" ∧ speedGroups coil 21 groups ∧
      groups.length = speedCount B.core.st ∧ (B.core.st = .varSpeed → fan (3 / 2) = (fan 1 + fan 2) / 2) ∧
      ∀ i σ, TableSpeed B.core.st i σ → (σ ≠ 3 / 2 → B.core.cool.power[i]? = some (some (fan σ))) ∧ ∃ Q P g shr v rho capT capF eirT eirF,
        (∀ t, B.core.net.coolingCapacity σ (frF t) = .ok (Q t - fan σ)) ∧ (∀ t, B.core.net.coolingPower σ (frF t) = .ok (P t + fan σ)) ∧
        groups[speedCount B.core.st - 1 - i]? = some g ∧ B.core.cool.airflow[i]? = some (some v) ∧ (Psych.getRho E.lib (defaultIndoor E false)).1 = .ok rho ∧ 0 < Q 95 ∧ 0 < P 95 ∧
        g.map IField.value = [fmt (Q 95) 1, fmt shr 3, fmt (Q 95 / P 95) 3, fmt (v * E.rhoStd / rho) 4, "", "", capT, capF, eirT, eirF] ∧
        SpeedCurves fmt fToC objs normalize Q P 95 coolCapX coolEirX coolCapF coolEirF [50, 67, 80] [55, 82, 95, 125] [0.75, 1, 1.25] capT capF eirT eirF := by
  obtain ⟨fc, fh, F⟩ := built_facts h ht
  obtain ⟨_, _, _, _, _, _, -, -, -, -, -, -, -, -, hS, -⟩ := build_ok h
  obtain ⟨coil, groups, h1, h2, -, h4, h5, h6⟩ := C64_cooling hw
  refine ⟨fc, coil, groups, h1, h2, h4, h5, fun e => (F.half e).1, fun i σ hσ => ⟨fun h32 => ?_, ?_⟩⟩
  · obtain ⟨_, _, -, -, -, -, M, -⟩ := F.fan
    obtain ⟨_, _, _, w, -, -, -, -, -, hw⟩ := M.rated i (by rw [F.coolCaps.1]; exact tableSpeed_lt hσ)
    rw [F.coolFan i σ w hσ h32 hw, hw]
  have hi := tableSpeed_lt hσ
  obtain ⟨Q0, hQ, hQ0⟩ := hpos i hi
  choose qn hqn hqg using F.gross.coolCap σ
  choose pn hpn hpg using F.gross.coolPow σ
  obtain ⟨q95, p95, _, _, b1, b2, b3, b4, -⟩ := F.pos i σ hσ
  rw [hqg] at b1; rw [hpg] at b3
  cases b1; cases b3
  obtain ⟨g, c, cap, cop, shr, capT, capF, eirT, eirF, e1, -, e2, e3, e4, e5, e6, e7⟩ := h6 (speedCount B.core.st - i) (by omega) (Nat.sub_le _ _)
  have hidx : (B.idf u E T brentq X cached).nCool - (speedCount B.core.st - i) = i := Nat.sub_sub_self hi.le
  rw [hidx] at e2 e7
  rw [show speedCount B.core.st - i - 1 = speedCount B.core.st - 1 - i by omega] at e1
  obtain ⟨c1, c2, c3, c4, c5, v, rho, hv, hrho, c6⟩ := fileCooling_rated e2
  obtain ⟨-, -, s3, -⟩ := sys_ok hS
  rw [s3] at hv
  have cells : ∀ {c : Conditions ℝ} {w r t v : ℝ}, c.flow.compressorSpeed = i → (Psych.getWb c.indoor).1 = .ok (frF w) → c.flow.ratio = some r → r ∈ [(0.75 : ℝ), 1, 1.25] →
      c.outdoor.db = frF t → t ≤ 125 → (B.unit u E T brentq).grossTotalCoolingCapacity (some c) = .ok v → v = (qn (frF t) + fc σ) * (coolCapF r * coolCapX w t) ∧
      ∀ e, (B.unit u E T brentq).grossTotalCoolingCOP (some c) = .ok e → e ≠ 0 → 1 / e = (pn (frF t) - fc σ) / (qn (frF t) + fc σ) * (coolEirF r * coolEirX w t) := by
    intro c w r t v hi hw hr hr' htd ht hv
    obtain ⟨k1, k2, -, -⟩ := flow_positive hr'
    obtain ⟨q, p, j1, j2, j3, j4⟩ := cooling_values F hS hd hσ hQ hQ0 hi hw hr k1 k2 htd ht hv
    rw [hqg] at j1; rw [hpg] at j2
    cases j1; cases j2
    refine ⟨j3, fun e he h0 => ?_⟩
    obtain ⟨j5, j6⟩ := j4 e he
    obtain ⟨x1, x2⟩ := coolX_positive (x := w) ht
    have hq : qn (frF t) + fc σ ≠ 0 := by
      intro hq
      rw [hq] at j5
      exact h0 (by rw [j5]; ring)
    rw [j5]
    generalize qn (frF t) + fc σ = q at *
    generalize pn (frF t) - fc σ = p at *
    field_simp
  have one_mem : (1 : ℝ) ∈ [(0.75 : ℝ), 1, 1.25] := by simp
  have le_125 : ∀ y ∈ [(55 : ℝ), 82, 95, 125], y ≤ 125 := by
    intro y hy
    simp only [List.mem_cons, List.not_mem_nil, or_false] at hy
    rcases hy with rfl | rfl | rfl | rfl <;> norm_num
  obtain ⟨f1, f2, -, -⟩ := flow_rated
  obtain ⟨x1, x2⟩ := coolX_rated (t := 95) (by norm_num)
  obtain ⟨r1, -⟩ := cells c2 c3 c4 one_mem c5 (by norm_num) e3
  rw [f1, x1, one_mul, mul_one] at r1
  have hq95 : (qn (frF 95) + fc σ) ≠ 0 := b2.ne'
  have hp95 : (pn (frF 95) - fc σ) ≠ 0 := b4.ne'
  have hcop : cop = (qn (frF 95) + fc σ) / (pn (frF 95) - fc σ) := by
    obtain ⟨k1, k2, -, -⟩ := flow_positive one_mem
    obtain ⟨q, p, j1, j2, j3, j4⟩ := cooling_values F hS hd hσ hQ hQ0 c2 c3 c4 k1 k2 c5 (by norm_num) e3
    rw [hqg] at j1; rw [hpg] at j2
    cases j1; cases j2
    rw [(j4 cop e4).1, f1, f2, x1, x2]
    simp only [mul_one]
  have hinv : 1 / cop = (pn (frF 95) - fc σ) / (qn (frF 95) + fc σ) := by rw [hcop, one_div_div]
  refine ⟨fun t => qn (frF t) + fc σ, fun t => pn (frF t) - fc σ, g, shr, v, rho, capT, capF, eirT, eirF, fun t => by rw [hqn]; ring_nf, fun t => by rw [hpn]; ring_nf, e1, hv, hrho, b2, b4, ?_, ?_⟩
  · rw [e6, r1, hcop]
    simp only [Built.idf, c6, Option.getD_some]
  · constructor
    · obtain ⟨t, t1, t2, t3⟩ := e7.capT
      refine ⟨t, t1, t2, t3.mono fun x hx y hy s hs => ?_⟩
      obtain ⟨c', q, m1, m2, rfl⟩ := hs
      obtain ⟨z1, z2, z3, z4⟩ := fileCooling_at m1
      rw [(cells z1 z2 z3 one_mem z4 (le_125 y hy) m2).1, f1, one_mul, r1, relative]
    · obtain ⟨t, t1, t2, t3⟩ := e7.capF
      refine ⟨t, t1, t2, t3.mono fun r hr s hs => ?_⟩
      obtain ⟨q, m2, rfl⟩ := hs
      obtain ⟨-, z2, z3, z4, z5⟩ := setRatio_made c1 r
      rw [(cells z5 (by rw [z2]; exact c3) z4 hr (by rw [z3]; exact c5) (by norm_num) m2).1, x1, mul_one, r1, relative]
    · obtain ⟨t, t1, t2, t3⟩ := e7.eirT
      refine ⟨t, t1, t2, t3.mono fun x hx y hy s hs => ?_⟩
      obtain ⟨c', e, m1, m2, m3, rfl⟩ := hs
      obtain ⟨z1, z2, z3, z4⟩ := fileCooling_at m1
      obtain ⟨q, m4⟩ := cop_cap m2
      rw [(cells z1 z2 z3 one_mem z4 (le_125 y hy) m4).2 e m2 m3, f2, one_mul, hinv, relative]
    · obtain ⟨t, t1, t2, t3⟩ := e7.eirF
      refine ⟨t, t1, t2, t3.mono fun r hr s hs => ?_⟩
      obtain ⟨e, m2, m3, rfl⟩ := hs
      obtain ⟨-, z2, z3, z4, z5⟩ := setRatio_made c1 r
      obtain ⟨q, m4⟩ := cop_cap m2
      rw [(cells z5 (by rw [z2]; exact c3) z4 hr (by rw [z3]; exact c5) (by norm_num) m4).2 e m2 m3, x2, mul_one, hinv, relative]

theorem cop_heat {U : DX.Performance (Conditions ℝ) ℝ} {c : Conditions ℝ} {e : ℝ} (h : U.grossSteadyHeatingCOP (some c) = .ok e) : ∃ q, U.grossSteadyHeatingCapacity (some c) = .ok q := by
  simp only [DX.Performance.grossSteadyHeatingCOP, bind_eq_ok] at h
  obtain ⟨q, hq, -⟩ := h
  exact ⟨q, hq⟩

/-- C113, heating: as for cooling, with the map at 47 °F, the cut-out temperature among the outdoor temperatures and indoor dry bulbs relative to 70 °F. -/
theorem C113_heating (h : build u E T brentq a = .ok B) (ht : ∀ d, a.tables = some d → RatedTables (tableSpeeds B.core.st) d) (hd : a.chargeDeviation = 0)
    (hpos : ∀ i < speedCount B.core.st, ∃ Q, B.sys.grossHeating[i]? = some (some Q) ∧ Q ≠ 0)
    (hw : idfObjects fmt name st autosize normalize (B.idf u E T brentq X cached) = .ok objs) :
    ∃ (fan : ℝ → ℝ) (coil : IObj) (groups : List (List IField)), coil ∈ objs ∧ coil.cls = "Coil:Heating:DX:VariableSpeed" ∧ speedGroups coil 18 groups ∧
      groups.length = speedCount B.core.st ∧ (B.core.st = .varSpeed → fan (3 / 2) = (fan 1 + fan 2) / 2) ∧
      ∀ i σ, TableSpeed B.core.st i σ → (σ ≠ 3 / 2 → B.core.heat.power[i]? = some (some (fan σ))) ∧ ∃ Q P g v rho capT capF eirT eirF,
        (∀ t, B.core.net.heatingCapacity σ (frF t) = .ok (Q t + fan σ)) ∧ (∀ t, B.core.net.heatingPower σ (frF t) = .ok (P t + fan σ)) ∧
        groups[speedCount B.core.st - 1 - i]? = some g ∧ B.core.heat.airflow[i]? = some (some v) ∧ (Psych.getRho E.lib (defaultIndoor E true)).1 = .ok rho ∧ 0 < Q 47 ∧ 0 < P 47 ∧
        g.map IField.value = [fmt (Q 47) 2, fmt (Q 47 / P 47) 3, fmt (v * E.rhoStd / rho) 2, capT, capF, eirT, eirF] ∧
        SpeedCurves fmt fToC objs normalize Q P 47 heatCapX heatEirX heatCapF heatEirF [60, 70, 80] [toF B.heatingOff, 5, 17, 47, 60] [0.75, 1, 1.25] capT capF eirT eirF := by
  obtain ⟨fc, fh, F⟩ := built_facts h ht
  obtain ⟨_, _, _, _, _, _, -, -, -, -, -, -, -, -, hS, -⟩ := build_ok h
  obtain ⟨coil, groups, h1, h2, -, h4, h5, h6⟩ := C64_heating hw
  refine ⟨fh, coil, groups, h1, h2, h4, h5, fun e => (F.half e).2, fun i σ hσ => ⟨fun h32 => ?_, ?_⟩⟩
  · obtain ⟨_, _, -, -, -, -, -, M⟩ := F.fan
    obtain ⟨_, _, _, w, -, -, -, -, -, hw⟩ := M.rated i (by rw [F.heatCaps.1]; exact tableSpeed_lt hσ)
    rw [F.heatFan i σ w hσ h32 hw, hw]
  have hi := tableSpeed_lt hσ
  obtain ⟨Q0, hQ, hQ0⟩ := hpos i hi
  choose qn hqn hqg using F.gross.heatCap σ
  choose pn hpn hpg using F.gross.heatPow σ
  obtain ⟨_, _, q47, p47, -, -, -, -, b1, b2, b3, b4⟩ := F.pos i σ hσ
  rw [hqg] at b1; rw [hpg] at b3
  cases b1; cases b3
  obtain ⟨g, c, cap, cop, capT, capF, eirT, eirF, e1, -, e2, e3, e4, e6, e7⟩ := h6 (speedCount B.core.st - i) (by omega) (Nat.sub_le _ _)
  have hidx : (B.idf u E T brentq X cached).nHeat - (speedCount B.core.st - i) = i := Nat.sub_sub_self hi.le
  rw [hidx] at e2 e7
  rw [show speedCount B.core.st - i - 1 = speedCount B.core.st - 1 - i by omega] at e1
  obtain ⟨c1, c2, c3, c4, c5, v, rho, hv, hrho, c6⟩ := fileHeating_rated e2
  obtain ⟨-, -, -, s3, -⟩ := sys_ok hS
  rw [s3] at hv
  have cells : ∀ {c : Conditions ℝ} {x r t v : ℝ}, c.flow.compressorSpeed = i → c.indoor.db = frF x → x ∈ [(60 : ℝ), 70, 80] → c.flow.ratio = some r → r ∈ [(0.75 : ℝ), 1, 1.25] →
      c.outdoor.db = frF t → (B.unit u E T brentq).grossSteadyHeatingCapacity (some c) = .ok v → v = (qn (frF t) - fh σ) * (heatCapF r * heatCapX x t) ∧
      ∀ e, (B.unit u E T brentq).grossSteadyHeatingCOP (some c) = .ok e → e ≠ 0 → 1 / e = (pn (frF t) - fh σ) / (qn (frF t) - fh σ) * (heatEirF r * heatEirX x t) := by
    intro c x r t v hi hx hx' hr hr' htd hv
    obtain ⟨-, -, k1, k2⟩ := flow_positive hr'
    obtain ⟨q, p, j1, j2, j3, j4⟩ := heating_values F hS hd hσ hQ hQ0 hi hx hr htd hv
    rw [hqg] at j1; rw [hpg] at j2
    cases j1; cases j2
    refine ⟨j3, fun e he h0 => ?_⟩
    obtain ⟨j5, j6⟩ := j4 e he
    have hb : 60 ≤ x ∧ x ≤ 80 := by
      simp only [List.mem_cons, List.not_mem_nil, or_false] at hx'
      rcases hx' with rfl | rfl | rfl <;> norm_num
    have x1 : 0 < heatCapX x t := div_pos (heatCapT_ne hb.1 hb.2 t) (heatCapT_pos t)
    have x2 : 0 < heatEirX x t := div_pos (heatEirT_ne hb.1 hb.2 t) (heatEirT_pos t)
    have hq : qn (frF t) - fh σ ≠ 0 := by
      intro hq
      rw [hq] at j5
      exact h0 (by rw [j5]; ring)
    rw [j5]
    generalize qn (frF t) - fh σ = q at *
    generalize pn (frF t) - fh σ = p at *
    field_simp
  have one_mem : (1 : ℝ) ∈ [(0.75 : ℝ), 1, 1.25] := by simp
  have in_mem : (70 : ℝ) ∈ [(60 : ℝ), 70, 80] := by simp
  obtain ⟨-, -, f1, f2⟩ := flow_rated
  obtain ⟨x1, x2⟩ := heatX_rated 47
  obtain ⟨r1, -⟩ := cells c2 c3 in_mem c4 one_mem c5 e3
  rw [f1, x1, one_mul, mul_one] at r1
  have hq47 : (qn (frF 47) - fh σ) ≠ 0 := b2.ne'
  have hp47 : (pn (frF 47) - fh σ) ≠ 0 := b4.ne'
  have hcop : cop = (qn (frF 47) - fh σ) / (pn (frF 47) - fh σ) := by
    obtain ⟨q, p, j1, j2, j3, j4⟩ := heating_values F hS hd hσ hQ hQ0 c2 c3 c4 c5 e3
    rw [hqg] at j1; rw [hpg] at j2
    cases j1; cases j2
    rw [(j4 cop e4).1, f1, f2, x1, x2]
    simp only [mul_one]
  have hinv : 1 / cop = (pn (frF 47) - fh σ) / (qn (frF 47) - fh σ) := by rw [hcop, one_div_div]
  refine ⟨fun t => qn (frF t) - fh σ, fun t => pn (frF t) - fh σ, g, v, rho, capT, capF, eirT, eirF, fun t => by rw [hqn]; ring_nf, fun t => by rw [hpn]; ring_nf, e1, hv, hrho, b2, b4, ?_, ?_⟩
  · rw [e6, r1, hcop]
    simp only [Built.idf, c6, Option.getD_some]
  · constructor
    · obtain ⟨t, t1, t2, t3⟩ := e7.capT
      refine ⟨t, t1, t2, t3.mono fun x hx y hy s hs => ?_⟩
      obtain ⟨c', q, m1, m2, rfl⟩ := hs
      obtain ⟨z1, z2, z3, z4⟩ := fileHeating_at m1
      rw [(cells z1 z2 hx z3 one_mem z4 m2).1, f1, one_mul, r1, relative]
    · obtain ⟨t, t1, t2, t3⟩ := e7.capF
      refine ⟨t, t1, t2, t3.mono fun r hr s hs => ?_⟩
      obtain ⟨q, m2, rfl⟩ := hs
      obtain ⟨-, z2, z3, z4, z5⟩ := setRatio_made c1 r
      rw [(cells z5 (by rw [z2]; exact c3) in_mem z4 hr (by rw [z3]; exact c5) m2).1, x1, mul_one, r1, relative]
    · obtain ⟨t, t1, t2, t3⟩ := e7.eirT
      refine ⟨t, t1, t2, t3.mono fun x hx y hy s hs => ?_⟩
      obtain ⟨c', e, m1, m2, m3, rfl⟩ := hs
      obtain ⟨z1, z2, z3, z4⟩ := fileHeating_at m1
      obtain ⟨q, m4⟩ := cop_heat m2
      rw [(cells z1 z2 hx z3 one_mem z4 m4).2 e m2 m3, f2, one_mul, hinv, relative]
    · obtain ⟨t, t1, t2, t3⟩ := e7.eirF
      refine ⟨t, t1, t2, t3.mono fun r hr s hs => ?_⟩
      obtain ⟨e, m2, m3, rfl⟩ := hs
      obtain ⟨-, z2, z3, z4, z5⟩ := setRatio_made c1 r
      obtain ⟨q, m4⟩ := cop_heat m2
      rw [(cells z5 (by rw [z2]; exact c3) in_mem z4 hr (by rw [z3]; exact c5) m4).2 e m2 m3, x2, mul_one, hinv, relative]

/-- C113: at the rated indoor temperatures the indoor factors are 1, and so are the airflow factors at the rated airflow: there the file holds the performance map itself. -/
theorem C113_rated (t : ℝ) : (t ≤ 125 → coolCapX 67 t = 1 ∧ coolEirX 67 t = 1) ∧ heatCapX 70 t = 1 ∧ heatEirX 70 t = 1 ∧ coolCapF (1 : ℝ) = 1 ∧ coolEirF (1 : ℝ) = 1 ∧ heatCapF (1 : ℝ) = 1 ∧
    heatEirF (1 : ℝ) = 1 := ⟨coolX_rated, (heatX_rated t).1, (heatX_rated t).2, flow_rated⟩

end Resdx.Props
