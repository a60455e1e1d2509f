import Verif.Lemmas.ResnetSeason
import Verif.Props.RatingSolver

/-!
# C96: the tests and the heating season of constructed RESNET units
-/

set_option linter.unusedSectionVars false
set_option linter.unusedSimpArgs false

namespace Resdx.Build

open Spec Tabular BaseModel Props ResnetFan Fan Table DX

variable {u : Units ℝ} {E : Env ℝ} {T : Coil.Tools} {brentq : Brentq} {a : Args} {B : Built}

/-! ## The tests -/

/-- C96: net heating at rated indoor conditions and airflow, at any outdoor temperature and any speed with its own table column. The steady-state values are those of the net tables. The integrated
values are the same unless the unit defrosts at the temperature; then all but the fan's part is less by 1.8 times (capacity) or 0.3 times (power) the frost share. -/
theorem C96_integrated (h : build u E T brentq a = .ok B) (ht : ∀ d, a.tables = some d → RatedTables (tableSpeeds B.core.st) d) (hd : a.chargeDeviation = 0)
    {i : Nat} {σ : ℝ} (hσ : TableSpeed B.core.st i σ) (h32 : σ ≠ 3 / 2) (hfan : SameFan B.core B.core.rh B.core.heat i)
    {o : Psych.PsychState ℝ} (hr : Outdoor E o.db) {c : Conditions ℝ} (hc : B.sys.makeCondition E true i none (some o) = .ok c) :
    ∃ q p w, B.core.net.heatingCapacity σ o.db = .ok q ∧ B.core.net.heatingPower σ o.db = .ok p ∧ B.core.heat.power[i]? = some (some w) ∧
      (B.unit u E T brentq).netSteadyHeatingCapacity (some c) = .ok q ∧ (B.unit u E T brentq).netSteadyHeatingPower (some c) = .ok p ∧
      (B.unit u E T brentq).netIntegratedHeatingCapacity (some c) = .ok (frosted (a.defrost.inDefrost o.db) (1.8 * frostShare (toF o.db)) w q) ∧
      (B.unit u E T brentq).netIntegratedHeatingPower (some c) = .ok (frosted (a.defrost.inDefrost o.db) (0.3 * frostShare (toF o.db)) w p) := by
  obtain ⟨fc, fh, F⟩ := built_facts h ht
  obtain ⟨_, _, _, _, _, _, -, -, -, -, -, -, -, -, hS, -⟩ := build_ok h
  obtain ⟨q, hq, hq'⟩ := F.gross.heatCap σ o.db
  obtain ⟨p, hp, hp'⟩ := F.gross.heatPow σ o.db
  obtain ⟨Q, hQ, hQ0⟩ := rated_heating F hS hσ h32
  obtain ⟨r, hr⟩ := hr
  obtain ⟨g1, g2⟩ := gross_heating F hS hσ hQ hQ0.ne' hr hc
  obtain ⟨-, -, -, s4, -, s6, s7, -, -, -, -, s12, s13⟩ := sys_ok hS
  obtain ⟨ac, ah, -, -, -, A4, -, M⟩ := F.fan
  obtain ⟨w, hw, hw'⟩ := fanPower_cond hc (by simpa using s4) (by simpa using s6) s7 M (by rw [F.heatCaps.1]; exact tableSpeed_lt hσ) (by
    rcases hfan with h | h | ⟨d, h1, h2⟩
    · exact .inl h
    · exact .inr (.inl h)
    · rw [A4] at h1; cases h1; exact .inr (.inr h2))
  have hf := F.heatFan i σ w hσ h32 hw
  obtain ⟨n1, n2⟩ := unit_heating (u := u) (T := T) (P := B.points) (ntu := B.coil.ntu) (by rw [s12, hd]) (g1.trans hq') (g2.trans hp') hw'
  obtain ⟨n3, n4⟩ := unit_integrated (u := u) (T := T) (P := B.points) (ntu := B.coil.ntu) (by rw [s12, hd]) (g1.trans hq') (g2.trans hp') hw'
  rw [hf] at n1 n2 n3 n4
  rw [makeCondition_outdoor hc, s13] at n3 n4
  rw [show q - w + w = q by ring] at n1 n3
  rw [show p - w + w = p by ring] at n2 n4
  exact ⟨q, p, w, hq, hp, hw, n1, n2, n3, n4⟩

theorem frost35 : (1.8 * frostShare 35 : ℝ) = 0.0522 ∧ (0.3 * frostShare 35 : ℝ) = 0.0087 := by
  unfold frostShare; norm_num

/-- C96: what the full-speed heating tests of a constructed unit give, for every staging type: the values of the full-speed curves of its tables, at 35 °F reduced by frost. -/
theorem C96_full_tests (h : build u E T brentq a = .ok B) (ht : ∀ d, a.tables = some d → RatedTables (tableSpeeds B.core.st) d) (hd : a.chargeDeviation = 0)
    (hfan : SameFan B.core B.core.rh B.core.heat B.core.rh.full) (h47 : Outdoor E (frF 47)) (h35 : Outdoor E (frF 35)) (h17 : Outdoor E (frF 17))
    {c : Curves ℝ} (hc : Follows B.core.net (if B.core.st = .single then 1 else 2) c) :
    ∃ w, B.core.heat.power[B.core.rh.full]? = some (some w) ∧
      HeatMatch (B.unit u E T brentq) B.points (c.heatTests (a.defrost.inDefrost (frF 35)) w) := by
  obtain ⟨st0, q47, nC, nH, b2, b3, b4, b6, b7, b8, b9, b10⟩ := build_steps h
  obtain ⟨-, -, p1, p3⟩ := full_points b10
  obtain ⟨p2, -⟩ := frost_points b10
  have hσ : TableSpeed B.core.st B.core.rh.full (fullTable B.core.st) := by rw [b7]; exact full_table _ _
  have e : ((if B.core.st = .single then 1 else 2 : Int) : ℝ) = fullTable B.core.st := by unfold fullTable; split <;> norm_num
  unfold Follows at hc
  rw [e] at hc
  obtain ⟨_, _, w, x1, x2, x3, x4, x5, -⟩ := C96_integrated h ht hd hσ (fullTable_ne _) hfan (o := defaultOutdoor E true) h47 p1
  obtain ⟨_, _, w2, y1, y2, y3, -, -, y4, y5⟩ := C96_integrated h ht hd hσ (fullTable_ne _) hfan (o := wetState E.atm (frF 35) (frF 33)) h35 p2
  obtain ⟨_, _, w3, z1, z2, z3, z4, z5, -⟩ := C96_integrated h ht hd hσ (fullTable_ne _) hfan (o := wetState E.atm (frF 17) (frF 15)) h17 p3
  have d1 : (defaultOutdoor E true).db = frF 47 := rfl
  have d2 : (wetState E.atm (frF 35) (frF 33)).db = frF 35 := rfl
  have d3 : (wetState E.atm (frF 17) (frF 15)).db = frF 17 := rfl
  rw [d1] at x1 x2
  rw [d2] at y1 y2 y4 y5
  rw [d3] at z1 z2
  rw [x3] at y3; cases y3
  cases x1.symm.trans (hc (frF 47)).2.2.1
  cases x2.symm.trans (hc (frF 47)).2.2.2
  cases y1.symm.trans (hc (frF 35)).2.2.1
  cases y2.symm.trans (hc (frF 35)).2.2.2
  cases z1.symm.trans (hc (frF 17)).2.2.1
  cases z2.symm.trans (hc (frF 17)).2.2.2
  rw [toF_frF, frost35.1] at y4
  rw [toF_frF, frost35.2] at y5
  refine ⟨w, x3, ⟨x4, x5, y4, y5, z4, z5, ?_, ?_, ?_⟩⟩
  · show B.points.h1Full.outdoor.db = _; rw [makeCondition_outdoor p1]; rfl
  · show B.points.h2Full.outdoor.db = _; rw [makeCondition_outdoor p2]; rfl
  · show B.points.h3Full.outdoor.db = _; rw [makeCondition_outdoor p3]; rfl

theorem low_table {st : Staging} {r : Roles} {j : Nat} (hst : st ≠ .single) (h : (modelRoles st r).low = some j) : TableSpeed st j 1 ∧ j ≠ (modelRoles st r).full := by
  cases st with
  | single => exact absurd rfl hst
  | two => cases h; exact ⟨.inr ⟨rfl, rfl⟩, by show (1 : Nat) ≠ 0; decide⟩
  | varSpeed => cases h; exact ⟨.inr (.inr (.inr ⟨rfl, rfl⟩)), by show (3 : Nat) ≠ 1; decide⟩

/-- C96: the low-speed heating tests of a two-stage or variable-speed unit, from the curves of its lowest speed. -/
theorem C96_low_tests (h : build u E T brentq a = .ok B) (hst : B.core.st ≠ .single) (ht : ∀ d, a.tables = some d → RatedTables (tableSpeeds B.core.st) d) (hd : a.chargeDeviation = 0)
    (h62 : Outdoor E (frF 62)) (h47 : Outdoor E (frF 47)) (h35 : Outdoor E (frF 35)) (h17 : Outdoor E (frF 17)) {c : Curves ℝ} (hc : Follows B.core.net 1 c) :
    ∃ j w, B.core.rh.low = some j ∧ B.core.heat.power[j]? = some (some w) ∧
      HeatLowTwoMatch (B.unit u E T brentq) B.points (c.lowHeatTests (a.defrost.inDefrost (frF 35)) w) := by
  obtain ⟨st0, q47, nC, nH, b2, b3, b4, b6, b7, b8, b9, b10⟩ := build_steps h
  obtain ⟨i, j, b, f, c0, c1, c2, c3, -, hj, -, -, e0, e1, e2, e3, -, -, p0, p1, p2, p3⟩ := low_points b10 hst
  obtain ⟨hσ, hjf⟩ : TableSpeed B.core.st j 1 ∧ j ≠ B.core.rh.full := by rw [b7] at hj ⊢; exact low_table hst hj
  have hfan : SameFan B.core B.core.rh B.core.heat j := .inr (.inl hjf)
  unfold Follows at hc
  rw [Int.cast_one] at hc
  obtain ⟨_, _, w0, v1, v2, v3, v4, v5, -⟩ := C96_integrated h ht hd hσ (by norm_num) hfan (o := wetState E.atm (frF 62) (frF 56.5)) h62 p0
  obtain ⟨_, _, w, x1, x2, x3, x4, x5, -⟩ := C96_integrated h ht hd hσ (by norm_num) hfan (o := defaultOutdoor E true) h47 p1
  obtain ⟨_, _, w2, y1, y2, y3, -, -, y4, y5⟩ := C96_integrated h ht hd hσ (by norm_num) hfan (o := wetState E.atm (frF 35) (frF 33)) h35 p2
  obtain ⟨_, _, w3, z1, z2, z3, z4, z5, -⟩ := C96_integrated h ht hd hσ (by norm_num) hfan (o := wetState E.atm (frF 17) (frF 15)) h17 p3
  have d0 : (wetState E.atm (frF 62) (frF 56.5)).db = frF 62 := rfl
  have d1 : (defaultOutdoor E true).db = frF 47 := rfl
  have d2 : (wetState E.atm (frF 35) (frF 33)).db = frF 35 := rfl
  have d3 : (wetState E.atm (frF 17) (frF 15)).db = frF 17 := rfl
  rw [d0] at v1 v2
  rw [d1] at x1 x2
  rw [d2] at y1 y2 y4 y5
  rw [d3] at z1 z2
  rw [x3] at y3; cases y3
  cases v1.symm.trans (hc (frF 62)).2.2.1
  cases v2.symm.trans (hc (frF 62)).2.2.2
  cases x1.symm.trans (hc (frF 47)).2.2.1
  cases x2.symm.trans (hc (frF 47)).2.2.2
  cases y1.symm.trans (hc (frF 35)).2.2.1
  cases y2.symm.trans (hc (frF 35)).2.2.2
  cases z1.symm.trans (hc (frF 17)).2.2.1
  cases z2.symm.trans (hc (frF 17)).2.2.2
  rw [toF_frF, frost35.1] at y4
  rw [toF_frF, frost35.2] at y5
  refine ⟨j, w, hj, x3, ⟨⟨⟨c0, e0, v4, v5, ?_⟩, ⟨c1, e1, x4, x5, ?_⟩⟩, ⟨c2, e2, y4, y5, ?_⟩, ⟨c3, e3, z4, z5, ?_⟩⟩⟩
  · show c0.outdoor.db = _; rw [makeCondition_outdoor p0]; rfl
  · show c1.outdoor.db = _; rw [makeCondition_outdoor p1]; rfl
  · show c2.outdoor.db = _; rw [makeCondition_outdoor p2]; rfl
  · show c3.outdoor.db = _; rw [makeCondition_outdoor p3]; rfl

/-! ## The season of a single-stage unit -/

theorem total_frF (f : ℝ → ℝ) (l h : List ℝ) : CoolTests.total f ((l.map frF).zip h) = CoolTests.total (fun t => f (frF t)) (l.zip h) := by
  unfold CoolTests.total
  rw [List.zip_map_left, List.map_map]
  rfl

theorem total_scale (f : ℝ → ℝ) (l h : List ℝ) (k : ℝ) : CoolTests.total f (l.zip (h.map (· / k))) = CoolTests.total f (l.zip h) / k := by
  unfold CoolTests.total
  rw [List.zip_map_right, List.map_map, div_eq_mul_inv, ← List.sum_map_mul_right]
  congr 1
  exact List.map_congr_left fun b _ => by simp only [Function.comp_def, Prod.map, id]; ring

theorem total_nonneg {f : ℝ → ℝ} {bins : List (ℝ × ℝ)} (h : ∀ b ∈ bins, 0 ≤ f b.1 ∧ 0 ≤ b.2) : 0 ≤ CoolTests.total f bins := by
  refine List.sum_nonneg fun x hx => ?_
  obtain ⟨b, hb, rfl⟩ := List.mem_map.1 hx
  exact mul_nonneg (h b hb).1 (h b hb).2

theorem total_pos {f : ℝ → ℝ} {bins : List (ℝ × ℝ)} (h : ∀ b ∈ bins, 0 ≤ f b.1 ∧ 0 ≤ b.2) {b : ℝ × ℝ} (hb : b ∈ bins) (h1 : 0 < f b.1) (h2 : 0 < b.2) : 0 < CoolTests.total f bins := by
  obtain ⟨l, r, rfl⟩ := List.append_of_mem hb
  have e : CoolTests.total f (l ++ b :: r) = CoolTests.total f l + (f b.1 * b.2 + CoolTests.total f r) := by simp [CoolTests.total]
  rw [e]
  have g1 := total_nonneg (f := f) (bins := l) fun x hx => h x (by simp [hx])
  have g2 := total_nonneg (f := f) (bins := r) fun x hx => h x (by simp [hx])
  have := mul_pos h1 h2
  linarith

theorem total_add (f g : ℝ → ℝ) (bins : List (ℝ × ℝ)) : CoolTests.total (fun t => f t + g t) bins = CoolTests.total f bins + CoolTests.total g bins := by
  unfold CoolTests.total
  rw [← List.sum_map_add]
  congr 1
  exact List.map_congr_left fun b _ => by ring

theorem season_temperatures : (heatingTemperatures : List ℝ) = seasonTemperatures.map frF := C55_heating_temperatures

/-- In each bin the energy used is not negative, and positive if there is a load. -/
theorem one_stage_pos {T : HeatTests ℝ} {cd off t l : ℝ} (hcd : 0 ≤ cd) (hcd1 : cd < 1) (hp : 0 < T.p t) (hl : 0 ≤ l) :
    0 ≤ runFraction off off t (T.q t / T.p t) * oneStageRate cd (T.q t) (T.p t) l + (l - runFraction off off t (T.q t / T.p t) * min l (T.q t)) ∧
      (0 < l → 0 < runFraction off off t (T.q t / T.p t) * oneStageRate cd (T.q t) (T.p t) l + (l - runFraction off off t (T.q t / T.p t) * min l (T.q t))) := by
  unfold runFraction
  split
  · simp only [zero_mul, zero_add, sub_zero]; exact ⟨hl, id⟩
  · rename_i hn
    push Not at hn
    rw [if_pos hn.1]
    have hq : 0 < T.q t := lt_of_lt_of_le hp ((one_le_div hp).1 hn.2)
    have hm : 0 ≤ l - min l (T.q t) := sub_nonneg.2 (min_le_left _ _)
    simp only [one_mul]
    unfold oneStageRate
    split
    · rename_i hlt
      unfold cyclingRate
      have h1 : l / T.q t < 1 := (div_lt_one hq).2 hlt
      have h2 : 0 ≤ l / T.q t := div_nonneg hl hq.le
      have h3 : 0 < 1 - cd * (1 - l / T.q t) := by nlinarith
      constructor
      · have : 0 ≤ l / T.q t * T.p t / (1 - cd * (1 - l / T.q t)) := div_nonneg (mul_nonneg h2 hp.le) h3.le
        linarith
      · intro h0
        have : 0 < l / T.q t * T.p t / (1 - cd * (1 - l / T.q t)) := div_pos (mul_pos (div_pos h0 hq) hp) h3
        linarith
    · exact ⟨by linarith, fun _ => by linarith⟩

theorem runFraction_F (off on t cop : ℝ) : runFraction off on (frF t) cop = runFraction (toF off) (toF on) t cop := by
  unfold runFraction
  have e1 : frF t ≤ off ↔ t ≤ toF off := by conv_lhs => rw [← frF_toF off, frF_le]
  have e2 : on < frF t ↔ toF on < t := by conv_lhs => rw [← frF_toF on, frF_lt]
  simp only [e1, e2]

/-- The season of a single-stage unit without cut-in temperature, for a load given in °F and unscaled hours. -/
theorem one_stage_season {C : Type} {U : DX.Performance C ℝ} {P : DX.Points C} {T : HeatTests ℝ} (hT : HeatMatch U P T) {u : Units ℝ} {std : RatingStandard} {s : HeatSettings ℝ} {d : HeatDist ℝ} {f k : ℝ}
    {hours : List ℝ} (hs : s.st = .single) (hon : s.on = some s.off) (hcd : 0 ≤ s.cd) (hcd1 : s.cd < 1) (hp : ∀ t ∈ (seasonTemperatures : List ℝ), 0 < T.p t) (hd : d.hours = hours.map (· / k)) (hk : 0 < k)
    (hh : ∀ n ∈ hours, 0 ≤ n) {load : ℝ → ℝ} (hload : ∀ t, 0 ≤ load t) (hL : ∃ L, heatingLoad U P u s.st std d = .ok L ∧ ∀ t, L (frF t) = .ok (load t))
    {t n : ℝ} (hb : (t, n) ∈ seasonTemperatures.zip hours) (hn : 0 < n) (hl : 0 < load t) :
    hspfWith U P u std s d (.ok f) = .ok (T.oneStageSeason s.cd (toF s.off) load (seasonTemperatures.zip hours) * f / u.btuh) := by
  obtain ⟨L, hL, hL'⟩ := hL
  have e0 : (heatingTemperatures : List ℝ).zip d.hours = (seasonTemperatures.map frF).zip (hours.map (· / k)) := by rw [season_temperatures, hd]
  have red : ∀ g : ℝ → ℝ, CoolTests.total (fun t => g (toF t)) (heatingTemperatures.zip d.hours) = CoolTests.total g (seasonTemperatures.zip hours) / k := by
    intro g
    rw [e0, total_frF, total_scale]
    simp only [toF_frF]
  have hpos : 0 < CoolTests.total (T.oneStageEnergy s.cd (toF s.off) load) (seasonTemperatures.zip hours) + CoolTests.total (T.oneStageResistance (toF s.off) load) (seasonTemperatures.zip hours) := by
    rw [← total_add]
    refine total_pos (fun b hb => ⟨?_, hh _ (List.of_mem_zip hb).2⟩) hb ?_ hn
    · exact (one_stage_pos hcd hcd1 (hp _ (List.of_mem_zip hb).1) (hload _)).1
    · exact (one_stage_pos hcd hcd1 (hp _ (List.of_mem_zip hb).1) (hload _)).2 hl
  have main := C50_single_hspf hT (u := u) (std := std) (d := d) (f := f) hs hon hcd hcd1 (fun t ht => by
      rw [season_temperatures] at ht
      obtain ⟨x, hx, rfl⟩ := List.mem_map.1 ht
      rw [toF_frF]; exact (hp x hx).ne') (fun t => load (toF t)) (fun t => runFraction s.off s.off t (T.q (toF t) / T.p (toF t)))
    (fun t => T.oneStageEnergy s.cd (toF s.off) load (toF t)) (fun t => T.oneStageResistance (toF s.off) load (toF t)) hL (fun t => by have := hL' (toF t); rwa [frF_toF] at this) (fun t => rfl)
    (fun t => by show _ = runFraction s.off s.off t _ * _; conv_rhs => rw [← frF_toF t, runFraction_F]
                 simp only [toF_frF]; rfl)
    (fun t => by show _ = _ - runFraction s.off s.off t _ * _; conv_rhs => rw [← frF_toF t, runFraction_F]
                 simp only [toF_frF]; rfl)
    (by rw [red, red, ← add_div]; exact (div_pos hpos hk).ne')
  rw [main, red, red, red]
  unfold HeatTests.oneStageSeason
  congr 3
  rw [← add_div]
  exact div_div_div_cancel_right₀ hk.ne' _ _

/-- The data of a region of AHRI 210/240-2023. -/
theorem region_2023 {r : Nat} {design z c cv : ℝ} {hours : List ℝ} (h : regionData .ahri2023 r = some (design, hours, some (c, cv, z))) :
    design < z ∧ 0 < c ∧ 0 < cv ∧ (∀ n ∈ hours, 0 ≤ n) ∧ (∃ n, ((52 : ℝ), n) ∈ seasonTemperatures.zip hours ∧ 0 < n) ∧ 52 < z ∧
      ∃ d k, regional .ahri2023 r = .ok d ∧ 0 < k ∧ d.hours = hours.map (· / k) ∧ d.design = frF design ∧ d.zeroLoad = some (frF z) ∧ d.c = some c ∧ d.cVs = some cv := by
  have key : ∀ (hl : hours.length = 18) (hs : 0 < hours.sum), ∃ d k, regional .ahri2023 r = .ok d ∧ 0 < k ∧ d.hours = hours.map (· / k) ∧ d.design = frF design ∧ d.zeroLoad = some (frF z) ∧
      d.c = some c ∧ d.cVs = some cv := by
    intro hl hs
    obtain ⟨d, hd⟩ := (C55_accepts (frF design) hours (some c) (some cv) (some (frF z))).2 ⟨hl, hs.ne'⟩
    obtain ⟨-, -, -, ⟨k, h1, -, h2⟩, h3, h4, h5, h6⟩ := C55_accepted hd
    refine ⟨d, k, by simp only [regional, h]; exact hd, ?_, h1, h3, h6, h4, h5⟩
    rcases h2 with rfl | ⟨rfl, -⟩
    · exact one_pos
    · exact hs
  have hr : 1 ≤ r ∧ r ≤ 6 := by
    by_contra hn
    have : regionData .ahri2023 r = (none : Option (ℝ × List ℝ × Option (ℝ × ℝ × ℝ))) := by
      unfold regionData
      split <;> first | rfl | omega | cases ‹RatingStandard.ahri2023 = _›
    rw [this] at h; cases h
  obtain ⟨r1, r6⟩ := hr
  interval_cases r <;> simp only [regionData, Option.some.injEq, Prod.mk.injEq] at h <;> obtain ⟨rfl, rfl, rfl, rfl, rfl⟩ := h <;>
    refine ⟨by norm_num, by norm_num, by norm_num, ?_, ⟨_, .tail _ (.tail _ (.head _)), by norm_num⟩, by norm_num, key rfl (by norm_num [List.sum_cons])⟩ <;>
    (simp only [List.forall_mem_cons, List.not_mem_nil, false_imp_iff, implies_true, and_true]; norm_num)

/-- Net cooling at a temperature of the tables: the gross values are positive there, so the values of the tables are returned. -/
theorem cooling_at (h : build u E T brentq a = .ok B) (ht : ∀ d, a.tables = some d → RatedTables (tableSpeeds B.core.st) d) (hd : a.chargeDeviation = 0)
    {i : Nat} {σ : ℝ} (hσ : TableSpeed B.core.st i σ) (h32 : σ ≠ 3 / 2) (hfan : SameFan B.core B.core.rc B.core.cool i)
    {o : Psych.PsychState ℝ} (ho : toF o.db ≤ 125) (hr : Outdoor E o.db) {c : Conditions ℝ} (hc : B.sys.makeCondition E false i none (some o) = .ok c)
    (m1 : o.db ∈ B.core.net.coolingCapacities.temperatures) (m2 : o.db ∈ B.core.net.coolingPowers.temperatures) :
    ∃ q p, B.core.net.coolingCapacity σ o.db = .ok q ∧ B.core.net.coolingPower σ o.db = .ok p ∧
      (B.unit u E T brentq).netTotalCoolingCapacity (some c) = .ok q ∧ (B.unit u E T brentq).netCoolingPower (some c) = .ok p := by
  obtain ⟨fc, fh, F⟩ := built_facts h ht
  obtain ⟨q, p, w, t1, t2, t3, t4, t5⟩ := C88_cooling h ht hd hσ h32 hfan ho hr hc
  obtain ⟨f1, f2⟩ := F.posAt i σ hσ
  obtain ⟨y', g1, g2⟩ := f1 _ m1
  obtain ⟨z', g3, g4⟩ := f2 _ m2
  obtain ⟨_, k1, k2⟩ := F.gross.coolCap σ o.db
  obtain ⟨_, k3, k4⟩ := F.gross.coolPow σ o.db
  rw [t1] at k1; cases k1
  rw [t2] at k3; cases k3
  rw [g1] at k2; cases k2
  rw [g3] at k4; cases k4
  rw [F.coolFan i σ w hσ h32 t3] at g2 g4
  rw [if_neg (not_lt.2 g2.le)] at t4
  rw [if_neg (not_lt.2 g4.le)] at t5
  exact ⟨q, p, t1, t2, t4, t5⟩

theorem rated_net (h : build u E T brentq a = .ok B) (ht : ∀ d, a.tables = some d → RatedTables (tableSpeeds B.core.st) d) : RatedTables (tableSpeeds B.core.st) B.core.net := by
  obtain ⟨st0, q47, nC, nH, b2, b3, b4, -⟩ := build_steps h
  cases hd : a.tables with
  | none => exact netTables_rated b4 hd
  | some d => rw [netTables_given b4 hd]; exact ht d hd

theorem heatBuildingLoad_nonneg {z d full t : ℝ} (hz : d < z) (hf : 0 ≤ full) : 0 ≤ heatBuildingLoad z d full t := by
  unfold heatBuildingLoad
  split
  · exact le_rfl
  · rename_i h; exact mul_nonneg hf (div_nonneg (by linarith [not_le.1 h]) (by linarith))

theorem heatBuildingLoad_pos {z d full t : ℝ} (hz : d < z) (hf : 0 < full) (ht : t < z) : 0 < heatBuildingLoad z d full t := by
  unfold heatBuildingLoad
  rw [if_neg (not_le.2 ht)]; exact mul_pos hf (div_pos (by linarith) (by linarith))

/-- The on-temperature is the off-temperature when no cut-in temperature is supplied; the coefficient, the standard and the defrost data are those supplied. -/
theorem heat_settings (h : build u E T brentq a = .ok B) (hon : a.heatingOn = none) :
    B.heatSettings.on = some B.heatSettings.off ∧ B.heatSettings.cd = cd a.cdHeating ∧ B.standard = a.standard ∧ B.sys.defrost = a.defrost := by
  obtain ⟨_, _, _, _, _, _, -, -, -, -, -, -, -, -, hS, -, -, b1, -, -, b2, b3⟩ := build_ok h
  obtain ⟨-, -, -, -, -, -, -, -, -, -, -, -, s13⟩ := sys_ok hS
  refine ⟨?_, b1, b2, s13⟩
  show B.heatingOn = _
  rw [b3, hon]; rfl

/-- C96: the HSPF2 of a constructed single-stage unit, from the curves of its net tables alone: the seasonal load over the energy of heat pump and resistance heat, where the tests are those of
the curves with frost at 35 °F, the load is proportional to the cooling capacity at 95 °F, and the published hours are used as they are. -/
theorem C96_single_hspf (h : build u E T brentq a = .ok B) (hst : B.core.st = .single) (ht : ∀ d, a.tables = some d → RatedTables 1 d) (hd : a.chargeDeviation = 0)
    (hstd : a.standard = .ahri2023) (hon : a.heatingOn = none) (hcd : 0 ≤ cd a.cdHeating) (hcd1 : cd a.cdHeating < 1) (hfc : SameFan B.core B.core.rc B.core.cool 0)
    (hfh : SameFan B.core B.core.rh B.core.heat 0) (h95 : Outdoor E (frF 95)) (h47 : Outdoor E (frF 47)) (h35 : Outdoor E (frF 35)) (h17 : Outdoor E (frF 17))
    {c : Curves ℝ} (hc : Follows B.core.net 1 c) (hq : 0 < c.coolingCapacity (frF 95)) {w : ℝ} (hw : B.core.heat.power[0]? = some (some w))
    {r : Nat} {design z cx cv : ℝ} {hours : List ℝ} (hr : regionData .ahri2023 r = some (design, hours, some (cx, cv, z))) {f : ℝ} (hf : a.defrost.demandCredit u = .ok f)
    (hp : ∀ t ∈ (seasonTemperatures : List ℝ), 0 < (c.heatTests (a.defrost.inDefrost (frF 35)) w).p t) :
    B.hspf u E T brentq r = .ok ((c.heatTests (a.defrost.inDefrost (frF 35)) w).oneStageSeason (cd a.cdHeating) (toF B.heatingOff)
      (heatBuildingLoad z design (cx * c.coolingCapacity (frF 95))) (seasonTemperatures.zip hours) * f / u.btuh) := by
  have ht' : ∀ d, a.tables = some d → RatedTables (tableSpeeds B.core.st) d := fun d h => by rw [hst]; exact ht d h
  obtain ⟨st0, q47, nC, nH, b2, b3, b4, b6, b7, b8, b9, b10⟩ := build_steps h
  have hfullc : B.core.rc.full = 0 := by rw [b6, hst]; rfl
  have hfullh : B.core.rh.full = 0 := by rw [b7, hst]; rfl
  obtain ⟨w', hw', hM⟩ := C96_full_tests h ht' hd (by rw [hfullh]; exact hfh) h47 h35 h17 (c := c) (by rw [if_pos hst]; exact hc)
  rw [hfullh, hw] at hw'; cases hw'
  have RT := rated_net h ht'
  obtain ⟨pA, -, -, -⟩ := full_points b10
  rw [hfullc] at pA
  obtain ⟨q, p, t1, -, t3, -⟩ := cooling_at h ht' hd (σ := 1) (by rw [hst]; exact ⟨rfl, rfl⟩) (by norm_num) hfc (o := defaultOutdoor E false)
    (by simp [defaultOutdoor, wetState, Psych.blank, toF_frF]; norm_num) h95 pA RT.cooling.1 RT.cooling.2
  have hq' : q = c.coolingCapacity (frF 95) := by
    have := (hc (frF 95)).1
    rw [Int.cast_one] at this
    exact Except.ok.inj (t1.symm.trans this)
  subst hq'
  obtain ⟨r1, r2, -, r3, ⟨n, r4, r5⟩, r6, d, k, e1, e2, e3, e4, e5, e6, -⟩ := region_2023 hr
  obtain ⟨g1, g2, g3, g4⟩ := heat_settings h hon
  have hs1 : B.heatSettings.st = .single := hst
  have hstd' : hspfStandard B.standard = .ahri2023 := by rw [g3, hstd]; rfl
  have hfull : 0 < cx * c.coolingCapacity (frF 95) := mul_pos r2 hq
  have := one_stage_season hM (u := u) (std := .ahri2023) (s := B.heatSettings) (d := d) (f := f) hs1 g1 (by rw [g2]; exact hcd) (by rw [g2]; exact hcd1) hp e3 e2 r3
    (load := heatBuildingLoad z design (cx * c.coolingCapacity (frF 95))) (fun t => heatBuildingLoad_nonneg r1 hfull.le)
    (C50_load_2023 t3 e4 e5 (by rw [hs1]; exact e6) r1 hfull.le) r4 r5 (heatBuildingLoad_pos r1 hfull r6)
  rw [g2] at this
  simp only [Built.hspf, DX.hspf, hstd', e1, g4, hf, bind_ok]
  exact this

end Resdx.Build
