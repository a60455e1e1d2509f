import Verif.Lemmas.HspfScale
import Verif.Lemmas.PyList
import Verif.Props.Seer
import Mathlib.Tactic.IntervalCases

/-!
# Properties of the seasonal heating rating: C50–C55

`heatBin` is one temperature bin: `(n·load, energy, resistance heat)` and the value of `delta_low` it leaves behind.
-/

set_option linter.unusedSectionVars false
set_option linter.unusedSimpArgs false

namespace Resdx.DX

open Spec Performance BaseModel

variable {C K : Type} [Field K] [LinearOrder K] [IsStrictOrderedRing K]

/-! ## Loads -/

/-- The load of a bin is never negative. -/
theorem heatingLoad_nonneg {U : Performance C K} {P : Points C} {u : Units K} {st : Staging} {std : RatingStandard} {d : HeatDist K} {load : K → Py K}
    (h : heatingLoad U P u st std d = .ok load) {t bl : K} (hb : load t = .ok bl) : 0 ≤ bl := by
  cases std
  · simp only [heatingLoad, bind_eq_ok, pure_eq_ok, Except.ok.injEq] at h
    obtain ⟨x, _, y, _, rfl⟩ := h
    simp only [bind_eq_ok, pure_eq_ok, Except.ok.injEq] at hb
    obtain ⟨z, _, rfl⟩ := hb
    exact le_max_right _ _
  · simp only [heatingLoad, bind_eq_ok, pure_eq_ok, Except.ok.injEq] at h
    obtain ⟨x, _, rfl⟩ := h
    simp only [bind_eq_ok, pure_eq_ok, Except.ok.injEq] at hb
    obtain ⟨y, _, z, _, w, _, rfl⟩ := hb
    exact le_max_right _ _

/-- C50: the 2023 building load is the standard's line in °F, from nothing at the zero-load temperature to `c` times the rated cooling capacity at the design
temperature. -/
theorem C50_load_2023 {U : Performance C K} {P : Points C} {u : Units K} {st : Staging} {design z c qA : K} {d : HeatDist K}
    (hA : U.netTotalCoolingCapacity (some P.aFull) = .ok qA) (hd : d.design = frF design) (hz : d.zeroLoad = some (frF z))
    (hc : (if st = .varSpeed then d.cVs else d.c) = some c) (hlt : design < z) (hpos : 0 ≤ c * qA) :
    ∃ load, heatingLoad U P u st .ahri2023 d = .ok load ∧ ∀ t, load (frF t) = .ok (heatBuildingLoad z design (c * qA) t) := by
  refine ⟨_, by simp only [heatingLoad, hA, bind_ok, pure_eq_ok]; rfl, fun t => ?_⟩
  have h1 : frF z - frF design ≠ 0 := by rw [frF_sub]; have : 0 < z - design := by linarith
                                         positivity
  have h2 : (frF z - frF t) / (frF z - frF design) = (z - t) / (z - design) := by
    have : z - design ≠ 0 := by intro h; linarith
    rw [frF_sub, frF_sub]; field_simp
  simp only [hz, hc, hd, pyNum, bind_ok, pdiv_ok h1, pure_eq_ok, h2, heatBuildingLoad, mul_assoc]
  have h3 : 0 < z - design := by linarith
  split
  · rename_i h
    rw [max_eq_right]
    exact mul_nonpos_of_nonpos_of_nonneg (div_nonpos_of_nonpos_of_nonneg (by linarith) h3.le) hpos
  · rename_i h
    have h4 : 0 < z - t := by linarith [not_le.mp h]
    rw [max_eq_left (mul_nonneg (by positivity) hpos)]
    congr 1; ring

/-- C50: the 2017 building load is the standard's line from 65 °F to 77% of the chosen design heating requirement at the design temperature; the requirement is the
entry of the standard's list nearest to the one computed from the H1 capacity. -/
theorem C50_load_2017 {U : Performance C K} {P : Points C} {u : Units K} {st : Staging} {design q dhr : K} {d : HeatDist K}
    (hq : U.netSteadyHeatingCapacity (some P.h1Full) = .ok q) (hd : d.design = frF design) (hlt : design < 65)
    (hn : Util.findNearest (designRequirements u) (q * (65 - design) / 60) = .ok dhr) (hpos : 0 ≤ dhr) :
    ∃ load, heatingLoad U P u st .ahri2017 d = .ok load ∧ ∀ t, load (frF t) = .ok (heatBuildingLoad 65 design (77 / 100 * dhr) t) := by
  have e : q * (frF 65 - frF design) / (60 * (5 / 9)) = q * (65 - design) / 60 := by rw [frF_sub]; ring
  refine ⟨_, by simp only [heatingLoad, hq, hd, e, hn, bind_ok, pure_eq_ok]; rfl, fun t => ?_⟩
  have h3 : 0 < 65 - design := by linarith
  have h1 : frF 65 - frF design ≠ 0 := by rw [frF_sub]; positivity
  have h2 : (frF 65 - frF t) / (frF 65 - frF design) = (65 - t) / (65 - design) := by
    have : 65 - design ≠ 0 := by intro h; linarith
    rw [frF_sub, frF_sub]; field_simp
  simp only [bind_ok, pdiv_ok h1, pure_eq_ok, h2, heatBuildingLoad]
  have h5 : (0.77 : K) = 77 / 100 := by norm_num
  rw [h5]
  split
  · rename_i h
    rw [max_eq_right, ]
    have := mul_nonpos_of_nonpos_of_nonneg (div_nonpos_of_nonpos_of_nonneg (show 65 - t ≤ 0 by linarith) h3.le) (show (0:K) ≤ 77 / 100 * dhr by positivity)
    linarith
  · rename_i h
    have h4 : 0 < 65 - t := by linarith [not_le.mp h]
    rw [max_eq_left (by positivity)]
    congr 1; ring

/-- The list of design heating requirements has no entry below 5,000 Btu/h, so the 2017 load is never negative. -/
theorem C50_design_requirements (u : Units K) : ∀ x ∈ designRequirements u, 5000 * u.btuh ≤ x ∧ x ≤ 130000 * u.btuh := by
  have := u.btuh_pos
  intro x hx
  simp only [designRequirements, List.mem_append, List.mem_map, List.mem_range] at hx
  rcases hx with ⟨i, hi, rfl⟩ | ⟨i, hi, rfl⟩
  · have h1 : (i : K) ≤ 7 := by exact_mod_cast Nat.le_of_lt_succ hi
    have h0 : (0 : K) ≤ i := Nat.cast_nonneg i
    constructor <;> nlinarith
  · have h1 : (i : K) ≤ 8 := by exact_mod_cast Nat.le_of_lt_succ hi
    have h0 : (0 : K) ≤ i := Nat.cast_nonneg i
    constructor <;> nlinarith

/-! ## C50: heat pump plus resistance heat meets the load -/

section
variable {U : Performance C K} {P : Points C} {s : HeatSettings K} {I : Option (HeatIntermediate K)} {load : K → Py K}

/-- Heat delivered at a run fraction is at most the load. -/
theorem delivered_le {bl q d : K} (hbl : 0 ≤ bl) (h0 : 0 ≤ d) (h1 : d ≤ 1) (hq : q ≤ bl) : d * q ≤ bl := by
  rcases le_total 0 q with h | h
  · nlinarith
  · nlinarith

/-- C50, single stage, any bin that returns: with `d` the run fraction, the heat pump delivers `d · min(load, capacity)` using `d` times the power of a unit that
cycles at that load, resistance heat is exactly the rest and never negative, and the load enters the seasonal sum. -/
theorem C50_single {prev prev' : Option K} {t n bl q e rh on : K} (hs : s.st = .single) (hon : s.on = some on) (hl : load t = .ok bl) (hbl : 0 ≤ bl) (hn : 0 ≤ n)
    (h : heatBin U P s I load prev t n = .ok ((q, e, rh), prev')) :
    ∃ qF pF d, heatFull U P t = .ok (qF, pF) ∧ d = runFraction s.off on t (qF / pF) ∧ q = bl * n ∧ e = d * oneStageRate s.cd qF pF bl * n ∧
      d * min bl qF * n + rh = bl * n ∧ 0 ≤ rh := by
  obtain ⟨bl', qF, pF, d, hlf, h1, h2, h3, h4, h5, h6, rfl⟩ := heatBin_inv h
  rw [hl, Except.ok.injEq] at h1
  subst h1
  rw [hon, cutFactor_ok, Except.ok.injEq] at h4
  obtain ⟨h7, _⟩ := staging_single hs h6
  obtain ⟨rfl, rfl⟩ := single_inv hbl h5 h7
  have hd : 0 ≤ d ∧ d ≤ 1 := by
    have := cutFactor_bounds (cutFactor_ok s.off on t (qF / pF)); rw [← h4]; exact ⟨this.1, this.2.1⟩
  refine ⟨qF, pF, d, h2, h4.symm, by ring, rfl, by ring, ?_⟩
  have := delivered_le hbl hd.1 hd.2 (min_le_left bl qF)
  exact mul_nonneg (by linarith) hn

/-- C50, two stages: what each regime delivers. In the middle regime the code scales the delivered heat with the low-speed run fraction `d0` left over from the last
bin whose load was below the low-speed capacity, not with this bin's; see `C50_two_stage_refuted`. -/
theorem C50_two_stage_partial {prev prev' : Option K} {t n bl q e rh on : K} (hs : s.st = .two) (hon : s.on = some on) (hl : load t = .ok bl) (hbl : 0 ≤ bl)
    (hn : 0 ≤ n) (hprev : ∀ d ∈ prev, 0 ≤ d ∧ d ≤ 1) (h : heatBin U P s I load prev t n = .ok ((q, e, rh), prev')) :
    ∃ qL pL qF pF, heatLowTwo U P t = .ok (qL, pL) ∧ heatFull U P t = .ok (qF, pF) ∧ q = bl * n ∧ 0 ≤ rh ∧ (∀ d ∈ prev', 0 ≤ d ∧ d ≤ 1) ∧
      (bl ≤ qL → e = runFraction s.off on t (qL / pL) * cyclingRate s.cd qL pL bl * n ∧ runFraction s.off on t (qL / pL) * bl * n + rh = bl * n) ∧
      (qL < bl → bl < qF → s.cyc = .lowFull → ∃ d0, prev = some d0 ∧ e = d0 * lineAt qL pL qF pF bl * n ∧ d0 * bl * n + rh = bl * n) ∧
      (qL < bl → bl < qF → s.cyc = .offFull → ∃ d0, prev = some d0 ∧ d0 * bl * n + rh = bl * n) ∧
      (qL < bl → qF ≤ bl → e = runFraction s.off on t (qF / pF) * pF * n ∧ runFraction s.off on t (qF / pF) * qF * n + rh = bl * n) := by
  obtain ⟨bl', qF, pF, d, hlf, h1, h2, h3, h4, h5, h6, rfl⟩ := heatBin_inv h
  rw [hl, Except.ok.injEq] at h1
  subst h1
  have hd := cutFactor_bounds h4
  rw [hon, cutFactor_ok, Except.ok.injEq] at h4
  subst h4
  obtain ⟨qL, pL, h7, h8, h9⟩ := staging_two hs h6
  refine ⟨qL, pL, qF, pF, h7, h2, by ring, ?_⟩
  rcases two_inv h9 with ⟨a, dl, b, rfl, c, rfl, rfl⟩ | ⟨a, a', cc, dl, rfl, rfl, rfl, rfl⟩ | ⟨a, a', cc, dl, rfl, rfl, rfl, rfl⟩ | ⟨a, a', rfl, rfl, rfl⟩
  · have hb := cutFactor_bounds b
    rw [hon, cutFactor_ok, Except.ok.injEq] at b
    subst b
    have := delivered_le hbl hb.1 hb.2.1 le_rfl
    refine ⟨mul_nonneg (by linarith) hn, by simpa using ⟨hb.1, hb.2.1⟩, fun _ => ⟨rfl, by ring⟩, fun h => absurd h (not_lt.2 a), fun h => absurd h (not_lt.2 a),
      fun h => absurd h (not_lt.2 a)⟩
  · have hb := hprev dl rfl
    have := delivered_le hbl hb.1 hb.2 le_rfl
    refine ⟨mul_nonneg (by linarith) hn, hprev, fun h => absurd h (not_le.2 a), fun _ _ _ => ⟨dl, rfl, rfl, by ring⟩, fun _ _ h => by simp [cc] at h,
      fun _ h => absurd h (not_le.2 a')⟩
  · have hb := hprev dl rfl
    have := delivered_le hbl hb.1 hb.2 le_rfl
    refine ⟨mul_nonneg (by linarith) hn, hprev, fun h => absurd h (not_le.2 a), fun _ _ h => by simp [cc] at h, fun _ _ _ => ⟨dl, rfl, by ring⟩,
      fun _ h => absurd h (not_le.2 a')⟩
  · have := delivered_le hbl hd.1 hd.2.1 a'
    refine ⟨mul_nonneg (by linarith) hn, hprev, fun h => absurd h (not_le.2 a), fun _ h => absurd h (not_lt.2 a'), fun _ h => absurd h (not_lt.2 a'),
      fun _ _ => ⟨rfl, by ring⟩⟩

/-- C50, variable speed: below the full capacity the balance always holds. At or above it the code recomputes the full capacity from the 5 and 17 °F tests; the balance
is with that capacity `q'`, and resistance heat is non-negative if `q'` does not exceed the load; see `C50_variable_speed_refuted`. -/
theorem C50_variable_speed_partial {prev prev' : Option K} {t n bl q e rh on : K} (hs : s.st = .varSpeed) (hon : s.on = some on) (hl : load t = .ok bl)
    (hbl : 0 ≤ bl) (hn : 0 ≤ n) (h : heatBin U P s I load prev t n = .ok ((q, e, rh), prev')) :
    ∃ qL pL qF pF, heatLowVar U P t = .ok (qL, pL) ∧ heatFull U P t = .ok (qF, pF) ∧ q = bl * n ∧
      (bl ≤ qL → 0 ≤ rh ∧ e = runFraction s.off on t (qL / pL) * cyclingRate s.cd qL pL bl * n ∧ runFraction s.off on t (qL / pL) * bl * n + rh = bl * n) ∧
      (qL < bl → bl < qF → ∃ cop, 0 ≤ rh ∧ e = runFraction s.off on t cop * (bl / cop) * n ∧ runFraction s.off on t cop * bl * n + rh = bl * n) ∧
      (qL < bl → qF ≤ bl → ∃ q' p', interpolate U.db (sCap U) P.h4Full P.h3Full t = .ok q' ∧ interpolate U.db (sPow U) P.h4Full P.h3Full t = .ok p' ∧
        e = runFraction s.off on t (qF / pF) * p' * n ∧ runFraction s.off on t (qF / pF) * q' * n + rh = bl * n ∧ (q' ≤ bl → 0 ≤ rh)) := by
  obtain ⟨bl', qF, pF, d, hlf, h1, h2, h3, h4, h5, h6, rfl⟩ := heatBin_inv h
  rw [hl, Except.ok.injEq] at h1
  subst h1
  have hd := cutFactor_bounds h4
  rw [hon, cutFactor_ok, Except.ok.injEq] at h4
  subst h4
  obtain ⟨J, qL, pL, cI, _, h7, h8, _, h9⟩ := staging_var hs h6
  refine ⟨qL, pL, qF, pF, h7, h2, by ring, ?_⟩
  rcases var_inv h9 with ⟨a, dl, b, c, rfl, rfl⟩ | ⟨a, a', cop, dl, _, c, b, rfl, rfl⟩ | ⟨a, a', q', p', b, rfl, rfl⟩
  · have hb := cutFactor_bounds b
    rw [hon, cutFactor_ok, Except.ok.injEq] at b
    subst b
    have := delivered_le hbl hb.1 hb.2.1 le_rfl
    exact ⟨fun _ => ⟨mul_nonneg (by linarith) hn, rfl, by ring⟩, fun h => absurd h (not_lt.2 a), fun h => absurd h (not_lt.2 a)⟩
  · have hb := cutFactor_bounds b
    rw [hon, cutFactor_ok, Except.ok.injEq] at b
    subst b
    have := delivered_le hbl hb.1 hb.2.1 le_rfl
    exact ⟨fun h => absurd h (not_le.2 a), fun _ _ => ⟨cop, mul_nonneg (by linarith) hn, rfl, by ring⟩, fun _ h => absurd h (not_le.2 a')⟩
  · rw [heatFullAgain_eq] at b
    simp only [bind_eq_ok, pure_eq_ok, Except.ok.injEq, Prod.mk.injEq] at b
    obtain ⟨x, hx, y, hy, rfl, rfl⟩ := b
    refine ⟨fun h => absurd h (not_le.2 a), fun _ h => absurd h (not_lt.2 a'), fun _ _ => ⟨x, y, hx, hy, rfl, by ring, fun hxb => ?_⟩⟩
    have := delivered_le hbl hd.1 hd.2.1 hxb
    exact mul_nonneg (by linarith) hn

/-! ## C51: nothing runs at or below the cut-out temperature -/

/-- C51, single stage. -/
theorem C51_single {prev prev' : Option K} {t n bl q e rh : K} (hs : s.st = .single) (hl : load t = .ok bl) (hbl : 0 ≤ bl) (ht : t ≤ s.off)
    (h : heatBin U P s I load prev t n = .ok ((q, e, rh), prev')) : e = 0 ∧ rh = bl * n := by
  obtain ⟨bl', qF, pF, d, hlf, h1, h2, h3, h4, h5, h6, rfl⟩ := heatBin_inv h
  rw [hl, Except.ok.injEq] at h1
  subst h1
  rw [cutFactor_below _ ht, Except.ok.injEq] at h4
  subst h4
  obtain ⟨h7, _⟩ := staging_single hs h6
  obtain ⟨rfl, rfl⟩ := single_inv hbl h5 h7
  constructor <;> ring

/-- C51, variable speed. -/
theorem C51_variable_speed {prev prev' : Option K} {t n bl q e rh : K} (hs : s.st = .varSpeed) (hl : load t = .ok bl) (ht : t ≤ s.off)
    (h : heatBin U P s I load prev t n = .ok ((q, e, rh), prev')) : e = 0 ∧ rh = bl * n := by
  obtain ⟨bl', qF, pF, d, hlf, h1, h2, h3, h4, h5, h6, rfl⟩ := heatBin_inv h
  rw [hl, Except.ok.injEq] at h1
  subst h1
  rw [cutFactor_below _ ht, Except.ok.injEq] at h4
  subst h4
  obtain ⟨J, qL, pL, cI, _, h7, h8, _, h9⟩ := staging_var hs h6
  rcases var_inv h9 with ⟨a, dl, b, c, rfl, rfl⟩ | ⟨a, a', cop, dl, _, c, b, rfl, rfl⟩ | ⟨a, a', q', p', b, rfl, rfl⟩
  · rw [cutFactor_below _ ht, Except.ok.injEq] at b; subst b
    constructor <;> ring
  · rw [cutFactor_below _ ht, Except.ok.injEq] at b; subst b
    constructor <;> ring
  · constructor <;> ring

/-- C51, two stages, except for loads between the two capacities: see `C51_two_stage_refuted`. -/
theorem C51_two_stage_partial {prev prev' : Option K} {t n bl q e rh : K} (hs : s.st = .two) (hl : load t = .ok bl) (ht : t ≤ s.off)
    (h : heatBin U P s I load prev t n = .ok ((q, e, rh), prev')) :
    ∃ qL pL qF pF, heatLowTwo U P t = .ok (qL, pL) ∧ heatFull U P t = .ok (qF, pF) ∧ (bl ≤ qL ∨ qF ≤ bl → e = 0 ∧ rh = bl * n) := by
  obtain ⟨bl', qF, pF, d, hlf, h1, h2, h3, h4, h5, h6, rfl⟩ := heatBin_inv h
  rw [hl, Except.ok.injEq] at h1
  subst h1
  rw [cutFactor_below _ ht, Except.ok.injEq] at h4
  subst h4
  obtain ⟨qL, pL, h7, h8, h9⟩ := staging_two hs h6
  refine ⟨qL, pL, qF, pF, h7, h2, fun hc => ?_⟩
  rcases two_inv h9 with ⟨a, dl, b, rfl, c, rfl, rfl⟩ | ⟨a, a', _⟩ | ⟨a, a', _⟩ | ⟨a, a', rfl, rfl, rfl⟩
  · rw [cutFactor_below _ ht, Except.ok.injEq] at b; subst b
    constructor <;> ring
  · exact absurd hc (by push Not; exact ⟨a, a'⟩)
  · exact absurd hc (by push Not; exact ⟨a, a'⟩)
  · constructor <;> ring

end

/-- C51 for the season: a single-stage or variable-speed unit whose cut-out temperature is above every bin is rated as resistance heat. -/
theorem C51_all_resistance {U : Performance C K} {P : Points C} {u : Units K} {std : RatingStandard} {s : HeatSettings K} {d : HeatDist K} {f v : K}
    (hs : s.st = .single ∨ s.st = .varSpeed) (hoff : frF 62 ≤ s.off) (h : hspfWith U P u std s d (.ok f) = .ok v) : v = f / u.btuh := by
  simp only [hspfWith, bind_eq_ok, pdiv_eq_ok, Except.ok.injEq] at h
  obtain ⟨load, hl, I, hI, r, hr, f', rfl, x, ⟨hD, rfl⟩, _, rfl⟩ := h
  have key : r.2.1 = 0 ∧ r.2.2 = r.1 := by
    refine heatLoop_inv _ _ (fun _ => True) (fun r => r.2.1 = 0 ∧ r.2.2 = r.1) (fun a b ha hb => ?_) (fun b hb prev r' prev' _ hf => ⟨?_, trivial⟩) none _ r trivial
      ⟨rfl, rfl⟩ hr
    · simp only [ha.1, hb.1, ha.2, hb.2, add_zero, and_self]
    · have ht : b.1 ≤ s.off := by
        have hm := (List.of_mem_zip hb).1
        simp only [heatingTemperatures, List.mem_map, List.mem_range] at hm
        obtain ⟨i, hi, e⟩ := hm
        rw [← e]
        refine le_trans (frF_le.2 ?_) hoff
        have : (0 : K) ≤ i := Nat.cast_nonneg i
        linarith
      obtain ⟨q, e, rh⟩ := r'
      obtain ⟨bl, _, _, _, _, hb1, _, _, _, _, _, hq⟩ := heatBin_inv hf
      have hbl := heatingLoad_nonneg hl hb1
      rcases hs with hs | hs
      · have := C51_single hs hb1 hbl ht hf
        exact ⟨this.1, by rw [this.2, hq]; ring⟩
      · have := C51_variable_speed hs hb1 ht hf
        exact ⟨this.1, by rw [this.2, hq]; ring⟩
  rw [key.1, key.2, zero_add] at hD ⊢
  rw [div_self hD, one_mul]

/-! ## C53: never much worse than resistance heat -/

/-- One bin: the heat pump's energy for what it delivers, plus resistance heat for the rest. -/
theorem bin_bound {cd bl del w : K} (hcd : 0 ≤ cd) (hw : (1 - cd) * w ≤ del) (hd : del ≤ bl) : (1 - cd) * (w + (bl - del)) ≤ bl := by nlinarith

/-- What the bins must satisfy for the bound to carry over to the season. -/
def BinOk (cd : K) (r : K × K × K) : Prop := 0 ≤ r.2.1 ∧ 0 ≤ r.2.2 ∧ (1 - cd) * (r.2.1 + r.2.2) ≤ r.1

theorem BinOk.add {cd : K} {a b : K × K × K} (ha : BinOk cd a) (hb : BinOk cd b) : BinOk cd (a.1 + b.1, a.2.1 + b.2.1, a.2.2 + b.2.2) := by
  obtain ⟨a1, a2, a3⟩ := ha
  obtain ⟨b1, b2, b3⟩ := hb
  exact ⟨add_nonneg a1 b1, add_nonneg a2 b2, by simp only; linarith⟩

theorem binOk_of {cd bl del w n : K} (hcd : 0 ≤ cd) (hn : 0 ≤ n) (hw0 : 0 ≤ w) (hw : (1 - cd) * w ≤ del) (hd : del ≤ bl) :
    BinOk cd (n * bl, w * n, (bl - del) * n) := by
  refine ⟨mul_nonneg hw0 hn, mul_nonneg (by linarith) hn, ?_⟩
  have := mul_le_mul_of_nonneg_right (bin_bound hcd hw hd) hn
  simp only
  linarith

/-- Scaling by a run fraction. -/
theorem binOk_run {cd bl del w d n : K} (hcd : 0 ≤ cd) (hn : 0 ≤ n) (hbl : 0 ≤ bl) (hd0 : 0 ≤ d) (hd1 : d ≤ 1) (hw0 : d ≠ 0 → 0 ≤ w)
    (hw : d ≠ 0 → (1 - cd) * w ≤ del) (hd : del ≤ bl) : BinOk cd (n * bl, d * w * n, (bl - d * del) * n) := by
  by_cases h : d = 0
  · subst h
    refine binOk_of hcd hn (by simp) (by simp) (by simpa using hbl)
  · exact binOk_of hcd hn (mul_nonneg hd0 (hw0 h)) (by have := mul_le_mul_of_nonneg_left (hw h) hd0; linarith) (delivered_le hbl hd0 hd1 hd)

/-- From the bins to the rating. -/
theorem hspf_bound {U : Performance C K} {P : Points C} {u : Units K} {std : RatingStandard} {s : HeatSettings K} {d : HeatDist K} {f v : K} (J : Option K → Prop)
    (hJ : J none) (hf : 0 ≤ f) (h : hspfWith U P u std s d (.ok f) = .ok v)
    (hstep : ∀ load I, heatingLoad U P u s.st std d = .ok load → ∀ b ∈ heatingTemperatures.zip d.hours, ∀ prev r prev', J prev →
      heatBin U P s I load prev b.1 b.2 = .ok (r, prev') → BinOk s.cd r ∧ J prev') : (1 - s.cd) * f / u.btuh ≤ v := by
  simp only [hspfWith, bind_eq_ok, pdiv_eq_ok, Except.ok.injEq] at h
  obtain ⟨load, hl, I, hI, r, hr, f', rfl, x, ⟨hD, rfl⟩, _, rfl⟩ := h
  obtain ⟨h1, h2, h3⟩ := heatLoop_inv _ _ J (BinOk s.cd) (fun a b ha hb => ha.add hb) (fun b hb => hstep load I hl b hb) none _ r hJ
    ⟨le_rfl, le_rfl, by simp⟩ hr
  have hpos : 0 < r.2.1 + r.2.2 := lt_of_le_of_ne (add_nonneg h1 h2) (Ne.symm hD)
  refine div_le_div_of_nonneg_right (mul_le_mul_of_nonneg_right ?_ hf) u.btuh_pos.le
  rwa [le_div_iff₀ hpos]

section
variable {U : Performance C K} {P : Points C} {u : Units K} {std : RatingStandard} {s : HeatSettings K} {d : HeatDist K} {f v : K}

theorem one_le_cop {q p : K} (hp : 0 < p) (h : 1 ≤ q / p) : p ≤ q := by rwa [le_div_iff₀ hp, one_mul] at h

/-- C53, single stage: whatever the capacities, the climate, the standard and the cut-out temperature, if the power is positive in the bins. -/
theorem C53_single (hs : s.st = .single) (hcd : 0 ≤ s.cd) (hcd1 : s.cd < 1) (hn : ∀ n ∈ d.hours, 0 ≤ n) (hf : 0 ≤ f)
    (hp : ∀ t ∈ heatingTemperatures, ∀ r, heatFull U P t = .ok r → 0 < r.2) (h : hspfWith U P u std s d (.ok f) = .ok v) :
    (1 - s.cd) * f / u.btuh ≤ v := by
  refine hspf_bound (fun _ => True) trivial hf h fun load I hl b hb prev r prev' _ hr => ⟨?_, trivial⟩
  obtain ⟨q, e, rh⟩ := r
  obtain ⟨bl, qF, pF, δ, hlf, h1, h2, h3, h4, h5, h6, rfl⟩ := heatBin_inv hr
  have hbl := heatingLoad_nonneg hl h1
  have hpF : 0 < pF := hp _ (List.of_mem_zip hb).1 _ h2
  obtain ⟨h7, _⟩ := staging_single hs h6
  obtain ⟨rfl, rfl⟩ := single_inv hbl h5 h7
  obtain ⟨d0, d1, d2⟩ := cutFactor_bounds h4
  refine binOk_run hcd (hn _ (List.of_mem_zip hb).2) hbl d0 d1 (fun hd => ?_) (fun hd => ?_) (min_le_left _ _)
  · unfold oneStageRate; split
    · rename_i hlt; exact cyclingRate_nonneg hcd hcd1 (hbl.trans_lt hlt) hpF.le hbl hlt.le
    · exact hpF.le
  · have hle := one_le_cop hpF (d2 hd).2
    unfold oneStageRate; split
    · rename_i hlt
      have := cyclingRate_le hcd hcd1 (hbl.trans_lt hlt) hpF hbl hlt.le zero_le_one (d2 hd).2
      rw [min_eq_left hlt.le]; linarith
    · rename_i hge
      rw [min_eq_right (not_lt.1 hge)]; nlinarith

/-- C53, two stages cycling between low and full speed, when both speeds are at least as efficient as resistance heat in the bins whose load lies between the
capacities (elsewhere the cut-out logic ensures it). Missing: the other cycling method, and inefficient speeds, where the code uses the run fraction of another bin. -/
theorem C53_two_stage_partial (hs : s.st = .two) (hcyc : s.cyc = .lowFull) (hcd : 0 ≤ s.cd) (hcd1 : s.cd < 1) (hn : ∀ n ∈ d.hours, 0 ≤ n) (hf : 0 ≤ f)
    (hp : ∀ t ∈ heatingTemperatures, ∀ r, heatFull U P t = .ok r → 0 < r.2) (hpl : ∀ t ∈ heatingTemperatures, ∀ r, heatLowTwo U P t = .ok r → 0 < r.2)
    (heff : ∀ load, heatingLoad U P u s.st std d = .ok load → ∀ t ∈ heatingTemperatures, ∀ bl rL rF, load t = .ok bl → heatLowTwo U P t = .ok rL →
      heatFull U P t = .ok rF → rL.1 < bl → bl < rF.1 → rL.2 ≤ rL.1 ∧ rF.2 ≤ rF.1)
    (h : hspfWith U P u std s d (.ok f) = .ok v) : (1 - s.cd) * f / u.btuh ≤ v := by
  refine hspf_bound (fun prev => ∀ d ∈ prev, 0 ≤ d ∧ d ≤ 1) (by simp) hf h fun load I hl b hb prev r prev' hprev hr => ?_
  obtain ⟨q, e, rh⟩ := r
  obtain ⟨bl, qF, pF, δ, hlf, h1, h2, h3, h4, h5, h6, rfl⟩ := heatBin_inv hr
  have hbl := heatingLoad_nonneg hl h1
  have ht := (List.of_mem_zip hb).1
  have hn' := hn _ (List.of_mem_zip hb).2
  have hpF : 0 < pF := hp _ ht _ h2
  obtain ⟨d0, d1, d2⟩ := cutFactor_bounds h4
  obtain ⟨qL, pL, h7, h8, h9⟩ := staging_two hs h6
  have hpL : 0 < pL := hpl _ ht _ h7
  rcases two_inv h9 with ⟨a, dl, b', rfl, c, rfl, rfl⟩ | ⟨a, a', _, dl, rfl, rfl, rfl, rfl⟩ | ⟨_, _, hc, _⟩ | ⟨a, a', rfl, rfl, rfl⟩
  · obtain ⟨e0, e1, e2⟩ := cutFactor_bounds b'
    have hqL : 0 < qL := lt_of_le_of_ne (hbl.trans a) (Ne.symm c)
    refine ⟨binOk_run hcd hn' hbl e0 e1 (fun _ => cyclingRate_nonneg hcd hcd1 hqL hpL.le hbl a) (fun hd => ?_) le_rfl, by simpa using ⟨e0, e1⟩⟩
    have := cyclingRate_le hcd hcd1 hqL hpL hbl a zero_le_one (e2 hd).2
    linarith
  · obtain ⟨e0, e1⟩ := hprev dl rfl
    obtain ⟨g1, g2⟩ := heff load hl _ ht bl _ _ h1 h7 h2 a a'
    simp only at g1 g2
    have hlt : qL < qF := a.trans a'
    obtain ⟨z, z0, z1, ez⟩ := lineAt_convex (y0 := pL) (y1 := pF) hlt a.le a'.le
    have ez' : bl = qL + (qF - qL) * ((bl - qL) / (qF - qL)) := by
      have : qF - qL ≠ 0 := by intro h; linarith
      field_simp; ring
    have hle : lineAt qL pL qF pF bl ≤ bl := by
      have hx : 0 ≤ (bl - qL) / (qF - qL) := div_nonneg (by linarith) (by linarith)
      have hx1 : (bl - qL) / (qF - qL) ≤ 1 := (div_le_one (by linarith)).2 (by linarith)
      unfold lineAt
      conv_rhs => rw [ez']
      generalize (bl - qL) / (qF - qL) = x at *
      nlinarith
    refine ⟨binOk_run hcd hn' hbl e0 e1 (fun _ => (lineAt_pos hlt a.le a'.le hpL hpF).le) (fun _ => ?_) le_rfl, hprev⟩
    have := (lineAt_pos hlt a.le a'.le hpL hpF).le
    nlinarith
  · simp [hcyc] at hc
  · refine ⟨binOk_run hcd hn' hbl d0 d1 (fun _ => hpF.le) (fun hd => ?_) a', hprev⟩
    have hle := one_le_cop hpF (d2 hd).2
    nlinarith

/-- C53, variable speed, when the capacity and power recomputed for the bins beyond full capacity are consistent with the bin: efficient and not above the load.
Missing: bins where the line through the 5 and 17 °F tests is above the load or inefficient. -/
theorem C53_variable_speed_partial (hs : s.st = .varSpeed) (hcd : 0 ≤ s.cd) (hcd1 : s.cd < 1) (hn : ∀ n ∈ d.hours, 0 ≤ n) (hf : 0 ≤ f)
    (hpl : ∀ t ∈ heatingTemperatures, ∀ r, heatLowVar U P t = .ok r → 0 < r.2)
    (hag : ∀ load, heatingLoad U P u s.st std d = .ok load → ∀ t ∈ heatingTemperatures, ∀ bl rF q' p', load t = .ok bl → heatFull U P t = .ok rF → rF.1 ≤ bl →
      interpolate U.db (sCap U) P.h4Full P.h3Full t = .ok q' → interpolate U.db (sPow U) P.h4Full P.h3Full t = .ok p' → 0 ≤ p' ∧ p' ≤ q' ∧ q' ≤ bl)
    (h : hspfWith U P u std s d (.ok f) = .ok v) : (1 - s.cd) * f / u.btuh ≤ v := by
  refine hspf_bound (fun _ => True) trivial hf h fun load I hl b hb prev r prev' _ hr => ⟨?_, trivial⟩
  obtain ⟨q, e, rh⟩ := r
  obtain ⟨bl, qF, pF, δ, hlf, h1, h2, h3, h4, h5, h6, rfl⟩ := heatBin_inv hr
  have hbl := heatingLoad_nonneg hl h1
  have ht := (List.of_mem_zip hb).1
  have hn' := hn _ (List.of_mem_zip hb).2
  obtain ⟨d0, d1, d2⟩ := cutFactor_bounds h4
  obtain ⟨J, qL, pL, cI, _, h7, h8, _, h9⟩ := staging_var hs h6
  have hpL : 0 < pL := hpl _ ht _ h7
  rcases var_inv h9 with ⟨a, dl, b', c, rfl, rfl⟩ | ⟨a, a', cop, dl, _, c, b', rfl, rfl⟩ | ⟨a, a', q', p', b', rfl, rfl⟩
  · obtain ⟨e0, e1, e2⟩ := cutFactor_bounds b'
    have hqL : 0 < qL := lt_of_le_of_ne (hbl.trans a) (Ne.symm c)
    refine binOk_run hcd hn' hbl e0 e1 (fun _ => cyclingRate_nonneg hcd hcd1 hqL hpL.le hbl a) (fun hd => ?_) le_rfl
    have := cyclingRate_le hcd hcd1 hqL hpL hbl a zero_le_one (e2 hd).2
    linarith
  · obtain ⟨e0, e1, e2⟩ := cutFactor_bounds b'
    refine binOk_run hcd hn' hbl e0 e1 (fun hd => div_nonneg hbl (zero_le_one.trans (e2 hd).2)) (fun hd => ?_) le_rfl
    have h10 : 0 ≤ bl / cop := div_nonneg hbl (zero_le_one.trans (e2 hd).2)
    have h11 : bl / cop ≤ bl := div_le_self hbl (e2 hd).2
    nlinarith
  · rw [heatFullAgain_eq] at b'
    simp only [bind_eq_ok, pure_eq_ok, Except.ok.injEq, Prod.mk.injEq] at b'
    obtain ⟨x, hx, y, hy, rfl, rfl⟩ := b'
    obtain ⟨g0, g1, g2⟩ := hag load hl _ ht bl _ _ _ h1 h2 a' hx hy
    refine binOk_run hcd hn' hbl d0 d1 (fun _ => g0) (fun _ => ?_) g2
    nlinarith

end

/-! ## C54: a supplied cut-in temperature -/

/-- C54, as far as it is true: with no cut-in temperature supplied, the cut-out temperature serves as the cut-in temperature and the compressor runs in all of every bin
above it in which it is at least as efficient as resistance heat. -/
theorem C54_default_partial (supplied : Option K) (st : Staging) (t cop : K) :
    cutFactor (offTemperature supplied st) (onTemperature none (offTemperature supplied st)) t cop =
      .ok (if t ≤ offTemperature supplied st ∨ cop < 1 then 0 else 1) := by
  rw [onTemperature, cutFactor_ok, runFraction]
  split
  · rfl
  · rename_i h
    push Not at h
    rw [if_pos h.1]

/-- The documented defaults: the cut-out is −20 °F for variable-speed units and 0 °F otherwise. -/
theorem C54_off_temperature (st : Staging) (x : K) :
    offTemperature (none : Option K) st = frF (if st = .varSpeed then -20 else 0) ∧ offTemperature (some x) st = x := by
  constructor
  · simp only [offTemperature]; split <;> rfl
  · rfl

/-- Any unit with a supplied cut-in temperature that `hspf` rates at all never runs its compressor at full speed: every bin is at or below the cut-out temperature or
has a full-speed COP below one. In every other case `hspf` raises `AttributeError`. -/
theorem C54_supplied {U : Performance C K} {P : Points C} {s : HeatSettings K} {I : Option (HeatIntermediate K)} {load : K → Py K} {x off : K}
    (hon : s.on = onTemperature (some x) off) (bins : List (K × K)) (prev : Option K) (acc r : K × K × K)
    (h : heatLoop (heatBin U P s I load) bins prev acc = .ok r) : ∀ b ∈ bins, ∃ q p, heatFull U P b.1 = .ok (q, p) ∧ (b.1 ≤ s.off ∨ q / p < 1) := by
  induction bins generalizing prev acc with
  | nil => simp
  | cons b l ih =>
    obtain ⟨t, n⟩ := b
    simp only [heatLoop, bind_eq_ok] at h
    obtain ⟨⟨y, prev'⟩, hx, h⟩ := h
    intro b hb
    rcases List.mem_cons.1 hb with rfl | hb
    · obtain ⟨q, e, rh⟩ := y
      obtain ⟨bl, qF, pF, δ, hlf, h1, h2, h3, h4, h5, h6, rfl⟩ := heatBin_inv hx
      refine ⟨qF, pF, h2, ?_⟩
      by_contra hc
      rw [hon, onTemperature, cutFactor, if_neg hc] at h4
      simp [pyAttr, bind_error] at h4
    · exact ih _ _ h b hb

/-! ## C55: climates -/

/-- C55: an accepted distribution has 18 fractions with a sum close to one, each the given fraction divided by one common number (one itself if the sum was close
enough); the other data are kept. -/
theorem C55_accepted {design : K} {hours : List K} {c cVs z : Option K} {d : HeatDist K} (h : HeatDist.make design hours c cVs z = .ok d) :
    d.hours.length = 18 ∧ 0.98 ≤ d.hours.sum ∧ d.hours.sum ≤ 1.02 ∧
      (∃ k, d.hours = hours.map (· / k) ∧ k ≠ 0 ∧ (k = 1 ∨ k = hours.sum ∧ d.hours.sum = 1)) ∧ d.design = design ∧ d.c = c ∧ d.cVs = cVs ∧ d.zeroLoad = z := by
  simp only [HeatDist.make, bind_eq_ok] at h
  obtain ⟨hs, h1, h⟩ := h
  unfold renormalise at h1
  split at h
  · simp at h
  rename_i hlen
  push Not at hlen
  simp only [pure_eq_ok, Except.ok.injEq] at h
  subst h
  split at h1
  · rename_i hout
    have hdiv : hours.sum ≠ 0 := by
      intro h0
      cases hours with
      | nil => simp [pure_eq_ok] at h1; subst h1; simp at hlen
      | cons a l => simp only [List.mapM_cons, h0, pdiv_zero, bind_error] at h1; simp at h1
    have hm : hours.mapM (fun n => pdiv n hours.sum) = .ok (hours.map (· / hours.sum)) := by
      rw [mapM_ok_iff]
      simp [List.forall₂_map_right_iff, List.forall₂_same, pdiv_ok hdiv]
    rw [hm, Except.ok.injEq] at h1
    subst h1
    have hsum : (hours.map (· / hours.sum)).sum = 1 := by
      have := List.sum_map_mul_right hours id hours.sum⁻¹
      simp only [id, List.map_id', ← div_eq_mul_inv] at this
      rw [this, List.map_id, div_self hdiv]
    refine ⟨hlen, ?_, ?_, ⟨hours.sum, rfl, hdiv, Or.inr ⟨rfl, hsum⟩⟩, rfl, rfl, rfl, rfl⟩ <;> simp only [hsum] <;> norm_num
  · rename_i hin
    push Not at hin
    simp only [Except.ok.injEq] at h1
    subst h1
    exact ⟨hlen, hin.1, hin.2, ⟨1, by simp, one_ne_zero, Or.inl rfl⟩, rfl, rfl, rfl, rfl⟩

/-- C55: exactly the lists of 18 fractions whose sum is not zero are accepted; otherwise the constructor raises. -/
theorem C55_accepts (design : K) (hours : List K) (c cVs z : Option K) :
    (∃ d, HeatDist.make design hours c cVs z = .ok d) ↔ hours.length = 18 ∧ hours.sum ≠ 0 := by
  constructor
  · rintro ⟨d, h⟩
    obtain ⟨h1, h2, h3, ⟨k, h4, h5, h6⟩, -⟩ := C55_accepted h
    rw [h4, List.length_map] at h1
    refine ⟨h1, fun h0 => ?_⟩
    rcases h6 with rfl | ⟨h6, -⟩
    · simp only [div_one, List.map_id'] at h4
      rw [h4, h0] at h2
      norm_num at h2
    · exact h5 (h6.trans h0)
  · rintro ⟨h1, h2⟩
    have hm : hours.mapM (fun n => pdiv n hours.sum) = .ok (hours.map (· / hours.sum)) := by
      rw [mapM_ok_iff]
      simp [List.forall₂_map_right_iff, List.forall₂_same, pdiv_ok h2]
    simp only [HeatDist.make, renormalise, hm]
    split
    · simp only [bind_ok, List.length_map, h1, ne_eq, not_true_eq_false, if_false]; exact ⟨_, rfl⟩
    · simp only [bind_ok, h1, ne_eq, not_true_eq_false, if_false]; exact ⟨_, rfl⟩

/-- C55: which standards and regions exist. -/
theorem C55_known_regions (std : RatingStandard) (r : Nat) : (∃ d, regional (K := K) std r = .ok d) ↔ 1 ≤ r ∧ r ≤ 6 := by
  constructor
  · rintro ⟨d, h⟩
    by_contra hr
    have : regionData (K := K) std r = none := by
      rcases r with _ | _ | _ | _ | _ | _ | _ | r
      · cases std <;> rfl
      iterate 6 · simp at hr
      · cases std <;> rfl
    simp [regional, this] at h
  · rintro ⟨h1, h6⟩
    have : ∀ d c cVs z, ∀ l : List K, l.length = 18 → l.sum ≠ 0 → ∃ x, HeatDist.make d l c cVs z = .ok x := fun d c cVs z l h1 h2 => (C55_accepts d l c cVs z).2 ⟨h1, h2⟩
    interval_cases r <;> cases std <;> simp only [regional, regionData] <;> refine this _ _ _ _ _ (by simp) ?_ <;> simp only [List.sum_cons, List.sum_nil] <;> norm_num

/-- C55 for every built-in region: 18 non-negative fractions with a sum between 0.98 and 1.02. -/
theorem C55_regions {std : RatingStandard} {r : Nat} {d : HeatDist K} (h : regional std r = .ok d) :
    d.hours.length = 18 ∧ 0.98 ≤ d.hours.sum ∧ d.hours.sum ≤ 1.02 ∧ (∀ n ∈ d.hours, 0 ≤ n) ∧ (std = .ahri2023 → d.hours.sum = 1) := by
  have key : ∀ (x : K) (l : List K) (c cVs z : Option K), HeatDist.make x l c cVs z = .ok d → (∀ n ∈ l, 0 ≤ n) →
      d.hours.length = 18 ∧ 0.98 ≤ d.hours.sum ∧ d.hours.sum ≤ 1.02 ∧ (∀ n ∈ d.hours, 0 ≤ n) ∧ (l.sum < 0.98 → d.hours.sum = 1) := by
    intro x l c cVs z hm hl
    obtain ⟨h1, h2, h3, ⟨k, h4, h5, h6⟩, -⟩ := C55_accepted hm
    refine ⟨h1, h2, h3, ?_, fun hs => ?_⟩
    · intro n hn
      rw [h4, List.mem_map] at hn
      obtain ⟨m, hm', rfl⟩ := hn
      refine div_nonneg (hl m hm') ?_
      rcases h6 with rfl | ⟨rfl, -⟩
      · exact zero_le_one
      · exact List.sum_nonneg hl
    · rcases h6 with rfl | ⟨-, h6⟩
      · simp only [div_one, List.map_id'] at h4
        rw [h4] at h2; exact absurd h2 (not_le.2 hs)
      · exact h6
  have hr := (C55_known_regions (K := K) std r).1 ⟨d, h⟩
  obtain ⟨h1, h6⟩ := hr
  interval_cases r <;> cases std <;> simp only [regional, regionData] at h <;>
    (obtain ⟨k1, k2, k3, k4, k5⟩ := key _ _ _ _ _ h (by simp only [List.forall_mem_cons, List.not_mem_nil, false_imp_iff, implies_true, and_true]; norm_num)
     refine ⟨k1, k2, k3, k4, fun hs => ?_⟩
     first
       | (cases hs; done)
       | exact k5 (by simp only [List.sum_cons, List.sum_nil]; norm_num))

/-- C55, cooling: eight bins from 67 to 102 °F whose fractions are positive and sum to one. -/
theorem C55_cooling : (coolingBins : List (K × K)).map Prod.fst = [67, 72, 77, 82, 87, 92, 97, 102].map frF ∧
    ((coolingBins : List (K × K)).map Prod.snd).sum = 1 ∧ ∀ b ∈ (coolingBins : List (K × K)), 0 < b.2 := by
  have e : (List.range 8) = [0, 1, 2, 3, 4, 5, 6, 7] := rfl
  simp only [coolingBins, e, List.map_cons, List.map_nil, List.zip_cons_cons, List.zip_nil_left, List.forall_mem_cons, List.not_mem_nil, false_imp_iff, implies_true,
    and_true, List.sum_cons, List.sum_nil]
  refine ⟨by norm_num, by norm_num, by norm_num⟩

/-- C55, heating: 18 bins, from 62 down to −23 °F in steps of 5 °F. -/
theorem C55_heating_temperatures : (heatingTemperatures : List K) = [62, 57, 52, 47, 42, 37, 32, 27, 22, 17, 12, 7, 2, -3, -8, -13, -18, -23].map frF := by
  have e : (List.range 18) = [0, 1, 2, 3, 4, 5, 6, 7, 8, 9, 10, 11, 12, 13, 14, 15, 16, 17] := rfl
  simp only [heatingTemperatures, e, List.map_cons, List.map_nil]
  norm_num

example : ∃ d, HeatDist.make (frF 5 : ℚ) (List.replicate 18 2) none none none = .ok d := (C55_accepts _ _ _ _ _).2 (by decide +kernel)
example : HeatDist.make (frF 5 : ℚ) (List.replicate 17 1) none none none = .error .exception := by decide +kernel

/-! ## The whole single-stage rating -/

/-- The unit, tested at its heating rating conditions, gives these results; the conditions are at the standard temperatures. -/
structure HeatMatch (U : Performance C K) (P : Points C) (T : HeatTests K) : Prop where
  q1 : U.netSteadyHeatingCapacity (some P.h1Full) = .ok T.q1
  p1 : U.netSteadyHeatingPower (some P.h1Full) = .ok T.p1
  q2 : U.netIntegratedHeatingCapacity (some P.h2Full) = .ok T.q2
  p2 : U.netIntegratedHeatingPower (some P.h2Full) = .ok T.p2
  q3 : U.netSteadyHeatingCapacity (some P.h3Full) = .ok T.q3
  p3 : U.netSteadyHeatingPower (some P.h3Full) = .ok T.p3
  db1 : U.db P.h1Full = frF 47
  db2 : U.db P.h2Full = frF 35
  db3 : U.db P.h3Full = frF 17

theorem interpolateSeparate_line {U : Performance C K} {f g : C → Py K} {c1 c2 : C} {y1 y2 x1 x2 : K} (h1 : f c1 = .ok y1) (h2 : g c2 = .ok y2)
    (d1 : U.db c1 = frF x1) (d2 : U.db c2 = frF x2) (hne : x1 ≠ x2) (t : K) :
    interpolateSeparate U.db f g c1 c2 t = .ok (lineAt x1 y1 x2 y2 (toF t)) := by
  have hd : frF x2 - frF x1 ≠ 0 := sub_ne_zero.2 fun h => hne (frF_inj.1 h).symm
  simp only [interpolateSeparate, h1, h2, d1, d2, bind_ok, pdiv_ok hd, pure_eq_ok, Except.ok.injEq, lineAt]
  congr 1
  conv_lhs => rw [← frF_toF t]
  simp only [frF_sub]
  have : x2 - x1 ≠ 0 := sub_ne_zero.2 fun h => hne h.symm
  field_simp

/-- C50: full-speed capacity and power follow the standard's lines, with frosting between 17 and 45 °F. -/
theorem C50_full_speed {U : Performance C K} {P : Points C} {T : HeatTests K} (h : HeatMatch U P T) (t : K) : heatFull U P t = .ok (T.q (toF t), T.p (toF t)) := by
  have e : (frF 45 ≤ t ∨ t ≤ frF 17) ↔ (45 ≤ toF t ∨ toF t ≤ 17) := by
    conv_lhs => rw [← frF_toF t]
    rw [frF_le, frF_le]
  unfold heatFull HeatTests.q HeatTests.p
  simp only [e]
  split
  · rw [interpolate_line (f := sCap U) h.q3 h.q1 h.db3 h.db1 (by norm_num), interpolate_line (f := sPow U) h.p3 h.p1 h.db3 h.db1 (by norm_num)]
    rfl
  · rw [interpolateSeparate_line (f := sCap U) (g := iCap U) h.q3 h.q2 h.db3 h.db2 (by norm_num),
      interpolateSeparate_line (f := sPow U) (g := iPow U) h.p3 h.p2 h.db3 h.db2 (by norm_num)]
    rfl

/-- C50: the single-stage rating from the test results alone: the seasonal load over the seasonal energy of heat pump and resistance heat, times the defrost credit. -/
theorem C50_single_hspf {U : Performance C K} {P : Points C} {T : HeatTests K} (hT : HeatMatch U P T) {u : Units K} {std : RatingStandard} {s : HeatSettings K}
    {d : HeatDist K} {f on : K} (hs : s.st = .single) (hon : s.on = some on) (hcd : 0 ≤ s.cd) (hcd1 : s.cd < 1) (hp : ∀ t ∈ heatingTemperatures, T.p (toF t) ≠ 0)
    (load run energy resistance : K → K) {L : K → Py K} (hL : heatingLoad U P u s.st std d = .ok L) (hload : ∀ t, L t = .ok (load t))
    (hrun : ∀ t, run t = runFraction s.off on t (T.q (toF t) / T.p (toF t)))
    (henergy : ∀ t, energy t = run t * oneStageRate s.cd (T.q (toF t)) (T.p (toF t)) (load t))
    (hres : ∀ t, resistance t = load t - run t * min (load t) (T.q (toF t)))
    (hD : CoolTests.total energy (heatingTemperatures.zip d.hours) + CoolTests.total resistance (heatingTemperatures.zip d.hours) ≠ 0) :
    hspfWith U P u std s d (.ok f) = .ok (CoolTests.total load (heatingTemperatures.zip d.hours) /
      (CoolTests.total energy (heatingTemperatures.zip d.hours) + CoolTests.total resistance (heatingTemperatures.zip d.hours)) * f / u.btuh) := by
  have hI : heatIntermediateFor U P s.st = .ok none := by simp [heatIntermediateFor, hs]
  have hloop := heatLoop_ok (heatBin U P s none L) load energy resistance (heatingTemperatures.zip d.hours) (fun b hb prev => by
    have hpb := hp _ (List.of_mem_zip hb).1
    have hbl : 0 ≤ load b.1 := heatingLoad_nonneg hL (hload b.1)
    obtain ⟨hlf, e1, e2⟩ := single_ok (q := T.q (toF b.1)) (p := T.p (toF b.1)) (d := run b.1) (n := b.2) hcd hcd1 hbl
    simp only [heatBin, hload, C50_full_speed hT, bind_ok, pdiv_ok hpb, hon, cutFactor_ok, ← hrun, e1, heatStaging, hs, e2, pure_eq_ok, henergy, hres]
    rw [mul_comm]) none (0, 0, 0)
  simp only [zero_add] at hloop
  simp only [hspfWith, hL, hI, bind_ok, hloop, pdiv_ok hD, pdiv_ok u.btuh_pos.ne']

/-! ## What is not true of the code -/

/-- Test a result. -/
def okTest {α : Type} (x : Py α) (f : α → Bool) : Bool := match x with
  | .ok v => f v
  | .error _ => false

theorem okTest_iff {α : Type} {x : Py α} {f : α → Bool} : okTest x f = true ↔ ∃ v, x = .ok v ∧ f v = true := by
  cases x <;> simp [okTest]

/-- Bin number `k` of a season: the bins before it are run first, in order, as `hspf` does. -/
def seasonBin (U : Performance C K) (P : Points C) (u : Units K) (std : RatingStandard) (s : HeatSettings K) (d : HeatDist K) (k : Nat) : Py (K × K × K) := do
  let load ← heatingLoad U P u s.st std d
  let I ← heatIntermediateFor U P s.st
  let bins := heatingTemperatures.zip d.hours
  let prev ← (bins.take k).foldlM (fun prev b => do return (← heatBin U P s I load prev b.1 b.2).2) none
  let b ← pyGet bins k
  return (← heatBin U P s I load prev b.1 b.2).1

/-- The seasonal sums are the sums over the bins of `seasonBin`: the refutations below are about bins of actual ratings. -/
theorem seasonBin_loop (f : Option K → K → K → Py ((K × K × K) × Option K)) (bins : List (K × K)) (prev : Option K) (acc : K × K × K) (b : K × K) (l : List (K × K)) :
    heatLoop f (bins ++ b :: l) prev acc = (do
      let r ← heatLoop f bins prev acc
      let p ← bins.foldlM (fun prev b => do return (← f prev b.1 b.2).2) prev
      let x ← f p b.1 b.2
      heatLoop f l x.2 (r.1 + x.1.1, r.2.1 + x.1.2.1, r.2.2 + x.1.2.2)) := by
  induction bins generalizing prev acc with
  | nil => simp only [List.nil_append, heatLoop, List.foldlM_nil, pure_eq_ok, bind_ok]
  | cons a t ih =>
    simp only [List.cons_append, heatLoop, List.foldlM_cons]
    cases f prev a.1 a.2 with
    | error e => simp only [bind_error]
    | ok x => simp only [bind_ok, pure_eq_ok, ih]

/-- A unit with heating performance that falls with the outdoor temperature and with frosting. -/
def heatUnit : Performance (ℚ × ℚ) ℚ :=
  { toyUnit with
    heatCap := fun c => .ok (c.1 * (c.2 / 2 - 60) * 11 / 10), intCap := fun c => .ok (c.1 * (c.2 / 2 - 60) * 4 / 5)
    heatPow := fun c => .ok (c.1 * (320 - c.2) / 2), intPow := fun c => .ok (c.1 * (320 - c.2) / 2) }

/-- What its heating tests give. -/
def heatTests : HeatTests ℚ :=
  { q1 := 100 * (frF 47 / 2 - 60) * 11 / 10 + 2, p1 := 100 * (320 - frF 47) / 2 + 2, q2 := 100 * (frF 35 / 2 - 60) * 4 / 5 + 2, p2 := 100 * (320 - frF 35) / 2 + 2
    q3 := 100 * (frF 17 / 2 - 60) * 11 / 10 + 2, p3 := 100 * (320 - frF 17) / 2 + 2 }

theorem heatUnit_match : HeatMatch heatUnit toyPoints heatTests where
  q1 := by decide +kernel
  p1 := by decide +kernel
  q2 := by decide +kernel
  p2 := by decide +kernel
  q3 := by decide +kernel
  p3 := by decide +kernel
  db1 := rfl
  db2 := rfl
  db3 := rfl

/-- Its settings with a cut-out temperature in °F and no cut-in temperature supplied. -/
def heatSettings (st : Staging) (cyc : Cycling) (off : ℚ) : HeatSettings ℚ := ⟨st, 1 / 4, cyc, frF off, onTemperature none (frF off)⟩

/-- A season in region 4. -/
def season4 (std : RatingStandard) (U : Performance (ℚ × ℚ) ℚ) (s : HeatSettings ℚ) (k : Nat) : Py (ℚ × ℚ × ℚ) := do
  seasonBin U toyPoints (Units.ofOnes ℚ) std s (← regional std 4) k

/-- A rating in region 4. -/
def hspf4 (std : RatingStandard) (U : Performance (ℚ × ℚ) ℚ) (s : HeatSettings ℚ) : Py ℚ := do
  hspfWith U toyPoints (Units.ofOnes ℚ) std s (← regional std 4) (.ok 1)

/-- C51 is false of two-stage units: with a cut-out temperature of 45 °F the compressor still heats in the 42 °F bin and there is no resistance heat, because the
run fraction of the 47 °F bin is used. -/
theorem C51_two_stage_refuted : ∃ r, season4 .ahri2023 heatUnit (heatSettings .two .lowFull 45) 4 = .ok r ∧ 0 < r.1 ∧ 0 < r.2.1 ∧ r.2.2 = 0 := by
  have : okTest (season4 .ahri2023 heatUnit (heatSettings .two .lowFull 45) 4) (fun r => decide (0 < r.1 ∧ 0 < r.2.1 ∧ r.2.2 = 0)) = true := by decide +kernel
  obtain ⟨r, h1, h2⟩ := okTest_iff.1 this
  exact ⟨r, h1, by simpa using h2⟩

/-- C50 is false of two-stage units that cycle between off and full speed: in the same bin neither the compressor nor resistance heat uses energy although there is a
load. -/
theorem C50_two_stage_refuted : ∃ r, season4 .ahri2023 heatUnit (heatSettings .two .offFull 45) 4 = .ok r ∧ 0 < r.1 ∧ r.2.1 = 0 ∧ r.2.2 = 0 := by
  have : okTest (season4 .ahri2023 heatUnit (heatSettings .two .offFull 45) 4) (fun r => decide (0 < r.1 ∧ r.2.1 = 0 ∧ r.2.2 = 0)) = true := by decide +kernel
  obtain ⟨r, h1, h2⟩ := okTest_iff.1 this
  exact ⟨r, h1, by simpa using h2⟩

/-- C50 is false of variable-speed units: frosting takes the unit below the load at 32 °F, the recomputed capacity is that without frosting, and resistance heat is
negative. -/
theorem C50_variable_speed_refuted : ∃ r, season4 .ahri2023 heatUnit (heatSettings .varSpeed .lowFull 0) 6 = .ok r ∧ 0 < r.1 ∧ r.2.2 < 0 := by
  have : okTest (season4 .ahri2023 heatUnit (heatSettings .varSpeed .lowFull 0) 6) (fun r => decide (0 < r.1 ∧ r.2.2 < 0)) = true := by decide +kernel
  obtain ⟨r, h1, h2⟩ := okTest_iff.1 this
  exact ⟨r, h1, by simpa using h2⟩

/-- A unit that is much worse than resistance heat below 40 °F, and one that is at its 5 °F test only. -/
def poorUnit (below : ℚ) (frostToo : Bool) : Performance (ℚ × ℚ) ℚ :=
  { heatUnit with
    heatPow := fun c => .ok (if c.2 < frF below then c.1 * 2000 else c.1 * (320 - c.2) / 2)
    intPow := fun c => .ok (if frostToo ∧ c.2 < frF below then c.1 * 2000 else c.1 * (320 - c.2) / 2) }

/-- C53 is false of two-stage units: the compressor runs in the 42 °F bin although it is worse than resistance heat there. -/
theorem C53_two_stage_refuted : ∃ v, hspf4 .ahri2023 (poorUnit 40 true) (heatSettings .two .lowFull 0) = .ok v ∧ v < 1 - 1 / 4 := by
  have : okTest (hspf4 .ahri2023 (poorUnit 40 true) (heatSettings .two .lowFull 0)) (fun v => decide (v < 1 - 1 / 4)) = true := by decide +kernel
  obtain ⟨r, h1, h2⟩ := okTest_iff.1 this
  exact ⟨r, h1, by simpa using h2⟩

/-- C53 is false of variable-speed units, whose rating can even be negative. -/
theorem C53_variable_speed_refuted : ∃ v, hspf4 .ahri2023 (poorUnit 10 false) (heatSettings .varSpeed .lowFull 0) = .ok v ∧ v < 0 := by
  have : okTest (hspf4 .ahri2023 (poorUnit 10 false) (heatSettings .varSpeed .lowFull 0)) (fun v => decide (v < 0)) = true := by decide +kernel
  obtain ⟨r, h1, h2⟩ := okTest_iff.1 this
  exact ⟨r, h1, by simpa using h2⟩

/-- C54 is false: with a cut-in temperature supplied, the same unit cannot be rated, for any staging type. -/
theorem C54_refuted (st : Staging) :
    (∃ v, hspf4 .ahri2023 heatUnit (heatSettings st .lowFull 0) = .ok v) ∧
      hspf4 .ahri2023 heatUnit { heatSettings st .lowFull 0 with on := onTemperature (some (frF 10)) (frF 0) } = .error .attribute := by
  constructor
  · have : okTest (hspf4 .ahri2023 heatUnit (heatSettings st .lowFull 0)) (fun _ => true) = true := by cases st <;> decide +kernel
    obtain ⟨r, h1, -⟩ := okTest_iff.1 this
    exact ⟨r, h1⟩
  · cases st <;> decide +kernel

/-! ## The theorems apply -/

example : okTest (hspf4 .ahri2023 heatUnit (heatSettings .single .lowFull 0)) (fun v => decide (3 / 2 < v)) = true := by decide +kernel
example : okTest (hspf4 .ahri2017 heatUnit (heatSettings .two .lowFull 0)) (fun v => decide (2 < v)) = true := by decide +kernel

/-- The single-stage hypotheses: positive power in every bin. -/
example : ∀ t ∈ (heatingTemperatures : List ℚ), ∀ r, heatFull heatUnit toyPoints t = .ok r → 0 < r.2 := by
  intro t ht r hr
  rw [C50_full_speed heatUnit_match] at hr
  rw [C55_heating_temperatures] at ht
  simp only [Except.ok.injEq] at hr
  subst hr
  revert t
  decide +kernel

/-- Resistance heat in a bin of the single-stage unit. -/
example : okTest (season4 .ahri2023 heatUnit (heatSettings .single .lowFull 0) 9) (fun r => decide (0 < r.2.1 ∧ 0 < r.2.2)) = true := by decide +kernel

/-- Below the cut-out temperature of 0 °F. -/
example : okTest (season4 .ahri2023 heatUnit (heatSettings .single .lowFull 0) 13) (fun r => decide (r.2.1 = 0 ∧ 0 < r.2.2)) = true := by decide +kernel
example : okTest (hspf4 .ahri2023 heatUnit (heatSettings .varSpeed .lowFull 70)) (fun v => decide (v = 1)) = true := by decide +kernel

/-- The hypothesis of `C53_two_stage_partial` about the bins between the capacities. -/
example {d : HeatDist ℚ} (hd : regional .ahri2023 4 = .ok d) : ∀ load, heatingLoad heatUnit toyPoints (Units.ofOnes ℚ) .two .ahri2023 d = .ok load →
    ∀ t ∈ heatingTemperatures, ∀ bl rL rF, load t = .ok bl → heatLowTwo heatUnit toyPoints t = .ok rL → heatFull heatUnit toyPoints t = .ok rF → rL.1 < bl → bl < rF.1 →
      rL.2 ≤ rL.1 ∧ rF.2 ≤ rF.1 := by
  intro load hl t ht bl rL rF h1 h2 h3 h4 h5
  have key : ∀ t ∈ (heatingTemperatures : List ℚ), okTest (do
      let d ← regional .ahri2023 4
      let load ← heatingLoad heatUnit toyPoints (Units.ofOnes ℚ) .two .ahri2023 d
      return (← load t, ← heatLowTwo heatUnit toyPoints t, ← heatFull heatUnit toyPoints t))
      (fun x => decide (x.2.1.1 < x.1 → x.1 < x.2.2.1 → x.2.1.2 ≤ x.2.1.1 ∧ x.2.2.2 ≤ x.2.2.1)) = true := by decide +kernel
  have := key t ht
  simp only [hd, hl, h1, h2, h3, bind_ok, pure_eq_ok, okTest, decide_eq_true_eq] at this
  exact this h4 h5

/-- The hypothesis of `C53_variable_speed_partial` about the bins beyond the full capacity, for the 2017 standard. -/
example {d : HeatDist ℚ} (hd : regional .ahri2017 4 = .ok d) : ∀ load, heatingLoad heatUnit toyPoints (Units.ofOnes ℚ) .varSpeed .ahri2017 d = .ok load →
    ∀ t ∈ heatingTemperatures, ∀ bl rF q' p', load t = .ok bl → heatFull heatUnit toyPoints t = .ok rF → rF.1 ≤ bl →
      interpolate heatUnit.db (sCap heatUnit) toyPoints.h4Full toyPoints.h3Full t = .ok q' →
      interpolate heatUnit.db (sPow heatUnit) toyPoints.h4Full toyPoints.h3Full t = .ok p' → 0 ≤ p' ∧ p' ≤ q' ∧ q' ≤ bl := by
  intro load hl t ht bl rF q' p' h1 h2 h3 h4 h5
  have key : ∀ t ∈ (heatingTemperatures : List ℚ), okTest (do
      let d ← regional .ahri2017 4
      let load ← heatingLoad heatUnit toyPoints (Units.ofOnes ℚ) .varSpeed .ahri2017 d
      return (← load t, ← heatFull heatUnit toyPoints t, ← interpolate heatUnit.db (sCap heatUnit) toyPoints.h4Full toyPoints.h3Full t,
        ← interpolate heatUnit.db (sPow heatUnit) toyPoints.h4Full toyPoints.h3Full t))
      (fun x => decide (x.2.1.1 ≤ x.1 → 0 ≤ x.2.2.2 ∧ x.2.2.2 ≤ x.2.2.1 ∧ x.2.2.1 ≤ x.1)) = true := by decide +kernel
  have := key t ht
  simp only [hd, hl, h1, h2, h4, h5, bind_ok, pure_eq_ok, okTest, decide_eq_true_eq] at this
  exact this h3

/-! ## C52: unit size -/

/-- C52 for the 2023 standard: multiplying every capacity and power of a unit by the same positive factor leaves the rating unchanged, also when it raises. -/
theorem C52_2023 (U : Performance C K) (P : Points C) (u : Units K) (s : HeatSettings K) (defrost : Defrost K) (region : Nat) {l : K} (hl : 0 < l) :
    hspf (U.scale l) P u .ahri2023 s defrost region = hspf U P u .ahri2023 s defrost region := by
  simp only [hspf]
  generalize regional (K := K) .ahri2023 region = x
  cases x with
  | error e => simp only [bind_error]
  | ok d =>
    simp only [bind_ok]
    refine scale_hspfWith hl U P u _ s d _ ?_
    simp only [heatingLoad, scale_netTotal U hl]
    cases U.netTotalCoolingCapacity (some P.aFull) <;> simp only [sc_ok, sc_error, bind_ok, bind_error, Except.map, pure_eq_ok, Except.ok.injEq]
    rename_i q
    funext t
    cases pyNum d.zeroLoad <;> simp only [sc_error, bind_ok, bind_error]
    cases pyNum (if s.st = .varSpeed then d.cVs else d.c) <;> simp only [sc_error, bind_ok, bind_error]
    rename_i z c
    cases pdiv (z - t) (z - d.design) <;> simp only [sc_error, bind_ok, bind_error, sc_ok, Except.ok.injEq]
    rename_i r
    rw [mul_max_of_nonneg _ _ hl.le, mul_zero]
    congr 1; ring

/-- C52 for the 2017 standard, as far as it is true: the rating is unchanged if the nearest standard design heating requirement is multiplied by the same factor.
Missing: other factors, see `C52_2017_refuted`. -/
theorem C52_2017_partial (U : Performance C K) (P : Points C) (u : Units K) (s : HeatSettings K) (defrost : Defrost K) (region : Nat) {l : K} (hl : 0 < l)
    (hn : ∀ d q, regional .ahri2017 region = .ok d → U.netSteadyHeatingCapacity (some P.h1Full) = .ok q →
      Util.findNearest (designRequirements u) (l * (q * (frF 65 - d.design) / (60 * (5 / 9)))) =
        sc l (Util.findNearest (designRequirements u) (q * (frF 65 - d.design) / (60 * (5 / 9))))) :
    hspf (U.scale l) P u .ahri2017 s defrost region = hspf U P u .ahri2017 s defrost region := by
  simp only [hspf]
  generalize regional (K := K) .ahri2017 region = x at hn ⊢
  cases x with
  | error e => simp only [bind_error]
  | ok d =>
    simp only [bind_ok]
    refine scale_hspfWith hl U P u _ s d _ ?_
    have := scale_sCap U hl P.h1Full
    simp only [sCap] at this
    simp only [heatingLoad, this]
    cases hq : U.netSteadyHeatingCapacity (some P.h1Full) with
    | error e => simp only [sc_error, bind_error, Except.map]
    | ok q =>
      simp only [sc_ok, bind_ok]
      rw [show l * q * (frF 65 - d.design) / (60 * (5 / 9)) = l * (q * (frF 65 - d.design) / (60 * (5 / 9))) by ring, hn d q rfl hq]
      cases Util.findNearest (designRequirements u) (q * (frF 65 - d.design) / (60 * (5 / 9))) <;>
        simp only [sc_ok, sc_error, bind_ok, bind_error, Except.map, pure_eq_ok, Except.ok.injEq]
      rename_i x
      funext t
      cases pdiv (frF 65 - t) (frF 65 - d.design) <;> simp only [sc_error, bind_ok, bind_error, sc_ok, Except.ok.injEq]
      rw [mul_max_of_nonneg _ _ hl.le, mul_zero]
      congr 1; ring

/-- C52 is false for the 2017 standard: making a unit a quarter larger changes its rating, because design heating requirements are taken from a list. -/
theorem C52_2017_refuted (st : Staging) : ∃ v v', hspf4 .ahri2017 heatUnit (heatSettings st .lowFull 0) = .ok v ∧
    hspf4 .ahri2017 (heatUnit.scale (5 / 4)) (heatSettings st .lowFull 0) = .ok v' ∧ v ≠ v' := by
  have key : ∀ {x y : Py ℚ} (m : ℚ), okTest x (fun v => decide (v < m)) = true → okTest y (fun v => decide (m < v)) = true → ∃ v v', x = .ok v ∧ y = .ok v' ∧ v < v' := by
    intro x y m h1 h2
    obtain ⟨v, e1, g1⟩ := okTest_iff.1 h1
    obtain ⟨v', e2, g2⟩ := okTest_iff.1 h2
    exact ⟨v, v', e1, e2, lt_trans (by simpa using g1) (by simpa using g2)⟩
  cases st with
  | single =>
    obtain ⟨v, v', h1, h2, h3⟩ := key (263 / 100) (x := hspf4 .ahri2017 (heatUnit.scale (5 / 4)) (heatSettings .single .lowFull 0))
      (y := hspf4 .ahri2017 heatUnit (heatSettings .single .lowFull 0)) (by decide +kernel) (by decide +kernel)
    exact ⟨v', v, h2, h1, h3.ne'⟩
  | two =>
    obtain ⟨v, v', h1, h2, h3⟩ := key (3005 / 1000) (x := hspf4 .ahri2017 heatUnit (heatSettings .two .lowFull 0))
      (y := hspf4 .ahri2017 (heatUnit.scale (5 / 4)) (heatSettings .two .lowFull 0)) (by decide +kernel) (by decide +kernel)
    exact ⟨v, v', h1, h2, h3.ne⟩
  | varSpeed =>
    obtain ⟨v, v', h1, h2, h3⟩ := key 3 (x := hspf4 .ahri2017 heatUnit (heatSettings .varSpeed .lowFull 0))
      (y := hspf4 .ahri2017 (heatUnit.scale (5 / 4)) (heatSettings .varSpeed .lowFull 0)) (by decide +kernel) (by decide +kernel)
    exact ⟨v, v', h1, h2, h3.ne⟩

/-- A size for which the 2017 rating does not change: twice the unit. -/
example : ∃ q, heatUnit.netSteadyHeatingCapacity (some toyPoints.h1Full) = .ok q ∧ Util.findNearest (designRequirements (Units.ofOnes ℚ)) (2 * (q * (frF 65 - frF 5) / (60 * (5 / 9)))) =
    sc 2 (Util.findNearest (designRequirements (Units.ofOnes ℚ)) (q * (frF 65 - frF 5) / (60 * (5 / 9)))) := by
  refine ⟨heatTests.q1, heatUnit_match.q1, by decide +kernel⟩

end Resdx.DX
