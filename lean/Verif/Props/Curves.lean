import Verif.Lemmas.System
import Verif.Lemmas.Psychrometrics
import Verif.Spec.Curves
import Verif.Props.Performance
import Mathlib.Tactic.NormNum

/-!
# The NREL curves and the table correction of the RESNET model: C73, C74
-/

set_option linter.unusedSectionVars false
set_option linter.unusedSimpArgs false

namespace Resdx

open Spec

variable {K : Type} [Field K] [LinearOrder K] [IsStrictOrderedRing K]

/-! ## C74: the curves -/

theorem bracket_clip (x lo hi : K) (h : lo ≤ hi) : Util.bracket x (min := some lo) (max := some hi) = clip lo hi x := by
  simp only [Util.bracket, clip]
  split
  · rename_i hx
    rw [min_eq_right (hx.le.trans h), max_eq_left hx.le]
  · rename_i hx
    have hx := not_lt.mp hx
    split
    · rename_i h2
      rw [min_eq_left h2.le, max_eq_right h]
    · rename_i h2
      rw [min_eq_right (not_lt.mp h2), max_eq_right hx]

theorem bracket_max (x lo : K) : Util.bracket x (min := some lo) = max lo x := by
  simp only [Util.bracket]
  split
  · rename_i hx; rw [max_eq_left hx.le]
  · rename_i hx; rw [max_eq_right (not_lt.mp hx)]

/-- C74: an NREL unit's cooling capacity is the published curve times the rated gross capacity of the speed. -/
theorem C74_cooling_capacity (S : Sys K) (c : Conditions K) (w r q : K) (hw : (Psych.getWb c.indoor).1 = .ok w) (hr : c.flow.ratio = some r)
    (hq : S.grossCooling[c.flow.compressorSpeed]? = some (some q)) :
    Nrel.grossTotalCoolingCapacity S c = .ok (coolCapF r * coolCapT (clip 57 72 (toF w)) (max 75 (toF c.outdoor.db)) * q) := by
  have hs : Sys.at_ S.grossCooling c.flow.compressorSpeed = .ok q := by simp [Sys.at_, pyGet_eq_ok.2 hq, bind_ok, pyNum]
  simp only [Nrel.grossTotalCoolingCapacity, Nrel.coolingIndoor, Nrel.coolingOutdoor, hw, hr, hs, bind_ok, pure_eq_ok, bracket_clip _ _ _ (show (57 : K) ≤ 72 by norm_num),
    bracket_max, Util.calcBiquad, Util.calcQuad, Nrel.coolingCapFT, Nrel.coolingCapFF, pyAttr, pyGet, pyIdx, List.getElem?_cons_zero, List.getElem?_cons_succ, coolCapF, coolCapT]
  congr 3 <;> norm_num <;> ring

/-- C74: its power is the published curves times the rated gross capacity over the rated gross COP; a negative product is rejected. -/
theorem C74_cooling_power (S : Sys K) (c : Conditions K) (w r q k : K) (hw : (Psych.getWb c.indoor).1 = .ok w) (hr : c.flow.ratio = some r)
    (hq : S.grossCooling[c.flow.compressorSpeed]? = some (some q)) (hk : S.grossCoolingCop[c.flow.compressorSpeed]? = some (some k)) (hk0 : k ≠ 0)
    (v : K) (hv : v = coolEirF r * coolCapF r * coolEirT (clip 57 72 (toF w)) (max 75 (toF c.outdoor.db)) *
      coolCapT (clip 57 72 (toF w)) (max 75 (toF c.outdoor.db)) * q / k) :
    Nrel.grossCoolingPower S c = if v < 0 then .error .exception else .ok v := by
  have hs : Sys.at_ S.grossCooling c.flow.compressorSpeed = .ok q := by simp [Sys.at_, pyGet_eq_ok.2 hq, bind_ok, pyNum]
  have hs' : Sys.at_ S.grossCoolingCop c.flow.compressorSpeed = .ok k := by simp [Sys.at_, pyGet_eq_ok.2 hk, bind_ok, pyNum]
  have e : ∀ x y : K, x = y → Util.limitCheck x (min := some 0) = if y < 0 then .error .exception else .ok y := by
    intro x y h; subst h; simp only [Util.limitCheck]
  simp only [Nrel.grossCoolingPower, Nrel.coolingIndoor, Nrel.coolingOutdoor, hw, hr, hs, hs', bind_ok, pure_eq_ok,
    bracket_clip _ _ _ (show (57 : K) ≤ 72 by norm_num), bracket_max, Util.calcBiquad, Util.calcQuad, Nrel.coolingCapFT, Nrel.coolingCapFF, Nrel.coolingEirFT,
    Nrel.coolingEirFF, pyAttr, pyGet, pyIdx, List.getElem?_cons_zero, List.getElem?_cons_succ, pdiv_ok hk0]
  apply e
  rw [hv]
  simp only [coolCapF, coolCapT, coolEirF, coolEirT]
  congr 5 <;> norm_num <;> ring

/-- C74: heating capacity and power. -/
theorem C74_heating (S : Sys K) (c : Conditions K) (r q k : K) (hr : c.flow.ratio = some r)
    (hq : S.grossHeating[c.flow.compressorSpeed]? = some (some q)) (hk : S.grossHeatingCop[c.flow.compressorSpeed]? = some (some k)) (hk0 : k ≠ 0) :
    Nrel.grossSteadyHeatingCapacity S c = .ok (heatCapF r * heatCapT (toF c.indoor.db) (toF c.outdoor.db) * q) ∧
    Nrel.grossSteadyHeatingPower S c = .ok (heatEirF r * heatCapF r * heatEirT (toF c.indoor.db) (toF c.outdoor.db) *
      heatCapT (toF c.indoor.db) (toF c.outdoor.db) * q / k) := by
  have hs : Sys.at_ S.grossHeating c.flow.compressorSpeed = .ok q := by simp [Sys.at_, pyGet_eq_ok.2 hq, bind_ok, pyNum]
  have hs' : Sys.at_ S.grossHeatingCop c.flow.compressorSpeed = .ok k := by simp [Sys.at_, pyGet_eq_ok.2 hk, bind_ok, pyNum]
  constructor
  · simp only [Nrel.grossSteadyHeatingCapacity, hr, hs, bind_ok, pure_eq_ok, Util.calcBiquad, Util.calcQuad, Nrel.heatingCapFT, Nrel.heatingCapFF,
      pyAttr, pyGet, pyIdx, List.getElem?_cons_zero, List.getElem?_cons_succ, heatCapF, heatCapT]
    congr 3 <;> norm_num <;> ring
  · simp only [Nrel.grossSteadyHeatingPower, hr, hs, hs', bind_ok, pure_eq_ok, Util.calcBiquad, Util.calcQuad, Nrel.heatingCapFT, Nrel.heatingCapFF, Nrel.heatingEirFT,
      Nrel.heatingEirFF, pyAttr, pyGet, pyIdx, List.getElem?_cons_zero, List.getElem?_cons_succ, pdiv_ok hk0, heatCapF, heatCapT, heatEirF, heatEirT]
    congr 6 <;> norm_num <;> ring

/-- C74: at rating conditions every curve is 1 within 2 parts per million. -/
theorem C74_rated : |coolCapT (K := K) 67 95 - 1| ≤ 2 / 10 ^ 6 ∧ |coolEirT (K := K) 67 95 - 1| ≤ 2 / 10 ^ 6 ∧ coolCapF (K := K) 1 = 1 ∧ coolEirF (K := K) 1 = 1 ∧
    |heatCapT (K := K) 70 47 - 1| ≤ 2 / 10 ^ 6 ∧ |heatEirT (K := K) 70 47 - 1| ≤ 2 / 10 ^ 6 ∧ heatCapF (K := K) 1 = 1 ∧ heatEirF (K := K) 1 = 1 := by
  refine ⟨?_, ?_, ?_, ?_, ?_, ?_, ?_, ?_⟩ <;> simp only [coolCapT, coolEirT, coolCapF, coolEirF, heatCapT, heatEirT, heatCapF, heatEirF, abs_le] <;> norm_num

/-- C74: above 75 °F cooling capacity falls strictly and energy input ratio rises strictly with outdoor temperature, at every wet bulb in range. -/
theorem C74_cooling_outdoor (w t t' : K) (hw : 57 ≤ w) (hw' : w ≤ 72) (ht : 75 ≤ t) (htt : t < t') : coolCapT w t' < coolCapT w t ∧ coolEirT w t < coolEirT w t' := by
  unfold coolCapT coolEirT
  constructor
  · have e : (3717717741 / 10 ^ 9 - 9918866 / 10 ^ 8 * w + 964488 / 10 ^ 9 * w ^ 2 + 5887776 / 10 ^ 9 * t - 12808 / 10 ^ 9 * t ^ 2 - 132822 / 10 ^ 9 * (w * t) : K) -
        (3717717741 / 10 ^ 9 - 9918866 / 10 ^ 8 * w + 964488 / 10 ^ 9 * w ^ 2 + 5887776 / 10 ^ 9 * t' - 12808 / 10 ^ 9 * t' ^ 2 - 132822 / 10 ^ 9 * (w * t')) =
        (t' - t) * (12808 / 10 ^ 9 * (t + t') + 132822 / 10 ^ 9 * w - 5887776 / 10 ^ 9) := by ring
    have := mul_pos (sub_pos.2 htt) (show (0 : K) < 12808 / 10 ^ 9 * (t + t') + 132822 / 10 ^ 9 * w - 5887776 / 10 ^ 9 by linarith)
    linarith
  · have e : (-3400341169 / 10 ^ 9 + 135184783 / 10 ^ 9 * w - 1037932 / 10 ^ 9 * w ^ 2 - 7852322 / 10 ^ 9 * t' + 183438 / 10 ^ 9 * t' ^ 2 - 142548 / 10 ^ 9 * (w * t') : K) -
        (-3400341169 / 10 ^ 9 + 135184783 / 10 ^ 9 * w - 1037932 / 10 ^ 9 * w ^ 2 - 7852322 / 10 ^ 9 * t + 183438 / 10 ^ 9 * t ^ 2 - 142548 / 10 ^ 9 * (w * t)) =
        (t' - t) * (183438 / 10 ^ 9 * (t + t') - 142548 / 10 ^ 9 * w - 7852322 / 10 ^ 9) := by ring
    have := mul_pos (sub_pos.2 htt) (show (0 : K) < 183438 / 10 ^ 9 * (t + t') - 142548 / 10 ^ 9 * w - 7852322 / 10 ^ 9 by linarith)
    linarith

/-- C74: capacity and energy input ratio are positive up to 125 °F, so no positive rating is turned into a negative power. -/
theorem C74_cooling_positive (w t : K) (hw : 57 ≤ w) (hw' : w ≤ 72) (ht : 75 ≤ t) (ht' : t ≤ 125) : 0 < coolCapT w t ∧ 0 < coolEirT w t := by
  unfold coolCapT coolEirT
  constructor
  · nlinarith [mul_nonneg (sub_nonneg.2 hw) (sub_nonneg.2 ht'), mul_nonneg (sub_nonneg.2 hw') (sub_nonneg.2 ht'), mul_nonneg (sub_nonneg.2 ht) (sub_nonneg.2 ht'),
      sq_nonneg (w - 60)]
  · nlinarith [mul_nonneg (sub_nonneg.2 hw) (sub_nonneg.2 ht), mul_nonneg (sub_nonneg.2 hw') (sub_nonneg.2 ht), mul_nonneg (sub_nonneg.2 hw) (sub_nonneg.2 hw'),
      sq_nonneg (t - 75)]

/-- C74: below 75 °F outdoors and outside 57–72 °F wet bulb nothing changes. -/
theorem C74_limits (lo hi x y : K) (h : lo ≤ hi) : (x ≤ lo → y ≤ lo → clip lo hi x = clip lo hi y) ∧ (hi ≤ x → hi ≤ y → clip lo hi x = clip lo hi y) ∧
    (lo ≤ x → x ≤ hi → clip lo hi x = x) ∧ lo ≤ clip lo hi x ∧ clip lo hi x ≤ hi := by
  unfold clip
  refine ⟨fun h1 h2 => ?_, fun h1 h2 => ?_, fun h1 h2 => ?_, le_max_left _ _, max_le h (min_le_left _ _)⟩
  · rw [min_eq_right (h1.trans h), min_eq_right (h2.trans h), max_eq_left h1, max_eq_left h2]
  · rw [min_eq_left h1, min_eq_left h2]
  · rw [min_eq_right h2, max_eq_right h1]

/-- C74: cooling capacity rises with the wet bulb from 63 °F (from 57 °F only at mild outdoor temperatures, see `C74_wet_bulb_refuted`). -/
theorem C74_wet_bulb_partial (w w' t : K) (hw : 63 ≤ w) (hww : w < w') (ht : t ≤ 125) : coolCapT w t < coolCapT w' t := by
  unfold coolCapT
  have e : (3717717741 / 10 ^ 9 - 9918866 / 10 ^ 8 * w' + 964488 / 10 ^ 9 * w' ^ 2 + 5887776 / 10 ^ 9 * t - 12808 / 10 ^ 9 * t ^ 2 - 132822 / 10 ^ 9 * (w' * t) : K) -
      (3717717741 / 10 ^ 9 - 9918866 / 10 ^ 8 * w + 964488 / 10 ^ 9 * w ^ 2 + 5887776 / 10 ^ 9 * t - 12808 / 10 ^ 9 * t ^ 2 - 132822 / 10 ^ 9 * (w * t)) =
      (w' - w) * (964488 / 10 ^ 9 * (w + w') - 9918866 / 10 ^ 8 - 132822 / 10 ^ 9 * t) := by ring
  have := mul_pos (sub_pos.2 hww) (show (0 : K) < 964488 / 10 ^ 9 * (w + w') - 9918866 / 10 ^ 8 - 132822 / 10 ^ 9 * t by linarith)
  linarith

/-- C74 fails for dry indoor air: at 95 °F outdoors a wet bulb of 58 °F gives less capacity than 57 °F. -/
theorem C74_wet_bulb_refuted : coolCapT (K := K) 58 95 < coolCapT 57 95 := by unfold coolCapT; norm_num

/-- C74: heating capacity rises strictly with outdoor temperature from -60 °F for indoor temperatures up to 100 °F. -/
theorem C74_heating_capacity (i t t' : K) (hi : i ≤ 100) (ht : -60 ≤ t) (htt : t < t') : heatCapT i t < heatCapT i t' := by
  unfold heatCapT
  have e : (568706266 / 10 ^ 9 - 747282 / 10 ^ 9 * i - 103432 / 10 ^ 10 * i ^ 2 + 945408 / 10 ^ 8 * t' + 50812 / 10 ^ 9 * t' ^ 2 - 677828 / 10 ^ 11 * (i * t') : K) -
      (568706266 / 10 ^ 9 - 747282 / 10 ^ 9 * i - 103432 / 10 ^ 10 * i ^ 2 + 945408 / 10 ^ 8 * t + 50812 / 10 ^ 9 * t ^ 2 - 677828 / 10 ^ 11 * (i * t)) =
      (t' - t) * (945408 / 10 ^ 8 + 50812 / 10 ^ 9 * (t + t') - 677828 / 10 ^ 11 * i) := by ring
  have := mul_pos (sub_pos.2 htt) (show (0 : K) < 945408 / 10 ^ 8 + 50812 / 10 ^ 9 * (t + t') - 677828 / 10 ^ 11 * i by linarith)
  linarith

/-- C74: the heating energy input ratio falls strictly with outdoor temperature up to 65 °F for indoor temperatures from 60 °F. -/
theorem C74_heating_eir (i t t' : K) (hi : 60 ≤ i) (ht : t' ≤ 65) (htt : t < t') : heatEirT i t' < heatEirT i t := by
  unfold heatEirT
  have e : (722917608 / 10 ^ 9 + 3520184 / 10 ^ 9 * i + 143097 / 10 ^ 9 * i ^ 2 - 5760341 / 10 ^ 9 * t + 141736 / 10 ^ 9 * t ^ 2 - 216676 / 10 ^ 9 * (i * t) : K) -
      (722917608 / 10 ^ 9 + 3520184 / 10 ^ 9 * i + 143097 / 10 ^ 9 * i ^ 2 - 5760341 / 10 ^ 9 * t' + 141736 / 10 ^ 9 * t' ^ 2 - 216676 / 10 ^ 9 * (i * t')) =
      (t' - t) * (5760341 / 10 ^ 9 + 216676 / 10 ^ 9 * i - 141736 / 10 ^ 9 * (t + t')) := by ring
  have := mul_pos (sub_pos.2 htt) (show (0 : K) < 5760341 / 10 ^ 9 + 216676 / 10 ^ 9 * i - 141736 / 10 ^ 9 * (t + t') by linarith)
  linarith

/-- C74: capacity rises with airflow up to rated, and energy input ratio falls; both heating and cooling. -/
theorem C74_airflow (r r' : K) (h0 : 0 ≤ r) (h : r < r') (h1 : r' ≤ 1) :
    coolCapF r < coolCapF r' ∧ coolEirF r' < coolEirF r ∧ heatCapF r < heatCapF r' ∧ heatEirF r' < heatEirF r ∧ 0 < coolCapF r ∧ 0 < heatCapF r := by
  unfold coolCapF coolEirF heatCapF heatEirF
  have hd := sub_pos.2 h
  have hp : 0 ≤ (r' - r) * (2 - r - r') := mul_nonneg hd.le (by linarith)
  have hs : 0 ≤ (r' - r) * (r + r') := mul_nonneg hd.le (by linarith)
  refine ⟨?_, ?_, ?_, ?_, ?_, ?_⟩ <;> nlinarith

example : Nrel.grossTotalCoolingCapacity sampleSys sampleA = .ok (coolCapF 1 * coolCapT 67 95 * 11000) ∧
    (Psych.getWb sampleA.indoor).1 = .ok (frF 67) ∧ sampleA.flow.ratio = some 1 := by decide +kernel

/-! ## C73: table correction -/

/-- The NREL functions depend on the conditions only through these five values. -/
theorem nrel_congr (S : Sys K) (c c' : Conditions K) (h1 : (Psych.getWb c.indoor).1 = (Psych.getWb c'.indoor).1) (h2 : c.indoor.db = c'.indoor.db)
    (h3 : c.outdoor.db = c'.outdoor.db) (h4 : c.flow.ratio = c'.flow.ratio) (h5 : c.flow.compressorSpeed = c'.flow.compressorSpeed) :
    Nrel.grossTotalCoolingCapacity S c = Nrel.grossTotalCoolingCapacity S c' ∧ Nrel.grossCoolingPower S c = Nrel.grossCoolingPower S c' ∧
    Nrel.grossSteadyHeatingCapacity S c = Nrel.grossSteadyHeatingCapacity S c' ∧ Nrel.grossSteadyHeatingPower S c = Nrel.grossSteadyHeatingPower S c' := by
  simp only [Nrel.grossTotalCoolingCapacity, Nrel.grossCoolingPower, Nrel.grossSteadyHeatingCapacity, Nrel.grossSteadyHeatingPower, Nrel.coolingIndoor,
    Nrel.coolingOutdoor, h1, h2, h3, h4, h5, and_self]

/-- The outdoor state of the correction has the same temperature. -/
theorem ratedOutdoor_db (E : Env K) (db : K) (o : Psych.PsychState K) (h : Resnet.ratedOutdoor E db = .ok o) : o.db = db := by
  rw [Resnet.ratedOutdoor, Psych.init_relHum] at h
  cases hw : E.lib.tWetBulbFromRelHum (toC db) 0.4 E.atm <;> simp [hw, bind_ok, bind_error, pure_eq_ok, Psych.blank] at h
  rw [← h]

variable (E : Env K) (S : Sys K) (D : Resnet.Data K)

/-- C73: the value reported at any conditions: the table value times the ratio of the NREL curve there to the NREL curve at rated indoor conditions and
airflow and the same outdoor temperature. -/
theorem C73_correction (heating : Bool) (fn : Conditions K → Py K) (c rated : Conditions K) (o : Psych.PsychState K) (a b : K)
    (ho : Resnet.ratedOutdoor E c.outdoor.db = .ok o) (hc : S.makeCondition E heating c.flow.compressorSpeed none (some o) = .ok rated)
    (ha : fn c = .ok a) (hb : fn rated = .ok b) (hb0 : b ≠ 0) :
    Resnet.correction E S heating fn c = .ok (a / b) ∧ rated.outdoor.db = c.outdoor.db ∧ rated.indoor = defaultIndoor E heating ∧ rated.flow.ratio = some 1 := by
  obtain ⟨rho, pr, x, cap, fs, _, _, _, _, _, _, _, _, _, rfl⟩ := Sys.makeCondition_spec E S heating _ _ _ _ hc
  exact ⟨by simp only [Resnet.correction, ho, hc, ha, hb, bind_ok, pdiv_ok hb0], ratedOutdoor_db E _ o ho, rfl, rfl⟩

/-- C73: all four table lookups in terms of the correction. -/
theorem C73_lookup (g : Tabular.Perf K) (hg : D.gross = some g) (c : Conditions K) (kc kh : K) (hkc : D.coolingMap[c.flow.compressorSpeed]? = some kc)
    (hkh : D.heatingMap[c.flow.compressorSpeed]? = some kh) (q p hq hp f1 f2 f3 f4 : K)
    (t1 : g.coolingCapacity kc c.outdoor.db = .ok q) (t2 : g.coolingPower kc c.outdoor.db = .ok p) (t3 : g.heatingCapacity kh c.outdoor.db = .ok hq)
    (t4 : g.heatingPower kh c.outdoor.db = .ok hp) (e1 : Resnet.correction E S false (Nrel.grossTotalCoolingCapacity S) c = .ok f1)
    (e2 : Resnet.correction E S false (Nrel.grossCoolingPower S) c = .ok f2) (e3 : Resnet.correction E S true (Nrel.grossSteadyHeatingCapacity S) c = .ok f3)
    (e4 : Resnet.correction E S true (Nrel.grossSteadyHeatingPower S) c = .ok f4) :
    Resnet.grossTotalCoolingCapacity E S D c = .ok (q * f1) ∧ Resnet.grossCoolingPower E S D c = .ok (p * f2) ∧
    Resnet.grossSteadyHeatingCapacity E S D c = .ok (hq * f3) ∧ Resnet.grossSteadyHeatingPower E S D c = .ok (hp * f4) := by
  simp only [Resnet.grossTotalCoolingCapacity, Resnet.grossCoolingPower, Resnet.grossSteadyHeatingCapacity, Resnet.grossSteadyHeatingPower, hg, Resnet.mapGet, hkc, hkh,
    bind_ok, t1, t2, t3, t4, e1, e2, e3, e4, pure_eq_ok, and_self]

/-- The correction of a rated condition is 1. -/
theorem correction_rated (heating : Bool) (fn : Conditions K → Py K)
    (hfn : ∀ c c' : Conditions K, c.indoor = c'.indoor → c.outdoor.db = c'.outdoor.db → c.flow.ratio = c'.flow.ratio →
      c.flow.compressorSpeed = c'.flow.compressorSpeed → fn c = fn c')
    (c : Conditions K) (speed : Nat) (o r : Psych.PsychState K) (n : K) (hr : Resnet.ratedOutdoor E o.db = .ok r)
    (hc : S.makeCondition E heating speed none (some o) = .ok c) (hn : fn c = .ok n) (hn0 : n ≠ 0) : Resnet.correction E S heating fn c = .ok 1 := by
  obtain ⟨rho, pr, x, cap, fs, h1, h2, h3, h4, h5, h6, h7, ⟨full, h8, h9, rfl⟩, h10, rfl⟩ := Sys.makeCondition_spec E S heating _ _ _ _ hc
  have hm := Sys.makeCondition_ok E S heating speed none (some r) rho x cap full fs h1 h2 h3 h4 h9 h5 h6 h7 h8 h10
  have hrdb := ratedOutdoor_db E _ r hr
  have hsame := hfn ⟨heating, defaultIndoor E heating, o, ratedFlow rho E.rhoStd speed fs (S.fullESP * (x / full) ^ 2) x cap⟩
    ⟨heating, defaultIndoor E heating, r, ratedFlow rho E.rhoStd speed fs (S.fullESP * (x / full) ^ 2) x cap⟩ rfl hrdb.symm rfl rfl
  have h := (C73_correction E S heating fn _ _ r n n hr hm hn (hsame.symm.trans hn) hn0).1
  rwa [div_self hn0] at h

/-- C73: at rated indoor conditions and airflow the unit reports the table, at every outdoor state `o` and every speed: cooling. -/
theorem C73_rated_cooling (g : Tabular.Perf K) (hg : D.gross = some g) (speed : Nat) (o r : Psych.PsychState K) (c : Conditions K) (k n m : K)
    (hk : D.coolingMap[speed]? = some k) (hr : Resnet.ratedOutdoor E o.db = .ok r) (hc : S.makeCondition E false speed none (some o) = .ok c)
    (hn : Nrel.grossTotalCoolingCapacity S c = .ok n) (hn0 : n ≠ 0) (hm : Nrel.grossCoolingPower S c = .ok m) (hm0 : m ≠ 0) :
    Resnet.grossTotalCoolingCapacity E S D c = g.coolingCapacity k o.db ∧ Resnet.grossCoolingPower E S D c = g.coolingPower k o.db := by
  have e1 := correction_rated E S false (Nrel.grossTotalCoolingCapacity S) (fun a b h1 h2 h3 h4 => (nrel_congr S a b (by rw [h1]) (by rw [h1]) h2 h3 h4).1) c speed o r n hr hc hn hn0
  have e2 := correction_rated E S false (Nrel.grossCoolingPower S) (fun a b h1 h2 h3 h4 => (nrel_congr S a b (by rw [h1]) (by rw [h1]) h2 h3 h4).2.1) c speed o r m hr hc hm hm0
  obtain ⟨rho, pr, x, cap, fs, _, _, _, _, _, _, _, _, _, rfl⟩ := Sys.makeCondition_spec E S false _ _ _ _ hc
  have hk' : Resnet.mapGet D.coolingMap speed = .ok k := by simp [Resnet.mapGet, hk]
  constructor
  · simp only [Resnet.grossTotalCoolingCapacity, hg, ratedFlow] at e1 ⊢
    rw [hk', bind_ok, e1]
    simp only [Option.getD_some]
    cases g.coolingCapacity k o.db <;> simp [bind_ok, bind_error, pure_eq_ok]
  · simp only [Resnet.grossCoolingPower, hg, ratedFlow] at e2 ⊢
    rw [hk', bind_ok, e2]
    simp only [Option.getD_some]
    cases g.coolingPower k o.db <;> simp [bind_ok, bind_error, pure_eq_ok]

/-- C73: the same for heating. -/
theorem C73_rated_heating (g : Tabular.Perf K) (hg : D.gross = some g) (speed : Nat) (o r : Psych.PsychState K) (c : Conditions K) (k n m : K)
    (hk : D.heatingMap[speed]? = some k) (hr : Resnet.ratedOutdoor E o.db = .ok r) (hc : S.makeCondition E true speed none (some o) = .ok c)
    (hn : Nrel.grossSteadyHeatingCapacity S c = .ok n) (hn0 : n ≠ 0) (hm : Nrel.grossSteadyHeatingPower S c = .ok m) (hm0 : m ≠ 0) :
    Resnet.grossSteadyHeatingCapacity E S D c = g.heatingCapacity k o.db ∧ Resnet.grossSteadyHeatingPower E S D c = g.heatingPower k o.db := by
  have e1 := correction_rated E S true (Nrel.grossSteadyHeatingCapacity S) (fun a b h1 h2 h3 h4 => (nrel_congr S a b (by rw [h1]) (by rw [h1]) h2 h3 h4).2.2.1) c speed o r n hr hc hn hn0
  have e2 := correction_rated E S true (Nrel.grossSteadyHeatingPower S) (fun a b h1 h2 h3 h4 => (nrel_congr S a b (by rw [h1]) (by rw [h1]) h2 h3 h4).2.2.2) c speed o r m hr hc hm hm0
  obtain ⟨rho, pr, x, cap, fs, _, _, _, _, _, _, _, _, _, rfl⟩ := Sys.makeCondition_spec E S true _ _ _ _ hc
  have hk' : Resnet.mapGet D.heatingMap speed = .ok k := by simp [Resnet.mapGet, hk]
  constructor
  · simp only [Resnet.grossSteadyHeatingCapacity, hg, ratedFlow] at e1 ⊢
    rw [hk', bind_ok, e1]
    simp only [Option.getD_some]
    cases g.heatingCapacity k o.db <;> simp [bind_ok, bind_error, pure_eq_ok]
  · simp only [Resnet.grossSteadyHeatingPower, hg, ratedFlow] at e2 ⊢
    rw [hk', bind_ok, e2]
    simp only [Option.getD_some]
    cases g.heatingPower k o.db <;> simp [bind_ok, bind_error, pure_eq_ok]

/-- The hypotheses are met by the sample unit at a 115 °F cooling and a 5 °F heating condition. -/
example : (∃ r, Resnet.ratedOutdoor sampleEnv (frF 115) = .ok r) ∧
    okAnd (do Nrel.grossTotalCoolingCapacity sampleSys (← sampleSys.makeCondition sampleEnv false 0 none (some (wetState 101325 (frF 115) (frF 80))))) (fun v => decide (v ≠ 0)) ∧
    okAnd (do Nrel.grossSteadyHeatingPower sampleSys (← sampleSys.makeCondition sampleEnv true 0 none (some (wetState 101325 (frF 5) (frF 3))))) (fun v => decide (v ≠ 0)) :=
  ⟨⟨_, rfl⟩, by decide +kernel, by decide +kernel⟩

end Resdx
