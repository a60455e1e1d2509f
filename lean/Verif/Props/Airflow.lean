import Verif.Props.ChargeFault
import Verif.Props.Curves

/-!
# C130: capacity, power and efficiency at other airflows
-/

set_option linter.unusedSectionVars false
set_option linter.unusedSimpArgs false

namespace Resdx

open Spec DX DX.Performance Nrel

variable {K : Type} [Field K] [LinearOrder K] [IsStrictOrderedRing K]

/-- Two conditions that differ in the airflow only. -/
structure OnlyAirflow (c c' : Conditions K) : Prop where
  heating : c'.heating = c.heating
  indoor : c'.indoor = c.indoor
  outdoor : c'.outdoor = c.outdoor
  speed : c'.flow.compressorSpeed = c.flow.compressorSpeed

/-- The published airflow curves. -/
def airCurve (heating : Bool) : FunctionType → K → K
  | .capacity, r => if heating then heatCapF r else coolCapF r
  | .power, r => if heating then heatEirF r * heatCapF r else coolEirF r * coolCapF r

theorem airCurve_one (heating : Bool) (ft : FunctionType) : airCurve (K := K) heating ft 1 = 1 := by
  obtain ⟨-, -, h1, h2, -, -, h3, h4⟩ := C74_rated (K := K)
  cases heating <;> cases ft <;> simp [airCurve, h1, h2, h3, h4]

/-- A function follows an airflow curve. -/
def AirLaw (fn : Conditions K → Py K) (φ : K → K) : Prop :=
  ∀ c c' r r' v v', OnlyAirflow c c' → c.flow.ratio = some r → c'.flow.ratio = some r' → fn c = .ok v → fn c' = .ok v' → v * φ r' = v' * φ r

theorem at_ok {l : List (Option K)} {i : Nat} {q : K} (h : Sys.at_ l i = .ok q) : l[i]? = some (some q) := by
  simp only [Sys.at_, bind_eq_ok, pyGet_eq_ok] at h
  obtain ⟨o, h1, h2⟩ := h
  cases o with
  | none => simp [pyNum] at h2
  | some x => simp only [pyNum, Except.ok.injEq] at h2; rw [h1, h2]

theorem nrel_coolCap (S : Sys K) : AirLaw (Nrel.grossTotalCoolingCapacity S) coolCapF := by
  intro c c' r r' v v' h hr hr' hv hv'
  have hv0 := hv
  simp only [Nrel.grossTotalCoolingCapacity, coolingIndoor, bind_eq_ok, pure_eq_ok] at hv0
  obtain ⟨_, ⟨w, hw, -⟩, _, -, _, -, _, -, q, hq, -⟩ := hv0
  have hq := at_ok hq
  rw [C74_cooling_capacity S c w r q hw hr hq, Except.ok.injEq] at hv
  rw [C74_cooling_capacity S c' w r' q (by rw [h.indoor]; exact hw) hr' (by rw [h.speed]; exact hq), h.outdoor, Except.ok.injEq] at hv'
  subst hv; subst hv'; ring

theorem nrel_coolPow (S : Sys K) : AirLaw (Nrel.grossCoolingPower S) (fun r => coolEirF r * coolCapF r) := by
  intro c c' r r' v v' h hr hr' hv hv'
  have hv0 := hv
  simp only [Nrel.grossCoolingPower, coolingIndoor, bind_eq_ok, pure_eq_ok, pdiv_eq_ok] at hv0
  obtain ⟨_, ⟨w, hw, -⟩, _, -, _, -, _, -, _, -, _, -, _, -, q, hq, k, hk, _, ⟨hk0, -⟩, -⟩ := hv0
  have hq := at_ok hq
  have hk := at_ok hk
  rw [C74_cooling_power S c w r q k hw hr hq hk hk0 _ rfl] at hv
  rw [C74_cooling_power S c' w r' q k (by rw [h.indoor]; exact hw) hr' (by rw [h.speed]; exact hq) (by rw [h.speed]; exact hk) hk0 _ rfl, h.outdoor] at hv'
  split at hv
  · cases hv
  split at hv'
  · cases hv'
  rw [Except.ok.injEq] at hv hv'
  subst hv; subst hv'; ring

theorem nrel_heatCap (S : Sys K) : AirLaw (Nrel.grossSteadyHeatingCapacity S) heatCapF := by
  intro c c' r r' v v' h hr hr' hv hv'
  simp only [Nrel.grossSteadyHeatingCapacity, hr, hr', h.indoor, h.outdoor, h.speed, bind_eq_ok, pure_eq_ok, Util.calcBiquad, Util.calcQuad, Nrel.heatingCapFT, Nrel.heatingCapFF, pyAttr, pyGet,
    pyIdx, List.getElem?_cons_zero, List.getElem?_cons_succ, Except.ok.injEq, exists_eq_left'] at hv hv'
  obtain ⟨q, hq, rfl⟩ := hv
  obtain ⟨q', hq', rfl⟩ := hv'
  obtain rfl : q = q' := Except.ok.inj (hq.symm.trans hq')
  unfold heatCapF
  norm_num
  ring

theorem nrel_heatPow (S : Sys K) : AirLaw (Nrel.grossSteadyHeatingPower S) (fun r => heatEirF r * heatCapF r) := by
  intro c c' r r' v v' h hr hr' hv hv'
  have hv0 := hv
  simp only [Nrel.grossSteadyHeatingPower, bind_eq_ok, pdiv_eq_ok] at hv0
  obtain ⟨_, -, _, -, _, -, _, -, _, -, _, -, q, hq, k, hk, hk0, -⟩ := hv0
  have hq := at_ok hq
  have hk := at_ok hk
  rw [(C74_heating S c r q k hr hq hk hk0).2, Except.ok.injEq] at hv
  rw [(C74_heating S c' r' q k hr' (by rw [h.speed]; exact hq) (by rw [h.speed]; exact hk) hk0).2, h.indoor, h.outdoor, Except.ok.injEq] at hv'
  subst hv; subst hv'; ring

/-- Tables corrected by a curve follow the curve. -/
theorem corrected (E : Env K) (S : Sys K) (heating : Bool) {fn : Conditions K → Py K} {φ : K → K} (h : AirLaw fn φ) (look : Nat → K → Py K) :
    AirLaw (fun c => do return (← look c.flow.compressorSpeed c.outdoor.db) * (← Resnet.correction E S heating fn c)) φ := by
  intro c c' r r' v v' hs hr hr' hv hv'
  simp only [Resnet.correction, hs.speed, hs.outdoor, bind_eq_ok, pure_eq_ok, Except.ok.injEq, pdiv_eq_ok] at hv hv'
  obtain ⟨t, ht, f, ⟨o, ho, k, hk, a, ha, b, hb, b0, rfl⟩, rfl⟩ := hv
  obtain ⟨t', ht', f', ⟨o', ho', k', hk', a', ha', b', hb', -, rfl⟩, rfl⟩ := hv'
  obtain rfl : t = t' := Except.ok.inj (ht.symm.trans ht')
  obtain rfl : o = o' := Except.ok.inj (ho.symm.trans ho')
  obtain rfl : k = k' := Except.ok.inj (hk.symm.trans hk')
  obtain rfl : b = b' := Except.ok.inj (hb.symm.trans hb')
  have := h c c' r r' a a' hs hr hr' ha ha'
  field_simp
  linear_combination t * this

/-- All four functions of a model follow the published curves. -/
def RawLaw (R : Raw K) : Prop := ∀ heating ft, AirLaw (R.pick heating ft) (airCurve heating ft)

theorem nrel_raw (S : Sys K) : RawLaw (Nrel.raw S) := by
  intro heating ft
  cases heating <;> cases ft
  · exact nrel_coolCap S
  · exact nrel_coolPow S
  · exact nrel_heatCap S
  · exact nrel_heatPow S

theorem resnet_coolCap (E : Env K) (S : Sys K) (D : Resnet.Data K) : AirLaw (Resnet.grossTotalCoolingCapacity E S D) coolCapF := by
  intro c c' r r' v v' h hr hr' hv hv'
  simp only [Resnet.grossTotalCoolingCapacity] at hv hv'
  cases hD : D.gross with
  | none => rw [hD] at hv hv'; exact nrel_coolCap S c c' r r' v v' h hr hr' hv hv'
  | some g =>
    rw [hD] at hv hv'
    refine corrected E S false (nrel_coolCap S) (fun i t => do g.coolingCapacity (← Resnet.mapGet D.coolingMap i) t) c c' r r' v v' h hr hr' ?_ ?_
    · simpa [bind_assoc] using hv
    · simpa [bind_assoc] using hv'

theorem resnet_coolPow (E : Env K) (S : Sys K) (D : Resnet.Data K) : AirLaw (Resnet.grossCoolingPower E S D) (fun r => coolEirF r * coolCapF r) := by
  intro c c' r r' v v' h hr hr' hv hv'
  simp only [Resnet.grossCoolingPower] at hv hv'
  cases hD : D.gross with
  | none => rw [hD] at hv hv'; exact nrel_coolPow S c c' r r' v v' h hr hr' hv hv'
  | some g =>
    rw [hD] at hv hv'
    refine corrected E S false (nrel_coolPow S) (fun i t => do g.coolingPower (← Resnet.mapGet D.coolingMap i) t) c c' r r' v v' h hr hr' ?_ ?_
    · simpa [bind_assoc] using hv
    · simpa [bind_assoc] using hv'

theorem resnet_heatCap (E : Env K) (S : Sys K) (D : Resnet.Data K) : AirLaw (Resnet.grossSteadyHeatingCapacity E S D) heatCapF := by
  intro c c' r r' v v' h hr hr' hv hv'
  simp only [Resnet.grossSteadyHeatingCapacity] at hv hv'
  cases hD : D.gross with
  | none => rw [hD] at hv hv'; exact nrel_heatCap S c c' r r' v v' h hr hr' hv hv'
  | some g =>
    rw [hD] at hv hv'
    refine corrected E S true (nrel_heatCap S) (fun i t => do g.heatingCapacity (← Resnet.mapGet D.heatingMap i) t) c c' r r' v v' h hr hr' ?_ ?_
    · simpa [bind_assoc] using hv
    · simpa [bind_assoc] using hv'

theorem resnet_heatPow (E : Env K) (S : Sys K) (D : Resnet.Data K) : AirLaw (Resnet.grossSteadyHeatingPower E S D) (fun r => heatEirF r * heatCapF r) := by
  intro c c' r r' v v' h hr hr' hv hv'
  simp only [Resnet.grossSteadyHeatingPower] at hv hv'
  cases hD : D.gross with
  | none => rw [hD] at hv hv'; exact nrel_heatPow S c c' r r' v v' h hr hr' hv hv'
  | some g =>
    rw [hD] at hv hv'
    refine corrected E S true (nrel_heatPow S) (fun i t => do g.heatingPower (← Resnet.mapGet D.heatingMap i) t) c c' r r' v v' h hr hr' ?_ ?_
    · simpa [bind_assoc] using hv
    · simpa [bind_assoc] using hv'

theorem resnet_raw (E : Env K) (S : Sys K) (D : Resnet.Data K) : RawLaw (Resnet.raw E S D) := by
  intro heating ft
  cases heating <;> cases ft
  · exact resnet_coolCap E S D
  · exact resnet_coolPow E S D
  · exact resnet_heatCap E S D
  · exact resnet_heatPow E S D

/-- The factor by which the models rescale the airflow of a unit with a charge fault: the inverse of the capacity factor at the rating condition. -/
def airScale (heating : Bool) (d : K) : K := 1 / faultFactor heating false (toC (frF (if heating then 70 else 80))) (toC (frF (if heating then 47 else 95))) d

theorem airScale_zero (heating : Bool) : airScale (K := K) heating 0 = 1 := by
  cases heating <;> simp [airScale, faultFactor, faultCoefficients, faultCurve]

theorem withRatio_rated {E : Env K} {S : Sys K} {heating : Bool} {i : Nat} {rated c : Conditions K} {x : K} (h : S.makeCondition E heating i = .ok rated) (hc : withRatio rated x = .ok c) :
    OnlyAirflow rated c ∧ c.flow.ratio = some x ∧ rated.flow.ratio = some 1 := by
  obtain ⟨rho, pr, a, cap, fs, h1, h2, h3, h4, _, _, _, _, _, rfl⟩ := Sys.makeCondition_spec E S _ _ _ _ _ h
  simp only [withRatio, setRatio_rated _ _ _ _ _ _ _ _ h1 h2 h4, bind_ok, pure_eq_ok, Except.ok.injEq] at hc
  subst hc
  exact ⟨⟨rfl, rfl, rfl, rfl⟩, rfl, rfl⟩

/-- The charge factor at any airflow. -/
theorem grading_closed {E : Env K} {S : Sys K} {R : Raw K} (hR : RawLaw R) {ft : FunctionType} {c : Conditions K} {r v : K} (hr : c.flow.ratio = some r)
    (hv : gradingModel E S R ft c = .ok v) :
    S.chargeDeviation ≠ 0 → airCurve c.heating ft r ≠ 0 ∧ airCurve c.heating ft (airScale c.heating S.chargeDeviation) ≠ 0 ∧
    v = faultFactor c.heating (decide (ft = .power)) c.indoor.dbC c.outdoor.dbC S.chargeDeviation / airCurve c.heating ft (airScale c.heating S.chargeDeviation) *
      airCurve c.heating ft (r * airScale c.heating S.chargeDeviation) / airCurve c.heating ft r := by
  intro hS
  simp only [Nrel.gradingModel, if_neg hS, bind_eq_ok, hr, pyAttr, Except.ok.injEq, pdiv_eq_ok, chargeFactor_spec, exists_eq_left'] at hv
  obtain ⟨rated, hrated, rv, hrv, cf, ⟨hcf0, rfl⟩, c1, hc1, x1, hx1, y1, ⟨hy1, rfl⟩, c2, hc2, x2, hx2, y2, ⟨hy2, rfl⟩, c3, hc3, x3, hx3, y3,
    ⟨hy3, rfl⟩, z, ⟨hz, rfl⟩, hv0, rfl⟩ := hv
  have hκ : 1 / faultFactor c.heating (decide (FunctionType.capacity = FunctionType.power)) rated.indoor.dbC rated.outdoor.dbC S.chargeDeviation = airScale c.heating S.chargeDeviation := by
    obtain ⟨rho, pr, a, cap, fs, h1, h2, h3, h4, _, _, _, _, _, rfl⟩ := Sys.makeCondition_spec E S _ _ _ _ _ hrated
    cases c.heating <;> rfl
  rw [hκ] at hc1 hc2
  have law := fun {x : K} {c' : Conditions K} {y : K} (h : withRatio rated x = .ok c') (hy : R.pick c.heating ft c' = .ok y) => by
    obtain ⟨g1, g2, g3⟩ := withRatio_rated hrated h
    have := hR c.heating ft rated c' 1 x rv y g1 g3 g2 hrv hy
    rw [airCurve_one, mul_one] at this
    exact this.symm
  rw [law hc1 hx1] at hz ⊢
  rw [law hc2 hx2]
  rw [law hc3 hx3] at hv0 ⊢
  have e : ∀ x : K, rv * x / rv = x := fun x => mul_div_cancel_left₀ x hy1
  rw [e] at hz hv0
  simp only [e]
  exact ⟨hv0, hz, trivial⟩

/-- The same law for the functions of a unit with a charge fault, at the rescaled airflow. -/
theorem graded_law {E : Env K} {S : Sys K} {R : Raw K} (hR : RawLaw R) {ft : FunctionType} {c c' : Conditions K} {r r' V V' g g' : K} (hs : OnlyAirflow c c') (hr : c.flow.ratio = some r)
    (hr' : c'.flow.ratio = some r') (hV : R.pick c.heating ft c = .ok V) (hV' : R.pick c.heating ft c' = .ok V') (hg : gradingModel E S R ft c = .ok g)
    (hg' : gradingModel E S R ft c' = .ok g') :
    V * g * airCurve c.heating ft (r' * airScale c.heating S.chargeDeviation) = V' * g' * airCurve c.heating ft (r * airScale c.heating S.chargeDeviation) := by
  have key := hR c.heating ft c c' r r' V V' hs hr hr' hV hV'
  by_cases hd : S.chargeDeviation = 0
  · rw [C42_nominal E S R _ hd, Except.ok.injEq] at hg hg'
    rw [hd, airScale_zero, mul_one, mul_one, ← hg, ← hg', mul_one, mul_one]
    exact key
  · obtain ⟨n1, n2, e1⟩ := grading_closed hR hr hg hd
    obtain ⟨n3, -, e2⟩ := grading_closed hR hr' hg' hd
    rw [hs.heating, hs.indoor, hs.outdoor] at e2
    rw [hs.heating] at n3
    rw [e1, e2]
    generalize airCurve c.heating ft (r * airScale c.heating S.chargeDeviation) = A
    generalize airCurve c.heating ft (r' * airScale c.heating S.chargeDeviation) = B
    generalize airCurve c.heating ft (airScale c.heating S.chargeDeviation) = C at *
    generalize faultFactor c.heating (decide (ft = .power)) c.indoor.dbC c.outdoor.dbC S.chargeDeviation = F
    field_simp
    linear_combination (A * B * F) * key

theorem curves_rise {x y : K} (h0 : 0 ≤ x) (h : x ≤ y) :
    (y ≤ 1.5 → 0 < coolCapF x ∧ coolCapF x ≤ coolCapF y ∧ 0 < coolEirF y ∧ coolEirF y ≤ coolEirF x) ∧
    (y ≤ 1.28 → 0 < heatCapF x ∧ heatCapF x ≤ heatCapF y ∧ 0 < heatEirF y ∧ heatEirF y ≤ heatEirF x) := by
  have hd := sub_nonneg.2 h
  have hs : 0 ≤ (y - x) * (x + y) := mul_nonneg hd (by linarith)
  unfold coolCapF coolEirF heatCapF heatEirF
  constructor <;> intro hy <;> norm_num at hy
  · have hp : 0 ≤ (y - x) * (3 - x - y) := mul_nonneg hd (by linarith)
    refine ⟨?_, ?_, ?_, ?_⟩ <;> nlinarith
  · have hp : 0 ≤ (y - x) * (64 / 25 - x - y) := mul_nonneg hd (by linarith)
    refine ⟨?_, ?_, ?_, ?_⟩
    · nlinarith
    · nlinarith
    · nlinarith [sq_nonneg (y - 128 / 100)]
    · nlinarith

section
variable {E : Env K} {fan : Conditions K → Py K} {mk : K → Performance (Conditions K) K} (H : ByCharge E fan mk) {c c' : Conditions K} (hs : OnlyAirflow c c') {r r' d : K}
  (hr : c.flow.ratio = some r) (hr' : c'.flow.ratio = some r')
include H hs hr hr'

/-- C130: at other airflows and with any charge, the cooling capacity and the power change by the published curves of the airflow, rescaled by the charge. -/
theorem C130_cooling_law (hc : c.heating = false) {q q' p p' : K} (hq : (mk d).grossTotalCoolingCapacity (some c) = .ok q) (hq' : (mk d).grossTotalCoolingCapacity (some c') = .ok q')
    (hp : (mk d).grossCoolingPower (some c) = .ok p) (hp' : (mk d).grossCoolingPower (some c') = .ok p') :
    q * coolCapF (r' * airScale false d) = q' * coolCapF (r * airScale false d) ∧
    p * (coolEirF (r' * airScale false d) * coolCapF (r' * airScale false d)) = p' * (coolEirF (r * airScale false d) * coolCapF (r * airScale false d)) := by
  simp only [Performance.grossTotalCoolingCapacity, Performance.grossCoolingPower, Option.getD_some, bind_eq_ok, limitCheck_min_eq_ok] at hq hq' hp hp'
  obtain ⟨q0, h1, v, h2, -, rfl⟩ := hq
  obtain ⟨q0', h1', v', h2', -, rfl⟩ := hq'
  obtain ⟨p0, k1, w, k2, -, rfl⟩ := hp
  obtain ⟨p0', k1', w', k2', -, rfl⟩ := hp'
  cases H with
  | resnet S D sensible a h =>
    have e1 := graded_law (ft := .capacity) (resnet_raw E (charged S d) D) hs hr hr' (by rw [hc]; exact h1) (by rw [hc]; exact h1') h2 h2'
    have e2 := graded_law (ft := .power) (resnet_raw E (charged S d) D) hs hr hr' (by rw [hc]; exact k1) (by rw [hc]; exact k1') k2 k2'
    rw [hc] at e1 e2
    exact ⟨e1, e2⟩
  | nrel S time hum sensible a h =>
    have e1 := graded_law (ft := .capacity) (nrel_raw (charged S d)) hs hr hr' (by rw [hc]; exact h1) (by rw [hc]; exact h1') h2 h2'
    have e2 := graded_law (ft := .power) (nrel_raw (charged S d)) hs hr hr' (by rw [hc]; exact k1) (by rw [hc]; exact k1') k2 k2'
    rw [hc] at e1 e2
    exact ⟨e1, e2⟩

/-- C130: the same in heating. -/
theorem C130_heating_law (hc : c.heating = true) {q q' p p' : K} (hq : (mk d).grossSteadyHeatingCapacity (some c) = .ok q) (hq' : (mk d).grossSteadyHeatingCapacity (some c') = .ok q')
    (hp : (mk d).grossSteadyHeatingPower (some c) = .ok p) (hp' : (mk d).grossSteadyHeatingPower (some c') = .ok p') :
    q * heatCapF (r' * airScale true d) = q' * heatCapF (r * airScale true d) ∧
    p * (heatEirF (r' * airScale true d) * heatCapF (r' * airScale true d)) = p' * (heatEirF (r * airScale true d) * heatCapF (r * airScale true d)) := by
  simp only [Performance.grossSteadyHeatingCapacity, Performance.grossSteadyHeatingPower, Option.getD_some, bind_eq_ok, pure_eq_ok, Except.ok.injEq] at hq hq' hp hp'
  obtain ⟨q0, h1, v, h2, rfl⟩ := hq
  obtain ⟨q0', h1', v', h2', rfl⟩ := hq'
  obtain ⟨p0, k1, w, k2, rfl⟩ := hp
  obtain ⟨p0', k1', w', k2', rfl⟩ := hp'
  cases H with
  | resnet S D sensible a h =>
    have e1 := graded_law (ft := .capacity) (resnet_raw E (charged S d) D) hs hr hr' (by rw [hc]; exact h1) (by rw [hc]; exact h1') h2 h2'
    have e2 := graded_law (ft := .power) (resnet_raw E (charged S d) D) hs hr hr' (by rw [hc]; exact k1) (by rw [hc]; exact k1') k2 k2'
    rw [hc] at e1 e2
    exact ⟨e1, e2⟩
  | nrel S time hum sensible a h =>
    have e1 := graded_law (ft := .capacity) (nrel_raw (charged S d)) hs hr hr' (by rw [hc]; exact h1) (by rw [hc]; exact h1') h2 h2'
    have e2 := graded_law (ft := .power) (nrel_raw (charged S d)) hs hr hr' (by rw [hc]; exact k1) (by rw [hc]; exact k1') k2 k2'
    rw [hc] at e1 e2
    exact ⟨e1, e2⟩

omit H hs hr hr' in
/-- From the laws to the comparison. -/
theorem compare_air {q q' p p' a a' e e' : K} (h1 : q * a' = q' * a) (h2 : p * (e' * a') = p' * (e * a)) (ha : 0 < a) (haa : a ≤ a') (he : 0 < e') (hee : e' ≤ e) (hq : 0 ≤ q') (hp : 0 < p)
    (hp' : 0 < p') : q ≤ q' ∧ q / p ≤ q' / p' := by
  have ha' := ha.trans_le haa
  have e0 := he.trans_le hee
  have qq : q = q' * a / a' := by rw [← h1]; field_simp
  have pe : p = p' * (e * a) / (e' * a') := by rw [← h2]; field_simp
  constructor
  · rw [qq, div_le_iff₀ ha']
    exact mul_le_mul_of_nonneg_left haa hq
  · have : q / p = q' / p' * (e' / e) := by rw [qq, pe]; field_simp
    rw [this]
    exact mul_le_of_le_one_right (div_nonneg hq hp'.le) ((div_le_one e0).2 hee)

/-- C130: with less air a unit cools no more and is no more efficient, the fan aside, up to one and a half times the rated airflow. -/
theorem C130_cooling (hc : c.heating = false) {q q' p p' : K} (hq : (mk d).grossTotalCoolingCapacity (some c) = .ok q) (hq' : (mk d).grossTotalCoolingCapacity (some c') = .ok q')
    (hp : (mk d).grossCoolingPower (some c) = .ok p) (hp' : (mk d).grossCoolingPower (some c') = .ok p') (h0 : 0 ≤ r) (hrr : r ≤ r') (hd : 0 < airScale false d)
    (hmax : r' * airScale false d ≤ 1.5) (p0 : 0 < p) (p0' : 0 < p') : q ≤ q' ∧ q / p ≤ q' / p' := by
  obtain ⟨e1, e2⟩ := C130_cooling_law H hs hr hr' hc hq hq' hp hp'
  obtain ⟨a1, a2, a3, a4⟩ := (curves_rise (mul_nonneg h0 hd.le) (mul_le_mul_of_nonneg_right hrr hd.le)).1 hmax
  have q0 : 0 ≤ q' := by
    simp only [Performance.grossTotalCoolingCapacity, bind_eq_ok, limitCheck_min_eq_ok] at hq'
    obtain ⟨_, _, _, _, h, rfl⟩ := hq'
    exact h
  exact compare_air e1 e2 a1 a2 a3 a4 q0 p0 p0'

/-- C130: the same in heating, up to 1.28 times the rated airflow. -/
theorem C130_heating (hc : c.heating = true) {q q' p p' : K} (hq : (mk d).grossSteadyHeatingCapacity (some c) = .ok q) (hq' : (mk d).grossSteadyHeatingCapacity (some c') = .ok q')
    (hp : (mk d).grossSteadyHeatingPower (some c) = .ok p) (hp' : (mk d).grossSteadyHeatingPower (some c') = .ok p') (h0 : 0 ≤ r) (hrr : r ≤ r') (hd : 0 < airScale true d)
    (hmax : r' * airScale true d ≤ 1.28) (q0 : 0 ≤ q') (p0 : 0 < p) (p0' : 0 < p') : q ≤ q' ∧ q / p ≤ q' / p' := by
  obtain ⟨e1, e2⟩ := C130_heating_law H hs hr hr' hc hq hq' hp hp'
  obtain ⟨a1, a2, a3, a4⟩ := (curves_rise (mul_nonneg h0 hd.le) (mul_le_mul_of_nonneg_right hrr hd.le)).2 hmax
  exact compare_air e1 e2 a1 a2 a3 a4 q0 p0 p0'

/-- C130 fails for much air: from 1.283 times the rated airflow every unit heats less efficiently the more air it moves. -/
theorem C130_heating_beyond (hc : c.heating = true) {q q' p p' : K} (hq : (mk d).grossSteadyHeatingCapacity (some c) = .ok q) (hq' : (mk d).grossSteadyHeatingCapacity (some c') = .ok q')
    (hp : (mk d).grossSteadyHeatingPower (some c) = .ok p) (hp' : (mk d).grossSteadyHeatingPower (some c') = .ok p') (hd : 0 < airScale true d)
    (hmin : 1.283 ≤ r * airScale true d) (hrr : r < r') (hmax : r' * airScale true d ≤ 3) (q0 : 0 < q) (p0 : 0 < p) (p0' : 0 < p') : q' / p' < q / p := by
  obtain ⟨e1, e2⟩ := C130_heating_law H hs hr hr' hc hq hq' hp hp'
  have hxy := mul_lt_mul_of_pos_right hrr hd
  generalize r * airScale true d = x at *
  generalize r' * airScale true d = y at *
  norm_num at hmin
  have a1 : 0 < heatCapF x := by unfold heatCapF; nlinarith
  have a2 : 0 < heatCapF y := by unfold heatCapF; nlinarith
  have a3 : 0 < heatEirF x := by unfold heatEirF; nlinarith [sq_nonneg (x - 128 / 100)]
  have a4 : heatEirF x < heatEirF y := by
    unfold heatEirF
    have : 0 < (y - x) * (x + y - 2566 / 1000) := mul_pos (by linarith) (by linarith)
    nlinarith
  have q0' : 0 < q' := by
    have : 0 < q' * heatCapF x := by rw [← e1]; exact mul_pos q0 a2
    exact pos_of_mul_pos_left this a1.le
  have qq : q' = q * heatCapF y / heatCapF x := by rw [e1]; field_simp
  have pe : p' = p * (heatEirF y * heatCapF y) / (heatEirF x * heatCapF x) := by rw [e2]; field_simp
  have : q' / p' = q / p * (heatEirF x / heatEirF y) := by rw [qq, pe]; field_simp
  rw [this]
  exact mul_lt_of_lt_one_right (div_pos q0 p0) ((div_lt_one (a3.trans a4)).2 a4)

end

/-- The sample unit at 80 % and 120 % of the rated airflow: the hypotheses hold with 10 % too little charge. -/
example : ByCharge sampleEnv (fun _ => .ok 300) chargedSample ∧ OnlyAirflow { sampleA with flow := { sampleA.flow with ratio := some 0.8 } } { sampleA with flow := { sampleA.flow with ratio := some 1.2 } } ∧
    0 < airScale (K := ℚ) false (-0.1) ∧ 1.2 * airScale (K := ℚ) false (-0.1) ≤ 1.5 ∧
    okAnd ((chargedSample (-0.1)).grossTotalCoolingCapacity (some { sampleA with flow := { sampleA.flow with ratio := some 0.8 } }))
      (fun q => okAnd ((chargedSample (-0.1)).grossTotalCoolingCapacity (some { sampleA with flow := { sampleA.flow with ratio := some 1.2 } })) fun q' => decide (0 < q ∧ q < q')) = true :=
  ⟨.resnet _ _ _ _ _, ⟨rfl, rfl, rfl, rfl⟩, by decide +kernel, by decide +kernel, by decide +kernel⟩

/-- C130 is false of the code: the sample unit heats less efficiently with 1.5 times the rated airflow than with 1.3 times. -/
theorem C130_refuted : ∃ e e', (chargedSample 0).grossSteadyHeatingCOP (some { sampleH1 with flow := { sampleH1.flow with ratio := some 1.3 } }) = .ok e ∧
    (chargedSample 0).grossSteadyHeatingCOP (some { sampleH1 with flow := { sampleH1.flow with ratio := some 1.5 } }) = .ok e' ∧ 0 < e' ∧ e' < e := by
  have h : okAnd ((chargedSample 0).grossSteadyHeatingCOP (some { sampleH1 with flow := { sampleH1.flow with ratio := some 1.3 } }))
      (fun e => okAnd ((chargedSample 0).grossSteadyHeatingCOP (some { sampleH1 with flow := { sampleH1.flow with ratio := some 1.5 } })) fun e' => decide (0 < e' ∧ e' < e)) = true := by
    decide +kernel
  obtain ⟨e, h1, h2⟩ := okAnd_iff.1 h
  obtain ⟨e', h3, h4⟩ := okAnd_iff.1 h2
  exact ⟨e, e', h1, h3, of_decide_eq_true h4⟩

end Resdx
