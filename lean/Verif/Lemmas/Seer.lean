import Verif.Model.Seer
import Verif.Spec.Ratings
import Verif.Lemmas.DXUnit
import Mathlib.Tactic.NormNum
import Mathlib.Tactic.Positivity
import Mathlib.Tactic.FieldSimp

/-! # Lemmas about the seasonal cooling rating -/

set_option linter.unusedSectionVars false
set_option linter.unusedSimpArgs false

namespace Resdx.DX

open Spec Performance BaseModel

variable {C K : Type} [Field K] [LinearOrder K] [IsStrictOrderedRing K]

theorem binLoop_ok (f : K → K → Py (K × K)) (gq ge : K → K) (bins : List (K × K))
    (h : ∀ b ∈ bins, f b.1 b.2 = .ok (gq b.1 * b.2, ge b.1 * b.2)) (q e : K) :
    binLoop f bins q e = .ok (q + CoolTests.total gq bins, e + CoolTests.total ge bins) := by
  induction bins generalizing q e with
  | nil => simp [binLoop, CoolTests.total]
  | cons b l ih =>
    rw [binLoop, h b List.mem_cons_self, bind_ok, ih fun x hx => h x (List.mem_cons_of_mem _ hx)]
    simp [CoolTests.total, add_assoc]

theorem load_spec (qA t : K) (hqA : 0 ≤ qA) : coolingLoad qA t = coolBuildingLoad qA (toF t) := by
  have e : (t - frF 65) / (frF 95 - frF 65) * qA / 1.1 = qA / (11 / 10) * ((toF t - 65) / 30) := by
    conv_lhs => rw [← frF_toF t]
    simp only [frF_sub]
    generalize toF t = x
    have : (1.1 : K) = 11 / 10 := by norm_num
    rw [this, show ((95 : K) - 65) = 30 by norm_num]
    field_simp
  rw [coolingLoad, e, coolBuildingLoad]
  split
  · rename_i h
    apply max_eq_right
    apply mul_nonpos_of_nonneg_of_nonpos (by positivity)
    apply div_nonpos_of_nonpos_of_nonneg (by linarith) (by norm_num)
  · rename_i h
    apply max_eq_left
    have : 0 ≤ toF t - 65 := by linarith [not_le.mp h]
    positivity

theorem cyclingBin_ok {cd bl q p n : K} (hcd : 0 ≤ cd) (hcd1 : cd < 1) (hq : 0 < q) (hbl : 0 ≤ bl) (hle : bl ≤ q) :
    cyclingBin cd bl q p n = .ok (bl * n, cyclingRate cd q p bl * n) := by
  have h1 : 0 ≤ bl / q := by positivity
  have h2 : bl / q ≤ 1 := (div_le_one hq).2 hle
  have h3 : 0 < 1 - cd * (1 - bl / q) := by nlinarith
  simp only [cyclingBin, pdiv_ok hq.ne', bind_ok, pdiv_ok h3.ne', pure_eq_ok, Except.ok.injEq, Prod.mk.injEq, cyclingRate]
  exact ⟨by rw [div_mul_cancel₀ _ hq.ne'], by ring⟩

theorem lineAt_left (x0 y0 x1 y1 : K) : lineAt x0 y0 x1 y1 x0 = y0 := by simp [lineAt]

theorem lineAt_right (x0 y0 x1 y1 : K) (h : x0 ≠ x1) : lineAt x0 y0 x1 y1 x1 = y1 := by
  simp [lineAt, div_self (sub_ne_zero.2 h.symm)]

theorem lineAt_convex {x0 y0 x1 y1 x : K} (h : x0 < x1) (h0 : x0 ≤ x) (h1 : x ≤ x1) :
    ∃ s, 0 ≤ s ∧ s ≤ 1 ∧ lineAt x0 y0 x1 y1 x = (1 - s) * y0 + s * y1 := by
  refine ⟨(x - x0) / (x1 - x0), div_nonneg (by linarith) (by linarith), (div_le_one (by linarith)).2 (by linarith), ?_⟩
  simp only [lineAt]; ring

theorem lineAt_pos {x0 y0 x1 y1 x : K} (h : x0 < x1) (h0 : x0 ≤ x) (h1 : x ≤ x1) (hy0 : 0 < y0) (hy1 : 0 < y1) : 0 < lineAt x0 y0 x1 y1 x := by
  obtain ⟨s, hs0, hs1, e⟩ := lineAt_convex (y0 := y0) (y1 := y1) h h0 h1
  rw [e]
  rcases hs0.lt_or_eq with h' | h'
  · have := mul_pos h' hy1
    have := mul_nonneg (sub_nonneg.2 hs1) hy0.le
    linarith
  · subst h'; simpa using hy0

theorem twoStageBin_ok {cd : K} {cyc : Cycling} {bl qL pL qF pF n : K} (hcd : 0 ≤ cd) (hcd1 : cd < 1) (hq : 0 < qL) (hle : qL ≤ qF) (hbl : 0 ≤ bl) :
    twoStageBin cd cyc bl qL pL qF pF n = .ok (min bl qF * n, twoStageRate cd (decide (cyc = .lowFull)) qL pL qF pF bl * n) := by
  unfold twoStageBin twoStageRate
  by_cases h1 : bl ≤ qL
  · rw [if_pos h1, if_pos h1, cyclingBin_ok hcd hcd1 hq hbl h1, min_eq_left (h1.trans hle)]
  rw [if_neg h1, if_neg h1]
  have h1' := not_le.mp h1
  by_cases h2 : bl < qF
  · cases cyc
    · have hd : qF - qL ≠ 0 := by linarith
      simp only [h2, true_and, if_true, decide_true, pdiv_ok hd, bind_ok, pure_eq_ok, min_eq_left h2.le, Except.ok.injEq, Prod.mk.injEq, lineAt]
      constructor <;> congr 1 <;> field_simp <;> ring
    · simp [h2, cyclingBin_ok hcd hcd1 (hq.trans_le hle) hbl h2.le, min_eq_left h2.le]
  · simp [h2, min_eq_right (not_lt.mp h2)]

theorem modulatingBin_ok {bl q0 c0 q1 c1 n : K} (hq : q0 < q1) (h0 : q0 ≤ bl) (h1 : bl ≤ q1) (hc0 : 0 < c0) (hc1 : 0 < c1) :
    modulatingBin bl q0 c0 q1 c1 n = .ok (bl * n, bl / lineAt q0 c0 q1 c1 bl * n) := by
  have hd : q1 - q0 ≠ 0 := by linarith
  have hp := lineAt_pos hq h0 h1 hc0 hc1
  have e : c0 + (c1 - c0) / (q1 - q0) * (bl - q0) = lineAt q0 c0 q1 c1 bl := by simp only [lineAt]; ring
  simp only [modulatingBin, pdiv_ok hd, bind_ok, e, pdiv_ok hp.ne', pure_eq_ok, Except.ok.injEq, Prod.mk.injEq, true_and]
  ring

theorem varSpeedBin_ok {cd bl qL pL qI pI qF pF n : K} (hcd : 0 ≤ cd) (hcd1 : cd < 1) (hq : 0 < qL) (hle : qL ≤ qI) (hlt : qI < qF)
    (hpL : 0 < pL) (hpI : 0 < pI) (hpF : 0 < pF) (hbl : 0 ≤ bl) :
    varSpeedBin cd bl qL pL qI pI qF pF n = .ok (min bl qF * n, varSpeedRate cd qL pL qI pI qF pF bl * n) := by
  have hI := hq.trans_le hle
  have hF := hI.trans hlt
  simp only [varSpeedBin, varSpeedRate, pdiv_ok hpL.ne', pdiv_ok hpI.ne', pdiv_ok hpF.ne', bind_ok]
  by_cases h1 : bl ≤ qL
  · rw [if_pos h1, if_pos h1, cyclingBin_ok hcd hcd1 hq hbl h1, min_eq_left (h1.trans (hle.trans hlt.le))]
  rw [if_neg h1, if_neg h1]
  have h1' := not_le.mp h1
  by_cases h2 : bl < qI
  · rw [if_pos h2, if_pos h2, modulatingBin_ok (h1'.trans h2) h1'.le h2.le (div_pos hq hpL) (div_pos hI hpI), min_eq_left (h2.trans hlt).le]
  rw [if_neg h2, if_neg h2]
  by_cases h3 : bl ≤ qF
  · rw [if_pos h3, if_pos h3, modulatingBin_ok hlt (not_lt.mp h2) h3 (div_pos hI hpI) (div_pos hF hpF), min_eq_left h3]
  · rw [if_neg h3, if_neg h3, min_eq_right (not_le.mp h3).le]

/-- The unit, tested at its rating conditions, gives these results; the conditions are at the standard temperatures. -/
structure CoolMatch (U : Performance C K) (P : Points C) (T : CoolTests K) : Prop where
  qA : U.netTotalCoolingCapacity (some P.aFull) = .ok T.qA
  pA : U.netCoolingPower (some P.aFull) = .ok T.pA
  qB : U.netTotalCoolingCapacity (some P.bFull) = .ok T.qB
  pB : U.netCoolingPower (some P.bFull) = .ok T.pB
  dbA : U.db P.aFull = frF 95
  dbB : U.db P.bFull = frF 82
  low : ∃ b f, P.bLow = some b ∧ P.fLow = some f ∧ U.netTotalCoolingCapacity (some b) = .ok T.qBl ∧ U.netCoolingPower (some b) = .ok T.pBl ∧
    U.netTotalCoolingCapacity (some f) = .ok T.qFl ∧ U.netCoolingPower (some f) = .ok T.pFl ∧ U.db b = frF 82 ∧ U.db f = frF 67

/-- And at the intermediate condition. -/
def CoolMatch.Int (U : Performance C K) (P : Points C) (T : CoolTests K) : Prop :=
  ∃ e, P.eInt = some e ∧ U.netTotalCoolingCapacity (some e) = .ok T.qE ∧ U.netCoolingPower (some e) = .ok T.pE

theorem interpolate_line {U : Performance C K} {f : C → Py K} {c1 c2 : C} {y1 y2 x1 x2 : K} (h1 : f c1 = .ok y1) (h2 : f c2 = .ok y2)
    (d1 : U.db c1 = frF x1) (d2 : U.db c2 = frF x2) (hne : x1 ≠ x2) (t : K) :
    interpolate U.db f c1 c2 t = .ok (lineAt x1 y1 x2 y2 (toF t)) := by
  have hd : frF x2 - frF x1 ≠ 0 := sub_ne_zero.2 fun h => hne (frF_inj.1 h).symm
  simp only [interpolate, interpolateSeparate, h1, h2, d1, d2, bind_ok, pdiv_ok hd, pure_eq_ok, Except.ok.injEq, lineAt]
  congr 1
  conv_lhs => rw [← frF_toF t]
  simp only [frF_sub]
  have : x2 - x1 ≠ 0 := sub_ne_zero.2 fun h => hne h.symm
  field_simp

theorem coolingLines_ok {U : Performance C K} {P : Points C} {T : CoolTests K} (h : CoolMatch U P T) (hA : 0 ≤ T.qA) (t : K) :
    coolingLines U P t = .ok (T.load (toF t), T.qLow (toF t), T.pLow (toF t), T.qFull (toF t), T.pFull (toF t)) := by
  obtain ⟨b, f, hb, hf, h1, h2, h3, h4, d1, d2⟩ := h.low
  have n1 : (67 : K) ≠ 82 := by norm_num
  have n2 : (82 : K) ≠ 95 := by norm_num
  simp only [coolingLines, hb, hf, pyAttr, bind_ok, h.qA, load_spec T.qA t hA,
    interpolate_line (f := fun c => U.netTotalCoolingCapacity (some c)) h3 h1 d2 d1 n1,
    interpolate_line (f := fun c => U.netCoolingPower (some c)) h4 h2 d2 d1 n1,
    interpolate_line (f := fun c => U.netTotalCoolingCapacity (some c)) h.qB h.qA h.dbB h.dbA n2,
    interpolate_line (f := fun c => U.netCoolingPower (some c)) h.pB h.pA h.dbB h.dbA n2, pure_eq_ok]
  rfl

/-- The intermediate line is the same mixture of the low and full lines at every temperature. -/
theorem mixture_line (y0 y1 z0 z1 e x : K) (hne : lineAt 82 z0 95 z1 87 - lineAt 67 y0 82 y1 87 ≠ 0) :
    let n := (e - lineAt 67 y0 82 y1 87) / (lineAt 82 z0 95 z1 87 - lineAt 67 y0 82 y1 87)
    e + ((y1 - y0) / (82 - 67) * (1 - n) + (z1 - z0) / (95 - 82) * n) * (x - 87) =
      (1 - n) * lineAt 67 y0 82 y1 x + n * lineAt 82 z0 95 z1 x := by
  intro n
  have he : e = (1 - n) * lineAt 67 y0 82 y1 87 + n * lineAt 82 z0 95 z1 87 := by
    have : n * (lineAt 82 z0 95 z1 87 - lineAt 67 y0 82 y1 87) = e - lineAt 67 y0 82 y1 87 := div_mul_cancel₀ _ hne
    linear_combination -this
  rw [he]
  simp only [lineAt]
  norm_num
  ring

theorem coolingIntermediate_ok {U : Performance C K} {P : Points C} {f : C → Py K} {b fl e : C} {yA yB yBl yFl yE : K}
    (hb : P.bLow = some b) (hf : P.fLow = some fl) (he : P.eInt = some e) (hA : f P.aFull = .ok yA) (hB : f P.bFull = .ok yB)
    (hBl : f b = .ok yBl) (hFl : f fl = .ok yFl) (hE : f e = .ok yE) (dA : U.db P.aFull = frF 95) (dB : U.db P.bFull = frF 82)
    (dBl : U.db b = frF 82) (dFl : U.db fl = frF 67) (hne : lineAt 82 yB 95 yA 87 - lineAt 67 yFl 82 yBl 87 ≠ 0) :
    ∃ m, coolingIntermediate U P f = .ok (yE, m) ∧ ∀ t, yE + m * (t - frF 87) =
      let n := (yE - lineAt 67 yFl 82 yBl 87) / (lineAt 82 yB 95 yA 87 - lineAt 67 yFl 82 yBl 87)
      (1 - n) * lineAt 67 yFl 82 yBl (toF t) + n * lineAt 82 yB 95 yA (toF t) := by
  have n1 : (67 : K) ≠ 82 := by norm_num
  have n2 : (82 : K) ≠ 95 := by norm_num
  refine ⟨_, by simp only [coolingIntermediate, hb, hf, he, pyAttr, bind_ok, hA, hB, hBl, hFl, hE, interpolate_line hFl hBl dFl dBl n1,
    interpolate_line hB hA dB dA n2, toF_frF, pdiv_ok hne, pure_eq_ok]; rfl, fun t => ?_⟩
  have := mixture_line yFl yBl yB yA yE (toF t) hne
  simp only at this ⊢
  rw [← this]
  conv_lhs => rw [← frF_toF t]
  simp only [frF_sub]
  rw [add_right_inj]
  generalize (yE - lineAt 67 yFl 82 yBl 87) / (lineAt 82 yB 95 yA 87 - lineAt 67 yFl 82 yBl 87) = n
  field_simp

/-! ## Energy at a load -/

theorem cyclingRate_nonneg {cd q p l : K} (hcd : 0 ≤ cd) (hcd1 : cd < 1) (hq : 0 < q) (hp : 0 ≤ p) (h0 : 0 ≤ l) (h1 : l ≤ q) : 0 ≤ cyclingRate cd q p l := by
  have hl : l / q ≤ 1 := (div_le_one hq).2 h1
  have h2 : 0 ≤ l / q := by positivity
  have h3 : 0 < 1 - cd * (1 - l / q) := by nlinarith
  unfold cyclingRate
  positivity

theorem cyclingRate_mono {cd cd' q p l : K} (hcd : cd ≤ cd') (h0d : 0 ≤ cd) (hcd1 : cd' < 1) (hq : 0 < q) (hp : 0 ≤ p) (h0 : 0 ≤ l) (h1 : l ≤ q) :
    cyclingRate cd q p l ≤ cyclingRate cd' q p l := by
  have hl : l / q ≤ 1 := (div_le_one hq).2 h1
  have h2 : 0 ≤ l / q := by positivity
  have h3 : 0 < 1 - cd' * (1 - l / q) := by nlinarith
  unfold cyclingRate
  apply div_le_div_of_nonneg_left (by positivity) h3
  nlinarith

/-- Cycling never beats the steady-state COP. -/
theorem cyclingRate_cop {cd q p l M : K} (hcd : 0 ≤ cd) (hcd1 : cd < 1) (hq : 0 < q) (hp : 0 < p) (h0 : 0 ≤ l) (h1 : l ≤ q) (hM : q / p ≤ M) :
    l ≤ M * cyclingRate cd q p l := by
  have hl : l / q ≤ 1 := (div_le_one hq).2 h1
  have h2 : 0 ≤ l / q := by positivity
  have h3 : 0 < 1 - cd * (1 - l / q) := by nlinarith
  have h4 : 1 - cd * (1 - l / q) ≤ 1 := by nlinarith
  have hM0 : 0 < M := lt_of_lt_of_le (by positivity) hM
  have h5 : l / q * p ≤ cyclingRate cd q p l := by
    unfold cyclingRate
    rw [le_div_iff₀ h3]
    exact mul_le_of_le_one_right (by positivity) h4
  have h6 : l = q / p * (l / q * p) := by field_simp
  calc l = q / p * (l / q * p) := h6
    _ ≤ M * (l / q * p) := mul_le_mul_of_nonneg_right hM (by positivity)
    _ ≤ M * cyclingRate cd q p l := mul_le_mul_of_nonneg_left h5 hM0.le

/-- Cycling costs at most the factor `1/(1-cd)`. -/
theorem cyclingRate_le {cd q p l m : K} (hcd : 0 ≤ cd) (hcd1 : cd < 1) (hq : 0 < q) (hp : 0 < p) (h0 : 0 ≤ l) (h1 : l ≤ q) (hm0 : 0 ≤ m) (hm : m ≤ q / p) :
    (1 - cd) * m * cyclingRate cd q p l ≤ l := by
  have hl : l / q ≤ 1 := (div_le_one hq).2 h1
  have h2 : 0 ≤ l / q := by positivity
  have h3 : 0 < 1 - cd * (1 - l / q) := by nlinarith
  unfold cyclingRate
  rw [← mul_div_assoc, div_le_iff₀ h3]
  have h6 : m * (l / q * p) ≤ l := by
    calc m * (l / q * p) ≤ q / p * (l / q * p) := mul_le_mul_of_nonneg_right hm (by positivity)
      _ = l := by field_simp
  have h7 : 0 ≤ m * (l / q * p) := by positivity
  have h8 : 0 ≤ cd * (l / q) := by positivity
  calc (1 - cd) * m * (l / q * p) = (1 - cd) * (m * (l / q * p)) := by ring
    _ ≤ (1 - cd) * l := mul_le_mul_of_nonneg_left h6 (by linarith)
    _ ≤ l * (1 - cd * (1 - l / q)) := by nlinarith

theorem lineAt_between {x0 y0 x1 y1 x lo hi : K} (h : x0 < x1) (h0 : x0 ≤ x) (h1 : x ≤ x1) (a0 : lo ≤ y0) (a1 : lo ≤ y1) (b0 : y0 ≤ hi) (b1 : y1 ≤ hi) :
    lo ≤ lineAt x0 y0 x1 y1 x ∧ lineAt x0 y0 x1 y1 x ≤ hi := by
  obtain ⟨s, hs0, hs1, e⟩ := lineAt_convex (y0 := y0) (y1 := y1) h h0 h1
  rw [e]
  constructor <;> nlinarith

theorem modulating_bounds {q0 c0 q1 c1 l m M : K} (hq0 : 0 < q0) (hq : q0 < q1) (h0 : q0 ≤ l) (h1 : l ≤ q1) (hc0 : 0 < c0) (hc1 : 0 < c1)
    (m0 : m ≤ c0) (m1 : m ≤ c1) (M0 : c0 ≤ M) (M1 : c1 ≤ M) :
    0 < l / lineAt q0 c0 q1 c1 l ∧ m * (l / lineAt q0 c0 q1 c1 l) ≤ l ∧ l ≤ M * (l / lineAt q0 c0 q1 c1 l) := by
  have hp := lineAt_pos hq h0 h1 hc0 hc1
  obtain ⟨h2, h3⟩ := lineAt_between hq h0 h1 m0 m1 M0 M1
  have hl : 0 < l := hq0.trans_le h0
  have hr := div_pos hl hp
  refine ⟨hr, ?_, ?_⟩
  · calc m * (l / lineAt q0 c0 q1 c1 l) ≤ lineAt q0 c0 q1 c1 l * (l / lineAt q0 c0 q1 c1 l) := mul_le_mul_of_nonneg_right h2 hr.le
      _ = l := mul_div_cancel₀ _ hp.ne'
  · calc l = lineAt q0 c0 q1 c1 l * (l / lineAt q0 c0 q1 c1 l) := (mul_div_cancel₀ _ hp.ne').symm
      _ ≤ M * (l / lineAt q0 c0 q1 c1 l) := mul_le_mul_of_nonneg_right h3 hr.le

theorem full_bounds {cd q p m M : K} (hcd : 0 ≤ cd) (hcd1 : cd < 1) (hp : 0 < p) (hm0 : 0 ≤ m) (hm : m ≤ q / p) (hM : q / p ≤ M) :
    0 ≤ p ∧ (1 - cd) * m * p ≤ q ∧ q ≤ M * p := by
  have h1 : m * p ≤ q := (le_div_iff₀ hp).1 hm
  have h2 := mul_nonneg hm0 hp.le
  exact ⟨hp.le, by nlinarith, (div_le_iff₀ hp).1 hM⟩

theorem twoStageRate_bounds {cd : K} {b : Bool} {qL pL qF pF l m M : K} (hcd : 0 ≤ cd) (hcd1 : cd < 1) (hq : 0 < qL) (hle : qL ≤ qF) (hpL : 0 < pL)
    (hpF : 0 < pF) (h0 : 0 ≤ l) (hm0 : 0 ≤ m) (mL : m ≤ qL / pL) (mF : m ≤ qF / pF) (ML : qL / pL ≤ M) (MF : qF / pF ≤ M) :
    0 ≤ twoStageRate cd b qL pL qF pF l ∧ (1 - cd) * m * twoStageRate cd b qL pL qF pF l ≤ min l qF ∧
      min l qF ≤ M * twoStageRate cd b qL pL qF pF l := by
  have hF : 0 < qF := hq.trans_le hle
  unfold twoStageRate
  split
  · rename_i h
    rw [min_eq_left (h.trans hle)]
    exact ⟨cyclingRate_nonneg hcd hcd1 hq hpL.le h0 h, cyclingRate_le hcd hcd1 hq hpL h0 h hm0 mL, cyclingRate_cop hcd hcd1 hq hpL h0 h ML⟩
  · rename_i h
    split
    · rename_i h'
      rw [min_eq_left h'.le]
      split
      · have hlt : qL < qF := (not_le.mp h).trans h'
        have hd : qF - qL ≠ 0 := by linarith
        obtain ⟨s, hs⟩ : ∃ s, s = (l - qL) / (qF - qL) := ⟨_, rfl⟩
        have hs0 : 0 ≤ s := by rw [hs]; exact div_nonneg (by linarith [not_le.mp h]) (by linarith)
        have hs1 : s ≤ 1 := by rw [hs]; exact (div_le_one (by linarith)).2 (by linarith)
        have hl : l = (1 - s) * qL + s * qF := by rw [hs]; field_simp; ring
        have e : lineAt qL pL qF pF l = (1 - s) * pL + s * pF := by simp only [lineAt, ← hs]; ring
        have mL' : m * pL ≤ qL := (le_div_iff₀ hpL).1 mL
        have mF' : m * pF ≤ qF := (le_div_iff₀ hpF).1 mF
        have ML' : qL ≤ M * pL := (div_le_iff₀ hpL).1 ML
        have MF' : qF ≤ M * pF := (div_le_iff₀ hpF).1 MF
        have hpos : 0 ≤ (1 - s) * pL + s * pF := add_nonneg (mul_nonneg (by linarith) hpL.le) (mul_nonneg hs0 hpF.le)
        rw [e]
        refine ⟨hpos, ?_, ?_⟩
        · have h1 : m * ((1 - s) * pL + s * pF) ≤ l := by
            rw [hl]; nlinarith [mul_le_mul_of_nonneg_left mL' (sub_nonneg.2 hs1), mul_le_mul_of_nonneg_left mF' hs0]
          have h2 : 0 ≤ m * ((1 - s) * pL + s * pF) := mul_nonneg hm0 hpos
          nlinarith
        · rw [hl]; nlinarith [mul_le_mul_of_nonneg_left ML' (sub_nonneg.2 hs1), mul_le_mul_of_nonneg_left MF' hs0]
      · exact ⟨cyclingRate_nonneg hcd hcd1 hF hpF.le h0 h'.le, cyclingRate_le hcd hcd1 hF hpF h0 h'.le hm0 mF, cyclingRate_cop hcd hcd1 hF hpF h0 h'.le MF⟩
    · rename_i h'
      rw [min_eq_right (not_lt.mp h')]
      exact full_bounds hcd hcd1 hpF hm0 mF MF

theorem varSpeedRate_bounds {cd qL pL qI pI qF pF l m M : K} (hcd : 0 ≤ cd) (hcd1 : cd < 1) (hq : 0 < qL) (hle : qL ≤ qI) (hlt : qI < qF) (hpL : 0 < pL)
    (hpI : 0 < pI) (hpF : 0 < pF) (h0 : 0 ≤ l) (hm0 : 0 ≤ m) (mL : m ≤ qL / pL) (mI : m ≤ qI / pI) (mF : m ≤ qF / pF) (ML : qL / pL ≤ M)
    (MI : qI / pI ≤ M) (MF : qF / pF ≤ M) :
    0 ≤ varSpeedRate cd qL pL qI pI qF pF l ∧ (1 - cd) * m * varSpeedRate cd qL pL qI pI qF pF l ≤ min l qF ∧
      min l qF ≤ M * varSpeedRate cd qL pL qI pI qF pF l := by
  have hI : 0 < qI := hq.trans_le hle
  have hF : 0 < qF := hI.trans hlt
  have weaken : ∀ r : K, 0 < r → m * r ≤ l → (1 - cd) * m * r ≤ l := fun r hr h => by
    have := mul_nonneg hm0 hr.le
    nlinarith
  unfold varSpeedRate
  split
  · rename_i h
    rw [min_eq_left (h.trans (hle.trans hlt.le))]
    exact ⟨cyclingRate_nonneg hcd hcd1 hq hpL.le h0 h, cyclingRate_le hcd hcd1 hq hpL h0 h hm0 mL, cyclingRate_cop hcd hcd1 hq hpL h0 h ML⟩
  · rename_i h
    have h' := not_le.mp h
    split
    · rename_i h2
      rw [min_eq_left (h2.le.trans hlt.le)]
      obtain ⟨a, b, c⟩ := modulating_bounds hq (h'.trans h2) h'.le h2.le (div_pos hq hpL) (div_pos hI hpI) mL mI ML MI
      exact ⟨a.le, weaken _ a b, c⟩
    · rename_i h2
      split
      · rename_i h3
        rw [min_eq_left h3]
        obtain ⟨a, b, c⟩ := modulating_bounds hI hlt (not_lt.mp h2) h3 (div_pos hI hpI) (div_pos hF hpF) mI mF MI MF
        exact ⟨a.le, weaken _ a b, c⟩
      · rename_i h3
        rw [min_eq_right (not_le.mp h3).le]
        exact full_bounds hcd hcd1 hpF hm0 mF MF

theorem twoStageRate_mono {cd cd' : K} {b : Bool} {qL pL qF pF l : K} (h : cd ≤ cd') (hcd : 0 ≤ cd) (hcd1 : cd' < 1) (hq : 0 < qL) (hle : qL ≤ qF)
    (hpL : 0 ≤ pL) (hpF : 0 ≤ pF) (h0 : 0 ≤ l) : twoStageRate cd b qL pL qF pF l ≤ twoStageRate cd' b qL pL qF pF l := by
  unfold twoStageRate
  split
  · rename_i h1; exact cyclingRate_mono h hcd hcd1 hq hpL h0 h1
  · split
    · rename_i h2
      split
      · exact le_rfl
      · exact cyclingRate_mono h hcd hcd1 (hq.trans_le hle) hpF h0 h2.le
    · exact le_rfl

theorem varSpeedRate_mono {cd cd' qL pL qI pI qF pF l : K} (h : cd ≤ cd') (hcd : 0 ≤ cd) (hcd1 : cd' < 1) (hq : 0 < qL) (hpL : 0 ≤ pL) (h0 : 0 ≤ l) :
    varSpeedRate cd qL pL qI pI qF pF l ≤ varSpeedRate cd' qL pL qI pI qF pF l := by
  unfold varSpeedRate
  split
  · rename_i h1; exact cyclingRate_mono h hcd hcd1 hq hpL h0 h1
  · exact le_rfl

theorem total_le {f g : K → K} {bins : List (K × K)} (h : ∀ b ∈ bins, f b.1 * b.2 ≤ g b.1 * b.2) : CoolTests.total f bins ≤ CoolTests.total g bins := by
  induction bins with
  | nil => simp [CoolTests.total]
  | cons b l ih =>
    have h1 := h b List.mem_cons_self
    have h2 := ih fun x hx => h x (List.mem_cons_of_mem _ hx)
    simp only [CoolTests.total, List.map_cons, List.sum_cons] at *
    linarith

theorem total_mul (k : K) (f : K → K) (bins : List (K × K)) : CoolTests.total (fun t => k * f t) bins = k * CoolTests.total f bins := by
  induction bins with
  | nil => simp [CoolTests.total]
  | cons b l ih =>
    simp only [CoolTests.total, List.map_cons, List.sum_cons] at *
    rw [ih]; ring

end Resdx.DX
