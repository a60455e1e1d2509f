import Verif.Lemmas.Hspf

/-! # Scaling a unit: the seasonal heating rating -/

set_option linter.unusedSectionVars false
set_option linter.unusedSimpArgs false

namespace Resdx.DX

open Spec Performance BaseModel

variable {C K : Type} [Field K] [LinearOrder K] [IsStrictOrderedRing K]

section
variable (U : Performance C K) {l : K} (hl : 0 < l)
include hl

theorem scale_sCap (c : C) : sCap (U.scale l) c = sc l (sCap U c) := by
  simp only [sCap, netSteadyHeatingCapacity, grossSteadyHeatingCapacity, heatingFanPower, Performance.scale]
  cases U.heatCap ((some c).getD U.h1Full) <;> simp only [sc_ok, sc_error, bind_ok, bind_error]
  cases U.heatCapCharge ((some c).getD U.h1Full) <;> simp only [sc_ok, sc_error, bind_ok, bind_error, pure_eq_ok]
  cases U.fanPower ((some c).getD U.h1Full) <;> simp only [sc_ok, sc_error, bind_ok, bind_error, pure_eq_ok, mul_add, mul_assoc]

theorem scale_sPow (c : C) : sPow (U.scale l) c = sc l (sPow U c) := by
  simp only [sPow, netSteadyHeatingPower, grossSteadyHeatingPower, heatingFanPower, Performance.scale]
  cases U.heatPow ((some c).getD U.h1Full) <;> simp only [sc_ok, sc_error, bind_ok, bind_error]
  cases U.heatPowCharge ((some c).getD U.h1Full) <;> simp only [sc_ok, sc_error, bind_ok, bind_error, pure_eq_ok]
  cases U.fanPower ((some c).getD U.h1Full) <;> simp only [sc_ok, sc_error, bind_ok, bind_error, pure_eq_ok, mul_add, mul_assoc]

theorem scale_iCap (c : C) : iCap (U.scale l) c = sc l (iCap U c) := by
  simp only [iCap, netIntegratedHeatingCapacity, grossIntegratedHeatingCapacity, heatingFanPower, Performance.scale]
  cases U.intCap ((some c).getD U.h1Full) <;> simp only [sc_ok, sc_error, bind_ok, bind_error]
  cases U.fanPower ((some c).getD U.h1Full) <;> simp only [sc_ok, sc_error, bind_ok, bind_error, pure_eq_ok, mul_add, mul_assoc]

theorem scale_iPow (c : C) : iPow (U.scale l) c = sc l (iPow U c) := by
  simp only [iPow, netIntegratedHeatingPower, grossIntegratedHeatingPower, heatingFanPower, Performance.scale]
  cases U.intPow ((some c).getD U.h1Full) <;> simp only [sc_ok, sc_error, bind_ok, bind_error]
  cases U.fanPower ((some c).getD U.h1Full) <;> simp only [sc_ok, sc_error, bind_ok, bind_error, pure_eq_ok, mul_add, mul_assoc]

/-- A pair of interpolations. -/
theorem scale_pair (x y : Py K) : (do let q ← sc l x; return (q, ← sc l y)) = sc2 l (do let q ← x; return (q, ← y)) := by
  cases x <;> simp only [sc_ok, sc_error, sc2_error, bind_ok, bind_error]
  cases y <;> simp only [sc_ok, sc_error, sc2_error, sc2_ok, bind_ok, bind_error, pure_eq_ok]

variable (P : Points C)

theorem scale_heatFull (t : K) : heatFull (U.scale l) P t = sc2 l (heatFull U P t) := by
  unfold heatFull
  simp only [scale_interpolate U hl _ _ (scale_sCap U hl), scale_interpolate U hl _ _ (scale_sPow U hl),
    scale_interpolateSeparate U hl _ _ _ _ (scale_sCap U hl) (scale_iCap U hl), scale_interpolateSeparate U hl _ _ _ _ (scale_sPow U hl) (scale_iPow U hl)]
  split <;> exact scale_pair hl _ _

theorem scale_heatLowVar (t : K) : heatLowVar (U.scale l) P t = sc2 l (heatLowVar U P t) := by
  unfold heatLowVar
  cases pyAttr P.h0Low <;> simp only [sc2_error, bind_ok, bind_error]
  cases pyAttr P.h1Low <;> simp only [sc2_error, bind_ok, bind_error]
  simp only [scale_interpolate U hl _ _ (scale_sCap U hl), scale_interpolate U hl _ _ (scale_sPow U hl)]
  exact scale_pair hl _ _

theorem scale_heatLowTwo (t : K) : heatLowTwo (U.scale l) P t = sc2 l (heatLowTwo U P t) := by
  unfold heatLowTwo
  simp only [scale_interpolate U hl _ _ (scale_sCap U hl), scale_interpolate U hl _ _ (scale_sPow U hl),
    scale_interpolateSeparate U hl _ _ _ _ (scale_iCap U hl) (scale_sCap U hl), scale_interpolateSeparate U hl _ _ _ _ (scale_iPow U hl) (scale_sPow U hl)]
  split
  · cases pyAttr P.h0Low <;> simp only [sc2_error, bind_ok, bind_error]
    cases pyAttr P.h1Low <;> simp only [sc2_error, bind_ok, bind_error]
    exact scale_pair hl _ _
  split
  · cases pyAttr P.h1Low <;> simp only [sc2_error, bind_ok, bind_error]
    cases pyAttr P.h3Low <;> simp only [sc2_error, bind_ok, bind_error]
    exact scale_pair hl _ _
  · cases pyAttr P.h2Low <;> simp only [sc2_error, bind_ok, bind_error]
    cases pyAttr P.h3Low <;> simp only [sc2_error, bind_ok, bind_error]
    exact scale_pair hl _ _

theorem scale_heatFullAgain (h1 h3 h4 old h1' h3' h4' old' : K × K) (t : K) :
    heatFullAgain (U.scale l) P h1' h3' h4' old' t = sc2 l (heatFullAgain U P h1 h3 h4 old t) := by
  simp only [heatFullAgain_eq, scale_interpolate U hl _ _ (scale_sCap U hl), scale_interpolate U hl _ _ (scale_sPow U hl)]
  exact scale_pair hl _ _

/-- Multiply the intermediate values. -/
def HeatIntermediate.scale (l : K) (I : HeatIntermediate K) : HeatIntermediate K :=
  ⟨l * I.q, l * I.mQ, l * I.p, l * I.mP, (l * I.h1.1, l * I.h1.2), (l * I.h3.1, l * I.h3.2), (l * I.h4.1, l * I.h4.2)⟩

theorem scale_heatIntermediateOf (f g f' g' : C → Py K) (hf : ∀ c, f' c = sc l (f c)) (hg : ∀ c, g' c = sc l (g c)) :
    heatIntermediateOf (U.scale l) P f' g' = (heatIntermediateOf U P f g).map fun r => ((l * r.1.1, l * r.1.2), l * r.2.1, l * r.2.2.1, l * r.2.2.2) := by
  simp only [heatIntermediateOf, hf, hg, scale_interpolate U hl f f' hf]
  cases pyAttr P.h0Low <;> simp only [Except.map, bind_ok, bind_error]
  rename_i c0
  cases f c0 <;> simp only [sc_ok, sc_error, bind_ok, bind_error]
  cases pyAttr P.h1Low <;> simp only [bind_ok, bind_error]
  rename_i c1
  cases f c1 <;> simp only [sc_ok, sc_error, bind_ok, bind_error]
  cases pyAttr P.h2Int <;> simp only [bind_ok, bind_error]
  rename_i c2
  cases g c2 <;> simp only [sc_ok, sc_error, bind_ok, bind_error]
  cases f P.h1Full <;> simp only [sc_ok, sc_error, bind_ok, bind_error]
  cases g P.h2Full <;> simp only [sc_ok, sc_error, bind_ok, bind_error]
  cases f P.h3Full <;> simp only [sc_ok, sc_error, bind_ok, bind_error]
  cases f P.h4Full <;> simp only [sc_ok, sc_error, bind_ok, bind_error]
  cases interpolate U.db f c0 c1 (frF 35) <;> simp only [sc_ok, sc_error, bind_ok, bind_error]
  rw [← mul_sub, ← mul_sub, pdiv_scale hl.ne']
  generalize (pdiv (K := K) _ _) = z
  cases z <;> simp only [bind_ok, bind_error, pure_eq_ok, Except.ok.injEq, Prod.mk.injEq, true_and, and_true]
  ring

theorem scale_heatIntermediate : heatIntermediate (U.scale l) P = (heatIntermediate U P).map (HeatIntermediate.scale l) := by
  simp only [heatIntermediate, scale_heatIntermediateOf U hl P _ _ _ _ (scale_sCap U hl) (scale_iCap U hl),
    scale_heatIntermediateOf U hl P _ _ _ _ (scale_sPow U hl) (scale_iPow U hl)]
  cases heatIntermediateOf U P (sCap U) (iCap U) <;> simp only [Except.map, bind_ok, bind_error]
  cases heatIntermediateOf U P (sPow U) (iPow U) <;> simp only [Except.map, bind_ok, bind_error, pure_eq_ok]
  rfl

theorem scale_heatIntermediateFor (st : Staging) : heatIntermediateFor (U.scale l) P st = (heatIntermediateFor U P st).map (·.map (HeatIntermediate.scale l)) := by
  unfold heatIntermediateFor
  split
  · rw [scale_heatIntermediate U hl]
    cases heatIntermediate U P <;> simp only [Except.map, bind_ok, bind_error, pure_eq_ok, Option.map_some]
  · rfl

end

section
variable {l : K} (hl : 0 < l)
include hl

/-- Multiply energy and resistance heat, keep the carried value. -/
def scBin (l : K) (x : Py ((K × K) × Option K)) : Py ((K × K) × Option K) := x.map fun r => ((l * r.1.1, l * r.1.2), r.2)

theorem scale_loadFactor (bl q : K) : loadFactor (l * bl) (l * q) = loadFactor bl q := by
  simp only [loadFactor, mul_lt_mul_iff_right₀ hl, pdiv_scale hl.ne']

theorem scale_heatSingleBin (cd bl q p d h n : K) : heatSingleBin cd (l * bl) (l * q) (l * p) d h n = sc2 l (heatSingleBin cd bl q p d h n) := by
  simp only [heatSingleBin]
  rw [show l * p * h * d * n = l * (p * h * d * n) by ring, pdiv_scale_left]
  generalize pdiv (p * h * d * n) (1 - cd * (1 - h)) = z
  cases z <;> simp only [sc_ok, sc_error, sc2_ok, sc2_error, bind_ok, bind_error, pure_eq_ok, Except.ok.injEq, Prod.mk.injEq, true_and]
  ring

theorem scale_heatLowBin (cd bl q p d n : K) : heatLowBin cd (l * bl) (l * q) (l * p) d n = sc2 l (heatLowBin cd bl q p d n) := by
  simp only [heatLowBin, pdiv_scale hl.ne']
  cases pdiv bl q <;> simp only [sc2_error, bind_ok, bind_error]
  rename_i h
  rw [show l * p * h * d * n = l * (p * h * d * n) by ring, pdiv_scale_left]
  generalize pdiv (p * h * d * n) (1 - cd * (1 - h)) = z
  cases z <;> simp only [sc_ok, sc_error, sc2_ok, sc2_error, bind_ok, bind_error, pure_eq_ok, Except.ok.injEq, Prod.mk.injEq, true_and]
  ring

theorem scale_heatModulatingBin (s : HeatSettings K) (t bl q0 c0 q1 c1 n : K) :
    heatModulatingBin s t (l * bl) (l * q0) c0 (l * q1) c1 n = sc2 l (heatModulatingBin s t bl q0 c0 q1 c1 n) := by
  simp only [heatModulatingBin]
  rw [← mul_sub, ← mul_sub]
  by_cases h : q1 - q0 = 0
  · simp [h, pdiv_zero, bind_error]
  · rw [pdiv_ok h, pdiv_ok (mul_ne_zero hl.ne' h), bind_ok, bind_ok, show (c1 - c0) / (l * (q1 - q0)) * (l * (bl - q0)) = (c1 - c0) / (q1 - q0) * (bl - q0) by
      field_simp, mul_assoc l bl n, pdiv_scale_left]
    generalize c0 + (c1 - c0) / (q1 - q0) * (bl - q0) = c
    cases cutFactor s.off s.on t c <;> simp only [sc2_error, bind_ok, bind_error]
    cases pdiv (bl * n) c <;> simp only [sc_ok, sc_error, sc2_error, sc2_ok, bind_ok, bind_error, pure_eq_ok, Except.ok.injEq, Prod.mk.injEq]
    constructor <;> ring

theorem scale_heatTwoBin (s : HeatSettings K) (prev : Option K) (t bl qL pL cL qF pF d h n : K) :
    heatTwoBin s prev t (l * bl) (l * qL) (l * pL) cL (l * qF) (l * pF) d h n = scBin l (heatTwoBin s prev t bl qL pL cL qF pF d h n) := by
  simp only [heatTwoBin, mul_le_mul_iff_right₀ hl, mul_lt_mul_iff_right₀ hl, scale_heatLowBin hl]
  split
  · cases cutFactor s.off s.on t cL <;> simp only [scBin, Except.map, bind_ok, bind_error]
    rename_i dl
    cases heatLowBin s.cd bl qL pL dl n <;> simp only [sc2_ok, sc2_error, bind_ok, bind_error, pure_eq_ok]
  split
  · rw [← mul_sub, ← mul_sub, pdiv_scale hl.ne']
    generalize pdiv (qF - bl) (qF - qL) = z
    cases z <;> simp only [scBin, Except.map, bind_ok, bind_error]
    cases heatTwoBin.pyLocal prev <;> simp only [bind_ok, bind_error, pure_eq_ok, Except.ok.injEq, Prod.mk.injEq, and_true]
    constructor <;> ring
  split
  · rw [← mul_sub, ← mul_sub, pdiv_scale hl.ne']
    generalize pdiv (qF - bl) (qF - qL) = z
    cases z <;> simp only [scBin, Except.map, bind_ok, bind_error]
    rename_i y
    rw [show l * pF * h * d * n = l * (pF * h * d * n) by ring, pdiv_scale_left]
    generalize pdiv (pF * h * d * n) (1 - s.cd * (1 - y)) = w
    cases w <;> simp only [sc_ok, sc_error, bind_ok, bind_error]
    cases heatTwoBin.pyLocal prev <;> simp only [bind_ok, bind_error, pure_eq_ok, Except.ok.injEq, Prod.mk.injEq, and_true, true_and]
    ring
  · simp only [scBin, Except.map, Except.ok.injEq, Prod.mk.injEq, and_true]
    constructor <;> ring

theorem scale_heatVarBin (s : HeatSettings K) (t bl qL pL cL qI cI qF cF d n : K) (again : Py (K × K)) :
    heatVarBin s t (l * bl) (l * qL) (l * pL) cL (l * qI) cI (l * qF) cF d n (sc2 l again) = sc2 l (heatVarBin s t bl qL pL cL qI cI qF cF d n again) := by
  simp only [heatVarBin, mul_le_mul_iff_right₀ hl, mul_lt_mul_iff_right₀ hl, scale_heatLowBin hl, scale_heatModulatingBin hl]
  split
  · cases cutFactor s.off s.on t cL <;> simp only [sc2_error, bind_ok, bind_error]
  split
  · split <;> rfl
  · cases again <;> simp only [sc2_error, sc2_ok, bind_ok, bind_error, pure_eq_ok, Except.ok.injEq, Prod.mk.injEq]
    constructor <;> ring

variable (U : Performance C K) (P : Points C)

theorem scale_heatStaging (s : HeatSettings K) (I : Option (HeatIntermediate K)) (prev : Option K) (t bl qF pF c d h n : K) :
    heatStaging (U.scale l) P s (I.map (HeatIntermediate.scale l)) prev t (l * bl) (l * qF) (l * pF) c d h n =
      scBin l (heatStaging U P s I prev t bl qF pF c d h n) := by
  cases hs : s.st with
  | single =>
    simp only [heatStaging, hs, scale_heatSingleBin hl]
    cases heatSingleBin s.cd bl qF pF d h n <;> simp only [sc2_ok, sc2_error, scBin, Except.map, bind_ok, bind_error, pure_eq_ok]
  | two =>
    simp only [heatStaging, hs, scale_heatLowTwo U hl]
    cases heatLowTwo U P t <;> simp only [sc2_ok, sc2_error, bind_ok, bind_error]
    · rfl
    rw [pdiv_scale hl.ne']
    rename_i a
    cases pdiv a.1 a.2 <;> simp only [bind_ok, bind_error]
    · rfl
    exact scale_heatTwoBin hl ..
  | varSpeed =>
    simp only [heatStaging, hs, scale_heatLowVar U hl]
    cases I with
    | none => simp [pyAttr, bind_error, scBin, Except.map]
    | some J =>
      simp only [Option.map_some, pyAttr, bind_ok]
      cases heatLowVar U P t <;> simp only [sc2_ok, sc2_error, bind_ok, bind_error]
      · rfl
      rw [pdiv_scale hl.ne']
      rename_i a
      cases pdiv a.1 a.2 <;> simp only [bind_ok, bind_error]
      · rfl
      have e1 : (HeatIntermediate.scale l J).q + (HeatIntermediate.scale l J).mQ * (t - frF 35) = l * (J.q + J.mQ * (t - frF 35)) := by
        simp only [HeatIntermediate.scale]; ring
      have e2 : (HeatIntermediate.scale l J).p + (HeatIntermediate.scale l J).mP * (t - frF 35) = l * (J.p + J.mP * (t - frF 35)) := by
        simp only [HeatIntermediate.scale]; ring
      rw [e1, e2, pdiv_scale hl.ne', scale_heatFullAgain U hl P J.h1 J.h3 J.h4 (qF, pF)]
      cases pdiv (J.q + J.mQ * (t - frF 35)) (J.p + J.mP * (t - frF 35)) <;> simp only [bind_ok, bind_error]
      · rfl
      rw [scale_heatVarBin hl]
      generalize heatVarBin s t bl _ _ _ _ _ _ _ _ _ _ = z
      cases z <;> simp only [sc2_ok, sc2_error, scBin, Except.map, bind_ok, bind_error, pure_eq_ok]

theorem scale_heatBin (s : HeatSettings K) (I : Option (HeatIntermediate K)) (load load' : K → Py K) (hload : ∀ t, load' t = sc l (load t)) (prev : Option K) (t n : K) :
    heatBin (U.scale l) P s (I.map (HeatIntermediate.scale l)) load' prev t n =
      (heatBin U P s I load prev t n).map fun r => ((l * r.1.1, l * r.1.2.1, l * r.1.2.2), r.2) := by
  simp only [heatBin, hload, scale_heatFull U hl]
  cases load t <;> simp only [sc_ok, sc_error, Except.map, bind_ok, bind_error]
  rename_i bl
  cases heatFull U P t <;> simp only [sc2_ok, sc2_error, bind_ok, bind_error]
  rename_i a
  rw [pdiv_scale hl.ne']
  cases pdiv a.1 a.2 <;> simp only [bind_ok, bind_error]
  rename_i cop
  cases cutFactor s.off s.on t cop <;> simp only [bind_ok, bind_error]
  rename_i d
  rw [scale_loadFactor hl]
  cases loadFactor bl a.1 <;> simp only [bind_ok, bind_error]
  rename_i h
  rw [scale_heatStaging hl]
  cases heatStaging U P s I prev t bl a.1 a.2 cop d h n <;> simp only [scBin, Except.map, bind_ok, bind_error, pure_eq_ok, Except.ok.injEq, Prod.mk.injEq, and_true]
  ring

theorem scale_heatLoop (f f' : Option K → K → K → Py ((K × K × K) × Option K))
    (h : ∀ prev t n, f' prev t n = (f prev t n).map fun r => ((l * r.1.1, l * r.1.2.1, l * r.1.2.2), r.2)) (bins : List (K × K)) (prev : Option K) (a b c : K) :
    heatLoop f' bins prev (l * a, l * b, l * c) = (heatLoop f bins prev (a, b, c)).map fun r => (l * r.1, l * r.2.1, l * r.2.2) := by
  induction bins generalizing prev a b c with
  | nil => rfl
  | cons x bs ih =>
    simp only [heatLoop, h]
    cases f prev x.1 x.2 <;> simp only [Except.map, bind_ok, bind_error]
    rw [← mul_add, ← mul_add, ← mul_add, ih]
    rfl

/-- The rating is unchanged if the load scales. -/
theorem scale_hspfWith (u : Units K) (std : RatingStandard) (s : HeatSettings K) (d : HeatDist K) (credit : Py K)
    (hload : heatingLoad (U.scale l) P u s.st std d = (heatingLoad U P u s.st std d).map fun f t => sc l (f t)) :
    hspfWith (U.scale l) P u std s d credit = hspfWith U P u std s d credit := by
  simp only [hspfWith, hload, scale_heatIntermediateFor U hl]
  cases heatingLoad U P u s.st std d <;> simp only [Except.map, bind_ok, bind_error]
  rename_i load
  cases heatIntermediateFor U P s.st <;> simp only [bind_ok, bind_error]
  rename_i I
  have := scale_heatLoop hl (heatBin U P s I load) _ (fun prev t n => scale_heatBin hl U P s I load (fun t => sc l (load t)) (fun _ => rfl) prev t n)
    (heatingTemperatures.zip d.hours) none 0 0 0
  simp only [mul_zero] at this
  rw [this]
  cases heatLoop (heatBin U P s I load) (heatingTemperatures.zip d.hours) none (0, 0, 0) <;> simp only [Except.map, bind_ok, bind_error]
  cases credit <;> simp only [bind_ok, bind_error]
  rw [← mul_add, pdiv_scale hl.ne']

end
end Resdx.DX
