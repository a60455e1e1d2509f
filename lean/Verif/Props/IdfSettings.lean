import Verif.Props.Idf
import Verif.Model.Seer

/-!
# C128: the settings of the coils in an EnergyPlus file
-/

set_option linter.unusedSectionVars false
set_option linter.unusedSimpArgs false

namespace Resdx.Idf

open Spec.Idf

variable {C K : Type} [Field K] [LinearOrder K] {fmt : K → Nat → String}
variable {name : Option String} {st : SystemType} {autosize normalize : Bool} {U : IdfUnit C K} {objs : List IObj}

/-- The coil refers, in its field `label`, to exactly one object of the file. -/
def Refers (objs : List IObj) (coil : IObj) (label : String) (curve : IObj) : Prop := ∃ v, valueOf coil label = some v ∧ named objs v = [curve]

/-- The object is the straight line `b + a x` on [0, 1], with two decimals. -/
def IsLine (fmt : K → Nat → String) (curve : IObj) (b a : K) : Prop :=
  curve.cls = "Curve:Linear" ∧ valueOf curve "Coefficient1 Constant" = some (fmt b 2) ∧ valueOf curve "Coefficient2 x" = some (fmt a 2) ∧
    valueOf curve "Minimum Value of x" = some (fmt 0 2) ∧ valueOf curve "Maximum Value of x" = some (fmt 1 2)

/-- C128: the cooling coil refers to the line of the unit's cycling degradation, and carries the crankcase heater of the unit. -/
theorem C128_cooling (h : idfObjects fmt name st autosize normalize U = .ok objs) :
    ∃ coil curve, coil ∈ objs ∧ coil.cls = "Coil:Cooling:DX:VariableSpeed" ∧ Refers objs coil "Part Load Fraction Correlation Curve Name" curve ∧
      IsLine fmt curve (1 - U.cdCool) U.cdCool ∧
      valueOf coil "Crankcase Heater Capacity" = some (fmt U.crankcase 2) ∧
      valueOf coil "Maximum Outdoor Dry-Bulb Temperature for Crankcase Heater Operation" = some (fmt (toC U.crankcaseSetpoint) 2) := by
  have hn := idf_names_nodup h
  obtain ⟨system, fan, ccap, cs, hcap, on, tf, eir, hs, h1, h2, h3, h4, h5, h6, h7, h8, h9, e⟩ := idfObjects_ok h
  refine ⟨⟨"Coil:Cooling:DX:VariableSpeed", coolHeader fmt (prefixOf name) autosize U ccap ++ (cs.map Prod.fst).flatten⟩, coolCurve fmt (prefixOf name) U, by rw [e]; simp, rfl,
    ⟨prefixOf name ++ "Cooling fPLR", by simp [valueOf, coolHeader], named_of_mem hn (by rw [e]; simp) (by simp [nameOf, valueOf, coolCurve])⟩, ?_, ?_, ?_⟩
  · simp [IsLine, valueOf, coolCurve]
  · simp [valueOf, coolHeader]
  · simp [valueOf, coolHeader]

/-- What the file says about defrost. -/
def DefrostWritten (fmt : K → Nat → String) (U : IdfUnit C K) (coil : IObj) : Prop :=
  (∀ s, valueOf coil "Defrost Strategy" = some s → (s = "ReverseCycle" ↔ U.defrost.strategy = .reverseCycle) ∧ (s = "Resistive" ↔ U.defrost.strategy ≠ .reverseCycle)) ∧
  (∀ s, valueOf coil "Defrost Control" = some s → (s = "Timed" ↔ U.defrost.control = .timed) ∧ (s = "OnDemand" ↔ U.defrost.control ≠ .timed)) ∧
  (U.defrost.strategy ≠ .none → valueOf coil "Maximum Outdoor Dry-Bulb Temperature for Defrost Operation" = some (fmt (toC U.defrost.highTemperature) 2)) ∧
  (U.defrost.strategy = .none → valueOf coil "Maximum Outdoor Dry-Bulb Temperature for Defrost Operation" = some (fmt (-999) 2)) ∧
  (U.defrost.strategy = .resistive → valueOf coil "Resistive Defrost Heater Capacity" = some (fmt U.defrost.resistivePower 2)) ∧
  (U.defrost.strategy ≠ .resistive → valueOf coil "Resistive Defrost Heater Capacity" = some "") ∧
  (U.defrost.control = .timed → ∃ x, U.timeFraction = .ok x ∧ valueOf coil "Defrost Time Period Fraction" = some (fmt x 4)) ∧
  (U.defrost.control ≠ .timed → valueOf coil "Defrost Time Period Fraction" = some "")

/-- C128: the heating coil refers to the line of the unit's cycling degradation, and carries the crankcase heater, the cut-out and cut-in temperatures and the defrost
settings of the unit. -/
theorem C128_heating (h : idfObjects fmt name st autosize normalize U = .ok objs) :
    ∃ coil curve on, coil ∈ objs ∧ coil.cls = "Coil:Heating:DX:VariableSpeed" ∧ Refers objs coil "Part Load Fraction Correlation Curve Name" curve ∧
      IsLine fmt curve (1 - U.cdHeat) U.cdHeat ∧
      valueOf coil "Crankcase Heater Capacity" = some (fmt U.crankcase 2) ∧
      valueOf coil "Maximum Outdoor Dry-Bulb Temperature for Crankcase Heater Operation" = some (fmt (toC U.crankcaseSetpoint) 2) ∧
      valueOf coil "Minimum Outdoor Dry-Bulb Temperature for Compressor Operation" = some (fmt (toC U.off) 2) ∧
      U.on = some on ∧ valueOf coil "Outdoor Dry-Bulb Temperature to Turn On Compressor" = some (fmt (toC on) 2) ∧
      (valueOf coil "Defrost Strategy").isSome ∧ (valueOf coil "Defrost Control").isSome ∧ DefrostWritten fmt U coil := by
  have hn := idf_names_nodup h
  obtain ⟨system, fan, ccap, cs, hcap, on, tf, eir, hs, h1, h2, h3, h4, h5, h6, h7, h8, h9, e⟩ := idfObjects_ok h
  refine ⟨⟨"Coil:Heating:DX:VariableSpeed", heatHeader fmt (prefixOf name) autosize U hcap on tf ++ (hs.map Prod.fst).flatten⟩,
    ⟨"Curve:Linear", [⟨prefixOf name ++ "Heating fPLR", "Name"⟩, ⟨fmt (1 - U.cdHeat) 2, "Coefficient1 Constant"⟩, ⟨fmt U.cdHeat 2, "Coefficient2 x"⟩,
      ⟨fmt 0 2, "Minimum Value of x"⟩, ⟨fmt 1 2, "Maximum Value of x"⟩]⟩, on, by rw [e]; simp, rfl,
    ⟨prefixOf name ++ "Heating fPLR", by simp [valueOf, heatHeader], named_of_mem hn (by rw [e]; simp [heatCurves]) (by simp [nameOf, valueOf])⟩, ?_, ?_, ?_, ?_, h6, ?_, ?_, ?_, ?_⟩
  · simp [IsLine, valueOf]
  · simp [valueOf, heatHeader]
  · simp [valueOf, heatHeader]
  · simp [valueOf, heatHeader]
  · simp [valueOf, heatHeader]
  · simp [valueOf, heatHeader]
  · simp [valueOf, heatHeader]
  · refine ⟨?_, ?_, ?_, ?_, ?_, ?_, ?_, ?_⟩
    · intro s hs
      have : (if U.defrost.strategy = .reverseCycle then "ReverseCycle" else "Resistive") = s := by simpa [valueOf, heatHeader] using hs
      subst this
      split <;> rename_i g <;> simp [g]
    · intro s hs
      have : (if U.defrost.control = .timed then "Timed" else "OnDemand") = s := by simpa [valueOf, heatHeader] using hs
      subst this
      split <;> rename_i g <;> simp [g]
    · intro g; simp [valueOf, heatHeader, g]
    · intro g; simp [valueOf, heatHeader, g]
    · intro g; simp [valueOf, heatHeader, g]
    · intro g; simp [valueOf, heatHeader, g]
    · intro g
      simp only [timeFractionField, g, if_true] at h7
      obtain ⟨x, hx, h7⟩ := (bind_eq_ok _ _ _).1 h7
      rw [pure_eq_ok, Except.ok.injEq] at h7
      subst h7
      exact ⟨x, hx, by simp [valueOf, heatHeader]⟩
    · intro g
      simp only [timeFractionField, g, if_false, Except.ok.injEq] at h7
      subst h7
      simp [valueOf, heatHeader]

/-- C128: the heating coil refers to a curve for the energy of reverse-cycle defrost that has one value, the reciprocal of the COP at 60 °F, between the cut-out temperature
and the highest temperature of defrost. -/
theorem C128_defrost_curve [IsStrictOrderedRing K] (h : idfObjects fmt name st autosize normalize U = .ok objs) :
    ∃ coil curve cop, coil ∈ objs ∧ coil.cls = "Coil:Heating:DX:VariableSpeed" ∧ Refers objs coil "Defrost Energy Input Ratio Function of Temperature Curve Name" curve ∧
      curve.cls = "Curve:Biquadratic" ∧ U.cop60 = .ok cop ∧ cop ≠ 0 ∧ valueOf curve "Coefficient1 Constant" = some (fmt (1 / cop) 4) ∧
      (∀ l ∈ ["Coefficient2 x", "Coefficient3 x**2", "Coefficient4 y", "Coefficient5 y**2", "Coefficient6 x*y"], valueOf curve l = some (fmt 0 2)) ∧
      ∃ lo hi, valueOf curve "Minimum Value of y" = some (fmt lo 2) ∧ valueOf curve "Maximum Value of y" = some (fmt hi 2) ∧ lo = toC U.off ∧ hi = toC U.defrost.highTemperature ∧
        (lo ≤ hi ↔ U.off ≤ U.defrost.highTemperature) := by
  have hn := idf_names_nodup h
  obtain ⟨system, fan, ccap, cs, hcap, on, tf, eir, hs, h1, h2, h3, h4, h5, h6, h7, ⟨cop, c1, c2, rfl⟩, h9, e⟩ := idfObjects_ok h
  refine ⟨⟨"Coil:Heating:DX:VariableSpeed", heatHeader fmt (prefixOf name) autosize U hcap on tf ++ (hs.map Prod.fst).flatten⟩, _, cop, by rw [e]; simp, rfl,
    ⟨prefixOf name ++ "Defrost EIR", by simp [valueOf, heatHeader],
      named_of_mem (o := (heatCurves fmt (prefixOf name) U (1 / cop))[1]'(by simp [heatCurves])) hn (by rw [e]; simp [heatCurves]) (by simp [nameOf, valueOf, heatCurves])⟩,
    rfl, c1, c2, by simp [valueOf, heatCurves], ?_, toC U.off, toC U.defrost.highTemperature, by simp [valueOf, heatCurves], by simp [valueOf, heatCurves], rfl, rfl, ?_⟩
  · simp [valueOf, heatCurves]
  · unfold toC; exact sub_le_sub_iff_right _

end Resdx.Idf

namespace Resdx.DX

variable {K : Type} [Field K] [LinearOrder K] [IsStrictOrderedRing K]

/-- C128: the line of the file is the part-load fraction of the seasonal ratings: cycling at part load `x` takes the energy of full speed for the share `x` of the time, over
the value of the line at `x`, which is one at full load. -/
theorem C128_same_losses (cd bl q p n : K) (hq : q ≠ 0) (hl : (1 - cd) + cd * (bl / q) ≠ 0) :
    cyclingBin cd bl q p n = .ok (bl * n, bl / q * p * n / ((1 - cd) + cd * (bl / q))) ∧ (1 - cd) + cd * 1 = 1 := by
  have e : 1 - cd * (1 - bl / q) = (1 - cd) + cd * (bl / q) := by ring
  refine ⟨?_, by ring⟩
  simp only [cyclingBin, pdiv_ok hq, bind_ok, e, pdiv_ok hl, pure_eq_ok, div_mul_cancel₀ _ hq]

end Resdx.DX

namespace Resdx.Idf

open Spec.Idf

variable {K : Type} [Field K] [LinearOrder K] [IsStrictOrderedRing K]

/-- `r` is `x` rounded to two decimals, halves to the even digit, as Python formats numbers. -/
def Formatted (x r : K) : Prop := ∃ n : ℤ, r = n / 100 ∧ |r - x| ≤ 1 / 200 ∧ (|r - x| = 1 / 200 → Even n)

/-- C128: although its coefficients are rounded one by one, the line written for any degradation coefficient is exactly one at full load, and within 0.005 of the unrounded
one at every load. -/
theorem C128_rounded {cd b a : K} (hb : Formatted (1 - cd) b) (ha : Formatted cd a) :
    b + a * 1 = 1 ∧ ∀ x, 0 ≤ x → x ≤ 1 → |(b + a * x) - ((1 - cd) + cd * x)| ≤ 1 / 200 := by
  obtain ⟨m, rfl, hm, em⟩ := hb
  obtain ⟨n, rfl, hn, en⟩ := ha
  have hsum : (m : K) / 100 + n / 100 = 1 := by
    have k1 := abs_le.1 hm
    have k2 := abs_le.1 hn
    have l1 : ((m + n : ℤ) : K) ≤ ((101 : ℤ) : K) := by push_cast; linarith [k1.2, k2.2]
    have l2 : ((99 : ℤ) : K) ≤ ((m + n : ℤ) : K) := by push_cast; linarith [k1.1, k2.1]
    have l1' : m + n ≤ 101 := by exact_mod_cast l1
    have l2' : 99 ≤ m + n := by exact_mod_cast l2
    have key : m + n = 100 := by
      by_contra hne
      have ev : Even m ∧ Even n := by
        rcases (by omega : m + n = 101 ∨ m + n = 99) with g | g
        · have g' : (m : K) + n = 101 := by exact_mod_cast g
          have e1 : (m : K) / 100 - (1 - cd) = 1 / 200 := by linarith [k1.2, k2.2]
          have e2 : (n : K) / 100 - cd = 1 / 200 := by linarith [k1.2, k2.2]
          exact ⟨em (by rw [e1]; exact abs_of_pos (by norm_num)), en (by rw [e2]; exact abs_of_pos (by norm_num))⟩
        · have g' : (m : K) + n = 99 := by exact_mod_cast g
          have e1 : (m : K) / 100 - (1 - cd) = -(1 / 200) := by linarith [k1.1, k2.1]
          have e2 : (n : K) / 100 - cd = -(1 / 200) := by linarith [k1.1, k2.1]
          exact ⟨em (by rw [e1, abs_neg]; exact abs_of_pos (by norm_num)), en (by rw [e2, abs_neg]; exact abs_of_pos (by norm_num))⟩
      have := ev.1.add ev.2
      rcases this with ⟨k, hk⟩
      omega
    have key' : (m : K) + n = 100 := by exact_mod_cast key
    linarith
  refine ⟨by rw [mul_one]; exact hsum, fun x h0 h1 => ?_⟩
  have e : ((m : K) / 100 + n / 100 * x) - ((1 - cd) + cd * x) = ((m : K) / 100 - (1 - cd)) * (1 - x) := by
    have : (n : K) / 100 = 1 - m / 100 := by linarith
    rw [this]; ring
  rw [e, abs_mul, abs_of_nonneg (sub_nonneg.2 h1)]
  have := abs_nonneg ((m : K) / 100 - (1 - cd))
  nlinarith

/-- A coefficient halfway between two numbers with two decimals. -/
example : Formatted (1 - 1 / 8 : ℚ) 0.88 ∧ Formatted (1 / 8 : ℚ) 0.12 :=
  ⟨⟨88, by norm_num, by rw [abs_le]; norm_num, fun _ => ⟨44, by norm_num⟩⟩, ⟨12, by norm_num, by rw [abs_le]; norm_num, fun _ => ⟨6, by norm_num⟩⟩⟩

/-- The sample unit is written, with both curves. -/
example : ∃ objs, idfObjects sampleFmt (some "Main") .pthp true true sampleIdf = .ok objs ∧ (named objs "Main Cooling fPLR").length = 1 ∧
    (named objs "Main Heating fPLR").length = 1 ∧ (named objs "Main Defrost EIR").length = 1 := by
  have : ((idfObjects sampleFmt (some "Main") .pthp true true sampleIdf).toOption.map fun objs =>
    ((named objs "Main Cooling fPLR").length, (named objs "Main Heating fPLR").length, (named objs "Main Defrost EIR").length)) = some (1, 1, 1) := by decide +kernel
  cases h : idfObjects sampleFmt (some "Main") .pthp true true sampleIdf with
  | error e => rw [h] at this; cases this
  | ok objs =>
    rw [h] at this
    simp only [Except.toOption, Option.map_some, Option.some.injEq, Prod.mk.injEq] at this
    exact ⟨objs, rfl, this⟩

/-- C128, the range of the defrost curve, is false of units with a cut-out temperature above the highest temperature of defrost: the range is empty. -/
theorem C128_range_refuted : ∃ objs curve lo hi, idfObjects sampleFmt (some "Main") .pthp true true { sampleIdf with off := frF 45 } = .ok objs ∧
    curve ∈ objs ∧ curve.cls = "Curve:Biquadratic" ∧ valueOf curve "Minimum Value of y" = some (sampleFmt lo 2) ∧ valueOf curve "Maximum Value of y" = some (sampleFmt hi 2) ∧
    hi < lo := by
  have : (idfObjects sampleFmt (some "Main") .pthp true true { sampleIdf with off := frF 45 }).isOk = true := by decide +kernel
  cases h : idfObjects sampleFmt (some "Main") .pthp true true { sampleIdf with off := frF 45 } with
  | error e => rw [h] at this; cases this
  | ok objs =>
    obtain ⟨coil, curve, cop, -, -, ⟨v, -, hv⟩, hc, -, -, -, -, lo, hi, h1, h2, -, -, h3⟩ := C128_defrost_curve h
    have hm : curve ∈ named objs v := by rw [hv]; simp
    refine ⟨objs, curve, lo, hi, rfl, (List.mem_filter.1 hm).1, hc, h1, h2, not_le.1 fun g => ?_⟩
    have := h3.1 g
    revert this
    decide +kernel

end Resdx.Idf
