import Verif.Lemmas.Scale
import Mathlib.Algebra.Order.Ring.Rat
import Mathlib.Topology.Order.OrderClosed
import Mathlib.Topology.Algebra.Order.Field
import Mathlib.Topology.Instances.Real.Lemmas

/-!
# Properties of the seasonal cooling rating: C46–C49
-/

set_option linter.unusedSectionVars false
set_option linter.unusedSimpArgs false

namespace Resdx.DX

open Spec Performance BaseModel

variable {C K : Type} [Field K] [LinearOrder K] [IsStrictOrderedRing K]

/-! ## A concrete unit -/

/-- A unit whose conditions are pairs (test number, outdoor temperature): capacities and powers fall and rise with the outdoor temperature. -/
def toyUnit : Performance (ℚ × ℚ) ℚ :=
  { coolCap := fun c => .ok (c.1 * (300 - c.2 / 2)), coolCapCharge := fun _ => .ok 1, coolPow := fun c => .ok (c.1 * (c.2 - 270)), coolPowCharge := fun _ => .ok 1
    sensible := fun c => .ok c.1, heatCap := fun c => .ok (c.1 * (c.2 / 2 - 60)), heatCapCharge := fun _ => .ok 1, heatPow := fun _ => .ok 30
    heatPowCharge := fun _ => .ok 1, intCap := fun c => .ok (c.1 * (c.2 / 2 - 60)), intPow := fun _ => .ok 30, fanPower := fun _ => .ok 2, db := fun c => c.2
    aFull := (100, frF 95), h1Full := (100, frF 47) }

/-- Its rating conditions. -/
def toyPoints : Points (ℚ × ℚ) :=
  { aFull := (100, frF 95), bFull := (100, frF 82), h1Full := (100, frF 47), h2Full := (100, frF 35), h3Full := (100, frF 17), h4Full := (100, frF 5)
    aInt := some (60, frF 95), eInt := some (60, frF 87), h2Int := some (60, frF 35), aBoost := none, aLow := some (40, frF 95), bLow := some (40, frF 82)
    fLow := some (40, frF 67), h0Low := some (40, frF 62), h1Low := some (40, frF 47), h2Low := some (40, frF 35), h3Low := some (40, frF 17) }

/-- What its tests give. -/
def toyTests : CoolTests ℚ :=
  { qA := 100 * (300 - frF 95 / 2) - 2, pA := 100 * (frF 95 - 270) + 2, qB := 100 * (300 - frF 82 / 2) - 2, pB := 100 * (frF 82 - 270) + 2
    qBl := 40 * (300 - frF 82 / 2) - 2, pBl := 40 * (frF 82 - 270) + 2, qFl := 40 * (300 - frF 67 / 2) - 2, pFl := 40 * (frF 67 - 270) + 2
    qE := 60 * (300 - frF 87 / 2) - 2, pE := 60 * (frF 87 - 270) + 2 }

theorem toyMatch : CoolMatch toyUnit toyPoints toyTests where
  qA := by decide +kernel
  pA := by decide +kernel
  qB := by decide +kernel
  pB := by decide +kernel
  dbA := rfl
  dbB := rfl
  low := ⟨(40, frF 82), (40, frF 67), rfl, rfl, by decide +kernel⟩

/-! ## C46, C47: the bins and the rating -/

section
variable {U : Performance C K} {P : Points C} {T : CoolTests K} (hT : CoolMatch U P T) {cd : K} (hcd : 0 ≤ cd) (hcd1 : cd < 1) (hA : 0 ≤ T.qA)
include hT hcd hcd1 hA

/-- The load is never negative. -/
theorem load_nonneg (hA : 0 ≤ T.qA) (t : K) : 0 ≤ T.load t := by
  unfold CoolTests.load coolBuildingLoad
  split
  · exact le_rfl
  · rename_i h
    have : 0 ≤ t - 65 := by linarith [not_le.mp h]
    positivity

/-- C46, C47 for a two-stage unit and one bin: cooling credited and energy used. -/
theorem C46_two_stage_bin (cyc : Cycling) (t n : K) (hq : 0 < T.qLow (toF t)) (hle : T.qLow (toF t) ≤ T.qFull (toF t)) :
    seerTwoBin U P cd cyc t n = .ok (min (T.load (toF t)) (T.qFull (toF t)) * n,
      twoStageRate cd (decide (cyc = .lowFull)) (T.qLow (toF t)) (T.pLow (toF t)) (T.qFull (toF t)) (T.pFull (toF t)) (T.load (toF t)) * n) := by
  rw [seerTwoBin, coolingLines_ok hT hA, bind_ok]
  exact twoStageBin_ok hcd hcd1 hq hle (load_nonneg hT hcd hcd1 hA hA _)

/-- The two-stage rating: total cooling delivered over total energy, for any bins. -/
theorem C46_two_stage_seer (u : Units K) (cyc : Cycling) (bins : List (K × K))
    (h : ∀ b ∈ bins, 0 < T.qLow (toF b.1) ∧ T.qLow (toF b.1) ≤ T.qFull (toF b.1))
    (rate : K → K) (hr : rate = fun t => twoStageRate cd (decide (cyc = .lowFull)) (T.qLow (toF t)) (T.pLow (toF t)) (T.qFull (toF t)) (T.pFull (toF t))
      (T.load (toF t))) (he : CoolTests.total rate bins ≠ 0) :
    seer U P u .two cd cyc bins = .ok (CoolTests.total (fun t => T.delivered (toF t)) bins / CoolTests.total rate bins / u.btuh) := by
  have hl := binLoop_ok (seerTwoBin U P cd cyc) (fun t => T.delivered (toF t)) rate bins (fun b hb => by
    rw [C46_two_stage_bin hT hcd hcd1 hA cyc b.1 b.2 (h b hb).1 (h b hb).2, hr]; rfl) 0 0
  simp only [seer, hl, bind_ok, zero_add, pdiv_ok he, pdiv_ok u.btuh_pos.ne']

/-- The intermediate capacity and power of the code are the mixtures of the specification. -/
theorem C47_intermediate (hI : CoolMatch.Int U P T) (hQ : T.qFull 87 - T.qLow 87 ≠ 0) (hP : T.pFull 87 - T.pLow 87 ≠ 0) :
    ∃ mQ mP, coolingIntermediate U P (fun c => U.netTotalCoolingCapacity (some c)) = .ok (T.qE, mQ) ∧
      coolingIntermediate U P (fun c => U.netCoolingPower (some c)) = .ok (T.pE, mP) ∧
      ∀ t, T.qE + mQ * (t - frF 87) = T.qInt (toF t) ∧ T.pE + mP * (t - frF 87) = T.pInt (toF t) := by
  obtain ⟨b, f, hb, hf, h1, h2, h3, h4, d1, d2⟩ := hT.low
  obtain ⟨e, he, h5, h6⟩ := hI
  obtain ⟨mQ, a1, a2⟩ := coolingIntermediate_ok (U := U) (P := P) (f := fun c => U.netTotalCoolingCapacity (some c)) hb hf he hT.qA hT.qB h1 h3 h5
    hT.dbA hT.dbB d1 d2 hQ
  obtain ⟨mP, b1, b2⟩ := coolingIntermediate_ok (U := U) (P := P) (f := fun c => U.netCoolingPower (some c)) hb hf he hT.pA hT.pB h2 h4 h6
    hT.dbA hT.dbB d1 d2 hP
  exact ⟨mQ, mP, a1, b1, fun t => ⟨a2 t, b2 t⟩⟩

/-- C46, C47 for a variable-speed unit: the rating is total cooling delivered over total energy, for any bins. -/
theorem C46_variable_speed_seer (u : Units K) (cyc : Cycling) (bins : List (K × K)) (hI : CoolMatch.Int U P T) (hQ : T.qFull 87 - T.qLow 87 ≠ 0)
    (hP : T.pFull 87 - T.pLow 87 ≠ 0)
    (h : ∀ b ∈ bins, 0 < T.qLow (toF b.1) ∧ T.qLow (toF b.1) ≤ T.qInt (toF b.1) ∧ T.qInt (toF b.1) < T.qFull (toF b.1) ∧ 0 < T.pLow (toF b.1) ∧
      0 < T.pInt (toF b.1) ∧ 0 < T.pFull (toF b.1))
    (rate : K → K) (hr : rate = fun t => varSpeedRate cd (T.qLow (toF t)) (T.pLow (toF t)) (T.qInt (toF t)) (T.pInt (toF t)) (T.qFull (toF t))
      (T.pFull (toF t)) (T.load (toF t))) (he : CoolTests.total rate bins ≠ 0) :
    seer U P u .varSpeed cd cyc bins = .ok (CoolTests.total (fun t => T.delivered (toF t)) bins / CoolTests.total rate bins / u.btuh) := by
  obtain ⟨mQ, mP, a1, a2, a3⟩ := C47_intermediate hT hcd hcd1 hA hI hQ hP
  have hl := binLoop_ok (seerVarBin U P cd T.qE mQ T.pE mP) (fun t => T.delivered (toF t)) rate bins (fun b hb => by
    obtain ⟨h1, h2, h3, h4, h5, h6⟩ := h b hb
    simp only [seerVarBin, coolingLines_ok hT hA, bind_ok, (a3 b.1).1, (a3 b.1).2, hr]
    exact varSpeedBin_ok hcd hcd1 h1 h2 h3 h4 h5 h6 (load_nonneg hT hcd hcd1 hA hA _)) 0 0
  simp only [seer, a1, a2, hl, bind_ok, zero_add, pdiv_ok he, pdiv_ok u.btuh_pos.ne']

end

/-- If at 87 °F the intermediate capacity lies between the low and the full capacity, it does so in every bin with low at most full. -/
theorem C47_intermediate_between (T : CoolTests K) (h : T.qLow 87 ≤ T.qE) (h' : T.qE < T.qFull 87) (t : K) (ht : T.qLow t < T.qFull t) :
    T.qLow t ≤ T.qInt t ∧ T.qInt t < T.qFull t := by
  have hd : 0 < T.qFull 87 - T.qLow 87 := by linarith
  have h0 : 0 ≤ T.nQ := div_nonneg (by linarith) hd.le
  have h1 : T.nQ < 1 := (div_lt_one hd).2 (by linarith)
  unfold CoolTests.qInt
  constructor <;> nlinarith

/-- C46: a single-stage rating. -/
theorem C46_single_stage (U : Performance C K) (P : Points C) (u : Units K) (cd : K) (cyc : Cycling) (bins : List (K × K)) (q p : K)
    (hq : U.netTotalCoolingCapacity (some P.bFull) = .ok q) (hp : U.netCoolingPower (some P.bFull) = .ok p) (hp0 : p ≠ 0) :
    seer U P u .single cd cyc bins = .ok ((1 - cd / 2) * (q / p) / u.btuh) := by
  simp only [seer, netTotalCoolingCOP, hq, hp, bind_ok, pdiv_ok hp0, pdiv_ok u.btuh_pos.ne']
  congr 3
  norm_num
  ring

example : CoolMatch.Int toyUnit toyPoints toyTests ∧ (∀ b ∈ coolingBins (K := ℚ), 0 < toyTests.qLow (toF b.1) ∧ toyTests.qLow (toF b.1) ≤ toyTests.qInt (toF b.1) ∧
    toyTests.qInt (toF b.1) < toyTests.qFull (toF b.1) ∧ 0 < toyTests.pLow (toF b.1) ∧ 0 < toyTests.pInt (toF b.1) ∧ 0 < toyTests.pFull (toF b.1)) :=
  ⟨⟨(60, frF 87), rfl, by decide +kernel⟩, by decide +kernel⟩

/-- The three ratings of the toy unit exist. -/
example : (seer toyUnit toyPoints (Units.ofOnes ℚ) .single 0.2 .lowFull coolingBins).isOk ∧ (seer toyUnit toyPoints (Units.ofOnes ℚ) .two 0.2 .lowFull coolingBins).isOk ∧
    (seer toyUnit toyPoints (Units.ofOnes ℚ) .two 0.2 .offFull coolingBins).isOk ∧
    (seer toyUnit toyPoints (Units.ofOnes ℚ) .varSpeed 0.2 .lowFull coolingBins).isOk := by decide +kernel

/-! ## C47: continuity in the load -/

section
open Set

theorem glue {f g : ℝ → ℝ} {a : ℝ} {s : Set ℝ} (hf : ContinuousOn f (s ∩ Iic a)) (hg : ContinuousOn g (s ∩ Ici a)) (h : f a = g a) :
    ContinuousOn (fun x => if x ≤ a then f x else g x) s := by
  apply ContinuousOn.if
  · intro x hx
    have : x = a := by
      have := frontier_le_subset_eq continuous_id continuous_const hx.2
      exact this
    rw [this, h]
  · exact hf.mono fun x hx => ⟨hx.1, closure_minimal (fun y hy => hy) isClosed_Iic hx.2⟩
  · exact hg.mono fun x hx => ⟨hx.1, closure_minimal (fun y hy => (not_le.mp hy).le) isClosed_Ici hx.2⟩

theorem glue_lt {f g : ℝ → ℝ} {a : ℝ} {s : Set ℝ} (hf : ContinuousOn f (s ∩ Iic a)) (hg : ContinuousOn g (s ∩ Ici a)) (h : f a = g a) :
    ContinuousOn (fun x => if x < a then f x else g x) s := by
  refine (glue hf hg h).congr fun x _ => ?_
  by_cases h1 : x < a
  · simp [h1, h1.le]
  · by_cases h2 : x = a
    · subst h2; simp [h]
    · have : ¬ x ≤ a := fun h3 => h1 (lt_of_le_of_ne h3 h2)
      simp [h1, this]

theorem cyclingRate_continuous {cd q p : ℝ} (hcd : 0 ≤ cd) (hcd1 : cd < 1) (hq : 0 < q) : ContinuousOn (cyclingRate cd q p) (Ici 0) := by
  unfold cyclingRate
  apply ContinuousOn.div
  · fun_prop
  · fun_prop
  · intro x hx
    have : 0 ≤ x / q := div_nonneg hx hq.le
    nlinarith

theorem cyclingRate_at_capacity (cd q p : K) (hq : q ≠ 0) : cyclingRate cd q p q = p := by simp [cyclingRate, div_self hq]

theorem lineAt_continuous (x0 y0 x1 y1 : ℝ) : Continuous (lineAt x0 y0 x1 y1) := by unfold lineAt; fun_prop

theorem modulating_continuous {q0 c0 q1 c1 : ℝ} (hq : q0 < q1) (hc0 : 0 < c0) (hc1 : 0 < c1) :
    ContinuousOn (fun l => l / lineAt q0 c0 q1 c1 l) (Ici q0 ∩ Iic q1) :=
  ContinuousOn.div continuousOn_id (lineAt_continuous _ _ _ _).continuousOn fun _ hx => (lineAt_pos hq hx.1 hx.2 hc0 hc1).ne'

/-- C47: with low/full cycling the energy of a two-stage unit is a continuous function of the load. -/
theorem C47_two_stage_continuous {cd qL pL qF pF : ℝ} (hcd : 0 ≤ cd) (hcd1 : cd < 1) (hq : 0 < qL) (hlt : qL < qF) :
    ContinuousOn (twoStageRate cd true qL pL qF pF) (Ici 0) ∧ twoStageRate cd true qL pL qF pF qL = pL ∧ twoStageRate cd true qL pL qF pF qF = pF := by
  refine ⟨?_, by simp [twoStageRate, cyclingRate_at_capacity _ _ _ hq.ne'], by simp [twoStageRate, not_le.mpr hlt]⟩
  unfold twoStageRate
  simp only [if_true]
  apply glue ((cyclingRate_continuous hcd hcd1 hq).mono inter_subset_left)
  · apply glue_lt (lineAt_continuous _ _ _ _).continuousOn continuousOn_const
    exact lineAt_right _ _ _ _ hlt.ne
  · rw [if_pos hlt, lineAt_left, cyclingRate_at_capacity _ _ _ hq.ne']

/-- C47: the energy of a variable-speed unit is a continuous function of the load, equal to the measured power at the three capacities. -/
theorem C47_variable_speed_continuous {cd qL pL qI pI qF pF : ℝ} (hcd : 0 ≤ cd) (hcd1 : cd < 1) (hq : 0 < qL) (hlt : qL < qI) (hlt' : qI < qF)
    (hpL : 0 < pL) (hpI : 0 < pI) (hpF : 0 < pF) :
    ContinuousOn (varSpeedRate cd qL pL qI pI qF pF) (Ici 0) ∧ varSpeedRate cd qL pL qI pI qF pF qL = pL ∧
      varSpeedRate cd qL pL qI pI qF pF qI = pI ∧ varSpeedRate cd qL pL qI pI qF pF qF = pF := by
  have hI := hq.trans hlt
  have hF := hI.trans hlt'
  have back : ∀ q p : ℝ, 0 < q → q / (q / p) = p := fun q p h => by rw [div_div_eq_mul_div, mul_div_cancel_left₀ _ h.ne']
  refine ⟨?_, by simp [varSpeedRate, cyclingRate_at_capacity _ _ _ hq.ne'], ?_, ?_⟩
  · unfold varSpeedRate
    apply glue ((cyclingRate_continuous hcd hcd1 hq).mono inter_subset_left)
    · apply glue_lt
      · exact (modulating_continuous hlt (div_pos hq hpL) (div_pos hI hpI)).mono fun x hx => ⟨hx.1.2, hx.2⟩
      · apply glue
        · exact (modulating_continuous hlt' (div_pos hI hpI) (div_pos hF hpF)).mono fun x hx => ⟨hx.1.2, hx.2⟩
        · exact continuousOn_const
        · rw [lineAt_right _ _ _ _ hlt'.ne, back _ _ hF]
      · rw [if_pos hlt'.le, lineAt_right _ _ _ _ hlt.ne, lineAt_left]
    · rw [if_pos hlt, lineAt_left, back _ _ hq, cyclingRate_at_capacity _ _ _ hq.ne']
  · simp [varSpeedRate, not_le.mpr hlt, hlt'.le, lineAt_left, back _ _ hI]
  · simp [varSpeedRate, not_le.mpr (hlt.trans hlt'), not_lt.mpr hlt'.le, lineAt_right _ _ _ _ hlt'.ne, back _ _ hF]

/-- C47: cycling between off and full, the energy at full capacity is the full power; the law of the standard jumps at low capacity. -/
theorem C47_off_full (cd qL pL qF pF : K) (hlt : qL < qF) (hq : 0 < qL) :
    twoStageRate cd false qL pL qF pF qL = pL ∧ twoStageRate cd false qL pL qF pF qF = pF ∧ cyclingRate cd qF pF qF = pF := by
  simp [twoStageRate, cyclingRate_at_capacity _ _ _ hq.ne', cyclingRate_at_capacity _ _ _ (hq.trans hlt).ne', not_le.mpr hlt]

end

/-! ## C48: unit size -/

/-- C48: multiplying every capacity and power of a unit by the same positive factor leaves the rating unchanged, also when it raises. -/
theorem C48_scale_invariant (U : Performance C K) (P : Points C) (u : Units K) (st : Staging) (cd : K) (cyc : Cycling) (bins : List (K × K)) {l : K} (hl : 0 < l) :
    seer (U.scale l) P u st cd cyc bins = seer U P u st cd cyc bins := by
  have fin : ∀ x : Py (K × K), (do let r ← sc2 l x; pdiv (← pdiv r.1 r.2) u.btuh) = (do let r ← x; pdiv (← pdiv r.1 r.2) u.btuh) := by
    intro x
    cases x <;> simp only [sc2_error, sc2_ok, bind_ok, bind_error, pdiv_scale hl.ne']
  cases st with
  | single => simp only [seer, scale_netCOP U hl]
  | two =>
    have h : ∀ t n, seerTwoBin (U.scale l) P cd cyc t n = sc2 l (seerTwoBin U P cd cyc t n) := by
      intro t n
      simp only [seerTwoBin, scale_coolingLines hl]
      cases coolingLines U P t <;> simp only [Except.map, sc2_error, bind_ok, bind_error]
      exact scale_twoStageBin hl ..
    have := scale_binLoop hl _ _ h bins 0 0
    rw [mul_zero] at this
    simp only [seer, this]
    exact fin _
  | varSpeed =>
    simp only [seer]
    rw [scale_coolingIntermediate hl U P (fun c => U.netTotalCoolingCapacity (some c)) _ fun c => scale_netTotal U hl (some c),
      scale_coolingIntermediate hl U P (fun c => U.netCoolingPower (some c)) _ fun c => scale_netPower U hl (some c)]
    generalize coolingIntermediate U P (fun c => U.netTotalCoolingCapacity (some c)) = x
    generalize coolingIntermediate U P (fun c => U.netCoolingPower (some c)) = y
    cases x with
    | error e => simp only [sc2_error, bind_error]
    | ok a =>
      cases y with
      | error e => simp only [sc2_error, sc2_ok, bind_error, bind_ok]
      | ok b =>
        simp only [sc2_ok, bind_ok]
        have h : ∀ t n, seerVarBin (U.scale l) P cd (l * a.1) (l * a.2) (l * b.1) (l * b.2) t n = sc2 l (seerVarBin U P cd a.1 a.2 b.1 b.2 t n) := by
          intro t n
          simp only [seerVarBin, scale_coolingLines hl]
          cases coolingLines U P t <;> simp only [Except.map, sc2_error, bind_ok, bind_error]
          rw [show l * a.1 + l * a.2 * (t - frF 87) = l * (a.1 + a.2 * (t - frF 87)) by ring,
            show l * b.1 + l * b.2 * (t - frF 87) = l * (b.1 + b.2 * (t - frF 87)) by ring]
          exact scale_varSpeedBin hl ..
        have := scale_binLoop hl _ _ h bins 0 0
        rw [mul_zero] at this
        rw [this]
        exact fin _

/-- The scaled unit really is scaled: its capacities and powers at every condition are multiplied. -/
theorem C48_scaled (U : Performance C K) {l : K} (hl : 0 < l) (c : Option C) (q p : K) (hq : U.netTotalCoolingCapacity c = .ok q)
    (hp : U.netCoolingPower c = .ok p) : (U.scale l).netTotalCoolingCapacity c = .ok (l * q) ∧ (U.scale l).netCoolingPower c = .ok (l * p) := by
  rw [scale_netTotal U hl, scale_netPower U hl, hq, hp]; exact ⟨rfl, rfl⟩

/-! ## C49: degradation and COP bounds -/

section
variable {U : Performance C K} {P : Points C} {T : CoolTests K} (hT : CoolMatch U P T) (u : Units K) (cyc : Cycling) (bins : List (K × K)) (hA : 0 ≤ T.qA)
  (hn : ∀ b ∈ bins, 0 ≤ b.2)

/-- Delivered cooling is non-negative when the full capacity is. -/
theorem total_delivered_nonneg (hA : 0 ≤ T.qA) (hn : ∀ b ∈ bins, 0 ≤ b.2) (hF : ∀ b ∈ bins, 0 ≤ T.qFull (toF b.1)) :
    0 ≤ CoolTests.total (fun t => T.delivered (toF t)) bins := by
  have : CoolTests.total (fun _ => (0 : K)) bins ≤ CoolTests.total (fun t => T.delivered (toF t)) bins := total_le fun b hb => by
    have h1 : 0 ≤ T.load (toF b.1) := by
      unfold CoolTests.load coolBuildingLoad
      split
      · exact le_rfl
      · rename_i h
        have : 0 ≤ toF b.1 - 65 := by linarith [not_le.mp h]
        positivity
    have := le_min h1 (hF b hb)
    simp only [zero_mul]
    exact mul_nonneg this (hn b hb)
  simpa [CoolTests.total] using this

include hT hA hn

/-- C49 for two-stage units: more cycling degradation never raises the rating, and the rating lies between `(1-cd)·m` and `M` for any bounds
`m`, `M` of the operating COPs in the bins. -/
theorem C49_two_stage {cd cd' : K} (hcd : 0 ≤ cd) (hle : cd ≤ cd') (hcd1 : cd' < 1) {m M v v' : K} (hm : 0 ≤ m)
    (h : ∀ b ∈ bins, 0 < T.qLow (toF b.1) ∧ T.qLow (toF b.1) ≤ T.qFull (toF b.1) ∧ 0 < T.pLow (toF b.1) ∧ 0 < T.pFull (toF b.1) ∧
      m ≤ T.qLow (toF b.1) / T.pLow (toF b.1) ∧ m ≤ T.qFull (toF b.1) / T.pFull (toF b.1) ∧ T.qLow (toF b.1) / T.pLow (toF b.1) ≤ M ∧
      T.qFull (toF b.1) / T.pFull (toF b.1) ≤ M)
    (hv : seer U P u .two cd cyc bins = .ok v) (hv' : seer U P u .two cd' cyc bins = .ok v') :
    v' ≤ v ∧ v ≤ M / u.btuh ∧ (1 - cd) * m / u.btuh ≤ v := by
  have hb := fun b hb => (⟨(h b hb).1, (h b hb).2.1⟩ : 0 < T.qLow (toF b.1) ∧ T.qLow (toF b.1) ≤ T.qFull (toF b.1))
  obtain ⟨r, hr⟩ : ∃ r : K → K → K, r = fun d t => twoStageRate d (decide (cyc = .lowFull)) (T.qLow (toF t)) (T.pLow (toF t)) (T.qFull (toF t))
    (T.pFull (toF t)) (T.load (toF t)) := ⟨_, rfl⟩
  have law : ∀ d w, 0 ≤ d → d < 1 → seer U P u .two d cyc bins = .ok w → CoolTests.total (r d) bins ≠ 0 ∧
      w = CoolTests.total (fun t => T.delivered (toF t)) bins / CoolTests.total (r d) bins / u.btuh := by
    intro d w h0 h1 hw
    have hl := binLoop_ok (seerTwoBin U P d cyc) (fun t => T.delivered (toF t)) (r d) bins (fun b hb' => by
      rw [C46_two_stage_bin hT h0 h1 hA cyc b.1 b.2 (hb b hb').1 (hb b hb').2, hr]; rfl) 0 0
    simp only [seer, hl, bind_ok, zero_add, bind_eq_ok, pdiv_eq_ok] at hw
    obtain ⟨x, ⟨hx, rfl⟩, _, rfl⟩ := hw
    exact ⟨hx, rfl⟩
  obtain ⟨e1, rfl⟩ := law cd v hcd (hle.trans_lt hcd1) hv
  obtain ⟨e2, rfl⟩ := law cd' v' (hcd.trans hle) hcd1 hv'
  have hld : ∀ t, 0 ≤ T.load t := fun t => load_nonneg hT hcd (hle.trans_lt hcd1) hA hA t
  have key := fun b hb => twoStageRate_bounds (b := decide (cyc = .lowFull)) hcd (hle.trans_lt hcd1) (h b hb).1 (h b hb).2.1 (h b hb).2.2.1 (h b hb).2.2.2.1
    (hld (toF b.1)) hm (h b hb).2.2.2.2.1 (h b hb).2.2.2.2.2.1 (h b hb).2.2.2.2.2.2.1 (h b hb).2.2.2.2.2.2.2
  have h0 : 0 ≤ CoolTests.total (r cd) bins := by
    have : CoolTests.total (fun _ => (0 : K)) bins ≤ CoolTests.total (r cd) bins := total_le fun b hb => by
      simp only [zero_mul, hr]; exact mul_nonneg (key b hb).1 (hn b hb)
    simpa [CoolTests.total] using this
  have hpos : 0 < CoolTests.total (r cd) bins := lt_of_le_of_ne h0 (Ne.symm e1)
  have hmono : CoolTests.total (r cd) bins ≤ CoolTests.total (r cd') bins := total_le fun b hb => by
    simp only [hr]
    exact mul_le_mul_of_nonneg_right (twoStageRate_mono hle hcd hcd1 (h b hb).1 (h b hb).2.1 (h b hb).2.2.1.le (h b hb).2.2.2.1.le (hld _)) (hn b hb)
  have hQ := total_delivered_nonneg (T := T) bins hA hn fun b hb => ((h b hb).1.trans_le (h b hb).2.1).le
  have hbt := u.btuh_pos
  have up : CoolTests.total (fun t => T.delivered (toF t)) bins ≤ M * CoolTests.total (r cd) bins := by
    rw [← total_mul]
    exact total_le fun b hb => mul_le_mul_of_nonneg_right (by simp only [hr]; exact (key b hb).2.2) (hn b hb)
  have lo : (1 - cd) * m * CoolTests.total (r cd) bins ≤ CoolTests.total (fun t => T.delivered (toF t)) bins := by
    rw [← total_mul]
    exact total_le fun b hb => mul_le_mul_of_nonneg_right (by simp only [hr]; exact (key b hb).2.1) (hn b hb)
  refine ⟨?_, ?_, ?_⟩
  · exact div_le_div_of_nonneg_right (div_le_div_of_nonneg_left hQ hpos hmono) hbt.le
  · exact div_le_div_of_nonneg_right ((div_le_iff₀ hpos).2 up) hbt.le
  · exact div_le_div_of_nonneg_right ((le_div_iff₀ hpos).2 lo) hbt.le

/-- C49 for variable-speed units. -/
theorem C49_variable_speed (hI : CoolMatch.Int U P T) (hQ0 : T.qFull 87 - T.qLow 87 ≠ 0) (hP0 : T.pFull 87 - T.pLow 87 ≠ 0) {cd cd' : K} (hcd : 0 ≤ cd)
    (hle : cd ≤ cd') (hcd1 : cd' < 1) {m M v v' : K} (hm : 0 ≤ m)
    (h : ∀ b ∈ bins, (0 < T.qLow (toF b.1) ∧ T.qLow (toF b.1) ≤ T.qInt (toF b.1) ∧ T.qInt (toF b.1) < T.qFull (toF b.1) ∧ 0 < T.pLow (toF b.1) ∧
      0 < T.pInt (toF b.1) ∧ 0 < T.pFull (toF b.1)) ∧
      (m ≤ T.qLow (toF b.1) / T.pLow (toF b.1) ∧ m ≤ T.qInt (toF b.1) / T.pInt (toF b.1) ∧ m ≤ T.qFull (toF b.1) / T.pFull (toF b.1)) ∧
      T.qLow (toF b.1) / T.pLow (toF b.1) ≤ M ∧ T.qInt (toF b.1) / T.pInt (toF b.1) ≤ M ∧ T.qFull (toF b.1) / T.pFull (toF b.1) ≤ M)
    (hv : seer U P u .varSpeed cd cyc bins = .ok v) (hv' : seer U P u .varSpeed cd' cyc bins = .ok v') :
    v' ≤ v ∧ v ≤ M / u.btuh ∧ (1 - cd) * m / u.btuh ≤ v := by
  obtain ⟨r, hr⟩ : ∃ r : K → K → K, r = fun d t => varSpeedRate d (T.qLow (toF t)) (T.pLow (toF t)) (T.qInt (toF t)) (T.pInt (toF t)) (T.qFull (toF t))
    (T.pFull (toF t)) (T.load (toF t)) := ⟨_, rfl⟩
  have law : ∀ d w, 0 ≤ d → d < 1 → seer U P u .varSpeed d cyc bins = .ok w → CoolTests.total (r d) bins ≠ 0 ∧
      w = CoolTests.total (fun t => T.delivered (toF t)) bins / CoolTests.total (r d) bins / u.btuh := by
    intro d w h0 h1 hw
    obtain ⟨mQ, mP, a1, a2, a3⟩ := C47_intermediate hT h0 h1 hA hI hQ0 hP0
    have hl := binLoop_ok (seerVarBin U P d T.qE mQ T.pE mP) (fun t => T.delivered (toF t)) (r d) bins (fun b hb => by
      obtain ⟨⟨h1', h2, h3, h4, h5, h6⟩, _⟩ := h b hb
      simp only [seerVarBin, coolingLines_ok hT hA, bind_ok, (a3 b.1).1, (a3 b.1).2, hr]
      exact varSpeedBin_ok h0 h1 h1' h2 h3 h4 h5 h6 (load_nonneg hT h0 h1 hA hA _)) 0 0
    simp only [seer, a1, a2, hl, bind_ok, zero_add, bind_eq_ok, pdiv_eq_ok] at hw
    obtain ⟨x, ⟨hx, rfl⟩, _, rfl⟩ := hw
    exact ⟨hx, rfl⟩
  obtain ⟨e1, rfl⟩ := law cd v hcd (hle.trans_lt hcd1) hv
  obtain ⟨e2, rfl⟩ := law cd' v' (hcd.trans hle) hcd1 hv'
  have hld : ∀ t, 0 ≤ T.load t := fun t => load_nonneg hT hcd (hle.trans_lt hcd1) hA hA t
  have key := fun b hb => by
    obtain ⟨⟨h1, h2, h3, h4, h5, h6⟩, ⟨m1, m2, m3⟩, M1, M2, M3⟩ := h b hb
    exact varSpeedRate_bounds hcd (hle.trans_lt hcd1) h1 h2 h3 h4 h5 h6 (hld (toF b.1)) hm m1 m2 m3 M1 M2 M3
  have h0 : 0 ≤ CoolTests.total (r cd) bins := by
    have : CoolTests.total (fun _ => (0 : K)) bins ≤ CoolTests.total (r cd) bins := total_le fun b hb => by
      simp only [zero_mul, hr]; exact mul_nonneg (key b hb).1 (hn b hb)
    simpa [CoolTests.total] using this
  have hpos : 0 < CoolTests.total (r cd) bins := lt_of_le_of_ne h0 (Ne.symm e1)
  have hmono : CoolTests.total (r cd) bins ≤ CoolTests.total (r cd') bins := total_le fun b hb => by
    simp only [hr]
    exact mul_le_mul_of_nonneg_right (varSpeedRate_mono hle hcd hcd1 (h b hb).1.1 (h b hb).1.2.2.2.1.le (hld _)) (hn b hb)
  have hQ := total_delivered_nonneg (T := T) bins hA hn fun b hb => ((h b hb).1.1.trans_le ((h b hb).1.2.1.trans (h b hb).1.2.2.1.le)).le
  have hbt := u.btuh_pos
  have up : CoolTests.total (fun t => T.delivered (toF t)) bins ≤ M * CoolTests.total (r cd) bins := by
    rw [← total_mul]
    exact total_le fun b hb => mul_le_mul_of_nonneg_right (by simp only [hr]; exact (key b hb).2.2) (hn b hb)
  have lo : (1 - cd) * m * CoolTests.total (r cd) bins ≤ CoolTests.total (fun t => T.delivered (toF t)) bins := by
    rw [← total_mul]
    exact total_le fun b hb => mul_le_mul_of_nonneg_right (by simp only [hr]; exact (key b hb).2.1) (hn b hb)
  refine ⟨?_, ?_, ?_⟩
  · exact div_le_div_of_nonneg_right (div_le_div_of_nonneg_left hQ hpos hmono) hbt.le
  · exact div_le_div_of_nonneg_right ((div_le_iff₀ hpos).2 up) hbt.le
  · exact div_le_div_of_nonneg_right ((le_div_iff₀ hpos).2 lo) hbt.le

end

/-- C49 for single-stage units. -/
theorem C49_single_stage (U : Performance C K) (P : Points C) (u : Units K) {cd cd' : K} (cyc : Cycling) (bins : List (K × K)) (q p v v' : K)
    (hq : U.netTotalCoolingCapacity (some P.bFull) = .ok q) (hp : U.netCoolingPower (some P.bFull) = .ok p) (hq0 : 0 ≤ q) (hp0 : 0 < p) (hcd : 0 ≤ cd) (hle : cd ≤ cd')
    (hv : seer U P u .single cd cyc bins = .ok v) (hv' : seer U P u .single cd' cyc bins = .ok v') : v' ≤ v ∧ v ≤ q / p / u.btuh := by
  rw [C46_single_stage U P u _ cyc bins q p hq hp hp0.ne', Except.ok.injEq] at hv hv'
  have h := div_nonneg hq0 hp0.le
  subst hv; subst hv'
  exact ⟨div_le_div_of_nonneg_right (mul_le_mul_of_nonneg_right (by linarith) h) u.btuh_pos.le,
    div_le_div_of_nonneg_right (by nlinarith) u.btuh_pos.le⟩

/-- The toy unit's COPs lie between 2 and 15 in every bin. -/
example : ∀ b ∈ coolingBins (K := ℚ), 0 ≤ b.2 ∧ 2 ≤ toyTests.qLow (toF b.1) / toyTests.pLow (toF b.1) ∧ toyTests.qLow (toF b.1) / toyTests.pLow (toF b.1) ≤ 15 ∧
    2 ≤ toyTests.qFull (toF b.1) / toyTests.pFull (toF b.1) ∧ toyTests.qFull (toF b.1) / toyTests.pFull (toF b.1) ≤ 15 := by decide +kernel

end Resdx.DX
