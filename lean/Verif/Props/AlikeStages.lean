import Verif.Props.CoolMore

/-!
# C126: units whose stages are alike
-/

set_option linter.unusedSectionVars false
set_option linter.unusedSimpArgs false

namespace Resdx.DX

open Spec Performance BaseModel

variable {C K : Type} [Field K] [LinearOrder K] [IsStrictOrderedRing K]

/-! ## Heating -/

/-- Two loops whose bins give the same sums and differ in the value carried along only. -/
theorem loop_sums (f g : Option K → K → K → Py ((K × K × K) × Option K)) (bins : List (K × K))
    (h : ∀ b ∈ bins, ∀ prev prev', (f prev b.1 b.2).map Prod.fst = (g prev' b.1 b.2).map Prod.fst) (prev prev' : Option K) (acc : K × K × K) :
    heatLoop f bins prev acc = heatLoop g bins prev' acc := by
  induction bins generalizing prev prev' acc with
  | nil => rfl
  | cons b l ih =>
    obtain ⟨t, n⟩ := b
    have hb := h _ List.mem_cons_self prev prev'
    simp only [heatLoop]
    cases hf : f prev t n <;> cases hg : g prev' t n <;> simp only [hf, hg, Except.map, Except.error.injEq, Except.ok.injEq, reduceCtorEq] at hb
    · subst hb; rfl
    · simp only [bind_ok, hb]
      exact ih (fun b hb => h b (List.mem_cons_of_mem _ hb)) _ _ _

/-- A bin of a two-stage unit with one capacity and power is that of a single-stage unit. -/
theorem alike_bin (s : HeatSettings K) (prev : Option K) (t bl q p c δ hlf n : K) (hq : q ≠ 0) (hδ : cutFactor s.off s.on t c = .ok δ)
    (hl : loadFactor bl q = .ok hlf) : (heatTwoBin s prev t bl q p c q p δ hlf n).map Prod.fst = heatSingleBin s.cd bl q p δ hlf n := by
  unfold heatTwoBin heatSingleBin
  by_cases h : bl ≤ q
  · have e : hlf = bl / q := by
      unfold loadFactor at hl
      by_cases g : bl < q
      · rw [if_pos g, pdiv_ok hq, Except.ok.injEq] at hl; exact hl.symm
      · rw [if_neg g, Except.ok.injEq] at hl
        rw [← hl, le_antisymm h (not_lt.1 g), div_self hq]
    have e2 : bl * (1 - δ) * n = (bl - q * hlf * δ) * n := by rw [e]; field_simp
    rw [if_pos h, hδ]
    simp only [bind_ok, heatLowBin, pdiv_ok hq, ← e, e2]
    cases pdiv (p * hlf * δ * n) (1 - s.cd * (1 - hlf)) <;> rfl
  · have g : ¬bl < q := fun g => h g.le
    have e : hlf = 1 := by
      unfold loadFactor at hl
      rw [if_neg g, Except.ok.injEq] at hl; exact hl.symm
    rw [if_neg h, if_neg (fun x => g x.1), if_neg (fun x => g x.1), e]
    simp only [sub_self, mul_zero, sub_zero, pdiv_ok one_ne_zero, div_one, bind_ok]
    rfl

section
variable (U : Performance C K) (P : Points C) (u : Units K) (std : RatingStandard) (cd off : K) (on : Option K) (cyc cyc' : Cycling)

/-- C126 for the seasonal heating rating: a two-stage unit whose low speed performs as its full speed at every temperature of the bins is rated exactly as a single-stage
unit, and raises if and as the latter does, whatever the cycling method, settings, region and edition. -/
theorem C126_heating (defrost : Defrost K) (region : Nat) (hlow : ∀ t ∈ heatingTemperatures, heatLowTwo U P t = heatFull U P t)
    (hq : ∀ t ∈ heatingTemperatures, ∀ r, heatFull U P t = .ok r → r.1 ≠ 0) :
    hspf U P u std ⟨.two, cd, cyc, off, on⟩ defrost region = hspf U P u std ⟨.single, cd, cyc', off, on⟩ defrost region := by
  unfold hspf
  cases hd : regional (K := K) std region with
  | error e => rfl
  | ok d =>
    simp only [bind_ok, hspfWith]
    have hl : heatingLoad U P u .two std d = heatingLoad U P u .single std d := by
      cases std <;> simp only [heatingLoad, reduceCtorEq, if_false]
    rw [hl]
    cases heatingLoad U P u .single std d with
    | error e => rfl
    | ok load =>
      have : ∀ I prev acc, heatLoop (heatBin U P ⟨.two, cd, cyc, off, on⟩ I load) (heatingTemperatures.zip d.hours) prev acc =
          heatLoop (heatBin U P ⟨.single, cd, cyc', off, on⟩ I load) (heatingTemperatures.zip d.hours) prev acc := by
        intro I prev acc
        refine loop_sums _ _ _ (fun b hb prev prev' => ?_) _ _ _
        have ht := (List.of_mem_zip hb).1
        simp only [heatBin, heatStaging, hlow _ ht]
        cases load b.1 with
        | error e => rfl
        | ok bl =>
          cases hf : heatFull U P b.1 with
          | error e => rfl
          | ok r =>
            simp only [bind_ok]
            cases hc : pdiv r.1 r.2 with
            | error e => rfl
            | ok c =>
              simp only [bind_ok]
              cases hδ : cutFactor off on b.1 c with
              | error e => rfl
              | ok δ =>
                simp only [bind_ok]
                cases hh : loadFactor bl r.1 with
                | error e => rfl
                | ok hlf =>
                  simp only [bind_ok]
                  have := alike_bin ⟨.two, cd, cyc, off, on⟩ prev b.1 bl r.1 r.2 c δ hlf b.2 (hq _ ht _ hf) hδ hh
                  simp only at this
                  rw [← this]
                  cases heatTwoBin ⟨.two, cd, cyc, off, on⟩ prev b.1 bl r.1 r.2 c r.1 r.2 δ hlf b.2 <;> rfl
      simp only [bind_ok, heatIntermediateFor, reduceCtorEq, if_false, this]

/-- A line through two points of a line. -/
theorem lineAt_affine {x1 x2 : K} (h : x1 ≠ x2) (a b x : K) : lineAt x1 (a + b * x1) x2 (a + b * x2) x = a + b * x := by
  have : x2 - x1 ≠ 0 := sub_ne_zero.2 fun e => h e.symm
  unfold lineAt
  field_simp
  ring

/-- C126 in terms of the tests: if the low speed performs as the full speed in all heating tests, along lines `a + b t` (capacity) and `c + e t` (power) in the
temperature in °F that the frost does not change, the two-stage unit is rated as a single-stage one. -/
theorem C126_heating_tests (defrost : Defrost K) (region : Nat) {l0 l1 l2 l3 : C} (h0 : P.h0Low = some l0) (h1 : P.h1Low = some l1) (h2 : P.h2Low = some l2)
    (h3 : P.h3Low = some l3) (a b c e : K)
    (hs : ∀ x ∈ [(l0, 62), (l1, 47), (l3, 17), (P.h1Full, 47), (P.h3Full, (17 : K))], U.db x.1 = frF x.2 ∧
      U.netSteadyHeatingCapacity (some x.1) = .ok (a + b * x.2) ∧ U.netSteadyHeatingPower (some x.1) = .ok (c + e * x.2))
    (hi : ∀ x ∈ [l2, P.h2Full], U.db x = frF 35 ∧
      U.netIntegratedHeatingCapacity (some x) = .ok (a + b * 35) ∧ U.netIntegratedHeatingPower (some x) = .ok (c + e * 35))
    (hq : ∀ t ∈ heatingTemperatures, a + b * toF t ≠ 0) :
    hspf U P u std ⟨.two, cd, cyc, off, on⟩ defrost region = hspf U P u std ⟨.single, cd, cyc', off, on⟩ defrost region := by
  simp only [List.forall_mem_cons, List.not_mem_nil, false_imp_iff, implies_true, and_true] at hs hi
  obtain ⟨s0, s1, s3, f1, f3⟩ := hs
  obtain ⟨s2, f2⟩ := hi
  have line : ∀ {f g : C → Py K} {c1 c2 : C} {a b x1 x2 : K}, U.db c1 = frF x1 → U.db c2 = frF x2 → f c1 = .ok (a + b * x1) → g c2 = .ok (a + b * x2) → x1 ≠ x2 →
      ∀ t, interpolateSeparate U.db f g c1 c2 t = .ok (a + b * toF t) := fun d1 d2 e1 e2 hne t => by
    rw [interpolateSeparate_line e1 e2 d1 d2 hne, lineAt_affine hne]
  have hfull : ∀ t, heatFull U P t = .ok (a + b * toF t, c + e * toF t) := fun t => by
    unfold heatFull
    split <;> simp only [interpolate, line (f := sCap U) (g := sCap U) f3.1 f1.1 f3.2.1 f1.2.1 (by norm_num) t, line (f := sPow U) (g := sPow U) f3.1 f1.1 f3.2.2 f1.2.2 (by norm_num) t,
      line (f := sCap U) (g := iCap U) f3.1 f2.1 f3.2.1 f2.2.1 (by norm_num) t, line (f := sPow U) (g := iPow U) f3.1 f2.1 f3.2.2 f2.2.2 (by norm_num) t,
      bind_ok, pure_eq_ok]
  have hlow : ∀ t, heatLowTwo U P t = .ok (a + b * toF t, c + e * toF t) := fun t => by
    unfold heatLowTwo
    split
    · simp only [interpolate, h0, h1, pyAttr, line (f := sCap U) (g := sCap U) s0.1 s1.1 s0.2.1 s1.2.1 (by norm_num) t,
        line (f := sPow U) (g := sPow U) s0.1 s1.1 s0.2.2 s1.2.2 (by norm_num) t, bind_ok, pure_eq_ok]
    split
    · simp only [interpolate, h1, h3, pyAttr, line (f := sCap U) (g := sCap U) s1.1 s3.1 s1.2.1 s3.2.1 (by norm_num) t,
        line (f := sPow U) (g := sPow U) s1.1 s3.1 s1.2.2 s3.2.2 (by norm_num) t, bind_ok, pure_eq_ok]
    · simp only [interpolate, h2, h3, pyAttr, line (f := iCap U) (g := sCap U) s2.1 s3.1 s2.2.1 s3.2.1 (by norm_num) t,
        line (f := iPow U) (g := sPow U) s2.1 s3.1 s2.2.2 s3.2.2 (by norm_num) t, bind_ok, pure_eq_ok]
  refine C126_heating U P u std cd off on cyc cyc' defrost region (fun t _ => by rw [hlow, hfull]) fun t ht r hr => ?_
  rw [hfull, Except.ok.injEq] at hr
  subst hr
  exact hq t ht

/-! ## Cooling -/

/-- C126 for the seasonal cooling rating: when both stages have the same capacity in a bin, the cycling method does not matter. -/
theorem C126_cooling_cycling (bins : List (K × K)) (h : ∀ b ∈ bins, ∀ r, coolingLines U P b.1 = .ok r → r.2.1 = r.2.2.2.1) :
    seer U P u .two cd cyc bins = seer U P u .two cd cyc' bins := by
  have hb : ∀ b ∈ bins, seerTwoBin U P cd cyc b.1 b.2 = seerTwoBin U P cd cyc' b.1 b.2 := by
    intro b hb
    unfold seerTwoBin
    cases hl : coolingLines U P b.1 with
    | error e => rfl
    | ok r =>
      obtain ⟨bl, qL, pL, qF, pF⟩ := r
      have e : qL = qF := h b hb _ hl
      subst e
      simp only [bind_ok, twoStageBin]
      by_cases g : bl ≤ qL
      · simp only [g, if_true]
      · have g' : ¬bl < qL := fun x => g x.le
        simp only [g, g', if_false, false_and]
  have hloop : ∀ (l : List (K × K)) q e, (∀ b ∈ l, seerTwoBin U P cd cyc b.1 b.2 = seerTwoBin U P cd cyc' b.1 b.2) →
      binLoop (seerTwoBin U P cd cyc) l q e = binLoop (seerTwoBin U P cd cyc') l q e := by
    intro l
    induction l with
    | nil => intro q e _; rfl
    | cons b l ih =>
      intro q e hl
      obtain ⟨t, n⟩ := b
      simp only [binLoop, hl _ List.mem_cons_self]
      cases seerTwoBin U P cd cyc' t n with
      | error e => rfl
      | ok r => simp only [bind_ok]; exact ih _ _ fun b hb => hl b (List.mem_cons_of_mem _ hb)
  simp only [seer, hloop bins 0 0 hb]

/-- A variable-speed unit whose low speed delivers at 87 °F what its full speed delivers there has no seasonal cooling rating: a division by zero. -/
theorem C126_cooling_variable {b f : C} (hb : P.bLow = some b) (hf : P.fLow = some f) (bins : List (K × K))
    (h : interpolate U.db (fun c => U.netTotalCoolingCapacity (some c)) f b (frF 87) =
      interpolate U.db (fun c => U.netTotalCoolingCapacity (some c)) P.bFull P.aFull (frF 87)) (v : K) : seer U P u .varSpeed cd cyc bins ≠ .ok v := by
  intro hv
  simp only [seer] at hv
  obtain ⟨q, hq, -⟩ := (bind_eq_ok _ _ _).1 hv
  simp only [coolingIntermediate, hb, hf, pyAttr, bind_ok] at hq
  obtain ⟨_, -, hq⟩ := (bind_eq_ok _ _ _).1 hq
  obtain ⟨_, -, hq⟩ := (bind_eq_ok _ _ _).1 hq
  obtain ⟨_, -, hq⟩ := (bind_eq_ok _ _ _).1 hq
  obtain ⟨_, -, hq⟩ := (bind_eq_ok _ _ _).1 hq
  obtain ⟨_, -, hq⟩ := (bind_eq_ok _ _ _).1 hq
  obtain ⟨_, -, hq⟩ := (bind_eq_ok _ _ _).1 hq
  obtain ⟨x, hx, hq⟩ := (bind_eq_ok _ _ _).1 hq
  obtain ⟨y, hy, hq⟩ := (bind_eq_ok _ _ _).1 hq
  obtain ⟨n, hn, hq⟩ := (bind_eq_ok _ _ _).1 hq
  rw [h, hy, Except.ok.injEq] at hx
  exact (pdiv_eq_ok.1 hn).1 (by rw [hx, sub_self])

/-- A variable-speed unit whose low speed delivers at 35 °F what its full speed delivers in the frost test has no seasonal heating rating: a division by zero. -/
theorem C126_heating_variable {l m : C} (hl : P.h0Low = some l) (hm : P.h1Low = some m) (defrost : Defrost K) (region : Nat)
    (h : interpolate U.db (fun c => U.netSteadyHeatingCapacity (some c)) l m (frF 35) = U.netIntegratedHeatingCapacity (some P.h2Full)) (v : K) :
    hspf U P u std ⟨.varSpeed, cd, cyc, off, on⟩ defrost region ≠ .ok v := by
  intro hv
  simp only [hspf] at hv
  obtain ⟨d, -, hv⟩ := (bind_eq_ok _ _ _).1 hv
  simp only [hspfWith] at hv
  obtain ⟨load, -, hv⟩ := (bind_eq_ok _ _ _).1 hv
  obtain ⟨I, hI, -⟩ := (bind_eq_ok _ _ _).1 hv
  simp only [heatIntermediateFor, if_true] at hI
  obtain ⟨i, hi, -⟩ := (bind_eq_ok _ _ _).1 hI
  simp only [heatIntermediate] at hi
  obtain ⟨q, hq, -⟩ := (bind_eq_ok _ _ _).1 hi
  simp only [heatIntermediateOf, hl, hm, pyAttr, bind_ok] at hq
  obtain ⟨_, -, hq⟩ := (bind_eq_ok _ _ _).1 hq
  obtain ⟨_, -, hq⟩ := (bind_eq_ok _ _ _).1 hq
  obtain ⟨_, -, hq⟩ := (bind_eq_ok _ _ _).1 hq
  obtain ⟨_, -, hq⟩ := (bind_eq_ok _ _ _).1 hq
  obtain ⟨_, -, hq⟩ := (bind_eq_ok _ _ _).1 hq
  obtain ⟨y, hy, hq⟩ := (bind_eq_ok _ _ _).1 hq
  obtain ⟨_, -, hq⟩ := (bind_eq_ok _ _ _).1 hq
  obtain ⟨_, -, hq⟩ := (bind_eq_ok _ _ _).1 hq
  obtain ⟨x, hx, hq⟩ := (bind_eq_ok _ _ _).1 hq
  obtain ⟨n, hn, hq⟩ := (bind_eq_ok _ _ _).1 hq
  have e : (.ok x : Py K) = .ok y := hx.symm.trans (h.trans hy)
  rw [Except.ok.injEq] at e
  exact (pdiv_eq_ok.1 hn).1 (by rw [e, sub_self])

end

/-- Rating conditions with both stages at the same speed. -/
def alikePoints : Points (ℚ × ℚ) :=
  { toyPoints with
    bLow := some (100, frF 82), fLow := some (100, frF 67), h0Low := some (100, frF 62), h1Low := some (100, frF 47), h2Low := some (100, frF 35), h3Low := some (100, frF 17) }

/-- A unit that is not subject to frost. -/
def frostless : Performance (ℚ × ℚ) ℚ := { heatUnit with intCap := heatUnit.heatCap, intPow := heatUnit.heatPow }

/-- The hypotheses of `C126_heating` hold of it, and it has a rating. -/
example : (∀ t ∈ heatingTemperatures (K := ℚ), heatLowTwo frostless alikePoints t = heatFull frostless alikePoints t) ∧
    (∀ t ∈ heatingTemperatures (K := ℚ), ∀ r, heatFull frostless alikePoints t = .ok r → r.1 ≠ 0) ∧
    (hspf frostless alikePoints (Units.ofOnes ℚ) .ahri2023 (heatSettings .two .offFull 0) timedDefrost 4).isOk = true := by
  refine ⟨by decide +kernel, fun t ht r hr => ?_, by decide +kernel⟩
  have : ∀ t ∈ heatingTemperatures (K := ℚ), okTest (heatFull frostless alikePoints t) (fun r => decide (r.1 ≠ 0)) = true := by decide +kernel
  obtain ⟨r', h1, h2⟩ := okTest_iff.1 (this t ht)
  rw [hr, Except.ok.injEq] at h1
  exact h1 ▸ of_decide_eq_true h2

/-- The hypotheses of `C126_heating_tests` hold of it. -/
example : ∃ a b c e : ℚ, (∀ x ∈ [((100, frF 62), 62), ((100, frF 47), 47), ((100, frF 17), 17), (alikePoints.h1Full, 47), (alikePoints.h3Full, (17 : ℚ))],
      frostless.db x.1 = frF x.2 ∧ frostless.netSteadyHeatingCapacity (some x.1) = .ok (a + b * x.2) ∧ frostless.netSteadyHeatingPower (some x.1) = .ok (c + e * x.2)) ∧
    (∀ x ∈ [(100, frF 35), alikePoints.h2Full], frostless.db x = frF 35 ∧
      frostless.netIntegratedHeatingCapacity (some x) = .ok (a + b * 35) ∧ frostless.netIntegratedHeatingPower (some x) = .ok (c + e * 35)) ∧
    (∀ t ∈ heatingTemperatures (K := ℚ), a + b * toF t ≠ 0) ∧ b ≠ 0 ∧ e ≠ 0 :=
  ⟨110 * (frF 0 / 2 - 60) + 2, 110 * (5 / 9) / 2, 100 * (320 - frF 0) / 2 + 2, -(100 * (5 / 9) / 2), by decide +kernel, by decide +kernel, by decide +kernel,
    by norm_num, by norm_num⟩

/-- The hypotheses of the other theorems hold of it. -/
example : (∀ b ∈ coolingBins (K := ℚ), okTest (coolingLines frostless alikePoints b.1) (fun r => decide (r.2.1 = r.2.2.2.1 ∧ 0 < r.2.1)) = true) ∧
    interpolate frostless.db (fun c => frostless.netTotalCoolingCapacity (some c)) (100, frF 67) (100, frF 82) (frF 87) =
      interpolate frostless.db (fun c => frostless.netTotalCoolingCapacity (some c)) alikePoints.bFull alikePoints.aFull (frF 87) ∧
    interpolate frostless.db (fun c => frostless.netSteadyHeatingCapacity (some c)) (100, frF 62) (100, frF 47) (frF 35) =
      frostless.netIntegratedHeatingCapacity (some alikePoints.h2Full) := by decide +kernel

/-- C126 is false of the seasonal cooling rating: the unit, the same at both stages, is rated one way as a two-stage and another way as a single-stage unit. -/
theorem C126_cooling_refuted : ∃ v v', seer frostless alikePoints (Units.ofOnes ℚ) .single (1 / 4) .lowFull coolingBins = .ok v ∧
    seer frostless alikePoints (Units.ofOnes ℚ) .two (1 / 4) .lowFull coolingBins = .ok v' ∧ v ≠ v' := by
  have h : okTest (seer frostless alikePoints (Units.ofOnes ℚ) .single (1 / 4) .lowFull coolingBins) (fun v =>
      okTest (seer frostless alikePoints (Units.ofOnes ℚ) .two (1 / 4) .lowFull coolingBins) fun v' => decide (v ≠ v')) = true := by decide +kernel
  obtain ⟨v, e1, g⟩ := okTest_iff.1 h
  obtain ⟨v', e2, g⟩ := okTest_iff.1 g
  exact ⟨v, v', e1, e2, of_decide_eq_true g⟩

/-- C126 is false if only the tests give the same: of a unit subject to frost, the lines through the tests of the low speed differ from those of the full speed. -/
theorem C126_frost_refuted : alikePoints.h1Low = some alikePoints.h1Full ∧ alikePoints.h2Low = some alikePoints.h2Full ∧ alikePoints.h3Low = some alikePoints.h3Full ∧
    ∃ v v', hspf heatUnit alikePoints (Units.ofOnes ℚ) .ahri2023 (heatSettings .single .lowFull 0) timedDefrost 4 = .ok v ∧
      hspf heatUnit alikePoints (Units.ofOnes ℚ) .ahri2023 (heatSettings .two .lowFull 0) timedDefrost 4 = .ok v' ∧ v ≠ v' := by
  have h : okTest (hspf heatUnit alikePoints (Units.ofOnes ℚ) .ahri2023 (heatSettings .single .lowFull 0) timedDefrost 4) (fun v =>
      okTest (hspf heatUnit alikePoints (Units.ofOnes ℚ) .ahri2023 (heatSettings .two .lowFull 0) timedDefrost 4) fun v' => decide (v ≠ v')) = true := by decide +kernel
  obtain ⟨v, e1, g⟩ := okTest_iff.1 h
  obtain ⟨v', e2, g⟩ := okTest_iff.1 g
  exact ⟨rfl, rfl, rfl, v, v', e1, e2, of_decide_eq_true g⟩

end Resdx.DX
