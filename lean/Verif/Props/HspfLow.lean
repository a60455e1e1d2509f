import Verif.Props.Hspf

/-! # Properties C50 and C55, continued: the lines through the low-speed and intermediate tests, the rating of two-stage and variable-speed units from their test results,
the design heating requirements and the climates -/

set_option linter.unusedSectionVars false
set_option linter.unusedSimpArgs false

namespace Resdx.DX

open Spec Performance BaseModel

variable {C K : Type} [Field K] [LinearOrder K] [IsStrictOrderedRing K]

/-! ## The lines -/

theorem lineAt_swap {x0 y0 x1 y1 : K} (h : x0 ≠ x1) (x : K) : lineAt x0 y0 x1 y1 x = lineAt x1 y1 x0 y0 x := by
  have h1 : x1 - x0 ≠ 0 := sub_ne_zero.2 h.symm
  have h2 : x0 - x1 ≠ 0 := sub_ne_zero.2 h
  simp only [lineAt]
  field_simp
  ring

/-- The unit, tested at low speed at H0 and H1, gives these results. -/
structure HeatLowMatch (U : Performance C K) (P : Points C) (T : HeatLowTests K) : Prop where
  h0 : ∃ c, P.h0Low = some c ∧ U.netSteadyHeatingCapacity (some c) = .ok T.q0 ∧ U.netSteadyHeatingPower (some c) = .ok T.p0 ∧ U.db c = frF 62
  h1 : ∃ c, P.h1Low = some c ∧ U.netSteadyHeatingCapacity (some c) = .ok T.q1 ∧ U.netSteadyHeatingPower (some c) = .ok T.p1 ∧ U.db c = frF 47

/-- A two-stage unit is also tested at low speed at H2, with frosting, and H3. -/
structure HeatLowTwoMatch (U : Performance C K) (P : Points C) (T : HeatLowTests K) : Prop extends HeatLowMatch U P T where
  h2 : ∃ c, P.h2Low = some c ∧ U.netIntegratedHeatingCapacity (some c) = .ok T.q2 ∧ U.netIntegratedHeatingPower (some c) = .ok T.p2 ∧ U.db c = frF 35
  h3 : ∃ c, P.h3Low = some c ∧ U.netSteadyHeatingCapacity (some c) = .ok T.q3 ∧ U.netSteadyHeatingPower (some c) = .ok T.p3 ∧ U.db c = frF 17

/-- C50: the low-speed capacity and power of a two-stage unit follow the standard's lines, with frosting between 17 and 40 °F. -/
theorem C50_low_speed_two {U : Performance C K} {P : Points C} {T : HeatLowTests K} (h : HeatLowTwoMatch U P T) (t : K) :
    heatLowTwo U P t = .ok (T.q (toF t), T.p (toF t)) := by
  obtain ⟨c0, e0, q0, p0, d0⟩ := h.h0
  obtain ⟨c1, e1, q1, p1, d1⟩ := h.h1
  obtain ⟨c2, e2, q2, p2, d2⟩ := h.h2
  obtain ⟨c3, e3, q3, p3, d3⟩ := h.h3
  have i : (frF 40 ≤ t) ↔ (40 ≤ toF t) := by conv_lhs => rw [← frF_toF t, frF_le]
  have j : (t ≤ frF 17) ↔ (toF t ≤ 17) := by conv_lhs => rw [← frF_toF t, frF_le]
  unfold heatLowTwo HeatLowTests.q HeatLowTests.p
  simp only [i, j, e0, e1, e2, e3, pyAttr, bind_ok]
  split
  · rw [interpolate_line (f := sCap U) q0 q1 d0 d1 (by norm_num), interpolate_line (f := sPow U) p0 p1 d0 d1 (by norm_num)]
    simp only [bind_ok, pure_eq_ok, lineAt_swap (show (62 : K) ≠ 47 by norm_num)]
  · split
    · rw [interpolate_line (f := sCap U) q1 q3 d1 d3 (by norm_num), interpolate_line (f := sPow U) p1 p3 d1 d3 (by norm_num)]
      simp only [bind_ok, pure_eq_ok, lineAt_swap (show (47 : K) ≠ 17 by norm_num)]
    · rw [interpolateSeparate_line (f := iCap U) (g := sCap U) q2 q3 d2 d3 (by norm_num), interpolateSeparate_line (f := iPow U) (g := sPow U) p2 p3 d2 d3 (by norm_num)]
      simp only [bind_ok, pure_eq_ok, lineAt_swap (show (35 : K) ≠ 17 by norm_num)]

/-- C50: those of a variable-speed unit lie on the line through H0 and H1 at every temperature. -/
theorem C50_low_speed_variable {U : Performance C K} {P : Points C} {T : HeatLowTests K} (h : HeatLowMatch U P T) (t : K) :
    heatLowVar U P t = .ok (lineAt 47 T.q1 62 T.q0 (toF t), lineAt 47 T.p1 62 T.p0 (toF t)) := by
  obtain ⟨c0, e0, q0, p0, d0⟩ := h.h0
  obtain ⟨c1, e1, q1, p1, d1⟩ := h.h1
  unfold heatLowVar
  simp only [e0, e1, pyAttr, bind_ok]
  rw [interpolate_line (f := sCap U) q0 q1 d0 d1 (by norm_num), interpolate_line (f := sPow U) p0 p1 d0 d1 (by norm_num)]
  simp only [bind_ok, pure_eq_ok, lineAt_swap (show (62 : K) ≠ 47 by norm_num)]

/-- Results of the tests of a variable-speed unit besides those of `HeatTests` and `HeatLowTests`: intermediate speed at H2 (35 °F, frosting), full speed at H4 (5 °F). -/
structure HeatIntMatch (U : Performance C K) (P : Points C) (qi pi q4 p4 : K) : Prop where
  h2 : ∃ c, P.h2Int = some c ∧ U.netIntegratedHeatingCapacity (some c) = .ok qi ∧ U.netIntegratedHeatingPower (some c) = .ok pi
  q4 : U.netSteadyHeatingCapacity (some P.h4Full) = .ok q4
  p4 : U.netSteadyHeatingPower (some P.h4Full) = .ok p4
  db4 : U.db P.h4Full = frF 5

/-- The intermediate-speed capacity at a temperature. -/
def qIntLine (T : HeatTests K) (TL : HeatLowTests K) (qi tF : K) : K :=
  intermediateLine (lineAt 47 TL.q1 62 TL.q0 35) ((TL.q0 - TL.q1) / 15) T.q2 ((T.q2 - T.q3) / 18) qi tF

/-- The intermediate-speed power at a temperature. -/
def pIntLine (T : HeatTests K) (TL : HeatLowTests K) (pi tF : K) : K :=
  intermediateLine (lineAt 47 TL.p1 62 TL.p0 35) ((TL.p0 - TL.p1) / 15) T.p2 ((T.p2 - T.p3) / 18) pi tF

theorem intermediateOf_line {U : Performance C K} {P : Points C} {f g : C → Py K} {c0 c1 c2 : C} {y0 y1 yi z1 z2 z3 z4 : K}
    (e0 : P.h0Low = some c0) (e1 : P.h1Low = some c1) (e2 : P.h2Int = some c2) (d0 : U.db c0 = frF 62) (d1 : U.db c1 = frF 47)
    (h0 : f c0 = .ok y0) (h1 : f c1 = .ok y1) (hi : g c2 = .ok yi) (g1 : f P.h1Full = .ok z1) (g2 : g P.h2Full = .ok z2) (g3 : f P.h3Full = .ok z3)
    (g4 : f P.h4Full = .ok z4) (hne : z2 ≠ lineAt 47 y1 62 y0 35) :
    ∃ m, heatIntermediateOf U P f g = .ok ((yi, m), z1, z3, z4) ∧
      ∀ t, yi + m * (t - frF 35) = intermediateLine (lineAt 47 y1 62 y0 35) ((y0 - y1) / 15) z2 ((z2 - z3) / 18) yi (toF t) := by
  have hl := interpolate_line (f := f) h0 h1 d0 d1 (by norm_num) (frF 35)
  rw [toF_frF, lineAt_swap (by norm_num)] at hl
  have hd : z2 - lineAt 47 y1 62 y0 35 ≠ 0 := sub_ne_zero.2 hne
  refine ⟨_, by simp only [heatIntermediateOf, e0, e1, e2, pyAttr, h0, h1, hi, g1, g2, g3, g4, hl, pdiv_ok hd, bind_ok, pure_eq_ok]; rfl, fun t => ?_⟩
  simp only [intermediateLine]
  have ht : t - frF 35 = (toF t - 35) * (5 / 9) := by
    conv_lhs => rw [← frF_toF t, frF_sub]
    ring
  rw [ht, frF_sub, frF_sub]
  generalize (yi - lineAt 47 y1 62 y0 35) / (z2 - lineAt 47 y1 62 y0 35) = w
  field_simp
  ring

/-- C50: the intermediate-speed capacity and power of a variable-speed unit lie on lines through the intermediate test, with the standard's mixed slope. -/
theorem C50_intermediate {U : Performance C K} {P : Points C} {T : HeatTests K} {TL : HeatLowTests K} {qi pi q4 p4 : K} (h : HeatMatch U P T)
    (hL : HeatLowMatch U P TL) (hI : HeatIntMatch U P qi pi q4 p4) (hq : T.q2 ≠ lineAt 47 TL.q1 62 TL.q0 35) (hp : T.p2 ≠ lineAt 47 TL.p1 62 TL.p0 35) :
    ∃ I, heatIntermediateFor U P .varSpeed = .ok (some I) ∧
      ∀ t, I.q + I.mQ * (t - frF 35) = qIntLine T TL qi (toF t) ∧ I.p + I.mP * (t - frF 35) = pIntLine T TL pi (toF t) := by
  obtain ⟨c0, e0, q0, p0, d0⟩ := hL.h0
  obtain ⟨c1, e1, q1, p1, d1⟩ := hL.h1
  obtain ⟨c2, e2, q2, p2⟩ := hI.h2
  obtain ⟨m, hm, gm⟩ := intermediateOf_line (f := sCap U) (g := iCap U) e0 e1 e2 d0 d1 q0 q1 q2 h.q1 h.q2 h.q3 hI.q4 hq
  obtain ⟨m', hm', gm'⟩ := intermediateOf_line (f := sPow U) (g := iPow U) e0 e1 e2 d0 d1 p0 p1 p2 h.p1 h.p2 h.p3 hI.p4 hp
  exact ⟨_, by simp only [heatIntermediateFor, if_true, heatIntermediate, hm, hm', bind_ok, pure_eq_ok]; rfl, fun t => ⟨gm t, gm' t⟩⟩

/-! ## The rating from the test results -/

theorem low_ok {cd bl q p d n : K} (hcd : 0 ≤ cd) (hcd1 : cd < 1) (hbl : 0 ≤ bl) (hq : q ≠ 0) (hle : bl ≤ q) :
    heatLowBin cd bl q p d n = .ok (d * cyclingRate cd q p bl * n, (bl - d * bl) * n) := by
  have hq' : 0 < q := lt_of_le_of_ne (hbl.trans hle) hq.symm
  have h1 : 0 ≤ bl / q := by positivity
  have h2 : bl / q ≤ 1 := (div_le_one hq').2 hle
  have h3 : 0 < 1 - cd * (1 - bl / q) := by nlinarith
  have h4 : ∃ e rh, heatLowBin cd bl q p d n = .ok (e, rh) := ⟨_, _, by simp only [heatLowBin, pdiv_ok hq, pdiv_ok h3.ne', bind_ok, pure_eq_ok]; rfl⟩
  obtain ⟨e, rh, h5⟩ := h4
  obtain ⟨_, rfl, rfl⟩ := low_inv h5
  exact h5

/-- A loop over bins that keep an invariant of the carried value. -/
theorem heatLoop_ok_inv (f : Option K → K → K → Py ((K × K × K) × Option K)) (gq ge gr : K → K) (Inv : Option K → Prop) (bins : List (K × K))
    (h : ∀ b ∈ bins, ∀ prev, Inv prev → ∃ prev', f prev b.1 b.2 = .ok ((gq b.1 * b.2, ge b.1 * b.2, gr b.1 * b.2), prev') ∧ Inv prev') (prev : Option K)
    (hp : Inv prev) (acc : K × K × K) :
    heatLoop f bins prev acc = .ok (acc.1 + CoolTests.total gq bins, acc.2.1 + CoolTests.total ge bins, acc.2.2 + CoolTests.total gr bins) := by
  induction bins generalizing prev acc with
  | nil => simp [heatLoop, CoolTests.total]
  | cons b l ih =>
    obtain ⟨t, n⟩ := b
    obtain ⟨prev', h1, h2⟩ := h (t, n) List.mem_cons_self prev hp
    rw [heatLoop, h1, bind_ok, ih (fun x hx => h x (List.mem_cons_of_mem _ hx)) prev' h2]
    simp [CoolTests.total, add_assoc]

/-- The first bin is at 62 °F. -/
theorem heatingTemperatures_head : ∃ l : List K, heatingTemperatures = frF 62 :: l ∧ ∀ t ∈ l, t ∈ heatingTemperatures := by
  refine ⟨[57, 52, 47, 42, 37, 32, 27, 22, 17, 12, 7, 2, -3, -8, -13, -18, -23].map frF, ?_, ?_⟩
  · rw [C55_heating_temperatures]; rfl
  · intro t ht
    rw [C55_heating_temperatures]
    exact List.mem_cons_of_mem _ ht

/-- C50: the rating of a two-stage unit that alternates between its speeds, from the test results alone. It needs the unit to run whenever its low speed suffices, and
the low speed to suffice at 62 °F: otherwise the run fraction used between the two capacities is not this bin's (`C51_two_stage_refuted`) or undefined. -/
theorem C50_two_stage_hspf_partial {U : Performance C K} {P : Points C} {T : HeatTests K} {TL : HeatLowTests K} (hT : HeatMatch U P T) (hTL : HeatLowTwoMatch U P TL)
    {u : Units K} {std : RatingStandard} {s : HeatSettings K} {d : HeatDist K} {f on : K} (hs : s.st = .two) (hcyc : s.cyc = .lowFull) (hon : s.on = some on)
    (hcd : 0 ≤ s.cd) (hcd1 : s.cd < 1) (hne : ∀ t ∈ heatingTemperatures, T.p (toF t) ≠ 0 ∧ TL.p (toF t) ≠ 0 ∧ TL.q (toF t) ≠ 0)
    (load run energy resistance : K → K) {L : K → Py K} (hL : heatingLoad U P u s.st std d = .ok L) (hload : ∀ t, L t = .ok (load t))
    (hlow : ∀ t ∈ heatingTemperatures, load t ≤ TL.q (toF t) → s.off < t ∧ on < t ∧ 1 ≤ TL.q (toF t) / TL.p (toF t)) (h62 : load (frF 62) ≤ TL.q 62)
    (hrun : ∀ t, run t = if load t < T.q (toF t) ∨ load t ≤ TL.q (toF t) then 1 else runFraction s.off on t (T.q (toF t) / T.p (toF t)))
    (henergy : ∀ t, energy t = run t * twoStageRate s.cd true (TL.q (toF t)) (TL.p (toF t)) (T.q (toF t)) (T.p (toF t)) (load t))
    (hres : ∀ t, resistance t = load t - run t * (if load t ≤ TL.q (toF t) then load t else min (load t) (T.q (toF t))))
    (hD : CoolTests.total energy (heatingTemperatures.zip d.hours) + CoolTests.total resistance (heatingTemperatures.zip d.hours) ≠ 0) :
    hspfWith U P u std s d (.ok f) = .ok (CoolTests.total load (heatingTemperatures.zip d.hours) /
      (CoolTests.total energy (heatingTemperatures.zip d.hours) + CoolTests.total resistance (heatingTemperatures.zip d.hours)) * f / u.btuh) := by
  have hI : heatIntermediateFor U P s.st = .ok none := by simp [heatIntermediateFor, hs]
  have hbin : ∀ t ∈ heatingTemperatures, ∀ (n : K) prev, (prev = some 1 ∨ load t ≤ TL.q (toF t)) →
      ∃ prev', heatBin U P s none L prev t n = .ok ((load t * n, energy t * n, resistance t * n), prev') ∧ prev' = some 1 ∨
        (¬ load t ≤ TL.q (toF t) ∧ heatBin U P s none L prev t n = .ok ((load t * n, energy t * n, resistance t * n), prev)) := by
    intro t ht n prev hprev
    obtain ⟨hp, hpl, hql⟩ := hne t ht
    have hbl : 0 ≤ load t := heatingLoad_nonneg hL (hload t)
    have hr := hrun t
    have he := henergy t
    have hrs := hres t
    have hlw := hlow t ht
    obtain ⟨hlf, e1, -⟩ := single_ok (q := T.q (toF t)) (p := T.p (toF t)) (d := 0) (n := n) hcd hcd1 hbl
    generalize hqF : T.q (toF t) = qF at *
    generalize hpF : T.p (toF t) = pF at *
    generalize hqL : TL.q (toF t) = qL at *
    generalize hpL : TL.p (toF t) = pL at *
    simp only [heatBin, hload, C50_full_speed hT, C50_low_speed_two hTL, hqF, hpF, hqL, hpL, bind_ok, pdiv_ok hp, pdiv_ok hpl, hon, cutFactor_ok, e1, heatStaging, hs,
      heatTwoBin]
    by_cases h1 : load t ≤ qL
    · refine ⟨some 1, Or.inl ⟨?_, rfl⟩⟩
      obtain ⟨a, b, c⟩ := hlw h1
      have hrf : runFraction s.off on t (qL / pL) = 1 := by
        unfold runFraction
        rw [if_neg (by push Not; exact ⟨a, c⟩), if_pos b]
      rw [if_pos (Or.inr h1)] at hr
      rw [if_pos h1, hrf]
      rw [if_pos h1, hr] at hrs
      rw [low_ok hcd hcd1 hbl hql h1]
      simp only [bind_ok, pure_eq_ok, he, hrs, hr, twoStageRate, if_pos h1, mul_comm n]
    · refine ⟨none, Or.inr ⟨h1, ?_⟩⟩
      rw [if_neg h1] at hrs
      have h1' := not_le.mp h1
      rw [if_neg h1]
      by_cases h2 : load t < qF
      · have hd : qF - qL ≠ 0 := by linarith
        have hpr : prev = some 1 := hprev.resolve_right h1
        rw [if_pos (Or.inl h2)] at hr
        have e2 : lineAt qL pL qF pF (load t) = pL * ((qF - load t) / (qF - qL)) + pF * (1 - (qF - load t) / (qF - qL)) := by
          simp only [lineAt]; field_simp; ring
        simp only [h2, hcyc, and_self, if_true, pdiv_ok hd, bind_ok, hpr, heatTwoBin.pyLocal, pure_eq_ok, he, hrs, hr, twoStageRate, if_neg h1, if_pos h2, min_eq_left h2.le, e2]
        congr 1
        refine Prod.ext (Prod.ext ?_ (Prod.ext ?_ ?_)) rfl <;> simp only <;> ring
      · rw [if_neg (by push Not; exact ⟨not_lt.mp h2, h1'⟩)] at hr
        simp only [h2, false_and, if_false, bind_ok, pure_eq_ok, he, hrs, twoStageRate, if_neg h1, if_neg h2, min_eq_right (not_lt.mp h2), hr]
        congr 1
        refine Prod.ext (Prod.ext ?_ (Prod.ext ?_ ?_)) rfl <;> simp only <;> ring
  have hloop : heatLoop (heatBin U P s none L) (heatingTemperatures.zip d.hours) none (0, 0, 0) = .ok (CoolTests.total load (heatingTemperatures.zip d.hours),
      CoolTests.total energy (heatingTemperatures.zip d.hours), CoolTests.total resistance (heatingTemperatures.zip d.hours)) := by
    obtain ⟨l, e, hl⟩ := heatingTemperatures_head (K := K)
    have mem : (frF 62 : K) ∈ heatingTemperatures := by rw [e]; exact List.mem_cons_self
    rw [e]
    cases d.hours with
    | nil => simp [heatLoop, CoolTests.total]
    | cons n0 hrs =>
      rw [List.zip_cons_cons, heatLoop]
      have g : load (frF 62) ≤ TL.q (toF (frF 62)) := by rwa [toF_frF]
      obtain ⟨prev', ⟨h1, rfl⟩ | ⟨h1, -⟩⟩ := hbin (frF 62) mem n0 none (Or.inr g)
      · rw [h1, bind_ok]
        have := heatLoop_ok_inv (heatBin U P s none L) load energy resistance (· = some 1) (l.zip hrs) (fun b hb prev hp => by
          obtain ⟨prev', ⟨h2, rfl⟩ | ⟨_, h2⟩⟩ := hbin b.1 (hl _ (List.of_mem_zip hb).1) b.2 prev (Or.inl hp)
          · exact ⟨_, h2, rfl⟩
          · exact ⟨_, h2, hp⟩) (some 1) rfl (0 + load (frF 62) * n0, 0 + energy (frF 62) * n0, 0 + resistance (frF 62) * n0)
        rw [this]
        simp [CoolTests.total]
      · exact absurd g h1
  simp only [hspfWith, hL, hI, bind_ok, hloop, pdiv_ok hD, pdiv_ok u.btuh_pos.ne']

/-- C50: the rating of a variable-speed unit, from the test results alone. Above its full-speed capacity the code uses the line through the 5 and 17 °F tests instead of
that capacity (`C50_variable_speed_refuted`). -/
theorem C50_variable_speed_hspf_partial {U : Performance C K} {P : Points C} {T : HeatTests K} {TL : HeatLowTests K} {qi pi q4 p4 : K} (hT : HeatMatch U P T)
    (hTL : HeatLowMatch U P TL) (hTI : HeatIntMatch U P qi pi q4 p4) (hq2 : T.q2 ≠ lineAt 47 TL.q1 62 TL.q0 35) (hp2 : T.p2 ≠ lineAt 47 TL.p1 62 TL.p0 35)
    {u : Units K} {std : RatingStandard} {s : HeatSettings K} {d : HeatDist K} {f on : K} (hs : s.st = .varSpeed) (hon : s.on = some on)
    (hcd : 0 ≤ s.cd) (hcd1 : s.cd < 1) (load qL pL qI pI qF pF cop energy resistance : K → K)
    (eqL : ∀ t, qL t = lineAt 47 TL.q1 62 TL.q0 (toF t)) (epL : ∀ t, pL t = lineAt 47 TL.p1 62 TL.p0 (toF t))
    (eqI : ∀ t, qI t = qIntLine T TL qi (toF t)) (epI : ∀ t, pI t = pIntLine T TL pi (toF t)) (eqF : ∀ t, qF t = T.q (toF t)) (epF : ∀ t, pF t = T.p (toF t))
    {L : K → Py K} (hL : heatingLoad U P u s.st std d = .ok L) (hload : ∀ t, L t = .ok (load t))
    (ecop : ∀ t, cop t = modulatedCop (qL t) (qL t / pL t) (qI t) (qI t / pI t) (qF t) (qF t / pF t) (load t))
    (hne : ∀ t ∈ heatingTemperatures, qL t ≠ 0 ∧ pL t ≠ 0 ∧ pI t ≠ 0 ∧ pF t ≠ 0 ∧ (qL t < load t → load t < qF t → cop t ≠ 0))
    (henergy : ∀ t, energy t =
      if load t ≤ qL t then runFraction s.off on t (qL t / pL t) * cyclingRate s.cd (qL t) (pL t) (load t)
      else if load t < qF t then runFraction s.off on t (cop t) * (load t / cop t)
      else runFraction s.off on t (qF t / pF t) * lineAt 5 p4 17 T.p3 (toF t))
    (hres : ∀ t, resistance t = load t -
      if load t ≤ qL t then runFraction s.off on t (qL t / pL t) * load t
      else if load t < qF t then runFraction s.off on t (cop t) * load t
      else runFraction s.off on t (qF t / pF t) * lineAt 5 q4 17 T.q3 (toF t))
    (hD : CoolTests.total energy (heatingTemperatures.zip d.hours) + CoolTests.total resistance (heatingTemperatures.zip d.hours) ≠ 0) :
    hspfWith U P u std s d (.ok f) = .ok (CoolTests.total load (heatingTemperatures.zip d.hours) /
      (CoolTests.total energy (heatingTemperatures.zip d.hours) + CoolTests.total resistance (heatingTemperatures.zip d.hours)) * f / u.btuh) := by
  obtain ⟨I, hI, gI⟩ := C50_intermediate hT hTL hTI hq2 hp2
  rw [← hs] at hI
  have hloop := heatLoop_ok (heatBin U P s (some I) L) load energy resistance (heatingTemperatures.zip d.hours) (fun b hb prev => by
    obtain ⟨t, n⟩ := b
    have ht : t ∈ heatingTemperatures := (List.of_mem_zip hb).1
    obtain ⟨nqL, npL, npI, npF, ncop⟩ := hne t ht
    have hbl : 0 ≤ load t := heatingLoad_nonneg hL (hload t)
    obtain ⟨hlf, e1, -⟩ := single_ok (q := qF t) (p := pF t) (d := 0) (n := n) hcd hcd1 hbl
    have hag : heatFullAgain U P I.h1 I.h3 I.h4 (qF t, pF t) t = .ok (lineAt 5 q4 17 T.q3 (toF t), lineAt 5 p4 17 T.p3 (toF t)) := by
      rw [heatFullAgain_eq, interpolate_line (f := sCap U) hTI.q4 hT.q3 hTI.db4 hT.db3 (by norm_num), interpolate_line (f := sPow U) hTI.p4 hT.p3 hTI.db4 hT.db3 (by norm_num)]
      rfl
    have hr := ecop t
    have he := henergy t
    have hrs := hres t
    have hmod : ∀ q0 c0 q1 c1 : K, q0 < q1 → lineAt q0 c0 q1 c1 (load t) ≠ 0 → heatModulatingBin s t (load t) q0 c0 q1 c1 n =
        .ok (runFraction s.off on t (lineAt q0 c0 q1 c1 (load t)) * (load t / lineAt q0 c0 q1 c1 (load t)) * n,
          (load t - runFraction s.off on t (lineAt q0 c0 q1 c1 (load t)) * load t) * n) := by
      intro q0 c0 q1 c1 hq hc
      have hd : q1 - q0 ≠ 0 := by linarith
      have e : c0 + (c1 - c0) / (q1 - q0) * (load t - q0) = lineAt q0 c0 q1 c1 (load t) := by simp only [lineAt]; ring
      simp only [heatModulatingBin, pdiv_ok hd, bind_ok, e, hon, cutFactor_ok, pdiv_ok hc, pure_eq_ok]
      congr 1
      refine Prod.ext ?_ ?_ <;> simp only <;> ring
    simp only [heatBin, hload, C50_full_speed hT, ← eqF, ← epF, bind_ok, pdiv_ok npF, hon, cutFactor_ok, e1, heatStaging, hs, pyAttr, C50_low_speed_variable hTL, ← eqL, ← epL,
      pdiv_ok npL, (gI t).1, (gI t).2, ← eqI, ← epI, pdiv_ok npI, heatVarBin, hag]
    by_cases h1 : load t ≤ qL t
    · rw [if_pos h1] at he hrs
      rw [if_pos h1, low_ok hcd hcd1 hbl nqL h1, he, hrs]
      simp only [bind_ok, pure_eq_ok, mul_comm n]
    · rw [if_neg h1] at he hrs
      rw [if_neg h1]
      have h1' := not_le.mp h1
      by_cases h2 : load t < qF t
      · rw [if_pos h2] at he hrs
        rw [if_pos h2]
        have nc := ncop h1' h2
        unfold modulatedCop at hr
        by_cases h3 : load t ≤ qI t
        · rw [if_pos h3] at hr
          rw [if_pos h3, hmod _ _ _ _ (h1'.trans_le h3) (hr ▸ nc), he, hrs, hr]
          simp only [bind_ok, pure_eq_ok, mul_comm n]
        · rw [if_neg h3] at hr
          rw [if_neg h3, hmod _ _ _ _ ((not_le.mp h3).trans h2) (hr ▸ nc), he, hrs, hr]
          simp only [bind_ok, pure_eq_ok, mul_comm n]
      · rw [if_neg h2] at he hrs
        rw [if_neg h2, he, hrs]
        simp only [bind_ok, pure_eq_ok, mul_one, mul_comm n]
        congr 1
        refine Prod.ext (Prod.ext ?_ (Prod.ext ?_ ?_)) rfl <;> simp only <;> ring) none (0, 0, 0)
  simp only [zero_add] at hloop
  simp only [hspfWith, hL, hI, bind_ok, hloop, pdiv_ok hD, pdiv_ok u.btuh_pos.ne']

/-! A unit that satisfies the hypotheses of the two ratings. -/

/-- The results of the low-speed tests of `heatUnit`. -/
def heatLowTests : HeatLowTests ℚ :=
  { q0 := 40 * (frF 62 / 2 - 60) * 11 / 10 + 2, p0 := 40 * (320 - frF 62) / 2 + 2, q1 := 40 * (frF 47 / 2 - 60) * 11 / 10 + 2, p1 := 40 * (320 - frF 47) / 2 + 2
    q2 := 40 * (frF 35 / 2 - 60) * 4 / 5 + 2, p2 := 40 * (320 - frF 35) / 2 + 2, q3 := 40 * (frF 17 / 2 - 60) * 11 / 10 + 2, p3 := 40 * (320 - frF 17) / 2 + 2 }

theorem heatUnit_low : HeatLowTwoMatch heatUnit toyPoints heatLowTests where
  h0 := ⟨_, rfl, by decide +kernel⟩
  h1 := ⟨_, rfl, by decide +kernel⟩
  h2 := ⟨_, rfl, by decide +kernel⟩
  h3 := ⟨_, rfl, by decide +kernel⟩

/-- Its intermediate capacity and power at H2 and its full ones at H4. -/
def heatIntTests : (ℚ × ℚ) × ℚ × ℚ :=
  ((60 * (frF 35 / 2 - 60) * 4 / 5 + 2, 60 * (320 - frF 35) / 2 + 2), 100 * (frF 5 / 2 - 60) * 11 / 10 + 2, 100 * (320 - frF 5) / 2 + 2)

theorem heatUnit_int : HeatIntMatch heatUnit toyPoints heatIntTests.1.1 heatIntTests.1.2 heatIntTests.2.1 heatIntTests.2.2 where
  h2 := ⟨_, rfl, by decide +kernel⟩
  q4 := by decide +kernel
  p4 := by decide +kernel
  db4 := rfl

/-- The load in region 4 of the 2023 edition for a unit of cooling capacity `qA`. -/
def load4 (c qA t : ℚ) : ℚ := max ((frF 55 - t) / (frF 55 - frF 5) * c * qA) 0

theorem load4_ok {st : Staging} {c qA : ℚ} {U : Performance (ℚ × ℚ) ℚ} {P : Points (ℚ × ℚ)} {u : Units ℚ} {hours : List ℚ} {c1 c2 : ℚ}
    (hc : c = if st = .varSpeed then c2 else c1) (hq : U.netTotalCoolingCapacity (some P.aFull) = .ok qA) :
    ∃ L, heatingLoad U P u st .ahri2023 ⟨frF 5, hours, some c1, some c2, some (frF 55)⟩ = .ok L ∧ ∀ t, L t = .ok (load4 c qA t) := by
  have h : (frF 55 : ℚ) - frF 5 ≠ 0 := by rw [frF_sub]; norm_num
  refine ⟨_, by simp only [heatingLoad, hq, bind_ok, pure_eq_ok]; rfl, fun t => ?_⟩
  subst hc
  cases st <;> simp only [pyNum, bind_ok, reduceCtorEq, if_true, if_false, pdiv_ok h, pure_eq_ok, load4]

/-- Two stages: the low speed suffices at 62 °F, where it does the unit runs, and nothing is divided by zero. -/
example : HeatMatch heatUnit toyPoints heatTests ∧ HeatLowTwoMatch heatUnit toyPoints heatLowTests ∧
    heatUnit.netTotalCoolingCapacity (some toyPoints.aFull) = .ok toyTests.qA ∧
    (∀ t ∈ heatingTemperatures, heatTests.p (toF t) ≠ 0 ∧ heatLowTests.p (toF t) ≠ 0 ∧ heatLowTests.q (toF t) ≠ 0) ∧
    (∀ t ∈ heatingTemperatures, load4 1.15 toyTests.qA t ≤ heatLowTests.q (toF t) → frF 0 < t ∧ frF 0 < t ∧ 1 ≤ heatLowTests.q (toF t) / heatLowTests.p (toF t)) ∧
    load4 1.15 toyTests.qA (frF 62) ≤ heatLowTests.q 62 ∧
    (∃ t ∈ heatingTemperatures, heatLowTests.q (toF t) < load4 1.15 toyTests.qA t ∧ load4 1.15 toyTests.qA t < heatTests.q (toF t)) :=
  ⟨heatUnit_match, heatUnit_low, by decide +kernel, by decide +kernel, by decide +kernel, by decide +kernel, by decide +kernel⟩

/-- Variable speed: the intermediate slopes exist, nothing is divided by zero, and there are loads between the capacities. -/
example : HeatIntMatch heatUnit toyPoints heatIntTests.1.1 heatIntTests.1.2 heatIntTests.2.1 heatIntTests.2.2 ∧
    heatTests.q2 ≠ lineAt 47 heatLowTests.q1 62 heatLowTests.q0 35 ∧ heatTests.p2 ≠ lineAt 47 heatLowTests.p1 62 heatLowTests.p0 35 ∧
    (∀ t ∈ heatingTemperatures, 0 < lineAt 47 heatLowTests.q1 62 heatLowTests.q0 (toF t) ∧ 0 < lineAt 47 heatLowTests.p1 62 heatLowTests.p0 (toF t) ∧
      0 < pIntLine heatTests heatLowTests heatIntTests.1.2 (toF t) ∧ 0 < qIntLine heatTests heatLowTests heatIntTests.1.1 (toF t) ∧ 0 < heatTests.p (toF t)) ∧
    (∃ t ∈ heatingTemperatures, lineAt 47 heatLowTests.q1 62 heatLowTests.q0 (toF t) < load4 1.07 toyTests.qA t ∧
      load4 1.07 toyTests.qA t < heatTests.q (toF t)) :=
  ⟨heatUnit_int, by decide +kernel, by decide +kernel, by decide +kernel, by decide +kernel⟩

/-! ## Design requirements and climates -/

/-- C50: the standard's design heating requirements: 5000 to 40000 Btu/h in steps of 5000, and 50000 to 130000 in steps of 10000. -/
theorem C50_design_list (u : Units K) (x : K) : x ∈ designRequirements u ↔
    ∃ k : Nat, (1 ≤ k ∧ k ≤ 8 ∧ x = 5000 * (k : K) * u.btuh) ∨ (5 ≤ k ∧ k ≤ 13 ∧ x = 10000 * (k : K) * u.btuh) := by
  simp only [designRequirements, List.mem_append, List.mem_map, List.mem_range]
  constructor
  · rintro (⟨i, hi, rfl⟩ | ⟨i, hi, rfl⟩)
    · exact ⟨i + 1, Or.inl ⟨by omega, by omega, by push_cast; ring⟩⟩
    · exact ⟨i + 5, Or.inr ⟨by omega, by omega, by push_cast; ring⟩⟩
  · rintro ⟨k, ⟨h1, h2, rfl⟩ | ⟨h1, h2, rfl⟩⟩
    · obtain ⟨i, rfl⟩ := Nat.exists_eq_add_of_le h1
      exact Or.inl ⟨i, by omega, by push_cast; ring⟩
    · obtain ⟨i, rfl⟩ := Nat.exists_eq_add_of_le h1
      exact Or.inr ⟨i, by omega, by push_cast; ring⟩

/-- C55: the two editions describe the same climates. The fractions of 2017 add up to one; those of 2023 are the same with the bins at or above the zero-load temperature
emptied, scaled to add up to one. -/
theorem C55_climates {r : Nat} {d d' : HeatDist K} (h : regional .ahri2017 r = .ok d) (h' : regional .ahri2023 r = .ok d') :
    d.hours.sum = 1 ∧ d'.hours.sum = 1 ∧ d'.design = d.design ∧ ∃ z k, d'.zeroLoad = some z ∧
      d'.hours = List.zipWith (fun t n => if z ≤ t then 0 else n / k) heatingTemperatures d.hours := by
  have h1 := (C55_regions h').2.2.2.2 rfl
  have key : ∀ (x x' z : K) (l l' : List K) (c c' : Option K), HeatDist.make x l none none none = .ok d → HeatDist.make x' l' c c' (some z) = .ok d' → x' = x → l.sum = 1 →
      l' = List.zipWith (fun t n => if z ≤ t then 0 else n) heatingTemperatures l →
      d.hours.sum = 1 ∧ d'.hours.sum = 1 ∧ d'.design = d.design ∧ ∃ z k, d'.zeroLoad = some z ∧
        d'.hours = List.zipWith (fun t n => if z ≤ t then 0 else n / k) heatingTemperatures d.hours := by
    intro x x' z l l' c c' e e' ex hl hl'
    obtain ⟨-, -, -, ⟨k, a1, -, a3⟩, a4, -⟩ := C55_accepted e
    obtain ⟨-, -, -, ⟨k', b1, -, -⟩, b4, -, -, b5⟩ := C55_accepted e'
    have hk : k = 1 := by rcases a3 with rfl | ⟨rfl, -⟩ <;> simp [hl]
    have hd : d.hours = l := by rw [a1, hk]; simp
    refine ⟨by rw [hd, hl], h1, by rw [b4, a4, ex], z, k', b5, ?_⟩
    rw [b1, hl', hd, List.map_zipWith]
    congr 1
    funext t n
    split <;> simp
  have hr := (C55_known_regions (K := K) .ahri2017 r).1 ⟨d, h⟩
  have h17 : ∀ a b : K, (frF a ≤ frF b) = (a ≤ b) := fun a b => propext frF_le
  obtain ⟨r1, r2⟩ := hr
  interval_cases r <;> simp only [regional, regionData] at h h' <;>
    exact key _ _ _ _ _ _ _ h h' rfl (by norm_num)
      (by rw [C55_heating_temperatures]; simp only [List.map_cons, List.map_nil, List.zipWith_cons_cons, List.zipWith_nil_left, h17]; norm_num)

example : ∃ d d' : HeatDist ℚ, regional .ahri2017 3 = .ok d ∧ regional .ahri2023 3 = .ok d' := by
  obtain ⟨d, h⟩ := (C55_known_regions (K := ℚ) .ahri2017 3).2 (by norm_num)
  obtain ⟨d', h'⟩ := (C55_known_regions (K := ℚ) .ahri2023 3).2 (by norm_num)
  exact ⟨d, d', h, h'⟩

end Resdx.DX
