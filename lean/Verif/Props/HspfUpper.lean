import Verif.Props.HeatSettings

/-!
# C123: the HSPF never exceeds the best COP
-/

set_option linter.unusedSectionVars false
set_option linter.unusedSimpArgs false

namespace Resdx.DX

open Spec Performance BaseModel

variable {C K : Type} [Field K] [LinearOrder K] [IsStrictOrderedRing K]

/-- No speed the rating uses at an outdoor temperature has a COP above `M`. -/
def CopsAtMost (U : Performance C K) (P : Points C) (st : Staging) (M t : K) : Prop :=
  (∀ r, heatFull U P t = .ok r → 0 < r.2 ∧ r.1 / r.2 ≤ M) ∧
    match st with
    | .single => True
    | .two => ∀ r, heatLowTwo U P t = .ok r → 0 < r.2 ∧ r.1 / r.2 ≤ M
    | .varSpeed => (∀ r, heatLowVar U P t = .ok r → 0 < r.2 ∧ r.1 / r.2 ≤ M) ∧
        (∀ I, heatIntermediate U P = .ok I → (I.q + I.mQ * (t - frF 35)) / (I.p + I.mP * (t - frF 35)) ≤ M) ∧
        ∀ q p, interpolate U.db (sCap U) P.h4Full P.h3Full t = .ok q → interpolate U.db (sPow U) P.h4Full P.h3Full t = .ok p → 0 < p ∧ q / p ≤ M

/-- A unit that runs without interruption in every bin: no bin is at or below the cut-out or cut-in temperature, and no speed is worse than resistance heat. -/
def AlwaysRuns (U : Performance C K) (P : Points C) (s : HeatSettings K) (t : K) : Prop :=
  s.off < t ∧ (∀ on, s.on = some on → on < t) ∧ (∀ r, heatFull U P t = .ok r → 1 ≤ r.1 / r.2) ∧ ∀ r, heatLowTwo U P t = .ok r → 1 ≤ r.1 / r.2

theorem cyclingRate_atMost {cd q p l M : K} (hcd : 0 ≤ cd) (hcd1 : cd < 1) (hq : 0 < q) (hp : 0 < p) (hM : q / p ≤ M) (h0 : 0 ≤ l) (h1 : l ≤ q) :
    l ≤ M * cyclingRate cd q p l := by
  have hl : l / q ≤ 1 := (div_le_one hq).2 h1
  have h2 : 0 ≤ l / q := by positivity
  have e : l = l / q * q := by field_simp
  have hM' : q ≤ M * p := (div_le_iff₀ hp).1 hM
  unfold cyclingRate
  generalize l / q = x at *
  subst e
  have h3 : 0 < 1 - cd * (1 - x) := by nlinarith
  have h4 : 1 - cd * (1 - x) ≤ 1 := by nlinarith
  rw [← mul_div_assoc, le_div_iff₀ h3]
  calc x * q * (1 - cd * (1 - x)) ≤ x * q * 1 := mul_le_mul_of_nonneg_left h4 (mul_nonneg h2 hq.le)
    _ ≤ x * (M * p) := by rw [mul_one]; exact mul_le_mul_of_nonneg_left hM' h2
    _ = M * (x * p) := by ring

theorem upper_bin {d Q E bl M n : K} (hn : 0 ≤ n) (hM : 1 ≤ M) (d0 : 0 ≤ d) (hE : d = 0 ∨ Q ≤ M * E) (hQ : d * Q ≤ bl) :
    n * bl ≤ M * (d * E * n + (bl - d * Q) * n) := by
  have : bl ≤ M * (d * E + (bl - d * Q)) := by
    rcases hE with rfl | hE
    · have : 0 ≤ bl := by simpa using hQ
      nlinarith
    · nlinarith [mul_le_mul_of_nonneg_left hE d0, mul_nonneg (sub_nonneg.2 hM) (sub_nonneg.2 hQ)]
  calc n * bl ≤ n * (M * (d * E + (bl - d * Q))) := mul_le_mul_of_nonneg_left this hn
    _ = _ := by ring

theorem lineAt_atMost {x0 y0 x1 y1 x M : K} (h : x0 < x1) (h0 : x0 ≤ x) (h1 : x ≤ x1) (a0 : y0 ≤ M) (a1 : y1 ≤ M) : lineAt x0 y0 x1 y1 x ≤ M := by
  refine (lineAt_le h h0 h1 a0 a1).trans (le_of_eq ?_)
  unfold lineAt; ring

theorem cutFactor_one {off t cop d : K} {on : Option K} (h0 : off < t) (h1 : ∀ o, on = some o → o < t) (h2 : 1 ≤ cop) (h : cutFactor off on t cop = .ok d) : d = 1 := by
  unfold cutFactor at h
  rw [if_neg (by push Not; exact ⟨h0, h2⟩)] at h
  cases on with
  | none => simp [pyAttr] at h; cases h
  | some o =>
    simp only [pyAttr, bind_ok, if_pos (h1 o rfl), pure_eq_ok, Except.ok.injEq] at h
    exact h.symm

section
variable {U : Performance C K} {P : Points C} {s : HeatSettings K} {M : K}

/-- One bin: the load is at most `M` times the energy. -/
theorem upper_heatBin {I : Option (HeatIntermediate K)} {load : K → Py K} {prev prev' : Option K} {t n : K} {a : K × K × K} (hcd : 0 ≤ s.cd) (hcd1 : s.cd < 1)
    (hM : 1 ≤ M) (hn : 0 ≤ n) (hl : ∀ bl, load t = .ok bl → 0 ≤ bl) (hI : heatIntermediateFor U P s.st = .ok I) (hc : CopsAtMost U P s.st M t)
    (htwo : s.st = .two → s.cyc = .lowFull ∨ AlwaysRuns U P s t)
    (hag : s.st = .varSpeed → ∀ bl rF q', load t = .ok bl → heatFull U P t = .ok rF → rF.1 ≤ bl →
      interpolate U.db (sCap U) P.h4Full P.h3Full t = .ok q' → q' ≤ bl)
    (hprev : ∀ d, prev = some d → 0 ≤ d ∧ d ≤ 1 ∧ (s.cyc = .offFull → d = 1)) (h : heatBin U P s I load prev t n = .ok (a, prev')) :
    (0 ≤ a.1 ∧ a.1 ≤ M * (a.2.1 + a.2.2)) ∧ ∀ d, prev' = some d → 0 ≤ d ∧ d ≤ 1 ∧ (s.cyc = .offFull → d = 1) := by
  obtain ⟨q, e, rh⟩ := a
  obtain ⟨bl, qF, pF, δ, hlf, h1, h2, h3, h4, h5, h6, rfl⟩ := heatBin_inv h
  have hbl := hl bl h1
  have hq := mul_nonneg hn hbl
  obtain ⟨hpF, hcF⟩ := hc.1 _ h2
  have hcF' : qF ≤ M * pF := (div_le_iff₀ hpF).1 hcF
  obtain ⟨δ0, δ1, δ2⟩ := cutFactor_bounds h4
  cases hs : s.st with
  | single =>
    obtain ⟨h7, rfl⟩ := staging_single hs h6
    obtain ⟨rfl, rfl⟩ := single_inv hbl h5 h7
    refine ⟨⟨hq, upper_bin hn hM δ0 (Or.inr ?_) (delivered_le hbl δ0 δ1 (min_le_left _ _))⟩, hprev⟩
    unfold oneStageRate
    by_cases hlt : bl < qF
    · rw [if_pos hlt, min_eq_left hlt.le]
      exact cyclingRate_atMost hcd hcd1 (hbl.trans_lt hlt) hpF hcF hbl hlt.le
    · rw [if_neg hlt, min_eq_right (not_lt.1 hlt)]
      exact hcF'
  | two =>
    obtain ⟨qL, pL, h7, h8, h9⟩ := staging_two hs h6
    have hc2 := hc.2
    rw [hs] at hc2
    obtain ⟨hpL, hcL⟩ := hc2 _ h7
    have hcL' : qL ≤ M * pL := (div_le_iff₀ hpL).1 hcL
    rcases two_inv h9 with ⟨a, dl, b, rfl, c, rfl, rfl⟩ | ⟨a, b, c, dl, rfl, rfl, rfl, rfl⟩ | ⟨a, b, c, dl, rfl, rfl, rfl, rfl⟩ | ⟨a, b, rfl, rfl, rfl⟩
    · obtain ⟨e0, e1, _⟩ := cutFactor_bounds b
      refine ⟨⟨hq, upper_bin hn hM e0 (Or.inr ?_) (delivered_le hbl e0 e1 le_rfl)⟩, ?_⟩
      swap
      · rintro _ ⟨⟩
        refine ⟨e0, e1, fun ho => ?_⟩
        rcases htwo hs with h' | h'
        · rw [ho] at h'; cases h'
        · exact cutFactor_one h'.1 h'.2.1 (h'.2.2.2 _ h7) b
      exact cyclingRate_atMost hcd hcd1 (lt_of_le_of_ne (hbl.trans a) (Ne.symm c)) hpL hcL hbl a
    · obtain ⟨e0, e1, _⟩ := hprev dl rfl
      refine ⟨⟨hq, upper_bin hn hM e0 (Or.inr ?_) (delivered_le hbl e0 e1 le_rfl)⟩, hprev⟩
      have h := lineAt_le (a.trans b) a.le b.le hcL' hcF'
      have : qF - qL ≠ 0 := by linarith
      calc bl = lineAt qL qL qF qF bl := by unfold lineAt; field_simp; ring
        _ ≤ _ := h
        _ = _ := by unfold lineAt; ring
    · have hall : AlwaysRuns U P s t := (htwo hs).resolve_left (by rw [c]; exact fun h => nomatch h)
      obtain ⟨_, _, hd1⟩ := hprev dl rfl
      obtain rfl := hd1 c
      have hF0 : 0 < qF := hbl.trans_lt b
      obtain rfl := cutFactor_one hall.1 hall.2.1 (hall.2.2.1 _ h2) h4
      have hx : hlf = bl / qF := by
        unfold loadFactor at h5
        rw [if_pos b] at h5
        exact (pdiv_eq_ok.1 h5).2.symm
      subst hx
      refine ⟨⟨hq, ?_⟩, hprev⟩
      have hw : 0 < qF - qL := by linarith
      have hy0 : 0 ≤ (qF - bl) / (qF - qL) := div_nonneg (by linarith) hw.le
      have hy1 : (qF - bl) / (qF - qL) ≤ 1 := (div_le_one hw).2 (by linarith)
      have hx0 : 0 ≤ bl / qF := by positivity
      have hbx : bl = bl / qF * qF := by field_simp
      simp only [one_mul, sub_self, zero_mul, add_zero]
      generalize (qF - bl) / (qF - qL) = y at *
      generalize bl / qF = x at *
      have hD : 0 < 1 - s.cd * (1 - y) := by nlinarith
      have hD1 : 1 - s.cd * (1 - y) ≤ 1 := by nlinarith
      have key : bl ≤ M * (pF * x / (1 - s.cd * (1 - y))) := by
        rw [← mul_div_assoc, le_div_iff₀ hD]
        calc bl * (1 - s.cd * (1 - y)) ≤ bl * 1 := mul_le_mul_of_nonneg_left hD1 hbl
          _ = x * qF := by rw [mul_one, ← hbx]
          _ ≤ x * (M * pF) := mul_le_mul_of_nonneg_left hcF' hx0
          _ = M * (pF * x) := by ring
      calc n * bl ≤ n * (M * (pF * x / (1 - s.cd * (1 - y)))) := mul_le_mul_of_nonneg_left key hn
        _ = _ := by ring
    · exact ⟨⟨hq, upper_bin hn hM δ0 (Or.inr hcF') (delivered_le hbl δ0 δ1 b)⟩, hprev⟩
  | varSpeed =>
    obtain ⟨J, qL, pL, cI, rfl, h7, hcI, rfl, h9⟩ := staging_var_eq hs h6
    have hJ : heatIntermediate U P = .ok J := by
      simp only [heatIntermediateFor, hs, if_true, bind_eq_ok, pure_eq_ok, Except.ok.injEq, Option.some.injEq] at hI
      obtain ⟨J', h1, rfl⟩ := hI
      exact h1
    have hc2 := hc.2
    rw [hs] at hc2
    obtain ⟨hcl, hci, hca⟩ := hc2
    obtain ⟨hpL, hcL⟩ := hcl _ h7
    obtain ⟨_, rfl⟩ := pdiv_eq_ok.1 hcI
    have hcI' := hci J hJ
    refine ⟨⟨hq, ?_⟩, hprev⟩
    rcases var_inv h9 with ⟨a, dl, b, c, rfl, rfl⟩ | ⟨a, a1, cop, dl, hcop, c, b, rfl, rfl⟩ | ⟨a, a1, q1, p1, b, rfl, rfl⟩
    · obtain ⟨e0, e1, _⟩ := cutFactor_bounds b
      refine upper_bin hn hM e0 (Or.inr ?_) (delivered_le hbl e0 e1 le_rfl)
      exact cyclingRate_atMost hcd hcd1 (lt_of_le_of_ne (hbl.trans a) (Ne.symm c)) hpL hcL hbl a
    · obtain ⟨e0, e1, e2⟩ := cutFactor_bounds b
      refine upper_bin hn hM e0 ?_ (delivered_le hbl e0 e1 le_rfl)
      by_cases hd : dl = 0
      · exact Or.inl hd
      right
      have hc1 := (e2 hd).2
      have hcM : cop ≤ M := by
        rw [hcop]
        split
        · exact lineAt_atMost (a.trans_le ‹_›) a.le ‹_› hcL hcI'
        · rename_i hlt
          exact lineAt_atMost ((not_le.1 hlt).trans a1) (not_le.1 hlt).le a1.le hcI' hcF
      rw [← mul_div_assoc, le_div_iff₀ (by linarith), mul_comm M]
      exact mul_le_mul_of_nonneg_left hcM hbl
    · rw [heatFullAgain_eq] at b
      simp only [bind_eq_ok, pure_eq_ok, Except.ok.injEq, Prod.mk.injEq] at b
      obtain ⟨x, hx, y, hy, rfl, rfl⟩ := b
      obtain ⟨hpy, hcy⟩ := hca _ _ hx hy
      exact upper_bin hn hM δ0 (Or.inr ((div_le_iff₀ hpy).1 hcy)) (delivered_le hbl δ0 δ1 (hag hs _ _ _ h1 h2 a1 hx))

theorem upper_hspf {u : Units K} {std : RatingStandard} {d : HeatDist K} {f v : K} (hcd : 0 ≤ s.cd) (hcd1 : s.cd < 1) (hM : 1 ≤ M) (hn : ∀ n ∈ d.hours, 0 ≤ n) (hf : 0 ≤ f)
    (hc : ∀ t ∈ heatingTemperatures, CopsAtMost U P s.st M t) (htwo : s.st = .two → s.cyc = .lowFull ∨ ∀ t ∈ heatingTemperatures, AlwaysRuns U P s t)
    (hag : s.st = .varSpeed → ∀ t ∈ heatingTemperatures, ∀ load bl rF q', heatingLoad U P u s.st std d = .ok load → load t = .ok bl → heatFull U P t = .ok rF → rF.1 ≤ bl →
      interpolate U.db (sCap U) P.h4Full P.h3Full t = .ok q' → q' ≤ bl)
    (hv : hspfWith U P u std s d (.ok f) = .ok v) : v ≤ M * f / u.btuh := by
  simp only [hspfWith, bind_eq_ok, pdiv_eq_ok, Except.ok.injEq] at hv
  obtain ⟨load, hl, I, hI, r, hr, _, rfl, _, ⟨hD, rfl⟩, hb, rfl⟩ := hv
  obtain ⟨h1, h2⟩ := heatLoop_inv _ _ (fun prev => ∀ d, prev = some d → 0 ≤ d ∧ d ≤ 1 ∧ (s.cyc = .offFull → d = 1))
    (fun a => 0 ≤ a.1 ∧ a.1 ≤ M * (a.2.1 + a.2.2)) (fun a b ha hb => ⟨add_nonneg ha.1 hb.1, by linarith [ha.2, hb.2]⟩)
    (fun b hb prev a prev' hprev h => upper_heatBin hcd hcd1 hM (hn _ (List.of_mem_zip hb).2) (fun bl hbl => heatingLoad_nonneg hl hbl) hI
      (hc _ (List.of_mem_zip hb).1) (fun hs => (htwo hs).imp_right fun h => h _ (List.of_mem_zip hb).1)
      (fun hs bl rF q' => hag hs _ (List.of_mem_zip hb).1 load bl rF q' hl) hprev h) none _ r (by simp) (by simp) hr
  refine div_le_div_of_nonneg_right (mul_le_mul_of_nonneg_right ?_ hf) u.btuh_pos.le
  rcases lt_or_gt_of_ne hD with hneg | hpos
  · exact (div_nonpos_of_nonneg_of_nonpos h1 hneg.le).trans (by linarith)
  · exact (div_le_iff₀ hpos).2 h2

end

/-! ## The property -/

section
variable {U : Performance C K} {P : Points C} {u : Units K} {std : RatingStandard} {s : HeatSettings K} {defrost : Defrost K} {region : Nat} {M f v : K}
  (hcd : 0 ≤ s.cd) (hcd1 : s.cd < 1) (hM : 1 ≤ M) (hc : ∀ t ∈ heatingTemperatures, CopsAtMost U P s.st M t) (hcr : defrost.demandCredit u = .ok f) (hf : 0 ≤ f)
  (hv : hspf U P u std s defrost region = .ok v)
include hcd hcd1 hM hc hcr hf hv

/-- C123 for single-stage units: if no COP in the bins exceeds `M`, the HSPF does not exceed `M` times the demand-defrost credit. -/
theorem C123_single (hs : s.st = .single) : v ≤ M * f / u.btuh := by
  simp only [hspf, bind_eq_ok, hcr] at hv
  obtain ⟨d, hd, hv⟩ := hv
  exact upper_hspf hcd hcd1 hM (C55_regions hd).2.2.2.1 hf hc (by rw [hs]; simp) (by rw [hs]; simp) hv

/-- C123 for two-stage units that cycle between low and full speed, or that never stop for the cold. Missing: units that cycle between off and full speed and do
stop (`C123_off_full_refuted`). -/
theorem C123_two_stage_partial (hs : s.st = .two) (hr : s.cyc = .lowFull ∨ ∀ t ∈ heatingTemperatures, AlwaysRuns U P s t) : v ≤ M * f / u.btuh := by
  simp only [hspf, bind_eq_ok, hcr] at hv
  obtain ⟨d, hd, hv⟩ := hv
  exact upper_hspf hcd hcd1 hM (C55_regions hd).2.2.2.1 hf hc (fun _ => hr) (by rw [hs]; simp) hv

/-- C123 for variable-speed units whose capacity between the 5 and 17 °F tests, used when the load is not met, does not exceed the load then. Missing: other units
(`C123_variable_speed_refuted`). -/
theorem C123_variable_speed_partial (hs : s.st = .varSpeed)
    (hag : ∀ t ∈ heatingTemperatures, ∀ d load bl rF q', regional std region = .ok d → heatingLoad U P u s.st std d = .ok load → load t = .ok bl →
      heatFull U P t = .ok rF → rF.1 ≤ bl → interpolate U.db (sCap U) P.h4Full P.h3Full t = .ok q' → q' ≤ bl) : v ≤ M * f / u.btuh := by
  simp only [hspf, bind_eq_ok, hcr] at hv
  obtain ⟨d, hd, hv⟩ := hv
  exact upper_hspf hcd hcd1 hM (C55_regions hd).2.2.2.1 hf hc (by rw [hs]; simp) (fun _ t ht load bl rF q' => hag t ht d load bl rF q' hd) hv

end

/-! ## Cases, and what fails -/

theorem cops_of {U : Performance (ℚ × ℚ) ℚ} (st : Staging) (M : ℚ) (h : (heatingTemperatures (K := ℚ)).all (fun t =>
      okTest (heatFull U toyPoints t) (fun r => decide (0 < r.2 ∧ r.1 / r.2 ≤ M)) && okTest (heatLowTwo U toyPoints t) (fun r => decide (0 < r.2 ∧ r.1 / r.2 ≤ M)) &&
      okTest (heatLowVar U toyPoints t) (fun r => decide (0 < r.2 ∧ r.1 / r.2 ≤ M)) &&
      okTest (heatIntermediate U toyPoints) (fun I => decide ((I.q + I.mQ * (t - frF 35)) / (I.p + I.mP * (t - frF 35)) ≤ M)) &&
      okTest (interpolate U.db (sCap U) toyPoints.h4Full toyPoints.h3Full t) (fun q =>
        okTest (interpolate U.db (sPow U) toyPoints.h4Full toyPoints.h3Full t) fun p => decide (0 < p ∧ q / p ≤ M))) = true) :
    ∀ t ∈ heatingTemperatures, CopsAtMost U toyPoints st M t := by
  intro t ht
  have h := List.all_eq_true.1 h t ht
  simp only [Bool.and_eq_true] at h
  obtain ⟨⟨⟨⟨h1, h2⟩, h3⟩, h3'⟩, h4⟩ := h
  obtain ⟨r1, e1, g1⟩ := okTest_iff.1 h1
  obtain ⟨r2, e2, g2⟩ := okTest_iff.1 h2
  obtain ⟨r3, e3, g3⟩ := okTest_iff.1 h3
  obtain ⟨I, e3', g3'⟩ := okTest_iff.1 h3'
  obtain ⟨q, e4, g4⟩ := okTest_iff.1 h4
  obtain ⟨p, e5, g5⟩ := okTest_iff.1 g4
  simp only [decide_eq_true_eq] at g1 g2 g3 g3' g5
  refine ⟨fun r hr => ?_, ?_⟩
  · rw [e1, Except.ok.injEq] at hr; rw [← hr]; exact g1
  · cases st
    · trivial
    · intro r hr; rw [e2, Except.ok.injEq] at hr; rw [← hr]; exact g2
    · refine ⟨fun r hr => ?_, fun J hJ => ?_, fun q' p' hq hp => ?_⟩
      · rw [e3, Except.ok.injEq] at hr; rw [← hr]; exact g3
      · rw [e3', Except.ok.injEq] at hJ; rw [← hJ]; exact g3'
      · rw [e4, Except.ok.injEq] at hq; rw [e5, Except.ok.injEq] at hp; rw [← hq, ← hp]; exact g5

/-- The hypotheses of `C123_single` and `C123_two_stage_partial` are met by a unit with COPs of at most 6.2, whose ratings exist. -/
example : (∀ st, ∀ t ∈ heatingTemperatures, CopsAtMost fanless toyPoints st (31 / 5) t) ∧
    (hspf fanless toyPoints (Units.ofOnes ℚ) .ahri2023 (heatSettings .single .lowFull 0) timedDefrost 4).isOk ∧
    (hspf fanless toyPoints (Units.ofOnes ℚ) .ahri2017 (heatSettings .two .lowFull 0) timedDefrost 4).isOk :=
  ⟨fun st => cops_of st _ (by decide +kernel), by decide +kernel, by decide +kernel⟩

/-- A unit that never stops, cycling between off and full speed. -/
example : (∀ t ∈ heatingTemperatures, AlwaysRuns wideUnit toyPoints (heatSettings .two .offFull (-30)) t) ∧
    (∀ t ∈ heatingTemperatures, CopsAtMost wideUnit toyPoints .two (31 / 5) t) ∧
    (hspf wideUnit toyPoints (Units.ofOnes ℚ) .ahri2023 (heatSettings .two .offFull (-30)) timedDefrost 4).isOk := by
  refine ⟨fun t ht => ?_, cops_of _ _ (by decide +kernel), by decide +kernel⟩
  have h : ∀ t ∈ heatingTemperatures (K := ℚ), frF (-30) < t ∧ okTest (heatFull wideUnit toyPoints t) (fun r => decide (1 ≤ r.1 / r.2)) = true ∧
      okTest (heatLowTwo wideUnit toyPoints t) (fun r => decide (1 ≤ r.1 / r.2)) = true := by decide +kernel
  obtain ⟨h0, h1, h2⟩ := h t ht
  obtain ⟨r1, e1, g1⟩ := okTest_iff.1 h1
  obtain ⟨r2, e2, g2⟩ := okTest_iff.1 h2
  refine ⟨h0, ?_, fun r hr => ?_, fun r hr => ?_⟩
  · rintro o ⟨⟩; exact h0
  · rw [e1, Except.ok.injEq] at hr; rw [← hr]; simpa using g1
  · rw [e2, Except.ok.injEq] at hr; rw [← hr]; simpa using g2

/-- C123 is false of two-stage units that cycle between off and full speed: with a cut-out at 40 °F, a unit whose COPs do not exceed 6.2 is rated above 20. -/
theorem C123_off_full_refuted : (∀ t ∈ heatingTemperatures, CopsAtMost wideUnit toyPoints .two (31 / 5) t) ∧
    ∃ v, hspf wideUnit toyPoints (Units.ofOnes ℚ) .ahri2023 (heatSettings .two .offFull 40) timedDefrost 4 = .ok v ∧ 20 < v := by
  refine ⟨cops_of _ _ (by decide +kernel), ?_⟩
  have h2 : okTest (hspf wideUnit toyPoints (Units.ofOnes ℚ) .ahri2023 (heatSettings .two .offFull 40) timedDefrost 4) (fun v => decide (20 < v)) = true := by decide +kernel
  obtain ⟨v, e, g⟩ := okTest_iff.1 h2
  exact ⟨v, e, by simpa using g⟩

/-- A unit with a COP of 3 at every speed and temperature, that loses `1 - k` of its capacity to frost. -/
def frosting (k : ℚ) : Performance (ℚ × ℚ) ℚ :=
  { fanless with
    intCap := fun c => (fanless.heatCap c).map (· * k), intPow := fun c => (fanless.heatCap c).map (· * k / 3)
    heatPow := fun c => (fanless.heatCap c).map (· / 3) }

/-- The hypotheses of `C123_variable_speed_partial` are met by the unit with little frost. -/
example : (∀ t ∈ heatingTemperatures, CopsAtMost (frosting (9 / 10)) toyPoints .varSpeed 3 t) ∧
    (∀ t ∈ heatingTemperatures, ∀ d load bl rF q', regional .ahri2023 3 = .ok d → heatingLoad (frosting (9 / 10)) toyPoints (Units.ofOnes ℚ) .varSpeed .ahri2023 d = .ok load →
      load t = .ok bl → heatFull (frosting (9 / 10)) toyPoints t = .ok rF → rF.1 ≤ bl →
      interpolate (frosting (9 / 10)).db (sCap (frosting (9 / 10))) toyPoints.h4Full toyPoints.h3Full t = .ok q' → q' ≤ bl) ∧
    (hspf (frosting (9 / 10)) toyPoints (Units.ofOnes ℚ) .ahri2023 (heatSettings .varSpeed .lowFull (-30)) timedDefrost 3).isOk := by
  refine ⟨cops_of _ _ (by decide +kernel), fun t ht d load bl rF q' h1 h2 h3 h4 h5 h6 => ?_, by decide +kernel⟩
  have h : okTest (do
      let d ← regional (K := ℚ) .ahri2023 3
      heatingLoad (frosting (9 / 10)) toyPoints (Units.ofOnes ℚ) .varSpeed .ahri2023 d) (fun load => (heatingTemperatures (K := ℚ)).all fun t =>
        okTest (load t) fun bl => okTest (heatFull (frosting (9 / 10)) toyPoints t) fun rF =>
          okTest (interpolate (frosting (9 / 10)).db (sCap (frosting (9 / 10))) toyPoints.h4Full toyPoints.h3Full t) fun q' => decide (rF.1 ≤ bl → q' ≤ bl)) = true := by
    decide +kernel
  obtain ⟨load', e1, g1⟩ := okTest_iff.1 h
  rw [h1, bind_ok, h2, Except.ok.injEq] at e1
  subst e1
  have g := List.all_eq_true.1 g1 t ht
  rw [h3] at g
  obtain ⟨_, ⟨⟩, g⟩ := okTest_iff.1 g
  rw [h4] at g
  obtain ⟨_, ⟨⟩, g⟩ := okTest_iff.1 g
  rw [h6] at g
  obtain ⟨_, ⟨⟩, g⟩ := okTest_iff.1 g
  exact (of_decide_eq_true g) h5

/-- C123 is false of variable-speed units: a unit with a COP of 3 at all speeds and temperatures and a degradation coefficient of 0.25 is rated 3.4, because the heat
it would deliver without frost beyond the load is counted as negative resistance heat. -/
theorem C123_variable_speed_refuted : (∀ t ∈ heatingTemperatures, CopsAtMost (frosting (32 / 55)) toyPoints .varSpeed 3 t) ∧
    ∃ v, hspf (frosting (32 / 55)) toyPoints (Units.ofOnes ℚ) .ahri2023 (heatSettings .varSpeed .lowFull (-30)) timedDefrost 4 = .ok v ∧ 34 / 10 < v := by
  refine ⟨cops_of _ _ (by decide +kernel), ?_⟩
  have h2 : okTest (hspf (frosting (32 / 55)) toyPoints (Units.ofOnes ℚ) .ahri2023 (heatSettings .varSpeed .lowFull (-30)) timedDefrost 4)
      (fun v => decide (34 / 10 < v)) = true := by decide +kernel
  obtain ⟨v, e, g⟩ := okTest_iff.1 h2
  exact ⟨v, e, by simpa using g⟩

end Resdx.DX
