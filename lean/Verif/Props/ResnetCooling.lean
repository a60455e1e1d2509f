import Verif.Props.SeasonRatings

/-!
# C97: the cooling tests and the SEER2 of constructed RESNET units
-/

set_option linter.unusedSectionVars false
set_option linter.unusedSimpArgs false

namespace Resdx.Build

open Spec Tabular BaseModel Props ResnetFan Fan Table DX

variable {u : Units ℝ} {E : Env ℝ} {T : Coil.Tools} {brentq : Brentq} {a : Args} {B : Built}

/-! ## The tests -/

/-- At the temperature `t` the speed does at least what it does at some temperature of its table. -/
def NotBelow (d : Perf ℝ) (c : Curves ℝ) (t : ℝ) : Prop :=
  (∃ x ∈ d.coolingCapacities.temperatures, c.coolingCapacity x ≤ c.coolingCapacity t) ∧ ∃ x ∈ d.coolingPowers.temperatures, c.coolingPower x ≤ c.coolingPower t

/-- C97: net cooling at rated indoor conditions and airflow, at an outdoor temperature at which the speed does not do less than everywhere in its table: exactly the values of the net tables. -/
theorem C97_at (h : build u E T brentq a = .ok B) (ht : ∀ d, a.tables = some d → RatedTables (tableSpeeds B.core.st) d) (hd : a.chargeDeviation = 0)
    {i : Nat} {σ : ℝ} (hσ : TableSpeed B.core.st i σ) (h32 : σ ≠ 3 / 2) (hfan : SameFan B.core B.core.rc B.core.cool i) {k : Int} (hk : (k : ℝ) = σ) {cv : Curves ℝ} (hcv : Follows B.core.net k cv)
    {o : Psych.PsychState ℝ} (ho : toF o.db ≤ 125) (hr : Outdoor E o.db) {c : Conditions ℝ} (hc : B.sys.makeCondition E false i none (some o) = .ok c) (hn : NotBelow B.core.net cv o.db) :
    (B.unit u E T brentq).netTotalCoolingCapacity (some c) = .ok (cv.coolingCapacity o.db) ∧ (B.unit u E T brentq).netCoolingPower (some c) = .ok (cv.coolingPower o.db) := by
  subst hk
  obtain ⟨fc, fh, F⟩ := built_facts h ht
  obtain ⟨q, p, w, t1, t2, t3, t4, t5⟩ := C88_cooling h ht hd hσ h32 hfan ho hr hc
  obtain ⟨f1, f2⟩ := F.posAt i _ hσ
  obtain ⟨⟨x, hx, hxq⟩, y, hy, hyp⟩ := hn
  obtain ⟨y', g1, g2⟩ := f1 _ hx
  obtain ⟨z', g3, g4⟩ := f2 _ hy
  obtain ⟨_, k1, k2⟩ := F.gross.coolCap k x
  obtain ⟨_, k3, k4⟩ := F.gross.coolPow k y
  cases (hcv x).1.symm.trans k1
  cases (hcv y).2.1.symm.trans k3
  cases t1.symm.trans (hcv o.db).1
  cases t2.symm.trans (hcv o.db).2.1
  rw [g1] at k2; cases k2
  rw [g3] at k4; cases k4
  rw [F.coolFan i _ w hσ h32 t3] at g2 g4
  rw [if_neg (not_lt.2 (by linarith))] at t4
  rw [if_neg (not_lt.2 (by linarith))] at t5
  exact ⟨t4, t5⟩

/-- C97: the cooling tests of a two-stage or variable-speed unit at full and low speed, from the curves of its tables. -/
theorem C97_tests (h : build u E T brentq a = .ok B) (hst : B.core.st ≠ .single) (ht : ∀ d, a.tables = some d → RatedTables (tableSpeeds B.core.st) d) (hd : a.chargeDeviation = 0)
    (hfan : SameFan B.core B.core.rc B.core.cool B.core.rc.full) (h95 : Outdoor E (frF 95)) (h82 : Outdoor E (frF 82)) (h67 : Outdoor E (frF 67)) {low full : Curves ℝ}
    (hl : Follows B.core.net 1 low) (hf : Follows B.core.net 2 full) (n95 : NotBelow B.core.net full (frF 95)) (n82 : NotBelow B.core.net full (frF 82)) (l82 : NotBelow B.core.net low (frF 82))
    (l67 : NotBelow B.core.net low (frF 67)) (qE pE : ℝ) : CoolMatch (B.unit u E T brentq) B.points (low.coolTests full qE pE) := by
  obtain ⟨st0, q47, nC, nH, b2, b3, b4, b6, b7, b8, b9, b10⟩ := build_steps h
  obtain ⟨i, j, b, f, _, _, _, _, hi, -, e1, e2, -, -, -, -, p1, p2, -⟩ := low_points b10 hst
  obtain ⟨g1, g2, -⟩ := full_points b10
  have hσ : TableSpeed B.core.st B.core.rc.full (fullTable B.core.st) := by rw [b6]; exact full_table _ _
  obtain ⟨hτ, hne⟩ : TableSpeed B.core.st i 1 ∧ i ≠ B.core.rc.full := by rw [b6] at hi ⊢; exact low_table hst hi
  have e : ((2 : Int) : ℝ) = fullTable B.core.st := by unfold fullTable; rw [if_neg hst]; norm_num
  have hx := C97_at h ht hd hσ (fullTable_ne _) hfan e hf (o := defaultOutdoor E false) (by show toF (frF 95) ≤ _; rw [toF_frF]; norm_num) h95 g1 n95
  have hy := C97_at h ht hd hσ (fullTable_ne _) hfan e hf (o := wetState E.atm (frF 82) (frF 65)) (by show toF (frF 82) ≤ _; rw [toF_frF]; norm_num) h82 g2 n82
  have hz := C97_at h ht hd hτ (by norm_num) (.inr (.inl hne)) Int.cast_one hl (o := wetState E.atm (frF 82) (frF 65)) (by show toF (frF 82) ≤ _; rw [toF_frF]; norm_num) h82 p1 l82
  have hw := C97_at h ht hd hτ (by norm_num) (.inr (.inl hne)) Int.cast_one hl (o := wetState E.atm (frF 67) (frF 53.5)) (by show toF (frF 67) ≤ _; rw [toF_frF]; norm_num) h67 p2 l67
  refine ⟨hx.1, hx.2, hy.1, hy.2, ?_, ?_, b, f, e1, e2, hz.1, hz.2, hw.1, hw.2, ?_, ?_⟩
  · show B.points.aFull.outdoor.db = _; rw [makeCondition_outdoor g1]; rfl
  · show B.points.bFull.outdoor.db = _; rw [makeCondition_outdoor g2]; rfl
  · show b.outdoor.db = _; rw [makeCondition_outdoor p1]; rfl
  · show f.outdoor.db = _; rw [makeCondition_outdoor p2]; rfl

/-! ## The SEER2 of two-stage units -/

/-- The tables of a two-stage unit made from ratings. -/
theorem two_tables {q95 eer2 : ℝ} (h : build u E T brentq a = .ok B) (ht : a.tables = none) (hst : a.staging = some .two) (hq : a.cooling = .num q95) (hs : a.cop82.isSome ∨ a.seer.isSome)
    (he : inputEer a = some eer2) (hh : a.netHeatingCop.isSome ∨ a.hspf.isSome) (heer : eer2 ≠ 0) (hcop82 : a.cop82.getD (a.seer.getD 0 / 2) ≠ 0)
    (hcop : heatingCop (a.hspf.getD 0) a.netHeatingCop ≠ 0) (h47 : ratedHeating u a .two q95 ≠ 0) (hmx : frF 95 < a.coolingOff) (hmn : lowestTemperature a .two < frF 5) :
    B.core.st = .two ∧ StandardTables 2 (lowestTemperature a .two) a.coolingOff B.core.net ∧
      Follows B.core.net 2 (highCurves u.btuh q95 eer2 (ratedHeating u a .two q95) a.heating17 (a.hspf.getD 0) a.netHeatingCop) ∧
      Follows B.core.net 1 (lowCurves q95 (a.seer.getD 0) (ratedHeating u a .two q95) a.heating17 (a.hspf.getD 0) a.cop82 a.netHeatingCop) := by
  obtain ⟨st0, st, q47, net, _, _, b1, b2, b3, b4, b5, -, -, b8, -⟩ := build_ok h
  have hcore : B.core.st = st ∧ B.core.net = net := by
    unfold core at b8
    simp only [bind_eq_ok, pure_eq_ok, Except.ok.injEq] at b8
    obtain ⟨qc, -, qh, -, esp, -, ⟨cool, heat, fan⟩, -, cp, -, hp, -, gross, -, ncc, -, gcc, -, nhc, -, ghc, -, h12⟩ := b8
    rw [← h12]; exact ⟨rfl, rfl⟩
  rw [hst] at b1
  simp only [stagingOf, Except.ok.injEq] at b1
  subst b1
  simp only [modelStaging, ht, Except.ok.injEq] at b2
  subst b2
  rw [heating47_eq hq] at b3
  cases b3
  obtain ⟨d, hd, hS, hF2, hF1⟩ := C95_two u q95 (a.seer.getD 0) eer2 (ratedHeating u a .two q95) a.heating17 (a.hspf.getD 0) a.coolingOff (lowestTemperature a .two) a.cop82 a.netHeatingCop heer hcop82
    h47 hcop hmx hmn
  rw [b5, offTemperature_eq] at b4
  simp only [netTables, ht, hq, he, hspfFor_eq hh, seerFor_eq hs, number, pyNum, bind_ok, hd, Except.ok.injEq] at b4
  rw [hcore.2, ← b4]
  exact ⟨hcore.1, hS, hF2, hF1⟩

theorem ends_67 {e : Ends ℝ} (h : e.low / 2 ≤ e.low - 22 / 13 * (e.high - e.low)) : e.cooling (frF 67) = e.low - 15 / 13 * (e.high - e.low) := by
  have h1 : ¬ (frF 82 : ℝ) ≤ frF 67 := by rw [frF_le]; norm_num
  rw [Ends.cooling, if_neg h1]
  have e1 : lineAt (frF 82) e.low (frF 95) e.high (frF 60) = e.low - 22 / 13 * (e.high - e.low) := by
    unfold lineAt; rw [frF_sub, frF_sub]; norm_num; ring
  rw [e1, max_eq_left h]
  unfold lineAt; rw [frF_sub, frF_sub]; norm_num; ring

theorem ends_60 {e : Ends ℝ} (h : e.low / 2 ≤ e.low - 22 / 13 * (e.high - e.low)) : e.cooling (frF 60) = e.low - 22 / 13 * (e.high - e.low) := by
  have h1 : ¬ (frF 82 : ℝ) ≤ frF 60 := by rw [frF_le]; norm_num
  rw [Ends.cooling, if_neg h1]
  have e1 : lineAt (frF 82) e.low (frF 95) e.high (frF 60) = e.low - 22 / 13 * (e.high - e.low) := by
    unfold lineAt; rw [frF_sub, frF_sub]; norm_num; ring
  rw [e1, max_eq_left h]
  unfold lineAt; simp

theorem season_bins : (coolingBins : List (ℝ × ℝ)) = coolingSeason.map fun b => (frF b.1, b.2) := by
  unfold coolingBins coolingSeason
  simp only [List.range, List.range.loop, List.map_cons, List.map_nil, List.zip_cons_cons, List.zip_nil_left, List.cons.injEq, Prod.mk.injEq, and_true]
  norm_num

theorem total_season (f : ℝ → ℝ) : CoolTests.total (fun t => f (toF t)) coolingBins = CoolTests.total f coolingSeason := by
  rw [season_bins]
  unfold CoolTests.total
  rw [List.map_map]
  congr 1
  exact List.map_congr_left fun b _ => by simp only [Function.comp_def, toF_frF]

/-- The power drawn is linear in the powers of the stages. -/
theorem twoStageRate_linear (cd qL pL qF pF l : ℝ) : twoStageRate cd true qL pL qF pF l = pL * twoStageRate cd true qL 1 qF 0 l + pF * twoStageRate cd true qL 0 qF 1 l := by
  unfold twoStageRate cyclingRate lineAt
  split
  · ring
  · split
    · simp only [if_true]; ring
    · ring

theorem twoStageRate_scale {k : ℝ} (hk : 0 < k) (cd qL pL qF pF l : ℝ) : twoStageRate cd true (k * qL) pL (k * qF) pF (k * l) = twoStageRate cd true qL pL qF pF l := by
  unfold twoStageRate cyclingRate lineAt
  simp only [mul_le_mul_iff_right₀ hk, mul_lt_mul_iff_right₀ hk, mul_div_mul_left _ _ hk.ne', ← mul_sub]

theorem unitDelivered_pos : (0 : ℝ) < unitDelivered := by
  unfold unitDelivered CoolTests.total coolingSeason unitCapacity coolBuildingLoad lineAt capacity82
  norm_num [List.map, List.sum_cons]

theorem twoStageRate_nonneg {cd qL pL qF pF l : ℝ} (h0 : 0 ≤ cd) (h1 : cd < 1) (hq : 0 < qL) (hlt : qL < qF) (hL : 0 ≤ pL) (hF : 0 ≤ pF) (hl : 0 ≤ l) : 0 ≤ twoStageRate cd true qL pL qF pF l := by
  unfold twoStageRate
  split
  · rename_i h; exact cyclingRate_nonneg h0 h1 hq hL hl h
  · rename_i h
    split
    · rename_i h2
      obtain ⟨s, s0, s1, e⟩ := lineAt_convex (y0 := pL) (y1 := pF) hlt (not_le.1 h).le h2.le
      rw [if_pos rfl, e]
      have := mul_nonneg (sub_nonneg.2 s1) hL
      positivity
    · exact hF

theorem season_facts : ∀ b ∈ (coolingSeason : List (ℝ × ℝ)), 0 < unitCapacity b.1 ∧ 0 < unitPower b.1 ∧ 0 ≤ coolBuildingLoad 1 b.1 ∧ 0 < b.2 := by
  simp only [coolingSeason, List.forall_mem_cons, List.not_mem_nil, false_imp_iff, implies_true, and_true]
  unfold unitCapacity unitPower lineAt coolBuildingLoad capacity82 input82
  norm_num

theorem stageUse_pos {cd : ℝ} (h0 : 0 ≤ cd) (h1 : cd < 1) : 0 < stageUse cd 1 0 ∧ 0 < stageUse cd 0 1 ∧ stageUse cd 0 1 = stageUse 0 0 1 := by
  have key : ∀ pL pH : ℝ, 0 ≤ pL → 0 ≤ pH → ∀ b ∈ (coolingSeason : List (ℝ × ℝ)),
      0 ≤ unitPower b.1 * twoStageRate cd true (0.728 * unitCapacity b.1) pL (unitCapacity b.1) pH (coolBuildingLoad 1 b.1) ∧ 0 ≤ b.2 := fun pL pH hL hH b hb => by
    obtain ⟨f1, f2, f3, f4⟩ := season_facts b hb
    exact ⟨mul_nonneg f2.le (twoStageRate_nonneg h0 h1 (by linarith) (by linarith) hL hH f3), f4.le⟩
  refine ⟨total_pos (key 1 0 zero_le_one le_rfl) (b := (67, 0.214)) (by simp [coolingSeason]) ?_ (by norm_num), total_pos (key 0 1 le_rfl zero_le_one) (b := (102, 0.004)) (by simp [coolingSeason]) ?_ (by norm_num), ?_⟩
  · obtain ⟨f1, f2, f3, f4⟩ := season_facts (67, 0.214) (by simp [coolingSeason])
    refine mul_pos f2 ?_
    unfold twoStageRate
    have hle : coolBuildingLoad 1 67 ≤ 0.728 * unitCapacity (67 : ℝ) := by unfold coolBuildingLoad unitCapacity lineAt capacity82; norm_num
    have hpos : (0 : ℝ) < coolBuildingLoad 1 67 := by unfold coolBuildingLoad; norm_num
    rw [if_pos hle]
    unfold cyclingRate
    have hq : 0 < 0.728 * unitCapacity (67 : ℝ) := by linarith
    have hx : coolBuildingLoad 1 67 / (0.728 * unitCapacity (67 : ℝ)) ≤ 1 := (div_le_one hq).2 hle
    have hx0 := div_pos hpos hq
    exact div_pos (by linarith) (by nlinarith)
  · obtain ⟨f1, f2, f3, f4⟩ := season_facts (102, 0.004) (by simp [coolingSeason])
    refine mul_pos f2 ?_
    unfold twoStageRate
    have h2 : ¬ coolBuildingLoad 1 102 ≤ 0.728 * unitCapacity (102 : ℝ) := by unfold coolBuildingLoad unitCapacity lineAt capacity82; norm_num
    have h3 : ¬ coolBuildingLoad 1 102 < unitCapacity (102 : ℝ) := by unfold coolBuildingLoad unitCapacity lineAt capacity82; norm_num
    rw [if_neg h2, if_neg h3]; exact one_pos
  · unfold stageUse
    congr 1
    funext t
    unfold twoStageRate cyclingRate
    simp

/-- C97, two-stage units: the SEER2 of a unit made from ratings does not depend on its capacities. Its reciprocal is the sum of a term inversely proportional to the COP at low stage and 82 °F and one
inversely proportional to the EER2; the weights are numbers that depend only on the cycling degradation coefficient (the second not even on that). -/
theorem C97_two_stage {q95 eer2 : ℝ} (h : build u E T brentq a = .ok B) (ht : a.tables = none) (hst : a.staging = some .two) (hq : a.cooling = .num q95) (hs : a.cop82.isSome ∨ a.seer.isSome)
    (he : inputEer a = some eer2) (hh : a.netHeatingCop.isSome ∨ a.hspf.isSome) (h95 : 0 < q95) (heer : 0 < eer2) (hcop82 : 0 < a.cop82.getD (a.seer.getD 0 / 2))
    (hcop : heatingCop (a.hspf.getD 0) a.netHeatingCop ≠ 0) (h47 : ratedHeating u a .two q95 ≠ 0) (hmx : frF 95 < a.coolingOff) (hmn : lowestTemperature a .two < frF 5)
    (hd : a.chargeDeviation = 0) (hcyc : a.cycling = .lowFull) (hcd : 0 ≤ cd a.cdCooling) (hcd1 : cd a.cdCooling < 1) (hfan : SameFan B.core B.core.rc B.core.cool B.core.rc.full)
    (o95 : Outdoor E (frF 95)) (o82 : Outdoor E (frF 82)) (o67 : Outdoor E (frF 67)) :
    B.seer u E T brentq = .ok (1 / (lowStageWeight (cd a.cdCooling) * u.btuh / a.cop82.getD (a.seer.getD 0 / 2) + highStageWeight 0 / eer2)) := by
  obtain ⟨s1, s2, f2, f1⟩ := two_tables h ht hst hq hs he hh heer.ne' hcop82.ne' hcop h47 hmx hmn
  have hb := u.btuh_pos
  set κ := a.cop82.getD (a.seer.getD 0 / 2) with hκ
  set hi := highCurves u.btuh q95 eer2 (ratedHeating u a .two q95) a.heating17 (a.hspf.getD 0) a.netHeatingCop with hhi
  set lo := lowCurves q95 (a.seer.getD 0) (ratedHeating u a .two q95) a.heating17 (a.hspf.getD 0) a.cop82 a.netHeatingCop with hlo
  set P := q95 / (eer2 * u.btuh) with hP
  set L := q95 * capacity82 * 0.728 / κ with hL
  have hL0 : 0 < L := by rw [hL]; unfold capacity82; positivity
  have hP0 : 0 < P := by positivity
  have c1 : lo.coolingCapacity (frF 82) = q95 * capacity82 * 0.728 := ends_cooling.1
  have c2 : lo.coolingPower (frF 82) = L := ends_cooling.1
  have c3 : hi.coolingCapacity (frF 82) = q95 * capacity82 := ends_cooling.1
  have c4 : hi.coolingPower (frF 82) = P * capacity82 * input82 := ends_cooling.1
  have c5 : hi.coolingCapacity (frF 95) = q95 := ends_cooling.2
  have c6 : hi.coolingPower (frF 95) = P := ends_cooling.2
  have hk : (0 : ℝ) < capacity82 * input82 := mul_pos capacity82_pos input82_pos
  have hinv : L / (capacity82 * input82) = L * (1 / (capacity82 * input82)) := by ring
  have hkn : (1.16 : ℝ) < 1 / ((capacity82 : ℝ) * input82) ∧ 1 / ((capacity82 : ℝ) * input82) < 1.17 := by
    rw [lt_div_iff₀ hk, div_lt_iff₀ hk]; unfold capacity82 input82; norm_num
  have g1 : (q95 * capacity82 * 0.728) / 2 ≤ (q95 * capacity82 * 0.728) - 22 / 13 * (q95 * 0.728 - q95 * capacity82 * 0.728) := by unfold capacity82; linarith
  have g2 : L / 2 ≤ L - 22 / 13 * (L / (capacity82 * input82) - L) := by rw [hinv]; nlinarith [hkn.1, hkn.2]
  have c7 : lo.coolingCapacity (frF 67) = (q95 * capacity82 * 0.728) - 15 / 13 * (q95 * 0.728 - q95 * capacity82 * 0.728) := ends_67 (e := ⟨q95 * capacity82 * 0.728, q95 * 0.728⟩) g1
  have c8 : lo.coolingPower (frF 67) = L - 15 / 13 * (L / (capacity82 * input82) - L) := ends_67 (e := ⟨L, L / (capacity82 * input82)⟩) g2
  have c9 : lo.coolingPower (frF 60) = L - 22 / 13 * (L / (capacity82 * input82) - L) := ends_60 (e := ⟨L, L / (capacity82 * input82)⟩) g2
  have mem : ∀ x ∈ [frF 60, frF 82, frF 95, a.coolingOff], x ∈ B.core.net.coolingCapacities.temperatures ∧ x ∈ B.core.net.coolingPowers.temperatures := fun x hx => by
    rw [s2.cooling.1, s2.cooling.2]; exact ⟨hx, hx⟩
  have at_ : ∀ {cv : Curves ℝ} {x}, x ∈ [frF 60, frF 82, frF 95, a.coolingOff] → NotBelow B.core.net cv x := fun hx => ⟨⟨_, (mem _ hx).1, le_rfl⟩, _, (mem _ hx).2, le_rfl⟩
  have M := C97_tests h (by rw [s1]; decide) (fun d hd => by rw [ht] at hd; cases hd) hd hfan o95 o82 o67 f1 f2 (at_ (by simp)) (at_ (by simp)) (at_ (by simp))
    ⟨⟨frF 82, (mem _ (by simp)).1, by rw [c1, c7]; unfold capacity82; linarith⟩, frF 60, (mem _ (by simp)).2, by rw [c8, c9, hinv]; nlinarith [hkn.1]⟩ 0 0
  set TT := lo.coolTests hi 0 0 with hTT
  have hqF : ∀ t, TT.qFull t = q95 * unitCapacity t := fun t => by
    show lineAt 82 (hi.coolingCapacity (frF 82)) 95 (hi.coolingCapacity (frF 95)) t = _
    rw [c3, c5]; unfold unitCapacity lineAt; ring
  have hpF : ∀ t, TT.pFull t = P * unitPower t := fun t => by
    show lineAt 82 (hi.coolingPower (frF 82)) 95 (hi.coolingPower (frF 95)) t = _
    rw [c4, c6]; unfold unitPower lineAt; ring
  have hqL : ∀ t, TT.qLow t = q95 * (0.728 * unitCapacity t) := fun t => by
    show lineAt 67 (lo.coolingCapacity (frF 67)) 82 (lo.coolingCapacity (frF 82)) t = _
    rw [c7, c1]; unfold unitCapacity lineAt; ring
  have hpL : ∀ t, TT.pLow t = q95 * 0.728 / (κ * input82) * unitPower t := fun t => by
    show lineAt 67 (lo.coolingPower (frF 67)) 82 (lo.coolingPower (frF 82)) t = _
    rw [c8, c2, hL]; unfold unitPower lineAt
    have h1 : (capacity82 : ℝ) ≠ 0 := capacity82_pos.ne'
    have h2 : (input82 : ℝ) ≠ 0 := input82_pos.ne'
    field_simp; ring
  have hlD : ∀ t, TT.load t = q95 * coolBuildingLoad 1 t := fun t => by
    show coolBuildingLoad (hi.coolingCapacity (frF 95)) t = _
    rw [c5]; unfold coolBuildingLoad; split <;> ring
  have hE : CoolTests.total (fun t => twoStageRate (cd a.cdCooling) true (TT.qLow t) (TT.pLow t) (TT.qFull t) (TT.pFull t) (TT.load t)) coolingSeason =
      q95 * (0.728 / (κ * input82) * stageUse (cd a.cdCooling) 1 0 + 1 / (eer2 * u.btuh) * stageUse (cd a.cdCooling) 0 1) := by
    unfold stageUse
    rw [← DX.total_mul, ← DX.total_mul, ← total_add, ← DX.total_mul]
    congr 1
    funext t
    rw [hqL, hpL, hqF, hpF, hlD, twoStageRate_scale h95, twoStageRate_linear, hP]
    ring
  have hD : CoolTests.total TT.delivered coolingSeason = q95 * unitDelivered := by
    unfold unitDelivered
    rw [← DX.total_mul]
    congr 1
    funext t
    show min (TT.load t) (TT.qFull t) = _
    rw [hlD, hqF, mul_min_of_nonneg _ _ h95.le]
  obtain ⟨u1, u2, u3⟩ := stageUse_pos hcd hcd1
  have hEpos : 0 < q95 * (0.728 / (κ * input82) * stageUse (cd a.cdCooling) 1 0 + 1 / (eer2 * u.btuh) * stageUse (cd a.cdCooling) 0 1) := by
    have := input82_pos (K := ℝ)
    positivity
  have z : B.cdCooling = cd a.cdCooling ∧ B.cycling = a.cycling := by
    obtain ⟨_, _, _, _, _, _, -, -, -, -, -, -, -, -, -, -, z1, -, -, z2, -⟩ := build_ok h
    exact ⟨z1, z2⟩
  have key := C46_two_stage_seer (U := B.unit u E T brentq) (P := B.points) (T := TT) (cd := cd a.cdCooling) M hcd hcd1 (by show 0 ≤ hi.coolingCapacity (frF 95); rw [c5]; exact h95.le) u a.cycling coolingBins (by
      rw [season_bins]
      intro b hb
      obtain ⟨b', hb', rfl⟩ := List.mem_map.1 hb
      have := mul_pos h95 (season_facts b' hb').1
      simp only [toF_frF]
      rw [hqL, hqF]
      constructor <;> linarith) _ rfl (by
      rw [hcyc]
      rw [show (decide (Cycling.lowFull = Cycling.lowFull)) = true from rfl]
      rw [total_season (fun t => twoStageRate (cd a.cdCooling) true (TT.qLow t) (TT.pLow t) (TT.qFull t) (TT.pFull t) (TT.load t)), hE]
      exact hEpos.ne')
  unfold Built.seer
  rw [s1, z.1, z.2, key]
  congr 1
  rw [hcyc, show (decide (Cycling.lowFull = Cycling.lowFull)) = true from rfl, total_season TT.delivered, hD,
    total_season (fun t => twoStageRate (cd a.cdCooling) true (TT.qLow t) (TT.pLow t) (TT.qFull t) (TT.pFull t) (TT.load t)), hE, u3]
  unfold lowStageWeight highStageWeight
  have d0 := unitDelivered_pos
  have i0 := input82_pos (K := ℝ)
  rw [u3] at u2
  generalize (unitDelivered : ℝ) = D at *
  generalize stageUse (cd a.cdCooling) 1 0 = x at *
  generalize stageUse (0 : ℝ) 0 1 = y at *
  generalize (input82 : ℝ) = i at *
  clear_value κ
  have p1 : 0 < 0.728 / (κ * i) * x + 1 / (eer2 * u.btuh) * y := by positivity
  have p2 : 0 < 0.728 / i * x / D * u.btuh / κ + y / D / eer2 := by positivity
  rw [div_div, div_eq_div_iff (by positivity) p2.ne']
  field_simp

/-! ## Variable-speed units -/

/-- Halfway between the speeds 1 and 2 the tables give the mean of the two. -/
theorem follows_half {d : Perf ℝ} {mn mx : ℝ} {n : Nat} (S : StandardTables n mn mx d) (hn : 2 ≤ n) {low full : Curves ℝ} (hl : Follows d 1 low) (hf : Follows d 2 full) (x : ℝ) :
    d.coolingCapacity (3 / 2) x = .ok ((low.coolingCapacity x + full.coolingCapacity x) / 2) ∧ d.coolingPower (3 / 2) x = .ok ((low.coolingPower x + full.coolingPower x) / 2) := by
  have key : ∀ {t : Table ℝ} (_ : Fresh t) (_ : t.nSpeeds = n) {y z : ℝ}, t.calculate ((1 : Int) : ℝ) x = .ok y → t.calculate ((2 : Int) : ℝ) x = .ok z → t.calculate (3 / 2) x = .ok ((y + z) / 2) := by
    intro t ht e y z hy hz
    obtain ⟨y0, y1, w, g0, g1, g, hL⟩ := C30_linear_in_speed t ht 1 (3 / 2) x ⟨by norm_num, by omega⟩ ⟨by norm_num, by omega⟩ (.inr rfl) (.inl (by norm_num))
    rw [hy] at g0; cases g0
    rw [show ((1 : Int) : ℝ) + 1 = ((2 : Int) : ℝ) by norm_num, hz] at g1; cases g1
    rw [g]
    unfold OnLine at hL
    norm_num at hL
    congr 1; linarith
  exact ⟨key S.qc S.speeds.1 (hl x).1 (hf x).1, key S.pc S.speeds.2.1 (hl x).2.1 (hf x).2.1⟩

/-- C97, the intermediate test of a variable-speed unit at 87 °F: the mean of the curves of low and full speed, shifted by the amount `δ` by which the mean of their fan powers exceeds the fan power of the
intermediate speed; the capacity is higher and the power lower by that amount. -/
theorem C97_intermediate (h : build u E T brentq a = .ok B) (ht : ∀ d, a.tables = some d → RatedTables (tableSpeeds B.core.st) d) (hd : a.chargeDeviation = 0) (hv : B.core.st = .varSpeed)
    {Q : ℝ} (hQ : B.sys.grossCooling[2]? = some (some Q)) (hQ0 : 0 < Q) {n : Nat} {mn mx : ℝ} (S : StandardTables n mn mx B.core.net) (hn : 2 ≤ n) (h87 : Outdoor E (frF 87))
    {low full : Curves ℝ} (hl : Follows B.core.net 1 low) (hf : Follows B.core.net 2 full) (l87 : NotBelow B.core.net low (frF 87)) (f87 : NotBelow B.core.net full (frF 87)) :
    ∃ w w1 w3, B.core.cool.power[1]? = some (some w1) ∧ B.core.cool.power[2]? = some (some w) ∧ B.core.cool.power[3]? = some (some w3) ∧
      CoolMatch.Int (B.unit u E T brentq) B.points (low.coolTests full ((low.coolingCapacity (frF 87) + full.coolingCapacity (frF 87)) / 2 + ((w1 + w3) / 2 - w))
        ((low.coolingPower (frF 87) + full.coolingPower (frF 87)) / 2 - ((w1 + w3) / 2 - w))) := by
  obtain ⟨st0, q47, nC, nH, b2, b3, b4, b6, b7, b8, b9, b10⟩ := build_steps h
  obtain ⟨e, h2, e1, -, e3, -⟩ := int_points b10 hv
  have hi : B.core.rc.intermediate = 2 := by rw [b6, hv]; rfl
  have hfu : B.core.rc.full = 1 := by rw [b6, hv]; rfl
  rw [hi] at e3
  obtain ⟨q, p, w, w1, w3, t1, t2, t3, t4, t5, t6, t7⟩ := C88_cooling_intermediate h ht hd hv hQ hQ0 (.inr (.inl (by rw [hfu]; decide))) (o := wetState E.atm (frF 87) (frF 69))
    (by show toF (frF 87) ≤ _; rw [toF_frF]; norm_num) h87 e3
  obtain ⟨m1, m2⟩ := follows_half S hn hl hf (frF 87)
  cases t1.symm.trans m1
  cases t2.symm.trans m2
  obtain ⟨fc, fh, F⟩ := built_facts h ht
  rw [hv] at F
  have hσ1 : TableSpeed .varSpeed 1 2 := .inr (.inl ⟨rfl, rfl⟩)
  have hσ3 : TableSpeed .varSpeed 3 1 := .inr (.inr (.inr ⟨rfl, rfl⟩))
  have f1 := F.coolFan 1 2 w1 hσ1 (by norm_num) t4
  have f3 := F.coolFan 3 1 w3 hσ3 (by norm_num) t5
  have gross : ∀ {i : Nat} {k : Int} {cv : Curves ℝ} {v : ℝ}, TableSpeed .varSpeed i (k : ℝ) → Follows B.core.net k cv → fc (k : ℝ) = v → NotBelow B.core.net cv (frF 87) →
      0 < cv.coolingCapacity (frF 87) + v ∧ 0 < cv.coolingPower (frF 87) - v := by
    intro i k cv v hσ hcv hfv ⟨⟨x, hx, hxq⟩, y, hy, hyp⟩
    obtain ⟨p1, p2⟩ := F.posAt i _ hσ
    obtain ⟨y', g1, g2⟩ := p1 _ hx
    obtain ⟨z', g3, g4⟩ := p2 _ hy
    obtain ⟨_, k1, k2⟩ := F.gross.coolCap k x
    obtain ⟨_, k3, k4⟩ := F.gross.coolPow k y
    cases (hcv x).1.symm.trans k1
    cases (hcv y).2.1.symm.trans k3
    rw [g1] at k2; cases k2
    rw [g3] at k4; cases k4
    rw [hfv] at g2 g4
    constructor <;> linarith
  obtain ⟨x1, x2⟩ := gross (i := 1) (k := 2) (by norm_num; exact hσ1) hf (by norm_num; exact f1) f87
  obtain ⟨x3, x4⟩ := gross (i := 3) (k := 1) (by norm_num; exact hσ3) hl (by norm_num; exact f3) l87
  rw [if_neg (not_lt.2 (by linarith))] at t6
  rw [if_neg (not_lt.2 (by linarith))] at t7
  exact ⟨w, w1, w3, t4, t3, t5, e, e1, t6, t7⟩

/-- A cooling curve known at 82 °F and 95 °F is at no temperature between 60 °F and 95 °F below all of its values at 60, 82 and 95 °F. -/
theorem ends_notBelow {e : Ends ℝ} {t : ℝ} (h60 : frF 60 ≤ t) (h95 : t ≤ frF 95) : ∃ x ∈ [frF 60, frF 82, frF 95], e.cooling x ≤ e.cooling t := by
  have g1 : (frF 60 : ℝ) < frF 82 := by rw [frF_lt]; norm_num
  have g2 : (frF 82 : ℝ) < frF 95 := by rw [frF_lt]; norm_num
  have key : ∀ {x0 x1 y0 y1 : ℝ}, x0 < x1 → x0 ≤ t → t ≤ x1 → y0 ≤ lineAt x0 y0 x1 y1 t ∨ y1 ≤ lineAt x0 y0 x1 y1 t := by
    intro x0 x1 y0 y1 hx h0 h1
    obtain ⟨s, s0, s1, es⟩ := lineAt_convex (y0 := y0) (y1 := y1) hx h0 h1
    rw [es]
    rcases le_total y0 y1 with h | h
    · left; nlinarith [mul_nonneg s0 (sub_nonneg.2 h)]
    · right; nlinarith [mul_nonneg (sub_nonneg.2 s1) (sub_nonneg.2 h)]
  have e1 : e.cooling (frF 82) = e.low := ends_cooling.1
  have e2 : e.cooling (frF 95) = e.high := ends_cooling.2
  have e0 : e.cooling (frF 60) = max (lineAt (frF 82) e.low (frF 95) e.high (frF 60)) (e.low / 2) := by
    rw [Ends.cooling, if_neg (not_le.2 g1)]; simp [lineAt]
  by_cases h82 : frF 82 ≤ t
  · have : e.cooling t = lineAt (frF 82) e.low (frF 95) e.high t := by rw [Ends.cooling, if_pos h82]
    rw [this]
    rcases key g2 h82 h95 with h | h
    · exact ⟨_, by simp, e1.trans_le h⟩
    · exact ⟨_, by simp, e2.trans_le h⟩
  · have : e.cooling t = lineAt (frF 60) (max (lineAt (frF 82) e.low (frF 95) e.high (frF 60)) (e.low / 2)) (frF 82) e.low t := by rw [Ends.cooling, if_neg h82]
    rw [this]
    rcases key g1 h60 (not_le.1 h82).le with h | h
    · exact ⟨_, by simp, e0.trans_le h⟩
    · exact ⟨_, by simp, e1.trans_le h⟩

/-- The tables of a variable-speed unit made from ratings. -/
theorem variable_tables {q95 eer2 : ℝ} (h : build u E T brentq a = .ok B) (ht : a.tables = none) (hst : a.staging = some .varSpeed) (hq : a.cooling = .num q95) (hs : a.seer.isSome)
    (he : inputEer a = some eer2) (hh : a.netHeatingCop.isSome ∨ a.hspf.isSome) (h95 : q95 ≠ 0) (heer : eer2 ≠ 0) (h47 : ratedHeating u a .varSpeed q95 ≠ 0)
    (h17 : varHeating17 (ratedHeating u a .varSpeed q95) a.heating17 ≠ 0) (hcop : heatingCop (a.hspf.getD 0) a.netHeatingCop ≠ 0) (hcop82 : ∀ c, a.cop82 = some c → c ≠ 0) (hmx : frF 95 < a.coolingOff)
    (hmn : lowestTemperature a .varSpeed < frF 5) (hlow : toF (lowestTemperature a .varSpeed) ≠ 5 - 250 / 3)
    (hr : (varCooling u.btuh q95 (a.seer.getD 0) eer2 a.ratio95 a.cop82).ratio ≠ 1)
    (hp : (varCooling u.btuh q95 (a.seer.getD 0) eer2 a.ratio95 a.cop82).p95s.max ≠ (varCooling u.btuh q95 (a.seer.getD 0) eer2 a.ratio95 a.cop82).p95s.min) :
    B.core.st = .varSpeed ∧ StandardTables 3 (lowestTemperature a .varSpeed) a.coolingOff B.core.net ∧
      ∀ s : Int, 1 ≤ s → s ≤ 3 → Follows B.core.net s
        (varCurves u.btuh q95 (a.seer.getD 0) eer2 (ratedHeating u a .varSpeed q95) a.heating17 (a.hspf.getD 0) (lowestTemperature a .varSpeed) a.ratio95 a.cop82 a.netHeatingCop s) := by
  have h5 : toF (frF (5 : ℝ)) = 5 := by unfold toF frF; ring
  obtain ⟨st0, st, q47, net, _, _, b1, b2, b3, b4, b5, -, -, b8, -⟩ := build_ok h
  have hcore : B.core.st = st ∧ B.core.net = net := by
    unfold core at b8
    simp only [bind_eq_ok, pure_eq_ok, Except.ok.injEq] at b8
    obtain ⟨qc, -, qh, -, esp, -, ⟨cool, heat, fan⟩, -, cp, -, hp, -, gross, -, ncc, -, gcc, -, nhc, -, ghc, -, h12⟩ := b8
    rw [← h12]; exact ⟨rfl, rfl⟩
  rw [hst] at b1
  simp only [stagingOf, Except.ok.injEq] at b1
  subst b1
  simp only [modelStaging, ht, Except.ok.injEq] at b2
  subst b2
  rw [heating47_eq hq] at b3
  cases b3
  obtain ⟨d, hd, hS, hF⟩ := C95_variable u q95 (a.seer.getD 0) eer2 (ratedHeating u a .varSpeed q95) (some (a.heating17.getD (0.689 * ratedHeating u a .varSpeed q95))) (a.hspf.getD 0) a.coolingOff
    (lowestTemperature a .varSpeed) a.ratio95 a.cop82 a.netHeatingCop h95 heer h47 h17 hcop hcop82 hmx hmn (by rw [h5]; intro hc; apply hlow; linarith) hr hp
  rw [b5, offTemperature_eq] at b4
  obtain ⟨s, hs'⟩ := Option.isSome_iff_exists.1 hs
  have hsf : seerFor a = .ok s := by rw [seerFor_eq (.inr hs), hs']; rfl
  rw [hs'] at hd hF ⊢
  simp only [netTables, ht, hq, he, hspfFor_eq hh, hsf, number, pyNum, bind_ok, Option.getD_some] at b4 hd
  rw [hd] at b4
  cases b4
  rw [hcore.2]
  exact ⟨hcore.1, hS, hF⟩

/-- C97, variable-speed units made from ratings: the tests at low and full speed are the values of the curves, the intermediate test is shifted by the fan, and the SEER2 is what the bins of the standard give
for these tests. -/
theorem C97_variable {q95 eer2 : ℝ} (h : build u E T brentq a = .ok B) (ht : a.tables = none) (hst : a.staging = some .varSpeed) (hq : a.cooling = .num q95) (hs : a.seer.isSome)
    (he : inputEer a = some eer2) (hh : a.netHeatingCop.isSome ∨ a.hspf.isSome) (h95 : 0 < q95) (heer : eer2 ≠ 0) (h47 : ratedHeating u a .varSpeed q95 ≠ 0)
    (h17 : varHeating17 (ratedHeating u a .varSpeed q95) a.heating17 ≠ 0) (hcop : heatingCop (a.hspf.getD 0) a.netHeatingCop ≠ 0) (hcop82 : ∀ c, a.cop82 = some c → c ≠ 0) (hmx : frF 95 < a.coolingOff)
    (hmn : lowestTemperature a .varSpeed < frF 5) (hlow : toF (lowestTemperature a .varSpeed) ≠ 5 - 250 / 3)
    (hr : (varCooling u.btuh q95 (a.seer.getD 0) eer2 a.ratio95 a.cop82).ratio ≠ 1)
    (hp : (varCooling u.btuh q95 (a.seer.getD 0) eer2 a.ratio95 a.cop82).p95s.max ≠ (varCooling u.btuh q95 (a.seer.getD 0) eer2 a.ratio95 a.cop82).p95s.min)
    (hd : a.chargeDeviation = 0) (hcd : 0 ≤ cd a.cdCooling) (hcd1 : cd a.cdCooling < 1) (hfan : SameFan B.core B.core.rc B.core.cool B.core.rc.full) {Q : ℝ} (hQ : B.sys.grossCooling[2]? = some (some Q)) (hQ0 : 0 < Q)
    (o95 : Outdoor E (frF 95)) (o87 : Outdoor E (frF 87)) (o82 : Outdoor E (frF 82)) (o67 : Outdoor E (frF 67)) :
    let curve := varCurves u.btuh q95 (a.seer.getD 0) eer2 (ratedHeating u a .varSpeed q95) a.heating17 (a.hspf.getD 0) (lowestTemperature a .varSpeed) a.ratio95 a.cop82 a.netHeatingCop
    ∃ w w1 w3, B.core.cool.power[1]? = some (some w1) ∧ B.core.cool.power[2]? = some (some w) ∧ B.core.cool.power[3]? = some (some w3) ∧
      let tests := (curve 1).coolTests (curve 2) (((curve 1).coolingCapacity (frF 87) + (curve 2).coolingCapacity (frF 87)) / 2 + ((w1 + w3) / 2 - w))
        (((curve 1).coolingPower (frF 87) + (curve 2).coolingPower (frF 87)) / 2 - ((w1 + w3) / 2 - w))
      CoolMatch (B.unit u E T brentq) B.points tests ∧ CoolMatch.Int (B.unit u E T brentq) B.points tests ∧
      ((∀ t ∈ (coolingSeason : List (ℝ × ℝ)).map Prod.fst, 0 < tests.qLow t ∧ tests.qLow t ≤ tests.qInt t ∧ tests.qInt t < tests.qFull t ∧ 0 < tests.pLow t ∧ 0 < tests.pInt t ∧ 0 < tests.pFull t) →
        tests.qLow 87 < tests.qFull 87 → tests.pFull 87 ≠ tests.pLow 87 →
        CoolTests.total (fun t => varSpeedRate (cd a.cdCooling) (tests.qLow t) (tests.pLow t) (tests.qInt t) (tests.pInt t) (tests.qFull t) (tests.pFull t) (tests.load t)) coolingSeason ≠ 0 →
        B.seer u E T brentq = .ok (CoolTests.total tests.delivered coolingSeason /
          CoolTests.total (fun t => varSpeedRate (cd a.cdCooling) (tests.qLow t) (tests.pLow t) (tests.qInt t) (tests.pInt t) (tests.qFull t) (tests.pFull t) (tests.load t)) coolingSeason / u.btuh)) := by
  intro curve
  obtain ⟨s1, s2, f⟩ := variable_tables h ht hst hq hs he hh h95.ne' heer h47 h17 hcop hcop82 hmx hmn hlow hr hp
  have f1 : Follows B.core.net 1 (curve 1) := f 1 (by norm_num) (by norm_num)
  have f2 : Follows B.core.net 2 (curve 2) := f 2 (by norm_num) (by norm_num)
  have ht' : ∀ d, a.tables = some d → RatedTables (tableSpeeds B.core.st) d := fun d hd => by rw [ht] at hd; cases hd
  have nb : ∀ (s : Int) {t : ℝ}, 60 ≤ t → t ≤ 95 → NotBelow B.core.net (curve s) (frF t) := by
    intro s t g1 g2
    have mem : ∀ x ∈ [frF 60, frF 82, frF 95], x ∈ B.core.net.coolingCapacities.temperatures ∧ x ∈ B.core.net.coolingPowers.temperatures := fun x hx => by
      rw [s2.cooling.1, s2.cooling.2]
      have : x ∈ [frF 60, frF 82, frF 95, a.coolingOff] := by simp only [List.mem_cons, List.not_mem_nil, or_false] at hx ⊢; tauto
      exact ⟨this, this⟩
    obtain ⟨x, m1, l1⟩ := ends_notBelow (e := ⟨(varCooling u.btuh q95 (a.seer.getD 0) eer2 a.ratio95 a.cop82).q82s.speed s, (varCooling u.btuh q95 (a.seer.getD 0) eer2 a.ratio95 a.cop82).q95s.speed s⟩) (frF_le.2 g1) (frF_le.2 g2)
    obtain ⟨y, m2, l2⟩ := ends_notBelow (e := ⟨(varCooling u.btuh q95 (a.seer.getD 0) eer2 a.ratio95 a.cop82).p82s.speed s, (varCooling u.btuh q95 (a.seer.getD 0) eer2 a.ratio95 a.cop82).p95s.speed s⟩) (frF_le.2 g1) (frF_le.2 g2)
    exact ⟨⟨x, (mem x m1).1, l1⟩, y, (mem y m2).2, l2⟩
  obtain ⟨w, w1, w3, k1, k2, k3, hI⟩ := C97_intermediate h ht' hd s1 hQ hQ0 s2 (by norm_num) o87 f1 f2 (nb 1 (by norm_num) (by norm_num)) (nb 2 (by norm_num) (by norm_num))
  refine ⟨w, w1, w3, k1, k2, k3, ?_⟩
  intro tests
  have M : CoolMatch (B.unit u E T brentq) B.points tests := C97_tests h (by rw [s1]; decide) ht' hd hfan o95 o82 o67 f1 f2 (nb 2 (by norm_num) (by norm_num)) (nb 2 (by norm_num) (by norm_num))
    (nb 1 (by norm_num) (by norm_num)) (nb 1 (by norm_num) (by norm_num)) _ _
  refine ⟨M, hI, fun ho hQ' hP' hE => ?_⟩
  have z : B.cdCooling = cd a.cdCooling ∧ B.cycling = a.cycling := by
    obtain ⟨_, _, _, _, _, _, -, -, -, -, -, -, -, -, -, -, z1, -, -, z2, -⟩ := build_ok h
    exact ⟨z1, z2⟩
  have key := C46_variable_speed_seer (U := B.unit u E T brentq) (P := B.points) (T := tests) (cd := cd a.cdCooling) M hcd hcd1 (by
      show 0 ≤ (curve 2).coolingCapacity (frF 95)
      rw [show (curve 2).coolingCapacity (frF 95) = q95 from ends_cooling.2]; exact h95.le) u a.cycling coolingBins hI (sub_ne_zero.2 hQ'.ne') (sub_ne_zero.2 hP') (by
      rw [season_bins]
      intro b hb
      obtain ⟨b', hb', rfl⟩ := List.mem_map.1 hb
      simp only [toF_frF]
      exact ho _ (List.mem_map.2 ⟨b', hb', rfl⟩)) _ rfl (by
      rw [total_season (fun t => varSpeedRate (cd a.cdCooling) (tests.qLow t) (tests.pLow t) (tests.qInt t) (tests.pInt t) (tests.qFull t) (tests.pFull t) (tests.load t))]
      exact hE)
  unfold Built.seer
  rw [s1, z.1, z.2, key, total_season tests.delivered,
    total_season (fun t => varSpeedRate (cd a.cdCooling) (tests.qLow t) (tests.pLow t) (tests.qInt t) (tests.pInt t) (tests.qFull t) (tests.pFull t) (tests.load t))]

end Resdx.Build
