import Verif.Lemmas.Thrift
import Verif.Props.Seer
import Verif.Props.Hspf

/-!
# C121: units that deliver the same and draw less power

`PowerScaled k U U'` says that `U'` delivers the net capacities of `U` at every condition and draws `k` times its net power.
-/

set_option linter.unusedSectionVars false
set_option linter.unusedSimpArgs false

namespace Resdx.DX

open Spec Performance BaseModel

variable {C K : Type} [Field K] [LinearOrder K] [IsStrictOrderedRing K]

/-! ## Cooling -/

section
variable {k : K} {U U' : Performance C K}

/-- C121 for the COP and the EER at any condition: exactly inversely proportional to the power. -/
theorem C121_eer (hk : 0 < k) (h : PowerScaled k U U') (u : Units K) (c : C) :
    U'.netTotalCoolingCOP (some c) = sc k⁻¹ (U.netTotalCoolingCOP (some c)) ∧ eer u U' (some c) = sc k⁻¹ (eer u U (some c)) := by
  have h1 : U'.netTotalCoolingCOP (some c) = sc k⁻¹ (U.netTotalCoolingCOP (some c)) := by
    simp only [netTotalCoolingCOP, h.cool, h.coolP]
    cases U.netTotalCoolingCapacity (some c) <;> simp only [sc_ok, sc_error, bind_ok, bind_error]
    cases U.netCoolingPower (some c) <;> simp only [sc_ok, sc_error, bind_ok, bind_error]
    rw [pdiv_scale_right hk.ne']
  refine ⟨h1, ?_⟩
  simp only [eer, h1]
  cases U.netTotalCoolingCOP (some c) <;> simp only [sc_ok, sc_error, bind_ok, bind_error, pure_eq_ok]
  rw [pdiv_scale_left]

/-- C121 for the seasonal cooling rating, whatever the number of stages, the cycling method and the bins: exactly inversely proportional to the power. -/
theorem C121_seer (hk : 0 < k) (h : PowerScaled k U U') (P : Points C) (u : Units K) (st : Staging) (cd : K) (cyc : Cycling) (bins : List (K × K)) :
    seer U' P u st cd cyc bins = sc k⁻¹ (seer U P u st cd cyc bins) := by
  have fin : ∀ x : Py (K × K), (do let r ← scE k x; pdiv (← pdiv r.1 r.2) u.btuh) = sc k⁻¹ (do let r ← x; pdiv (← pdiv r.1 r.2) u.btuh) := by
    intro x
    cases x <;> simp only [scE_error, scE_ok, sc_error, bind_ok, bind_error, pdiv_scale_right hk.ne']
    rename_i a
    cases pdiv a.1 a.2 <;> simp only [sc_error, sc_ok, bind_ok, bind_error, pdiv_scale_left]
  cases st with
  | single =>
    simp only [seer, (C121_eer hk h u P.bFull).1]
    cases U.netTotalCoolingCOP (some P.bFull) <;> simp only [sc_error, sc_ok, bind_ok, bind_error]
    rw [mul_left_comm, pdiv_scale_left]
  | two =>
    have hb : ∀ t n, seerTwoBin U' P cd cyc t n = scE k (seerTwoBin U P cd cyc t n) := by
      intro t n
      simp only [seerTwoBin, thrift_coolingLines hk.ne' h]
      cases coolingLines U P t <;> simp only [Except.map, scE_error, bind_ok, bind_error]
      exact thrift_twoStageBin hk.ne' ..
    have := thrift_binLoop hk.ne' _ _ hb bins 0 0
    rw [mul_zero] at this
    simp only [seer, this]
    exact fin _
  | varSpeed =>
    simp only [seer]
    have e0 : coolingIntermediate U' P (fun c => U'.netTotalCoolingCapacity (some c)) = coolingIntermediate U P fun c => U.netTotalCoolingCapacity (some c) := by
      simp only [coolingIntermediate, h.db, h.cool]
    rw [e0, thrift_coolingIntermediate hk.ne' h]
    generalize coolingIntermediate U P (fun c => U.netTotalCoolingCapacity (some c)) = x
    generalize coolingIntermediate U P (fun c => U.netCoolingPower (some c)) = y
    cases x with
    | error e => simp only [sc_error, bind_error]
    | ok a =>
      cases y with
      | error e => simp only [sc_error, sc2_error, sc2_ok, bind_error, bind_ok]
      | ok b =>
        simp only [sc2_ok, bind_ok]
        have hb : ∀ t n, seerVarBin U' P cd a.1 a.2 (k * b.1) (k * b.2) t n = scE k (seerVarBin U P cd a.1 a.2 b.1 b.2 t n) := by
          intro t n
          simp only [seerVarBin, thrift_coolingLines hk.ne' h]
          cases coolingLines U P t <;> simp only [Except.map, scE_error, bind_ok, bind_error]
          rw [show k * b.1 + k * b.2 * (t - frF 87) = k * (b.1 + b.2 * (t - frF 87)) by ring]
          exact thrift_varSpeedBin hk.ne' ..
        have := thrift_binLoop hk.ne' _ _ hb bins 0 0
        rw [mul_zero] at this
        rw [this]
        exact fin _

/-- C121 for a single stage and any change of the power: less power at the 82 °F test, never a lower rating. -/
theorem C121_single_stage (P : Points C) (u : Units K) {cd : K} (cyc : Cycling) (bins : List (K × K)) {q p p' v v' : K} (hcd : cd ≤ 2) (hq0 : 0 ≤ q)
    (hp0 : 0 < p') (hle : p' ≤ p) (hq : U.netTotalCoolingCapacity (some P.bFull) = .ok q) (hp : U.netCoolingPower (some P.bFull) = .ok p)
    (hq' : U'.netTotalCoolingCapacity (some P.bFull) = .ok q) (hp' : U'.netCoolingPower (some P.bFull) = .ok p')
    (hv : seer U P u .single cd cyc bins = .ok v) (hv' : seer U' P u .single cd cyc bins = .ok v') : v ≤ v' := by
  rw [C46_single_stage U P u _ cyc bins q p hq hp (hp0.trans_le hle).ne', Except.ok.injEq] at hv
  rw [C46_single_stage U' P u _ cyc bins q p' hq' hp' hp0.ne', Except.ok.injEq] at hv'
  subst hv; subst hv'
  refine div_le_div_of_nonneg_right (mul_le_mul_of_nonneg_left (div_le_div_of_nonneg_left hq0 hp0 hle) (by linarith)) u.btuh_pos.le

end

theorem cyclingRate_power {cd q p p' l : K} (hcd : 0 ≤ cd) (hcd1 : cd < 1) (hq : 0 < q) (hp : p' ≤ p) (h0 : 0 ≤ l) (h1 : l ≤ q) :
    cyclingRate cd q p' l ≤ cyclingRate cd q p l := by
  have hl : l / q ≤ 1 := (div_le_one hq).2 h1
  have h2 : 0 ≤ l / q := by positivity
  have h3 : 0 < 1 - cd * (1 - l / q) := by nlinarith
  unfold cyclingRate
  exact div_le_div_of_nonneg_right (mul_le_mul_of_nonneg_left hp h2) h3.le

theorem lineAt_le {x0 y0 x1 y1 y0' y1' x : K} (h : x0 < x1) (h0 : x0 ≤ x) (h1 : x ≤ x1) (a0 : y0' ≤ y0) (a1 : y1' ≤ y1) :
    lineAt x0 y0' x1 y1' x ≤ lineAt x0 y0 x1 y1 x := by
  have s0 : 0 ≤ (x - x0) / (x1 - x0) := div_nonneg (by linarith) (by linarith)
  have s1 : (x - x0) / (x1 - x0) ≤ 1 := (div_le_one (by linarith)).2 (by linarith)
  unfold lineAt
  generalize (x - x0) / (x1 - x0) = s at *
  nlinarith

theorem twoStageRate_power {cd : K} {b : Bool} {qL pL pL' qF pF pF' l : K} (hcd : 0 ≤ cd) (hcd1 : cd < 1) (hq : 0 < qL) (hle : qL ≤ qF) (hL : pL' ≤ pL)
    (hF : pF' ≤ pF) (h0 : 0 ≤ l) : twoStageRate cd b qL pL' qF pF' l ≤ twoStageRate cd b qL pL qF pF l := by
  unfold twoStageRate
  split
  · exact cyclingRate_power hcd hcd1 hq hL h0 ‹_›
  rename_i h1
  split
  · rename_i h2
    split
    · exact lineAt_le ((not_le.1 h1).trans h2) (not_le.1 h1).le h2.le hL hF
    · exact cyclingRate_power hcd hcd1 (hq.trans_le hle) hF h0 h2.le
  · exact hF

theorem varSpeedRate_power {cd qL pL pL' qI pI pI' qF pF pF' l : K} (hcd : 0 ≤ cd) (hcd1 : cd < 1) (hq : 0 < qL) (hle : qL ≤ qI) (hlt : qI < qF) (hL0 : 0 < pL')
    (hI0 : 0 < pI') (hF0 : 0 < pF') (hL : pL' ≤ pL) (hI : pI' ≤ pI) (hF : pF' ≤ pF) (h0 : 0 ≤ l) :
    varSpeedRate cd qL pL' qI pI' qF pF' l ≤ varSpeedRate cd qL pL qI pI qF pF l := by
  have qI0 := hq.trans_le hle
  have qF0 := qI0.trans hlt
  have cL := div_le_div_of_nonneg_left hq.le hL0 hL
  have cI := div_le_div_of_nonneg_left qI0.le hI0 hI
  have cF := div_le_div_of_nonneg_left qF0.le hF0 hF
  unfold varSpeedRate
  split
  · exact cyclingRate_power hcd hcd1 hq hL h0 ‹_›
  rename_i h1
  split
  · rename_i h2
    exact div_le_div_of_nonneg_left h0 (lineAt_pos ((not_le.1 h1).trans h2) (not_le.1 h1).le h2.le (div_pos hq (hL0.trans_le hL)) (div_pos qI0 (hI0.trans_le hI)))
      (lineAt_le ((not_le.1 h1).trans h2) (not_le.1 h1).le h2.le cL cI)
  rename_i h2
  split
  · rename_i h3
    exact div_le_div_of_nonneg_left h0 (lineAt_pos hlt (not_lt.1 h2) h3 (div_pos qI0 (hI0.trans_le hI)) (div_pos qF0 (hF0.trans_le hF)))
      (lineAt_le hlt (not_lt.1 h2) h3 cI cF)
  · exact hF

section
variable {U U' : Performance C K} {P : Points C} {T T' : CoolTests K} (hT : CoolMatch U P T) (hT' : CoolMatch U' P T') (u : Units K) (cyc : Cycling)
  (bins : List (K × K)) (hA : 0 ≤ T.qA) (hn : ∀ b ∈ bins, 0 ≤ b.2)
include hT hT' hA hn

/-- C121, two stages and any change of the powers, when the low-speed and full-speed powers (read off the lines through the tests) are lower in every bin.
Missing: tests with lower powers whose lines cross, see `C121_two_stage_refuted`. -/
theorem C121_two_stage_partial {cd v v' : K} (hcd : 0 ≤ cd) (hcd1 : cd < 1)
    (hq : T'.qA = T.qA ∧ T'.qB = T.qB ∧ T'.qBl = T.qBl ∧ T'.qFl = T.qFl)
    (h : ∀ b ∈ bins, 0 < T.qLow (toF b.1) ∧ T.qLow (toF b.1) ≤ T.qFull (toF b.1) ∧ 0 < T'.pLow (toF b.1) ∧ 0 < T'.pFull (toF b.1) ∧
      T'.pLow (toF b.1) ≤ T.pLow (toF b.1) ∧ T'.pFull (toF b.1) ≤ T.pFull (toF b.1))
    (hv : seer U P u .two cd cyc bins = .ok v) (hv' : seer U' P u .two cd cyc bins = .ok v') : v ≤ v' := by
  obtain ⟨e1, e2, e3, e4⟩ := hq
  have eL : T'.qLow = T.qLow := by funext t; simp only [CoolTests.qLow, e3, e4]
  have eF : T'.qFull = T.qFull := by funext t; simp only [CoolTests.qFull, e1, e2]
  have el : T'.load = T.load := by funext t; simp only [CoolTests.load, e1]
  have ed : T'.delivered = T.delivered := by funext t; simp only [CoolTests.delivered, el, eF]
  have law : ∀ (V : Performance C K) (S : CoolTests K) w, CoolMatch V P S → S.qLow = T.qLow → S.qFull = T.qFull → S.qA = T.qA → S.delivered = T.delivered →
      S.load = T.load → seer V P u .two cd cyc bins = .ok w →
      CoolTests.total (fun t => twoStageRate cd (decide (cyc = .lowFull)) (T.qLow (toF t)) (S.pLow (toF t)) (T.qFull (toF t)) (S.pFull (toF t)) (T.load (toF t))) bins ≠ 0 ∧
      w = CoolTests.total (fun t => T.delivered (toF t)) bins /
        CoolTests.total (fun t => twoStageRate cd (decide (cyc = .lowFull)) (T.qLow (toF t)) (S.pLow (toF t)) (T.qFull (toF t)) (S.pFull (toF t)) (T.load (toF t))) bins
        / u.btuh := by
    intro V S w hV h1 h2 h3 h4 h5 hw
    have hl := binLoop_ok (seerTwoBin V P cd cyc) (fun t => T.delivered (toF t))
      (fun t => twoStageRate cd (decide (cyc = .lowFull)) (T.qLow (toF t)) (S.pLow (toF t)) (T.qFull (toF t)) (S.pFull (toF t)) (T.load (toF t))) bins (fun b hb => by
        rw [C46_two_stage_bin hV hcd hcd1 (h3 ▸ hA) cyc b.1 b.2 (by rw [h1]; exact (h b hb).1) (by rw [h1, h2]; exact (h b hb).2.1), h1, h2, h5]; rfl) 0 0
    simp only [seer, hl, bind_ok, zero_add, bind_eq_ok, pdiv_eq_ok] at hw
    obtain ⟨x, ⟨h6, rfl⟩, _, rfl⟩ := hw
    exact ⟨h6, rfl⟩
  obtain ⟨n1, rfl⟩ := law U T v hT rfl rfl rfl rfl rfl hv
  obtain ⟨n2, rfl⟩ := law U' T' v' hT' eL eF e1 ed el hv'
  have hload : ∀ t, 0 ≤ T.load t := fun t => load_nonneg hT hcd hcd1 hA hA t
  have hdel := total_delivered_nonneg bins hA hn fun b hb => (h b hb).1.le.trans (h b hb).2.1
  have hpos : 0 < CoolTests.total (fun t => twoStageRate cd (decide (cyc = .lowFull)) (T.qLow (toF t)) (T'.pLow (toF t)) (T.qFull (toF t)) (T'.pFull (toF t))
      (T.load (toF t))) bins := by
    refine lt_of_le_of_ne ?_ (Ne.symm n2)
    refine le_trans (le_of_eq ?_) (total_le (f := fun _ => 0) fun b hb => ?_)
    · simp [CoolTests.total]
    · obtain ⟨a1, a2, a3, a4, _⟩ := h b hb
      have hF : 0 < T.qFull (toF b.1) := a1.trans_le a2
      refine mul_le_mul_of_nonneg_right ?_ (hn b hb)
      exact (twoStageRate_bounds (m := 0) (M := max (T.qLow (toF b.1) / T'.pLow (toF b.1)) (T.qFull (toF b.1) / T'.pFull (toF b.1))) hcd hcd1 a1 a2 a3 a4 (hload _) le_rfl
        (div_nonneg a1.le a3.le) (div_nonneg hF.le a4.le) (le_max_left _ _) (le_max_right _ _)).1
  refine div_le_div_of_nonneg_right (div_le_div_of_nonneg_left hdel hpos (total_le fun b hb => ?_)) u.btuh_pos.le
  obtain ⟨a1, a2, a3, a4, a5, a6⟩ := h b hb
  exact mul_le_mul_of_nonneg_right (twoStageRate_power hcd hcd1 a1 a2 a5 a6 (hload _)) (hn b hb)

/-- C121, variable speed and any change of the powers, when the low, intermediate and full-speed powers (read off the lines through the tests) are lower in every bin. -/
theorem C121_variable_speed_partial {cd v v' : K} (hcd : 0 ≤ cd) (hcd1 : cd < 1) (hI : CoolMatch.Int U P T) (hI' : CoolMatch.Int U' P T')
    (hq : T'.qA = T.qA ∧ T'.qB = T.qB ∧ T'.qBl = T.qBl ∧ T'.qFl = T.qFl ∧ T'.qE = T.qE)
    (hQ0 : T.qFull 87 - T.qLow 87 ≠ 0) (hP0 : T.pFull 87 - T.pLow 87 ≠ 0) (hP0' : T'.pFull 87 - T'.pLow 87 ≠ 0)
    (h : ∀ b ∈ bins, (0 < T.qLow (toF b.1) ∧ T.qLow (toF b.1) ≤ T.qInt (toF b.1) ∧ T.qInt (toF b.1) < T.qFull (toF b.1)) ∧
      (0 < T'.pLow (toF b.1) ∧ 0 < T'.pInt (toF b.1) ∧ 0 < T'.pFull (toF b.1)) ∧
      T'.pLow (toF b.1) ≤ T.pLow (toF b.1) ∧ T'.pInt (toF b.1) ≤ T.pInt (toF b.1) ∧ T'.pFull (toF b.1) ≤ T.pFull (toF b.1))
    (hv : seer U P u .varSpeed cd cyc bins = .ok v) (hv' : seer U' P u .varSpeed cd cyc bins = .ok v') : v ≤ v' := by
  obtain ⟨e1, e2, e3, e4, e5⟩ := hq
  have eL : T'.qLow = T.qLow := by funext t; simp only [CoolTests.qLow, e3, e4]
  have eF : T'.qFull = T.qFull := by funext t; simp only [CoolTests.qFull, e1, e2]
  have eI : T'.qInt = T.qInt := by funext t; simp only [CoolTests.qInt, CoolTests.nQ, eL, eF, e5]
  have el : T'.load = T.load := by funext t; simp only [CoolTests.load, e1]
  have ed : T'.delivered = T.delivered := by funext t; simp only [CoolTests.delivered, el, eF]
  have law : ∀ (V : Performance C K) (S : CoolTests K) w, CoolMatch V P S → CoolMatch.Int V P S → S.pFull 87 - S.pLow 87 ≠ 0 → S.qLow = T.qLow → S.qInt = T.qInt →
      S.qFull = T.qFull → S.qA = T.qA → S.delivered = T.delivered → S.load = T.load →
      (∀ b ∈ bins, 0 < S.pLow (toF b.1) ∧ 0 < S.pInt (toF b.1) ∧ 0 < S.pFull (toF b.1)) → seer V P u .varSpeed cd cyc bins = .ok w →
      CoolTests.total (fun t => varSpeedRate cd (T.qLow (toF t)) (S.pLow (toF t)) (T.qInt (toF t)) (S.pInt (toF t)) (T.qFull (toF t)) (S.pFull (toF t))
        (T.load (toF t))) bins ≠ 0 ∧
      w = CoolTests.total (fun t => T.delivered (toF t)) bins /
        CoolTests.total (fun t => varSpeedRate cd (T.qLow (toF t)) (S.pLow (toF t)) (T.qInt (toF t)) (S.pInt (toF t)) (T.qFull (toF t)) (S.pFull (toF t))
        (T.load (toF t))) bins / u.btuh := by
    intro V S w hV hVI hp h1 h1' h2 h3 h4 h5 hpos hw
    obtain ⟨mQ, mP, b1, b2, b3⟩ := C47_intermediate hV hcd hcd1 (h3 ▸ hA) hVI (by rw [h1, h2]; exact hQ0) hp
    have hl := binLoop_ok (seerVarBin V P cd S.qE mQ S.pE mP) (fun t => T.delivered (toF t))
      (fun t => varSpeedRate cd (T.qLow (toF t)) (S.pLow (toF t)) (T.qInt (toF t)) (S.pInt (toF t)) (T.qFull (toF t)) (S.pFull (toF t)) (T.load (toF t))) bins
      (fun b hb => by
        obtain ⟨⟨c1, c2, c3⟩, _⟩ := h b hb
        obtain ⟨d1, d2, d3⟩ := hpos b hb
        simp only [seerVarBin, coolingLines_ok hV (h3 ▸ hA), bind_ok, (b3 b.1).1, (b3 b.1).2, h1, h1', h2, h5]
        exact varSpeedBin_ok hcd hcd1 c1 c2 c3 d1 d2 d3 (load_nonneg hT hcd hcd1 hA hA _)) 0 0
    simp only [seer, b1, b2, hl, bind_ok, zero_add, bind_eq_ok, pdiv_eq_ok] at hw
    obtain ⟨x, ⟨h6, rfl⟩, _, rfl⟩ := hw
    exact ⟨h6, rfl⟩
  obtain ⟨n1, rfl⟩ := law U T v hT hI hP0 rfl rfl rfl rfl rfl rfl (fun b hb => by
    obtain ⟨_, ⟨d1, d2, d3⟩, f1, f2, f3⟩ := h b hb
    exact ⟨d1.trans_le f1, d2.trans_le f2, d3.trans_le f3⟩) hv
  obtain ⟨n2, rfl⟩ := law U' T' v' hT' hI' hP0' eL eI eF e1 ed el (fun b hb => (h b hb).2.1) hv'
  have hload : ∀ t, 0 ≤ T.load t := fun t => load_nonneg hT hcd hcd1 hA hA t
  have hdel := total_delivered_nonneg bins hA hn fun b hb => ((h b hb).1.1.trans_le ((h b hb).1.2.1)).le.trans (h b hb).1.2.2.le
  have hpos : 0 < CoolTests.total (fun t => varSpeedRate cd (T.qLow (toF t)) (T'.pLow (toF t)) (T.qInt (toF t)) (T'.pInt (toF t)) (T.qFull (toF t)) (T'.pFull (toF t))
      (T.load (toF t))) bins := by
    refine lt_of_le_of_ne ?_ (Ne.symm n2)
    refine le_trans (le_of_eq ?_) (total_le (f := fun _ => 0) fun b hb => ?_)
    · simp [CoolTests.total]
    · obtain ⟨⟨c1, c2, c3⟩, ⟨d1, d2, d3⟩, _⟩ := h b hb
      have qI0 := c1.trans_le c2
      have qF0 := qI0.trans c3
      refine mul_le_mul_of_nonneg_right ?_ (hn b hb)
      exact (varSpeedRate_bounds (m := 0) (M := max (T.qLow (toF b.1) / T'.pLow (toF b.1)) (max (T.qInt (toF b.1) / T'.pInt (toF b.1))
        (T.qFull (toF b.1) / T'.pFull (toF b.1)))) hcd hcd1 c1 c2 c3 d1 d2 d3 (hload _) le_rfl (div_nonneg c1.le d1.le) (div_nonneg qI0.le d2.le)
        (div_nonneg qF0.le d3.le) (le_max_left _ _) ((le_max_left _ _).trans (le_max_right _ _)) ((le_max_right _ _).trans (le_max_right _ _))).1
  refine div_le_div_of_nonneg_right (div_le_div_of_nonneg_left hdel hpos (total_le fun b hb => ?_)) u.btuh_pos.le
  obtain ⟨⟨c1, c2, c3⟩, ⟨d1, d2, d3⟩, f1, f2, f3⟩ := h b hb
  exact mul_le_mul_of_nonneg_right (varSpeedRate_power hcd hcd1 c1 c2 c3 d1 d2 d3 f1 f2 f3 (hload _)) (hn b hb)

end

/-! ## Heating -/

/-- In a bin above the cut-out temperature, none of the speeds the rating uses is less efficient than resistance heat. -/
def Efficient (U : Performance C K) (P : Points C) (s : HeatSettings K) (t : K) : Prop :=
  s.off < t → (∀ r, heatFull U P t = .ok r → 1 ≤ r.1 / r.2) ∧
    match s.st with
    | .single => True
    | .two => ∀ r, heatLowTwo U P t = .ok r → 1 ≤ r.1 / r.2
    | .varSpeed => (∀ r, heatLowVar U P t = .ok r → 1 ≤ r.1 / r.2) ∧
        ∀ I, heatIntermediate U P = .ok I → 1 ≤ (I.q + I.mQ * (t - frF 35)) / (I.p + I.mP * (t - frF 35))

section
variable {k : K} {U U' : Performance C K} (hk : 0 < k) (hk1 : k ≤ 1) (h : PowerScaled k U U') {P : Points C} {s : HeatSettings K}
include hk hk1 h

theorem thrift_heatBin {I : Option (HeatIntermediate K)} (hI : heatIntermediateFor U P s.st = .ok I) (load : K → Py K) (prev : Option K) {t : K} (n : K)
    (hE : Efficient U P s t) :
    heatBin U' P s (I.map (scI k)) load prev t n = (heatBin U P s I load prev t n).map fun r => (scH k r.1, r.2) := by
  simp only [heatBin, thrift_heatFull h]
  cases load t <;> simp only [bind_ok, bind_error, Except.map]
  rename_i bl
  cases hF : heatFull U P t <;> simp only [bind_ok, bind_error, scE_error, scE_ok]
  rename_i F
  rw [pdiv_scale_right hk.ne']
  cases hc : pdiv F.1 F.2 <;> simp only [bind_ok, bind_error, sc_error, sc_ok]
  rename_i cF
  obtain ⟨hF0, rfl⟩ := pdiv_eq_ok.1 hc
  have cF1 : s.off < t → 1 ≤ F.1 / F.2 := fun ht => (hE ht).1 F hF
  rw [thrift_cut s.on hk hk1 cF1]
  cases cutFactor s.off s.on t (F.1 / F.2) <;> simp only [bind_ok, bind_error]
  rename_i d
  cases loadFactor bl F.1 <;> simp only [bind_ok, bind_error]
  rename_i hlf
  have key : heatStaging U' P s (I.map (scI k)) prev t bl F.1 (k * F.2) (k⁻¹ * (F.1 / F.2)) d hlf n =
      scB k (heatStaging U P s I prev t bl F.1 F.2 (F.1 / F.2) d hlf n) := by
    unfold heatStaging
    cases hs : s.st with
    | single =>
      simp only [thrift_singleBin hk.ne']
      cases heatSingleBin s.cd bl F.1 F.2 d hlf n <;> simp only [bind_ok, bind_error, scF_error, scF_ok, scB_ok, scB_error, pure_eq_ok]
    | two =>
      simp only [thrift_lowTwo h]
      cases hL : heatLowTwo U P t <;> simp only [bind_ok, bind_error, scE_error, scE_ok, scB_error]
      rename_i L
      rw [pdiv_scale_right hk.ne']
      cases hc : pdiv L.1 L.2 <;> simp only [bind_ok, bind_error, sc_error, sc_ok, scB_error]
      rename_i cL
      obtain ⟨hL0, rfl⟩ := pdiv_eq_ok.1 hc
      refine thrift_twoBin hk hk1 fun ht => ?_
      have := (hE ht).2
      rw [hs] at this
      exact this L hL
    | varSpeed =>
      cases I with
      | none => rfl
      | some J =>
        have hJ : heatIntermediate U P = .ok J := by
          simp only [heatIntermediateFor, hs, if_true, bind_eq_ok, pure_eq_ok, Except.ok.injEq, Option.some.injEq] at hI
          obtain ⟨J', h1, rfl⟩ := hI
          exact h1
        simp only [Option.map_some, pyAttr, bind_ok, thrift_lowVar h]
        cases hL : heatLowVar U P t <;> simp only [bind_ok, bind_error, scE_error, scE_ok, scB_error]
        rename_i L
        rw [pdiv_scale_right hk.ne']
        cases hc : pdiv L.1 L.2 <;> simp only [bind_ok, bind_error, sc_error, sc_ok, scB_error]
        rename_i cL
        obtain ⟨hL0, rfl⟩ := pdiv_eq_ok.1 hc
        have e : (scI k J).p + (scI k J).mP * (t - frF 35) = k * (J.p + J.mP * (t - frF 35)) := by simp only [scI]; ring
        have e' : (scI k J).q + (scI k J).mQ * (t - frF 35) = J.q + J.mQ * (t - frF 35) := rfl
        rw [e, e', pdiv_scale_right hk.ne']
        cases hc' : pdiv (J.q + J.mQ * (t - frF 35)) (J.p + J.mP * (t - frF 35)) <;> simp only [bind_ok, bind_error, sc_error, sc_ok, scB_error]
        rename_i cI
        obtain ⟨hI0, rfl⟩ := pdiv_eq_ok.1 hc'
        have hE' : s.off < t → _ := fun ht => (hE ht).2
        simp only [hs] at hE'
        have ha : heatFullAgain U' P (scI k J).h1 (scI k J).h3 (scI k J).h4 (F.1, k * F.2) t = scE k (heatFullAgain U P J.h1 J.h3 J.h4 (F.1, F.2) t) :=
          thrift_again h P J.h1 J.h3 J.h4 (F.1, F.2) t
        rw [thrift_heatVar hk hk1 ha (fun ht => (hE' ht).1 L hL) (fun ht => (hE' ht).2 J hJ) cF1]
        cases heatVarBin s t bl L.1 L.2 (L.1 / L.2) (J.q + J.mQ * (t - frF 35)) ((J.q + J.mQ * (t - frF 35)) / (J.p + J.mP * (t - frF 35))) F.1 (F.1 / F.2) d n
          (heatFullAgain U P J.h1 J.h3 J.h4 (F.1, F.2) t) <;> simp only [bind_ok, bind_error, scF_error, scF_ok, scB_ok, scB_error, pure_eq_ok]
  rw [key]
  cases heatStaging U P s I prev t bl F.1 F.2 (F.1 / F.2) d hlf n <;> simp only [scB_ok, scB_error, bind_ok, bind_error, pure_eq_ok, scH]

omit hk hk1 h in
theorem thrift_heatLoop (f f' : Option K → K → K → Py ((K × K × K) × Option K)) (bins : List (K × K))
    (hf : ∀ b ∈ bins, ∀ prev, f' prev b.1 b.2 = (f prev b.1 b.2).map fun r => (scH k r.1, r.2)) (prev : Option K) (acc : K × K × K) :
    heatLoop f' bins prev (scH k acc) = (heatLoop f bins prev acc).map (scH k) := by
  induction bins generalizing prev acc with
  | nil => rfl
  | cons b l ih =>
    obtain ⟨t, n⟩ := b
    have h1 := hf (t, n) List.mem_cons_self prev
    simp only at h1
    simp only [heatLoop, h1]
    cases f prev t n <;> simp only [Except.map, bind_ok, bind_error]
    rename_i r
    have := ih (fun b hb => hf b (List.mem_cons_of_mem _ hb)) r.2 (acc.1 + r.1.1, acc.2.1 + r.1.2.1, acc.2.2 + r.1.2.2)
    simp only [scH, mul_add] at this ⊢
    rw [this]
    rfl

/-- From the bins to the rating: the loads, the energy of the compressor and resistance heat must not be negative. -/
theorem thrift_hspf {u : Units K} {std : RatingStandard} {d : HeatDist K} {f v : K} (J : Option K → Prop) (hJ : J none) (hf : 0 ≤ f)
    (hE : ∀ t ∈ heatingTemperatures, Efficient U P s t)
    (hstep : ∀ load I, heatingLoad U P u s.st std d = .ok load → ∀ b ∈ heatingTemperatures.zip d.hours, ∀ prev r prev', J prev →
      heatBin U P s I load prev b.1 b.2 = .ok (r, prev') → (0 ≤ r.1 ∧ 0 ≤ r.2.1 ∧ 0 ≤ r.2.2) ∧ J prev')
    (hv : hspfWith U P u std s d (.ok f) = .ok v) : ∃ v', hspfWith U' P u std s d (.ok f) = .ok v' ∧ v ≤ v' ∧ k * v' ≤ v := by
  have eI : heatIntermediateFor U' P s.st = (heatIntermediateFor U P s.st).map fun I => I.map (scI k) := by
    unfold heatIntermediateFor
    split
    · rw [thrift_intermediate h P hk.ne']
      cases heatIntermediate U P <;> rfl
    · rfl
  simp only [hspfWith, bind_eq_ok, pdiv_eq_ok, Except.ok.injEq] at hv
  obtain ⟨load, hl, I, hI, r, hr, f', rfl, x, ⟨hD, rfl⟩, hb, rfl⟩ := hv
  obtain ⟨h1, h2, h3⟩ := heatLoop_inv _ _ J (fun r => 0 ≤ r.1 ∧ 0 ≤ r.2.1 ∧ 0 ≤ r.2.2)
    (fun a b ha hb => ⟨add_nonneg ha.1 hb.1, add_nonneg ha.2.1 hb.2.1, add_nonneg ha.2.2 hb.2.2⟩) (fun b hb => hstep load I hl b hb) none _ r hJ
    ⟨le_rfl, le_rfl, le_rfl⟩ hr
  have hpos : 0 < r.2.1 + r.2.2 := lt_of_le_of_ne (add_nonneg h2 h3) (Ne.symm hD)
  have hlow : k * (r.2.1 + r.2.2) ≤ k * r.2.1 + r.2.2 := by nlinarith
  have hhigh : k * r.2.1 + r.2.2 ≤ r.2.1 + r.2.2 := by nlinarith
  have hpos' : 0 < k * r.2.1 + r.2.2 := (mul_pos hk hpos).trans_le hlow
  have hr' : heatLoop (heatBin U' P s (I.map (scI k)) load) (heatingTemperatures.zip d.hours) none (0, 0, 0) = .ok (scH k r) := by
    have := thrift_heatLoop (k := k) (heatBin U P s I load) (heatBin U' P s (I.map (scI k)) load) (heatingTemperatures.zip d.hours)
      (fun b hb prev => thrift_heatBin hk hk1 h hI load prev b.2 (hE b.1 (List.of_mem_zip hb).1)) none (0, 0, 0)
    rw [hr] at this
    simpa only [scH, mul_zero, Except.map] using this
  refine ⟨r.1 / (k * r.2.1 + r.2.2) * f / u.btuh, ?_, ?_, ?_⟩
  · rw [hspfWith, thrift_load h, hl, bind_ok, eI, hI]
    simp only [Except.map, bind_ok, hr', scH, pdiv_ok hpos'.ne', pdiv_ok hb]
  · exact div_le_div_of_nonneg_right (mul_le_mul_of_nonneg_right (div_le_div_of_nonneg_left h1 hpos' hhigh) hf) u.btuh_pos.le
  · have : k * (r.1 / (k * r.2.1 + r.2.2)) ≤ r.1 / (r.2.1 + r.2.2) := by
      rw [← mul_div_assoc, div_le_div_iff₀ hpos' hpos]
      nlinarith
    rw [← mul_div_assoc, ← mul_assoc]
    exact div_le_div_of_nonneg_right (mul_le_mul_of_nonneg_right this hf) u.btuh_pos.le

/-- C121 for the seasonal heating rating of a single-stage unit: with at most the power and the same heat at every condition, the rating is not lower, and it
rises at most in proportion. -/
theorem C121_hspf_single {u : Units K} {std : RatingStandard} {d : HeatDist K} {f v : K} (hs : s.st = .single) (hcd : 0 ≤ s.cd) (hcd1 : s.cd < 1)
    (hn : ∀ n ∈ d.hours, 0 ≤ n) (hf : 0 ≤ f) (hp : ∀ t ∈ heatingTemperatures, ∀ r, heatFull U P t = .ok r → 0 < r.2)
    (hE : ∀ t ∈ heatingTemperatures, Efficient U P s t) (hv : hspfWith U P u std s d (.ok f) = .ok v) :
    ∃ v', hspfWith U' P u std s d (.ok f) = .ok v' ∧ v ≤ v' ∧ k * v' ≤ v := by
  refine thrift_hspf hk hk1 h (fun _ => True) trivial hf hE (fun load I hl b hb prev r prev' _ hr => ⟨?_, trivial⟩) hv
  obtain ⟨q, e, rh⟩ := r
  obtain ⟨bl, qF, pF, δ, hlf, h1, h2, h3, h4, h5, h6, rfl⟩ := heatBin_inv hr
  have hbl := heatingLoad_nonneg hl h1
  have hpF : 0 < pF := hp _ (List.of_mem_zip hb).1 _ h2
  have hn' := hn _ (List.of_mem_zip hb).2
  obtain ⟨h7, _⟩ := staging_single hs h6
  obtain ⟨rfl, rfl⟩ := single_inv hbl h5 h7
  obtain ⟨d0, d1, _⟩ := cutFactor_bounds h4
  refine ⟨mul_nonneg hn' hbl, mul_nonneg (mul_nonneg d0 ?_) hn', mul_nonneg (sub_nonneg.2 (delivered_le hbl d0 d1 (min_le_left _ _))) hn'⟩
  unfold oneStageRate; split
  · rename_i hlt; exact cyclingRate_nonneg hcd hcd1 (hbl.trans_lt hlt) hpF.le hbl hlt.le
  · exact hpF.le

/-- C121 for the seasonal heating rating of a two-stage unit, for both cycling methods. -/
theorem C121_hspf_two_stage {u : Units K} {std : RatingStandard} {d : HeatDist K} {f v : K} (hs : s.st = .two) (hcd : 0 ≤ s.cd) (hcd1 : s.cd < 1)
    (hn : ∀ n ∈ d.hours, 0 ≤ n) (hf : 0 ≤ f) (hp : ∀ t ∈ heatingTemperatures, ∀ r, heatFull U P t = .ok r → 0 < r.2)
    (hpl : ∀ t ∈ heatingTemperatures, ∀ r, heatLowTwo U P t = .ok r → 0 < r.2)
    (hE : ∀ t ∈ heatingTemperatures, Efficient U P s t) (hv : hspfWith U P u std s d (.ok f) = .ok v) :
    ∃ v', hspfWith U' P u std s d (.ok f) = .ok v' ∧ v ≤ v' ∧ k * v' ≤ v := by
  refine thrift_hspf hk hk1 h (fun prev => ∀ d ∈ prev, 0 ≤ d ∧ d ≤ 1) (by simp) hf hE (fun load I hl b hb prev r prev' hprev hr => ?_) hv
  obtain ⟨q, e, rh⟩ := r
  obtain ⟨bl, qF, pF, δ, hlf, h1, h2, h3, h4, h5, h6, rfl⟩ := heatBin_inv hr
  have hbl := heatingLoad_nonneg hl h1
  have ht := (List.of_mem_zip hb).1
  have hn' := hn _ (List.of_mem_zip hb).2
  have hpF : 0 < pF := hp _ ht _ h2
  obtain ⟨d0, d1, _⟩ := cutFactor_bounds h4
  obtain ⟨qL, pL, h7, h8, h9⟩ := staging_two hs h6
  have hpL : 0 < pL := hpl _ ht _ h7
  have hq := mul_nonneg hn' hbl
  rcases two_inv h9 with ⟨a, dl, b', rfl, c, rfl, rfl⟩ | ⟨a, a', _, dl, rfl, rfl, rfl, rfl⟩ | ⟨a, a', _, dl, rfl, rfl, rfl, rfl⟩ | ⟨a, a', rfl, rfl, rfl⟩
  · obtain ⟨e0, e1, _⟩ := cutFactor_bounds b'
    have hqL : 0 < qL := lt_of_le_of_ne (hbl.trans a) (Ne.symm c)
    exact ⟨⟨hq, mul_nonneg (mul_nonneg e0 (cyclingRate_nonneg hcd hcd1 hqL hpL.le hbl a)) hn',
      mul_nonneg (sub_nonneg.2 (delivered_le hbl e0 e1 le_rfl)) hn'⟩, by simpa using ⟨e0, e1⟩⟩
  · obtain ⟨e0, e1⟩ := hprev dl rfl
    exact ⟨⟨hq, mul_nonneg (mul_nonneg e0 (lineAt_pos (a.trans a') a.le a'.le hpL hpF).le) hn',
      mul_nonneg (sub_nonneg.2 (delivered_le hbl e0 e1 le_rfl)) hn'⟩, hprev⟩
  · obtain ⟨e0, e1⟩ := hprev dl rfl
    have hlf0 : 0 ≤ hlf := by
      rw [loadFactor, if_pos a', pdiv_eq_ok] at h5
      obtain ⟨_, rfl⟩ := h5
      exact div_nonneg hbl (hbl.trans a'.le)
    have x0 : 0 ≤ (qF - bl) / (qF - qL) := div_nonneg (by linarith) (by linarith)
    have hplf : 0 ≤ 1 - s.cd * (1 - (qF - bl) / (qF - qL)) := by
      generalize (qF - bl) / (qF - qL) = x at *
      nlinarith
    exact ⟨⟨hq, mul_nonneg (mul_nonneg d0 (div_nonneg (mul_nonneg hpF.le hlf0) hplf)) hn', mul_nonneg (sub_nonneg.2 (delivered_le hbl e0 e1 le_rfl)) hn'⟩, hprev⟩
  · exact ⟨⟨hq, mul_nonneg (mul_nonneg d0 hpF.le) hn', mul_nonneg (sub_nonneg.2 (delivered_le hbl d0 d1 a')) hn'⟩, hprev⟩

/-- C121 for the seasonal heating rating of a variable-speed unit, when the capacity recomputed for the bins beyond full capacity is not above the load (otherwise
the code credits resistance heat, see C50). -/
theorem C121_hspf_variable_speed {u : Units K} {std : RatingStandard} {d : HeatDist K} {f v : K} (hs : s.st = .varSpeed) (hcd : 0 ≤ s.cd) (hcd1 : s.cd < 1)
    (hn : ∀ n ∈ d.hours, 0 ≤ n) (hf : 0 ≤ f) (hpl : ∀ t ∈ heatingTemperatures, ∀ r, heatLowVar U P t = .ok r → 0 < r.2)
    (hag : ∀ load, heatingLoad U P u s.st std d = .ok load → ∀ t ∈ heatingTemperatures, ∀ bl rF q' p', load t = .ok bl → heatFull U P t = .ok rF → rF.1 ≤ bl →
      interpolate U.db (sCap U) P.h4Full P.h3Full t = .ok q' → interpolate U.db (sPow U) P.h4Full P.h3Full t = .ok p' → 0 ≤ p' ∧ q' ≤ bl)
    (hE : ∀ t ∈ heatingTemperatures, Efficient U P s t) (hv : hspfWith U P u std s d (.ok f) = .ok v) :
    ∃ v', hspfWith U' P u std s d (.ok f) = .ok v' ∧ v ≤ v' ∧ k * v' ≤ v := by
  refine thrift_hspf hk hk1 h (fun _ => True) trivial hf hE (fun load I hl b hb prev r prev' _ hr => ⟨?_, trivial⟩) hv
  obtain ⟨q, e, rh⟩ := r
  obtain ⟨bl, qF, pF, δ, hlf, h1, h2, h3, h4, h5, h6, rfl⟩ := heatBin_inv hr
  have hbl := heatingLoad_nonneg hl h1
  have ht := (List.of_mem_zip hb).1
  have hn' := hn _ (List.of_mem_zip hb).2
  obtain ⟨d0, d1, _⟩ := cutFactor_bounds h4
  obtain ⟨J, qL, pL, cI, _, h7, h8, _, h9⟩ := staging_var hs h6
  have hpL : 0 < pL := hpl _ ht _ h7
  have hq := mul_nonneg hn' hbl
  rcases var_inv h9 with ⟨a, dl, b', c, rfl, rfl⟩ | ⟨a, a', cop, dl, _, c, b', rfl, rfl⟩ | ⟨a, a', q', p', b', rfl, rfl⟩
  · obtain ⟨e0, e1, _⟩ := cutFactor_bounds b'
    have hqL : 0 < qL := lt_of_le_of_ne (hbl.trans a) (Ne.symm c)
    exact ⟨hq, mul_nonneg (mul_nonneg e0 (cyclingRate_nonneg hcd hcd1 hqL hpL.le hbl a)) hn', mul_nonneg (sub_nonneg.2 (delivered_le hbl e0 e1 le_rfl)) hn'⟩
  · obtain ⟨e0, e1, e2⟩ := cutFactor_bounds b'
    refine ⟨hq, mul_nonneg ?_ hn', mul_nonneg (sub_nonneg.2 (delivered_le hbl e0 e1 le_rfl)) hn'⟩
    by_cases hd : dl = 0
    · rw [hd, zero_mul]
    · exact mul_nonneg e0 (div_nonneg hbl (zero_le_one.trans (e2 hd).2))
  · rw [heatFullAgain_eq] at b'
    simp only [bind_eq_ok, pure_eq_ok, Except.ok.injEq, Prod.mk.injEq] at b'
    obtain ⟨x, hx, y, hy, rfl, rfl⟩ := b'
    obtain ⟨g0, g1⟩ := hag load hl _ ht bl _ _ _ h1 h2 a' hx hy
    exact ⟨hq, mul_nonneg (mul_nonneg d0 g0) hn', mul_nonneg (sub_nonneg.2 (delivered_le hbl d0 d1 g1)) hn'⟩

end

/-! ## Cases, and what fails -/

/-- The unit whose compressor draws `k` times the power. -/
def thrifty (k : K) (U : Performance C K) : Performance C K :=
  { U with coolPow := fun c => sc k (U.coolPow c), heatPow := fun c => sc k (U.heatPow c), intPow := fun c => sc k (U.intPow c) }

/-- Without a fan, such a unit draws `k` times the net power. -/
theorem thrifty_scaled {k : K} (hk : 0 < k) (U : Performance C K) (h : ∀ c, U.fanPower c = .ok 0) : PowerScaled k U (thrifty k U) where
  db := rfl
  cool := fun _ => rfl
  heat := fun _ => rfl
  int := fun _ => rfl
  coolP := fun c => by
    simp only [netCoolingPower, grossCoolingPower, coolingFanPower, thrifty, h]
    cases U.coolPow ((some c).getD U.aFull) <;> simp only [sc_ok, sc_error, bind_ok, bind_error]
    cases U.coolPowCharge ((some c).getD U.aFull) <;> simp only [sc_ok, sc_error, bind_ok, bind_error]
    rw [mul_assoc, limitCheck_scale hk]
    rename_i a b
    cases Util.limitCheck (a * b) (min := some 0) <;> simp only [sc_ok, sc_error, bind_ok, bind_error, pure_eq_ok, add_zero]
  heatP := fun c => by
    simp only [netSteadyHeatingPower, grossSteadyHeatingPower, heatingFanPower, thrifty, h]
    cases U.heatPow ((some c).getD U.h1Full) <;> simp only [sc_ok, sc_error, bind_ok, bind_error]
    cases U.heatPowCharge ((some c).getD U.h1Full) <;> simp only [sc_ok, sc_error, bind_ok, bind_error, pure_eq_ok, add_zero, mul_assoc]
  intP := fun c => by
    simp only [netIntegratedHeatingPower, grossIntegratedHeatingPower, heatingFanPower, thrifty, h]
    cases U.intPow ((some c).getD U.h1Full) <;> simp only [sc_ok, sc_error, bind_ok, bind_error, pure_eq_ok, add_zero]

/-- The heating unit of C50 without its fan. -/
def fanless : Performance (ℚ × ℚ) ℚ := { heatUnit with fanPower := fun _ => .ok 0 }

example : PowerScaled (9 / 10) fanless (thrifty (9 / 10) fanless) := thrifty_scaled (by norm_num) _ fun _ => rfl

/-- Cooling ratings of the pair: ten per cent less power, a ninth more SEER. -/
example : ∀ st cyc, (seer fanless toyPoints (Units.ofOnes ℚ) st (1 / 4) cyc coolingBins).isOk ∧
    seer (thrifty (9 / 10) fanless) toyPoints (Units.ofOnes ℚ) st (1 / 4) cyc coolingBins =
      sc (10 / 9) (seer fanless toyPoints (Units.ofOnes ℚ) st (1 / 4) cyc coolingBins) := by
  intro st cyc
  cases st <;> cases cyc <;> decide +kernel

/-- The hypotheses of the heating theorems for the pair. -/
theorem fanless_efficient (s : HeatSettings ℚ) : ∀ t ∈ heatingTemperatures, Efficient fanless toyPoints s t := by
  intro t ht _
  have h : ∀ t ∈ heatingTemperatures (K := ℚ), okTest (heatFull fanless toyPoints t) (fun r => decide (1 ≤ r.1 / r.2)) = true ∧
      okTest (heatLowTwo fanless toyPoints t) (fun r => decide (1 ≤ r.1 / r.2)) = true ∧ okTest (heatLowVar fanless toyPoints t) (fun r => decide (1 ≤ r.1 / r.2)) = true ∧
      okTest (heatIntermediate fanless toyPoints) (fun I => decide (1 ≤ (I.q + I.mQ * (t - frF 35)) / (I.p + I.mP * (t - frF 35)))) = true := by decide +kernel
  obtain ⟨h1, h2, h3, h4⟩ := h t ht
  obtain ⟨r1, e1, g1⟩ := okTest_iff.1 h1
  obtain ⟨r2, e2, g2⟩ := okTest_iff.1 h2
  obtain ⟨r3, e3, g3⟩ := okTest_iff.1 h3
  obtain ⟨r4, e4, g4⟩ := okTest_iff.1 h4
  refine ⟨fun r hr => ?_, ?_⟩
  · rw [e1, Except.ok.injEq] at hr; rw [← hr]; simpa using g1
  · split
    · trivial
    · intro r hr; rw [e2, Except.ok.injEq] at hr; rw [← hr]; simpa using g2
    · refine ⟨fun r hr => ?_, fun I hI => ?_⟩
      · rw [e3, Except.ok.injEq] at hr; rw [← hr]; simpa using g3
      · rw [e4, Except.ok.injEq] at hI; rw [← hI]; simpa using g4

theorem fanless_powers : ∀ t ∈ heatingTemperatures (K := ℚ), (∀ r, heatFull fanless toyPoints t = .ok r → 0 < r.2) ∧
    (∀ r, heatLowTwo fanless toyPoints t = .ok r → 0 < r.2) ∧ ∀ r, heatLowVar fanless toyPoints t = .ok r → 0 < r.2 := by
  intro t ht
  have h : ∀ t ∈ heatingTemperatures (K := ℚ), okTest (heatFull fanless toyPoints t) (fun r => decide (0 < r.2)) = true ∧
      okTest (heatLowTwo fanless toyPoints t) (fun r => decide (0 < r.2)) = true ∧ okTest (heatLowVar fanless toyPoints t) (fun r => decide (0 < r.2)) = true := by
    decide +kernel
  obtain ⟨h1, h2, h3⟩ := h t ht
  obtain ⟨r1, e1, g1⟩ := okTest_iff.1 h1
  obtain ⟨r2, e2, g2⟩ := okTest_iff.1 h2
  obtain ⟨r3, e3, g3⟩ := okTest_iff.1 h3
  refine ⟨fun r hr => ?_, fun r hr => ?_, fun r hr => ?_⟩
  · rw [e1, Except.ok.injEq] at hr; rw [← hr]; simpa using g1
  · rw [e2, Except.ok.injEq] at hr; rw [← hr]; simpa using g2
  · rw [e3, Except.ok.injEq] at hr; rw [← hr]; simpa using g3

/-- The heating ratings of the pair exist for every staging type. -/
example : ∀ st cyc, (hspf4 .ahri2023 fanless (heatSettings st cyc 0)).isOk = true := by
  intro st cyc
  cases st <;> cases cyc <;> decide +kernel

/-- A unit slightly worse than resistance heat at every condition. -/
def marginal : Performance (ℚ × ℚ) ℚ :=
  { fanless with heatCap := fun _ => .ok 30000, intCap := fun _ => .ok 30000, heatPow := fun _ => .ok 30100, intPow := fun _ => .ok 30100 }

/-- C121 is false of heating ratings in general: a unit slightly worse than resistance heat is not run at all; one that draws one per cent less at every condition
is, and its cycling losses make the rating lower. -/
theorem C121_hspf_refuted : ∃ v v', PowerScaled (99 / 100) marginal (thrifty (99 / 100) marginal) ∧
    hspf4 .ahri2023 marginal (heatSettings .single .lowFull 0) = .ok v ∧
    hspf4 .ahri2023 (thrifty (99 / 100) marginal) (heatSettings .single .lowFull 0) = .ok v' ∧ v' < v := by
  have h1 : okTest (hspf4 .ahri2023 marginal (heatSettings .single .lowFull 0)) (fun v => decide (v = 1)) = true := by decide +kernel
  have h2 : okTest (hspf4 .ahri2023 (thrifty (99 / 100) marginal) (heatSettings .single .lowFull 0)) (fun v => decide (v < 1)) = true := by decide +kernel
  obtain ⟨v, e1, g1⟩ := okTest_iff.1 h1
  obtain ⟨v', e2, g2⟩ := okTest_iff.1 h2
  simp only [decide_eq_true_eq] at g1 g2
  exact ⟨v, v', thrifty_scaled (by norm_num) _ fun _ => rfl, e1, e2, g1 ▸ g2⟩

/-- A two-stage unit with a very low first stage. -/
def farPoints : Points (ℚ × ℚ) := { toyPoints with bLow := some (4, frF 82), fLow := some (4, frF 67) }

/-- The unit of C46 that draws less power in the 95 °F test at full speed, and as much in every other condition. -/
def hotThrifty : Performance (ℚ × ℚ) ℚ := { toyUnit with coolPow := fun c => if c = farPoints.aFull then .ok (9 / 10 * (c.1 * (c.2 - 270))) else toyUnit.coolPow c }

/-- C121 is false of two-stage units when only some tests draw less power: the line through the 82 and 95 °F tests turns around the former, so the power assumed
in the mild bins rises. -/
theorem C121_two_stage_refuted : (∀ c, hotThrifty.netTotalCoolingCapacity (some c) = toyUnit.netTotalCoolingCapacity (some c)) ∧
    (∀ c p p', 0 ≤ p → toyUnit.netCoolingPower (some c) = .ok p → hotThrifty.netCoolingPower (some c) = .ok p' → p' ≤ p) ∧
    ∃ v v', seer toyUnit farPoints (Units.ofOnes ℚ) .two (1 / 4) .offFull coolingBins = .ok v ∧
      seer hotThrifty farPoints (Units.ofOnes ℚ) .two (1 / 4) .offFull coolingBins = .ok v' ∧ v' < v := by
  refine ⟨fun _ => rfl, fun c p p' _ h1 h2 => ?_, ?_⟩
  · by_cases hc : c = farPoints.aFull
    · subst hc
      have e1 : okTest (toyUnit.netCoolingPower (some farPoints.aFull)) (fun p => decide (3600 < p)) = true := by decide +kernel
      have e2 : okTest (hotThrifty.netCoolingPower (some farPoints.aFull)) (fun p => decide (p ≤ 3600)) = true := by decide +kernel
      rw [h1] at e1; rw [h2] at e2
      simp only [okTest, decide_eq_true_eq] at e1 e2
      linarith
    · have : hotThrifty.netCoolingPower (some c) = toyUnit.netCoolingPower (some c) := by
        simp only [netCoolingPower, grossCoolingPower, coolingFanPower, hotThrifty, Option.getD_some, hc, if_false]
      rw [this, h1, Except.ok.injEq] at h2
      exact h2.ge
  · have e1 : okTest (seer toyUnit farPoints (Units.ofOnes ℚ) .two (1 / 4) .offFull coolingBins) (fun v => decide (42431 / 10000 < v)) = true := by decide +kernel
    have e2 : okTest (seer hotThrifty farPoints (Units.ofOnes ℚ) .two (1 / 4) .offFull coolingBins) (fun v => decide (v < 4232 / 1000)) = true := by decide +kernel
    obtain ⟨v, e1, g1⟩ := okTest_iff.1 e1
    obtain ⟨v', e2, g2⟩ := okTest_iff.1 e2
    simp only [decide_eq_true_eq] at g1 g2
    exact ⟨v, v', e1, e2, by linarith⟩

/-- What the tests of a unit that draws a tenth less in both low-speed tests and both full-speed tests give. -/
def thriftyTests : CoolTests ℚ :=
  { toyTests with pA := toyTests.pA * 9 / 10, pB := toyTests.pB * 9 / 10, pBl := toyTests.pBl * 8 / 10, pFl := toyTests.pFl * 8 / 10, pE := toyTests.pE * 8 / 10 }

/-- The powers of that unit are lower in every bin, as `C121_two_stage_partial` and `C121_variable_speed_partial` assume. -/
example : ∀ b ∈ coolingBins (K := ℚ), 0 < thriftyTests.pLow (toF b.1) ∧ 0 < thriftyTests.pInt (toF b.1) ∧ 0 < thriftyTests.pFull (toF b.1) ∧
    thriftyTests.pLow (toF b.1) ≤ toyTests.pLow (toF b.1) ∧ thriftyTests.pInt (toF b.1) ≤ toyTests.pInt (toF b.1) ∧
    thriftyTests.pFull (toF b.1) ≤ toyTests.pFull (toF b.1) := by decide +kernel

/-- A unit with these tests. -/
def thriftyUnit : Performance (ℚ × ℚ) ℚ :=
  { toyUnit with coolPow := fun c => .ok (((c.1 * (c.2 - 270)) + 2) * (if c.1 = 100 then 9 / 10 else 8 / 10) - 2) }

example : CoolMatch thriftyUnit toyPoints thriftyTests ∧ CoolMatch.Int thriftyUnit toyPoints thriftyTests ∧ thriftyTests.pFull 87 - thriftyTests.pLow 87 ≠ 0 where
  left :=
    { qA := by decide +kernel
      pA := by decide +kernel
      qB := by decide +kernel
      pB := by decide +kernel
      dbA := rfl
      dbB := rfl
      low := ⟨(40, frF 82), (40, frF 67), rfl, rfl, by decide +kernel⟩ }
  right := ⟨⟨(60, frF 87), rfl, by decide +kernel⟩, by decide +kernel⟩

/-- `C121_hspf_two_stage` applied to the pair. -/
example (cyc : Cycling) (d : HeatDist ℚ) (hd : ∀ n ∈ d.hours, 0 ≤ n) (v : ℚ)
    (hv : hspfWith fanless toyPoints (Units.ofOnes ℚ) .ahri2023 (heatSettings .two cyc 0) d (.ok 1) = .ok v) :
    ∃ v', hspfWith (thrifty (9 / 10) fanless) toyPoints (Units.ofOnes ℚ) .ahri2023 (heatSettings .two cyc 0) d (.ok 1) = .ok v' ∧ v ≤ v' ∧ 9 / 10 * v' ≤ v :=
  C121_hspf_two_stage (by norm_num) (by norm_num) (thrifty_scaled (by norm_num) _ fun _ => rfl) rfl (by norm_num [heatSettings]) (by norm_num [heatSettings]) hd
    zero_le_one (fun t ht => (fanless_powers t ht).1) (fun t ht => (fanless_powers t ht).2.1) (fanless_efficient _) hv

/-- `C121_hspf_single` applied to the pair. -/
example (cyc : Cycling) (d : HeatDist ℚ) (hd : ∀ n ∈ d.hours, 0 ≤ n) (v : ℚ)
    (hv : hspfWith fanless toyPoints (Units.ofOnes ℚ) .ahri2017 (heatSettings .single cyc 0) d (.ok 1) = .ok v) :
    ∃ v', hspfWith (thrifty (9 / 10) fanless) toyPoints (Units.ofOnes ℚ) .ahri2017 (heatSettings .single cyc 0) d (.ok 1) = .ok v' ∧ v ≤ v' ∧ 9 / 10 * v' ≤ v :=
  C121_hspf_single (by norm_num) (by norm_num) (thrifty_scaled (by norm_num) _ fun _ => rfl) rfl (by norm_num [heatSettings]) (by norm_num [heatSettings]) hd
    zero_le_one (fun t ht => (fanless_powers t ht).1) (fanless_efficient _) hv

/-- The further hypothesis of `C121_hspf_variable_speed` for a unit that does not frost, in region 4. -/
def dryUnit : Performance (ℚ × ℚ) ℚ := { fanless with intCap := fanless.heatCap, intPow := fanless.heatPow }

example : ∃ d load, regional .ahri2023 4 = .ok d ∧ heatingLoad dryUnit toyPoints (Units.ofOnes ℚ) .varSpeed .ahri2023 d = .ok load ∧
    ∀ t ∈ heatingTemperatures, ∃ bl rF q' p', load t = .ok bl ∧ heatFull dryUnit toyPoints t = .ok rF ∧
      interpolate dryUnit.db (sCap dryUnit) toyPoints.h4Full toyPoints.h3Full t = .ok q' ∧
      interpolate dryUnit.db (sPow dryUnit) toyPoints.h4Full toyPoints.h3Full t = .ok p' ∧ (rF.1 ≤ bl → 0 ≤ p' ∧ q' ≤ bl) := by
  have key : okTest (regional (K := ℚ) .ahri2023 4) (fun d => okTest (heatingLoad dryUnit toyPoints (Units.ofOnes ℚ) .varSpeed .ahri2023 d) fun load =>
      heatingTemperatures.all fun t => okTest (load t) (fun bl => okTest (heatFull dryUnit toyPoints t) fun rF =>
        okTest (interpolate dryUnit.db (sCap dryUnit) toyPoints.h4Full toyPoints.h3Full t) fun q' =>
        okTest (interpolate dryUnit.db (sPow dryUnit) toyPoints.h4Full toyPoints.h3Full t) fun p' => decide (rF.1 ≤ bl → 0 ≤ p' ∧ q' ≤ bl))) = true := by
    decide +kernel
  obtain ⟨d, e1, g1⟩ := okTest_iff.1 key
  obtain ⟨load, e2, g2⟩ := okTest_iff.1 g1
  refine ⟨d, load, e1, e2, fun t ht => ?_⟩
  have g3 := List.all_eq_true.1 g2 t ht
  obtain ⟨bl, e3, g3⟩ := okTest_iff.1 g3
  obtain ⟨rF, e4, g4⟩ := okTest_iff.1 g3
  obtain ⟨q', e5, g5⟩ := okTest_iff.1 g4
  obtain ⟨p', e6, g6⟩ := okTest_iff.1 g5
  exact ⟨bl, rF, q', p', e3, e4, e5, e6, of_decide_eq_true g6⟩

end Resdx.DX
