import Verif.Props.SeasonTwo

/-!
# C96: the HSPF2 of two-stage units as a function of the COP, C67: two-stage units with requested SEER2 and HSPF2
-/

set_option linter.unusedSectionVars false
set_option linter.unusedSimpArgs false

namespace Resdx.Build

open Spec Tabular BaseModel Props ResnetFan Fan Table DX

variable {u : Units ℝ} {E : Env ℝ} {T : Coil.Tools} {brentq : Brentq} {a : Args} {B : Built}

/-- The power of the high stage has a part proportional to the reciprocal of the COP and a part due to the fan. -/
theorem high_split (b : Bool) (q h κ e v t : ℝ) : (highTests b q h κ e v).p t = (highTests b q h 1 0 0).p t * (1 / κ) + (highTests b 0 0 1 e v).p t := by
  unfold HeatTests.p lineAt highTests
  simp only [frosted]
  rw [show q / κ = q * (1 / κ) by ring, show h / κ = h * (1 / κ) by ring]
  generalize 1 / κ = k
  split
  · ring
  · cases b <;> simp only [if_true, if_false, Bool.false_eq_true] <;> ring

/-- So has that of the low stage. -/
theorem low_split (b : Bool) (q h κ w t : ℝ) : (lowTests b q h κ w).p t = (lowTests b q h 1 0).p t * (1 / κ) + (lowTests b 0 0 1 w).p t := by
  unfold HeatLowTests.p lineAt lowTests
  simp only [frosted]
  rw [show q / κ = q * (1 / κ) by ring, show h / κ = h * (1 / κ) by ring]
  generalize 1 / κ = k
  split
  · ring
  · split
    · ring
    · cases b <;> simp only [if_true, if_false, Bool.false_eq_true] <;> ring

theorem high_fan {b : Bool} {e v : ℝ} (he : 0 ≤ e) (hv : 0 ≤ v) : ∀ t ∈ (seasonTemperatures : List ℝ), 0 ≤ (highTests b 0 0 1 e v).p t := by
  simp only [seasonTemperatures, List.forall_mem_cons, List.not_mem_nil, false_imp_iff, implies_true, and_true]
  unfold HeatTests.p lineAt highTests
  simp only [frosted]
  norm_num
  cases b <;> simp only [if_true, if_false, Bool.false_eq_true] <;> refine_lift ?_ <;> (repeat' constructor) <;> linarith

theorem low_fan {b : Bool} {w : ℝ} (hw : 0 ≤ w) : ∀ t ∈ (seasonTemperatures : List ℝ), 0 ≤ (lowTests b 0 0 1 w).p t := by
  simp only [seasonTemperatures, List.forall_mem_cons, List.not_mem_nil, false_imp_iff, implies_true, and_true]
  unfold HeatLowTests.p lineAt lowTests
  simp only [frosted]
  norm_num
  cases b <;> simp only [if_true, if_false, Bool.false_eq_true] <;> norm_num <;> (repeat' constructor) <;> linarith

/-- What a two-stage unit draws. -/
theorem two_rate_pos {cd qL pL qF pF l : ℝ} (h0 : 0 ≤ cd) (h1 : cd < 1) (hq : 0 < qL) (hl : 0 ≤ l) : (0 ≤ pL → 0 ≤ pF → 0 ≤ twoStageRate cd true qL pL qF pF l) ∧
    (0 < pL → 0 < pF → 0 < l → 0 < twoStageRate cd true qL pL qF pF l) := by
  unfold twoStageRate
  split
  · rename_i h
    have h3 : l / qL ≤ 1 := (div_le_one hq).2 h
    have h2 : 0 ≤ l / qL := div_nonneg hl hq.le
    have h4 : 0 < 1 - cd * (1 - l / qL) := by nlinarith
    unfold cyclingRate
    exact ⟨fun hp _ => div_nonneg (mul_nonneg h2 hp) h4.le, fun hp _ hl => div_pos (mul_pos (div_pos hl hq) hp) h4⟩
  · rename_i h
    split
    · rename_i h2
      rw [if_pos rfl]
      have h1' := not_le.1 h
      have hs : 0 < (l - qL) / (qF - qL) := div_pos (by linarith) (by linarith)
      have hs1 : (l - qL) / (qF - qL) < 1 := (div_lt_one (by linarith)).2 (by linarith)
      unfold lineAt
      generalize (l - qL) / (qF - qL) = s at *
      refine ⟨fun hp hp' => ?_, fun hp hp' _ => ?_⟩
      · nlinarith [mul_nonneg hs.le hp', mul_nonneg (sub_pos.2 hs1).le hp]
      · nlinarith [mul_pos hs hp', mul_pos (sub_pos.2 hs1) hp]
    · exact ⟨fun _ hp => hp, fun _ hp _ => hp⟩

/-- The season of two-stage units with the same ratings but the COP: the energy used is affine in the reciprocal of the COP. -/
theorem two_season_affine {b : Bool} {q h e v w cd off : ℝ} {load : ℝ → ℝ} {hours : List ℝ} (hq : 0 < q) (h1 : 0.6 * q ≤ h) (h2 : h ≤ q) (he : 0 ≤ e) (hv : e ≤ v) (hw : 0 ≤ w) (hcd : 0 ≤ cd) (hcd1 : cd < 1)
    (hoff : 0 ≤ off) (hoff5 : off < 5) (hn : ∀ n ∈ hours, 0 ≤ n) (hl : ∀ t, 0 ≤ load t) (h52 : ∃ n, ((52 : ℝ), n) ∈ seasonTemperatures.zip hours ∧ 0 < n) (hl52 : 0 < load 52) :
    ∃ α β : ℝ, 0 < α ∧ 0 ≤ β ∧ ∀ κ : ℝ, 2.1 ≤ κ → (highTests b q h κ e v).twoStageSeason (lowTests b q h κ w) cd off load (seasonTemperatures.zip hours) = 1 / (α / κ + β) := by
  have hv0 : 0 ≤ v := he.trans hv
  set bins := (seasonTemperatures : List ℝ).zip hours with hbins
  set qF : ℝ → ℝ := (highTests b q h 1 e v).q with hqF
  set qL : ℝ → ℝ := (lowTests b q h 1 w).q with hqL
  set run : ℝ → ℝ := fun t => if load t < qF t ∨ load t ≤ qL t then 1 else if t ≤ off then 0 else 1 with hrun
  set S := CoolTests.total load bins with hS
  set e1 := CoolTests.total (fun t => run t * twoStageRate cd true (qL t) ((lowTests b q h 1 0).p t) (qF t) ((highTests b q h 1 0 0).p t) (load t)) bins with he1
  set e0 := CoolTests.total (fun t => run t * twoStageRate cd true (qL t) ((lowTests b 0 0 1 w).p t) (qF t) ((highTests b 0 0 1 e v).p t) (load t)) bins with he0
  set res := CoolTests.total (fun t => load t - run t * (if load t ≤ qL t then load t else min (load t) (qF t))) bins with hres
  have hmem : ∀ x ∈ bins, x.1 ∈ (seasonTemperatures : List ℝ) ∧ 0 ≤ x.2 := fun x hx => ⟨(List.of_mem_zip hx).1, hn _ (List.of_mem_zip hx).2⟩
  have hrun0 : ∀ t, 0 ≤ run t ∧ run t ≤ 1 := fun t => by
    simp only [hrun]
    split
    · norm_num
    · split <;> norm_num
  have hcap : ∀ t ∈ (seasonTemperatures : List ℝ), 0 < qL t := low_capacity hq h1 hw
  have hpH : ∀ t ∈ (seasonTemperatures : List ℝ), 0 < (highTests b q h 1 0 0).p t := high_pos hq h1 h2 one_pos le_rfl le_rfl
  have hpL : ∀ t ∈ (seasonTemperatures : List ℝ), 0 < (lowTests b q h 1 0).p t := low_pos hq h1 h2 one_pos le_rfl
  have hSpos : 0 < S := by
    obtain ⟨n, hb, hn0⟩ := h52
    exact total_pos (fun x hx => ⟨hl _, (hmem x hx).2⟩) hb hl52 hn0
  have he1pos : 0 < e1 := by
    obtain ⟨n, hb, hn0⟩ := h52
    refine total_pos (fun x hx => ⟨mul_nonneg (hrun0 _).1 ((two_rate_pos hcd hcd1 (hcap _ (hmem x hx).1) (hl _)).1 (hpL _ (hmem x hx).1).le (hpH _ (hmem x hx).1).le), (hmem x hx).2⟩) hb ?_ hn0
    have : run 52 = 1 := by
      simp only [hrun]
      split
      · rfl
      · rw [if_neg (by linarith)]
    show 0 < run 52 * _
    rw [this, one_mul]
    exact (two_rate_pos hcd hcd1 (hcap _ (hmem _ hb).1) (hl _)).2 (hpL _ (hmem _ hb).1) (hpH _ (hmem _ hb).1) hl52
  have he0pos : 0 ≤ e0 := total_nonneg fun x hx =>
    ⟨mul_nonneg (hrun0 _).1 ((two_rate_pos hcd hcd1 (hcap _ (hmem x hx).1) (hl _)).1 (low_fan hw _ (hmem x hx).1) (high_fan he hv0 _ (hmem x hx).1)), (hmem x hx).2⟩
  have hrespos : 0 ≤ res := total_nonneg fun x hx => ⟨by
    show 0 ≤ load x.1 - run x.1 * (if load x.1 ≤ qL x.1 then load x.1 else min (load x.1) (qF x.1))
    have hm : (if load x.1 ≤ qL x.1 then load x.1 else min (load x.1) (qF x.1)) ≤ load x.1 := by
      split
      · exact le_rfl
      · exact min_le_left _ _
    simp only [hrun]
    split
    · rw [one_mul]; linarith
    · split
      · rw [zero_mul]; linarith [hl x.1]
      · rw [one_mul]; linarith, (hmem x hx).2⟩
  refine ⟨e1 / S, (e0 + res) / S, div_pos he1pos hSpos, div_nonneg (by linarith) hSpos.le, fun κ hκ => ?_⟩
  have hκ0 : 0 < κ := by linarith
  have hqF' : (highTests b q h κ e v).q = qF := rfl
  have hqL' : (lowTests b q h κ w).q = qL := rfl
  have hrunF : ∀ t ∈ (seasonTemperatures : List ℝ), (highTests b q h κ e v).twoStageRun (lowTests b q h κ w) off load t = run t := by
    intro t ht
    unfold HeatTests.twoStageRun
    rw [hqF', hqL']
    simp only [hrun]
    by_cases hc : load t < qF t ∨ load t ≤ qL t
    · rw [if_pos hc, if_pos hc]
    · rw [if_neg hc, if_neg hc]
      unfold runFraction
      by_cases hto : t ≤ off
      · rw [if_pos (.inl hto), if_pos hto]
      · have hto' := not_le.1 hto
        have hp := high_delivers (b := b) hq h1 h2 hκ he hv t ht (by linarith)
        have hp0 := high_pos (b := b) hq h1 h2 hκ0 he hv0 t ht
        rw [if_neg hto, if_neg (by push Not; exact ⟨hto', (one_le_div hp0).2 hp⟩), if_pos hto']
  have hE : CoolTests.total ((highTests b q h κ e v).twoStageEnergy (lowTests b q h κ w) cd off load) bins = e1 * (1 / κ) + e0 := by
    rw [he1, he0, ← total_mul, ← total_add]
    refine total_congr fun x hx => ?_
    unfold HeatTests.twoStageEnergy
    rw [hrunF _ (hmem x hx).1, hqF', hqL', high_split, low_split b q h κ w]
    rw [twoStageRate_linear, twoStageRate_linear cd _ ((lowTests b q h 1 0).p x.1), twoStageRate_linear cd _ ((lowTests b 0 0 1 w).p x.1)]
    ring
  have hR : CoolTests.total ((highTests b q h κ e v).twoStageResistance (lowTests b q h κ w) off load) bins = res := by
    refine total_congr fun x hx => ?_
    unfold HeatTests.twoStageResistance
    rw [hrunF _ (hmem x hx).1, hqF', hqL']
  unfold HeatTests.twoStageSeason seasonRatio
  rw [hE, hR, ← hS]
  have : 0 < e1 * (1 / κ) := mul_pos he1pos (one_div_pos.2 hκ0)
  field_simp
  ring

/-- C96, the HSPF2 and the rated COP of two-stage units: for units with the same other heating ratings, whatever their SEER2, low-stage cooling COP and HSPF2 arguments, the reciprocal of the HSPF2 is affine in the reciprocal of
the COP at 47 °F between 2.1 and 4.3, with a positive slope. -/
theorem C96_two_cop {q95 eer2 : ℝ} (H : UsualTwoStage u a q95 eer2) (hS : TwoStageSeason u E a q95) (h : Surroundings u E T brentq a .two [q95, q95 * 0.728]) {r : Nat} {design z cx cv : ℝ} {hours : List ℝ} {f : ℝ}
    (hr : regionData .ahri2023 r = some (design, hours, some (cx, cv, z))) (hf : a.defrost.demandCredit u = .ok f) (hf0 : 0 < f) :
    ∃ α β : ℝ, 0 < α ∧ 0 ≤ β ∧ ∀ (κ κ82 : ℝ) (hspf : Option ℝ), 2.1 ≤ κ → κ ≤ 4.3 → 0 < κ82 → κ82 ≤ 8 →
      ∃ B, build u E T brentq { a with netHeatingCop := some κ, cop82 := some κ82, hspf := hspf } = .ok B ∧ B.core.st = .two ∧ B.hspf u E T brentq r = .ok (1 / (α / κ + β)) := by
  obtain ⟨r1, r2, -, r4, r5, r6, -⟩ := region_2023 hr
  have hpos := H.heating.rated
  have h95 := H.size
  obtain ⟨w0, w1, w2, w3⟩ := two_fans_bounds (a.motorPSC.getD false) a.ducted H.usual hpos H.smaller H.larger
  obtain ⟨α, β, hα, hβ, key⟩ := two_season_affine (b := a.defrost.inDefrost (frF 35)) (load := heatBuildingLoad z design (cx * q95)) (cd := cd a.cdHeating) (off := toF (lowestTemperature a .two)) hpos hS.cold hS.cold_le
    (sub_nonneg.2 w1) (sub_le_self _ w0.le) w3.le hS.cd.1 hS.cd.2 (by have := toF_le.2 H.heating.above; rwa [toF_frF] at this) (by have := toF_lt.2 H.heating.below; rwa [toF_frF] at this) r4
    (fun t => heatBuildingLoad_nonneg r1 (mul_pos r2 h95).le) r5 (heatBuildingLoad_pos r1 (mul_pos r2 h95) r6)
  have hb := u.btuh_pos
  refine ⟨α * (u.btuh / f), β * (u.btuh / f), mul_pos hα (div_pos hb hf0), mul_nonneg hβ (div_pos hb hf0).le, fun κ κ82 hspf k1 k2 c1 c2 => ?_⟩
  have H' : UsualTwoStage u { a with netHeatingCop := some κ, cop82 := some κ82, hspf := hspf } q95 eer2 :=
    { H with seer := .inl rfl, low := c1, low_le := c2, hspf := .inl rfl, heating := { H.heating with cop_pos := by show 0 < κ; linarith, cop_le := k2 } }
  have hS' : TwoStageSeason u E { a with netHeatingCop := some κ, cop82 := some κ82, hspf := hspf } q95 := { hS with cop := k1 }
  obtain ⟨B, hB, hst', hH⟩ := C96_two_ratings H' hS' (T := T) (brentq := brentq) ⟨h.airflows, h.charge, h.root, h.indoor, h.outdoor, h.coil, h.cops.1, .inl rfl⟩
  refine ⟨B, hB, hst', ?_⟩
  rw [hH hr hf]
  refine (congrArg (fun x : ℝ => (Except.ok (x * f / u.btuh) : Py ℝ)) (key κ k1)).trans ?_
  have hκ0 : 0 < κ := by linarith
  have : 0 < α / κ + β := by have := div_pos hα hκ0; linarith
  congr 1
  have e : α * (u.btuh / f) / κ + β * (u.btuh / f) = (α / κ + β) * (u.btuh / f) := by ring
  rw [e]
  generalize α / κ + β = x at *
  field_simp

/-- No stage has a COP of more than 1.25 times the rated one in the season. -/
theorem high_limit {b : Bool} {q h κ e v : ℝ} (hq : 0 < q) (h1 : 0.6 * q ≤ h) (h2 : h ≤ q) (hκ : 2.1 ≤ κ) (he : 0 ≤ e) (hv : e ≤ v) (hv1 : v ≤ 0.1 * q) :
    ∀ t ∈ (seasonTemperatures : List ℝ), (highTests b q h κ e v).q t * (1 / κ) ≤ 1.25 * (highTests b q h κ e v).p t := by
  have k0 : 0 < 1 / κ := one_div_pos.2 (by linarith)
  have k1 : 1 / κ ≤ 0.4763 := by rw [div_le_iff₀ (by linarith)]; linarith
  have eq : q / κ = q * (1 / κ) := by ring
  have eh : h / κ = h * (1 / κ) := by ring
  simp only [seasonTemperatures, List.forall_mem_cons, List.not_mem_nil, false_imp_iff, implies_true, and_true]
  unfold HeatTests.p HeatTests.q lineAt highTests
  rw [eq, eh]
  generalize 1 / κ = k at *
  have m1 := mul_nonneg (sub_nonneg.2 h1) k0.le
  have m2 := mul_nonneg (sub_nonneg.2 h2) k0.le
  have m3 := mul_pos hq k0
  have m4 := mul_nonneg he (sub_nonneg.2 k1)
  have m5 := mul_nonneg (sub_nonneg.2 hv) k0.le
  have m6 := mul_nonneg (sub_nonneg.2 hv1) k0.le
  have m7 := mul_nonneg he k0.le
  simp only [frosted, input17]
  norm_num
  cases b <;> simp only [if_true, if_false, Bool.false_eq_true] <;> (repeat' constructor) <;> ring_nf at * <;> linarith

theorem low_limit {b : Bool} {q h κ w : ℝ} (hq : 0 < q) (h1 : 0.6 * q ≤ h) (h2 : h ≤ q) (hκ : 2.1 ≤ κ) (hw : 0 ≤ w) (hw1 : w ≤ 0.1 * q) :
    ∀ t ∈ (seasonTemperatures : List ℝ), (lowTests b q h κ w).q t * (1 / κ) ≤ 1.25 * (lowTests b q h κ w).p t := by
  have k0 : 0 < 1 / κ := one_div_pos.2 (by linarith)
  have k1 : 1 / κ ≤ 0.4763 := by rw [div_le_iff₀ (by linarith)]; linarith
  have eq : q / κ = q * (1 / κ) := by ring
  have eh : h / κ = h * (1 / κ) := by ring
  simp only [seasonTemperatures, List.forall_mem_cons, List.not_mem_nil, false_imp_iff, implies_true, and_true]
  unfold HeatLowTests.p HeatLowTests.q lineAt lowTests
  rw [eq, eh]
  generalize 1 / κ = k at *
  have m1 := mul_nonneg (sub_nonneg.2 h1) k0.le
  have m2 := mul_nonneg (sub_nonneg.2 h2) k0.le
  have m3 := mul_pos hq k0
  have m6 := mul_nonneg (sub_nonneg.2 hw1) k0.le
  have m7 := mul_nonneg hw k0.le
  simp only [frosted, input17]
  norm_num
  cases b <;> simp only [if_true, if_false, Bool.false_eq_true] <;> (repeat' constructor) <;> ring_nf at * <;> linarith

/-- A unit whose stages have a COP of at most `c` has a seasonal COP of at most `c`. -/
theorem two_season_le {T : HeatTests ℝ} {TL : HeatLowTests ℝ} {cd off c : ℝ} {load : ℝ → ℝ} {bins : List (ℝ × ℝ)} (hc : 1 ≤ c) (hcd : 0 ≤ cd) (hcd1 : cd < 1) (hl : ∀ t, 0 ≤ load t) (hn : ∀ x ∈ bins, 0 ≤ x.2)
    (h0 : ∀ x ∈ bins, 0 < TL.q x.1) (hp : ∀ x ∈ bins, 0 < TL.p x.1) (hL : ∀ x ∈ bins, TL.q x.1 ≤ c * TL.p x.1) (hF : ∀ x ∈ bins, T.q x.1 ≤ c * T.p x.1) (hrun : ∀ x ∈ bins, 0 < T.p x.1)
    (hpos : 0 < CoolTests.total load bins) : T.twoStageSeason TL cd off load bins ≤ c := by
  have key : CoolTests.total (fun t => load t * (1 / c)) bins ≤ CoolTests.total (fun t => T.twoStageEnergy TL cd off load t + T.twoStageResistance TL off load t) bins := by
    refine total_le fun x hx => mul_le_mul_of_nonneg_right ?_ (hn x hx)
    have hl0 := hl x.1
    have c0 : 0 < c := by linarith
    have hcl : load x.1 * (1 / c) ≤ load x.1 := by rw [mul_one_div, div_le_iff₀ c0]; nlinarith
    have hr : 0 ≤ T.twoStageRun TL off load x.1 ∧ T.twoStageRun TL off load x.1 ≤ 1 := by
      unfold HeatTests.twoStageRun runFraction
      split
      · norm_num
      · split
        · norm_num
        · split <;> norm_num
    unfold HeatTests.twoStageEnergy HeatTests.twoStageResistance
    generalize T.twoStageRun TL off load x.1 = ρ at *
    suffices hd : (if load x.1 ≤ TL.q x.1 then load x.1 else min (load x.1) (T.q x.1)) * (1 / c) ≤ twoStageRate cd true (TL.q x.1) (TL.p x.1) (T.q x.1) (T.p x.1) (load x.1) ∧
        (if load x.1 ≤ TL.q x.1 then load x.1 else min (load x.1) (T.q x.1)) ≤ load x.1 by
      obtain ⟨d1, d2⟩ := hd
      generalize (if load x.1 ≤ TL.q x.1 then load x.1 else min (load x.1) (T.q x.1)) = d at *
      have hk : 1 / c ≤ 1 := by rw [div_le_one c0]; exact hc
      have hk0 : 0 < 1 / c := one_div_pos.2 c0
      generalize 1 / c = k at *
      have a1 := mul_le_mul_of_nonneg_left d1 hr.1
      have a2 : 0 ≤ (load x.1 - ρ * d) * (1 - k) := by
        refine mul_nonneg ?_ (by linarith)
        rcases le_or_gt 0 d with hd0 | hd0
        · nlinarith
        · nlinarith
      nlinarith
    have hLx := hL x hx
    have hFx := hF x hx
    have hqx := h0 x hx
    have hpx := hp x hx
    have hpF := hrun x hx
    generalize TL.q x.1 = qL, TL.p x.1 = pL, T.q x.1 = qF, T.p x.1 = pF, load x.1 = l at *
    unfold twoStageRate
    split
    · rename_i hle
      refine ⟨?_, le_rfl⟩
      unfold cyclingRate
      have h3 : l / qL ≤ 1 := (div_le_one hqx).2 hle
      have h2 : 0 ≤ l / qL := div_nonneg hl0 hqx.le
      have h4 : 0 < 1 - cd * (1 - l / qL) := by nlinarith
      have h5 : 1 - cd * (1 - l / qL) ≤ 1 := by nlinarith
      have h6 : l * (1 / c) ≤ l / qL * pL := by
        rw [mul_one_div, div_mul_eq_mul_div, div_le_div_iff₀ c0 hqx]
        nlinarith
      rw [le_div_iff₀ h4]
      have : 0 ≤ l * (1 / c) := mul_nonneg hl0 (one_div_pos.2 c0).le
      nlinarith
    · rename_i hle
      refine ⟨?_, min_le_left _ _⟩
      split
      · rename_i hlt
        rw [if_pos rfl, min_eq_left hlt.le]
        unfold lineAt
        have hgt := not_le.1 hle
        have hd : 0 < qF - qL := by linarith
        have hs : (l - qL) / (qF - qL) * (qF - qL) = l - qL := div_mul_cancel₀ _ hd.ne'
        have hs0 : 0 < (l - qL) / (qF - qL) := div_pos (by linarith) hd
        have hs1 : (l - qL) / (qF - qL) < 1 := (div_lt_one hd).2 (by linarith)
        rw [mul_one_div, div_le_iff₀ c0]
        generalize (l - qL) / (qF - qL) = s at *
        nlinarith [mul_le_mul_of_nonneg_left hFx hs0.le, mul_le_mul_of_nonneg_left hLx (sub_pos.2 hs1).le]
      · rename_i hge
        rw [min_eq_right (not_lt.1 hge), mul_one_div, div_le_iff₀ c0]
        linarith
  rw [total_mul, total_add] at key
  unfold HeatTests.twoStageSeason seasonRatio
  have c0 : 0 < c := by linarith
  rw [mul_one_div, div_le_iff₀ c0] at key
  have : 0 < CoolTests.total (T.twoStageEnergy TL cd off load) bins + CoolTests.total (T.twoStageResistance TL off load) bins := by
    by_contra hn
    nlinarith
  rw [div_le_iff₀ this]
  linarith

/-- The fan of the low stage draws less than a tenth of the capacity of the unit. -/
theorem two_fans_low {q95 q47 : ℝ} (psc ducted : Bool) (hu : UsualUnits u) (hq : 0 < q47) (hle : q47 ≤ q95) (hge : q95 ^ 2 ≤ 3 * q47 ^ 2) :
    unitFan psc u.ton q95 (q47 * 0.712) (if ducted then (q95 / q47) ^ 2 else 0) ≤ 0.1 * q47 := by
  have e3 : (q95 / q47) ^ 2 ≤ 3 := by rw [div_pow, div_le_iff₀ (by positivity)]; exact hge
  have := (unitFan_bounds (psc := psc) hu (show 0 < q47 * 0.712 by positivity) (show q47 * 0.712 ≤ q95 by linarith) (show 0 ≤ if ducted then (q95 / q47) ^ 2 else 0 by split <;> positivity)
    (by split <;> linarith)).2
  linarith

/-- C96: the seasonal COP of a two-stage unit, that is its HSPF2 in W/W before the demand-defrost credit, is at most 1.25 times its COP at 47 °F. -/
theorem C96_two_bound {q95 eer2 : ℝ} (H : UsualTwoStage u a q95 eer2) (hS : TwoStageSeason u E a q95) (h : Surroundings u E T brentq a .two [q95, q95 * 0.728]) (hB : build u E T brentq a = .ok B) {r : Nat}
    {design z cx cv : ℝ} {hours : List ℝ} {f : ℝ} (hr : regionData .ahri2023 r = some (design, hours, some (cx, cv, z))) (hf : a.defrost.demandCredit u = .ok f) (hf0 : 0 < f) :
    ∃ v, B.hspf u E T brentq r = .ok v ∧ v * u.btuh ≤ 1.25 * heatingCop (a.hspf.getD 0) a.netHeatingCop * f := by
  obtain ⟨B', hB', -, hH⟩ := C96_two_ratings H hS h
  obtain rfl : B' = B := by simpa using hB'.symm.trans hB
  refine ⟨_, hH hr hf, ?_⟩
  have hb := u.btuh_pos
  rw [div_mul_cancel₀ _ hb.ne']
  refine mul_le_mul_of_nonneg_right ?_ hf0.le
  obtain ⟨r1, r2, -, r4, r5, r6, -⟩ := region_2023 hr
  have hpos := H.heating.rated
  have h95 := H.size
  have hκ := hS.cop
  obtain ⟨w0, w1, w2, w3⟩ := two_fans_bounds (a.motorPSC.getD false) a.ducted H.usual hpos H.smaller H.larger
  have w4 := two_fans_low (a.motorPSC.getD false) a.ducted H.usual hpos H.smaller H.larger
  have hκ0 : 0 < heatingCop (a.hspf.getD 0) a.netHeatingCop := by linarith
  have conv : ∀ {x y : ℝ}, x * (1 / heatingCop (a.hspf.getD 0) a.netHeatingCop) ≤ 1.25 * y → x ≤ 1.25 * heatingCop (a.hspf.getD 0) a.netHeatingCop * y := fun {x y} hx => by
    rw [mul_one_div, div_le_iff₀ hκ0] at hx
    linarith
  have hmem : ∀ x ∈ (seasonTemperatures : List ℝ).zip hours, x.1 ∈ (seasonTemperatures : List ℝ) ∧ 0 ≤ x.2 := fun x hx => ⟨(List.of_mem_zip hx).1, r4 _ (List.of_mem_zip hx).2⟩
  refine two_season_le (by linarith) hS.cd.1 hS.cd.2 (fun t => heatBuildingLoad_nonneg r1 (mul_pos r2 h95).le) (fun x hx => (hmem x hx).2) (fun x hx => low_capacity hpos hS.cold w3.le _ (hmem x hx).1)
    (fun x hx => low_pos hpos hS.cold hS.cold_le hκ0 w3.le _ (hmem x hx).1) (fun x hx => conv (low_limit hpos hS.cold hS.cold_le hκ w3.le w4 _ (hmem x hx).1))
    (fun x hx => conv (high_limit hpos hS.cold hS.cold_le hκ (sub_nonneg.2 w1) (sub_le_self _ w0.le) (by linarith) _ (hmem x hx).1))
    (fun x hx => high_pos hpos hS.cold hS.cold_le hκ0 (sub_nonneg.2 w1) (w0.le.trans w1) _ (hmem x hx).1) ?_
  obtain ⟨n, hb, hn0⟩ := r5
  exact total_pos (fun x hx => ⟨heatBuildingLoad_nonneg r1 (mul_pos r2 h95).le, (hmem x hx).2⟩) hb (heatBuildingLoad_pos r1 (mul_pos r2 h95) r6) hn0

/-- C96: of two-stage units with the same other ratings, the one with the larger COP has the larger HSPF2. -/
theorem C96_two_increasing {q95 eer2 : ℝ} (H : UsualTwoStage u a q95 eer2) (hS : TwoStageSeason u E a q95) (h : Surroundings u E T brentq a .two [q95, q95 * 0.728]) {r : Nat} {design z cx cv : ℝ} {hours : List ℝ} {f : ℝ}
    (hr : regionData .ahri2023 r = some (design, hours, some (cx, cv, z))) (hf : a.defrost.demandCredit u = .ok f) (hf0 : 0 < f) {κ κ' : ℝ} (k1 : 2.1 ≤ κ) (k2 : κ < κ') (k3 : κ' ≤ 4.3) {κ82 κ82' : ℝ}
    (c1 : 0 < κ82 ∧ κ82 ≤ 8) (c2 : 0 < κ82' ∧ κ82' ≤ 8) {B B' : Built} (hB : build u E T brentq { a with netHeatingCop := some κ, cop82 := some κ82 } = .ok B)
    (hB' : build u E T brentq { a with netHeatingCop := some κ', cop82 := some κ82' } = .ok B') :
    ∃ v v', B.hspf u E T brentq r = .ok v ∧ B'.hspf u E T brentq r = .ok v' ∧ 0 < v ∧ v < v' := by
  obtain ⟨α, β, hα, hβ, key⟩ := C96_two_cop H hS h hr hf hf0
  obtain ⟨C, hC, -, e⟩ := key κ κ82 a.hspf k1 (k2.le.trans k3) c1.1 c1.2
  obtain ⟨C', hC', -, e'⟩ := key κ' κ82' a.hspf (k1.trans k2.le) k3 c2.1 c2.2
  have hκ : 0 < κ := by linarith
  obtain rfl : C = B := by simpa using hC.symm.trans hB
  obtain rfl : C' = B' := by simpa using hC'.symm.trans hB'
  exact ⟨_, _, e, e', one_div_pos.2 (by have := div_pos hα hκ; linarith), affine_lt hα hβ hκ k2⟩

/-- One value of an affine function of the reciprocal. -/
theorem affine_root {α β lo hi target : ℝ} (hα : 0 < α) (hβ : 0 ≤ β) (hlo : 0 < lo) (hlt : lo < hi) (t1 : 1 / (α / lo + β) ≤ target) (t2 : target ≤ 1 / (α / hi + β)) :
    ∃! κ, (lo ≤ κ ∧ κ ≤ hi) ∧ 1 / (α / κ + β) = target := by
  have hhi := hlo.trans hlt
  have p5 : 0 < α / hi + β := by have := div_pos hα hhi; linarith
  have p2 : 0 < α / lo + β := by have := div_pos hα hlo; linarith
  have ht0 : 0 < target := lt_of_lt_of_le (one_div_pos.2 p2) t1
  rw [div_le_iff₀ p2] at t1
  rw [le_div_iff₀ p5] at t2
  have l1 : α / hi ≤ 1 / target - β := by
    have : α / hi + β ≤ 1 / target := by rw [le_div_iff₀ ht0]; linarith
    linarith
  have hd : 0 < 1 / target - β := lt_of_lt_of_le (div_pos hα hhi) l1
  have l2 : 1 / target - β ≤ α / lo := by
    have : 1 / target ≤ α / lo + β := by rw [div_le_iff₀ ht0]; linarith
    linarith
  refine ⟨α / (1 / target - β), ⟨⟨?_, ?_⟩, ?_⟩, ?_⟩
  · rw [le_div_iff₀ hd]; rw [le_div_iff₀ hlo] at l2; linarith
  · rw [div_le_iff₀ hd]; rw [div_le_iff₀ hhi] at l1; linarith
  · rw [div_div_cancel₀ hα.ne', sub_add_cancel, one_div_one_div]
  · rintro κ ⟨-, hκ⟩
    have e2 : α / κ + β = 1 / target := by rw [← hκ, one_div_one_div]
    rw [← e2, add_sub_cancel_right, div_div_cancel₀ hα.ne']

/-- C67, two-stage requests that can be met: for a two-stage unit in usual ranges, if the requested SEER2 is at most that of a unit with a low-stage COP of 8, there are two HSPF2 values, those at the COPs 2.1 and 4.3, such that for
every request between them there are exactly one low-stage cooling COP up to 8 and exactly one heating COP between 2.1 and 4.3 without residuals; if the solver returns them, `make_rating_unit` returns a unit with exactly the requested
SEER2 and HSPF2. -/
theorem C67_two_attained {R : Request} {q95 eer2 : ℝ} (H : UsualTwoStage u (requestArgs u R 3 (some 3)) q95 eer2) (hS : TwoStageSeason u E (requestArgs u R 3 (some 3)) q95)
    (h : Surroundings u E T brentq (requestArgs u R 3 none) .two [q95, q95 * 0.728]) (o82 : Outdoor E (frF 82)) (o67 : Outdoor E (frF 67)) (hu : 0.29 ≤ u.btuh) (hs : 0 < R.seer)
    (hle : R.seer ≤ 1 / (lowStageWeight 0.15 * u.btuh / 8 + highStageWeight 0 / eer2)) :
    ∃ lo hi : ℝ, 0 < lo ∧ lo < hi ∧ ∀ target, lo ≤ target → target ≤ hi →
      (∃! κ82, (0 < κ82 ∧ κ82 ≤ 8) ∧ seerResidual u E T brentq { R with hspf := target } κ82 = .ok 0) ∧
      ∀ κ82, 0 < κ82 → κ82 ≤ 8 → seerResidual u E T brentq { R with hspf := target } κ82 = .ok 0 →
        (∃! κ, (2.1 ≤ κ ∧ κ ≤ 4.3) ∧ hspfResidual u E T brentq { R with hspf := target } κ82 κ = .ok 0) ∧
        ∀ (newton : Coil.Newton) (κ : ℝ), 2.1 ≤ κ → κ ≤ 4.3 → hspfResidual u E T brentq { R with hspf := target } κ82 κ = .ok 0 →
          newton (seerResidual u E T brentq { R with hspf := target }) (R.seer / 3) = .ok κ82 →
          newton (hspfResidual u E T brentq { R with hspf := target } κ82) (target / 2) = .ok κ →
          ∃ B, makeRatingUnit u E T brentq newton { R with hspf := target } = .ok B ∧ B.core.st = .two ∧ B.seer u E T brentq = .ok R.seer ∧ B.hspf u E T brentq = .ok target := by
  obtain ⟨d, hours, cx, cv, z, hr⟩ : ∃ d hours cx cv z, regionData (K := ℝ) .ahri2023 4 = some (d, hours, some (cx, cv, z)) := ⟨_, _, _, _, _, rfl⟩
  obtain ⟨α, β, hα, hβ, key⟩ := C96_two_cop H hS (T := T) (brentq := brentq) ⟨h.airflows, h.charge, h.root, h.indoor, h.outdoor, h.coil, h.cops.1, .inl rfl⟩ (r := 4) hr (f := 1) rfl one_pos
  have hst : R.staging = .two := by have := H.staging; simpa [requestArgs] using this
  have val : ∀ (κ κ82 target : ℝ), 2.1 ≤ κ → κ ≤ 4.3 → 0 < κ82 → κ82 ≤ 8 → ∃ B, build u E T brentq (requestArgs u { R with hspf := target } κ82 (some κ)) = .ok B ∧ B.core.st = .two ∧
      B.hspf u E T brentq = .ok (1 / (α / κ + β)) ∧ hspfResidual u E T brentq { R with hspf := target } κ82 κ = .ok (1 / (α / κ + β) - target) := by
    intro κ κ82 target k1 k2 c1 c2
    obtain ⟨B, hB, hBst, hH⟩ := key κ κ82 (some target) k1 k2 c1 c2
    have hB' : build u E T brentq (requestArgs u { R with hspf := target } κ82 (some κ)) = .ok B := hB
    refine ⟨B, hB', hBst, hH, ?_⟩
    simp only [hspfResidual, hB', hH, bind_ok, pure_eq_ok]
  have p2 : 0 < α / 2.1 + β := by have := div_pos hα (show (0 : ℝ) < 2.1 by norm_num); linarith
  refine ⟨1 / (α / 2.1 + β), 1 / (α / 4.3 + β), one_div_pos.2 p2, affine_lt hα hβ (by norm_num) (by norm_num), fun target t1 t2 => ?_⟩
  have ht0 : 0 < target := lt_of_lt_of_le (one_div_pos.2 p2) t1
  have t3 : target ≤ 22 := by
    obtain ⟨B, hB, -, hv⟩ := key 4.3 3 none (by norm_num) le_rfl (by norm_num) (by norm_num)
    obtain ⟨v, hv', hle'⟩ := C96_two_bound (a := { requestArgs u R 3 (some 3) with netHeatingCop := some 4.3, cop82 := some 3, hspf := none }) (f := 1)
      { H with seer := .inl rfl, hspf := .inl rfl, heating := { H.heating with cop_pos := by show (0 : ℝ) < 4.3; norm_num, cop_le := le_rfl } } { hS with cop := by show (2.1 : ℝ) ≤ 4.3; norm_num }
      (T := T) (brentq := brentq) ⟨h.airflows, h.charge, h.root, h.indoor, h.outdoor, h.coil, h.cops.1, .inl rfl⟩ hB hr rfl one_pos
    rw [hv', Except.ok.injEq] at hv
    rw [← hv] at t2
    have : v * u.btuh ≤ 1.25 * 4.3 * 1 := hle'
    nlinarith
  have H' : UsualTwoStage u (requestArgs u { R with hspf := target } 3 none) q95 eer2 :=
    { H with
      seer := .inl rfl, hspf := .inr rfl
      heating := { H.heating with
        cop_pos := by show 0 < 2.837 + 0.066 * target; linarith
        cop_le := by show 2.837 + 0.066 * target ≤ 4.3; linarith } }
  obtain ⟨u1, u2⟩ := C67_two_stage (R := { R with hspf := target }) H' (E := E) (T := T) (brentq := brentq) ⟨h.airflows, h.charge, h.root, h.indoor, h.outdoor, h.coil, h.cops⟩ o82 o67 hs
  obtain ⟨κ0, z1, z2, z3⟩ := u2.2 hle
  refine ⟨⟨κ0, ⟨⟨z1, z2⟩, z3⟩, fun y hy => u1 y κ0 hy.1.1 hy.1.2 z1 z2 hy.2 z3⟩, fun κ82 c1 c2 c3 => ⟨?_, fun newton κ k1 k2 h0 n82 n47 => ?_⟩⟩
  · obtain ⟨κ, ⟨⟨k1, k2⟩, k3⟩, k4⟩ := affine_root hα hβ (by norm_num) (by norm_num) t1 t2
    refine ⟨κ, ⟨⟨k1, k2⟩, ?_⟩, fun y hy => k4 y ⟨hy.1, ?_⟩⟩
    · obtain ⟨-, -, -, -, e⟩ := val κ κ82 target k1 k2 c1 c2
      rw [e, k3, sub_self]
    · obtain ⟨-, -, -, -, e⟩ := val y κ82 target hy.1.1 hy.1.2 c1 c2
      have := hy.2
      rw [e, Except.ok.injEq] at this
      linarith
  · obtain ⟨B, hB, hBst, hH, e⟩ := val κ κ82 target k1 k2 c1 c2
    rw [e, Except.ok.injEq] at h0
    have hM : makeRatingUnit u E T brentq newton { R with hspf := target } = .ok B := by
      unfold makeRatingUnit
      rw [if_neg (show ¬ ({ R with hspf := target } : Request).staging = .single by show ¬ R.staging = .single; rw [hst]; decide), n82, bind_ok]
      simp only
      rw [n47, bind_ok, hB]
    have c3' := c3
    simp only [seerResidual, bind_eq_ok, pure_eq_ok, Except.ok.injEq] at c3'
    obtain ⟨B0, hb, v, hv, hv0⟩ := c3'
    have es := C94_cooling_ratings (cop := some κ) (hspf := some target) hb (B' := B) hB
    refine ⟨B, hM, hBst, ?_, by rw [hH, sub_eq_zero.1 h0]⟩
    rw [es.1, hv, sub_eq_zero.1 hv0]

end Resdx.Build

namespace Resdx.Sample

open Spec Tabular BaseModel Props ResnetFan Fan Table Build DX

theorem plain_season {q : ℝ} (hq : 0 < q) {κ : ℝ} (hκ : 2.1 ≤ κ) : TwoStageSeason units env { plainArgs with cooling := .num q, heating := some q, netHeatingCop := some κ } q where
  standard := rfl
  cutIn := rfl
  cd := by norm_num [cd, plainArgs]
  cold := by norm_num [Spec.heating17, ratedHeating, plainArgs]; linarith
  cold_le := by norm_num [Spec.heating17, ratedHeating, plainArgs]; linarith
  cop := hκ
  outdoor := ⟨outdoorAir _, outdoorAir _, outdoorAir _, outdoorAir _⟩

theorem plain_heat {q : ℝ} (hq : 0 < q) {κ : ℝ} (h1 : 0 < κ) (h2 : κ ≤ 4.3) : UsualTwoStage units { plainArgs with cooling := .num q, heating := some q, netHeatingCop := some κ } q 12 :=
  { plain_usual hq with hspf := .inl rfl, heating := { (plain_usual hq).heating with cop_pos := h1, cop_le := h2 } }

/-- The hypotheses of `C96_two_ratings` hold for two-stage units of any size and a COP of 3. -/
example {brentq : Brentq} (hbr : BrentqSpec brentq) {q : ℝ} (hq : 0 < q) :=
  C96_two_ratings (E := env) (T := tools) (brentq := brentq) (plain_heat hq (κ := 3) (by norm_num) (by norm_num)) (plain_season hq (by norm_num)) (surroundings hbr rfl rfl rfl rfl rfl (both_pos hq))

/-- Those of `C96_two_cop`. -/
example {brentq : Brentq} (hbr : BrentqSpec brentq) {q : ℝ} (hq : 0 < q) :=
  C96_two_cop (E := env) (T := tools) (brentq := brentq) (r := 4) (plain_heat hq (κ := 3) (by norm_num) (by norm_num)) (plain_season hq (by norm_num)) (surroundings hbr rfl rfl rfl rfl rfl (both_pos hq)) rfl (f := 1) rfl one_pos

/-- A two-stage request for SEER2 15 and EER2 12. -/
noncomputable def twoRequest : Request := { staging := .two, seer := 15, hspf := 8, eer := some 12, q95 := 10000, q47 := some 10000, qm17 := 0.65 }

theorem twoRequest_usual : UsualTwoStage units (requestArgs units twoRequest 3 (some 3)) 10000 12 :=
  { usual := usualUnits, tables := rfl, staging := rfl, cycling := rfl, cooling := rfl, size := by norm_num, seer := .inl rfl, eer := rfl, eer_pos := by norm_num, eer_le := by norm_num
    low := by norm_num [requestArgs], low_le := by norm_num [requestArgs], hspf := .inr rfl, smaller := by simp [ratedHeating, requestArgs, twoRequest], larger := by norm_num [ratedHeating, requestArgs, twoRequest]
    hottest := off125
    heating :=
      { rated := by norm_num [ratedHeating, requestArgs, twoRequest], cold := by norm_num [ratedHeating, requestArgs, Spec.heating17, twoRequest], cop_pos := by norm_num [Spec.heatingCop, requestArgs]
        cop_le := by norm_num [Spec.heatingCop, requestArgs], above := by simp [lowestTemperature, requestArgs, twoRequest]
        below := by simp only [lowestTemperature, requestArgs, twoRequest, Option.getD]; rw [if_neg (by decide), frF_lt]; norm_num } }

theorem twoRequest_season : TwoStageSeason units env (requestArgs units twoRequest 3 (some 3)) 10000 where
  standard := rfl
  cutIn := rfl
  cd := by norm_num [cd, requestArgs]
  cold := by norm_num [Spec.heating17, ratedHeating, requestArgs, twoRequest]
  cold_le := by norm_num [Spec.heating17, ratedHeating, requestArgs, twoRequest]
  cop := by norm_num [Spec.heatingCop, requestArgs]
  outdoor := ⟨outdoorAir _, outdoorAir _, outdoorAir _, outdoorAir _⟩

theorem twoRequest_le : twoRequest.seer ≤ 1 / (lowStageWeight 0.15 * units.btuh / 8 + highStageWeight 0 / 12) := by
  obtain ⟨w1, w2, w3, w4⟩ := weight_bounds
  rw [le_div_iff₀ (by have := units.btuh_pos; positivity), show units.btuh = (0.29307 : ℝ) from rfl, show twoRequest.seer = (15 : ℝ) from rfl]
  nlinarith

/-- The hypotheses of `C67_two_attained` hold for this request. -/
example {brentq : Brentq} (hbr : BrentqSpec brentq) :=
  C67_two_attained (E := env) (T := tools) (brentq := brentq) twoRequest_usual twoRequest_season (surroundings hbr rfl rfl rfl rfl rfl (both_pos (by norm_num))) (outdoorAir _) (outdoorAir _) (show (0.29 : ℝ) ≤ 0.29307 by norm_num) (by norm_num [twoRequest]) twoRequest_le

end Resdx.Sample

namespace Resdx.Sample

open Spec Tabular BaseModel Props ResnetFan Fan Table Build DX

/-- The hypotheses of `C96_two_bound` and `C96_two_increasing` hold for these units. -/
example {brentq : Brentq} (hbr : BrentqSpec brentq) {q : ℝ} (hq : 0 < q) {B : Built}
    (hB : build units env tools brentq { plainArgs with cooling := .num q, heating := some q, netHeatingCop := some 3 } = .ok B) : ∃ v, B.hspf units env tools brentq = .ok v ∧ v * units.btuh ≤ 1.25 * 3 * 1 :=
  C96_two_bound (E := env) (T := tools) (brentq := brentq) (r := 4) (plain_heat hq (κ := 3) (by norm_num) (by norm_num)) (plain_season hq (by norm_num)) (surroundings hbr rfl rfl rfl rfl rfl (both_pos hq)) hB rfl (f := 1) rfl
    one_pos

example {brentq : Brentq} (hbr : BrentqSpec brentq) {q : ℝ} (hq : 0 < q) {B B' : Built}
    (hB : build units env tools brentq { plainArgs with cooling := .num q, heating := some q, netHeatingCop := some 3, cop82 := some 4 } = .ok B)
    (hB' : build units env tools brentq { plainArgs with cooling := .num q, heating := some q, netHeatingCop := some 3.5, cop82 := some 5 } = .ok B') :=
  C96_two_increasing (E := env) (T := tools) (brentq := brentq) (r := 4) (plain_heat hq (κ := 3) (by norm_num) (by norm_num)) (plain_season hq (by norm_num)) (surroundings hbr rfl rfl rfl rfl rfl (both_pos hq)) rfl (f := 1) rfl
    one_pos (κ := 3) (κ' := 3.5) (κ82 := 4) (κ82' := 5) (by norm_num) (by norm_num) (by norm_num) (by norm_num) (by norm_num) hB hB'

/-- The hypotheses of `C88_fan_power` hold for these units: the fan of the high stage in cooling. -/
example {brentq : Brentq} (hbr : BrentqSpec brentq) {q : ℝ} (hq : 0 < q) : ∃ B, build units env tools brentq { plainArgs with cooling := .num q, heating := some q, netHeatingCop := some 3 } = .ok B ∧
    B.core.cool.power[0]? = some (some (unitFan false units.ton q q (B.core.fullESP / (0.5 * units.inH2O)))) := by
  have H := plain_heat hq (κ := 3) (by norm_num) (by norm_num)
  have hs := surroundings (a := { plainArgs with cooling := .num q, heating := some q, netHeatingCop := some 3 }) (st := .two) hbr rfl rfl rfl rfl rfl (both_pos hq)
  obtain ⟨B, net, hB, hM, -⟩ := C90_two_range H.usual H.tables H.staging H.cooling H.seer H.eer H.hspf H.eer_pos H.eer_le H.low H.low_le H.size ⟨by nlinarith [H.heating.rated, H.smaller, H.size], H.larger⟩ H.hottest
    H.heating hs
  refine ⟨B, hB, ?_⟩
  have e : max q q = q := max_self q
  obtain ⟨c1, -⟩ := C88_fan_power hB (fun d hd => by cases hd) hM (fun _ => hbr) (x := q) (y := q) rfl rfl (by rw [e]; exact hq) false (i := 0) (q := q) (q0 := q) rfl rfl hq hq (by rw [e, div_self hq.ne']; norm_num)
  have hp : B.core.psc = false := hM.motor
  rw [e, hp, if_pos (show (0 : Nat) = fullIndex .two from rfl), mul_one] at c1
  exact c1

end Resdx.Sample
