import Verif.Props.FanImpeller
import Verif.Props.RepResnet
import Verif.Props.SeasonVariable

/-! # C120 for RESNET units; what is false of C120 -/

set_option linter.unusedSectionVars false
set_option linter.unusedSimpArgs false

namespace Resdx.Props

open Spec BaseModel Fan ResnetFan Tabular Build

variable {u : Units ℝ} {E : Env ℝ} {T : Coil.Tools} {brentq : Brentq} {a : Args} {B : Built} {qc qh : List ℝ}

/-- What holds of the rated airflows of a unit holds of the settings of its fan. -/
theorem fan_settings_of {P : ℝ → Prop} (h : build u E T brentq a = .ok B) (ha1 : a.coolingPerCap = none) (ha2 : a.heatingPerCap = none) (hm : Made u E a B.core.st B.core.net qc qh B)
    (hP : ∀ q ∈ qc ++ qh, P (q * (400 * u.cfm / u.ton))) : ∀ x ∈ B.core.fan.airflow, P x := by
  obtain ⟨st0, st, q47, net', rc, rh, h1, h2, h3, h4, h5, h6, h7, h8, -⟩ := build_ok h
  have e1 := hm.coolCaps
  have e2 := hm.heatCaps
  unfold core at h8
  simp only [bind_eq_ok, pure_eq_ok, Except.ok.injEq] at h8
  obtain ⟨qc', -, qh', -, esp, -, ⟨cool, heat, fan⟩, hfan, cp, -, hp, -, gross, -, ncc, -, gcc, -, nhc, -, ghc, -, h12⟩ := h8
  obtain ⟨_, _, -, -, -, -, M1, M2⟩ := setFan_sets u (motor_local u brentq _) hfan
  have f1 : qc' = qc := by rw [← e1, ← h12]; exact M1.caps.symm
  have f2 : qh' = qh := by rw [← e2, ← h12]; exact M2.caps.symm
  subst f1; subst f2
  have hB : B.core.fan = fan := by rw [← h12]
  rw [hB]
  have air : ∀ {q : List ℝ} {n : Nat}, (∀ x ∈ q, P (x * (400 * u.cfm / u.ton))) → Airflows P (Side.start u n q none) := by
    intro q n R i c r hc hr'
    have hc' : q[i]? = some c := hc
    have hr'' : (List.replicate n (400 * u.cfm / u.ton))[i]? = some r := hr'
    rw [List.eq_of_mem_replicate (List.mem_of_getElem? hr'')]
    exact R c (List.mem_of_getElem? hc')
  rw [ha1, ha2] at hfan
  exact (setFan_settings hfan (air fun x hx => hP x (List.mem_append_left _ hx)) (air fun x hx => hP x (List.mem_append_right _ hx))).2

/-- C120 for RESNET units of any staging and motor: the representation of the fan is generated and its rotational speeds lie in the declared range, when no speed is rated above 15/11 of the
capacity the fan is designed for (the larger of the two full-load capacities). -/
theorem C120_unit (hbr : BrentqSpec brentq) {argsort : List ℝ → List Nat} (harg : ∀ l, IsArgsort l (argsort l)) (h : build u E T brentq a = .ok B)
    (ha1 : a.coolingPerCap = none) (ha2 : a.heatingPerCap = none) (hm : Made u E a B.core.st B.core.net qc qh B) {x y : ℝ} (hx : qc[fullIndex B.core.st]? = some x)
    (hy : qh[fullIndex B.core.st]? = some y) (Rc : RatedSizes (max x y) qc) (Rh : RatedSizes (max x y) qh) (hsize : ∀ q ∈ qc ++ qh, 11 * q ≤ 15 * max x y) :
    ∃ r, fanRepresentation u brentq argsort B.core.psc B.core.fan = .ok r ∧ SpeedsInRange r := by
  obtain ⟨r, hr⟩ := C119_fan hbr harg h ha1 ha2 hm ⟨x, y, hx, hy, Rc, Rh⟩
  refine ⟨r, hr, ?_⟩
  obtain ⟨d, hd0, hgood, -⟩ := fan_airflows h ha1 ha2 hm ⟨x, y, hx, hy, Rc, Rh⟩
  have hdes := hm.design x y hx hy
  have hcf := u.cfm_pos
  have ht := u.ton_pos
  have hk : 0 < 400 * u.cfm / u.ton := by positivity
  have hd : B.core.fan.airflow[0]? = some (max x y * (400 * u.cfm / u.ton)) := hdes
  refine C120_resnet u brentq harg B.core.psc B.core.fan _ hd ?_ hr
  refine fan_settings_of h ha1 ha2 hm fun q hq => ?_
  have q0 : 0 < q := by
    rcases List.mem_append.1 hq with h' | h'
    · exact Rc.pos q h'
    · exact Rh.pos q h'
  have q1 := hsize q hq
  exact ⟨by positivity, by nlinarith⟩

/-- C120 for RESNET units with one or two stages: no condition on the sizes of the speeds beyond their order. -/
theorem C120_staged (hbr : BrentqSpec brentq) {argsort : List ℝ → List Nat} (harg : ∀ l, IsArgsort l (argsort l)) (h : build u E T brentq a = .ok B)
    (ha1 : a.coolingPerCap = none) (ha2 : a.heatingPerCap = none) (hm : Made u E a B.core.st B.core.net qc qh B) (hst : B.core.st ≠ .varSpeed) {x y : ℝ} (hx : qc[0]? = some x)
    (hy : qh[0]? = some y) (Rc : RatedSizes (max x y) qc) (Rh : RatedSizes (max x y) qh) :
    ∃ r, fanRepresentation u brentq argsort B.core.psc B.core.fan = .ok r ∧ SpeedsInRange r := by
  have hf : fullIndex B.core.st = 0 := by
    revert hst
    cases B.core.st <;> simp [fullIndex]
  refine C120_unit hbr harg h ha1 ha2 hm (x := x) (y := y) (by rw [hf]; exact hx) (by rw [hf]; exact hy) Rc Rh fun q hq => ?_
  have hD : 0 < max x y := lt_max_of_lt_left (Rc.pos x (List.mem_of_getElem? hx))
  have : q ≤ max x y := by
    rcases List.mem_append.1 hq with h' | h'
    · obtain ⟨i, hi⟩ := List.mem_iff_getElem?.1 h'
      exact (Rc.order 0 i x q (Nat.zero_le _) hx hi).trans (le_max_left _ _)
    · obtain ⟨i, hi⟩ := List.mem_iff_getElem?.1 h'
      exact (Rh.order 0 i y q (Nat.zero_le _) hy hi).trans (le_max_right _ _)
  linarith

/-- C120 for variable-speed RESNET units whose boost speeds are rated at 1/0.934 and 1/0.908 of the full speeds, as those of all units made from ratings. -/
theorem C120_variable (hbr : BrentqSpec brentq) {argsort : List ℝ → List Nat} (harg : ∀ l, IsArgsort l (argsort l)) (h : build u E T brentq a = .ok B)
    (ha1 : a.coolingPerCap = none) (ha2 : a.heatingPerCap = none) (hst : B.core.st = .varSpeed) {x y : ℝ} {lc lh : List ℝ}
    (hm : Made u E a B.core.st B.core.net (x / 0.934 :: x :: lc) (y / 0.908 :: y :: lh) B) (Rc : RatedSizes (max x y) (x / 0.934 :: x :: lc)) (Rh : RatedSizes (max x y) (y / 0.908 :: y :: lh)) :
    ∃ r, fanRepresentation u brentq argsort B.core.psc B.core.fan = .ok r ∧ SpeedsInRange r := by
  have hx := Rc.pos x (by simp)
  have hy := Rh.pos y (by simp)
  have hD : 0 < max x y := lt_max_of_lt_left hx
  refine C120_unit hbr harg h ha1 ha2 hm (x := x) (y := y) (by rw [hst]; rfl) (by rw [hst]; rfl) Rc Rh fun q hq => ?_
  rcases List.mem_append.1 hq with h' | h'
  · obtain ⟨i, hi⟩ := List.mem_iff_getElem?.1 h'
    have h1 := Rc.order 0 i _ q (Nat.zero_le _) rfl hi
    have h2 := le_max_left x y
    have : x / 0.934 ≤ 15 / 11 * x := by rw [div_le_iff₀ (by norm_num)]; nlinarith
    linarith
  · obtain ⟨i, hi⟩ := List.mem_iff_getElem?.1 h'
    have h1 := Rh.order 0 i _ q (Nat.zero_le _) rfl hi
    have h2 := le_max_right x y
    have : y / 0.908 ≤ 15 / 11 * y := by rw [div_le_iff₀ (by norm_num)]; nlinarith
    linarith

/-- C120 from the ratings: for variable-speed units within the ranges of `UsualVariable`. -/
theorem C120_variable_ratings {q95 eer2 : ℝ} (hbr : BrentqSpec brentq) {argsort : List ℝ → List Nat} (harg : ∀ l, IsArgsort l (argsort l)) (H : UsualVariable u a q95 eer2)
    (h : Surroundings u E T brentq a .varSpeed (variableSizes u a q95 eer2)) :
    ∃ B r, build u E T brentq a = .ok B ∧ fanRepresentation u brentq argsort B.core.psc B.core.fan = .ok r ∧ SpeedsInRange r := by
  obtain ⟨B, net, hB, hM, hF⟩ := C90_variable_range H.usual H.tables H.staging H.cooling H.seer H.eer H.hspf H.defaults H.eer_pos H.eer_le H.ratio H.size H.comparable H.hottest H.heating h
  have est := hM.staging
  have hM' : Made u E a B.core.st B.core.net (let r := (varCooling u.btuh q95 (a.seer.getD 0) eer2 none none).ratio; [q95 / 0.934, q95, (q95 / 0.934 * r + q95) / 2, q95 / 0.934 * r])
      (let q47 := ratedHeating u a .varSpeed q95; [q47 / 0.908, q47, (q47 / 0.908 * 0.272 + q47) / 2, q47 / 0.908 * 0.272]) B := by rw [est, hM.tables]; exact hM
  have h95 := H.size
  have h47 : 0 < ratedHeating u a .varSpeed q95 := H.heating.rated
  have hsize := H.comparable
  have hr1 : (varCooling u.btuh q95 (a.seer.getD 0) eer2 none none).ratio ≤ 0.934 := max_le (by norm_num) (min_le_left _ _)
  have hr0 : 0 < (varCooling u.btuh q95 (a.seer.getD 0) eer2 none none).ratio := lt_of_lt_of_le (by norm_num) (le_max_left _ _)
  obtain ⟨r, hr, hR⟩ := C120_variable hbr harg hB h.airflows.1 h.airflows.2 est (x := q95) (y := ratedHeating u a .varSpeed q95) hM' (by
      generalize (varCooling u.btuh q95 (a.seer.getD 0) eer2 none none).ratio = r at *
      generalize ratedHeating u a .varSpeed q95 = q47 at *
      clear hM hM' hF
      have k1 : q95 / 0.934 * r ≤ q95 := by rw [div_mul_eq_mul_div, div_le_iff₀ (by norm_num)]; nlinarith
      have k2 : 0 < q95 / 0.934 * r := by positivity
      have k3 : q95 ≤ q95 / 0.934 := by rw [le_div_iff₀ (by norm_num)]; linarith
      have k4 : q95 / 0.934 ≤ 1.2 * q95 := by rw [div_le_iff₀ (by norm_num)]; linarith
      refine ratedSizes_of h95 (le_max_left _ _) ?_ ?_ ?_
      · intro x hx; simp only [List.mem_cons, List.not_mem_nil, or_false] at hx; rcases hx with rfl | rfl | rfl | rfl <;> constructor <;> linarith
      · simp only [List.pairwise_cons, List.mem_cons, List.not_mem_nil, or_false, forall_eq_or_imp, forall_eq, List.Pairwise.nil, and_true, IsEmpty.forall_iff, implies_true]
        refine ⟨⟨?_, ?_, ?_⟩, ⟨?_, ?_⟩, ?_⟩ <;> linarith
      · rintro x hx; cases hx; exact sizes_max h95 h47 hsize k3) (by
      generalize ratedHeating u a .varSpeed q95 = q47 at *
      clear hM hM' hF
      have k5 : q47 / 0.908 * 0.272 ≤ q47 := by rw [div_mul_eq_mul_div, div_le_iff₀ (by norm_num)]; linarith
      have k6 : 0 < q47 / 0.908 * 0.272 := by positivity
      have k7 : q47 ≤ q47 / 0.908 := by rw [le_div_iff₀ (by norm_num)]; linarith
      have k8 : q47 / 0.908 ≤ 1.2 * q47 := by rw [div_le_iff₀ (by norm_num)]; linarith
      refine ratedSizes_of h47 (le_max_right _ _) ?_ ?_ ?_
      · intro x hx; simp only [List.mem_cons, List.not_mem_nil, or_false] at hx; rcases hx with rfl | rfl | rfl | rfl <;> constructor <;> linarith
      · simp only [List.pairwise_cons, List.mem_cons, List.not_mem_nil, or_false, forall_eq_or_imp, forall_eq, List.Pairwise.nil, and_true, IsEmpty.forall_iff, implies_true]
        refine ⟨⟨?_, ?_, ?_⟩, ⟨?_, ?_⟩, ?_⟩ <;> linarith
      · rintro x hx; cases hx; exact sizes_max' h95 h47 hsize k7)
  exact ⟨B, r, hB, hr, hR⟩

/-- The representation of a fan with one setting lists the setting's rotational speed at the largest pressure. -/
theorem rep_single_last {argsort : List ℝ → List Nat} (harg : ∀ l, IsArgsort l (argsort l)) {d ms : ℝ} {airflow power rot : Int → Option ℝ → Py ℝ} {maxPower maxStatic : Int → Py ℝ} {r : Rep}
    (h : fanRep argsort 1 d airflow power rot maxPower maxStatic = .ok r) (hms : maxStatic ((0 : Nat) : Int) = .ok ms) : ∃ pt ∈ r.points, rot ((0 : Nat) : Int) (some ms) = .ok pt.2.2 := by
  simp only [fanRep, bind_eq_ok, pure_eq_ok, Except.ok.injEq] at h
  obtain ⟨m, hm, last, hlast, mp, hmp, ms', hms', pts, hpts, nom, hnom, rfl⟩ := h
  have hperm := (C24_order_map argsort harg airflow 1 m hm).1
  rw [show List.range 1 = [0] from rfl, List.perm_singleton] at hperm
  subst hperm
  have e0 : last = 0 := by
    have h1 : pyGetI [0] (-1) = Except.ok 0 := rfl
    rw [h1] at hlast; cases hlast; rfl
  subst e0
  rw [hms] at hms'; cases hms'
  simp only [mapLoop, bind_eq_ok, pure_eq_ok, Except.ok.injEq] at hpts
  obtain ⟨rows, hrows, rfl⟩ := hpts
  simp only [List.length_cons, List.length_nil, zero_add, List.range_succ, List.range_zero, List.nil_append, List.mapM_cons, List.mapM_nil, pyGet, List.getElem?_cons_zero, bind_ok, bind_eq_ok, pure_eq_ok,
    Except.ok.injEq] at hrows
  obtain ⟨row, hrow, -, rfl, rfl⟩ := hrows
  simp only [pressureGrid, List.range_succ, List.range_zero, List.nil_append, List.map_cons, List.map_nil, List.cons_append, List.mapM_cons, List.mapM_nil, bind_eq_ok, pure_eq_ok, Except.ok.injEq] at hrow
  obtain ⟨_, -, _, ⟨_, -, _, ⟨_, -, _, ⟨_, -, _, ⟨_, -, _, ⟨pt, ⟨_, -, _, -, v, hv, rfl⟩, _, rfl, rfl⟩, rfl⟩, rfl⟩, rfl⟩, rfl⟩, rfl⟩ := hrow
  refine ⟨_, by simp; exact .inr (.inr (.inr (.inr (.inr rfl)))), ?_⟩
  have e : ms * ((5 : Nat) : ℝ) / 5 = ms := by push_cast; ring
  rwa [e] at hv

/-- A representation is generated when the fan can be evaluated at every setting and every pressure from zero up. -/
theorem rep_returns {argsort : List ℝ → List Nat} (harg : ∀ l, IsArgsort l (argsort l)) {n : Nat} {d : ℝ} {airflow power rot : Int → Option ℝ → Py ℝ} {maxPower maxStatic : Int → Py ℝ} (hn : 0 < n) (hd : 0 ≤ d)
    (hq : ∀ (i : Nat) (p : ℝ), i < n → 0 ≤ p → (∃ x, airflow i (some p) = .ok x) ∧ (∃ x, power i (some p) = .ok x) ∧ ∃ x, rot i (some p) = .ok x)
    (hmax : ∀ i : Nat, i < n → (∃ x, maxPower i = .ok x) ∧ ∃ x, maxStatic i = .ok x ∧ 0 ≤ x) : ∃ r, fanRep argsort n d airflow power rot maxPower maxStatic = .ok r := by
  obtain ⟨l, hl⟩ : ∃ l, speedOrderMap argsort airflow n = .ok l := by
    obtain ⟨fl, hfl⟩ := mapM_isOk (fun (i : Nat) => airflow (i : Int) (some 0)) (List.range n) (fun i hi => (hq i 0 (List.mem_range.1 hi) le_rfl).1)
    exact ⟨argsort fl, by simp only [speedOrderMap, hfl, bind_ok, pure_eq_ok]⟩
  obtain ⟨hperm, -⟩ := C24_order_map argsort harg _ _ _ hl
  have hlt : ∀ s ∈ l, s < n := fun s hs => List.mem_range.1 (hperm.mem_iff.1 hs)
  have hne : l ≠ [] := by
    intro e
    rw [e] at hperm
    have := hperm.length_eq
    simp at this
    omega
  obtain ⟨l', x, e⟩ := (List.eq_nil_or_concat' l).resolve_left hne
  have hlast : pyGetI l (-1) = .ok x := by rw [e]; exact Fan.pyGetI_last _ _
  have hx := hlt x (by rw [e]; simp)
  obtain ⟨⟨mp, hmp⟩, ms, hms, ms0⟩ := hmax x hx
  obtain ⟨nom, hnom⟩ := (hq x d hx hd).1
  obtain ⟨pts, hpts⟩ := mapLoop_returns (fun (i : Nat) p => do
    let w ← power i (some p)
    let a ← airflow i (some p)
    let r ← rot i (some p)
    return (w, a, r)) l (pressureGrid ms) (by
      intro i hi p hp
      have hp0 : 0 ≤ p := by
        simp only [pressureGrid, List.mem_map] at hp
        obtain ⟨k, -, rfl⟩ := hp
        positivity
      obtain ⟨⟨x, hx⟩, ⟨w, hw⟩, v, hv⟩ := hq i p (hlt i hi) hp0
      exact ⟨(w, x, v), by simp only [hx, hw, hv, bind_ok, pure_eq_ok]⟩)
  simp only [pure_eq_ok] at hpts
  exact ⟨_, by simp only [fanRep, hl, hlast, hmp, hms, bind_ok, hpts, hnom, pure_eq_ok]; rfl⟩

/-- An ECM fan with one setting, no power limit and positive free efficacy. -/
theorem ecm_one (u : Units ℝ) {p0 e : ℝ} (hp : 0 ≤ p0) : ∃ s, ECM.init u [1] p0 e none = .ok s ∧ s.base.airflow = [1] ∧ s.base.ratio = [1] ∧ s.base.designESP = p0 ∧ s.freeEfficacy = [e - ECM.slopeESP u * p0] ∧
    s.maxPower = none := by
  have hst : Base.start p0 [1] = .ok { designESP := p0, n := 0, airflow := [], ratio := [], sysConst := Real.sqrt p0 / 1 } := by
    simp [Base.start, systemCurveConstant, pyGet, bind_ok, ppow_half hp, pdiv_ok (one_ne_zero (α := ℝ)), pure_eq_ok]
  obtain ⟨s', hs'⟩ := ECM.addSpeed_of_ok (a := 1) (p := none) (s := { base := { designESP := p0, n := 0, airflow := [], ratio := [], sysConst := Real.sqrt p0 / 1 }
                                                                      designEfficacy := e, maxPower := none, designFreeEfficacy := e - ECM.slopeESP u * p0, freeEfficacy := [] }) (by simp)
  refine ⟨s', ?_, ?_⟩
  · simp only [ECM.init, pyGet, hst, bind_ok, addAll, PyM.exec, PyM.bind_run, hs', PyM.pure_run]
    norm_num [bind_ok]
  · obtain ⟨b', hb, rfl⟩ := ECM.addSpeed_ok hs'
    obtain ⟨-, rfl⟩ := Base.addSpeed_ok hb
    simp

/-- What such a fan delivers, draws and how fast it turns, at any pressure from zero up. -/
theorem ecm_one_at (u : Units ℝ) (brentq : Brentq) {s : ECM} {p0 f : ℝ} (h1 : s.base.airflow = [1]) (h2 : s.base.ratio = [1]) (h3 : s.base.designESP = p0) (h4 : s.freeEfficacy = [f]) (h5 : s.maxPower = none)
    (hf : 0 < f) {p : ℝ} (hp : 0 ≤ p) : s.airflow u brentq ((0 : Nat) : Int) (some p) = .ok 1 ∧ s.power u brentq ((0 : Nat) : Int) (some p) = .ok (1 * (f + ECM.slopeESP u * p)) ∧
      s.rotationalSpeed u brentq ((0 : Nat) : Int) (some p) = .ok (1100 * u.rpm - ECM.speedSlopeESP u * (p0 - p)) := by
  have hcfm := u.cfm_pos
  have hin := u.inH2O_pos
  have hS : 0 < ECM.slopeESP u := by unfold ECM.slopeESP; positivity
  have ha : s.base.airflow[0]? = some 1 := by rw [h1]; rfl
  have he : s.freeEfficacy[0]? = some f := by rw [h4]; rfl
  have hρ : s.base.ratio[0]? = some 1 := by rw [h2]; rfl
  have E0 : 0 < f + ECM.slopeESP u * p := by positivity
  have E1 : (1 : ℝ) * (f + ECM.slopeESP u * p) ≠ 0 := by rw [one_mul]; exact E0.ne'
  obtain ⟨w2, w1⟩ := powerAt_eq (u := u) p ha he
  simp only [h5] at w1
  have w1' : s.powerAt u ((0 : Nat) : Int) p = .ok (1 * (f + ECM.slopeESP u * p)) := w1
  have hair : s.airflowAt u ((0 : Nat) : Int) p = .ok 1 := by
    simp only [ECM.airflowAt, w1', w2, bind_ok, pyGetI_natCast.2 ha]
    split
    · rfl
    · rename_i hp0
      simp only [one_mul, pdiv_ok E0.ne', bind_ok, div_self E0.ne', ppow_half zero_le_one, Real.sqrt_one, mul_one, pdiv_ok hp0, pure_eq_ok, one_mul, div_self hp0]
  refine ⟨by simp only [ECM.airflow, pressureOr, bind_ok, hair], by simp only [ECM.power, pressureOr, bind_ok, w1'], ?_⟩
  simp only [ECM.rotationalSpeed, pressureOr, bind_ok, ECM.unconstrainedRotationalSpeed, pyGetI_natCast.2 hρ, ECM.efficacyAt, hair, w1', ECM.unconstrainedEfficacy, pyGetI_natCast.2 he,
    pdiv_ok (one_ne_zero (α := ℝ)), pdiv_ok E0.ne', pure_eq_ok, h3, one_mul, div_one, div_self E0.ne', mul_one]

/-- The representation of such a fan is generated. -/
theorem ecm_one_rep (u : Units ℝ) (brentq : Brentq) {argsort : List ℝ → List Nat} (harg : ∀ l, IsArgsort l (argsort l)) {s : ECM} {p0 f : ℝ} (h1 : s.base.airflow = [1]) (h2 : s.base.ratio = [1])
    (h3 : s.base.designESP = p0) (h4 : s.freeEfficacy = [f]) (h5 : s.maxPower = none) (hf : 0 < f) (hp : 0 ≤ p0) :
    ∃ r, fanRep argsort s.base.airflow.length s.base.designESP (s.airflow u brentq) (s.power u brentq) (inRps u (s.rotationalSpeed u brentq)) (s.motorPower u) (fun _ => .ok (1.2 * u.inH2O)) = .ok r := by
  have hin := u.inH2O_pos
  rw [h1, h3]
  refine rep_returns harg (by simp) hp ?_ ?_
  · intro i p hi hp
    obtain rfl : i = 0 := by simpa using hi
    obtain ⟨a1, a2, a3⟩ := ecm_one_at u brentq h1 h2 h3 h4 h5 hf hp
    exact ⟨⟨_, a1⟩, ⟨_, a2⟩, _, by simp only [inRps, a3, bind_ok, pure_eq_ok]; rfl⟩
  · intro i hi
    obtain rfl : i = 0 := by simpa using hi
    obtain ⟨-, w1⟩ := powerAt_eq (s := s) (u := u) (i := 0) (1.2 * u.inH2O) (by rw [h1]; rfl) (by rw [h4]; rfl)
    refine ⟨⟨_, by simp only [ECM.motorPower, h5, w1, bind_ok, pure_eq_ok]; rfl⟩, _, rfl, by positivity⟩

/-- C120 is false of the code: an ECM fan designed for no external pressure turns at more than 1500 rpm at the largest pressure of its representation. -/
theorem C120_refuted : ¬ ∀ (u : Units ℝ) (brentq : Brentq) (argsort : List ℝ → List Nat) (airflows : List ℝ) (p0 e : ℝ) (m : Option ℝ) (s : ECM) (r : Rep), (∀ l, IsArgsort l (argsort l)) →
    (∀ x ∈ airflows, 0 < x) → 0 ≤ p0 → ECM.slopeESP u * p0 ≤ e → ECM.init u airflows p0 e m = .ok s →
    fanRep argsort s.base.airflow.length s.base.designESP (s.airflow u brentq) (s.power u brentq) (inRps u (s.rotationalSpeed u brentq)) (s.motorPower u) (fun _ => .ok (1.2 * u.inH2O)) = .ok r →
    SpeedsInRange r := by
  intro hall
  obtain ⟨brentq, -⟩ := brentqSpec_satisfiable
  obtain ⟨argsort, harg⟩ := isArgsort_satisfiable
  let u := Sample.units
  have hin := u.inH2O_pos
  have hrpm := u.rpm_pos
  obtain ⟨s, hs, h1, h2, h3, h4, h5⟩ := ecm_one u (p0 := 0) (e := 1) le_rfl
  rw [mul_zero, sub_zero] at h4
  obtain ⟨r, hr⟩ := ecm_one_rep u brentq harg h1 h2 h3 h4 h5 one_pos le_rfl
  obtain ⟨-, -, hR⟩ := hall u brentq argsort [1] 0 1 none s r harg (by simp) le_rfl (by simp) hs hr
  rw [h1] at hr
  obtain ⟨pt, hpt, hv⟩ := rep_single_last harg hr rfl
  obtain ⟨-, -, a3⟩ := ecm_one_at u brentq h1 h2 h3 h4 h5 one_pos (p := 1.2 * u.inH2O) (by positivity)
  simp only [inRps, a3, bind_ok, pure_eq_ok, Except.ok.injEq] at hv
  have h25 := (hR pt hpt).2
  rw [← hv, div_le_iff₀ (by positivity)] at h25
  have e1 : ECM.speedSlopeESP u * (0 - 1.2 * u.inH2O) = -(463.5 * 1.2 * u.rpm) := by unfold ECM.speedSlopeESP; field_simp; ring
  rw [e1] at h25
  nlinarith

/-! ## The hypotheses can be met -/

/-- `C120_ecm_partial`: a fan designed for half an inch of water. -/
example (u : Units ℝ) (brentq : Brentq) : ∃ argsort s r, ECM.init u [1] (0.5 * u.inH2O) (ECM.slopeESP u * (0.5 * u.inH2O) + 1) none = .ok s ∧
    fanRep argsort s.base.airflow.length s.base.designESP (s.airflow u brentq) (s.power u brentq) (inRps u (s.rotationalSpeed u brentq)) (s.motorPower u) (fun _ => .ok (1.2 * u.inH2O)) = .ok r ∧ SpeedsInRange r := by
  have hin := u.inH2O_pos
  obtain ⟨argsort, harg⟩ := isArgsort_satisfiable
  obtain ⟨s, hs, h1, h2, h3, h4, h5⟩ := ecm_one u (p0 := 0.5 * u.inH2O) (e := ECM.slopeESP u * (0.5 * u.inH2O) + 1) (by positivity)
  rw [add_sub_cancel_left] at h4
  obtain ⟨r, hr⟩ := ecm_one_rep u brentq harg h1 h2 h3 h4 h5 one_pos (by positivity)
  refine ⟨argsort, s, r, hs, hr, C120_ecm_partial u brentq harg [1] _ _ none s s hs .start (by linarith) ?_ (by rw [h5]; simp) ?_ ?_ hr⟩
  · intro a0 ha0 a ha
    rw [h1] at ha0 ha
    simp only [List.getElem?_cons_zero, Option.some.injEq, List.mem_singleton] at ha0 ha
    subst ha0; subst ha
    exact ⟨one_pos, le_rfl⟩
  · rw [h3]; nlinarith
  · rw [h3]; nlinarith

/-- `C120_resnet`: a RESNET PSC fan with two settings. -/
example (u : Units ℝ) (brentq : Brentq) : ∃ argsort b r, resnetInit u [2, 1] = .ok b ∧ fanRepresentation u brentq argsort true b = .ok r ∧ SpeedsInRange r := by
  have hin := u.inH2O_pos
  obtain ⟨argsort, harg⟩ := isArgsort_satisfiable
  obtain ⟨b, hb, h1, -, h3, -⟩ := C13_resnet_constructs u [2, 1] (by simp) (by simp)
  have h0 : b.airflow[0]? = some 2 := by rw [h1]; rfl
  have at_ : ∀ i : Nat, i < b.airflow.length → ∃ x, b.airflow[i]? = some x := fun i hi => exists_getElem? hi
  have pow : ∀ (i : Nat) (p : ℝ), i < b.airflow.length → ∃ x, resnetPSCPower u b i (some p) = .ok x := by
    intro i p hi
    obtain ⟨x, hx⟩ := at_ i hi
    exact ⟨_, by simp only [resnetPSCPower, resnetAirflow, pyGetI_natCast.2 hx, resnetPSCEfficacy, resnetRatio_ok h0 two_ne_zero hx, bind_ok, pure_eq_ok]; rfl⟩
  have hr : ∃ r, fanRepresentation u brentq argsort true b = .ok r := by
    refine rep_returns harg (by rw [h1]; simp) (by rw [h3]; positivity) ?_ ?_
    · intro i p hi _
      obtain ⟨x, hx⟩ := at_ i hi
      exact ⟨⟨x, pyGetI_natCast.2 hx⟩, pow i p hi, _, by simp only [inRps, resnetRotationalSpeed, resnetRatio_ok h0 two_ne_zero hx, bind_ok, pure_eq_ok]; rfl⟩
    · intro i hi
      obtain ⟨w, hw⟩ := pow i 0 hi
      exact ⟨⟨w * 1.2, by simp only [Fan.motorPower, ResnetFan.motorPower, if_true, hw, bind_ok, pure_eq_ok]⟩, _, rfl, by positivity⟩
  obtain ⟨r, hr⟩ := hr
  refine ⟨argsort, b, r, hb, hr, C120_resnet u brentq harg true b 2 h0 ?_ hr⟩
  rw [h1]
  intro x hx
  simp only [List.mem_cons, List.not_mem_nil, or_false] at hx
  rcases hx with rfl | rfl <;> norm_num

/-- Construction keeps the design pressure of a PSC fan. -/
theorem psc_design (u : Units ℝ) {airflows : List ℝ} {p e : ℝ} {s : PSC} (h : PSC.init u airflows p e = .ok s) : s.base.designESP = p := by
  simp only [PSC.init, bind_eq_ok] at h
  obtain ⟨b, hb, h⟩ := h
  obtain ⟨a0, e0, -, -, rfl⟩ := start_eq_ok hb
  refine addAll_inv (P := fun s : PSC => s.base.designESP = p) ?_ airflows _ _ rfl (exec_eq_ok h)
  intro s s' x hs hx
  obtain ⟨b', hb, -, -, rfl⟩ := PSC.addSpeed_ok u hx
  obtain ⟨-, rfl⟩ := Base.addSpeed_ok hb
  exact hs

/-- C120 for PSC fans made from positive airflows of which the first is the largest: a representation is generated, and its speeds lie in the declared range. -/
theorem C120_psc_constructed (u : Units ℝ) (brentq : Brentq) {argsort : List ℝ → List Nat} (harg : ∀ l, IsArgsort l (argsort l)) (a : ℝ) (l : List ℝ) (p e : ℝ) (hp : 0 ≤ p)
    (hpos : ∀ x ∈ a :: l, 0 < x) (hle : ∀ x ∈ l, x ≤ a) : ∃ s r, PSC.init u (a :: l) p e = .ok s ∧
      fanRep argsort s.base.airflow.length s.base.designESP (s.airflow u brentq) (s.power u brentq) (inRps u (s.rotationalSpeed u brentq)) (motorPower (s.power u brentq))
        (fun i => pyGetI s.blockPressure i) = .ok r ∧ SpeedsInRange r := by
  obtain ⟨s, hs, hair⟩ := C17_constructs u (a :: l) p e (by simp) hpos hp
  have hd := psc_design u hs
  obtain ⟨hc, f0, hf0, hr⟩ := C69_psc_records u _ _ _ _ _ hs .start
  obtain ⟨⟨-, l1, l2, l3, l4, l5⟩, h1, h2, h3, h4, -, h6⟩ := hc
  have hred : 0 ≤ s.designReduction := by rw [h6, hd]; exact PSC.reduction_nonneg u hp
  have hfree : ∀ f ∈ s.freeAirflow, 0 < f ∧ f ≤ f0 := by
    have : f0 = a + s.designReduction := by rw [h1, hair] at hf0; simpa using hf0.symm
    rw [h1, hair, this]
    intro f hf
    obtain ⟨x, hx, rfl⟩ := List.mem_map.1 hf
    have := hpos x hx
    refine ⟨by linarith, ?_⟩
    rcases List.mem_cons.1 hx with rfl | hx
    · exact le_rfl
    · have := hle x hx; linarith
  have hf00 : 0 < f0 := (hfree f0 (List.mem_of_getElem? hf0)).1
  have at_ : ∀ i : Nat, i < s.base.airflow.length → ∃ f ε b w, s.freeAirflow[i]? = some f ∧ s.speedEfficacy[i]? = some ε ∧ s.blockPressure[i]? = some b ∧ 0 < b ∧ s.freeSpeed[i]? = some w := by
    intro i hi
    obtain ⟨f, hf⟩ := exists_getElem? (l := s.freeAirflow) (l1 ▸ hi)
    obtain ⟨ε, hε⟩ := exists_getElem? (l := s.speedEfficacy) (l3 ▸ hi)
    obtain ⟨b, hb⟩ := exists_getElem? (l := s.blockPressure) (l4 ▸ hi)
    obtain ⟨w, hw⟩ := exists_getElem? (l := s.freeSpeed) (l5 ▸ hi)
    refine ⟨f, ε, b, w, hf, hε, hb, ?_, hw⟩
    rw [h2, List.getElem?_map, hf] at hb
    cases hb
    exact PSC.block_pos u (hfree f (List.mem_of_getElem? hf)).1
  have air : ∀ (i : Nat) (q : ℝ), i < s.base.airflow.length → ∃ x, s.airflow u brentq i (some q) = .ok x := by
    intro i q hi
    obtain ⟨f, ε, b, w, hf, -⟩ := at_ i hi
    exact ⟨_, by simp only [PSC.airflow, pressureOr, PSC.airflowAt, pyGetI_natCast.2 hf, bind_ok, pure_eq_ok]; rfl⟩
  have pow : ∀ (i : Nat) (q : ℝ), i < s.base.airflow.length → ∃ x, s.power u brentq i (some q) = .ok x := by
    intro i q hi
    obtain ⟨x, hx⟩ := air i q hi
    obtain ⟨f, ε, b, w, -, hε, -⟩ := at_ i hi
    exact ⟨_, by simp only [PSC.power, hx, PSC.efficacy, pyGetI_natCast.2 hε, bind_ok, pure_eq_ok]; rfl⟩
  have rot : ∀ (i : Nat) (q : ℝ), i < s.base.airflow.length → ∃ x, inRps u (s.rotationalSpeed u brentq) i (some q) = .ok x := by
    intro i q hi
    obtain ⟨f, ε, b, w, -, -, hb, b0, hw⟩ := at_ i hi
    simp only [inRps, PSC.rotationalSpeed, pressureOr, pyGetI_natCast.2 hb, pyGetI_natCast.2 hw, bind_ok, pure_eq_ok, pdiv_ok b0.ne']
    split
    · exact ⟨_, rfl⟩
    · exact ⟨_, rfl⟩
  obtain ⟨r, hrep⟩ : ∃ r, fanRep argsort s.base.airflow.length s.base.designESP (s.airflow u brentq) (s.power u brentq) (inRps u (s.rotationalSpeed u brentq)) (motorPower (s.power u brentq))
      (fun i => pyGetI s.blockPressure i) = .ok r := by
    refine rep_returns harg (by rw [hair]; simp) (by rw [hd]; exact hp) (fun i q hi _ => ⟨air i q hi, pow i q hi, rot i q hi⟩) fun i hi => ⟨?_, ?_⟩
    · obtain ⟨x, hx⟩ := pow i 0 hi
      exact ⟨x * 1.2, by simp only [Fan.motorPower, hx, bind_ok, pure_eq_ok]⟩
    · obtain ⟨f, ε, b, w, -, -, hb, b0, -⟩ := at_ i hi
      exact ⟨b, pyGetI_natCast.2 hb, b0.le⟩
  refine ⟨s, r, hs, hrep, C120_psc u brentq harg _ _ _ s s hs .start (fun f hf => (hfree f hf).1) ?_ hrep⟩
  rw [hr]
  intro x hx
  obtain ⟨f, hf, rfl⟩ := List.mem_map.1 hx
  obtain ⟨g0, g1⟩ := hfree f hf
  exact ⟨by positivity, ((div_le_one hf00).2 g1).trans (by norm_num)⟩

example (u : Units ℝ) (brentq : Brentq) {argsort : List ℝ → List Nat} (harg : ∀ l, IsArgsort l (argsort l)) := C120_psc_constructed u brentq harg 2 [1] 1 1 one_pos.le (by simp) (by simp)

end Resdx.Props

namespace Resdx.Sample

open Spec Tabular BaseModel Props ResnetFan Fan Table Build

/-- `C120_variable_ratings`: units of any capacity with SEER2 18 and EER2 12. -/
example {brentq : Brentq} (hbr : BrentqSpec brentq) {argsort : List ℝ → List Nat} (harg : ∀ l, IsArgsort l (argsort l)) {q κ : ℝ} (hq : 0 < q) (h1 : 2.1 ≤ κ) (h2 : κ ≤ 5) :=
  C120_variable_ratings hbr harg (varSizes_usual hq h1 h2) (varSizes_surroundings hbr hq)

end Resdx.Sample
