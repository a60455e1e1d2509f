import Verif.Spec.FanImpeller
import Verif.Model.FanEfficiency
import Verif.Props.FanSearch
import Verif.Props.FanEfficiency
import Verif.Props.RepVariable

/-!
# C120: the rotational speeds of fan representations lie in the declared range
-/

set_option linter.unusedSectionVars false
set_option linter.unusedSimpArgs false

namespace Resdx.Props

open Fan Spec

/-- Every listed rotational speed is that of a setting at a pressure of the grid. -/
theorem rep_speeds {argsort : List ℝ → List Nat} (harg : ∀ l, IsArgsort l (argsort l)) {n : Nat} {designESP : ℝ}
    {airflow power rot : Int → Option ℝ → Py ℝ} {maxPower maxStatic : Int → Py ℝ} {r : Rep}
    (h : fanRep argsort n designESP airflow power rot maxPower maxStatic = .ok r) :
    ∃ (last : Nat) (ms : ℝ), last < n ∧ maxStatic last = .ok ms ∧ r.minRps = 0 ∧ r.maxRps = 25 ∧
      ∀ pt ∈ r.points, ∃ (i : Nat) (p : ℝ), i < n ∧ rot i (some p) = .ok pt.2.2 ∧ (0 ≤ ms → 0 ≤ p ∧ p ≤ ms) := by
  simp only [fanRep, bind_eq_ok, pure_eq_ok, Except.ok.injEq] at h
  obtain ⟨m, hm, last, hlast, mp, hmp, ms, hms, pts, hpts, nom, hnom, rfl⟩ := h
  obtain ⟨hperm, -⟩ := C24_order_map argsort harg airflow n m hm
  have hmem : ∀ i ∈ m, i < n := fun i hi => by simpa using hperm.mem_iff.1 hi
  have hlm : last ∈ m := List.mem_of_getLast? (pyGetI_neg_one hlast)
  refine ⟨last, ms, hmem _ hlm, hms, rfl, by norm_num, ?_⟩
  intro pt hpt
  simp only [mapLoop, bind_eq_ok, pure_eq_ok, Except.ok.injEq] at hpts
  obtain ⟨rows, hrows, rfl⟩ := hpts
  obtain ⟨row, hrow, hpt⟩ := List.mem_flatten.1 hpt
  obtain ⟨k, hk, hkr⟩ := mapM_mem _ _ _ hrows row hrow
  simp only [bind_eq_ok, pyGet_eq_ok] at hkr
  obtain ⟨i, hi, hkr⟩ := hkr
  obtain ⟨p, hp, hq⟩ := mapM_mem _ _ _ hkr pt hpt
  simp only [bind_eq_ok, pure_eq_ok, Except.ok.injEq] at hq
  obtain ⟨w, hw, a, ha, v, hv, rfl⟩ := hq
  refine ⟨i, p, hmem i (List.mem_of_getElem? hi), hv, fun hms0 => ?_⟩
  simp only [pressureGrid, List.mem_map, List.mem_range] at hp
  obtain ⟨j, hj, rfl⟩ := hp
  have hj0 : (0 : ℝ) ≤ j := Nat.cast_nonneg j
  have hj5 : (j : ℝ) ≤ 5 := by exact_mod_cast (by omega : j ≤ 5)
  constructor
  · positivity
  · rw [div_le_iff₀ (by norm_num)]; nlinarith

/-- The listed speeds lie in the range when the fan turns between 0 and 1500 rpm at every setting and pressure of the grid. -/
theorem in_range (u : Units ℝ) {argsort : List ℝ → List Nat} (harg : ∀ l, IsArgsort l (argsort l)) {n : Nat} {designESP ms : ℝ}
    {airflow power rot : Int → Option ℝ → Py ℝ} {maxPower maxStatic : Int → Py ℝ} {r : Rep}
    (h : fanRep argsort n designESP airflow power (inRps u rot) maxPower maxStatic = .ok r) (hms : ∀ i m, maxStatic i = .ok m → 0 ≤ m ∧ m ≤ ms)
    (hrot : ∀ (i : Nat) (p w : ℝ), i < n → 0 ≤ p → p ≤ ms → rot i (some p) = .ok w → 0 ≤ w ∧ w ≤ 1500 * u.rpm) : SpeedsInRange r := by
  have hrpm := u.rpm_pos
  obtain ⟨last, m, -, hm, h1, h2, hpts⟩ := rep_speeds harg h
  refine ⟨h1, h2, fun pt hpt => ?_⟩
  obtain ⟨i, p, hi, hw, hp⟩ := hpts pt hpt
  obtain ⟨m0, m1⟩ := hms _ _ hm
  obtain ⟨p0, p1⟩ := hp m0
  simp only [inRps, bind_eq_ok, pure_eq_ok, Except.ok.injEq] at hw
  obtain ⟨w, hw, e⟩ := hw
  obtain ⟨w0, w1⟩ := hrot i p w hi p0 (p1.trans m1) hw
  rw [← e]
  refine ⟨by positivity, ?_⟩
  rw [div_le_iff₀ (by positivity)]
  linarith

/-- C120 for the fans that turn in proportion to their airflow (constant-efficacy, EERE and RESNET fans): the listed speeds lie in the declared range when no setting delivers more than 15/11 of the
airflow of the first one at a pressure of the grid. -/
theorem C120_proportional (u : Units ℝ) {argsort : List ℝ → List Nat} (harg : ∀ l, IsArgsort l (argsort l)) (m : Methods) {n : Nat} {designESP ms : ℝ}
    {maxPower maxStatic : Int → Py ℝ} {r : Rep} (h : fanRep argsort n designESP m.airflow m.power (inRps u (m.rotationalSpeed u)) maxPower maxStatic = .ok r)
    (hms : ∀ i x, maxStatic i = .ok x → 0 ≤ x ∧ x ≤ ms)
    (hair : ∀ (i : Nat) (p x a0 : ℝ), i < n → 0 ≤ p → p ≤ ms → m.airflow i (some p) = .ok x → m.airflow 0 (some p) = .ok a0 → 0 ≤ x ∧ x ≤ 15 / 11 * a0) : SpeedsInRange r := by
  have hrpm := u.rpm_pos
  refine in_range u harg h hms fun i p w hi p0 p1 hw => ?_
  simp only [Methods.rotationalSpeed, Methods.airflowRatio, bind_eq_ok, pure_eq_ok, Except.ok.injEq, pdiv_eq_ok] at hw
  obtain ⟨q, ⟨x, hx, a0, ha0, hne, rfl⟩, rfl⟩ := hw
  obtain ⟨x0, x1⟩ := hair i p x a0 hi p0 p1 hx ha0
  have a0p : 0 < a0 := lt_of_le_of_ne (by linarith) (Ne.symm hne)
  have r0 : 0 ≤ x / a0 := by positivity
  have r1 : x / a0 ≤ 15 / 11 := (div_le_iff₀ a0p).2 x1
  constructor
  · positivity
  · nlinarith

/-- C120 for RESNET fans of either motor. -/
theorem C120_resnet (u : Units ℝ) (brentq : Brentq) {argsort : List ℝ → List Nat} (harg : ∀ l, IsArgsort l (argsort l)) (psc : Bool) (b : Base) (a0 : ℝ) (h0 : b.airflow[0]? = some a0)
    (hair : ∀ x ∈ b.airflow, 0 ≤ x ∧ x ≤ 15 / 11 * a0) {r : Rep} (h : ResnetFan.fanRepresentation u brentq argsort psc b = .ok r) : SpeedsInRange r := by
  have hi := u.inH2O_pos
  refine C120_proportional u harg (resnetMethods brentq (ResnetFan.motorPower u brentq psc) b) h (ms := 1.2 * u.inH2O) (by rintro i x hx; cases hx; exact ⟨by positivity, le_rfl⟩) ?_
  intro i p x y hi p0 p1 hx hy
  have e0 : pyGetI b.airflow ((0 : Nat) : Int) = .ok a0 := pyGetI_natCast.2 h0
  have hy' : pyGetI b.airflow ((0 : Nat) : Int) = .ok y := hy
  rw [e0] at hy'
  cases hy'
  exact hair x (List.mem_of_getElem? (pyGetI_natCast.1 hx))

/-- C120 for constant-efficacy fans. -/
theorem C120_constant (u : Units ℝ) (brentq : Brentq) {argsort : List ℝ → List Nat} (harg : ∀ l, IsArgsort l (argsort l)) (s : ConstEff) (a0 : ℝ) (h0 : s.base.airflow[0]? = some a0)
    (hair : ∀ x ∈ s.base.airflow, 0 ≤ x ∧ x ≤ 15 / 11 * a0) {r : Rep}
    (h : fanRep argsort s.base.airflow.length s.base.designESP s.airflow s.power (inRps u ((s.methods brentq).rotationalSpeed u)) (motorPower s.power) (fun _ => .ok (1.2 * u.inH2O)) = .ok r) :
    SpeedsInRange r := by
  have hi := u.inH2O_pos
  refine C120_proportional u harg (s.methods brentq) h (ms := 1.2 * u.inH2O) (by rintro i x hx; cases hx; exact ⟨by positivity, le_rfl⟩) ?_
  intro i p x y hi p0 p1 hx hy
  have e0 : pyGetI s.base.airflow ((0 : Nat) : Int) = .ok a0 := pyGetI_natCast.2 h0
  have hy' : pyGetI s.base.airflow ((0 : Nat) : Int) = .ok y := hy
  rw [e0] at hy'
  cases hy'
  exact hair x (List.mem_of_getElem? (pyGetI_natCast.1 hx))

/-- C120 for PSC fans: after construction and any history, when no setting has more than 1500/1040 of the first setting's free airflow. -/
theorem C120_psc (u : Units ℝ) (brentq : Brentq) {argsort : List ℝ → List Nat} (harg : ∀ l, IsArgsort l (argsort l)) (airflows : List ℝ) (p0 e : ℝ) (s0 s : PSC)
    (h0 : PSC.init u airflows p0 e = .ok s0) (hreach : FanReach (addPSC u) PSC.removeSpeed anySetting s0 s) (hfree : ∀ f ∈ s.freeAirflow, 0 < f)
    (hratio : ∀ x ∈ s.freeRatio, 0 ≤ x ∧ x ≤ 1500 / 1040) {r : Rep}
    (h : fanRep argsort s.base.airflow.length s.base.designESP (s.airflow u brentq) (s.power u brentq) (inRps u (s.rotationalSpeed u brentq)) (motorPower (s.power u brentq))
      (fun i => pyGetI s.blockPressure i) = .ok r) : SpeedsInRange r := by
  have hrpm := u.rpm_pos
  obtain ⟨ha, h1, h2, h3, h4, h5, h6⟩ : PSC.Consistent u s := reach_inv (PSC.init_consistent u h0) (fun _ _ _ => PSC.add_consistent u) (fun _ _ hs _ => PSC.remove_consistent u hs) hreach
  have bpos : ∀ x ∈ s.blockPressure, 0 < x := by
    rw [h2]
    intro x hx
    obtain ⟨f, hf, rfl⟩ := List.mem_map.1 hx
    exact PSC.block_pos u (hfree f hf)
  obtain ⟨ms, hms⟩ : ∃ ms, ∀ x ∈ s.blockPressure, x ≤ ms := by
    refine ⟨s.blockPressure.sum, fun x hx => List.single_le_sum (fun y hy => (bpos y hy).le) x hx⟩
  have hget : ∀ (i : Int) (m : ℝ), pyGetI s.blockPressure i = .ok m → m ∈ s.blockPressure := by
    intro i m hm
    rw [pyGetI_eq_ok] at hm
    obtain ⟨k, -, hk⟩ := hm
    exact List.mem_of_getElem? hk
  refine in_range u harg h (ms := ms) (fun i m hm => ⟨(bpos m (hget i m hm)).le, hms m (hget i m hm)⟩) ?_
  intro i p w hi hp0 hp1 hw
  simp only [PSC.rotationalSpeed, pressureOr, bind_ok, bind_eq_ok] at hw
  obtain ⟨bp, hbp, hw⟩ := hw
  have hb := bpos bp (hget _ _ hbp)
  split at hw
  · cases hw
    constructor <;> linarith
  · rename_i hle
    simp only [bind_eq_ok, pdiv_eq_ok, pure_eq_ok, Except.ok.injEq] at hw
    obtain ⟨f, hf, f', hf', bp', hbp', q, ⟨-, rfl⟩, rfl⟩ := hw
    rw [hbp] at hbp'; cases hbp'
    rw [hf] at hf'; cases hf'
    have hfm : f ∈ s.freeSpeed := by
      rw [pyGetI_eq_ok] at hf
      obtain ⟨k, -, hk⟩ := hf
      exact List.mem_of_getElem? hk
    rw [h4] at hfm
    obtain ⟨x, hx, rfl⟩ := List.mem_map.1 hfm
    obtain ⟨x0, x1⟩ := hratio x hx
    have hp : 0 ≤ p / bp := by positivity
    have hp' : p / bp ≤ 1 := (div_le_one hb).2 (not_lt.1 hle)
    have e1 : (1100 * u.rpm - 1040 * u.rpm * x) * p / bp = (1100 * u.rpm - 1040 * u.rpm * x) * (p / bp) := by ring
    show 0 ≤ 1040 * u.rpm * x + _ ∧ 1040 * u.rpm * x + _ ≤ _
    rw [e1]
    generalize p / bp = t at *
    have e2 : 1040 * u.rpm * x + (1100 * u.rpm - 1040 * u.rpm * x) * t = u.rpm * (1040 * x * (1 - t) + 1100 * t) := by ring
    have g1 : 0 ≤ 1040 * x * (1 - t) + 1100 * t := by
      have : 0 ≤ x * (1 - t) := mul_nonneg x0 (by linarith)
      linarith
    have g2 : 1040 * x * (1 - t) + 1100 * t ≤ 1500 := by
      have : x * (1 - t) ≤ 1500 / 1040 * (1 - t) := mul_le_mul_of_nonneg_right x1 (by linarith)
      linarith
    rw [e2]
    constructor
    · positivity
    · nlinarith

/-- The share of the rotational speed of an ECM fan that the power limit leaves, from the limited power `P`: between none and all of it. -/
theorem limited_share {a ε P p v : ℝ} (ha0 : 0 < a) (E0 : 0 < ε) (P0 : 0 ≤ P) (P1 : P ≤ a * ε)
    (hv : (if p = 0 then (.ok a : Py ℝ) else do let q ← pdiv P (a * ε); let y ← ppow q 0.5; pdiv (a * p * y) p) = .ok v) (hv0 : v ≠ 0) : 0 ≤ P / v / ε ∧ P / v / ε ≤ 1 := by
  have W0 : 0 < a * ε := mul_pos ha0 E0
  split at hv
  · cases hv
    exact ⟨by positivity, by rw [div_div, div_le_one W0]; exact P1⟩
  · rename_i hp0
    have hq0 : 0 ≤ P / (a * ε) := by positivity
    have hq1 : P / (a * ε) ≤ 1 := (div_le_one W0).2 P1
    simp only [bind_eq_ok, pdiv_eq_ok] at hv
    obtain ⟨q, ⟨-, rfl⟩, y, hy, -, rfl⟩ := hv
    rw [ppow_half hq0] at hy
    cases hy
    have e1 : a * p * Real.sqrt (P / (a * ε)) / p = a * Real.sqrt (P / (a * ε)) := by field_simp
    rw [e1] at hv0 ⊢
    have s0 : 0 < Real.sqrt (P / (a * ε)) := lt_of_le_of_ne (Real.sqrt_nonneg _) fun hc => hv0 (by rw [← hc, mul_zero])
    have s1 : Real.sqrt (P / (a * ε)) ^ 2 = P / (a * ε) := Real.sq_sqrt hq0
    have s2 : Real.sqrt (P / (a * ε)) ≤ 1 := Real.sqrt_le_one.2 hq1
    generalize Real.sqrt (P / (a * ε)) = z at *
    have e2 : P = z ^ 2 * (a * ε) := by rw [s1]; field_simp
    rw [e2]
    have : z ^ 2 * (a * ε) / (a * z) / ε = z := by field_simp
    rw [this]; exact ⟨s0.le, s2⟩

/-- What the power limit leaves of the rotational speed of an ECM fan: between none and all of it. -/
theorem ecm_speed (u : Units ℝ) (brentq : Brentq) {s : ECM} {i : Nat} {a e ρ p w : ℝ} (ha : s.base.airflow[i]? = some a) (he : s.freeEfficacy[i]? = some e) (hρ : s.base.ratio[i]? = some ρ)
    (ha0 : 0 < a) (he0 : 0 ≤ e) (hm : ∀ m, s.maxPower = some m → 0 ≤ m) (hp : 0 ≤ p) (hw : s.rotationalSpeed u brentq i (some p) = .ok w) :
    ∃ κ, 0 ≤ κ ∧ κ ≤ 1 ∧ w = (1100 * u.rpm - ECM.speedSlopeESP u * (s.base.designESP - p)) * ρ * κ := by
  have hcfm := u.cfm_pos
  have hin := u.inH2O_pos
  have hS : 0 < ECM.slopeESP u := by unfold ECM.slopeESP; positivity
  obtain ⟨w1, w2⟩ := powerAt_eq (u := u) p ha he
  simp only [ECM.rotationalSpeed, pressureOr, bind_ok, ECM.unconstrainedRotationalSpeed, pyGetI_natCast.2 hρ, ECM.efficacyAt, ECM.airflowAt, w1, w2, ECM.unconstrainedEfficacy, pyGetI_natCast.2 ha,
    pyGetI_natCast.2 he, pure_eq_ok, bind_eq_ok, pdiv_eq_ok, Except.ok.injEq] at hw
  obtain ⟨f, ⟨v, hv, hv0, rfl⟩, κ, ⟨hne, rfl⟩, rfl⟩ := hw
  have E0 : 0 < e + ECM.slopeESP u * p := lt_of_le_of_ne (by positivity) (Ne.symm hne)
  have W0 : 0 < a * (e + ECM.slopeESP u * p) := mul_pos ha0 E0
  cases hmp : s.maxPower with
  | none =>
    simp only [hmp] at hv
    obtain ⟨k0, k1⟩ := limited_share ha0 E0 W0.le le_rfl hv hv0
    exact ⟨_, k0, k1, rfl⟩
  | some m =>
    simp only [hmp] at hv
    obtain ⟨k0, k1⟩ := limited_share ha0 E0 (le_min W0.le (hm m hmp)) (min_le_left _ _) hv hv0
    exact ⟨_, k0, k1, rfl⟩

/-- C120 for ECM fans: after construction and any history keeping the first setting, when no setting has more airflow than the first, the design pressure lies between 0.3371 and 1100/463.5 inches of
water, the free efficacy at design is not negative and neither is the maximum power. -/
theorem C120_ecm_partial (u : Units ℝ) (brentq : Brentq) {argsort : List ℝ → List Nat} (harg : ∀ l, IsArgsort l (argsort l)) (airflows : List ℝ) (p0 e : ℝ) (m : Option ℝ) (s0 s : ECM)
    (h0 : ECM.init u airflows p0 e m = .ok s0) (hreach : FanReach addECM ECM.removeSpeed (notFirst ECM.base) s0 s) (hfree : ECM.slopeESP u * p0 ≤ e)
    (hair : ∀ a0, s.base.airflow[0]? = some a0 → ∀ a ∈ s.base.airflow, 0 < a ∧ a ≤ a0) (hmax : ∀ m, s.maxPower = some m → 0 ≤ m)
    (hlow : 0.3371 * u.inH2O ≤ s.base.designESP) (hhigh : s.base.designESP ≤ 1100 / 463.5 * u.inH2O) {r : Rep}
    (h : fanRep argsort s.base.airflow.length s.base.designESP (s.airflow u brentq) (s.power u brentq) (inRps u (s.rotationalSpeed u brentq)) (s.motorPower u)
      (fun _ => .ok (1.2 * u.inH2O)) = .ok r) : SpeedsInRange r := by
  have hi := u.inH2O_pos
  have hrpm := u.rpm_pos
  obtain ⟨a0, -, ea0, hrec⟩ := C69_ecm_records u airflows p0 e m s0 s h0 hreach
  obtain ⟨hlen, hrat⟩ := C14_ecm u airflows p0 e m s0 s h0 hreach
  have a0p := (hair a0 ea0 a0 (List.mem_of_getElem? ea0)).1
  refine in_range u harg h (ms := 1.2 * u.inH2O) (by rintro i x hx; cases hx; exact ⟨by positivity, le_rfl⟩) ?_
  intro i p w hi' hp hp' hw
  obtain ⟨a, ha⟩ := exists_getElem? hi'
  obtain ⟨apos, ale⟩ := hair a0 ea0 a (List.mem_of_getElem? ha)
  have he : s.freeEfficacy[i]? = some ((e - ECM.slopeESP u * p0) * (a / a0) * (a / a0)) := by rw [hrec, List.getElem?_map, ha]; rfl
  have r0 : 0 ≤ a / a0 := by positivity
  have r1 : a / a0 ≤ 1 := (div_le_one a0p).2 ale
  obtain ⟨κ, k0, k1, rfl⟩ := ecm_speed u brentq ha he (hrat i a0 a ea0 ha) apos (mul_nonneg (mul_nonneg (by linarith) r0) r0) hmax hp hw
  have e1 : 1100 * u.rpm - ECM.speedSlopeESP u * (s.base.designESP - p) = u.rpm * (1100 - 463.5 * ((s.base.designESP - p) / u.inH2O)) := by
    unfold ECM.speedSlopeESP; field_simp
  have d1 : (s.base.designESP - p) / u.inH2O ≤ 1100 / 463.5 := by rw [div_le_iff₀ hi]; linarith
  have d2 : -(1.2 - 0.3371) ≤ (s.base.designESP - p) / u.inH2O := by rw [le_div_iff₀ hi]; linarith
  rw [e1]
  generalize (s.base.designESP - p) / u.inH2O = δ at *
  have g1 : 0 ≤ 1100 - 463.5 * δ := by norm_num at d1 ⊢; linarith
  have g2 : 1100 - 463.5 * δ ≤ 1500 := by norm_num at d2 ⊢; linarith
  have t0 : 0 ≤ a / a0 * κ := mul_nonneg r0 k0
  have t1 : a / a0 * κ ≤ 1 := mul_le_one₀ r1 k0 k1
  generalize 1100 - 463.5 * δ = z at *
  have e2 : u.rpm * z * (a / a0) * κ = u.rpm * (z * (a / a0 * κ)) := by ring
  rw [e2]
  generalize a / a0 * κ = t at *
  constructor
  · positivity
  · have : z * t ≤ 1500 := by nlinarith
    nlinarith

end Resdx.Props
