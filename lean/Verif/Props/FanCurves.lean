import Verif.Lemmas.FanCurves
import Verif.Props.FanSpeeds

/-! # Properties C16–C24: fan curves -/

set_option linter.unusedSectionVars false
set_option linter.unusedSimpArgs false

namespace Resdx.Props

open Fan Spec

/-! ## C16 -/

/-- C16: `system_flow` inverts `system_pressure` on non-negative flows. -/
theorem C16_flow_of_pressure (b : Base) (q : ℝ) (hk : 0 < b.sysConst) (hq : 0 ≤ q) :
    b.systemFlow (b.systemPressure q) = .ok q := by
  rw [Base.systemPressure, systemFlow_ok hk.ne' (sq_nonneg _), Real.sqrt_sq (mul_nonneg hq hk.le),
    mul_div_assoc, div_self hk.ne', mul_one]

/-- C16: `system_pressure` inverts `system_flow` on non-negative pressures; the flow is non-negative. -/
theorem C16_pressure_of_flow (b : Base) (p : ℝ) (hk : 0 < b.sysConst) (hp : 0 ≤ p) :
    ∃ q, b.systemFlow p = .ok q ∧ 0 ≤ q ∧ b.systemPressure q = p := by
  refine ⟨_, systemFlow_ok hk.ne' hp, div_nonneg (Real.sqrt_nonneg _) hk.le, ?_⟩
  rw [Base.systemPressure, div_mul_cancel₀ _ hk.ne', Real.sq_sqrt hp]

/-- C16: a negative pressure has no system flow (the code leaves the reals). -/
theorem C16_negative_pressure (b : Base) (p : ℝ) (hp : p < 0) : b.systemFlow p = .error .notReal := by
  simp [Base.systemFlow, ppow, not_lt.2 hp.le, hp.ne, bind_error]

/-- C16: the system curve is strictly increasing in flow. -/
theorem C16_increasing (b : Base) (q q' : ℝ) (hk : 0 < b.sysConst) (hq : 0 ≤ q) (h : q < q') :
    b.systemPressure q < b.systemPressure q' := by
  unfold Base.systemPressure
  apply pow_lt_pow_left₀ (mul_lt_mul_of_pos_right h hk) (mul_nonneg hq hk.le) two_ne_zero

/-- C16: the system-curve constant and the design pressure never change after construction, for every class. -/
theorem C16_curve_fixed :
    (∀ (a : ℝ) (s s' : Base), Base.addSpeed a s = (.ok (), s') →
      s'.sysConst = s.sysConst ∧ s'.designESP = s.designESP) ∧
    (∀ (i : Int) (s : Base), AlignedBase s →
      (Base.removeSpeed i s).2.sysConst = s.sysConst ∧ (Base.removeSpeed i s).2.designESP = s.designESP) := by
  constructor
  · intro a s s' h
    obtain ⟨-, rfl⟩ := Base.addSpeed_ok h
    exact ⟨rfl, rfl⟩
  · intro i s hs
    rcases pyIdx_cases s.airflow.length i with ⟨k, hk, -⟩ | hk
    · rw [Base.removeSpeed_ok hk hs.2]; exact ⟨rfl, rfl⟩
    · rw [Base.removeSpeed_error hk]; exact ⟨rfl, rfl⟩

/-- C16: at construction the first design airflow sits exactly at the design pressure (and a positive design pressure and airflow give a
positive curve constant, as the theorems above require). -/
theorem C16_design_point (p : ℝ) (airflows : List ℝ) (b : Base) (h : Base.start p airflows = .ok b) :
    ∃ a0, airflows[0]? = some a0 ∧ b.designESP = p ∧ b.systemPressure a0 = p ∧ (0 < p → 0 < a0 → 0 < b.sysConst) := by
  obtain ⟨a0, h1, h2, h3, rfl⟩ := start_eq_ok h
  refine ⟨a0, h1, rfl, ?_, ?_⟩
  · simp only [Base.systemPressure]
    rw [mul_div_cancel₀ _ h2, Real.sq_sqrt h3]
  · intro hp ha
    exact div_pos (Real.sqrt_pos.2 hp) ha

example : ∃ b, Base.start 1 [2] = .ok b ∧ 0 < b.sysConst := by
  have h : Base.start 1 [2] = .ok ⟨1, 0, [], [], Real.sqrt 1 / 2⟩ := by
    simp [Base.start, systemCurveConstant, pyGet, bind_ok, ppow_half, pdiv_ok, pure_eq_ok]
  exact ⟨_, h, by norm_num⟩

/-! ## C17 -/

/-- C17: for every setting of a PSC fan, after any history, airflow is never negative, never increases with pressure, and is zero exactly
from the setting's block pressure upward. -/
theorem C17_airflow_curve (u : Units ℝ) (airflows : List ℝ) (p0 e : ℝ) (s0 s : PSC)
    (h0 : PSC.init u airflows p0 e = .ok s0) (h : FanReach (addPSC u) PSC.removeSpeed anySetting s0 s)
    (i : Nat) (hi : (i : Int) < s.base.n) :
    ∃ (q : ℝ → ℝ) (bp : ℝ), pyGetI s.blockPressure i = .ok bp ∧ (∀ p, s.airflowAt u i p = .ok (q p)) ∧
      (∀ p, 0 ≤ q p) ∧ (∀ p p', p ≤ p' → q p' ≤ q p) ∧ (∀ p, q p = 0 ↔ bp ≤ p) := by
  have hc : PSC.Consistent u s := reach_inv (PSC.init_consistent u h0) (fun _ _ _ => PSC.add_consistent u)
    (fun _ _ hs _ => PSC.remove_consistent u hs) h
  obtain ⟨ha, h1, h2, h3, h4, h5, h6⟩ := hc
  have hlt : i < s.freeAirflow.length := by rw [ha.2.1]; have := ha.1.1; omega
  obtain ⟨f, hf⟩ := exists_getElem? hlt
  have hfm : f ∈ s.freeAirflow := List.mem_of_getElem? hf
  refine ⟨fun p => max (f - PSC.reduction u p) 0, PSC.blockOf u f, ?_, ?_, ?_, ?_, ?_⟩
  · rw [pyGetI_natCast, h2, List.getElem?_map, hf]; rfl
  · intro p; simp [PSC.airflowAt, pyGetI_natCast.2 hf, bind_ok, pure_eq_ok]
  · intro p; exact le_max_right _ _
  · intro p p' hp
    exact max_le_max (by have := PSC.reduction_mono u hp; linarith) (le_refl _)
  · intro p
    rw [← PSC.reduction_ge_iff u (h5 f hfm)]
    simp

/-- C17: a speed added for a non-negative airflow at a given pressure delivers that airflow at that pressure (and, added without a
pressure, at the design pressure). -/
theorem C17_requested_airflow (u : Units ℝ) (airflows : List ℝ) (p0 e : ℝ) (s0 s s' : PSC)
    (h0 : PSC.init u airflows p0 e = .ok s0) (h : FanReach (addPSC u) PSC.removeSpeed anySetting s0 s)
    (a : ℝ) (p : Option ℝ) (ha : 0 ≤ a) (hadd : PSC.addSpeed u a p s = (.ok (), s')) :
    s'.airflowAt u s.base.n (p.getD s.base.designESP) = .ok a := by
  have hc : PSC.Consistent u s := reach_inv (PSC.init_consistent u h0) (fun _ _ _ => PSC.add_consistent u)
    (fun _ _ hs _ => PSC.remove_consistent u hs) h
  obtain ⟨hal, -, -, -, -, -, h6⟩ := hc
  obtain ⟨b', hb, -, hl, rfl⟩ := PSC.addSpeed_ok u hadd
  have hidx : pyGetI (s.freeAirflow ++ [PSC.storedAirflow u s a p + s.designReduction]) s.base.n =
      .ok (PSC.storedAirflow u s a p + s.designReduction) := by
    rw [hal.1.1, pyGetI_natCast, ← hal.2.1]; simp
  simp only [PSC.airflowAt, hidx, bind_ok, pure_eq_ok, Except.ok.injEq]
  cases p with
  | none => simp only [PSC.storedAirflow, Option.getD_none, h6]; rw [add_sub_cancel_right]; exact max_eq_left ha
  | some p =>
    simp only [PSC.storedAirflow, Option.getD_some]
    rw [show a - (s.designReduction - PSC.reduction u p) + s.designReduction - PSC.reduction u p = a by ring]
    exact max_eq_left ha

theorem psc_add_ok_of_pos {u : Units ℝ} {s : PSC} {a : ℝ} (hs : PSC.Consistent u s) (hpos : ∀ x ∈ s.base.airflow, 0 < x)
    (hp : 0 ≤ s.base.designESP) (ha : 0 < a) : ∃ s', PSC.addSpeed u a none s = (.ok (), s') ∧
      s'.base.airflow = s.base.airflow ++ [a] ∧ s'.base.designESP = s.base.designESP := by
  have hred : 0 ≤ s.designReduction := by rw [hs.2.2.2.2.2.2]; exact PSC.reduction_nonneg u hp
  have h0 : s.base.airflow.headD a ≠ 0 := by
    cases hl : s.base.airflow with
    | nil => simpa using ha.ne'
    | cons c cs => simpa using (hpos c (by simp [hl])).ne'
  have h1 : s.freeAirflow.headD (a + s.designReduction) ≠ 0 := by
    rw [hs.2.1]
    cases hl : s.base.airflow with
    | nil => simp; linarith
    | cons c cs => simp; have := hpos c (by simp [hl]); linarith
  have h2 : 0 < (a + s.designReduction) / PSC.coef u + 1 := by
    have := PSC.coef_pos u; positivity
  obtain ⟨s', hs'⟩ := PSC.addSpeed_of_ok u (s := s) (a := a) (p := none) h0 h1 h2
  refine ⟨s', hs', ?_⟩
  obtain ⟨b', hb, -, -, rfl⟩ := PSC.addSpeed_ok u hs'
  obtain ⟨-, rfl⟩ := Base.addSpeed_ok hb
  exact ⟨rfl, rfl⟩

theorem psc_addAll_ok {u : Units ℝ} : ∀ (l : List ℝ) (s : PSC), PSC.Consistent u s → (∀ x ∈ s.base.airflow, 0 < x) →
    0 ≤ s.base.designESP → (∀ a ∈ l, 0 < a) →
    ∃ s', addAll (fun a => PSC.addSpeed u a) l s = (.ok (), s') ∧ s'.base.airflow = s.base.airflow ++ l := by
  intro l
  induction l with
  | nil => intro s _ _ _ _; exact ⟨s, rfl, by simp⟩
  | cons a l ih =>
    intro s hs hpos hp hl
    obtain ⟨s1, h1, h2, h3⟩ := psc_add_ok_of_pos hs hpos hp (hl a List.mem_cons_self)
    obtain ⟨s2, h4, h5⟩ := ih s1 (PSC.add_consistent u hs h1)
      (by rw [h2]; simp only [List.mem_append, List.mem_singleton]; rintro x (hx | rfl)
          · exact hpos x hx
          · exact hl x List.mem_cons_self)
      (h3 ▸ hp) (fun x hx => hl x (List.mem_cons_of_mem _ hx))
    refine ⟨s2, ?_, by rw [h5, h2]; simp⟩
    simp only [addAll, PyM.bind_run, h1, h4]

/-- C17: a PSC fan can be built from every non-empty list of positive airflows at a non-negative design pressure. -/
theorem C17_constructs (u : Units ℝ) (airflows : List ℝ) (p e : ℝ) (hne : airflows ≠ []) (hpos : ∀ a ∈ airflows, 0 < a)
    (hp : 0 ≤ p) : ∃ s, PSC.init u airflows p e = .ok s ∧ s.base.airflow = airflows := by
  cases airflows with
  | nil => exact absurd rfl hne
  | cons a l =>
    have ha : a ≠ 0 := (hpos a List.mem_cons_self).ne'
    have hst : Base.start p (a :: l) = .ok
        { designESP := p, n := 0, airflow := [], ratio := [], sysConst := Real.sqrt p / a } := by
      simp [Base.start, systemCurveConstant, pyGet, bind_ok, ppow_half hp, pdiv_ok ha, pure_eq_ok]
    obtain ⟨s, h1, h2⟩ := psc_addAll_ok (u := u) (a :: l)
      { base := { designESP := p, n := 0, airflow := [], ratio := [], sysConst := Real.sqrt p / a }
        designEfficacy := e, designReduction := PSC.reduction u p, freeAirflow := []
        freeRatio := [], speedEfficacy := [], blockPressure := [], freeSpeed := [] }
      (by simp [PSC.Consistent, AlignedPSC, AlignedBase]) (by simp) hp hpos
    refine ⟨s, ?_, by simpa using h2⟩
    rw [PSC.init, hst, bind_ok, PyM.exec, h1]

example (u : Units ℝ) : ∃ s0 s, PSC.init u [2, 1] 1 1 = .ok s0 ∧
    FanReach (addPSC u) PSC.removeSpeed anySetting s0 s ∧ s.base.airflow = [2, 1] := by
  obtain ⟨s, h1, h2⟩ := C17_constructs u [2, 1] 1 1 (by simp) (by simp) one_pos.le
  exact ⟨s, s, h1, .start, h2⟩

/-! ## C18 -/

/-- C18 (settings not faster than 1100/1040 of the first): the rotational speed never exceeds the limit, never decreases with pressure and
reaches the limit exactly at the block pressure. -/
theorem C18_rotational_speed_partial (u : Units ℝ) (brentq : Brentq) (airflows : List ℝ) (p0 e : ℝ) (s0 s : PSC)
    (h0 : PSC.init u airflows p0 e = .ok s0) (h : FanReach (addPSC u) PSC.removeSpeed anySetting s0 s)
    (i : Nat) (hi : (i : Int) < s.base.n) (f r : ℝ) (hf : s.freeAirflow[i]? = some f) (hfp : 0 < f)
    (hr : s.freeRatio[i]? = some r) (hr1 : r ≤ 1100 / 1040) :
    ∃ (w : ℝ → ℝ) (bp : ℝ), pyGetI s.blockPressure i = .ok bp ∧ 0 < bp ∧
      (∀ p, s.rotationalSpeed u brentq i (some p) = .ok (w p)) ∧
      (∀ p, w p ≤ 1100 * u.rpm) ∧ (∀ p p', p ≤ p' → w p ≤ w p') ∧ w bp = 1100 * u.rpm := by
  have hrpm := u.rpm_pos
  have hc : PSC.Consistent u s := reach_inv (PSC.init_consistent u h0) (fun _ _ _ => PSC.add_consistent u)
    (fun _ _ hs _ => PSC.remove_consistent u hs) h
  obtain ⟨ha, h1, h2, h3, h4, h5, h6⟩ := hc
  have hb : s.blockPressure[i]? = some (PSC.blockOf u f) := by rw [h2, List.getElem?_map, hf]; rfl
  have hs : s.freeSpeed[i]? = some (1040 * u.rpm * r) := by rw [h4, List.getElem?_map, hr]; rfl
  have hbp := PSC.block_pos u hfp
  have hgap : 0 ≤ 1100 * u.rpm - 1040 * u.rpm * r := by
    have : 1040 * r ≤ 1100 := by rw [le_div_iff₀ (by norm_num)] at hr1; linarith
    nlinarith
  generalize hB : PSC.blockOf u f = bp at *
  refine ⟨fun p => if bp < p then 1100 * u.rpm
      else 1040 * u.rpm * r + (1100 * u.rpm - 1040 * u.rpm * r) * p / bp, bp, pyGetI_natCast.2 hb, hbp, ?_, ?_, ?_, ?_⟩
  · intro p
    simp only [PSC.rotationalSpeed, pressureOr, bind_ok, pyGetI_natCast.2 hb, pyGetI_natCast.2 hs, pdiv_ok hbp.ne']
    split <;> rfl
  · intro p
    beta_reduce
    split
    · exact le_refl _
    · rename_i hp
      have : (1100 * u.rpm - 1040 * u.rpm * r) * p / bp ≤ 1100 * u.rpm - 1040 * u.rpm * r := by
        rw [div_le_iff₀ hbp]
        exact mul_le_mul_of_nonneg_left (not_lt.1 hp) hgap
      linarith
  · intro p p' hpp
    beta_reduce
    by_cases hp : bp < p
    · rw [if_pos hp, if_pos (lt_of_lt_of_le hp hpp)]
    · rw [if_neg hp]
      split
      · have : (1100 * u.rpm - 1040 * u.rpm * r) * p / bp ≤ 1100 * u.rpm - 1040 * u.rpm * r := by
          rw [div_le_iff₀ hbp]
          exact mul_le_mul_of_nonneg_left (not_lt.1 hp) hgap
        linarith
      · have : (1100 * u.rpm - 1040 * u.rpm * r) * p / bp ≤ (1100 * u.rpm - 1040 * u.rpm * r) * p' / bp := by
          apply div_le_div_of_nonneg_right _ hbp.le
          exact mul_le_mul_of_nonneg_left hpp hgap
        linarith
  · simp only [lt_irrefl, if_false]
    rw [mul_div_assoc, div_self hbp.ne']
    ring

/-- C18 (false for faster settings): a setting with more than 1100/1040 of the first setting's free airflow turns faster than the limit at
zero pressure, and slows down to it as the pressure rises. -/
theorem C18_faster_setting_exceeds_limit (u : Units ℝ) (brentq : Brentq) (s : PSC) (i : Nat) (f r : ℝ)
    (hc : PSC.Consistent u s) (hf : s.freeAirflow[i]? = some f) (hfp : 0 < f)
    (hr : s.freeRatio[i]? = some r) (hr1 : 1100 / 1040 < r) :
    ∃ w, s.rotationalSpeed u brentq i (some 0) = .ok w ∧ 1100 * u.rpm < w := by
  have hrpm := u.rpm_pos
  obtain ⟨ha, h1, h2, h3, h4, h5, h6⟩ := hc
  have hb : s.blockPressure[i]? = some (PSC.blockOf u f) := by rw [h2, List.getElem?_map, hf]; rfl
  have hs : s.freeSpeed[i]? = some (1040 * u.rpm * r) := by rw [h4, List.getElem?_map, hr]; rfl
  have hbp := PSC.block_pos u hfp
  refine ⟨1040 * u.rpm * r, ?_, ?_⟩
  · simp only [PSC.rotationalSpeed, pressureOr, bind_ok, pyGetI_natCast.2 hb, pyGetI_natCast.2 hs, pdiv_ok hbp.ne',
      if_neg (not_lt.2 hbp.le), pure_eq_ok]
    simp
  · have : 1100 < 1040 * r := by rw [div_lt_iff₀ (by norm_num)] at hr1; linarith
    nlinarith

/-- C18 refuted on a constructed two-speed fan (first speed slower than the second). -/
theorem C18_refuted (u : Units ℝ) (brentq : Brentq) :
    ¬ ∀ (airflows : List ℝ) (p0 e : ℝ) (s : PSC) (i : Nat), PSC.init u airflows p0 e = .ok s → (i : Int) < s.base.n →
      ∀ w, s.rotationalSpeed u brentq i (some 0) = .ok w → w ≤ 1100 * u.rpm := by
  intro h
  obtain ⟨s, h1, h2⟩ := C17_constructs u [1, 2] 0 1 (by simp) (by simp) (le_refl _)
  have hc := PSC.init_consistent u h1
  have hn : s.base.n = 2 := by rw [hc.1.1.1, h2]; rfl
  have hred : s.designReduction = 0 := by
    have hp : s.base.designESP = 0 := by
      simp only [PSC.init, bind_eq_ok] at h1
      obtain ⟨b, hb, h1⟩ := h1
      obtain ⟨a0, -, -, -, rfl⟩ := start_eq_ok hb
      exact addAll_inv (P := fun s : PSC => s.base.designESP = 0) (fun s s' a hs hadd => by
        obtain ⟨b', hb', -, -, rfl⟩ := PSC.addSpeed_ok u hadd
        obtain ⟨-, rfl⟩ := Base.addSpeed_ok hb'
        exact hs) [1, 2] _ _ rfl (exec_eq_ok h1)
    rw [hc.2.2.2.2.2.2, hp, PSC.reduction_zero]
  have hfree : s.freeAirflow = [1, 2] := by rw [hc.2.1, h2, hred]; simp
  -- free ratios
  have hratio : s.freeRatio = [1, 2] := by
    simp only [PSC.init, bind_eq_ok] at h1
    obtain ⟨b, hb, h1⟩ := h1
    obtain ⟨a0, -, -, -, rfl⟩ := start_eq_ok hb
    have h1 := exec_eq_ok h1
    simp only [addAll, PyM.bind_run] at h1
    split at h1
    · rename_i s1 e1
      obtain ⟨b1, -, -, -, rfl⟩ := PSC.addSpeed_ok u e1
      split at h1
      · rename_i s2 e2
        obtain ⟨b2, -, -, -, rfl⟩ := PSC.addSpeed_ok u e2
        simp only [PyM.pure_run, Prod.mk.injEq, true_and] at h1
        subst h1
        simp [PSC.storedAirflow, PSC.reduction_zero]
      · cases h1
    · cases h1
  obtain ⟨w, hw, hlt⟩ := C18_faster_setting_exceeds_limit u brentq s 1 2 2 hc (by simp [hfree]) two_pos (by simp [hratio])
    (by norm_num)
  have := h _ _ _ s 1 h1 (by rw [hn]; norm_num) w hw
  linarith

end Resdx.Props
