import Verif.Props.FanSearch

/-!
# C127: ECM fans at their power limit
-/

set_option linter.unusedSectionVars false
set_option linter.unusedSimpArgs false

namespace Resdx.Props

open Fan Spec

/-- A power under an optional limit. -/
noncomputable def capped (m : Option ℝ) (w : ℝ) : ℝ := match m with
  | some M => min w M
  | none => w

section
variable {m : Option ℝ} (hm : ∀ M, m = some M → 0 < M)
include hm

theorem capped_pos {w : ℝ} (hw : 0 < w) : 0 < capped m w := by
  cases h : m with
  | none => exact hw
  | some M => exact lt_min hw (hm M h)

theorem capped_le (w : ℝ) : capped m w ≤ w := by
  cases h : m with
  | none => exact le_rfl
  | some M => exact min_le_left _ _

theorem capped_mono {w w' : ℝ} (h : w ≤ w') : capped m w ≤ capped m w' := by
  cases m with
  | none => exact h
  | some M => exact min_le_min_right _ h

/-- The share of the power that is left falls with the power. -/
theorem capped_share {w w' : ℝ} (hw : 0 < w) (h : w ≤ w') : capped m w' / w' ≤ capped m w / w := by
  have hw' := hw.trans_le h
  cases hM : m with
  | none => simp only [capped, div_self hw.ne', div_self hw'.ne', le_refl]
  | some M =>
    have M0 := hm M hM
    simp only [capped]
    rw [div_le_div_iff₀ hw' hw]
    rcases le_total w M with g | g
    · rw [min_eq_left g]
      have := min_le_left w' M
      nlinarith
    · rw [min_eq_right g, min_eq_right (g.trans h)]
      nlinarith

end

variable (u : Units ℝ) (brentq : Brentq)

theorem slope_pos : 0 < ECM.slopeESP u := by
  have := u.cfm_pos; have := u.inH2O_pos
  unfold ECM.slopeESP; positivity

/-- The air and the power of a setting at a pressure. -/
theorem ecm_closed {s : ECM} {i : Nat} {a f : ℝ} (ha : s.base.airflow[i]? = some a) (hf : s.freeEfficacy[i]? = some f) (a0 : 0 < a) (f0 : 0 < f)
    (hm : ∀ M, s.maxPower = some M → 0 < M) {p : ℝ} (hp : 0 ≤ p) :
    s.power u brentq i (some p) = .ok (capped s.maxPower (a * (f + ECM.slopeESP u * p))) ∧
    s.airflow u brentq i (some p) =
      .ok (if p = 0 then a else a * Real.sqrt (capped s.maxPower (a * (f + ECM.slopeESP u * p)) / (a * (f + ECM.slopeESP u * p)))) := by
  obtain ⟨h1, h2⟩ := powerAt_eq (u := u) p ha hf
  have hk := slope_pos u
  have hW : 0 < a * (f + ECM.slopeESP u * p) := by positivity
  have h2' : s.powerAt u i p = .ok (capped s.maxPower (a * (f + ECM.slopeESP u * p))) := by
    rw [h2]; cases s.maxPower <;> rfl
  refine ⟨by simp only [ECM.power, pressureOr, bind_ok, h2'], ?_⟩
  simp only [ECM.airflow, pressureOr, bind_ok]
  by_cases g : p = 0
  · simp only [ECM.airflowAt, g, if_true, pyGetI_natCast.2 ha]
  · simp only [ECM.airflowAt, if_neg g, h2', h1, bind_ok, pdiv_ok hW.ne', ppow_half (div_nonneg (capped_pos hm hW).le hW.le), pyGetI_natCast.2 ha, pdiv_ok g]
    congr 1
    field_simp

theorem efficacy_closed {s : ECM} {i : Nat} {p w q : ℝ} (hw : s.power u brentq i (some p) = .ok w) (hq : s.airflow u brentq i (some p) = .ok q) (q0 : q ≠ 0) :
    s.efficacy u brentq i (some p) = .ok (w / q) := by
  simp only [ECM.power, ECM.airflow, pressureOr, bind_ok] at hw hq
  simp only [ECM.efficacy, ECM.efficacyAt, pressureOr, bind_ok, hw, hq, pdiv_ok q0]

/-- Histories that keep the first speed are histories. -/
theorem keeps_any {s0 s : ECM} (h : FanReach addECM ECM.removeSpeed (notFirst ECM.base) s0 s) : FanReach addECM ECM.removeSpeed anySetting s0 s := by
  induction h with
  | start => exact .start
  | add a _ hret ih => exact .add a ih hret
  | remove i _ _ hrun ih => exact .remove i ih trivial hrun

theorem ecm_init_max {airflows : List ℝ} {p e : ℝ} {m : Option ℝ} {s : ECM} (h : ECM.init u airflows p e m = .ok s) : s.maxPower = m := by
  obtain ⟨a0, -, -, -, -, h⟩ := ecmInit_eq h
  refine addAll_inv (P := fun s => s.maxPower = m) ?_ airflows _ _ rfl h
  intro s s' a hs ha
  obtain ⟨b', -, rfl⟩ := ECM.addSpeed_ok ha
  exact hs

section
variable (airflows : List ℝ) (p0 e : ℝ) (m : Option ℝ) (s0 s : ECM) (h0 : ECM.init u airflows p0 e m = .ok s0)
  (h : FanReach addECM ECM.removeSpeed (notFirst ECM.base) s0 s) (heff : ECM.slopeESP u * p0 < e) (hpos : ∀ a ∈ s.base.airflow, 0 < a)
  (hm : ∀ M, m = some M → 0 < M)
include h0 h heff hpos hm

theorem ecm_setting (i : Nat) (hi : i < s.base.airflow.length) : ∃ a f, s.base.airflow[i]? = some a ∧ s.freeEfficacy[i]? = some f ∧ 0 < a ∧ 0 < f ∧ s.maxPower = m := by
  obtain ⟨a0, -, ea0, hrec⟩ := C69_ecm_records u airflows p0 e m s0 s h0 h
  obtain ⟨a, ha⟩ := exists_getElem? hi
  have a0p := hpos a0 (List.mem_of_getElem? ea0)
  have ap := hpos a (List.mem_of_getElem? ha)
  refine ⟨a, (e - ECM.slopeESP u * p0) * (a / a0) * (a / a0), ha, by rw [hrec, List.getElem?_map, ha]; rfl, ap, ?_, ?_⟩
  · have : 0 < e - ECM.slopeESP u * p0 := by linarith
    positivity
  · have h1 := C19_limit_fixed s s0 (keeps_any h) (ecmInit_aligned h0)
    rw [h1]
    exact ecm_init_max u h0

/-- C127: with rising pressure no setting of an ECM fan delivers more air, draws less power or less power for its air, after any history of adding and removing speeds. -/
theorem C127_curves (i : Nat) (hi : i < s.base.airflow.length) :
    ∃ q w η : ℝ → ℝ, (∀ p, 0 ≤ p → s.airflow u brentq i (some p) = .ok (q p) ∧ s.power u brentq i (some p) = .ok (w p) ∧ s.efficacy u brentq i (some p) = .ok (η p) ∧
        0 < q p ∧ q p * η p = w p) ∧
      ∀ p p', 0 ≤ p → p ≤ p' → q p' ≤ q p ∧ w p ≤ w p' ∧ η p ≤ η p' := by
  obtain ⟨a, f, ha, hf, a0, f0, rfl⟩ := ecm_setting u airflows p0 e m s0 s h0 h heff hpos hm i hi
  have hk := slope_pos u
  let W : ℝ → ℝ := fun p => a * (f + ECM.slopeESP u * p)
  let q : ℝ → ℝ := fun p => if p = 0 then a else a * Real.sqrt (capped s.maxPower (W p) / W p)
  have W0 : ∀ {p}, 0 ≤ p → 0 < W p := fun hp => by simp only [W]; positivity
  have Wm : ∀ {p p'}, p ≤ p' → W p ≤ W p' := fun hp => by
    simp only [W]
    have := mul_le_mul_of_nonneg_left hp hk.le
    exact mul_le_mul_of_nonneg_left (by linarith) a0.le
  have S0 : ∀ {p}, 0 ≤ p → 0 < Real.sqrt (capped s.maxPower (W p) / W p) := fun hp => Real.sqrt_pos.2 (div_pos (capped_pos hm (W0 hp)) (W0 hp))
  have S1 : ∀ {p}, 0 ≤ p → Real.sqrt (capped s.maxPower (W p) / W p) ≤ 1 := fun hp => Real.sqrt_le_one.2 ((div_le_one (W0 hp)).2 (capped_le hm _))
  have q0 : ∀ {p}, 0 ≤ p → 0 < q p := fun {p} hp => by
    simp only [q]; split
    · exact a0
    · exact mul_pos a0 (S0 hp)
  have qm : ∀ {p p'}, 0 ≤ p → p ≤ p' → q p' ≤ q p := fun {p p'} hp hpp => by
    have hp' := hp.trans hpp
    simp only [q]
    by_cases g : p = 0
    · rw [if_pos g]
      split
      · exact le_rfl
      · have := S1 hp'; nlinarith
    · rw [if_neg g, if_neg fun (g' : p' = 0) => g (le_antisymm (g' ▸ hpp) hp)]
      exact mul_le_mul_of_nonneg_left (Real.sqrt_le_sqrt (capped_share hm (W0 hp) (Wm hpp))) a0.le
  have wm : ∀ {p p'}, p ≤ p' → capped s.maxPower (W p) ≤ capped s.maxPower (W p') := fun hpp => capped_mono hm (Wm hpp)
  refine ⟨q, fun p => capped s.maxPower (W p), fun p => capped s.maxPower (W p) / q p, fun p hp => ?_, fun p p' hp hpp => ⟨qm hp hpp, wm hpp, ?_⟩⟩
  · obtain ⟨e1, e2⟩ := ecm_closed u brentq ha hf a0 f0 hm hp
    exact ⟨e2, e1, efficacy_closed u brentq e1 e2 (q0 hp).ne', q0 hp, mul_div_cancel₀ _ (q0 hp).ne'⟩
  · have hp' := hp.trans hpp
    exact div_le_div₀ (capped_pos hm (W0 hp')).le (wm hpp) (q0 hp') (qm hp hpp)

/-- C127: at a positive pressure the airflow falls as the square root of the share of the power that is left; `W` is what the same fan would draw without a limit. -/
theorem C127_law (i : Nat) (p : ℝ) (hp : 0 < p) {a : ℝ} (ha : s.base.airflow[i]? = some a) :
    ∃ q w W, s.airflow u brentq i (some p) = .ok q ∧ s.power u brentq i (some p) = .ok w ∧ ({ s with maxPower := none } : ECM).power u brentq i (some p) = .ok W ∧
      0 < q ∧ 0 < W ∧ q ^ 2 * W = a ^ 2 * w ∧ (∀ M, m = some M → M ≤ W → w = M) ∧ ((∀ M, m = some M → W ≤ M) → w = W ∧ q = a) := by
  obtain ⟨a', f, ha', hf, a0, f0, rfl⟩ := ecm_setting u airflows p0 e m s0 s h0 h heff hpos hm i (List.getElem?_eq_some_iff.1 ha).1
  obtain rfl : a' = a := by rw [ha] at ha'; exact (Option.some.inj ha').symm
  have hk := slope_pos u
  obtain ⟨e1, e2⟩ := ecm_closed u brentq ha hf a0 f0 hm hp.le
  obtain ⟨e3, -⟩ := ecm_closed (s := { s with maxPower := none }) u brentq ha hf a0 f0 (fun _ h => by simp at h) hp.le
  rw [if_neg hp.ne'] at e2
  have hW : 0 < a' * (f + ECM.slopeESP u * p) := by positivity
  generalize a' * (f + ECM.slopeESP u * p) = W at *
  have hc := capped_pos hm hW
  refine ⟨_, _, _, e2, e1, e3, mul_pos a0 (Real.sqrt_pos.2 (div_pos hc hW)), hW, ?_, ?_, ?_⟩
  · rw [mul_pow, Real.sq_sqrt (div_pos hc hW).le]
    show a' ^ 2 * (capped s.maxPower W / W) * W = _
    field_simp
  · intro M hM hle
    replace hle : M ≤ W := hle
    simp only [hM, capped, min_eq_right hle]
  · intro hle
    have : capped s.maxPower W = W := by
      cases hM : s.maxPower with
      | none => rfl
      | some M => exact min_eq_left (hle M hM)
    rw [this, div_self hW.ne', Real.sqrt_one, mul_one]
    exact ⟨rfl, rfl⟩

/-- C127: a higher limit never means less air or less power. -/
theorem C127_higher_limit (i : Nat) (p M M' : ℝ) (hp : 0 ≤ p) (hM : m = some M) (hMM : M ≤ M') (hi : i < s.base.airflow.length) :
    ∃ q q' w w', s.airflow u brentq i (some p) = .ok q ∧ ({ s with maxPower := some M' } : ECM).airflow u brentq i (some p) = .ok q' ∧
      s.power u brentq i (some p) = .ok w ∧ ({ s with maxPower := some M' } : ECM).power u brentq i (some p) = .ok w' ∧ q ≤ q' ∧ w ≤ w' := by
  obtain ⟨a, f, ha, hf, a0, f0, hs⟩ := ecm_setting u airflows p0 e m s0 s h0 h heff hpos hm i hi
  have hk := slope_pos u
  have hm' : ∀ N, ({ s with maxPower := some M' } : ECM).maxPower = some N → 0 < N := fun N hN => by
    obtain rfl : M' = N := by simpa using hN
    exact (hm M hM).trans_le hMM
  obtain ⟨e1, e2⟩ := ecm_closed u brentq ha hf a0 f0 (hs ▸ hm) hp
  obtain ⟨e3, e4⟩ := ecm_closed (s := { s with maxPower := some M' }) u brentq ha hf a0 f0 hm' hp
  have hW : 0 < a * (f + ECM.slopeESP u * p) := by positivity
  generalize a * (f + ECM.slopeESP u * p) = W at *
  have hc : capped s.maxPower W ≤ capped (some M') W := by
    rw [hs, hM]; exact min_le_min_left _ hMM
  refine ⟨_, _, _, _, e2, e4, e1, e3, ?_, hc⟩
  split
  · exact le_rfl
  · exact mul_le_mul_of_nonneg_left (Real.sqrt_le_sqrt (div_le_div_of_nonneg_right hc hW.le)) a0.le

/-- C127, continuity: if a setting would exceed the limit even without any pressure, it delivers its full airflow at zero pressure and at most a fixed fraction of it at
any positive pressure. -/
theorem C127_jump (i : Nat) {a M W : ℝ} (ha : s.base.airflow[i]? = some a) (hM : m = some M)
    (hW : ({ s with maxPower := none } : ECM).power u brentq i (some 0) = .ok W) (hlt : M < W) :
    s.airflow u brentq i (some 0) = .ok a ∧ s.power u brentq i (some 0) = .ok M ∧
      ∀ p, 0 < p → ∃ q, s.airflow u brentq i (some p) = .ok q ∧ q ≤ a * Real.sqrt (M / W) ∧ q < a := by
  obtain ⟨a', f, ha', hf, a0, f0, rfl⟩ := ecm_setting u airflows p0 e m s0 s h0 h heff hpos hm i (List.getElem?_eq_some_iff.1 ha).1
  obtain rfl : a' = a := by rw [ha] at ha'; exact (Option.some.inj ha').symm
  have hk := slope_pos u
  have M0 := hm M hM
  obtain ⟨e3, -⟩ := ecm_closed (s := { s with maxPower := none }) u brentq ha hf a0 f0 (fun _ h => by simp at h) le_rfl
  obtain rfl : a' * (f + ECM.slopeESP u * 0) = W := by rw [hW] at e3; exact (Except.ok.inj e3).symm
  obtain ⟨e1, e2⟩ := ecm_closed u brentq ha hf a0 f0 hm le_rfl
  rw [if_pos rfl] at e2
  refine ⟨e2, by rw [e1, hM]; simp only [capped, min_eq_right hlt.le], fun p hp => ?_⟩
  obtain ⟨-, e5⟩ := ecm_closed u brentq ha hf a0 f0 hm hp.le
  rw [if_neg hp.ne'] at e5
  have hWW : a' * (f + ECM.slopeESP u * 0) ≤ a' * (f + ECM.slopeESP u * p) := by
    have := mul_pos hk hp
    exact mul_le_mul_of_nonneg_left (by linarith) a0.le
  have h1 : capped s.maxPower (a' * (f + ECM.slopeESP u * p)) / (a' * (f + ECM.slopeESP u * p)) ≤ M / (a' * (f + ECM.slopeESP u * 0)) := by
    have := capped_share hm (M0.trans hlt) hWW
    rwa [show capped s.maxPower (a' * (f + ECM.slopeESP u * 0)) = M by rw [hM]; exact min_eq_right hlt.le] at this
  have h2 := mul_le_mul_of_nonneg_left (Real.sqrt_le_sqrt h1) a0.le
  have h3 : Real.sqrt (M / (a' * (f + ECM.slopeESP u * 0))) < 1 := by
    rw [Real.sqrt_lt' one_pos, one_pow, div_lt_one (M0.trans hlt)]; exact hlt
  exact ⟨_, e5, h2, h2.trans_lt (by nlinarith)⟩

/-- C127: at a positive pressure the fan turns in proportion to the air it delivers, whatever the setting and the limit: `a0` is the airflow at design, and the speed per
design airflow rises by 463.5 rpm for an inch of water, from 1100 rpm at the design pressure. At zero pressure the limit takes from the speed the share it takes from the power. -/
theorem C127_speed (i : Nat) (hi : i < s.base.airflow.length) :
    ∃ a0, s.base.airflow[0]? = some a0 ∧ 0 < a0 ∧
      (∀ p, 0 < p → ∃ q v, s.airflow u brentq i (some p) = .ok q ∧ s.rotationalSpeed u brentq i (some p) = .ok v ∧
        v = (1100 * u.rpm + 463.5 * u.rpm / u.inH2O * (p - s.base.designESP)) * (q / a0)) ∧
      ∃ q w W v, s.airflow u brentq i (some 0) = .ok q ∧ s.power u brentq i (some 0) = .ok w ∧ ({ s with maxPower := none } : ECM).power u brentq i (some 0) = .ok W ∧
        s.rotationalSpeed u brentq i (some 0) = .ok v ∧ v = (1100 * u.rpm - 463.5 * u.rpm / u.inH2O * s.base.designESP) * (q / a0) * (w / W) := by
  obtain ⟨a, f, ha, hf, apos, f0, rfl⟩ := ecm_setting u airflows p0 e m s0 s h0 h heff hpos hm i hi
  obtain ⟨a0, -, ea0, -⟩ := C69_ecm_records u airflows p0 e s.maxPower s0 s h0 h
  obtain ⟨hlen, hrat⟩ := C14_ecm u airflows p0 e s.maxPower s0 s h0 h
  have a0p := hpos a0 (List.mem_of_getElem? ea0)
  have hk := slope_pos u
  have hρ : s.base.ratio[i]? = some (a / a0) := hrat _ _ _ ea0 ha
  have key : ∀ {p q w : ℝ}, 0 ≤ p → 0 < q → s.airflow u brentq i (some p) = .ok q → s.power u brentq i (some p) = .ok w →
      s.rotationalSpeed u brentq i (some p) = .ok ((1100 * u.rpm - ECM.speedSlopeESP u * (s.base.designESP - p)) * (a / a0) * (w / q / (f + ECM.slopeESP u * p))) := by
    intro p q w hp q0 hq hw
    have hne : f + ECM.slopeESP u * p ≠ 0 := by positivity
    simp only [ECM.power, ECM.airflow, pressureOr, bind_ok] at hw hq
    simp only [ECM.rotationalSpeed, pressureOr, bind_ok, ECM.unconstrainedRotationalSpeed, pyGetI_natCast.2 hρ, ECM.efficacyAt, hq, hw, ECM.unconstrainedEfficacy, pyGetI_natCast.2 hf,
      pure_eq_ok, pdiv_ok q0.ne', pdiv_ok hne]
  refine ⟨a0, ea0, a0p, fun p hp => ?_, ?_⟩
  · obtain ⟨e1, e2⟩ := ecm_closed u brentq ha hf apos f0 hm hp.le
    rw [if_neg hp.ne'] at e2
    have hE : 0 < f + ECM.slopeESP u * p := by positivity
    have hW : 0 < a * (f + ECM.slopeESP u * p) := by positivity
    have hc := capped_pos hm hW
    have S0 := Real.sqrt_pos.2 (div_pos hc hW)
    refine ⟨_, _, e2, key hp.le (mul_pos apos S0) e2 e1, ?_⟩
    have hS := Real.sq_sqrt (div_pos hc hW).le
    generalize Real.sqrt (capped s.maxPower (a * (f + ECM.slopeESP u * p)) / (a * (f + ECM.slopeESP u * p))) = z at *
    have hc' : capped s.maxPower (a * (f + ECM.slopeESP u * p)) = z ^ 2 * (a * (f + ECM.slopeESP u * p)) := by rw [hS]; field_simp
    have : capped s.maxPower (a * (f + ECM.slopeESP u * p)) / (a * z) / (f + ECM.slopeESP u * p) = z := by rw [hc']; field_simp
    rw [this]
    unfold ECM.speedSlopeESP
    ring
  · obtain ⟨e1, e2⟩ := ecm_closed u brentq ha hf apos f0 hm le_rfl
    obtain ⟨e3, -⟩ := ecm_closed (s := { s with maxPower := none }) u brentq ha hf apos f0 (fun _ h => by simp at h) le_rfl
    rw [if_pos rfl] at e2
    refine ⟨_, _, _, _, e2, e1, e3, key le_rfl apos e2 e1, ?_⟩
    simp only [mul_zero, add_zero, sub_zero, capped]
    unfold ECM.speedSlopeESP
    rw [div_div]

end

/-- A fan with two speeds, the second one twice as fast, and a limit between their powers. -/
theorem two_speed_fan : ∃ s, ECM.init u [1, 2] 0 1 (some 2) = .ok s ∧ s.base.airflow = [1, 2] := by
  have hst : Base.start 0 [1, 2] = .ok ⟨0, 0, [], [], Real.sqrt 0 / 1⟩ := by
    simp [Base.start, systemCurveConstant, pyGet, bind_ok, ppow_half, pdiv_ok, pure_eq_ok]
  simp only [ECM.init, pyGet, List.getElem?_cons_zero, bind_ok, hst, mul_one, pure_eq_ok,
    show ¬ ((2 : ℝ) < 1) by norm_num, if_false, addAll, PyM.exec, PyM.bind_run, ECM.addSpeed, ECM.sup, PyM.zoom_run,
    Base.addSpeed_run, PyM.pure_run]
  norm_num [PyM.liftM_run, pyGetI_last, PyM.modify_run, PyM.get_run, Base.addSpeed_run, PyM.bind_run, PyM.zoom_run]
  norm_num [pyGetI, pyIdx, pyGet, bind_ok]

/-- The hypotheses of the theorems hold of it. -/
example : ∃ s, ECM.init u [1, 2] 0 1 (some 2) = .ok s ∧ FanReach addECM ECM.removeSpeed (notFirst ECM.base) s s ∧ ECM.slopeESP u * 0 < 1 ∧
    (∀ a ∈ s.base.airflow, 0 < a) ∧ (∀ M, some (2 : ℝ) = some M → 0 < M) ∧ 1 < s.base.airflow.length := by
  obtain ⟨s, h1, h2⟩ := two_speed_fan u
  refine ⟨s, h1, .start, by simp, by simp [h2], by rintro _ ⟨⟩; norm_num, by simp [h2]⟩

/-- C127, continuity, is false of the code: the second speed of this fan delivers 2 at zero pressure, and no more than half of it at any positive pressure, with the same
power. -/
theorem C127_continuity_refuted : ∃ s, ECM.init u [1, 2] 0 1 (some 2) = .ok s ∧ s.airflow u brentq (1 : Nat) (some 0) = .ok 2 ∧
    ∀ p, 0 < p → ∃ q, s.airflow u brentq (1 : Nat) (some p) = .ok q ∧ q ≤ 1 := by
  obtain ⟨s, h1, h2⟩ := two_speed_fan u
  have hpos : ∀ a ∈ s.base.airflow, 0 < a := by simp [h2]
  have hm : ∀ M, some (2 : ℝ) = some M → 0 < M := by rintro _ ⟨⟩; norm_num
  have he : ECM.slopeESP u * 0 < 1 := by simp
  obtain ⟨a0, e0, -, hrec⟩ := C69_ecm_records u [1, 2] 0 1 (some 2) s s h1 .start
  obtain rfl : 1 = a0 := by simpa using e0
  have ha : s.base.airflow[1]? = some 2 := by rw [h2]; rfl
  have hf : s.freeEfficacy[1]? = some 4 := by rw [hrec, h2]; norm_num
  obtain ⟨e3, -⟩ := ecm_closed (s := { s with maxPower := none }) u brentq ha hf two_pos four_pos (fun _ h => by simp at h) le_rfl
  have e4 : capped none (2 * (4 + ECM.slopeESP u * 0)) = 8 := by simp only [capped]; norm_num
  obtain ⟨k1, -, k3⟩ := C127_jump u brentq [1, 2] 0 1 (some 2) s s h1 .start he hpos hm 1 ha rfl (e3.trans (congrArg _ e4)) (by norm_num)
  refine ⟨s, h1, k1, fun p hp => ?_⟩
  obtain ⟨q, g1, g2, -⟩ := k3 p hp
  refine ⟨q, g1, g2.trans ?_⟩
  have : Real.sqrt (2 / 8) = 1 / 2 := by
    rw [show (2 : ℝ) / 8 = (1 / 2) ^ 2 by norm_num, Real.sqrt_sq (by norm_num)]
  rw [this]; norm_num

end Resdx.Props
