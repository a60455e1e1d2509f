import Verif.Lemmas.FanCurves
import Verif.Props.FanSpeeds
import Mathlib.Analysis.Convex.SpecificFunctions.Basic

/-! # Properties C19–C23: fan power, EERE size interpolation, RESNET efficacy and operating point -/

set_option linter.unusedSectionVars false
set_option linter.unusedSimpArgs false

namespace Resdx.Props

open Fan Spec

/-! ## C19 -/

theorem powerAt_eq {u : Units ℝ} {s : ECM} {i : Nat} {a e : ℝ} (p : ℝ) (ha : s.base.airflow[i]? = some a)
    (he : s.freeEfficacy[i]? = some e) :
    s.unconstrainedPower u i p = .ok (a * (e + ECM.slopeESP u * p)) ∧
    s.powerAt u i p = .ok (match s.maxPower with
      | some m => min (a * (e + ECM.slopeESP u * p)) m
      | none => a * (e + ECM.slopeESP u * p)) := by
  have h1 : s.unconstrainedPower u i p = .ok (a * (e + ECM.slopeESP u * p)) := by
    simp [ECM.unconstrainedPower, ECM.unconstrainedEfficacy, pyGetI_natCast.2 ha, pyGetI_natCast.2 he, bind_ok, pure_eq_ok]
  refine ⟨h1, ?_⟩
  cases hm : s.maxPower <;> simp [ECM.powerAt, h1, hm, bind_ok, pure_eq_ok]

/-- C19: an ECM fan never draws more than its maximum power, at any setting and pressure (given or operating). -/
theorem C19_power_limit (u : Units ℝ) (brentq : Brentq) (s : ECM) (i : Int) (p : Option ℝ) (w m : ℝ)
    (h : s.power u brentq i p = .ok w) (hm : s.maxPower = some m) : w ≤ m := by
  simp only [ECM.power, ECM.powerAt, bind_eq_ok, hm] at h
  obtain ⟨q, -, x, -, h⟩ := h
  simp only [pure_eq_ok, Except.ok.injEq] at h
  rw [← h]; exact min_le_right _ _

/-- C19: the maximum power is never changed by adding or removing speeds. -/
theorem C19_limit_fixed (s s0 : ECM) (h : FanReach addECM ECM.removeSpeed anySetting s0 s) (h0 : AlignedECM s0) :
    s.maxPower = s0.maxPower := by
  have := reach_inv (P := fun s => AlignedECM s ∧ s.maxPower = s0.maxPower) ⟨h0, rfl⟩ (by
    rintro s s' a ⟨hs, hm⟩ hadd
    refine ⟨ECM.add_aligned hs hadd, ?_⟩
    obtain ⟨b', -, rfl⟩ := ECM.addSpeed_ok hadd
    exact hm) (by
    rintro s i ⟨hs, hm⟩ -
    refine ⟨ECM.remove_aligned hs, ?_⟩
    rcases pyIdx_cases s.base.airflow.length i with ⟨k, hk, -⟩ | hk
    · rw [ECM.removeSpeed_ok hs hk]; exact hm
    · rw [ECM.removeSpeed_error hk]; exact hm) h
  exact this.2

/-- C19: the delivered airflow never exceeds the design airflow and equals it when the unconstrained power is within the limit (or there
is no limit). A zero unconstrained power raises `ZeroDivisionError` (`C19_zero_power_fails`). -/
theorem C19_airflow_limited (u : Units ℝ) (s : ECM) (i : Nat) (p a w : ℝ) (ha : s.base.airflow[i]? = some a) (ha0 : 0 ≤ a)
    (hal : AlignedECM s) (hw : s.unconstrainedPower u i p = .ok w) (hw0 : w ≠ 0) (hm0 : ∀ m, s.maxPower = some m → 0 ≤ m) :
    ∃ q, s.airflowAt u i p = .ok q ∧ 0 ≤ q ∧ q ≤ a ∧ ((∀ m, s.maxPower = some m → w ≤ m) → q = a) := by
  obtain ⟨e, he⟩ := exists_getElem? (l := s.freeEfficacy) (i := i)
    (by rw [hal.2]; exact (List.getElem?_eq_some_iff.1 ha).1)
  obtain ⟨h1, h2⟩ := powerAt_eq (u := u) p ha he
  rw [h1] at hw
  obtain rfl : a * (e + ECM.slopeESP u * p) = w := by simpa using hw
  generalize a * (e + ECM.slopeESP u * p) = w at *
  have hga := pyGetI_natCast.2 ha
  by_cases hp : p = 0
  · exact ⟨a, by simp [ECM.airflowAt, hp, hga], ha0, le_refl _, fun _ => rfl⟩
  have key : ∀ x : ℝ, 0 ≤ x / w → s.powerAt u i p = .ok x → s.airflowAt u i p = .ok (a * Real.sqrt (x / w)) := by
    intro x hx hpx
    simp only [ECM.airflowAt, if_neg hp, hpx, h1, bind_ok, pdiv_ok hw0, ppow_half hx, hga, pdiv_ok hp]
    congr 1
    field_simp
  cases hm : s.maxPower with
  | none =>
    simp only [hm] at h2
    refine ⟨a, ?_, ha0, le_refl _, fun _ => rfl⟩
    rw [key w (by rw [div_self hw0]; exact zero_le_one) h2, div_self hw0]; simp
  | some m =>
    simp only [hm] at h2
    have hm1 := hm0 m hm
    have hx : 0 ≤ min w m / w := by
      rcases lt_or_gt_of_ne hw0 with h | h
      · rw [min_eq_left (h.le.trans hm1), div_self hw0]; exact zero_le_one
      · exact div_nonneg (le_min h.le hm1) h.le
    have hx1 : min w m / w ≤ 1 := by
      rcases lt_or_gt_of_ne hw0 with h | h
      · rw [min_eq_left (h.le.trans hm1), div_self hw0]
      · rw [div_le_one h]; exact min_le_left _ _
    refine ⟨_, key _ hx h2, mul_nonneg ha0 (Real.sqrt_nonneg _), ?_, ?_⟩
    · have : Real.sqrt (min w m / w) ≤ 1 := Real.sqrt_le_one.2 hx1
      nlinarith
    · intro h
      rw [min_eq_left (h m rfl), div_self hw0]; simp

/-- C19: a zero unconstrained power at non-zero pressure makes the airflow query fail. -/
theorem C19_zero_power_fails (u : Units ℝ) (s : ECM) (i : Int) (p x : ℝ) (hp : p ≠ 0) (hx : s.powerAt u i p = .ok x)
    (hw : s.unconstrainedPower u i p = .ok 0) : s.airflowAt u i p = .error .zeroDivision := by
  simp [ECM.airflowAt, hp, hx, hw, bind_ok, pdiv_zero, bind_error]

/-- C19: power = airflow × efficacy wherever the efficacy is defined. -/
theorem C19_power_product (u : Units ℝ) (s : ECM) (i : Int) (p e : ℝ) (h : s.efficacyAt u i p = .ok e) :
    ∃ q w, s.airflowAt u i p = .ok q ∧ s.powerAt u i p = .ok w ∧ q * e = w := by
  simp only [ECM.efficacyAt, bind_eq_ok, pdiv_eq_ok] at h
  obtain ⟨w, hw, q, hq, h0, rfl⟩ := h
  exact ⟨q, w, hq, hw, by field_simp⟩

theorem eraseIdx_zero? {α : Type} {l : List α} {k : Nat} (hk : k ≠ 0) : (l.eraseIdx k)[0]? = l[0]? := by
  rw [List.getElem?_eraseIdx, if_pos (by omega)]

theorem append_zero? {α : Type} {l t : List α} {a : α} (h : l[0]? = some a) : (l ++ t)[0]? = some a := by
  cases l <;> simp_all

/-- What an ECM fan keeps about its first speed. -/
def ECMFirst (a0 p e : ℝ) (m : Option ℝ) (u : Units ℝ) (s : ECM) : Prop :=
  AlignedECM s ∧ s.maxPower = m ∧ s.designFreeEfficacy = e - ECM.slopeESP u * p ∧
    (s.base.airflow = [] ∨ s.base.airflow[0]? = some a0 ∧ s.freeEfficacy[0]? = some (e - ECM.slopeESP u * p))

/-- C19: the first speed draws its design power at the design pressure, within the limit, after construction and any history that keeps
it. -/
theorem C19_design_point (u : Units ℝ) (airflows : List ℝ) (p e : ℝ) (m : Option ℝ) (s0 s : ECM)
    (h0 : ECM.init u airflows p e m = .ok s0)
    (h : FanReach addECM ECM.removeSpeed (notFirst ECM.base) s0 s) :
    ∃ a0, airflows[0]? = some a0 ∧ s.powerAt u 0 p = .ok (a0 * e) ∧ (a0 * e ≠ 0 → 0 ≤ a0 * e → s.airflowAt u 0 p = .ok a0) := by
  have hs0 := h0
  obtain ⟨a0, e0, hne, hp, hmx, h0⟩ := ecmInit_eq h0
  have hadd : ∀ (s s' : ECM) a q, (ECMFirst a0 p e m u s ∧ (s.base.airflow = [] → a = a0)) → ECM.addSpeed a q s = (.ok (), s') →
      ECMFirst a0 p e m u s' ∧ s'.base.airflow ≠ [] := by
    rintro s s' a q ⟨⟨hs, h1, h2, h3⟩, h4⟩ hadd
    have hal := ECM.add_aligned hs hadd
    obtain ⟨b', hb, rfl⟩ := ECM.addSpeed_ok hadd
    obtain ⟨hh, rfl⟩ := Base.addSpeed_ok hb
    refine ⟨⟨hal, h1, h2, .inr ?_⟩, by simp⟩
    rcases h3 with h3 | ⟨h3, h3'⟩
    · have : s.freeEfficacy = [] := List.length_eq_zero_iff.1 (by rw [hs.2, h3]; rfl)
      have ha := h4 h3
      subst ha
      simp [h3, this, h2, div_self hne]
    · exact ⟨append_zero? h3, append_zero? h3'⟩
  have hinit : ECMFirst a0 p e m u s0 ∧ s0.base.airflow ≠ [] := by
    cases hl : airflows with
    | nil => simp [hl] at e0
    | cons a l =>
      obtain rfl : a = a0 := by simpa [hl] using e0
      rw [hl] at h0
      simp only [addAll, PyM.bind_run] at h0
      split at h0
      · rename_i s1 hs1
        have := hadd _ _ _ _ ⟨by simp [ECMFirst, AlignedECM, AlignedBase], fun _ => rfl⟩ hs1
        exact addAll_inv (P := fun s => ECMFirst a p e m u s ∧ s.base.airflow ≠ [])
          (fun s s' x hs hx => hadd s s' x none ⟨hs.1, fun h => absurd h hs.2⟩ hx) l _ _ this h0
      · cases h0
  have hfin : ECMFirst a0 p e m u s ∧ s.base.airflow ≠ [] := by
    refine reach_inv (P := fun s => ECMFirst a0 p e m u s ∧ s.base.airflow ≠ []) hinit
      (fun s s' x hs hx => hadd s s' x.1 x.2 ⟨hs.1, fun h => absurd h hs.2⟩ hx) ?_ h
    rintro s i ⟨⟨hs, h1, h2, h3⟩, h4⟩ ha
    rcases pyIdx_cases s.base.airflow.length i with ⟨k, hk, hlt⟩ | hk
    · have hk0 := idx_notFirst hk ha.1 ha.2
      have hal := ECM.remove_aligned (i := i) hs
      rw [ECM.removeSpeed_ok hs hk] at hal ⊢
      obtain ⟨h3, h3'⟩ := h3.resolve_left h4
      refine ⟨⟨hal, h1, h2, .inr ⟨?_, ?_⟩⟩, ?_⟩
      · simpa only [eraseIdx_zero? hk0] using h3
      · simpa only [eraseIdx_zero? hk0] using h3'
      · have : (s.base.airflow.eraseIdx k)[0]? = some a0 := by rw [eraseIdx_zero? hk0]; exact h3
        rintro h
        simp only at h
        rw [h] at this
        simp at this
    · rw [ECM.removeSpeed_error hk]
      exact ⟨⟨hs, h1, h2, h3⟩, h4⟩
  obtain ⟨⟨hal, h1, h2, h3⟩, h4⟩ := hfin
  obtain ⟨h3, h3'⟩ := h3.resolve_left h4
  obtain ⟨k1, k2⟩ := powerAt_eq (u := u) p h3 h3'
  have hE : a0 * (e - ECM.slopeESP u * p + ECM.slopeESP u * p) = a0 * e := by ring
  rw [hE] at k1 k2
  refine ⟨a0, e0, ?_, ?_⟩
  · rw [show ((0 : Int)) = ((0 : Nat) : Int) from rfl, k2, h1]
    cases m with
    | none => rfl
    | some x => exact congrArg _ (min_eq_left (hmx x rfl))
  · intro hw hw0
    have k2' : s.powerAt u 0 p = .ok (a0 * e) := by
      rw [show ((0 : Int)) = ((0 : Nat) : Int) from rfl, k2, h1]
      cases m with
      | none => rfl
      | some x => exact congrArg _ (min_eq_left (hmx x rfl))
    have hga : pyGetI s.base.airflow 0 = .ok a0 := pyGetI_natCast.2 h3
    by_cases hp0 : p = 0
    · subst hp0; simp [ECM.airflowAt, hga]
    · have k1' : s.unconstrainedPower u 0 p = .ok (a0 * e) := k1
      simp only [ECM.airflowAt, if_neg hp0, k2', k1', bind_ok, pdiv_ok hw, div_self hw, ppow_half zero_le_one, hga, pdiv_ok hp0,
        Real.sqrt_one]
      congr 1
      field_simp

/-- C19: a maximum power below the design power is rejected at construction. -/
theorem C19_rejects_small_limit (u : Units ℝ) (a : ℝ) (airflows : List ℝ) (p e m : ℝ) (h : m < a * e) :
    ECM.init u (a :: airflows) p e (some m) = .error .runtime := by
  simp [ECM.init, pyGet, bind_ok, h, throw_eq_error, bind_error]

/-- C19: the limit does not reduce the airflow reported at zero pressure, even when it reduces the power there. -/
theorem C19_free_delivery_unlimited (u : Units ℝ) (s : ECM) (i : Nat) (a : ℝ) (ha : s.base.airflow[i]? = some a) :
    s.airflowAt u i 0 = .ok a := by
  simp [ECM.airflowAt, pyGetI_natCast.2 ha]

example (u : Units ℝ) : ∃ s0, ECM.init u [2, 1] 0 1 (some 3) = .ok s0 ∧ s0.base.airflow = [2, 1] ∧ AlignedECM s0 := by
  have hst : Base.start 0 [2, 1] = .ok ⟨0, 0, [], [], Real.sqrt 0 / 2⟩ := by
    simp [Base.start, systemCurveConstant, pyGet, bind_ok, ppow_half, pdiv_ok, pure_eq_ok]
  have h : ∃ s0, ECM.init u [2, 1] 0 1 (some 3) = .ok s0 ∧ s0.base.airflow = [2, 1] := by
    simp only [ECM.init, pyGet, List.getElem?_cons_zero, bind_ok, hst, mul_one, pure_eq_ok,
      show ¬ ((3 : ℝ) < 2) by norm_num, if_false, addAll, PyM.exec, PyM.bind_run, ECM.addSpeed, ECM.sup, PyM.zoom_run,
      Base.addSpeed_run, PyM.pure_run]
    norm_num [PyM.liftM_run, pyGetI_last, PyM.modify_run, PyM.get_run, Base.addSpeed_run, PyM.bind_run, PyM.zoom_run]
    norm_num [pyGetI, pyIdx, pyGet, bind_ok]
  obtain ⟨s0, h1, h2⟩ := h
  exact ⟨s0, h1, h2, ecmInit_aligned h1⟩

/-! ## C20 -/

/-- C20: strictly above 2 and up to 5 tons the bracketing entries are adjacent, enclose the capacity and the weight is in (0, 1]. -/
theorem C20_interpolation (u : Units ℝ) (c : ℝ) (h2 : 2 * u.ton < c) (h5 : c ≤ 5 * u.ton) :
    ∃ (lo : Nat) (w : ℝ), EERE.capacityWeight u c = .ok (lo, lo + 1, w) ∧ lo < 3 ∧
      (EERE.nominalCapacities u)[lo]? = some ((lo + 2) * u.ton) ∧ (lo + 2) * u.ton < c ∧ c ≤ (lo + 3) * u.ton ∧
      c = (lo + 2 + w) * u.ton ∧ 0 < w ∧ w ≤ 1 := by
  have ht := u.ton_pos
  have e0 : ¬ c < 2 * u.ton := not_lt.2 h2.le
  have e5 : ¬ 5 * u.ton < c := not_lt.2 h5
  by_cases h3 : c ≤ 3 * u.ton
  · refine ⟨0, (c - 2 * u.ton) / u.ton, ?_, by norm_num, by norm_num [EERE.nominalCapacities], by push_cast; linarith,
      by push_cast; linarith, ?_, div_pos (by linarith) ht, by rw [div_le_one ht]; linarith⟩
    · simp only [EERE.capacityWeight, EERE.sizeIndices, EERE.nominalCapacities, pyGet, List.length_cons, List.length_nil,
        List.getElem?_cons_zero, List.getElem?_cons_succ, bind_ok, e0, e5, if_false, EERE.indexLoop, h2, if_true,
        not_lt.2 h3, not_lt.2 (h3.trans (by linarith : 3 * u.ton ≤ 4 * u.ton)), pyAttr, pure_eq_ok]
      rw [show (3 * u.ton - 2 * u.ton) = u.ton by ring, pdiv_ok ht.ne']; rfl
    · push_cast; field_simp; ring
  by_cases h4 : c ≤ 4 * u.ton
  · have h3' := not_le.1 h3
    refine ⟨1, (c - 3 * u.ton) / u.ton, ?_, by norm_num, by norm_num [EERE.nominalCapacities], by push_cast; linarith,
      by push_cast; linarith, ?_, div_pos (by linarith) ht, by rw [div_le_one ht]; linarith⟩
    · simp only [EERE.capacityWeight, EERE.sizeIndices, EERE.nominalCapacities, pyGet, List.length_cons, List.length_nil,
        List.getElem?_cons_zero, List.getElem?_cons_succ, bind_ok, e0, e5, if_false, EERE.indexLoop, h2, h3', if_true,
        not_lt.2 h4, pyAttr, pure_eq_ok]
      rw [show (4 * u.ton - 3 * u.ton) = u.ton by ring, pdiv_ok ht.ne']; rfl
    · push_cast; field_simp; ring
  · have h3' := not_le.1 h3
    have h4' := not_le.1 h4
    refine ⟨2, (c - 4 * u.ton) / u.ton, ?_, by norm_num, by norm_num [EERE.nominalCapacities], by push_cast; linarith,
      by push_cast; linarith, ?_, div_pos (by linarith) ht, by rw [div_le_one ht]; linarith⟩
    · simp only [EERE.capacityWeight, EERE.sizeIndices, EERE.nominalCapacities, pyGet, List.length_cons, List.length_nil,
        List.getElem?_cons_zero, List.getElem?_cons_succ, bind_ok, e0, e5, if_false, EERE.indexLoop, h2, h3', h4', if_true,
        pyAttr, pure_eq_ok]
      rw [show (5 * u.ton - 4 * u.ton) = u.ton by ring, pdiv_ok ht.ne']; rfl
    · push_cast; field_simp; ring

/-- C20: below 2 tons the first two entries are extrapolated (negative weight). -/
theorem C20_below (u : Units ℝ) (c : ℝ) (h : c < 2 * u.ton) :
    ∃ w, EERE.capacityWeight u c = .ok (0, 1, w) ∧ c = (2 + w) * u.ton ∧ w < 0 := by
  have ht := u.ton_pos
  refine ⟨(c - 2 * u.ton) / u.ton, ?_, by field_simp; ring, div_neg_of_neg_of_pos (by linarith) ht⟩
  simp only [EERE.capacityWeight, EERE.sizeIndices, EERE.nominalCapacities, pyGet, List.length_cons, List.length_nil,
    List.getElem?_cons_zero, List.getElem?_cons_succ, bind_ok, h, if_true, pyAttr, pure_eq_ok]
  rw [show (3 * u.ton - 2 * u.ton) = u.ton by ring, pdiv_ok ht.ne']; rfl

/-- C20: above 5 tons the last two entries are extrapolated (weight above 1). -/
theorem C20_above (u : Units ℝ) (c : ℝ) (h : 5 * u.ton < c) :
    ∃ w, EERE.capacityWeight u c = .ok (2, 3, w) ∧ c = (4 + w) * u.ton ∧ 1 < w := by
  have ht := u.ton_pos
  have h2 : ¬ c < 2 * u.ton := by linarith
  refine ⟨(c - 4 * u.ton) / u.ton, ?_, by field_simp; ring, by rw [lt_div_iff₀ ht]; linarith⟩
  simp only [EERE.capacityWeight, EERE.sizeIndices, EERE.nominalCapacities, pyGet, List.length_cons, List.length_nil,
    List.getElem?_cons_zero, List.getElem?_cons_succ, bind_ok, h2, h, if_true, if_false, pyAttr, pure_eq_ok]
  rw [show (5 * u.ton - 4 * u.ton) = u.ton by ring, pdiv_ok ht.ne']; rfl

/-- C20 (false at 2 tons): at exactly two tons no bracket is chosen and reading it raises `AttributeError`. -/
theorem C20_two_tons_fails (u : Units ℝ) : EERE.capacityWeight u (2 * u.ton) = .error .attribute := by
  have ht := u.ton_pos
  simp [EERE.capacityWeight, EERE.sizeIndices, EERE.nominalCapacities, pyGet, bind_ok, EERE.indexLoop, pyAttr, pure_eq_ok,
    show ¬ (5 * u.ton < 2 * u.ton) by linarith, show ¬ (3 * u.ton < 2 * u.ton) by linarith,
    show ¬ (4 * u.ton < 2 * u.ton) by linarith, bind_error]

theorem eere_addAll_ok {u : Units ℝ} {k : EEREKind} : ∀ (l : List ℝ) (s : EERE), (∀ a, s.base.airflow.headD a = 0 → a = 0) →
    (∀ a ∈ l, a ≠ 0) → ∃ s', addAll (fun a => EERE.addSpeed u k a) l s = (.ok (), s') ∧
      s'.base.airflow = s.base.airflow ++ l := by
  intro l
  induction l with
  | nil => intro s _ _; exact ⟨s, rfl, by simp⟩
  | cons a l ih =>
    intro s hs hl
    have ha := hl a List.mem_cons_self
    obtain ⟨s1, h1⟩ := EERE.addSpeed_of_ok u k (s := s) (a := a) (p := none) (fun h => ha (hs a h))
    have hair : s1.base.airflow = s.base.airflow ++ [a] := by
      obtain ⟨b', hb, rfl⟩ := EERE.addSpeed_ok u k h1
      obtain ⟨-, rfl⟩ := Base.addSpeed_ok hb
      rfl
    obtain ⟨s2, h2, h3⟩ := ih s1 (by
      intro x hx
      exfalso
      rw [hair] at hx
      cases hl' : s.base.airflow with
      | nil => simp [hl'] at hx; exact ha hx
      | cons c cs =>
        simp [hl'] at hx
        exact ha (hs a (by simp [hl', hx]))) (fun x hx => hl x (List.mem_cons_of_mem _ hx))
    refine ⟨s2, ?_, by rw [h3, hair]; simp⟩
    simp only [addAll, PyM.bind_run, h1, h2]

/-- C20: construction from non-zero airflows succeeds exactly as far as the size interpolation does. -/
theorem C20_construct (u : Units ℝ) (k : EEREKind) (a : ℝ) (l : List ℝ) (p : ℝ) (ha : a ≠ 0) (hl : ∀ x ∈ l, x ≠ 0) (hp : 0 ≤ p) :
    (∀ r, EERE.capacityWeight u (a / (400 * u.cfm / u.ton)) = .ok r →
      ∃ s, EERE.init u k (a :: l) p = .ok s ∧ s.base.airflow = a :: l ∧ s.lowerIndex = some r.1 ∧ s.upperIndex = some r.2.1 ∧
        s.weight = r.2.2) ∧
    (∀ e, EERE.capacityWeight u (a / (400 * u.cfm / u.ton)) = .error e → EERE.init u k (a :: l) p = .error e) := by
  have hc := u.cfm_pos
  have ht := u.ton_pos
  have hst : Base.start p (a :: l) = .ok
      { designESP := p, n := 0, airflow := [], ratio := [], sysConst := Real.sqrt p / a } := by
    simp [Base.start, systemCurveConstant, pyGet, bind_ok, ppow_half hp, pdiv_ok ha, pure_eq_ok]
  obtain ⟨s, h1, h2⟩ := eere_addAll_ok (u := u) (k := k) (a :: l)
    { base := { designESP := p, n := 0, airflow := [], ratio := [], sysConst := Real.sqrt p / a }
      freeAirflow := [], lowerIndex := none, upperIndex := none, weight := 0 } (by simp)
    (by simpa using ⟨ha, hl⟩)
  simp only [List.nil_append] at h2
  have h0 : pyGetI s.base.airflow 0 = .ok a := by
    rw [h2]; exact pyGetI_natCast.2 (by simp)
  have hd : (400 * u.cfm / u.ton) ≠ 0 := by positivity
  constructor
  · rintro ⟨lo, hi, w⟩ hr
    refine ⟨{ s with lowerIndex := some lo, upperIndex := some hi, weight := w }, ?_, h2, rfl, rfl, rfl⟩
    simp [EERE.init, hst, bind_ok, PyM.exec, h1, h0, pdiv_ok hd, hr, pure_eq_ok]
  · intro e hr
    simp [EERE.init, hst, bind_ok, PyM.exec, h1, h0, pdiv_ok hd, hr, bind_error]

/-- C20 refuted: an 800 cfm (2 ton) EERE fan cannot be constructed. -/
theorem C20_refuted (u : Units ℝ) (k : EEREKind) (p : ℝ) (hp : 0 ≤ p) :
    EERE.init u k [800 * u.cfm] p = .error .attribute := by
  have hc := u.cfm_pos
  have ht := u.ton_pos
  apply (C20_construct u k (800 * u.cfm) [] p (by positivity) (by simp) hp).2
  rw [show 800 * u.cfm / (400 * u.cfm / u.ton) = 2 * u.ton by field_simp; norm_num]
  exact C20_two_tons_fails u

/-- C20 (capacities in (2, 5] tons): the fan can be constructed, with adjacent bracketing entries and a weight in (0, 1]. -/
theorem C20_construct_partial (u : Units ℝ) (k : EEREKind) (a : ℝ) (l : List ℝ) (p : ℝ) (h2 : 800 * u.cfm < a)
    (h5 : a ≤ 2000 * u.cfm) (hl : ∀ x ∈ l, x ≠ 0) (hp : 0 ≤ p) :
    ∃ s lo, EERE.init u k (a :: l) p = .ok s ∧ s.lowerIndex = some lo ∧ s.upperIndex = some (lo + 1) ∧ lo < 3 ∧
      0 < s.weight ∧ s.weight ≤ 1 ∧ a = (lo + 2 + s.weight) * (400 * u.cfm) := by
  have hc := u.cfm_pos
  have ht := u.ton_pos
  obtain ⟨lo, w, h1, h3, -, -, -, h4, h6, h7⟩ := C20_interpolation u (a / (400 * u.cfm / u.ton))
    (by rw [lt_div_iff₀ (by positivity)]; field_simp; linarith) (by rw [div_le_iff₀ (by positivity)]; field_simp; linarith)
  obtain ⟨s, e1, -, e2, e3, e4⟩ := (C20_construct u k a l p (by linarith) hl hp).1 _ h1
  refine ⟨s, lo, e1, e2, e3, h3, by rw [e4]; exact h6, by rw [e4]; exact h7, ?_⟩
  rw [e4]
  have : a = (↑lo + 2 + w) * u.ton * (400 * u.cfm / u.ton) := by
    rw [← h4]; field_simp
  rw [this]; field_simp

theorem eere_efficacy {u : Units ℝ} {k : EEREKind} {s : EERE} {lo hi : Nat} {el eh : ℝ} (h1 : s.lowerIndex = some lo)
    (h2 : s.upperIndex = some hi) (h3 : (k.baseEff u)[lo]? = some el) (h4 : (k.baseEff u)[hi]? = some eh) (i : Int) (p : ℝ) :
    s.efficacy u k i (some p) = .ok (el + (eh - el) * s.weight + (k.effCoef u).1 * p + (k.effCoef u).2 * p * p) := by
  simp only [EERE.efficacy, h1, h2, pyAttr, bind_ok, pyGet, h3, h4, pyNum, Util.calcQuad, List.getElem?_cons_zero,
    List.getElem?_cons_succ, pure_eq_ok, Except.ok.injEq]
  ring

/-- C20: between two table capacities the efficacy at any pressure is the convex combination of the two table curves. -/
theorem C20_efficacy_between (u : Units ℝ) (k : EEREKind) (s : EERE) (lo : Nat) (el eh : ℝ) (h1 : s.lowerIndex = some lo)
    (h2 : s.upperIndex = some (lo + 1)) (h3 : (k.baseEff u)[lo]? = some el) (h4 : (k.baseEff u)[lo + 1]? = some eh)
    (hw0 : 0 ≤ s.weight) (hw1 : s.weight ≤ 1) (i : Int) (p : ℝ) :
    ∃ e, s.efficacy u k i (some p) = .ok e ∧
      min el eh + (k.effCoef u).1 * p + (k.effCoef u).2 * p * p ≤ e ∧
      e ≤ max el eh + (k.effCoef u).1 * p + (k.effCoef u).2 * p * p := by
  refine ⟨_, eere_efficacy h1 h2 h3 h4 i p, ?_, ?_⟩
  · have : min el eh ≤ el + (eh - el) * s.weight := by
      rcases le_total el eh with h | h
      · rw [min_eq_left h]; nlinarith
      · rw [min_eq_right h]; nlinarith
    linarith
  · have : el + (eh - el) * s.weight ≤ max el eh := by
      rcases le_total el eh with h | h
      · rw [max_eq_right h]; nlinarith
      · rw [max_eq_left h]; nlinarith
    linarith

/-- C20: at 3, 4 and 5 tons the tabulated efficacy curve is reproduced exactly. -/
theorem C20_table_reproduced (u : Units ℝ) (k : EEREKind) (j : Nat) (hj0 : 1 ≤ j) (hj : j ≤ 3) (l : List ℝ) (p q : ℝ)
    (hl : ∀ x ∈ l, x ≠ 0) (hp : 0 ≤ p) (i : Int) :
    ∃ s e, EERE.init u k ((j + 2) * (400 * u.cfm) :: l) p = .ok s ∧ (k.baseEff u)[j]? = some e ∧
      s.efficacy u k i (some q) = .ok (e + (k.effCoef u).1 * q + (k.effCoef u).2 * q * q) := by
  have hc := u.cfm_pos
  have hj1 : (1 : ℝ) ≤ j := by exact_mod_cast hj0
  have hj3 : (j : ℝ) ≤ 3 := by exact_mod_cast hj
  obtain ⟨s, lo, h1, h2, h3, h4, h5, h6, h7⟩ := C20_construct_partial u k ((j + 2) * (400 * u.cfm)) l p (by nlinarith)
    (by nlinarith) hl hp
  have hw : (j : ℝ) = lo + s.weight := by
    have h8 : ((j : ℝ) + 2) = lo + 2 + s.weight := by
      apply mul_right_cancel₀ (b := 400 * u.cfm) (by positivity)
      exact h7
    linarith
  have hjl : j = lo + 1 := by
    have a1 : (lo : ℝ) < j := by linarith
    have a2 : (j : ℝ) ≤ lo + 1 := by linarith
    have a1' : lo < j := by exact_mod_cast a1
    have a2' : j ≤ lo + 1 := by exact_mod_cast a2
    omega
  have hw1 : s.weight = 1 := by rw [hjl] at hw; push_cast at hw; linarith
  have hlen : (k.baseEff u).length = 4 := by cases k <;> rfl
  obtain ⟨el, hel⟩ := exists_getElem? (l := k.baseEff u) (i := lo) (by omega)
  obtain ⟨eh, heh⟩ := exists_getElem? (l := k.baseEff u) (i := lo + 1) (by omega)
  refine ⟨s, eh, h1, hjl ▸ heh, ?_⟩
  rw [eere_efficacy h2 h3 hel heh, hw1]
  congr 1
  ring

example (u : Units ℝ) : 800 * u.cfm < 1000 * u.cfm ∧ 1000 * u.cfm ≤ 2000 * u.cfm := by
  have := u.cfm_pos
  constructor <;> linarith

/-! ## C21 -/

/-- C21: a speed added to an EERE fan delivers the requested airflow at the requested pressure, or, without one, at the system pressure of
that airflow; for every control variant and after any history. -/
theorem C21_requested_airflow (u : Units ℝ) (k : EEREKind) (airflows : List ℝ) (p0 : ℝ) (s0 s s' : EERE)
    (h0 : EERE.init u k airflows p0 = .ok s0) (h : FanReach (addEERE u k) EERE.removeSpeed anySetting s0 s)
    (a : ℝ) (p : Option ℝ) (hadd : EERE.addSpeed u k a p s = (.ok (), s')) :
    s'.airflow u k s.base.n (some (p.getD (s.base.systemPressure a))) = .ok a := by
  have hs : AlignedEERE s := reach_inv (eereInit_aligned h0).1 (fun _ _ _ => EERE.add_aligned u k)
    (fun _ _ hs _ => EERE.remove_aligned hs) h
  obtain ⟨b', hb, rfl⟩ := EERE.addSpeed_ok u k hadd
  have hpp : s.addPressure a p = p.getD (s.base.systemPressure a) := by cases p <;> rfl
  have hidx : pyGetI (s.freeAirflow ++ [a - EERE.offset u k (p.getD (s.base.systemPressure a))]) s.base.n =
      .ok (a - EERE.offset u k (p.getD (s.base.systemPressure a))) := by
    rw [hs.1.1, pyGetI_natCast, ← hs.2]; simp
  simp only [EERE.airflow, hpp, hidx, bind_ok, pyNum, Util.calcQuad, pyGet, List.getElem?_cons_zero,
    List.getElem?_cons_succ, pure_eq_ok, Except.ok.injEq]
  simp only [EERE.offset]
  ring

example (u : Units ℝ) (k : EEREKind) : ∃ s0 s', EERE.init u k [1000 * u.cfm] 1 = .ok s0 ∧
    EERE.addSpeed u k (500 * u.cfm) (some 1) s0 = (.ok (), s') := by
  have hc := u.cfm_pos
  obtain ⟨s, lo, h1, -⟩ := C20_construct_partial u k (1000 * u.cfm) [] 1 (by linarith) (by linarith) (by simp) zero_le_one
  obtain ⟨a0, h2, -⟩ : ∃ a0, s.base.airflow[0]? = some a0 ∧ a0 = 1000 * u.cfm := by
    have ht := u.ton_pos
    obtain ⟨lo, w, e1, -⟩ := C20_interpolation u (1000 * u.cfm / (400 * u.cfm / u.ton))
      (by rw [lt_div_iff₀ (by positivity)]; field_simp; linarith) (by rw [div_le_iff₀ (by positivity)]; field_simp; linarith)
    obtain ⟨s', e2, e3, -⟩ := (C20_construct u k (1000 * u.cfm) [] 1 (by positivity) (by simp) zero_le_one).1 _ e1
    rw [h1] at e2; cases e2
    exact ⟨_, by rw [e3]; rfl, rfl⟩
  have : ∃ s', EERE.addSpeed u k (500 * u.cfm) (some 1) s = (.ok (), s') := by
    apply EERE.addSpeed_of_ok
    have ht := u.ton_pos
    obtain ⟨lo, w, e1, -⟩ := C20_interpolation u (1000 * u.cfm / (400 * u.cfm / u.ton))
      (by rw [lt_div_iff₀ (by positivity)]; field_simp; linarith) (by rw [div_le_iff₀ (by positivity)]; field_simp; linarith)
    obtain ⟨s', e2, e3, -⟩ := (C20_construct u k (1000 * u.cfm) [] 1 (by positivity) (by simp) zero_le_one).1 _ e1
    rw [h1] at e2; cases e2
    rw [e3]; simp; exact hc.ne'
  obtain ⟨s', h3⟩ := this
  exact ⟨s, s', h1, h3⟩

end Resdx.Props
