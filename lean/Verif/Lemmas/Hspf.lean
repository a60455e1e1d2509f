import Verif.Model.Hspf
import Verif.Spec.Heating
import Verif.Lemmas.Scale

/-! # Lemmas about the seasonal heating rating -/

set_option linter.unusedSectionVars false
set_option linter.unusedSimpArgs false

namespace Resdx.DX

open Spec Performance BaseModel

variable {C K : Type} [Field K] [LinearOrder K] [IsStrictOrderedRing K]

theorem cutFactor_ok (off on t cop : K) : cutFactor off (some on) t cop = .ok (runFraction off on t cop) := by
  unfold cutFactor runFraction
  split
  · rfl
  · simp only [pyAttr, bind_ok, pure_eq_ok]
    split <;> norm_num

/-- What any value of the cut-out factor satisfies. -/
theorem cutFactor_bounds {off t cop d : K} {on : Option K} (h : cutFactor off on t cop = .ok d) :
    0 ≤ d ∧ d ≤ 1 ∧ (d ≠ 0 → off < t ∧ 1 ≤ cop) := by
  unfold cutFactor at h
  split at h
  · simp only [Except.ok.injEq] at h; subst h; simp
  · rename_i hn
    push Not at hn
    simp only [bind_eq_ok] at h
    obtain ⟨x, _, hx⟩ := h
    split at hx <;> simp only [pure_eq_ok, Except.ok.injEq] at hx <;> subst hx <;> exact ⟨by norm_num, by norm_num, fun _ => hn⟩

theorem cutFactor_below {off t cop : K} (on : Option K) (h : t ≤ off) : cutFactor off on t cop = .ok 0 := by simp [cutFactor, h]

theorem single_inv {cd bl q p d hlf n e rh : K} (hbl : 0 ≤ bl) (hh : loadFactor bl q = .ok hlf) (h : heatSingleBin cd bl q p d hlf n = .ok (e, rh)) :
    e = d * oneStageRate cd q p bl * n ∧ rh = (bl - d * min bl q) * n := by
  simp only [heatSingleBin, bind_eq_ok, pdiv_eq_ok, pure_eq_ok, Except.ok.injEq, Prod.mk.injEq] at h
  obtain ⟨x, ⟨_, rfl⟩, rfl, rfl⟩ := h
  unfold loadFactor at hh
  unfold oneStageRate
  by_cases hb : bl < q
  · have hq : q ≠ 0 := (hbl.trans_lt hb).ne'
    rw [if_pos hb, pdiv_ok hq, Except.ok.injEq] at hh
    subst hh
    rw [if_pos hb, min_eq_left hb.le, mul_div_cancel₀ _ hq]
    refine ⟨by unfold cyclingRate; ring, by ring⟩
  · rw [if_neg hb, Except.ok.injEq] at hh
    subst hh
    rw [if_neg hb, min_eq_right (not_lt.mp hb)]
    refine ⟨by rw [sub_self, mul_zero, sub_zero, div_one]; ring, by ring⟩

theorem single_ok {cd bl q p d n : K} (hcd : 0 ≤ cd) (hcd1 : cd < 1) (hbl : 0 ≤ bl) :
    ∃ hlf, loadFactor bl q = .ok hlf ∧ heatSingleBin cd bl q p d hlf n = .ok (d * oneStageRate cd q p bl * n, (bl - d * min bl q) * n) := by
  by_cases hb : bl < q
  · have hq : 0 < q := hbl.trans_lt hb
    have h1 : 0 ≤ bl / q := by positivity
    have h2 : bl / q ≤ 1 := (div_le_one hq).2 hb.le
    have h3 : 0 < 1 - cd * (1 - bl / q) := by nlinarith
    have hl : loadFactor bl q = .ok (bl / q) := by simp [loadFactor, hb, pdiv_ok hq.ne']
    refine ⟨_, hl, ?_⟩
    have h4 : ∃ e rh, heatSingleBin cd bl q p d (bl / q) n = .ok (e, rh) := ⟨_, _, by simp only [heatSingleBin, pdiv_ok h3.ne', bind_ok, pure_eq_ok]; rfl⟩
    obtain ⟨e, rh, h5⟩ := h4
    obtain ⟨h6, h7⟩ := single_inv hbl hl h5
    rw [h5, h6, h7]
  · have hl : loadFactor bl q = .ok 1 := by simp [loadFactor, hb]
    refine ⟨_, hl, ?_⟩
    have h4 : ∃ e rh, heatSingleBin cd bl q p d 1 n = .ok (e, rh) :=
      ⟨_, _, by simp only [heatSingleBin, sub_self, mul_zero, sub_zero, pdiv_ok one_ne_zero, bind_ok, pure_eq_ok]; rfl⟩
    obtain ⟨e, rh, h5⟩ := h4
    obtain ⟨h6, h7⟩ := single_inv hbl hl h5
    rw [h5, h6, h7]

theorem low_inv {cd bl q p d n e rh : K} (h : heatLowBin cd bl q p d n = .ok (e, rh)) :
    q ≠ 0 ∧ e = d * cyclingRate cd q p bl * n ∧ rh = (bl - d * bl) * n := by
  simp only [heatLowBin, bind_eq_ok, pdiv_eq_ok, pure_eq_ok, Except.ok.injEq, Prod.mk.injEq] at h
  obtain ⟨x, ⟨hq, rfl⟩, y, ⟨_, rfl⟩, rfl, rfl⟩ := h
  exact ⟨hq, by unfold cyclingRate; ring, by ring⟩

theorem modulating_inv {s : HeatSettings K} {t bl q0 c0 q1 c1 n e rh : K} (h : heatModulatingBin s t bl q0 c0 q1 c1 n = .ok (e, rh)) :
    ∃ d, cutFactor s.off s.on t (lineAt q0 c0 q1 c1 bl) = .ok d ∧ lineAt q0 c0 q1 c1 bl ≠ 0 ∧ e = d * (bl / lineAt q0 c0 q1 c1 bl) * n ∧ rh = (bl - d * bl) * n := by
  simp only [heatModulatingBin, bind_eq_ok, pdiv_eq_ok, pure_eq_ok, Except.ok.injEq, Prod.mk.injEq] at h
  obtain ⟨x, ⟨_, rfl⟩, d, hd, y, ⟨hc, rfl⟩, rfl, rfl⟩ := h
  have e : c0 + (c1 - c0) / (q1 - q0) * (bl - q0) = lineAt q0 c0 q1 c1 bl := by simp only [lineAt]; ring
  rw [e] at hd hc ⊢
  exact ⟨d, hd, hc, by ring, by ring⟩

/-- The regimes of a two-stage bin. -/
theorem two_inv {s : HeatSettings K} {prev prev' : Option K} {t bl qL pL cL qF pF d hlf n e rh : K}
    (h : heatTwoBin s prev t bl qL pL cL qF pF d hlf n = .ok ((e, rh), prev')) :
    (bl ≤ qL ∧ ∃ dl, cutFactor s.off s.on t cL = .ok dl ∧ prev' = some dl ∧ qL ≠ 0 ∧ e = dl * cyclingRate s.cd qL pL bl * n ∧ rh = (bl - dl * bl) * n) ∨
    (qL < bl ∧ bl < qF ∧ s.cyc = .lowFull ∧ ∃ dl, prev = some dl ∧ prev' = prev ∧ e = dl * lineAt qL pL qF pF bl * n ∧ rh = (bl - dl * bl) * n) ∨
    (qL < bl ∧ bl < qF ∧ s.cyc = .offFull ∧ ∃ dl, prev = some dl ∧ prev' = prev ∧
      e = d * (pF * hlf / (1 - s.cd * (1 - (qF - bl) / (qF - qL)))) * n ∧ rh = (bl - dl * bl) * n) ∨
    (qL < bl ∧ qF ≤ bl ∧ prev' = prev ∧ e = d * pF * n ∧ rh = (bl - d * qF) * n) := by
  unfold heatTwoBin at h
  by_cases h1 : bl ≤ qL
  · left
    rw [if_pos h1] at h
    simp only [bind_eq_ok, pure_eq_ok, Except.ok.injEq, Prod.mk.injEq] at h
    obtain ⟨dl, hd, ⟨a, b⟩, hr, ⟨rfl, rfl⟩, rfl⟩ := h
    obtain ⟨hq, rfl, rfl⟩ := low_inv hr
    exact ⟨h1, dl, hd, rfl, hq, rfl, rfl⟩
  right
  rw [if_neg h1] at h
  have h1' := not_le.mp h1
  by_cases h2 : bl < qF
  · have hd : qF - qL ≠ 0 := by linarith
    cases hc : s.cyc
    · left
      simp only [h2, hc, and_self, if_true, pdiv_ok hd, bind_ok] at h
      cases prev with
      | none => simp [heatTwoBin.pyLocal, bind_error] at h
      | some dl =>
        simp only [heatTwoBin.pyLocal, bind_ok, pure_eq_ok, Except.ok.injEq, Prod.mk.injEq] at h
        obtain ⟨⟨rfl, rfl⟩, rfl⟩ := h
        refine ⟨h1', h2, rfl, dl, rfl, rfl, ?_, by ring⟩
        have e1 : lineAt qL pL qF pF bl = pL * ((qF - bl) / (qF - qL)) + pF * (1 - (qF - bl) / (qF - qL)) := by
          simp only [lineAt]; field_simp; ring
        rw [e1]; ring
    · right; left
      simp only [h2, hc, and_self, if_true, reduceCtorEq, and_false, if_false, pdiv_ok hd, bind_ok, bind_eq_ok, pdiv_eq_ok] at h
      obtain ⟨x, ⟨_, rfl⟩, dl, hdl, h⟩ := h
      cases prev with
      | none => simp [heatTwoBin.pyLocal] at hdl
      | some dl' =>
        simp only [heatTwoBin.pyLocal, Except.ok.injEq] at hdl
        subst hdl
        simp only [pure_eq_ok, Except.ok.injEq, Prod.mk.injEq] at h
        obtain ⟨⟨rfl, rfl⟩, rfl⟩ := h
        exact ⟨h1', h2, rfl, dl', rfl, rfl, by ring, by ring⟩
  · right; right
    simp only [h2, false_and, if_false, Except.ok.injEq, Prod.mk.injEq] at h
    obtain ⟨⟨rfl, rfl⟩, rfl⟩ := h
    exact ⟨h1', not_lt.mp h2, rfl, by ring, by ring⟩

/-- The regimes of a variable-speed bin. -/
theorem var_inv {s : HeatSettings K} {t bl qL pL cL qI cI qF cF d n e rh : K} {again : Py (K × K)}
    (h : heatVarBin s t bl qL pL cL qI cI qF cF d n again = .ok (e, rh)) :
    (bl ≤ qL ∧ ∃ dl, cutFactor s.off s.on t cL = .ok dl ∧ qL ≠ 0 ∧ e = dl * cyclingRate s.cd qL pL bl * n ∧ rh = (bl - dl * bl) * n) ∨
    (qL < bl ∧ bl < qF ∧ ∃ cop dl, cop = (if bl ≤ qI then lineAt qL cL qI cI bl else lineAt qI cI qF cF bl) ∧ cop ≠ 0 ∧
      cutFactor s.off s.on t cop = .ok dl ∧ e = dl * (bl / cop) * n ∧ rh = (bl - dl * bl) * n) ∨
    (qL < bl ∧ qF ≤ bl ∧ ∃ q' p', again = .ok (q', p') ∧ e = d * p' * n ∧ rh = (bl - d * q') * n) := by
  unfold heatVarBin at h
  by_cases h1 : bl ≤ qL
  · left
    rw [if_pos h1] at h
    simp only [bind_eq_ok] at h
    obtain ⟨dl, hd, hr⟩ := h
    obtain ⟨hq, rfl, rfl⟩ := low_inv hr
    exact ⟨h1, dl, hd, hq, rfl, rfl⟩
  right
  rw [if_neg h1] at h
  have h1' := not_le.mp h1
  by_cases h2 : bl < qF
  · left
    rw [if_pos h2] at h
    by_cases h3 : bl ≤ qI
    · rw [if_pos h3] at h
      obtain ⟨dl, hd, hc, rfl, rfl⟩ := modulating_inv h
      exact ⟨h1', h2, _, dl, by rw [if_pos h3], hc, hd, rfl, rfl⟩
    · rw [if_neg h3] at h
      obtain ⟨dl, hd, hc, rfl, rfl⟩ := modulating_inv h
      exact ⟨h1', h2, _, dl, by rw [if_neg h3], hc, hd, rfl, rfl⟩
  · right
    rw [if_neg h2] at h
    simp only [bind_eq_ok, pure_eq_ok, Except.ok.injEq, Prod.mk.injEq] at h
    obtain ⟨⟨q', p'⟩, hr, rfl, rfl⟩ := h
    exact ⟨h1', not_lt.mp h2, q', p', hr, by ring, by ring⟩

section
variable {U : Performance C K} {P : Points C} {s : HeatSettings K} {I : Option (HeatIntermediate K)} {load : K → Py K}

/-- What a bin that returns has computed. -/
theorem heatBin_inv {prev prev' : Option K} {t n q e rh : K} (h : heatBin U P s I load prev t n = .ok ((q, e, rh), prev')) :
    ∃ bl qF pF d hlf, load t = .ok bl ∧ heatFull U P t = .ok (qF, pF) ∧ pF ≠ 0 ∧ cutFactor s.off s.on t (qF / pF) = .ok d ∧ loadFactor bl qF = .ok hlf ∧
      heatStaging U P s I prev t bl qF pF (qF / pF) d hlf n = .ok ((e, rh), prev') ∧ q = n * bl := by
  simp only [heatBin, bind_eq_ok, pdiv_eq_ok, pure_eq_ok, Except.ok.injEq, Prod.mk.injEq] at h
  obtain ⟨bl, hbl, ⟨qF, pF⟩, hf, _, ⟨hp, rfl⟩, d, hd, hlf, hh, ⟨⟨a, b⟩, c⟩, hr, ⟨rfl, rfl, rfl⟩, rfl⟩ := h
  exact ⟨bl, qF, pF, d, hlf, hbl, hf, hp, hd, hh, hr, rfl⟩

/-- The same by staging type. -/
theorem staging_single {prev prev' : Option K} {t bl qF pF c d hlf n e rh : K} (hs : s.st = .single)
    (h : heatStaging U P s I prev t bl qF pF c d hlf n = .ok ((e, rh), prev')) : heatSingleBin s.cd bl qF pF d hlf n = .ok (e, rh) ∧ prev' = prev := by
  simp only [heatStaging, hs, bind_eq_ok, pure_eq_ok, Except.ok.injEq, Prod.mk.injEq] at h
  obtain ⟨r, hr, rfl, rfl⟩ := h
  exact ⟨hr, rfl⟩

theorem staging_two {prev prev' : Option K} {t bl qF pF c d hlf n e rh : K} (hs : s.st = .two)
    (h : heatStaging U P s I prev t bl qF pF c d hlf n = .ok ((e, rh), prev')) :
    ∃ qL pL, heatLowTwo U P t = .ok (qL, pL) ∧ pL ≠ 0 ∧ heatTwoBin s prev t bl qL pL (qL / pL) qF pF d hlf n = .ok ((e, rh), prev') := by
  simp only [heatStaging, hs, bind_eq_ok, pdiv_eq_ok] at h
  obtain ⟨⟨qL, pL⟩, hl, _, ⟨hp, rfl⟩, h⟩ := h
  exact ⟨qL, pL, hl, hp, h⟩

theorem staging_var {prev prev' : Option K} {t bl qF pF c d hlf n e rh : K} (hs : s.st = .varSpeed)
    (h : heatStaging U P s I prev t bl qF pF c d hlf n = .ok ((e, rh), prev')) :
    ∃ J qL pL cI, I = some J ∧ heatLowVar U P t = .ok (qL, pL) ∧ pL ≠ 0 ∧ prev' = prev ∧
      heatVarBin s t bl qL pL (qL / pL) (J.q + J.mQ * (t - frF 35)) cI qF c d n (heatFullAgain U P J.h1 J.h3 J.h4 (qF, pF) t) = .ok (e, rh) := by
  simp only [heatStaging, hs, bind_eq_ok, pdiv_eq_ok, pure_eq_ok, Except.ok.injEq, Prod.mk.injEq] at h
  obtain ⟨J, hJ, ⟨qL, pL⟩, hl, _, ⟨hp, rfl⟩, cI, _, r, hr, rfl, rfl⟩ := h
  cases I with
  | none => simp [pyAttr] at hJ
  | some J' =>
    simp only [pyAttr, Except.ok.injEq] at hJ
    subst hJ
    exact ⟨J', qL, pL, cI, rfl, hl, hp, rfl, hr⟩

/-- The recomputation always takes its first case. -/
theorem heatFullAgain_eq (h1 h3 h4 old : K × K) (t : K) : heatFullAgain U P h1 h3 h4 old t = (do
    let q ← interpolate U.db (sCap U) P.h4Full P.h3Full t
    return (q, ← interpolate U.db (sPow U) P.h4Full P.h3Full t)) := by
  have : frF 5 < t ∨ t ≤ frF 17 := by
    rcases lt_or_ge (frF (5 : K)) t with h | h
    · exact Or.inl h
    · exact Or.inr (h.trans (frF_le.2 (by norm_num)))
  unfold heatFullAgain
  rw [if_pos this]

end

/-- A property of a bin's results that does not depend on the order carries over to the sums. -/
theorem heatLoop_inv (f : Option K → K → K → Py ((K × K × K) × Option K)) (bins : List (K × K)) (I : Option K → Prop) (R : K × K × K → Prop)
    (hadd : ∀ a b, R a → R b → R (a.1 + b.1, a.2.1 + b.2.1, a.2.2 + b.2.2))
    (hstep : ∀ b ∈ bins, ∀ prev r prev', I prev → f prev b.1 b.2 = .ok (r, prev') → R r ∧ I prev') (prev : Option K) (acc r : K × K × K)
    (hI : I prev) (hR : R acc) (h : heatLoop f bins prev acc = .ok r) : R r := by
  induction bins generalizing prev acc with
  | nil => simp only [heatLoop, Except.ok.injEq] at h; exact h ▸ hR
  | cons b l ih =>
    obtain ⟨t, n⟩ := b
    simp only [heatLoop, bind_eq_ok] at h
    obtain ⟨⟨x, prev'⟩, hx, h⟩ := h
    obtain ⟨h1, h2⟩ := hstep (t, n) List.mem_cons_self prev x prev' hI hx
    exact ih (fun b hb => hstep b (List.mem_cons_of_mem _ hb)) prev' _ h2 (hadd _ _ hR h1) h

/-- A loop whose bins do not use the carried value. -/
theorem heatLoop_ok (f : Option K → K → K → Py ((K × K × K) × Option K)) (gq ge gr : K → K) (bins : List (K × K))
    (h : ∀ b ∈ bins, ∀ prev, f prev b.1 b.2 = .ok ((gq b.1 * b.2, ge b.1 * b.2, gr b.1 * b.2), prev)) (prev : Option K) (acc : K × K × K) :
    heatLoop f bins prev acc = .ok (acc.1 + CoolTests.total gq bins, acc.2.1 + CoolTests.total ge bins, acc.2.2 + CoolTests.total gr bins) := by
  induction bins generalizing prev acc with
  | nil => simp [heatLoop, CoolTests.total]
  | cons b l ih =>
    obtain ⟨t, n⟩ := b
    rw [heatLoop, h (t, n) List.mem_cons_self, bind_ok, ih fun x hx => h x (List.mem_cons_of_mem _ hx)]
    simp [CoolTests.total, add_assoc]

end Resdx.DX
