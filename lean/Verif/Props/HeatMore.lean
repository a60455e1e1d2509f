import Verif.Props.HspfUpper

/-!
# C124: units that deliver more heat from no more power
-/

set_option linter.unusedSectionVars false
set_option linter.unusedSimpArgs false

namespace Resdx.DX

open Spec Performance BaseModel

variable {C K : Type} [Field K] [LinearOrder K] [IsStrictOrderedRing K]

/-- At an outdoor temperature, `U'` delivers at least the heat of `U` and draws at most its power, at every speed of the rating. -/
def HeatsMore (U U' : Performance C K) (P : Points C) (st : Staging) (t : K) : Prop :=
  (∀ r r', heatFull U P t = .ok r → heatFull U' P t = .ok r' → r.1 ≤ r'.1 ∧ 0 < r'.2 ∧ r'.2 ≤ r.2) ∧
    (st = .two → ∀ r r', heatLowTwo U P t = .ok r → heatLowTwo U' P t = .ok r' → r.1 ≤ r'.1 ∧ 0 < r'.2 ∧ r'.2 ≤ r.2)

/-! ## One bin -/

theorem cyclingRate_capacity {cd q q' p l : K} (hcd : 0 ≤ cd) (hcd1 : cd < 1) (hq : 0 < q) (hqq : q ≤ q') (hp : 0 ≤ p) (h0 : 0 ≤ l) (h1 : l ≤ q) :
    cyclingRate cd q' p l ≤ cyclingRate cd q p l := by
  have hl : l / q ≤ 1 := (div_le_one hq).2 h1
  have h2 : 0 ≤ l / q' := div_nonneg h0 (hq.le.trans hqq)
  have h3 : l / q' ≤ l / q := div_le_div_of_nonneg_left h0 hq hqq
  unfold cyclingRate
  generalize l / q = x at *
  generalize l / q' = y at *
  have hx : 0 < 1 - cd * (1 - x) := by nlinarith
  have hy : 0 < 1 - cd * (1 - y) := by nlinarith
  rw [div_le_div_iff₀ hy hx]
  have : y * (1 - cd * (1 - x)) ≤ x * (1 - cd * (1 - y)) := by nlinarith
  calc y * p * (1 - cd * (1 - x)) = p * (y * (1 - cd * (1 - x))) := by ring
    _ ≤ p * (x * (1 - cd * (1 - y))) := mul_le_mul_of_nonneg_left this hp
    _ = _ := by ring

theorem cyclingRate_le_power {cd q p l : K} (hcd : 0 ≤ cd) (hcd1 : cd < 1) (hq : 0 < q) (hp : 0 ≤ p) (h0 : 0 ≤ l) (h1 : l ≤ q) : cyclingRate cd q p l ≤ p := by
  have hl : l / q ≤ 1 := (div_le_one hq).2 h1
  have h2 : 0 ≤ l / q := by positivity
  unfold cyclingRate
  generalize l / q = x at *
  have hx : 0 < 1 - cd * (1 - x) := by nlinarith
  rw [div_le_iff₀ hx]
  have : x ≤ 1 - cd * (1 - x) := by nlinarith
  nlinarith [mul_le_mul_of_nonneg_left this hp]

theorem one_stage_more {cd q q' p p' bl : K} (hcd : 0 ≤ cd) (hcd1 : cd < 1) (hqq : q ≤ q') (hp0 : 0 ≤ p') (hp : p' ≤ p) (hbl : 0 ≤ bl) :
    oneStageRate cd q' p' bl + (bl - min bl q') ≤ oneStageRate cd q p bl + (bl - min bl q) := by
  unfold oneStageRate
  by_cases h : bl < q
  · have hq : 0 < q := hbl.trans_lt h
    rw [if_pos h, if_pos (h.trans_le hqq), min_eq_left h.le, min_eq_left (h.le.trans hqq)]
    have := (cyclingRate_capacity hcd hcd1 hq hqq hp0 hbl h.le).trans (cyclingRate_power hcd hcd1 hq hp hbl h.le)
    linarith
  · rw [if_neg h, min_eq_right (not_lt.1 h)]
    by_cases h' : bl < q'
    · rw [if_pos h', min_eq_left h'.le]
      have := cyclingRate_le_power hcd hcd1 (hbl.trans_lt h') hp0 hbl h'.le
      linarith [not_lt.1 h]
    · rw [if_neg h', min_eq_right (not_lt.1 h')]
      linarith

theorem line_more {a b a' b' x p q : K} (ha : a ≤ a') (hb : b ≤ b') (h0 : a' < x) (h1 : x < b) (hpq : p ≤ q) :
    lineAt a' p b' q x ≤ lineAt a p b q x := by
  have e : ∀ a b : K, lineAt a p b q x = p + (q - p) * ((x - a) / (b - a)) := by intro a b; unfold lineAt; ring
  rw [e, e]
  have : (x - a') / (b' - a') ≤ (x - a) / (b - a) := by
    rw [div_le_div_iff₀ (by linarith) (by linarith)]
    nlinarith [mul_nonneg (sub_nonneg.2 ha) (sub_nonneg.2 h1.le), mul_nonneg (sub_nonneg.2 hb) (sub_nonneg.2 (ha.trans h0.le))]
  linarith [mul_le_mul_of_nonneg_left this (sub_nonneg.2 hpq)]

section
variable {U U' : Performance C K} {P : Points C} {s : HeatSettings K}

theorem same_cut {off t q p q' p' d d' : K} {on : Option K} (h : off < t → 1 ≤ q / p) (hqq : q ≤ q') (hp0 : 0 < p') (hp : p' ≤ p)
    (h1 : cutFactor off on t (q / p) = .ok d) (h2 : cutFactor off on t (q' / p') = .ok d') : d' = d := by
  unfold cutFactor at h1 h2
  by_cases ho : t ≤ off
  · simp only [ho, true_or, if_true, Except.ok.injEq] at h1 h2
    rw [← h1, ← h2]
  · have ho' := not_le.1 ho
    have hc := h ho'
    have hpp : 0 < p := hp0.trans_le hp
    have hc' : 1 ≤ q' / p' := by
      rw [le_div_iff₀ hpp] at hc
      rw [le_div_iff₀ hp0]
      linarith
    rw [if_neg (by push Not; exact ⟨ho', hc⟩)] at h1
    rw [if_neg (by push Not; exact ⟨ho', hc'⟩), h1, Except.ok.injEq] at h2
    exact h2.symm

theorem more_combine {d Q Q' E E' bl n : K} (hn : 0 ≤ n) (d0 : 0 ≤ d) (h : E' + (bl - Q') ≤ E + (bl - Q)) :
    d * E' * n + (bl - d * Q') * n ≤ d * E * n + (bl - d * Q) * n := by
  have := mul_le_mul_of_nonneg_left h (mul_nonneg hn d0)
  linarith

/-- One bin of a single-stage unit. -/
theorem more_single {I I' : Option (HeatIntermediate K)} {load : K → Py K} {prev prev' prev1 prev1' : Option K} {t n : K} {a a' : K × K × K} (hs : s.st = .single)
    (hcd : 0 ≤ s.cd) (hcd1 : s.cd < 1) (hn : 0 ≤ n) (hl : ∀ bl, load t = .ok bl → 0 ≤ bl) (hm : HeatsMore U U' P s.st t) (hE : Efficient U P s t)
    (h : heatBin U P s I load prev t n = .ok (a, prev1)) (h' : heatBin U' P s I' load prev' t n = .ok (a', prev1')) :
    a'.1 = a.1 ∧ 0 ≤ a.1 ∧ 0 ≤ a'.2.1 + a'.2.2 ∧ a'.2.1 + a'.2.2 ≤ a.2.1 + a.2.2 := by
  obtain ⟨q, e, rh⟩ := a
  obtain ⟨q', e', rh'⟩ := a'
  obtain ⟨bl, qF, pF, δ, hlf, h1, h2, h3, h4, h5, h6, rfl⟩ := heatBin_inv h
  obtain ⟨bl', qF', pF', δ', hlf', h1', h2', h3', h4', h5', h6', rfl⟩ := heatBin_inv h'
  rw [h1, Except.ok.injEq] at h1'
  subst h1'
  have hbl := hl bl h1
  obtain ⟨m1, m2, m3⟩ := hm.1 _ _ h2 h2'
  obtain rfl := same_cut (fun ho => (hE ho).1 _ h2) m1 m2 m3 h4 h4'
  obtain ⟨h7, _⟩ := staging_single hs h6
  obtain ⟨rfl, rfl⟩ := single_inv hbl h5 h7
  obtain ⟨h7', _⟩ := staging_single hs h6'
  obtain ⟨rfl, rfl⟩ := single_inv hbl h5' h7'
  obtain ⟨d0, d1, _⟩ := cutFactor_bounds h4
  refine ⟨rfl, mul_nonneg hn hbl, ?_, more_combine hn d0 (one_stage_more hcd hcd1 m1 m2.le m3 hbl)⟩
  refine add_nonneg (mul_nonneg (mul_nonneg d0 ?_) hn) (mul_nonneg (sub_nonneg.2 (delivered_le hbl d0 d1 (min_le_left _ _))) hn)
  unfold oneStageRate; split
  · rename_i hlt; exact cyclingRate_nonneg hcd hcd1 (hbl.trans_lt hlt) m2.le hbl hlt.le
  · exact m2.le

/-- The energy per hour of a two-stage unit that cycles between low and full speed and never stops, with the resistance heat. -/
def twoRate (cd qL pL qF pF bl : K) : K := if bl ≤ qL then cyclingRate cd qL pL bl else if bl < qF then lineAt qL pL qF pF bl else pF + (bl - qF)

theorem two_rate {I : Option (HeatIntermediate K)} {load : K → Py K} {prev prev1 : Option K} {t n : K} {a : K × K × K} (hs : s.st = .two) (hcyc : s.cyc = .lowFull)
    (hr : AlwaysRuns U P s t) (hprev : ∀ d, prev = some d → d = 1) (h : heatBin U P s I load prev t n = .ok (a, prev1)) :
    (∃ bl rF rL, load t = .ok bl ∧ heatFull U P t = .ok rF ∧ heatLowTwo U P t = .ok rL ∧ a.1 = n * bl ∧ (bl ≤ rL.1 → rL.1 ≠ 0) ∧
      a.2.1 + a.2.2 = twoRate s.cd rL.1 rL.2 rF.1 rF.2 bl * n) ∧ ∀ d, prev1 = some d → d = 1 := by
  obtain ⟨q, e, rh⟩ := a
  obtain ⟨bl, qF, pF, δ, hlf, h1, h2, h3, h4, h5, h6, rfl⟩ := heatBin_inv h
  obtain rfl := cutFactor_one hr.1 hr.2.1 (hr.2.2.1 _ h2) h4
  obtain ⟨qL, pL, h7, h8, h9⟩ := staging_two hs h6
  unfold twoRate
  rcases two_inv h9 with ⟨a, dl, b, rfl, c, rfl, rfl⟩ | ⟨a, b, c, dl, rfl, rfl, rfl, rfl⟩ | ⟨a, b, c, dl, rfl, rfl, rfl, rfl⟩ | ⟨a, b, rfl, rfl, rfl⟩
  · obtain rfl := cutFactor_one hr.1 hr.2.1 (hr.2.2.2 _ h7) b
    refine ⟨⟨bl, _, _, h1, h2, h7, rfl, fun _ => c, ?_⟩, by simp⟩
    rw [if_pos a]; ring
  · obtain rfl := hprev dl rfl
    refine ⟨⟨bl, _, _, h1, h2, h7, rfl, fun h => absurd h (not_le.2 a), ?_⟩, hprev⟩
    rw [if_neg (not_le.2 a), if_pos b]; ring
  · rw [hcyc] at c; cases c
  · refine ⟨⟨bl, _, _, h1, h2, h7, rfl, fun h => absurd h (not_le.2 a), ?_⟩, hprev⟩
    rw [if_neg (not_le.2 a), if_neg (not_lt.2 b)]; ring

theorem twoRate_nonneg {cd qL pL qF pF bl : K} (hcd : 0 ≤ cd) (hcd1 : cd < 1) (hbl : 0 ≤ bl) (hz : bl ≤ qL → qL ≠ 0) (hL : 0 ≤ pL) (hF : 0 ≤ pF) :
    0 ≤ twoRate cd qL pL qF pF bl := by
  unfold twoRate
  split
  · rename_i a; exact cyclingRate_nonneg hcd hcd1 (lt_of_le_of_ne (hbl.trans a) (Ne.symm (hz a))) hL hbl a
  · rename_i a
    split
    · rename_i b
      have a := not_le.1 a
      exact (lineAt_between (hi := max pL pF) (a.trans b) a.le b.le hL hF (le_max_left _ _) (le_max_right _ _)).1
    · rename_i b; linarith [not_lt.1 b]

theorem twoRate_more {cd qL pL qF pF qL' pL' qF' pF' bl : K} (hcd : 0 ≤ cd) (hcd1 : cd < 1) (hbl : 0 ≤ bl) (hz : bl ≤ qL → qL ≠ 0) (hz' : bl ≤ qL' → qL' ≠ 0)
    (hL : qL ≤ qL') (hF : qF ≤ qF') (hpL0 : 0 ≤ pL') (hpL : pL' ≤ pL) (hpF : pF' ≤ pF) (hLF : pL' ≤ pF') :
    twoRate cd qL' pL' qF' pF' bl ≤ twoRate cd qL pL qF pF bl := by
  unfold twoRate
  by_cases a' : bl ≤ qL'
  · have q0' : 0 < qL' := lt_of_le_of_ne (hbl.trans a') (Ne.symm (hz' a'))
    rw [if_pos a']
    by_cases a : bl ≤ qL
    · have q0 : 0 < qL := lt_of_le_of_ne (hbl.trans a) (Ne.symm (hz a))
      rw [if_pos a]
      exact (cyclingRate_capacity hcd hcd1 q0 hL hpL0 hbl a).trans (cyclingRate_power hcd hcd1 q0 hpL hbl a)
    · rw [if_neg a]
      have := cyclingRate_le_power hcd hcd1 q0' hpL0 hbl a'
      have a := not_le.1 a
      split
      · rename_i b
        exact this.trans (lineAt_between (hi := max pL pF) (a.trans b) a.le b.le hpL (hLF.trans hpF) (le_max_left _ _) (le_max_right _ _)).1
      · rename_i b; linarith [not_lt.1 b]
  · have a := not_le.1 a'
    rw [if_neg a', if_neg (not_le.2 (hL.trans_lt a))]
    by_cases b' : bl < qF'
    · rw [if_pos b']
      split
      · rename_i b
        refine (line_more hL hF a b hLF).trans ?_
        exact lineAt_le ((hL.trans_lt a).trans b) (hL.trans a.le) b.le hpL hpF
      · rename_i b
        have := (lineAt_between (lo := pL') (hi := pF') (a.trans b') a.le b'.le le_rfl hLF hLF le_rfl).2
        linarith [not_lt.1 b]
    · rw [if_neg b', if_neg (fun b => b' (b.trans_le hF))]
      linarith

/-! ## The season -/

theorem more_loop (f f' : Option K → K → K → Py ((K × K × K) × Option K)) (J J' : Option K → Prop) (bins : List (K × K))
    (hstep : ∀ b ∈ bins, ∀ prev prev' r r' p1 p1', J prev → J' prev' → f prev b.1 b.2 = .ok (r, p1) → f' prev' b.1 b.2 = .ok (r', p1') →
      (r'.1 = r.1 ∧ 0 ≤ r.1 ∧ 0 ≤ r'.2.1 + r'.2.2 ∧ r'.2.1 + r'.2.2 ≤ r.2.1 + r.2.2) ∧ J p1 ∧ J' p1')
    {prev prev' : Option K} {acc acc' r r' : K × K × K} (hJ : J prev) (hJ' : J' prev')
    (hacc : acc'.1 = acc.1 ∧ 0 ≤ acc.1 ∧ 0 ≤ acc'.2.1 + acc'.2.2 ∧ acc'.2.1 + acc'.2.2 ≤ acc.2.1 + acc.2.2)
    (h : heatLoop f bins prev acc = .ok r) (h' : heatLoop f' bins prev' acc' = .ok r') :
    r'.1 = r.1 ∧ 0 ≤ r.1 ∧ 0 ≤ r'.2.1 + r'.2.2 ∧ r'.2.1 + r'.2.2 ≤ r.2.1 + r.2.2 := by
  induction bins generalizing prev prev' acc acc' with
  | nil =>
    simp only [heatLoop, Except.ok.injEq] at h h'
    exact h ▸ h' ▸ hacc
  | cons b l ih =>
    obtain ⟨t, n⟩ := b
    simp only [heatLoop, bind_eq_ok] at h h'
    obtain ⟨⟨x, p1⟩, hx, h⟩ := h
    obtain ⟨⟨x', p1'⟩, hx', h'⟩ := h'
    obtain ⟨⟨g1, g2, g3, g4⟩, j, j'⟩ := hstep _ List.mem_cons_self _ _ _ _ _ _ hJ hJ' hx hx'
    refine ih (fun b hb => hstep b (List.mem_cons_of_mem _ hb)) j j' ?_ h h'
    obtain ⟨k1, k2, k3, k4⟩ := hacc
    refine ⟨by simp only [k1, g1], add_nonneg k2 g2, ?_, ?_⟩ <;> simp only <;> linarith

theorem more_hspf {u : Units K} {std : RatingStandard} {d : HeatDist K} {f v v' : K} (J J' : Option K → Prop) (hJ : J none) (hJ' : J' none) (hf : 0 ≤ f)
    (hload : heatingLoad U' P u s.st std d = heatingLoad U P u s.st std d)
    (hstep : ∀ load I I', heatingLoad U P u s.st std d = .ok load → ∀ b ∈ heatingTemperatures.zip d.hours, ∀ prev prev' r r' p1 p1', J prev → J' prev' →
      heatBin U P s I load prev b.1 b.2 = .ok (r, p1) → heatBin U' P s I' load prev' b.1 b.2 = .ok (r', p1') →
      (r'.1 = r.1 ∧ 0 ≤ r.1 ∧ 0 ≤ r'.2.1 + r'.2.2 ∧ r'.2.1 + r'.2.2 ≤ r.2.1 + r.2.2) ∧ J p1 ∧ J' p1')
    (hv : hspfWith U P u std s d (.ok f) = .ok v) (hv' : hspfWith U' P u std s d (.ok f) = .ok v') : v ≤ v' := by
  simp only [hspfWith, hload, bind_eq_ok, pdiv_eq_ok, Except.ok.injEq] at hv hv'
  obtain ⟨load, hl, I, hI, r, hr, _, rfl, _, ⟨hD, rfl⟩, hb, rfl⟩ := hv
  obtain ⟨load', hl', I', hI', r', hr', _, rfl, _, ⟨hD', rfl⟩, _, rfl⟩ := hv'
  rw [hl, Except.ok.injEq] at hl'
  subst hl'
  obtain ⟨g1, g2, g3, g4⟩ := more_loop _ _ J J' _ (hstep load I I' hl) hJ hJ' (by simp) hr hr'
  rw [g1]
  exact div_le_div_of_nonneg_right (mul_le_mul_of_nonneg_right (div_le_div_of_nonneg_left g2 (lt_of_le_of_ne g3 (Ne.symm hD')) g4) hf) u.btuh_pos.le

/-! ## The property -/

section
variable {u : Units K} {std : RatingStandard} {defrost : Defrost K} {region : Nat} {f v v' : K}
  (hcd : 0 ≤ s.cd) (hcd1 : s.cd < 1) (hcr : defrost.demandCredit u = .ok f) (hf : 0 ≤ f)
  (hload : ∀ d : HeatDist K, heatingLoad U' P u s.st std d = heatingLoad U P u s.st std d) (hm : ∀ t ∈ heatingTemperatures, HeatsMore U U' P s.st t)
  (hv : hspf U P u std s defrost region = .ok v) (hv' : hspf U' P u std s defrost region = .ok v')
include hcd hcd1 hcr hf hload hm hv hv'

/-- C124 for single-stage units: with the same building load, a unit that delivers more heat from no more power at every temperature of the bins is not rated lower, if
the worse of the two is at least as efficient as resistance heat where it runs. Missing: units that are not (`C124_inefficient_refuted`). -/
theorem C124_single_partial (hs : s.st = .single) (hE : ∀ t ∈ heatingTemperatures, Efficient U P s t) : v ≤ v' := by
  simp only [hspf, bind_eq_ok, hcr] at hv hv'
  obtain ⟨d, hd, hv⟩ := hv
  obtain ⟨d', hd', hv'⟩ := hv'
  rw [hd, Except.ok.injEq] at hd'
  subst hd'
  refine more_hspf (fun _ => True) (fun _ => True) trivial trivial hf (hload d) (fun load I I' hl b hb prev prev' r r' p1 p1' _ _ h1 h2 => ⟨?_, trivial, trivial⟩) hv hv'
  exact more_single hs hcd hcd1 ((C55_regions hd).2.2.2.1 _ (List.of_mem_zip hb).2) (fun bl hbl => heatingLoad_nonneg hl hbl) (hm _ (List.of_mem_zip hb).1)
    (hE _ (List.of_mem_zip hb).1) h1 h2

/-- C124 for two-stage units that cycle between low and full speed, never stop for the cold, and draw no more at low than at full speed. Missing: units that stop
(`C124_two_stage_refuted`), units that cycle between off and full speed (`C124_off_full_refuted`), and variable-speed units (`C124_variable_speed_refuted`). -/
theorem C124_two_stage_partial (hs : s.st = .two) (hcyc : s.cyc = .lowFull) (hr : ∀ t ∈ heatingTemperatures, AlwaysRuns U P s t ∧ AlwaysRuns U' P s t)
    (hLF : ∀ t ∈ heatingTemperatures, ∀ rL rF, heatLowTwo U' P t = .ok rL → heatFull U' P t = .ok rF → rL.2 ≤ rF.2) : v ≤ v' := by
  simp only [hspf, bind_eq_ok, hcr] at hv hv'
  obtain ⟨d, hd, hv⟩ := hv
  obtain ⟨d', hd', hv'⟩ := hv'
  rw [hd, Except.ok.injEq] at hd'
  subst hd'
  refine more_hspf (fun p => ∀ d, p = some d → d = 1) (fun p => ∀ d, p = some d → d = 1) (by simp) (by simp) hf (hload d)
    (fun load I I' hl b hb prev prev' r r' p1 p1' j j' h1 h2 => ?_) hv hv'
  have ht := (List.of_mem_zip hb).1
  have hn := (C55_regions hd).2.2.2.1 _ (List.of_mem_zip hb).2
  obtain ⟨⟨bl, rF, rL, a1, a2, a3, a4, a5, a6⟩, k⟩ := two_rate hs hcyc (hr _ ht).1 j h1
  obtain ⟨⟨bl', rF', rL', a1', a2', a3', a4', a5', a6'⟩, k'⟩ := two_rate hs hcyc (hr _ ht).2 j' h2
  rw [a1, Except.ok.injEq] at a1'
  subst a1'
  have hbl := heatingLoad_nonneg hl a1
  obtain ⟨m1, m2, m3⟩ := (hm _ ht).1 _ _ a2 a2'
  obtain ⟨n1, n2, n3⟩ := (hm _ ht).2 hs _ _ a3 a3'
  refine ⟨⟨by rw [a4, a4'], by rw [a4]; exact mul_nonneg hn hbl, ?_, ?_⟩, k, k'⟩
  · rw [a6']; exact mul_nonneg (twoRate_nonneg hcd hcd1 hbl a5' n2.le m2.le) hn
  · rw [a6, a6']
    exact mul_le_mul_of_nonneg_right (twoRate_more hcd hcd1 hbl a5 a5' n1 m1 n2.le n3 m3 (hLF _ ht _ _ a3' a2')) hn

end
end

/-! ## Capacity raised by a factor -/

/-- `U'` delivers `k` times the heat of `U` at every condition, from the same power, and cools the same in the 95 °F test. -/
structure HeatScaled (k : K) (U U' : Performance C K) (P : Points C) : Prop where
  db : U'.db = U.db
  cool : U'.netTotalCoolingCapacity (some P.aFull) = U.netTotalCoolingCapacity (some P.aFull)
  heat : ∀ c, sCap U' c = sc k (sCap U c)
  heatP : ∀ c, sPow U' c = sPow U c
  int : ∀ c, iCap U' c = sc k (iCap U c)
  intP : ∀ c, iPow U' c = iPow U c

section
variable {k : K} {U U' : Performance C K} {P : Points C} (h : HeatScaled k U U' P)
include h

theorem scaled_pair (x x' y : Py K) (hx : x' = sc k x) : (do let q ← x'; return (q, ← y) : Py (K × K)) = scF k (do let q ← x; return (q, ← y)) := by
  subst hx
  cases x <;> cases y <;> rfl

theorem scaled_full (t : K) : heatFull U' P t = scF k (heatFull U P t) := by
  simp only [heatFull, h.db, funext h.heatP, funext h.intP]
  split
  · exact scaled_pair h _ _ _ (thrift_interpolate _ _ _ h.heat ..)
  · exact scaled_pair h _ _ _ (thrift_separate _ _ _ _ _ h.heat h.int ..)

theorem scaled_low (t : K) : heatLowTwo U' P t = scF k (heatLowTwo U P t) := by
  simp only [heatLowTwo, h.db, funext h.heatP, funext h.intP]
  cases pyAttr P.h0Low <;> cases pyAttr P.h1Low <;> cases pyAttr P.h2Low <;> cases pyAttr P.h3Low <;> simp only [bind_ok, bind_error] <;>
    (split <;> [skip; split]) <;>
    first
      | rfl
      | exact scaled_pair h _ _ _ (thrift_interpolate _ _ _ h.heat ..)
      | exact scaled_pair h _ _ _ (thrift_separate _ _ _ _ _ h.int h.heat ..)

theorem scaled_more {st : Staging} {t : K} (hk : 1 ≤ k) (hF : ∀ r, heatFull U P t = .ok r → 0 ≤ r.1 ∧ 0 < r.2) (hL : st = .two → ∀ r, heatLowTwo U P t = .ok r → 0 ≤ r.1 ∧ 0 < r.2) :
    HeatsMore U U' P st t := by
  refine ⟨fun r r' h1 h2 => ?_, fun hs r r' h1 h2 => ?_⟩
  · rw [scaled_full h, h1, scF_ok, Except.ok.injEq] at h2
    subst h2
    obtain ⟨a, b⟩ := hF r h1
    exact ⟨by nlinarith, b, le_rfl⟩
  · rw [scaled_low h, h1, scF_ok, Except.ok.injEq] at h2
    subst h2
    obtain ⟨a, b⟩ := hL hs r h1
    exact ⟨by nlinarith, b, le_rfl⟩

theorem scaled_load (u : Units K) (st : Staging) (d : HeatDist K) : heatingLoad U' P u st .ahri2023 d = heatingLoad U P u st .ahri2023 d := by
  simp only [heatingLoad, h.cool]

/-- C124 for the 2023 edition and a single stage: `k ≥ 1` times the heat from the same power never gives a lower rating. -/
theorem C124_scaled_single {u : Units K} {s : HeatSettings K} {defrost : Defrost K} {region : Nat} {f v v' : K} (hk : 1 ≤ k) (hs : s.st = .single) (hcd : 0 ≤ s.cd)
    (hcd1 : s.cd < 1) (hcr : defrost.demandCredit u = .ok f) (hf : 0 ≤ f) (hF : ∀ t ∈ heatingTemperatures, ∀ r, heatFull U P t = .ok r → 0 ≤ r.1 ∧ 0 < r.2)
    (hE : ∀ t ∈ heatingTemperatures, Efficient U P s t)
    (hv : hspf U P u .ahri2023 s defrost region = .ok v) (hv' : hspf U' P u .ahri2023 s defrost region = .ok v') : v ≤ v' :=
  C124_single_partial hcd hcd1 hcr hf (fun d => scaled_load h u _ d) (fun t ht => scaled_more h hk (hF t ht) (by rw [hs]; simp)) hv hv' hs hE

end

/-! ## Cases, and what fails -/

/-- A unit with `k` times the heat. -/
def ampler (k : ℚ) (U : Performance (ℚ × ℚ) ℚ) : Performance (ℚ × ℚ) ℚ := { U with heatCap := fun c => sc k (U.heatCap c), intCap := fun c => sc k (U.intCap c) }

theorem ampler_scaled (k l : ℚ) (P : Points (ℚ × ℚ)) (U : Performance (ℚ × ℚ) ℚ) (h : ∀ c, U.fanPower c = .ok 0) : HeatScaled k (ampler l U) (ampler (k * l) U) P where
  db := rfl
  cool := rfl
  heat := fun c => by
    simp only [sCap, netSteadyHeatingCapacity, grossSteadyHeatingCapacity, heatingFanPower, ampler, h]
    cases U.heatCap ((some c).getD U.h1Full) <;> simp only [sc_ok, sc_error, bind_ok, bind_error]
    cases U.heatCapCharge ((some c).getD U.h1Full) <;> simp only [sc_ok, sc_error, bind_ok, bind_error, pure_eq_ok, add_zero, mul_assoc]
  heatP := fun _ => rfl
  int := fun c => by
    simp only [iCap, netIntegratedHeatingCapacity, grossIntegratedHeatingCapacity, heatingFanPower, ampler, h]
    cases U.intCap ((some c).getD U.h1Full) <;> simp only [sc_ok, sc_error, bind_ok, bind_error, pure_eq_ok, add_zero, mul_assoc]
  intP := fun _ => rfl

/-- `C124_scaled_single` applied: ten per cent more heat. Both ratings exist. -/
example : ∃ v v', hspf (ampler 1 fanless) toyPoints (Units.ofOnes ℚ) .ahri2023 (heatSettings .single .lowFull 0) timedDefrost 4 = .ok v ∧
    hspf (ampler (11 / 10 * 1) fanless) toyPoints (Units.ofOnes ℚ) .ahri2023 (heatSettings .single .lowFull 0) timedDefrost 4 = .ok v' ∧ v ≤ v' := by
  have h1 : okTest (hspf (ampler 1 fanless) toyPoints (Units.ofOnes ℚ) .ahri2023 (heatSettings .single .lowFull 0) timedDefrost 4) (fun _ => true) = true := by decide +kernel
  have h2 : okTest (hspf (ampler (11 / 10 * 1) fanless) toyPoints (Units.ofOnes ℚ) .ahri2023 (heatSettings .single .lowFull 0) timedDefrost 4) (fun _ => true) = true := by
    decide +kernel
  obtain ⟨v, e1, _⟩ := okTest_iff.1 h1
  obtain ⟨v', e2, _⟩ := okTest_iff.1 h2
  have hF : ∀ t ∈ heatingTemperatures (K := ℚ), okTest (heatFull (ampler 1 fanless) toyPoints t) (fun r => decide (0 ≤ r.1 ∧ 0 < r.2 ∧ 1 ≤ r.1 / r.2)) = true := by
    decide +kernel
  refine ⟨v, v', e1, e2, C124_scaled_single (ampler_scaled _ _ _ _ fun _ => rfl) (by norm_num) rfl (by norm_num [heatSettings]) (by norm_num [heatSettings])
    (by rfl : timedDefrost.demandCredit (Units.ofOnes ℚ) = .ok 1) zero_le_one (fun t ht r hr => ?_) (fun t ht _ => ⟨fun r hr => ?_, trivial⟩) e1 e2⟩ <;>
  · obtain ⟨r', e, g⟩ := okTest_iff.1 (hF t ht)
    rw [e, Except.ok.injEq] at hr
    subst hr
    simp only [decide_eq_true_eq] at g
    first | exact ⟨g.1, g.2.1⟩ | exact g.2.2

/-- The hypotheses of `C124_two_stage_partial` are met by a two-stage unit and one with ten per cent more heat. -/
example : (∀ t ∈ heatingTemperatures, HeatsMore (ampler 1 wideUnit) (ampler (11 / 10 * 1) wideUnit) toyPoints .two t) ∧
    (∀ t ∈ heatingTemperatures, AlwaysRuns (ampler 1 wideUnit) toyPoints (heatSettings .two .lowFull (-30)) t ∧
      AlwaysRuns (ampler (11 / 10 * 1) wideUnit) toyPoints (heatSettings .two .lowFull (-30)) t) ∧
    (∀ t ∈ heatingTemperatures, ∀ rL rF, heatLowTwo (ampler (11 / 10 * 1) wideUnit) toyPoints t = .ok rL → heatFull (ampler (11 / 10 * 1) wideUnit) toyPoints t = .ok rF →
      rL.2 ≤ rF.2) ∧
    (hspf (ampler 1 wideUnit) toyPoints (Units.ofOnes ℚ) .ahri2023 (heatSettings .two .lowFull (-30)) timedDefrost 4).isOk ∧
    (hspf (ampler (11 / 10 * 1) wideUnit) toyPoints (Units.ofOnes ℚ) .ahri2023 (heatSettings .two .lowFull (-30)) timedDefrost 4).isOk := by
  have hall : ∀ l : ℚ, l = 1 ∨ l = 11 / 10 * 1 → ∀ t ∈ heatingTemperatures (K := ℚ), frF (-30) < t ∧
      okTest (heatFull (ampler l wideUnit) toyPoints t) (fun rF => okTest (heatLowTwo (ampler l wideUnit) toyPoints t) fun rL =>
        decide (0 ≤ rF.1 ∧ 0 < rF.2 ∧ 1 ≤ rF.1 / rF.2 ∧ 0 ≤ rL.1 ∧ 0 < rL.2 ∧ 1 ≤ rL.1 / rL.2 ∧ rL.2 ≤ rF.2)) = true := by
    rintro l (rfl | rfl) <;> decide +kernel
  have hval : ∀ l : ℚ, l = 1 ∨ l = 11 / 10 * 1 → ∀ t ∈ heatingTemperatures (K := ℚ), ∃ rF rL, heatFull (ampler l wideUnit) toyPoints t = .ok rF ∧
      heatLowTwo (ampler l wideUnit) toyPoints t = .ok rL ∧
      (0 ≤ rF.1 ∧ 0 < rF.2 ∧ 1 ≤ rF.1 / rF.2 ∧ 0 ≤ rL.1 ∧ 0 < rL.2 ∧ 1 ≤ rL.1 / rL.2 ∧ rL.2 ≤ rF.2) := by
    intro l hl t ht
    obtain ⟨rF, e1, g⟩ := okTest_iff.1 (hall l hl t ht).2
    obtain ⟨rL, e2, g⟩ := okTest_iff.1 g
    exact ⟨rF, rL, e1, e2, of_decide_eq_true g⟩
  have hruns : ∀ l : ℚ, l = 1 ∨ l = 11 / 10 * 1 → ∀ t ∈ heatingTemperatures (K := ℚ), AlwaysRuns (ampler l wideUnit) toyPoints (heatSettings .two .lowFull (-30)) t := by
    intro l hl t ht
    obtain ⟨rF, rL, e1, e2, g⟩ := hval l hl t ht
    refine ⟨(hall l hl t ht).1, ?_, fun r hr => ?_, fun r hr => ?_⟩
    · rintro o ⟨⟩; exact (hall l hl t ht).1
    · rw [e1, Except.ok.injEq] at hr; rw [← hr]; exact g.2.2.1
    · rw [e2, Except.ok.injEq] at hr; rw [← hr]; exact g.2.2.2.2.2.1
  refine ⟨fun t ht => ?_, fun t ht => ⟨hruns _ (Or.inl rfl) t ht, hruns _ (Or.inr rfl) t ht⟩, fun t ht rL rF h1 h2 => ?_, by decide +kernel, by decide +kernel⟩
  · obtain ⟨rF, rL, e1, e2, g⟩ := hval 1 (Or.inl rfl) t ht
    refine scaled_more (ampler_scaled _ _ _ _ fun _ => rfl) (by norm_num) (fun r hr => ?_) (fun _ r hr => ?_)
    · rw [e1, Except.ok.injEq] at hr; rw [← hr]; exact ⟨g.1, g.2.1⟩
    · rw [e2, Except.ok.injEq] at hr; rw [← hr]; exact ⟨g.2.2.2.1, g.2.2.2.2.1⟩
  · obtain ⟨rF', rL', e1, e2, g⟩ := hval _ (Or.inr rfl) t ht
    rw [e2, Except.ok.injEq] at h1
    rw [e1, Except.ok.injEq] at h2
    rw [← h1, ← h2]
    exact g.2.2.2.2.2.2

/-- Two ratings of a unit with `l` and with `k * l` times the heat of another one. -/
theorem falls {k l : ℚ} {U : Performance (ℚ × ℚ) ℚ} {std : RatingStandard} {s : HeatSettings ℚ} (a b : ℚ) (hab : b ≤ a)
    (h1 : okTest (hspf (ampler l U) toyPoints (Units.ofOnes ℚ) std s timedDefrost 4) (fun v => decide (a ≤ v)) = true)
    (h2 : okTest (hspf (ampler (k * l) U) toyPoints (Units.ofOnes ℚ) std s timedDefrost 4) (fun v => decide (v < b)) = true) :
    ∃ v v', hspf (ampler l U) toyPoints (Units.ofOnes ℚ) std s timedDefrost 4 = .ok v ∧ hspf (ampler (k * l) U) toyPoints (Units.ofOnes ℚ) std s timedDefrost 4 = .ok v' ∧
      v' < v := by
  obtain ⟨v, e1, g1⟩ := okTest_iff.1 h1
  obtain ⟨v', e2, g2⟩ := okTest_iff.1 h2
  simp only [decide_eq_true_eq] at g1 g2
  exact ⟨v, v', e1, e2, by linarith⟩

/-- C124 is false of units slightly worse than resistance heat: one that delivers one per cent more is run, and is rated 0.84 instead of 1. -/
theorem C124_inefficient_refuted : HeatScaled (101 / 100) (ampler 1 marginal) (ampler (101 / 100 * 1) marginal) toyPoints ∧
    ∃ v v', hspf (ampler 1 marginal) toyPoints (Units.ofOnes ℚ) .ahri2023 (heatSettings .single .lowFull 0) timedDefrost 4 = .ok v ∧
      hspf (ampler (101 / 100 * 1) marginal) toyPoints (Units.ofOnes ℚ) .ahri2023 (heatSettings .single .lowFull 0) timedDefrost 4 = .ok v' ∧ v' < v :=
  ⟨ampler_scaled _ _ _ _ fun _ => rfl, falls 1 (84 / 100) (by norm_num) (by decide +kernel) (by decide +kernel)⟩

/-- C124 is false of two-stage units that stop for the cold: with the cut-out at 42 °F, less than one per cent more heat lets the low speed meet the load of the 42 °F bin,
the run fraction of that bin instead of the 47 °F one is used in the colder bins, and the rating falls by a third. -/
theorem C124_two_stage_refuted : HeatScaled (125 / 124) (ampler (31 / 25) fanless) (ampler (125 / 124 * (31 / 25)) fanless) toyPoints ∧
    ∃ v v', hspf (ampler (31 / 25) fanless) toyPoints (Units.ofOnes ℚ) .ahri2023 (heatSettings .two .lowFull 42) timedDefrost 4 = .ok v ∧
      hspf (ampler (125 / 124 * (31 / 25)) fanless) toyPoints (Units.ofOnes ℚ) .ahri2023 (heatSettings .two .lowFull 42) timedDefrost 4 = .ok v' ∧ v' < v :=
  ⟨ampler_scaled _ _ _ _ fun _ => rfl, falls (154 / 100) (106 / 100) (by norm_num) (by decide +kernel) (by decide +kernel)⟩

/-- C124 is false of two-stage units that cycle between off and full speed, even of ones that never stop for the cold: where the full speed just meets the load, the part
load factor is taken from the share of the low speed and not from the load of the unit, so that it draws a third more than where it just fails to. -/
theorem C124_off_full_refuted : HeatScaled (60 / 59) (ampler (59 / 50) fanless) (ampler (60 / 59 * (59 / 50)) fanless) toyPoints ∧
    (∀ t ∈ heatingTemperatures, AlwaysRuns (ampler (59 / 50) fanless) toyPoints (heatSettings .two .offFull (-30)) t ∧
      AlwaysRuns (ampler (60 / 59 * (59 / 50)) fanless) toyPoints (heatSettings .two .offFull (-30)) t) ∧
    ∃ v v', hspf (ampler (59 / 50) fanless) toyPoints (Units.ofOnes ℚ) .ahri2023 (heatSettings .two .offFull (-30)) timedDefrost 4 = .ok v ∧
      hspf (ampler (60 / 59 * (59 / 50)) fanless) toyPoints (Units.ofOnes ℚ) .ahri2023 (heatSettings .two .offFull (-30)) timedDefrost 4 = .ok v' ∧ v' < v := by
  refine ⟨ampler_scaled _ _ _ _ fun _ => rfl, ?_, falls (248 / 100) (244 / 100) (by norm_num) (by decide +kernel) (by decide +kernel)⟩
  have hall : ∀ l : ℚ, l = 59 / 50 ∨ l = 60 / 59 * (59 / 50) → ∀ t ∈ heatingTemperatures (K := ℚ), frF (-30) < t ∧
      okTest (heatFull (ampler l fanless) toyPoints t) (fun rF => okTest (heatLowTwo (ampler l fanless) toyPoints t) fun rL =>
        decide (1 ≤ rF.1 / rF.2 ∧ 1 ≤ rL.1 / rL.2)) = true := by
    rintro l (rfl | rfl) <;> decide +kernel
  have hruns : ∀ l : ℚ, l = 59 / 50 ∨ l = 60 / 59 * (59 / 50) → ∀ t ∈ heatingTemperatures (K := ℚ), AlwaysRuns (ampler l fanless) toyPoints (heatSettings .two .offFull (-30)) t := by
    intro l hl t ht
    obtain ⟨rF, e1, g⟩ := okTest_iff.1 (hall l hl t ht).2
    obtain ⟨rL, e2, g⟩ := okTest_iff.1 g
    have g := of_decide_eq_true g
    refine ⟨(hall l hl t ht).1, ?_, fun r hr => ?_, fun r hr => ?_⟩
    · rintro o ⟨⟩; exact (hall l hl t ht).1
    · rw [e1, Except.ok.injEq] at hr; rw [← hr]; exact g.1
    · rw [e2, Except.ok.injEq] at hr; rw [← hr]; exact g.2
  exact fun t ht => ⟨hruns _ (Or.inl rfl) t ht, hruns _ (Or.inr rfl) t ht⟩

/-- C124 is false of variable-speed units: one per cent more heat lets the unit meet the load of one more bin, whose surplus was credited as negative resistance heat. -/
theorem C124_variable_speed_refuted : HeatScaled (111 / 110) (ampler (11 / 10) fanless) (ampler (111 / 110 * (11 / 10)) fanless) toyPoints ∧
    ∃ v v', hspf (ampler (11 / 10) fanless) toyPoints (Units.ofOnes ℚ) .ahri2023 (heatSettings .varSpeed .lowFull 0) timedDefrost 4 = .ok v ∧
      hspf (ampler (111 / 110 * (11 / 10)) fanless) toyPoints (Units.ofOnes ℚ) .ahri2023 (heatSettings .varSpeed .lowFull 0) timedDefrost 4 = .ok v' ∧ v' < v :=
  ⟨ampler_scaled _ _ _ _ fun _ => rfl, falls (315 / 100) (273 / 100) (by norm_num) (by decide +kernel) (by decide +kernel)⟩

/-- C124 is false of the 2017 edition, even for a single-stage unit without cycling losses: the load is that of the nearest standard design heating requirement, which
jumps from 10000 to 15000 Btu/h. -/
theorem C124_2017_refuted : HeatScaled (141 / 140) (ampler (14 / 10) fanless) (ampler (141 / 140 * (14 / 10)) fanless) toyPoints ∧
    ∃ v v', hspf (ampler (14 / 10) fanless) toyPoints (Units.ofOnes ℚ) .ahri2017 { heatSettings .single .lowFull 0 with cd := 0 } timedDefrost 4 = .ok v ∧
      hspf (ampler (141 / 140 * (14 / 10)) fanless) toyPoints (Units.ofOnes ℚ) .ahri2017 { heatSettings .single .lowFull 0 with cd := 0 } timedDefrost 4 = .ok v' ∧ v' < v :=
  ⟨ampler_scaled _ _ _ _ fun _ => rfl, falls (408 / 100) (408 / 100) (by norm_num) (by decide +kernel) (by decide +kernel)⟩

end Resdx.DX
