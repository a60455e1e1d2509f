import Verif.Props.Thrift

/-!
# C122: heating settings and the HSPF

The settings are the heating degradation coefficient and the cut-out and cut-in temperatures of the compressor.
-/

set_option linter.unusedSectionVars false
set_option linter.unusedSimpArgs false

namespace Resdx.DX

open Spec Performance BaseModel

variable {C K : Type} [Field K] [LinearOrder K] [IsStrictOrderedRing K]

/-- The powers the rating uses at an outdoor temperature are not negative. -/
def PowersNonneg (U : Performance C K) (P : Points C) (st : Staging) (t : K) : Prop :=
  (∀ r, heatFull U P t = .ok r → 0 ≤ r.2) ∧
    match st with
    | .single => True
    | .two => ∀ r, heatLowTwo U P t = .ok r → 0 ≤ r.2
    | .varSpeed => ∀ r, heatLowVar U P t = .ok r → 0 ≤ r.2

/-- Even if it cycled all the time, no speed the rating uses at an outdoor temperature would be less efficient than resistance heat. -/
def Worthwhile (U : Performance C K) (P : Points C) (st : Staging) (cd t : K) : Prop :=
  (∀ r, heatFull U P t = .ok r → r.2 ≤ (1 - cd) * r.1) ∧
    match st with
    | .single => True
    | .two => ∀ r, heatLowTwo U P t = .ok r → r.2 ≤ (1 - cd) * r.1
    | .varSpeed => (∀ r, heatLowVar U P t = .ok r → r.2 ≤ (1 - cd) * r.1) ∧
        ∀ q p, interpolate U.db (sCap U) P.h4Full P.h3Full t = .ok q → interpolate U.db (sPow U) P.h4Full P.h3Full t = .ok p → p ≤ q

theorem cyclingRate_cd {cd cd' q p l : K} (hcd : cd ≤ cd') (hcd0 : 0 ≤ cd) (hcd1 : cd' < 1) (hq : 0 < q) (hp : 0 ≤ p) (h0 : 0 ≤ l) (h1 : l ≤ q) :
    cyclingRate cd q p l ≤ cyclingRate cd' q p l := by
  have hl : l / q ≤ 1 := (div_le_one hq).2 h1
  have h2 : 0 ≤ l / q := by positivity
  unfold cyclingRate
  generalize l / q = x at *
  have h3 : 0 < 1 - cd' * (1 - x) := by nlinarith
  exact div_le_div_of_nonneg_left (mul_nonneg h2 hp) h3 (by nlinarith)

theorem cyclingRate_worth {cd q p l : K} (hcd0 : 0 ≤ cd) (hcd1 : cd < 1) (hq : 0 < q) (h : p ≤ (1 - cd) * q) (h0 : 0 ≤ l) (h1 : l ≤ q) :
    cyclingRate cd q p l ≤ l := by
  have hl : l / q ≤ 1 := (div_le_one hq).2 h1
  have h2 : 0 ≤ l / q := by positivity
  have e : l = l / q * q := by field_simp
  unfold cyclingRate
  generalize l / q = x at *
  subst e
  have h3 : 0 < 1 - cd * (1 - x) := by nlinarith
  rw [div_le_iff₀ h3, mul_assoc]
  refine mul_le_mul_of_nonneg_left (h.trans ?_) h2
  rw [mul_comm q]
  exact mul_le_mul_of_nonneg_right (by nlinarith) hq.le

theorem worth_combine {d d' Q E E' bl n : K} (hn : 0 ≤ n) (d0 : 0 ≤ d') (hd : d' ≤ d) (hE : E ≤ E') (h : d' = d ∨ E' ≤ Q) :
    d * E * n + (bl - d * Q) * n ≤ d' * E' * n + (bl - d' * Q) * n := by
  have key : d * E - d * Q ≤ d' * E' - d' * Q := by
    rcases h with rfl | h
    · nlinarith
    · nlinarith [mul_nonneg (sub_nonneg.2 hd) (sub_nonneg.2 h), mul_nonneg (d0.trans hd) (sub_nonneg.2 hE)]
  nlinarith

theorem cut_mono {off off' on on' t c d d' : K} (h : cutFactor off (some on) t c = .ok d) (h' : cutFactor off' (some on') t c = .ok d') (hoff : off ≤ off')
    (hon : on ≤ on') : 0 ≤ d' ∧ d' ≤ d ∧ (off' = off ∧ on' = on → d' = d) := by
  rw [cutFactor_ok, Except.ok.injEq] at h h'
  subst h; subst h'
  refine ⟨?_, ?_, by rintro ⟨rfl, rfl⟩; rfl⟩
  · unfold runFraction; split_ifs <;> norm_num
  · unfold runFraction
    by_cases h1 : t ≤ off ∨ c < 1
    · rw [if_pos h1, if_pos (h1.imp_left fun h => h.trans hoff)]
    rw [if_neg h1]
    by_cases h2 : t ≤ off' ∨ c < 1
    · rw [if_pos h2]; split_ifs <;> norm_num
    rw [if_neg h2]
    by_cases h3 : on' < t
    · rw [if_pos h3, if_pos (hon.trans_lt h3)]
    · rw [if_neg h3]; split_ifs <;> norm_num

theorem staging_var_eq {U : Performance C K} {P : Points C} {s : HeatSettings K} {I : Option (HeatIntermediate K)} {prev prev' : Option K}
    {t bl qF pF c d hlf n e rh : K} (hs : s.st = .varSpeed) (h : heatStaging U P s I prev t bl qF pF c d hlf n = .ok ((e, rh), prev')) :
    ∃ J qL pL cI, I = some J ∧ heatLowVar U P t = .ok (qL, pL) ∧ pdiv (J.q + J.mQ * (t - frF 35)) (J.p + J.mP * (t - frF 35)) = .ok cI ∧ prev' = prev ∧
      heatVarBin s t bl qL pL (qL / pL) (J.q + J.mQ * (t - frF 35)) cI qF c d n (heatFullAgain U P J.h1 J.h3 J.h4 (qF, pF) t) = .ok (e, rh) := by
  simp only [heatStaging, hs, bind_eq_ok, pure_eq_ok, Except.ok.injEq, Prod.mk.injEq] at h
  obtain ⟨J, hJ, ⟨qL, pL⟩, hl, _, hp, cI, hcI, r, hr, rfl, rfl⟩ := h
  obtain ⟨_, rfl⟩ := pdiv_eq_ok.1 hp
  cases I with
  | none => simp [pyAttr] at hJ
  | some J' =>
    simp only [pyAttr, Except.ok.injEq] at hJ
    subst hJ
    exact ⟨J', qL, pL, cI, rfl, hl, hcI, rfl, hr⟩

section
variable {U : Performance C K} {P : Points C} {s s' : HeatSettings K} {on on' : K} (hst : s'.st = s.st) (hcyc : s'.cyc = s.cyc) (ho : s.on = some on)
  (ho' : s'.on = some on') (hcd0 : 0 ≤ s.cd) (hcd : s.cd ≤ s'.cd) (hcd1 : s'.cd < 1) (hoff : s.off ≤ s'.off) (hon : on ≤ on')
include hst hcyc ho ho' hcd0 hcd hcd1 hoff hon

/-- One bin with two settings. -/
theorem settings_bin {I : Option (HeatIntermediate K)} {load : K → Py K} {prev prev' p1 p1' : Option K} {t n : K} {a a' : K × K × K} (hn : 0 ≤ n)
    (hl : ∀ bl, load t = .ok bl → 0 ≤ bl) (hp : PowersNonneg U P s.st t)
    (hw : (s'.off = s.off ∧ on' = on) ∨ (s.st = .two → s.cyc = .lowFull) ∧ Worthwhile U P s.st s'.cd t)
    (hprev : ∀ d d', prev = some d → prev' = some d' → 0 ≤ d' ∧ d' ≤ d ∧ (s'.off = s.off ∧ on' = on → d' = d))
    (h : heatBin U P s I load prev t n = .ok (a, p1)) (h' : heatBin U P s' I load prev' t n = .ok (a', p1')) :
    (a'.1 = a.1 ∧ 0 ≤ a.1 ∧ a.2.1 + a.2.2 ≤ a'.2.1 + a'.2.2) ∧
      ∀ d d', p1 = some d → p1' = some d' → 0 ≤ d' ∧ d' ≤ d ∧ (s'.off = s.off ∧ on' = on → d' = d) := by
  obtain ⟨q, e, rh⟩ := a
  obtain ⟨q', e', rh'⟩ := a'
  obtain ⟨bl, qF, pF, δ, hlf, h1, h2, h3, h4, h5, h6, rfl⟩ := heatBin_inv h
  obtain ⟨bl', qF', pF', δ', hlf', h1', h2', h3', h4', h5', h6', rfl⟩ := heatBin_inv h'
  rw [h1, Except.ok.injEq] at h1'
  rw [h2, Except.ok.injEq, Prod.mk.injEq] at h2'
  obtain ⟨rfl, rfl⟩ := h2'
  subst h1'
  rw [h5, Except.ok.injEq] at h5'
  subst h5'
  have hbl := hl bl h1
  have hq := mul_nonneg hn hbl
  have hpF : 0 ≤ pF := hp.1 _ h2
  rw [ho] at h4
  rw [ho'] at h4'
  obtain ⟨δ0, δ1, δ2⟩ := cut_mono h4 h4' hoff hon
  have cyc : ∀ {q p d d'}, 0 < q → 0 ≤ p → bl ≤ q → 0 ≤ d' → d' ≤ d → (s'.off = s.off ∧ on' = on → d' = d) → ((s'.off = s.off ∧ on' = on) ∨ p ≤ (1 - s'.cd) * q) →
      d * cyclingRate s.cd q p bl * n + (bl - d * bl) * n ≤ d' * cyclingRate s'.cd q p bl * n + (bl - d' * bl) * n := by
    intro q p d d' hq hp hle d0 dd de hw
    refine worth_combine hn d0 dd (cyclingRate_cd hcd hcd0 hcd1 hq hp hbl hle) (hw.imp de fun hw => ?_)
    exact cyclingRate_worth (hcd0.trans hcd) hcd1 hq hw hbl hle
  have full : (s'.off = s.off ∧ on' = on) ∨ pF ≤ (1 - s'.cd) * qF := hw.imp_right fun hw => hw.2.1 _ h2
  have weak : ∀ {p q : K}, 0 ≤ p → p ≤ (1 - s'.cd) * q → p ≤ q := by
    intro p q hp h
    have : 0 ≤ q := by
      by_contra hq
      nlinarith [mul_pos (sub_pos.2 hcd1) (neg_pos.2 (not_le.1 hq))]
    nlinarith [mul_nonneg (hcd0.trans hcd) this]
  cases hs : s.st with
  | single =>
    obtain ⟨h7, rfl⟩ := staging_single hs h6
    obtain ⟨h7', rfl⟩ := staging_single (hst.trans hs) h6'
    obtain ⟨rfl, rfl⟩ := single_inv hbl h5 h7
    obtain ⟨rfl, rfl⟩ := single_inv hbl h5 h7'
    refine ⟨⟨rfl, hq, ?_⟩, hprev⟩
    unfold oneStageRate
    by_cases hlt : bl < qF
    · simp only [if_pos hlt, min_eq_left hlt.le]
      exact cyc (hbl.trans_lt hlt) hpF hlt.le δ0 δ1 δ2 full
    · simp only [if_neg hlt, min_eq_right (not_lt.1 hlt)]
      exact worth_combine hn δ0 δ1 le_rfl (full.imp δ2 fun h => weak hpF h)
  | two =>
    obtain ⟨qL, pL, h7, h8, h9⟩ := staging_two hs h6
    obtain ⟨qL', pL', h7', h8', h9'⟩ := staging_two (hst.trans hs) h6'
    rw [h7, Except.ok.injEq, Prod.mk.injEq] at h7'
    obtain ⟨rfl, rfl⟩ := h7'
    have hp2 := hp.2
    rw [hs] at hp2
    have hpL : 0 ≤ pL := hp2 _ h7
    have low : (s'.off = s.off ∧ on' = on) ∨ pL ≤ (1 - s'.cd) * qL := hw.imp_right fun hw => by
      have := hw.2.2
      rw [hs] at this
      exact this _ h7
    rcases two_inv h9 with ⟨a, dl, b, rfl, c, rfl, rfl⟩ | ⟨a, b, c, dl, rfl, rfl, rfl, rfl⟩ | ⟨a, b, c, dl, rfl, rfl, rfl, rfl⟩ | ⟨a, b, rfl, rfl, rfl⟩
    · rcases two_inv h9' with ⟨a', dl', b', rfl, c', rfl, rfl⟩ | ⟨a', _⟩ | ⟨a', _⟩ | ⟨a', _⟩
      · rw [ho] at b
        rw [ho'] at b'
        obtain ⟨e0, e1, e2⟩ := cut_mono b b' hoff hon
        refine ⟨⟨rfl, hq, cyc (lt_of_le_of_ne (hbl.trans a) (Ne.symm c)) hpL a e0 e1 e2 low⟩, ?_⟩
        rintro _ _ ⟨⟩ ⟨⟩
        exact ⟨e0, e1, e2⟩
      all_goals exact absurd a (not_le.2 a')
    · rcases two_inv h9' with ⟨a', _⟩ | ⟨a', b', c', dl', rfl, rfl, rfl, rfl⟩ | ⟨a', b', c', _⟩ | ⟨a', b', _⟩
      · exact absurd a' (not_le.2 a)
      · obtain ⟨e0, e1, e2⟩ := hprev dl dl' rfl rfl
        refine ⟨⟨rfl, hq, worth_combine hn e0 e1 le_rfl ?_⟩, hprev⟩
        rcases low with hsame | hL
        · exact Or.inl (e2 hsame)
        rcases full with hsame | hF
        · exact Or.inl (e2 hsame)
        right
        refine (lineAt_le (a.trans b) a.le b.le (weak hpL hL) (weak hpF hF)).trans (le_of_eq ?_)
        have : qF - qL ≠ 0 := by linarith
        unfold lineAt; field_simp; ring
      · rw [hcyc, c] at c'; cases c'
      · exact absurd b (not_lt.2 b')
    · rcases two_inv h9' with ⟨a', _⟩ | ⟨a', b', c', _⟩ | ⟨a', b', c', dl', rfl, rfl, rfl, rfl⟩ | ⟨a', b', _⟩
      · exact absurd a' (not_le.2 a)
      · rw [hcyc, c] at c'; cases c'
      · obtain ⟨e0, e1, e2⟩ := hprev dl dl' rfl rfl
        refine ⟨⟨rfl, hq, ?_⟩, hprev⟩
        rcases hw with hsame | ⟨hw, _⟩
        · rw [δ2 hsame, e2 hsame]
          have x0 : 0 ≤ (qF - bl) / (qF - qL) := div_nonneg (by linarith) (by linarith)
          have x1 : (qF - bl) / (qF - qL) ≤ 1 := (div_le_one (by linarith)).2 (by linarith)
          have hlf0 : 0 ≤ hlf := by
            rw [loadFactor, if_pos b, pdiv_eq_ok] at h5
            obtain ⟨_, rfl⟩ := h5
            exact div_nonneg hbl (hbl.trans b.le)
          refine add_le_add ?_ le_rfl
          refine mul_le_mul_of_nonneg_right (mul_le_mul_of_nonneg_left ?_ (δ0.trans δ1)) hn
          generalize (qF - bl) / (qF - qL) = x at *
          exact div_le_div_of_nonneg_left (mul_nonneg hpF hlf0) (by nlinarith) (by nlinarith)
        · rw [hw hs] at c; cases c
      · exact absurd b (not_lt.2 b')
    · rcases two_inv h9' with ⟨a', _⟩ | ⟨a', b', _⟩ | ⟨a', b', _⟩ | ⟨a', b', rfl, rfl, rfl⟩
      · exact absurd a' (not_le.2 a)
      · exact absurd b' (not_lt.2 b)
      · exact absurd b' (not_lt.2 b)
      · exact ⟨⟨rfl, hq, worth_combine hn δ0 δ1 le_rfl (full.imp δ2 fun h => weak hpF h)⟩, hprev⟩
  | varSpeed =>
    obtain ⟨J, qL, pL, cI, rfl, h7, hcI, rfl, h9⟩ := staging_var_eq hs h6
    obtain ⟨J', qL', pL', cI', hJ', h7', hcI', rfl, h9'⟩ := staging_var_eq (hst.trans hs) h6'
    rw [Option.some.injEq] at hJ'
    subst hJ'
    rw [h7, Except.ok.injEq, Prod.mk.injEq] at h7'
    obtain ⟨rfl, rfl⟩ := h7'
    rw [hcI, Except.ok.injEq] at hcI'
    subst hcI'
    have hp2 := hp.2
    rw [hs] at hp2
    have hpL : 0 ≤ pL := hp2 _ h7
    have hw2 : (s'.off = s.off ∧ on' = on) ∨ pL ≤ (1 - s'.cd) * qL ∧ ∀ q p, interpolate U.db (sCap U) P.h4Full P.h3Full t = .ok q →
        interpolate U.db (sPow U) P.h4Full P.h3Full t = .ok p → p ≤ q := hw.imp_right fun hw => by
      have := hw.2.2
      rw [hs] at this
      exact ⟨this.1 _ h7, this.2⟩
    rcases var_inv h9 with ⟨a, dl, b, c, rfl, rfl⟩ | ⟨a, a1, cop, dl, hcop, c, b, rfl, rfl⟩ | ⟨a, a1, q1, p1, b, rfl, rfl⟩
    · rcases var_inv h9' with ⟨a', dl', b', c', rfl, rfl⟩ | ⟨a', _⟩ | ⟨a', _⟩
      · rw [ho] at b
        rw [ho'] at b'
        obtain ⟨e0, e1, e2⟩ := cut_mono b b' hoff hon
        exact ⟨⟨rfl, hq, cyc (lt_of_le_of_ne (hbl.trans a) (Ne.symm c)) hpL a e0 e1 e2 (hw2.imp_right And.left)⟩, hprev⟩
      all_goals exact absurd a (not_le.2 a')
    · rcases var_inv h9' with ⟨a', _⟩ | ⟨a', a1', cop', dl', hcop', c', b', rfl, rfl⟩ | ⟨a', a1', _⟩
      · exact absurd a' (not_le.2 a)
      · rw [← hcop] at hcop'
        subst hcop'
        have hb := (cutFactor_bounds b).2.2
        rw [ho] at b
        rw [ho'] at b'
        obtain ⟨e0, e1, e2⟩ := cut_mono b b' hoff hon
        refine ⟨⟨rfl, hq, worth_combine hn e0 e1 le_rfl ?_⟩, hprev⟩
        by_cases hd : dl = 0
        · left; rw [hd] at e1 ⊢; exact le_antisymm e1 e0
        · right
          exact div_le_self hbl (hb hd).2
      · exact absurd a1 (not_lt.2 a1')
    · rcases var_inv h9' with ⟨a', _⟩ | ⟨a', a1', _⟩ | ⟨a', a1', q1', p1', b', rfl, rfl⟩
      · exact absurd a' (not_le.2 a)
      · exact absurd a1' (not_lt.2 a1)
      · rw [b, Except.ok.injEq, Prod.mk.injEq] at b'
        obtain ⟨rfl, rfl⟩ := b'
        rw [heatFullAgain_eq] at b
        simp only [bind_eq_ok, pure_eq_ok, Except.ok.injEq, Prod.mk.injEq] at b
        obtain ⟨x, hx, y, hy, rfl, rfl⟩ := b
        exact ⟨⟨rfl, hq, worth_combine hn δ0 δ1 le_rfl (hw2.imp δ2 fun h => h.2 _ _ hx hy)⟩, hprev⟩

/-- The seasonal sums with two settings. -/
theorem settings_loop {I : Option (HeatIntermediate K)} {load : K → Py K} (bins : List (K × K)) (hn : ∀ b ∈ bins, 0 ≤ b.2)
    (hl : ∀ t bl, load t = .ok bl → 0 ≤ bl) (hp : ∀ b ∈ bins, PowersNonneg U P s.st b.1)
    (hw : (s'.off = s.off ∧ on' = on) ∨ (s.st = .two → s.cyc = .lowFull) ∧ ∀ b ∈ bins, Worthwhile U P s.st s'.cd b.1)
    {prev prev' : Option K} {acc acc' r r' : K × K × K}
    (hprev : ∀ d d', prev = some d → prev' = some d' → 0 ≤ d' ∧ d' ≤ d ∧ (s'.off = s.off ∧ on' = on → d' = d))
    (hacc : acc'.1 = acc.1 ∧ 0 ≤ acc.1 ∧ acc.2.1 + acc.2.2 ≤ acc'.2.1 + acc'.2.2)
    (h : heatLoop (heatBin U P s I load) bins prev acc = .ok r) (h' : heatLoop (heatBin U P s' I load) bins prev' acc' = .ok r') :
    r'.1 = r.1 ∧ 0 ≤ r.1 ∧ r.2.1 + r.2.2 ≤ r'.2.1 + r'.2.2 := by
  induction bins generalizing prev prev' acc acc' with
  | nil =>
    simp only [heatLoop, Except.ok.injEq] at h h'
    exact h ▸ h' ▸ hacc
  | cons b l ih =>
    obtain ⟨t, n⟩ := b
    simp only [heatLoop, bind_eq_ok] at h h'
    obtain ⟨⟨x, p1⟩, hx, h⟩ := h
    obtain ⟨⟨x', p1'⟩, hx', h'⟩ := h'
    obtain ⟨⟨g1, g2, g3⟩, g4⟩ := settings_bin hst hcyc ho ho' hcd0 hcd hcd1 hoff hon (hn _ List.mem_cons_self) (hl t) (hp _ List.mem_cons_self)
      (hw.imp_right fun hw => ⟨hw.1, hw.2 _ List.mem_cons_self⟩) hprev hx hx'
    refine ih (fun b hb => hn b (List.mem_cons_of_mem _ hb)) (fun b hb => hp b (List.mem_cons_of_mem _ hb))
      (hw.imp_right fun hw => ⟨hw.1, fun b hb => hw.2 b (List.mem_cons_of_mem _ hb)⟩) g4 ?_ h h'
    obtain ⟨k1, k2, k3⟩ := hacc
    refine ⟨by simp only [k1, g1], add_nonneg k2 g2, ?_⟩
    simp only
    linarith

/-- The rating with two settings. -/
theorem settings_hspf {u : Units K} {std : RatingStandard} {d : HeatDist K} {f v v' : K} (hn : ∀ n ∈ d.hours, 0 ≤ n) (hf : 0 ≤ f)
    (hp : ∀ t ∈ heatingTemperatures, PowersNonneg U P s.st t)
    (hw : (s'.off = s.off ∧ on' = on) ∨ (s.st = .two → s.cyc = .lowFull) ∧ ∀ t ∈ heatingTemperatures, Worthwhile U P s.st s'.cd t)
    (hv : hspfWith U P u std s d (.ok f) = .ok v) (hv' : hspfWith U P u std s' d (.ok f) = .ok v') (h0 : 0 < v) : v' ≤ v := by
  simp only [hspfWith, hst, bind_eq_ok, pdiv_eq_ok, Except.ok.injEq] at hv hv'
  obtain ⟨load, hl, I, hI, r, hr, _, rfl, _, ⟨hD, rfl⟩, hb, rfl⟩ := hv
  obtain ⟨load', hl', I', hI', r', hr', _, rfl, _, ⟨hD', rfl⟩, _, rfl⟩ := hv'
  rw [hl, Except.ok.injEq] at hl'
  rw [hI, Except.ok.injEq] at hI'
  subst hl'; subst hI'
  obtain ⟨g1, g2, g3⟩ := settings_loop hst hcyc ho ho' hcd0 hcd hcd1 hoff hon (heatingTemperatures.zip d.hours)
    (fun b hb => hn _ (List.of_mem_zip hb).2) (fun t bl hbl => heatingLoad_nonneg hl hbl) (fun b hb => hp _ (List.of_mem_zip hb).1)
    (hw.imp_right fun hw => ⟨hw.1, fun b hb => hw.2 _ (List.of_mem_zip hb).1⟩) (by simp) (by simp) hr hr'
  have hpos : 0 < r.2.1 + r.2.2 := by
    rcases lt_or_gt_of_ne hD with hneg | hpos
    · exfalso
      refine absurd h0 (not_lt.2 (div_nonpos_of_nonpos_of_nonneg (mul_nonpos_of_nonpos_of_nonneg (div_nonpos_of_nonneg_of_nonpos g2 hneg.le) hf) u.btuh_pos.le))
    · exact hpos
  rw [g1]
  exact div_le_div_of_nonneg_right (mul_le_mul_of_nonneg_right (div_le_div_of_nonneg_left g2 hpos g3) hf) u.btuh_pos.le

end

/-! ## The property -/

section
variable {U : Performance C K} {P : Points C} {u : Units K} {std : RatingStandard} {s : HeatSettings K} {defrost : Defrost K} {region : Nat} {on f v v' : K}
  (ho : s.on = some on) (hc : defrost.demandCredit u = .ok f) (hf : 0 ≤ f) (hp : ∀ t ∈ heatingTemperatures, PowersNonneg U P s.st t)
  (hv : hspf U P u std s defrost region = .ok v) (h0 : 0 < v)
include ho hc hf hp hv h0

/-- C122 for the degradation coefficient: more degradation never raises the HSPF, for every staging type, cycling method, climate region and edition. -/
theorem C122_degradation {cd : K} (hcd0 : 0 ≤ s.cd) (hcd : s.cd ≤ cd) (hcd1 : cd < 1) (hv' : hspf U P u std { s with cd := cd } defrost region = .ok v') : v' ≤ v := by
  simp only [hspf, bind_eq_ok, hc] at hv hv'
  obtain ⟨d, hd, hv⟩ := hv
  obtain ⟨d', hd', hv'⟩ := hv'
  rw [hd, Except.ok.injEq] at hd'
  subst hd'
  exact settings_hspf (s := s) (s' := { s with cd := cd }) (on' := on) rfl rfl ho ho hcd0 hcd hcd1 le_rfl le_rfl (C55_regions hd).2.2.2.1 hf hp (Or.inl ⟨rfl, rfl⟩) hv hv' h0

/-- C122 for the cut-out and cut-in temperatures: raising them never raises the HSPF, if the compressor is worth running at all temperatures even with cycling
losses. Missing: compressors that are not (`C122_inefficient_refuted`), and two-stage units that cycle between off and full speed (`C122_off_full_refuted`). -/
theorem C122_cut_temperatures_partial {off on' : K} (hcd0 : 0 ≤ s.cd) (hcd1 : s.cd < 1) (hoff : s.off ≤ off) (hon : on ≤ on')
    (hcyc : s.st = .two → s.cyc = .lowFull) (hw : ∀ t ∈ heatingTemperatures, Worthwhile U P s.st s.cd t)
    (hv' : hspf U P u std { s with off := off, on := some on' } defrost region = .ok v') : v' ≤ v := by
  simp only [hspf, bind_eq_ok, hc] at hv hv'
  obtain ⟨d, hd, hv⟩ := hv
  obtain ⟨d', hd', hv'⟩ := hv'
  rw [hd, Except.ok.injEq] at hd'
  subst hd'
  exact settings_hspf (s := s) (s' := { s with off := off, on := some on' }) rfl rfl ho rfl hcd0 le_rfl hcd1 hoff hon (C55_regions hd).2.2.2.1 hf hp (Or.inr ⟨hcyc, hw⟩) hv hv' h0

end

/-- C122 for the defrost control: the HSPF is proportional to the demand-defrost credit, and nothing else about the defrost enters it. -/
theorem C122_defrost {U : Performance C K} {P : Points C} {u : Units K} {std : RatingStandard} {s : HeatSettings K} {defrost defrost' : Defrost K} {region : Nat}
    {f f' v : K} (hc : defrost.demandCredit u = .ok f) (hc' : defrost'.demandCredit u = .ok f') (hf : f ≠ 0) (hv : hspf U P u std s defrost region = .ok v) :
    hspf U P u std s defrost' region = .ok (v * f' / f) := by
  simp only [hspf, hspfWith, bind_eq_ok, hc, bind_ok, pdiv_eq_ok] at hv
  obtain ⟨d, hd, load, hl, I, hI, r, hr, x, ⟨hD, rfl⟩, hb, rfl⟩ := hv
  simp only [hspf, hspfWith, hd, hl, hI, hr, hc', bind_ok, pdiv_ok hD, pdiv_ok hb, Except.ok.injEq]
  field_simp

/-! ## Cases, and what fails -/

theorem fanless_nonneg (st : Staging) : ∀ t ∈ heatingTemperatures, PowersNonneg fanless toyPoints st t := by
  intro t ht
  obtain ⟨h1, h2, h3⟩ := fanless_powers t ht
  refine ⟨fun r hr => (h1 r hr).le, ?_⟩
  cases st
  · trivial
  · exact fun r hr => (h2 r hr).le
  · exact fun r hr => (h3 r hr).le

/-- The units below are worth running at every temperature of the bins. -/
theorem worth_of {U : Performance (ℚ × ℚ) ℚ} (st : Staging) (h : (heatingTemperatures (K := ℚ)).all (fun t =>
      okTest (heatFull U toyPoints t) (fun r => decide (r.2 ≤ (1 - 1 / 4) * r.1)) && okTest (heatLowTwo U toyPoints t) (fun r => decide (r.2 ≤ (1 - 1 / 4) * r.1)) &&
      okTest (heatLowVar U toyPoints t) (fun r => decide (r.2 ≤ (1 - 1 / 4) * r.1)) &&
      okTest (interpolate U.db (sCap U) toyPoints.h4Full toyPoints.h3Full t) (fun q =>
        okTest (interpolate U.db (sPow U) toyPoints.h4Full toyPoints.h3Full t) fun p => decide (p ≤ q))) = true) :
    ∀ t ∈ heatingTemperatures, Worthwhile U toyPoints st (1 / 4) t := by
  intro t ht
  have h := List.all_eq_true.1 h t ht
  simp only [Bool.and_eq_true] at h
  obtain ⟨⟨⟨h1, h2⟩, h3⟩, h4⟩ := h
  obtain ⟨r1, e1, g1⟩ := okTest_iff.1 h1
  obtain ⟨r2, e2, g2⟩ := okTest_iff.1 h2
  obtain ⟨r3, e3, g3⟩ := okTest_iff.1 h3
  obtain ⟨q, e4, g4⟩ := okTest_iff.1 h4
  obtain ⟨p, e5, g5⟩ := okTest_iff.1 g4
  simp only [decide_eq_true_eq] at g1 g2 g3 g5
  refine ⟨fun r hr => ?_, ?_⟩
  · rw [e1, Except.ok.injEq] at hr; rw [← hr]; exact g1
  · cases st
    · trivial
    · intro r hr; rw [e2, Except.ok.injEq] at hr; rw [← hr]; exact g2
    · refine ⟨fun r hr => ?_, fun q' p' hq hp => ?_⟩
      · rw [e3, Except.ok.injEq] at hr; rw [← hr]; exact g3
      · rw [e4, Except.ok.injEq] at hq; rw [e5, Except.ok.injEq] at hp; rw [← hq, ← hp]; exact g5

theorem fanless_worth (st : Staging) : ∀ t ∈ heatingTemperatures, Worthwhile fanless toyPoints st (1 / 4) t := worth_of st (by decide +kernel)

/-- The settings of `heatSettings` with another cut-out temperature and the same rule for the cut-in temperature. -/
example (st : Staging) (cyc : Cycling) (off off' : ℚ) :
    heatSettings st cyc off' = { heatSettings st cyc off with off := frF off', on := onTemperature none (frF off') } := rfl

/-- A defrost with timed control, credit 1. -/
def timedDefrost : Defrost ℚ := { Defrost.default (Units.ofOnes ℚ) with control := .timed }

/-- `C122_cut_temperatures_partial` applied: cut-out at 30 °F instead of 0 °F, for the three staging types; both ratings exist and are positive. -/
example : ∀ st : Staging, ∃ v v', hspf fanless toyPoints (Units.ofOnes ℚ) .ahri2023 (heatSettings st .lowFull 0) timedDefrost 4 = .ok v ∧
    hspf fanless toyPoints (Units.ofOnes ℚ) .ahri2023 (heatSettings st .lowFull 30) timedDefrost 4 = .ok v' ∧ v' ≤ v := by
  intro st
  have h1 : okTest (hspf fanless toyPoints (Units.ofOnes ℚ) .ahri2023 (heatSettings st .lowFull 0) timedDefrost 4) (fun v => decide (0 < v)) = true := by
    cases st <;> decide +kernel
  have h2 : okTest (hspf fanless toyPoints (Units.ofOnes ℚ) .ahri2023 (heatSettings st .lowFull 30) timedDefrost 4) (fun v => decide (0 < v)) = true := by
    cases st <;> decide +kernel
  obtain ⟨v, e1, g1⟩ := okTest_iff.1 h1
  obtain ⟨v', e2, g2⟩ := okTest_iff.1 h2
  simp only [decide_eq_true_eq] at g1 g2
  refine ⟨v, v', e1, e2, ?_⟩
  exact C122_cut_temperatures_partial (s := heatSettings st .lowFull 0) rfl (by rfl : timedDefrost.demandCredit (Units.ofOnes ℚ) = .ok 1) zero_le_one (fanless_nonneg st) e1 g1
    (by norm_num [heatSettings]) (by norm_num [heatSettings]) (by norm_num [heatSettings, frF]) (by norm_num [onTemperature, frF]) (fun _ => rfl) (fanless_worth st) e2

/-- `C122_degradation` applied: a coefficient of 0.3 instead of 0.25. -/
example : ∀ st cyc, ∃ v v', hspf fanless toyPoints (Units.ofOnes ℚ) .ahri2017 (heatSettings st cyc 0) timedDefrost 3 = .ok v ∧
    hspf fanless toyPoints (Units.ofOnes ℚ) .ahri2017 { heatSettings st cyc 0 with cd := 3 / 10 } timedDefrost 3 = .ok v' ∧ v' ≤ v := by
  intro st cyc
  have h1 : okTest (hspf fanless toyPoints (Units.ofOnes ℚ) .ahri2017 (heatSettings st cyc 0) timedDefrost 3) (fun v => decide (0 < v)) = true := by
    cases st <;> cases cyc <;> decide +kernel
  have h2 : okTest (hspf fanless toyPoints (Units.ofOnes ℚ) .ahri2017 { heatSettings st cyc 0 with cd := 3 / 10 } timedDefrost 3) (fun v => decide (0 < v)) = true := by
    cases st <;> cases cyc <;> decide +kernel
  obtain ⟨v, e1, g1⟩ := okTest_iff.1 h1
  obtain ⟨v', e2, g2⟩ := okTest_iff.1 h2
  simp only [decide_eq_true_eq] at g1 g2
  refine ⟨v, v', e1, e2, ?_⟩
  exact C122_degradation (s := heatSettings st cyc 0) rfl (by rfl : timedDefrost.demandCredit (Units.ofOnes ℚ) = .ok 1) zero_le_one (fanless_nonneg st) e1 g1
    (by norm_num [heatSettings]) (by norm_num [heatSettings]) (by norm_num) e2

/-- A unit with a small first and a large second stage. -/
def wideUnit : Performance (ℚ × ℚ) ℚ :=
  { fanless with
    heatCap := fun c => .ok (10 * (c.1 - 38) * (c.2 / 2 - 60) * 11 / 10), intCap := fun c => .ok (10 * (c.1 - 38) * (c.2 / 2 - 60) * 4 / 5)
    heatPow := fun c => .ok (10 * (c.1 - 38) * (320 - c.2) / 2), intPow := fun c => .ok (10 * (c.1 - 38) * (320 - c.2) / 2) }

/-- C122 is false of two-stage units that cycle between off and full speed, even if they are worth running at all temperatures: with a cut-out at 40 °F instead of
-30 °F the rating rises more than sevenfold. Below the cut-out temperature the compressor's energy is dropped, but the resistance heat replacing it is not added. -/
theorem C122_off_full_refuted : (∀ t ∈ heatingTemperatures, Worthwhile wideUnit toyPoints .two (1 / 4) t) ∧
    ∃ v v', hspf wideUnit toyPoints (Units.ofOnes ℚ) .ahri2023 (heatSettings .two .offFull (-30)) timedDefrost 4 = .ok v ∧
      hspf wideUnit toyPoints (Units.ofOnes ℚ) .ahri2023 (heatSettings .two .offFull 40) timedDefrost 4 = .ok v' ∧ 0 < v ∧ 7 * v < v' := by
  refine ⟨worth_of .two (by decide +kernel), ?_⟩
  have h1 : okTest (hspf wideUnit toyPoints (Units.ofOnes ℚ) .ahri2023 (heatSettings .two .offFull (-30)) timedDefrost 4) (fun v => decide (0 < v ∧ v < 27 / 10)) = true := by
    decide +kernel
  have h2 : okTest (hspf wideUnit toyPoints (Units.ofOnes ℚ) .ahri2023 (heatSettings .two .offFull 40) timedDefrost 4) (fun v => decide (20 < v)) = true := by decide +kernel
  obtain ⟨v, e1, g1⟩ := okTest_iff.1 h1
  obtain ⟨v', e2, g2⟩ := okTest_iff.1 h2
  simp only [decide_eq_true_eq] at g1 g2
  exact ⟨v, v', e1, e2, g1.1, by linarith⟩

/-- C122 is false of units hardly better than resistance heat: never running the compressor (cut-out at 65 °F) gives a higher HSPF than running it, because of the
cycling losses. -/
theorem C122_inefficient_refuted : ∃ v v',
    hspf (thrifty (99 / 100) marginal) toyPoints (Units.ofOnes ℚ) .ahri2023 (heatSettings .single .lowFull 0) timedDefrost 4 = .ok v ∧
    hspf (thrifty (99 / 100) marginal) toyPoints (Units.ofOnes ℚ) .ahri2023 (heatSettings .single .lowFull 65) timedDefrost 4 = .ok v' ∧ 0 < v ∧ v < v' := by
  have h1 : okTest (hspf (thrifty (99 / 100) marginal) toyPoints (Units.ofOnes ℚ) .ahri2023 (heatSettings .single .lowFull 0) timedDefrost 4)
      (fun v => decide (0 < v ∧ v < 1)) = true := by decide +kernel
  have h2 : okTest (hspf (thrifty (99 / 100) marginal) toyPoints (Units.ofOnes ℚ) .ahri2023 (heatSettings .single .lowFull 65) timedDefrost 4)
      (fun v => decide (v = 1)) = true := by decide +kernel
  obtain ⟨v, e1, g1⟩ := okTest_iff.1 h1
  obtain ⟨v', e2, g2⟩ := okTest_iff.1 h2
  simp only [decide_eq_true_eq] at g1 g2
  exact ⟨v, v', e1, e2, g1.1, g2 ▸ g1.2⟩

end Resdx.DX
