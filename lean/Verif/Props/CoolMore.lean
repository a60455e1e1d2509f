import Verif.Props.HeatMore

/-!
# C125: units that cool more from no more power
-/

set_option linter.unusedSectionVars false
set_option linter.unusedSimpArgs false

namespace Resdx.DX

open Spec Performance BaseModel

variable {C K : Type} [Field K] [LinearOrder K] [IsStrictOrderedRing K]

/-! ## One bin -/

/-- A slower speed with a better COP draws less. -/
theorem power_le_of_cop {q p Q P : K} (hq : q ≤ Q) (hp : 0 < p) (hP : 0 < P) (hQ : 0 < Q) (h : Q / P ≤ q / p) : p ≤ P := by
  rw [div_le_div_iff₀ hP hp] at h
  nlinarith

/-- Cycling at a speed that delivers more is better than running at the COP of the speed that delivers less. -/
theorem cyclingRate_le_cop {cd q q' p p' l : K} (hcd : 0 ≤ cd) (hcd1 : cd < 1) (hq : 0 < q) (h0 : q ≤ l) (h1 : l ≤ q') (hp0 : 0 < p') (hp : p' ≤ p) :
    cyclingRate cd q' p' l ≤ l / (q / p) := by
  have hl : 0 < l := hq.trans_le h0
  have hq' : 0 < q' := hl.trans_le h1
  have hpp := hp0.trans_le hp
  have hd : 0 < q' * (1 - cd) + cd * l := by nlinarith
  have e : cyclingRate cd q' p' l = l * p' / (q' * (1 - cd) + cd * l) := by
    unfold cyclingRate
    have : 1 - cd * (1 - l / q') = (q' * (1 - cd) + cd * l) / q' := by field_simp; ring
    rw [this]
    field_simp
  have e2 : l / (q / p) = l * p / q := by field_simp
  rw [e, e2]
  refine div_le_div₀ (by positivity) (mul_le_mul_of_nonneg_left hp hl.le) hq ?_
  nlinarith

/-- Cycling at a slower speed with a better COP draws less than cycling at the faster one. -/
theorem cyclingRate_slower {cd q Q p P l : K} (hcd : 0 ≤ cd) (hcd1 : cd < 1) (hq : 0 < q) (hQ : q ≤ Q) (hp : 0 < p) (hP : 0 < P) (hc : Q / P ≤ q / p) (h0 : 0 ≤ l)
    (h1 : l ≤ q) : cyclingRate cd q p l ≤ cyclingRate cd Q P l := by
  have hQ0 := hq.trans_le hQ
  have hl : l / q ≤ 1 := (div_le_one hq).2 h1
  have h2 : 0 ≤ l / Q := div_nonneg h0 hQ0.le
  have h3 : l / Q ≤ l / q := div_le_div_of_nonneg_left h0 hq hQ
  have h4 : l / q * p ≤ l / Q * P := by
    rw [div_le_div_iff₀ hP hp] at hc
    rw [div_mul_eq_mul_div, div_mul_eq_mul_div, div_le_div_iff₀ hq hQ0]
    nlinarith
  unfold cyclingRate
  generalize l / q = x at *
  generalize l / Q = y at *
  have hy : 0 < 1 - cd * (1 - y) := by nlinarith
  exact div_le_div₀ (mul_nonneg h2 hP.le) h4 hy (by nlinarith)

/-- A falling line between two points that move up and to the right rises. -/
theorem line_falls {a b a' b' x c d c' d' : K} (ha : a ≤ a') (hb : b ≤ b') (h0 : a' ≤ x) (h1 : x ≤ b) (hab : a < b) (hab' : a' < b') (hcd : d ≤ c) (hc : c ≤ c')
    (hd : d ≤ d') : lineAt a c b d x ≤ lineAt a' c' b' d' x := by
  refine le_trans ?_ (lineAt_le hab' h0 (h1.trans hb) hc hd)
  have e : ∀ a b : K, lineAt a c b d x = c - (c - d) * ((x - a) / (b - a)) := by intro a b; unfold lineAt; ring
  rw [e, e]
  have : (x - a') / (b' - a') ≤ (x - a) / (b - a) := by
    rw [div_le_div_iff₀ (by linarith) (by linarith)]
    nlinarith [mul_nonneg (sub_nonneg.2 ha) (sub_nonneg.2 h1), mul_nonneg (sub_nonneg.2 hb) (sub_nonneg.2 (ha.trans h0))]
  linarith [mul_le_mul_of_nonneg_left this (sub_nonneg.2 hcd)]

theorem twoStageRate_more {cd : K} {b : Bool} {qL pL qF pF qL' pL' qF' pF' l : K} (hcd : 0 ≤ cd) (hcd1 : cd < 1) (hq : 0 < qL) (hle : qL ≤ qF) (hL : qL ≤ qL')
    (hF : qF ≤ qF') (hle' : qL' ≤ qF') (hpL0 : 0 < pL') (hpF0 : 0 < pF') (hpL : pL' ≤ pL) (hpF : pF' ≤ pF) (hLF : pL' ≤ pF') (hc : b = false → qF' / pF' ≤ qL' / pL')
    (h0 : 0 ≤ l) : twoStageRate cd b qL' pL' qF' pF' l ≤ twoStageRate cd b qL pL qF pF l := by
  have hq' := hq.trans_le hL
  have hF0 := hq.trans_le hle
  have hF0' := hF0.trans_le hF
  have full : l ≤ qF → cyclingRate cd qF' pF' l ≤ cyclingRate cd qF pF l := fun h =>
    (cyclingRate_capacity hcd hcd1 hF0 hF hpF0.le h0 h).trans (cyclingRate_power hcd hcd1 hF0 hpF h0 h)
  unfold twoStageRate
  by_cases a' : l ≤ qL'
  · rw [if_pos a']
    have low := cyclingRate_le_power hcd hcd1 hq' hpL0.le h0 a'
    by_cases a : l ≤ qL
    · rw [if_pos a]
      exact (cyclingRate_capacity hcd hcd1 hq hL hpL0.le h0 a).trans (cyclingRate_power hcd hcd1 hq hpL h0 a)
    · rw [if_neg a]
      have a := not_le.1 a
      split
      · rename_i g
        cases b with
        | true => exact low.trans (lineAt_between (hi := max pL pF) (a.trans g) a.le g.le hpL (hLF.trans hpF) (le_max_left _ _) (le_max_right _ _)).1
        | false => exact (cyclingRate_slower hcd hcd1 hq' hle' hpL0 hpF0 (hc rfl) h0 a').trans (full g.le)
      · linarith
  · have a := not_le.1 a'
    rw [if_neg a', if_neg (not_le.2 (hL.trans_lt a))]
    by_cases g' : l < qF'
    · rw [if_pos g']
      by_cases g : l < qF
      · rw [if_pos g]
        cases b with
        | true => exact (line_more hL hF a g hLF).trans (lineAt_le ((hL.trans_lt a).trans g) (hL.trans a.le) g.le hpL hpF)
        | false => exact full g.le
      · rw [if_neg g]
        cases b with
        | true => exact (lineAt_between (lo := pL') (hi := pF') (a.trans g') a.le g'.le le_rfl hLF hLF le_rfl).2.trans hpF
        | false => exact (cyclingRate_le_power hcd hcd1 hF0' hpF0.le h0 g'.le).trans hpF
    · rw [if_neg g', if_neg (fun g => g' (g.trans_le hF))]
      exact hpF

/-- The speeds of a variable-speed unit at one temperature: faster speeds deliver more at a lower COP. -/
def Falling (qL pL qI pI qF pF : K) : Prop :=
  (0 < qL ∧ qL ≤ qI ∧ qI < qF) ∧ (0 < pL ∧ 0 < pI ∧ 0 < pF) ∧ qI / pI ≤ qL / pL ∧ qF / pF ≤ qI / pI

theorem varSpeedRate_more {cd qL pL qI pI qF pF qL' pL' qI' pI' qF' pF' l : K} (hcd : 0 ≤ cd) (hcd1 : cd < 1) (h : Falling qL pL qI pI qF pF)
    (h' : Falling qL' pL' qI' pI' qF' pF') (hL : qL ≤ qL') (hI : qI ≤ qI') (hF : qF ≤ qF') (hpL : pL' ≤ pL) (hpI : pI' ≤ pI) (hpF : pF' ≤ pF) (h0 : 0 ≤ l) :
    varSpeedRate cd qL' pL' qI' pI' qF' pF' l ≤ varSpeedRate cd qL pL qI pI qF pF l := by
  obtain ⟨⟨q0, q1, q2⟩, ⟨p0, p1, p2⟩, c1, c2⟩ := h
  obtain ⟨⟨q0', q1', q2'⟩, ⟨p0', p1', p2'⟩, c1', c2'⟩ := h'
  have i0 := q0.trans_le q1
  have f0 := i0.trans q2
  have i0' := q0'.trans_le q1'
  have f0' := i0'.trans q2'
  have kL : 0 < qL / pL := div_pos q0 p0
  have kI : 0 < qI / pI := div_pos i0 p1
  have kF : 0 < qF / pF := div_pos f0 p2
  have kI' : 0 < qI' / pI' := div_pos i0' p1'
  have kF' : 0 < qF' / pF' := div_pos f0' p2'
  have dL : qL / pL ≤ qL' / pL' := div_le_div₀ q0'.le hL p0' hpL
  have dI : qI / pI ≤ qI' / pI' := div_le_div₀ i0'.le hI p1' hpI
  have dF : qF / pF ≤ qF' / pF' := div_le_div₀ f0'.le hF p2' hpF
  have pIF : pI' ≤ pF' := power_le_of_cop q2'.le p1' p2' f0' c2'
  have pLI : pL' ≤ pI' := power_le_of_cop q1' p0' p1' i0' c1'
  unfold varSpeedRate
  by_cases a' : l ≤ qL'
  · rw [if_pos a']
    by_cases a : l ≤ qL
    · rw [if_pos a]
      exact (cyclingRate_capacity hcd hcd1 q0 hL p0'.le h0 a).trans (cyclingRate_power hcd hcd1 q0 hpL h0 a)
    rw [if_neg a]
    have a := not_le.1 a
    have low := cyclingRate_le_cop hcd hcd1 q0 a.le a' p0' hpL
    split
    · rename_i b
      refine low.trans (div_le_div_of_nonneg_left h0 (lineAt_pos (a.trans b) a.le b.le kL kI) ?_)
      exact (lineAt_between (lo := qI / pI) (a.trans b) a.le b.le c1 le_rfl le_rfl c1).2
    rename_i b
    split
    · rename_i c
      refine low.trans (div_le_div_of_nonneg_left h0 (lineAt_pos q2 (not_lt.1 b) c kI kF) ?_)
      exact (lineAt_between (lo := qF / pF) q2 (not_lt.1 b) c c2 le_rfl c1 (c2.trans c1)).2
    · exact (cyclingRate_le_power hcd hcd1 q0' p0'.le h0 a').trans (by linarith)
  have a := not_le.1 a'
  rw [if_neg a', if_neg (not_le.2 (hL.trans_lt a))]
  by_cases b' : l < qI'
  · rw [if_pos b']
    have hi : qI' / pI' ≤ lineAt qL' (qL' / pL') qI' (qI' / pI') l :=
      (lineAt_between (hi := qL' / pL') (a.trans b') a.le b'.le c1' le_rfl le_rfl c1').1
    split
    · rename_i b
      refine div_le_div_of_nonneg_left h0 (lineAt_pos ((hL.trans_lt a).trans b) (hL.trans a.le) b.le kL kI) ?_
      exact line_falls hL hI a.le b.le ((hL.trans_lt a).trans b) (a.trans b') c1 dL dI
    rename_i b
    split
    · rename_i c
      refine div_le_div_of_nonneg_left h0 (lineAt_pos q2 (not_lt.1 b) c kI kF) ?_
      exact ((lineAt_between (lo := qF / pF) q2 (not_lt.1 b) c c2 le_rfl le_rfl c2).2.trans dI).trans hi
    · have : l / lineAt qL' (qL' / pL') qI' (qI' / pI') l ≤ l / (qI' / pI') := div_le_div_of_nonneg_left h0 kI' hi
      have e : qI' / (qI' / pI') = pI' := by field_simp
      have := div_le_div_of_nonneg_right b'.le kI'.le
      linarith
  have b := not_lt.1 b'
  rw [if_neg b', if_neg (not_lt.2 (hI.trans b))]
  by_cases c' : l ≤ qF'
  · rw [if_pos c']
    split
    · rename_i c
      refine div_le_div_of_nonneg_left h0 (lineAt_pos q2 (hI.trans b) c kI kF) ?_
      exact line_falls hI hF b c q2 q2' c2 dI dF
    · have hi := (lineAt_between (hi := qI' / pI') q2' b c' c2' le_rfl le_rfl c2').1
      have : l / lineAt qI' (qI' / pI') qF' (qF' / pF') l ≤ l / (qF' / pF') := div_le_div_of_nonneg_left h0 kF' hi
      have e : qF' / (qF' / pF') = pF' := by field_simp
      have := div_le_div_of_nonneg_right c' kF'.le
      linarith
  · rw [if_neg c', if_neg (fun c => c' (c.trans hF))]
    exact hpF

/-! ## The season -/

/-- Delivering more from less energy. -/
theorem ratio_more {D D' E E' n : K} (hD : 0 ≤ D) (hDD : D ≤ D') (hE' : 0 ≤ E') (hne : E' ≠ 0) (hEE : E' ≤ E) (hn : 0 < n) : D / E / n ≤ D' / E' / n :=
  div_le_div_of_nonneg_right (div_le_div₀ (hD.trans hDD) hDD (lt_of_le_of_ne hE' (Ne.symm hne)) hEE) hn.le

section
variable {U U' : Performance C K} {P : Points C} {T T' : CoolTests K} (hT : CoolMatch U P T) (hT' : CoolMatch U' P T') (u : Units K) (cyc : Cycling)
  (bins : List (K × K)) (hA : 0 ≤ T.qA) (hAA : T'.qA = T.qA) (hn : ∀ b ∈ bins, 0 ≤ b.2)
include hT hT' hA hAA hn

/-- C125 for a single stage: more capacity from no more power in the 82 °F test, never a lower rating. -/
theorem C125_single {cd v v' : K} (hcd : cd ≤ 2) (hB : 0 ≤ T.qB) (hq : T.qB ≤ T'.qB) (hp0 : 0 < T'.pB) (hp : T'.pB ≤ T.pB)
    (hv : seer U P u .single cd cyc bins = .ok v) (hv' : seer U' P u .single cd cyc bins = .ok v') : v ≤ v' := by
  rw [C46_single_stage U P u _ cyc bins _ _ hT.qB hT.pB (hp0.trans_le hp).ne', Except.ok.injEq] at hv
  rw [C46_single_stage U' P u _ cyc bins _ _ hT'.qB hT'.pB hp0.ne', Except.ok.injEq] at hv'
  subst hv; subst hv'
  exact div_le_div_of_nonneg_right (mul_le_mul_of_nonneg_left (div_le_div₀ (hB.trans hq) hq hp0 hp) (by linarith)) u.btuh_pos.le

/-- C125 for two stages: a unit with the same capacity in the 95 °F test that in every bin delivers more from no more power at each of its speeds (read off the lines
through the tests) is not rated lower, if its low speed draws no more than its full speed and, where it cycles between off and full speed, has the better COP.
Missing: units whose low speed has the worse COP (`C125_off_full_refuted`). -/
theorem C125_two_stage_partial {cd v v' : K} (hcd : 0 ≤ cd) (hcd1 : cd < 1)
    (h : ∀ b ∈ bins, (0 < T.qLow (toF b.1) ∧ T.qLow (toF b.1) ≤ T.qFull (toF b.1)) ∧ (T.qLow (toF b.1) ≤ T'.qLow (toF b.1) ∧ T.qFull (toF b.1) ≤ T'.qFull (toF b.1)) ∧
      (0 < T'.pLow (toF b.1) ∧ 0 < T'.pFull (toF b.1)) ∧ (T'.pLow (toF b.1) ≤ T.pLow (toF b.1) ∧ T'.pFull (toF b.1) ≤ T.pFull (toF b.1)))
    (hF : ∀ b ∈ bins, T'.qLow (toF b.1) ≤ T'.qFull (toF b.1) ∧ T'.pLow (toF b.1) ≤ T'.pFull (toF b.1) ∧
      (cyc = .offFull → T'.qFull (toF b.1) / T'.pFull (toF b.1) ≤ T'.qLow (toF b.1) / T'.pLow (toF b.1)))
    (hv : seer U P u .two cd cyc bins = .ok v) (hv' : seer U' P u .two cd cyc bins = .ok v') : v ≤ v' := by
  have el : T'.load = T.load := by funext t; simp only [CoolTests.load, hAA]
  have law : ∀ (V : Performance C K) (S : CoolTests K) w, CoolMatch V P S → 0 ≤ S.qA → (∀ b ∈ bins, 0 < S.qLow (toF b.1) ∧ S.qLow (toF b.1) ≤ S.qFull (toF b.1)) →
      seer V P u .two cd cyc bins = .ok w →
      CoolTests.total (fun t => twoStageRate cd (decide (cyc = .lowFull)) (S.qLow (toF t)) (S.pLow (toF t)) (S.qFull (toF t)) (S.pFull (toF t)) (S.load (toF t))) bins ≠ 0 ∧
      w = CoolTests.total (fun t => S.delivered (toF t)) bins /
        CoolTests.total (fun t => twoStageRate cd (decide (cyc = .lowFull)) (S.qLow (toF t)) (S.pLow (toF t)) (S.qFull (toF t)) (S.pFull (toF t)) (S.load (toF t))) bins
        / u.btuh := by
    intro V S w hV h1 h2 hw
    have hl := binLoop_ok (seerTwoBin V P cd cyc) (fun t => S.delivered (toF t))
      (fun t => twoStageRate cd (decide (cyc = .lowFull)) (S.qLow (toF t)) (S.pLow (toF t)) (S.qFull (toF t)) (S.pFull (toF t)) (S.load (toF t))) bins (fun b hb => by
        rw [C46_two_stage_bin hV hcd hcd1 h1 cyc b.1 b.2 (h2 b hb).1 (h2 b hb).2]; rfl) 0 0
    simp only [seer, hl, bind_ok, zero_add, bind_eq_ok, pdiv_eq_ok] at hw
    obtain ⟨x, ⟨h6, rfl⟩, _, rfl⟩ := hw
    exact ⟨h6, rfl⟩
  obtain ⟨n1, rfl⟩ := law U T v hT hA (fun b hb => (h b hb).1) hv
  obtain ⟨n2, rfl⟩ := law U' T' v' hT' (hAA ▸ hA) (fun b hb => ⟨(h b hb).1.1.trans_le (h b hb).2.1.1, (hF b hb).1⟩) hv'
  have hload : ∀ t, 0 ≤ T.load t := fun t => load_nonneg hT hcd hcd1 hA hA t
  have hdel := total_delivered_nonneg bins hA hn fun b hb => (h b hb).1.1.le.trans (h b hb).1.2
  refine ratio_more hdel (total_le fun b hb => mul_le_mul_of_nonneg_right ?_ (hn b hb)) ?_ n2 (total_le fun b hb => mul_le_mul_of_nonneg_right ?_ (hn b hb)) u.btuh_pos
  · simp only [CoolTests.delivered, el]
    exact min_le_min le_rfl (h b hb).2.1.2
  · refine le_trans (le_of_eq ?_) (total_le (f := fun _ => 0) fun b hb => ?_)
    · simp [CoolTests.total]
    · obtain ⟨⟨a1, a2⟩, ⟨a3, a4⟩, ⟨a5, a6⟩, _⟩ := h b hb
      have q1 := a1.trans_le a3
      have q2 := q1.trans_le (hF b hb).1
      refine mul_le_mul_of_nonneg_right ?_ (hn b hb)
      exact (twoStageRate_bounds (m := 0) (M := max (T'.qLow (toF b.1) / T'.pLow (toF b.1)) (T'.qFull (toF b.1) / T'.pFull (toF b.1))) hcd hcd1 q1 (hF b hb).1 a5 a6
        (el ▸ hload _) le_rfl (div_nonneg q1.le a5.le) (div_nonneg q2.le a6.le) (le_max_left _ _) (le_max_right _ _)).1
  · obtain ⟨⟨a1, a2⟩, ⟨a3, a4⟩, ⟨a5, a6⟩, a7, a8⟩ := h b hb
    obtain ⟨b1, b2, b3⟩ := hF b hb
    rw [el]
    refine twoStageRate_more hcd hcd1 a1 a2 a3 a4 b1 a5 a6 a7 a8 b2 (fun hc => b3 ?_) (hload _)
    cases cyc with
    | lowFull => simp at hc
    | offFull => rfl

/-- C125 for variable speed: a unit with the same capacity in the 95 °F test that in every bin delivers more from no more power at each of its speeds is not rated lower,
if the COPs of both units fall with the speed. Missing: units whose COP rises with the speed (`C125_variable_speed_refuted`). -/
theorem C125_variable_speed_partial {cd v v' : K} (hcd : 0 ≤ cd) (hcd1 : cd < 1) (hI : CoolMatch.Int U P T) (hI' : CoolMatch.Int U' P T')
    (hQ0 : T.qFull 87 - T.qLow 87 ≠ 0) (hQ0' : T'.qFull 87 - T'.qLow 87 ≠ 0) (hP0 : T.pFull 87 - T.pLow 87 ≠ 0) (hP0' : T'.pFull 87 - T'.pLow 87 ≠ 0)
    (hF : ∀ b ∈ bins, Falling (T.qLow (toF b.1)) (T.pLow (toF b.1)) (T.qInt (toF b.1)) (T.pInt (toF b.1)) (T.qFull (toF b.1)) (T.pFull (toF b.1)))
    (hF' : ∀ b ∈ bins, Falling (T'.qLow (toF b.1)) (T'.pLow (toF b.1)) (T'.qInt (toF b.1)) (T'.pInt (toF b.1)) (T'.qFull (toF b.1)) (T'.pFull (toF b.1)))
    (h : ∀ b ∈ bins, (T.qLow (toF b.1) ≤ T'.qLow (toF b.1) ∧ T.qInt (toF b.1) ≤ T'.qInt (toF b.1) ∧ T.qFull (toF b.1) ≤ T'.qFull (toF b.1)) ∧
      T'.pLow (toF b.1) ≤ T.pLow (toF b.1) ∧ T'.pInt (toF b.1) ≤ T.pInt (toF b.1) ∧ T'.pFull (toF b.1) ≤ T.pFull (toF b.1))
    (hv : seer U P u .varSpeed cd cyc bins = .ok v) (hv' : seer U' P u .varSpeed cd cyc bins = .ok v') : v ≤ v' := by
  have el : T'.load = T.load := by funext t; simp only [CoolTests.load, hAA]
  have law : ∀ (V : Performance C K) (S : CoolTests K) w, CoolMatch V P S → CoolMatch.Int V P S → S.qFull 87 - S.qLow 87 ≠ 0 → S.pFull 87 - S.pLow 87 ≠ 0 → 0 ≤ S.qA →
      (∀ b ∈ bins, Falling (S.qLow (toF b.1)) (S.pLow (toF b.1)) (S.qInt (toF b.1)) (S.pInt (toF b.1)) (S.qFull (toF b.1)) (S.pFull (toF b.1))) →
      seer V P u .varSpeed cd cyc bins = .ok w →
      CoolTests.total (fun t => varSpeedRate cd (S.qLow (toF t)) (S.pLow (toF t)) (S.qInt (toF t)) (S.pInt (toF t)) (S.qFull (toF t)) (S.pFull (toF t))
        (S.load (toF t))) bins ≠ 0 ∧
      w = CoolTests.total (fun t => S.delivered (toF t)) bins /
        CoolTests.total (fun t => varSpeedRate cd (S.qLow (toF t)) (S.pLow (toF t)) (S.qInt (toF t)) (S.pInt (toF t)) (S.qFull (toF t)) (S.pFull (toF t))
        (S.load (toF t))) bins / u.btuh := by
    intro V S w hV hVI hq hp hS hf hw
    obtain ⟨mQ, mP, b1, b2, b3⟩ := C47_intermediate hV hcd hcd1 hS hVI hq hp
    have hl := binLoop_ok (seerVarBin V P cd S.qE mQ S.pE mP) (fun t => S.delivered (toF t))
      (fun t => varSpeedRate cd (S.qLow (toF t)) (S.pLow (toF t)) (S.qInt (toF t)) (S.pInt (toF t)) (S.qFull (toF t)) (S.pFull (toF t)) (S.load (toF t))) bins
      (fun b hb => by
        obtain ⟨⟨c1, c2, c3⟩, ⟨d1, d2, d3⟩, _⟩ := hf b hb
        simp only [seerVarBin, coolingLines_ok hV hS, bind_ok, (b3 b.1).1, (b3 b.1).2]
        exact varSpeedBin_ok hcd hcd1 c1 c2 c3 d1 d2 d3 (load_nonneg hV hcd hcd1 hS hS _)) 0 0
    simp only [seer, b1, b2, hl, bind_ok, zero_add, bind_eq_ok, pdiv_eq_ok] at hw
    obtain ⟨x, ⟨h6, rfl⟩, _, rfl⟩ := hw
    exact ⟨h6, rfl⟩
  obtain ⟨n1, rfl⟩ := law U T v hT hI hQ0 hP0 hA hF hv
  obtain ⟨n2, rfl⟩ := law U' T' v' hT' hI' hQ0' hP0' (hAA ▸ hA) hF' hv'
  have hload : ∀ t, 0 ≤ T.load t := fun t => load_nonneg hT hcd hcd1 hA hA t
  have hdel := total_delivered_nonneg bins hA hn fun b hb => ((hF b hb).1.1.trans_le ((hF b hb).1.2.1)).le.trans (hF b hb).1.2.2.le
  refine ratio_more hdel (total_le fun b hb => mul_le_mul_of_nonneg_right ?_ (hn b hb)) ?_ n2 (total_le fun b hb => mul_le_mul_of_nonneg_right ?_ (hn b hb)) u.btuh_pos
  · simp only [CoolTests.delivered, el]
    exact min_le_min le_rfl (h b hb).1.2.2
  · refine le_trans (le_of_eq ?_) (total_le (f := fun _ => 0) fun b hb => ?_)
    · simp [CoolTests.total]
    · obtain ⟨⟨c1, c2, c3⟩, ⟨d1, d2, d3⟩, _⟩ := hF' b hb
      have qI0 := c1.trans_le c2
      have qF0 := qI0.trans c3
      refine mul_le_mul_of_nonneg_right ?_ (hn b hb)
      exact (varSpeedRate_bounds (m := 0) (M := max (T'.qLow (toF b.1) / T'.pLow (toF b.1)) (max (T'.qInt (toF b.1) / T'.pInt (toF b.1))
        (T'.qFull (toF b.1) / T'.pFull (toF b.1)))) hcd hcd1 c1 c2 c3 d1 d2 d3 (el ▸ hload _) le_rfl (div_nonneg c1.le d1.le) (div_nonneg qI0.le d2.le)
        (div_nonneg qF0.le d3.le) (le_max_left _ _) ((le_max_left _ _).trans (le_max_right _ _)) ((le_max_right _ _).trans (le_max_right _ _))).1
  · obtain ⟨⟨a1, a2, a3⟩, a4, a5, a6⟩ := h b hb
    rw [el]
    exact varSpeedRate_more hcd hcd1 (hF b hb) (hF' b hb) a1 a2 a3 a4 a5 a6 (hload _)

end

/-- C125 for all capacities multiplied by `a` and all powers by `b`, whatever the staging: the rating is multiplied by exactly `a / b`, and raises if it did. -/
theorem C125_proportional {a b : K} {U V : Performance C K} (ha : 0 < a) (hb : 0 < b) (h : PowerScaled (b / a) (U.scale a) V) (P : Points C) (u : Units K) (st : Staging)
    (cd : K) (cyc : Cycling) (bins : List (K × K)) : seer V P u st cd cyc bins = sc (a / b) (seer U P u st cd cyc bins) := by
  rw [C121_seer (div_pos hb ha) h, C48_scale_invariant U P u st cd cyc bins ha, inv_div]

/-- `U` with the gross cooling capacity at low, intermediate and full speed (test numbers 40, 60 and 100) multiplied by `a`, `b`, `c`, and the compressor power by `d`, `e`, `f`. -/
def bySpeed (a b c d e f : ℚ) (U : Performance (ℚ × ℚ) ℚ) : Performance (ℚ × ℚ) ℚ :=
  { U with coolCap := fun x => sc (if x.1 = 40 then a else if x.1 = 60 then b else c) (U.coolCap x)
           coolPow := fun x => sc (if x.1 = 40 then d else if x.1 = 60 then e else f) (U.coolPow x) }

/-- A unit whose COP falls with the speed, and one that delivers a tenth more at low and intermediate speed. -/
def slowing : Performance (ℚ × ℚ) ℚ := bySpeed 1 1 1 1 (11 / 10) (12 / 10) toyUnit
def betterSlow : Performance (ℚ × ℚ) ℚ := bySpeed (11 / 10) (11 / 10) 1 1 (11 / 10) (12 / 10) toyUnit

/-- What the tests of such units give. -/
def speedTests (a b c d e f : ℚ) : CoolTests ℚ :=
  { qA := c * (100 * (300 - frF 95 / 2)) - 2, pA := f * (100 * (frF 95 - 270)) + 2, qB := c * (100 * (300 - frF 82 / 2)) - 2, pB := f * (100 * (frF 82 - 270)) + 2
    qBl := a * (40 * (300 - frF 82 / 2)) - 2, pBl := d * (40 * (frF 82 - 270)) + 2, qFl := a * (40 * (300 - frF 67 / 2)) - 2, pFl := d * (40 * (frF 67 - 270)) + 2
    qE := b * (60 * (300 - frF 87 / 2)) - 2, pE := e * (60 * (frF 87 - 270)) + 2 }

theorem slowing_match : CoolMatch slowing toyPoints (speedTests 1 1 1 1 (11 / 10) (12 / 10)) where
  qA := by decide +kernel
  pA := by decide +kernel
  qB := by decide +kernel
  pB := by decide +kernel
  dbA := rfl
  dbB := rfl
  low := ⟨(40, frF 82), (40, frF 67), rfl, rfl, by decide +kernel⟩

theorem betterSlow_match : CoolMatch betterSlow toyPoints (speedTests (11 / 10) (11 / 10) 1 1 (11 / 10) (12 / 10)) where
  qA := by decide +kernel
  pA := by decide +kernel
  qB := by decide +kernel
  pB := by decide +kernel
  dbA := rfl
  dbB := rfl
  low := ⟨(40, frF 82), (40, frF 67), rfl, rfl, by decide +kernel⟩

/-- `C125_single` and `C125_two_stage_partial` applied to the pair, for both cycling methods. -/
example (cyc : Cycling) {v v' : ℚ} (hv : seer slowing toyPoints (Units.ofOnes ℚ) .two (1 / 4) cyc coolingBins = .ok v)
    (hv' : seer betterSlow toyPoints (Units.ofOnes ℚ) .two (1 / 4) cyc coolingBins = .ok v') : v ≤ v' :=
  C125_two_stage_partial slowing_match betterSlow_match (Units.ofOnes ℚ) cyc coolingBins (by decide +kernel) rfl (by decide +kernel) (by norm_num) (by norm_num)
    (by decide +kernel) (fun b hb => by
      have : ∀ b ∈ coolingBins (K := ℚ), (speedTests (11 / 10) (11 / 10) 1 1 (11 / 10) (12 / 10)).qLow (toF b.1) ≤ (speedTests (11 / 10) (11 / 10) 1 1 (11 / 10) (12 / 10)).qFull (toF b.1) ∧
        (speedTests (11 / 10) (11 / 10) 1 1 (11 / 10) (12 / 10)).pLow (toF b.1) ≤ (speedTests (11 / 10) (11 / 10) 1 1 (11 / 10) (12 / 10)).pFull (toF b.1) ∧
        (speedTests (11 / 10) (11 / 10) 1 1 (11 / 10) (12 / 10)).qFull (toF b.1) / (speedTests (11 / 10) (11 / 10) 1 1 (11 / 10) (12 / 10)).pFull (toF b.1) ≤
          (speedTests (11 / 10) (11 / 10) 1 1 (11 / 10) (12 / 10)).qLow (toF b.1) / (speedTests (11 / 10) (11 / 10) 1 1 (11 / 10) (12 / 10)).pLow (toF b.1) := by decide +kernel
      exact ⟨(this b hb).1, (this b hb).2.1, fun _ => (this b hb).2.2⟩) hv hv'

example (cyc : Cycling) {v v' : ℚ} (hv : seer slowing toyPoints (Units.ofOnes ℚ) .single (1 / 4) cyc coolingBins = .ok v)
    (hv' : seer betterSlow toyPoints (Units.ofOnes ℚ) .single (1 / 4) cyc coolingBins = .ok v') : v ≤ v' :=
  C125_single slowing_match betterSlow_match (Units.ofOnes ℚ) cyc coolingBins (by decide +kernel) rfl (by decide +kernel) (by norm_num) (by decide +kernel) (by decide +kernel)
    (by decide +kernel) (by decide +kernel) hv hv'

/-- `C125_variable_speed_partial` applied to the pair. -/
example (cyc : Cycling) {v v' : ℚ} (hv : seer slowing toyPoints (Units.ofOnes ℚ) .varSpeed (1 / 4) cyc coolingBins = .ok v)
    (hv' : seer betterSlow toyPoints (Units.ofOnes ℚ) .varSpeed (1 / 4) cyc coolingBins = .ok v') : v ≤ v' :=
  C125_variable_speed_partial slowing_match betterSlow_match (Units.ofOnes ℚ) cyc coolingBins (by decide +kernel) rfl (by decide +kernel) (by norm_num) (by norm_num)
    ⟨(60, frF 87), rfl, by decide +kernel⟩ ⟨(60, frF 87), rfl, by decide +kernel⟩ (by decide +kernel) (by decide +kernel) (by decide +kernel) (by decide +kernel)
    (by unfold Falling; decide +kernel) (by unfold Falling; decide +kernel) (by decide +kernel) hv hv'

example : ∀ st : Staging, (seer slowing toyPoints (Units.ofOnes ℚ) st (1 / 4) .lowFull coolingBins).isOk ∧ (seer betterSlow toyPoints (Units.ofOnes ℚ) st (1 / 4) .lowFull coolingBins).isOk := by
  intro st
  cases st <;> decide +kernel

/-- `C125_proportional` applied to a unit with twice the capacity from the same power. -/
example : PowerScaled (1 / 2) (fanless.scale 2) (thrifty (1 / 2) (fanless.scale 2)) := thrifty_scaled (by norm_num) _ fun _ => by
  simp [Performance.scale, fanless]

/-- The better of two units differs from the other one in the capacities of the tests `ps` only, which are higher. -/
def MoreAt (U U' : Performance (ℚ × ℚ) ℚ) (ps : List (ℚ × ℚ)) : Prop :=
  (∀ c, U'.netCoolingPower (some c) = U.netCoolingPower (some c)) ∧ (∀ c, U'.db c = U.db c) ∧
    ∀ c ∈ toyPoints.aFull :: toyPoints.bFull :: [toyPoints.bLow, toyPoints.fLow, toyPoints.eInt].reduceOption,
      ∃ q q', U.netTotalCoolingCapacity (some c) = .ok q ∧ U'.netTotalCoolingCapacity (some c) = .ok q' ∧ if c ∈ ps then q < q' else q' = q

theorem moreAt_of {U U' : Performance (ℚ × ℚ) ℚ} {ps : List (ℚ × ℚ)} (hp : ∀ c, U'.netCoolingPower (some c) = U.netCoolingPower (some c)) (hd : ∀ c, U'.db c = U.db c)
    (h : ∀ c ∈ toyPoints.aFull :: toyPoints.bFull :: [toyPoints.bLow, toyPoints.fLow, toyPoints.eInt].reduceOption,
      okTest (U.netTotalCoolingCapacity (some c)) (fun q => okTest (U'.netTotalCoolingCapacity (some c)) fun q' => decide (if c ∈ ps then q < q' else q' = q)) = true) :
    MoreAt U U' ps := by
  refine ⟨hp, hd, fun c hc => ?_⟩
  obtain ⟨q, e1, g⟩ := okTest_iff.1 (h c hc)
  obtain ⟨q', e2, g⟩ := okTest_iff.1 g
  exact ⟨q, q', e1, e2, of_decide_eq_true g⟩

theorem cool_falls {U U' : Performance (ℚ × ℚ) ℚ} {st : Staging} {cyc : Cycling} (m : ℚ)
    (h1 : okTest (seer U toyPoints (Units.ofOnes ℚ) st (1 / 4) cyc coolingBins) (fun v => decide (m ≤ v)) = true)
    (h2 : okTest (seer U' toyPoints (Units.ofOnes ℚ) st (1 / 4) cyc coolingBins) (fun v => decide (v < m)) = true) :
    ∃ v v', seer U toyPoints (Units.ofOnes ℚ) st (1 / 4) cyc coolingBins = .ok v ∧ seer U' toyPoints (Units.ofOnes ℚ) st (1 / 4) cyc coolingBins = .ok v' ∧ v' < v := by
  obtain ⟨v, e1, g1⟩ := okTest_iff.1 h1
  obtain ⟨v', e2, g2⟩ := okTest_iff.1 h2
  simp only [decide_eq_true_eq] at g1 g2
  exact ⟨v, v', e1, e2, by linarith⟩

/-- C125 is false of two-stage units that cycle between off and full speed and whose low speed has the worse COP: a low speed that delivers more is used in more bins. -/
theorem C125_off_full_refuted : MoreAt (bySpeed (12 / 10) 1 1 3 1 1 toyUnit) (bySpeed (13 / 10) 1 1 3 1 1 toyUnit) [(40, frF 82), (40, frF 67)] ∧
    ∃ v v', seer (bySpeed (12 / 10) 1 1 3 1 1 toyUnit) toyPoints (Units.ofOnes ℚ) .two (1 / 4) .offFull coolingBins = .ok v ∧
      seer (bySpeed (13 / 10) 1 1 3 1 1 toyUnit) toyPoints (Units.ofOnes ℚ) .two (1 / 4) .offFull coolingBins = .ok v' ∧ v' < v :=
  ⟨moreAt_of (fun _ => rfl) (fun _ => rfl) (by decide +kernel), cool_falls (28 / 10) (by decide +kernel) (by decide +kernel)⟩

/-- C125 is false of variable-speed units whose low speed has the worse COP: the COP between the speeds is a line in the capacity. -/
theorem C125_variable_speed_refuted : MoreAt (bySpeed (23 / 20) 1 1 3 1 1 toyUnit) (bySpeed (25 / 20) 1 1 3 1 1 toyUnit) [(40, frF 82), (40, frF 67)] ∧
    ∃ v v', seer (bySpeed (23 / 20) 1 1 3 1 1 toyUnit) toyPoints (Units.ofOnes ℚ) .varSpeed (1 / 4) .lowFull coolingBins = .ok v ∧
      seer (bySpeed (25 / 20) 1 1 3 1 1 toyUnit) toyPoints (Units.ofOnes ℚ) .varSpeed (1 / 4) .lowFull coolingBins = .ok v' ∧ v' < v :=
  ⟨moreAt_of (fun _ => rfl) (fun _ => rfl) (by decide +kernel), cool_falls (26 / 10) (by decide +kernel) (by decide +kernel)⟩

/-- A unit whose low speed draws a quarter, and whose intermediate speed draws half as much. -/
def thriftyLow : Performance (ℚ × ℚ) ℚ := bySpeed 1 1 1 (1 / 4) (1 / 2) 1 toyUnit

/-- That unit with a tenth more capacity in the 95 °F test alone. -/
def hotBetter : Performance (ℚ × ℚ) ℚ := { thriftyLow with coolCap := fun c => sc (if c = toyPoints.aFull then 11 / 10 else 1) (thriftyLow.coolCap c) }

/-- C125 is false of the capacity in the 95 °F test, to which the load is proportional: a two-stage or variable-speed unit that delivers more in that test alone is rated
lower. -/
theorem C125_hot_refuted : MoreAt thriftyLow hotBetter [toyPoints.aFull] ∧
    ∀ st : Staging, st ≠ .single → ∃ v v', seer thriftyLow toyPoints (Units.ofOnes ℚ) st (1 / 4) .lowFull coolingBins = .ok v ∧
      seer hotBetter toyPoints (Units.ofOnes ℚ) st (1 / 4) .lowFull coolingBins = .ok v' ∧ v' < v := by
  refine ⟨moreAt_of (fun _ => rfl) (fun _ => rfl) (by decide +kernel), fun st hst => ?_⟩
  cases st with
  | single => exact absurd rfl hst
  | two => exact cool_falls (84 / 10) (by decide +kernel) (by decide +kernel)
  | varSpeed => exact cool_falls (104 / 10) (by decide +kernel) (by decide +kernel)

end Resdx.DX
