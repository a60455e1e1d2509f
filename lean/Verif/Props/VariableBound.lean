import Verif.Props.VariableHeatRoots

/-!
# C96: a bound of the HSPF2 of variable-speed units
-/

set_option linter.unusedSectionVars false
set_option linter.unusedSimpArgs false

namespace Resdx.Build

open Spec Tabular BaseModel Props ResnetFan Fan Table DX Set

section
variable {b : Bool} {q h κ w1 w w3 v : ℝ} (H : TestBounds q h κ w1 w w3 v) (hκ : 2.5 ≤ κ) (hκ3 : κ ≤ 3)
include H hκ hκ3

/-- At full speed the COP is at most 9.5. -/
theorem full_limit : ∀ t ∈ (seasonTemperatures : List ℝ), -8 ≤ t → (variableHeating b q h κ w1 w w3 v).full.q t < 9.5 * (variableHeating b q h κ w1 w w3 v).full.p t := by
  have hκ0 : 0 < κ := by linarith
  have x1 : 0.333 * q ≤ q / κ := by rw [le_div_iff₀ hκ0]; nlinarith [H.rated]
  have y2 : 0.6 * (q / κ) + 0.333 * (h - 0.6 * q) ≤ h / κ := by
    have e : h / κ = 0.6 * (q / κ) + (h - 0.6 * q) / κ := by ring
    have : 0.333 * (h - 0.6 * q) ≤ (h - 0.6 * q) / κ := by rw [le_div_iff₀ hκ0]; nlinarith [H.cold]
    linarith
  have y3 : 0.333 * (q - h) ≤ q / κ - h / κ := by
    rw [← sub_div, le_div_iff₀ hκ0]; nlinarith [H.cold_le]
  have y4 : h / κ ≤ q / κ := div_le_div_of_nonneg_right H.cold_le hκ0.le
  have y5 : 0.6 * (q / κ) ≤ h / κ := by rw [← mul_div_assoc]; exact div_le_div_of_nonneg_right H.cold hκ0.le
  obtain ⟨h1, h2, h3, -, -, h4, h5, h6, h7, h8⟩ := H
  simp only [seasonTemperatures, List.forall_mem_cons, List.not_mem_nil, false_imp_iff, implies_true, and_true, variableHeating, frosted, HeatTests.q, HeatTests.p, lineAt]
  generalize q / κ = x at *
  generalize h / κ = y at *
  norm_num
  cases b <;> simp only [if_true, if_false, Bool.false_eq_true] <;> ((repeat' constructor) <;> linarith)

/-- So it is at low speed. -/
theorem low_limit_nine (t : ℝ) : (variableHeating b q h κ w1 w w3 v).qLow t < 9.5 * (variableHeating b q h κ w1 w w3 v).pLow t := by
  have hκ0 : 0 < κ := by linarith
  have x1 : 0.333 * q ≤ q / κ := by rw [le_div_iff₀ hκ0]; nlinarith [H.rated]
  rw [(low_const H t).1, (low_const H t).2]
  have := H.rated
  linarith

/-- Above the capacity of full speed. -/
theorem lines_limit : let T := variableHeating b q h κ w1 w w3 v
    (∀ t ∈ (seasonTemperatures : List ℝ), 17 ≤ t → t ≤ 32 → lineAt 5 T.q4 17 T.full.q3 t - lineAt 5 T.p4 17 T.full.p3 t ≤ 0.89 * T.full.q t) ∧
      ∀ t ≤ 12, lineAt 5 T.q4 17 T.full.q3 t - lineAt 5 T.p4 17 T.full.p3 t ≤ 0.6 * h := by
  have hκ0 : 0 < κ := by linarith
  have y1 : 0.333 * h ≤ h / κ := by rw [le_div_iff₀ hκ0]; nlinarith [H.rated, H.cold]
  obtain ⟨h1, h2, h3, -, -, h4, h5, h6, h7, h8⟩ := H
  intro T
  constructor
  · simp only [seasonTemperatures, List.forall_mem_cons, List.not_mem_nil, false_imp_iff, implies_true, and_true, T, variableHeating, frosted, HeatTests.q, lineAt]
    generalize q / κ = x at *
    generalize h / κ = y at *
    norm_num
    cases b <;> simp only [if_true, if_false, Bool.false_eq_true] <;> ((repeat' constructor) <;> linarith)
  · intro t ht
    simp only [T, variableHeating, lineAt]
    generalize q / κ = x at *
    generalize h / κ = y at *
    have : 0 ≤ (y - 0.333 * h) * (12 - t) := mul_nonneg (by linarith) (by linarith)
    have : 0 ≤ h * (12 - t) := mul_nonneg (by linarith) (by linarith)
    obtain ⟨-, -, -, -, e5, e6⟩ := low_factors q h x y
    rw [e5, e6]
    norm_num
    nlinarith
end

/-- From 37 °F on the full-speed capacity is at least 70 % of the rated one. -/
theorem full_warm {b : Bool} {q h κ w1 w w3 v : ℝ} (H : TestBounds q h κ w1 w w3 v) {t : ℝ} (ht : t ∈ (seasonTemperatures : List ℝ)) (h37 : 37 ≤ t) : 0.7 * q ≤ (variableHeating b q h κ w1 w w3 v).full.q t := by
  obtain ⟨h1, h2, h3, -, -, h4, h5, h6, h7, h8⟩ := H
  revert h37 ht t
  simp only [seasonTemperatures, List.forall_mem_cons, List.not_mem_nil, false_imp_iff, implies_true, and_true, variableHeating, frosted, HeatTests.q, lineAt]
  norm_num
  cases b <;> simp only [if_true, if_false, Bool.false_eq_true] <;> ((repeat' constructor) <;> linarith)

/-- The intermediate speed at -8 and 62 °F. -/
theorem limit_core {q x a qi pi q2 q3 p2 p3 t : ℝ} (hq : 0 < q) (x0 : 0.333 * q ≤ x) (x1 : x ≤ 0.4 * q) (a0 : 0.6 ≤ a) (a1 : a ≤ 1)
    (f1 : 0.49 * q ≤ q2 - 68 / 227 * q) (f2 : -0.06 * q ≤ q2 - q3) (f3 : q2 - q3 ≤ 0.6 * ((1 - a) * q)) (f5 : (0.56 - 0.63 * a) * q ≤ q2 - q3) (f6 : qi ≤ 0.453 * q + 0.2835 * (a * q)) (m1 : 68 / 227 * q ≤ qi) (m2 : qi ≤ 0.75 * q) (m3 : 4964 / 21315.3 * x ≤ pi)
    (f4 : 0 < p2 - 4964 / 21315.3 * x) (P1 : p3 - p2 ≤ 0.8154 * (a * x) - 0.5947 * x) (P2 : 0.81 * (a * x) - 0.601 * x ≤ p3 - p2) (M1 : pi - 4964 / 21315.3 * x ≤ 0.85 * (p2 - 4964 / 21315.3 * x))
    (M2 : 0.36 * x + 0.36 * (a * x) - 0.0385 * q ≤ pi) (ht : -8 ≤ t) (ht' : t ≤ 62) :
    intermediateLine (68 / 227 * q) 0 q2 ((q2 - q3) / 18) qi t < 9.5 * intermediateLine (4964 / 21315.3 * x) 0 p2 ((p2 - p3) / 18) pi t := by
  have hx0 : 0 < x := by linarith
  have ax0 : 0.6 * x ≤ a * x := mul_le_mul_of_nonneg_right a0 hx0.le
  have ax1 : a * x ≤ x := by nlinarith only [hx0, a1]
  have aq0 : 0.6 * q ≤ a * q := mul_le_mul_of_nonneg_right a0 hq.le
  have ax2 : 0.333 * (a * q) ≤ a * x := by nlinarith only [mul_le_mul_of_nonneg_left x0 (show 0 ≤ a by linarith only [a0])]
  have ax3 : a * x ≤ 0.4 * (a * q) := by nlinarith only [mul_le_mul_of_nonneg_left x1 (show 0 ≤ a by linarith only [a0])]
  unfold intermediateLine
  have Fq : 0 < q2 - 68 / 227 * q := by linarith
  have nq0 : 0 ≤ (qi - 68 / 227 * q) / (q2 - 68 / 227 * q) := div_nonneg (by linarith) Fq.le
  have nq1 : (qi - 68 / 227 * q) / (q2 - 68 / 227 * q) ≤ 1 := (div_le_one Fq).2 (by linarith)
  have np0 : 0 ≤ (pi - 4964 / 21315.3 * x) / (p2 - 4964 / 21315.3 * x) := div_nonneg (by linarith) f4.le
  have np1 : (pi - 4964 / 21315.3 * x) / (p2 - 4964 / 21315.3 * x) ≤ 0.85 := (div_le_iff₀ f4).2 M1
  generalize (qi - 68 / 227 * q) / (q2 - 68 / 227 * q) = n at *
  generalize (pi - 4964 / 21315.3 * x) / (p2 - 4964 / 21315.3 * x) = m at *
  have e0 : n * (q2 - q3) ≤ 0.6 * ((1 - a) * q) := by
    have : 0 ≤ (1 - a) * q := mul_nonneg (by linarith only [a1]) hq.le
    nlinarith only [mul_le_mul_of_nonneg_left f3 nq0, mul_nonneg (sub_nonneg.2 nq1) this]
  have e1 : -0.06 * q ≤ n * (q2 - q3) := by nlinarith only [mul_le_mul_of_nonneg_left f2 nq0, mul_nonneg (sub_nonneg.2 nq1) hq.le]
  have W : qi + 1.5 * (n * (q2 - q3)) < 9.5 * (pi - 1.5 * (m * (p3 - p2))) := by
    have w1 : m * (p3 - p2) ≤ 0.85 * max 0 (0.8154 * (a * x) - 0.5947 * x) :=
      (mul_le_mul_of_nonneg_left (P1.trans (le_max_right _ _)) np0).trans (mul_le_mul_of_nonneg_right np1 (le_max_left _ _))
    rcases max_cases 0 (0.8154 * (a * x) - 0.5947 * x) with ⟨e, g⟩ | ⟨e, g⟩ <;> rw [e] at w1
    · linarith only [e0, w1, m2, M2, x0, ax0, ax1, hq, aq0, ax2, ax3]
    · linarith only [e0, w1, m2, M2, x0, ax0, ax1, hq, aq0, ax2, ax3]
  have C : qi - 43 / 18 * (n * (q2 - q3)) < 9.5 * (pi + 43 / 18 * (m * (p3 - p2))) := by
    have w1 : 0.85 * min 0 (0.81 * (a * x) - 0.601 * x) ≤ m * (p3 - p2) := by
      have h1 := mul_le_mul_of_nonneg_left ((min_le_right 0 _).trans P2) np0
      have h2 : 0.85 * min 0 (0.81 * (a * x) - 0.601 * x) ≤ m * min 0 (0.81 * (a * x) - 0.601 * x) := mul_le_mul_of_nonpos_right np1 (min_le_left _ _)
      exact h2.trans h1
    rcases min_cases 0 (0.81 * (a * x) - 0.601 * x) with ⟨e, g⟩ | ⟨e, g⟩ <;> rw [e] at w1
    · linarith only [e1, w1, m2, M2, x0, ax0, ax1, hq, aq0, ax2]
    · have a7 : a ≤ 0.743 := by
        by_contra hn
        have := mul_le_mul_of_nonneg_right (not_le.1 hn).le hx0.le
        linarith only [this, g, hx0]
      have : 0 ≤ n * (q2 - q3) := mul_nonneg nq0 ((mul_nonneg (by linarith only [a7]) hq.le).trans f5)
      linarith only [this, w1, f6, M2, x0, ax0, ax1, hq, aq0, ax2, ax3]
  have g1 : qi + ((1 - n) * 0 + n * ((q2 - q3) / 18)) * (t - 35) = (t + 8) / 70 * (qi + 1.5 * (n * (q2 - q3))) + (62 - t) / 70 * (qi - 43 / 18 * (n * (q2 - q3))) := by ring
  have g2 : 9.5 * (pi + ((1 - m) * 0 + m * ((p2 - p3) / 18)) * (t - 35)) = (t + 8) / 70 * (9.5 * (pi - 1.5 * (m * (p3 - p2)))) + (62 - t) / 70 * (9.5 * (pi + 43 / 18 * (m * (p3 - p2)))) := by ring
  rw [g1, g2]
  generalize 9.5 * (pi - 1.5 * (m * (p3 - p2))) = A1 at *
  generalize qi + 1.5 * (n * (q2 - q3)) = A2 at *
  generalize 9.5 * (pi + 43 / 18 * (m * (p3 - p2))) = A3 at *
  generalize qi - 43 / 18 * (n * (q2 - q3)) = A4 at *
  have h70 : (t + 8) / 70 + (62 - t) / 70 = 1 := by ring
  have u0 : 0 ≤ (t + 8) / 70 := by linarith only [ht]
  have u1 : 0 ≤ (62 - t) / 70 := by linarith only [ht']
  generalize (t + 8) / 70 = u at *
  generalize (62 - t) / 70 = u' at *
  rcases u0.eq_or_lt with rfl | hu
  · rw [zero_add] at h70; rw [h70]; linarith only [C]
  · exact add_lt_add_of_lt_of_le (mul_lt_mul_of_pos_left W hu) (mul_le_mul_of_nonneg_left C.le u1)

theorem modulated_limit {qL cL qI cI qF cF l : ℝ} (h1 : cL < 9.5) (h2 : cI < 9.5) (h3 : cF < 9.5) (hl : qL < l) (hf : l < qF) : modulatedCop qL cL qI cI qF cF l < 9.5 := by
  have := modulated_pos (qI := qI) (sub_pos.2 h1) (sub_pos.2 h2) (sub_pos.2 h3) hl hf
  have e : modulatedCop qL (9.5 - cL) qI (9.5 - cI) qF (9.5 - cF) l = 9.5 - modulatedCop qL cL qI cI qF cF l := by
    unfold modulatedCop lineAt
    split <;> ring
  linarith

section
variable {b : Bool} {q h κ w1 w w3 v : ℝ} (H : TestBounds q h κ w1 w w3 v) (hκ : 2.5 ≤ κ) (hκ3 : κ ≤ 3)
include H hκ hκ3

theorem mid_limits {a : ℝ} (ha : h = a * q) : let T := variableHeating b q h κ w1 w w3 v
    T.full.q2 - T.full.q3 ≤ 0.6 * ((1 - a) * q) ∧ (0.56 - 0.63 * a) * q ≤ T.full.q2 - T.full.q3 ∧ T.qi ≤ 0.453 * q + 0.2835 * (a * q) ∧ 0.81 * (a * (q / κ)) - 0.601 * (q / κ) ≤ T.full.p3 - T.full.p2 ∧ T.pi - 4964 / 21315.3 * (q / κ) ≤ 0.85 * (T.full.p2 - 4964 / 21315.3 * (q / κ)) ∧
      0.36 * (q / κ) + 0.36 * (a * (q / κ)) - 0.0385 * q ≤ T.pi := by
  have hκ0 : 0 < κ := by linarith
  have hq := H.rated
  have x1 : q / κ ≤ 0.4 * q := by rw [div_le_iff₀ hκ0]; nlinarith
  have x0 : 0.333 * q ≤ q / κ := by rw [le_div_iff₀ hκ0]; nlinarith
  have hy : h / κ = a * (q / κ) := by rw [ha]; ring
  have a0 : 0.6 ≤ a := by have := H.cold; rw [ha] at this; exact le_of_mul_le_mul_right this hq
  have a1 : a ≤ 1 := by have := H.cold_le; rw [ha] at this; exact le_of_mul_le_mul_right (by linarith) hq
  intro T
  obtain ⟨h1, h2, h3, -, -, h4, h5, h6, h7, h8⟩ := H
  rw [ha] at h2 h3
  simp only [T, variableHeating, frosted, hy]
  generalize q / κ = x at *
  have hx0 : 0 < x := by linarith
  have ax0 : 0.6 * x ≤ a * x := by nlinarith
  have ax1 : a * x ≤ x := by nlinarith
  obtain ⟨e1, e2, e3, e4, -⟩ := low_factors q h x (a * x)
  rw [e1, e2, e3, e4, ha]
  norm_num
  cases b <;> simp only [Bool.false_eq_true, if_false, if_true] <;> (refine ⟨?_, ?_, ?_, ?_, ?_, ?_⟩ <;> linarith)

/-- At intermediate speed the COP is at most 9.5. -/
theorem mid_limit {t : ℝ} (ht : -8 ≤ t) (ht' : t ≤ 62) : (variableHeating b q h κ w1 w w3 v).qInt t < 9.5 * (variableHeating b q h κ w1 w w3 v).pInt t := by
  obtain ⟨a, ha⟩ : ∃ a, h = a * q := ⟨h / q, by have := H.rated; field_simp⟩
  have hκ0 : 0 < κ := by linarith
  have hq := H.rated
  have x0 : 0.333 * q ≤ q / κ := by rw [le_div_iff₀ hκ0]; nlinarith
  have x1 : q / κ ≤ 0.4 * q := by rw [div_le_iff₀ hκ0]; nlinarith
  have a0 : 0.6 ≤ a := by have := H.cold; rw [ha] at this; exact le_of_mul_le_mul_right this hq
  have a1 : a ≤ 1 := by have := H.cold_le; rw [ha] at this; exact le_of_mul_le_mul_right (by linarith) hq
  obtain ⟨l1, l2⟩ := low_const (b := b) H 35
  obtain ⟨f1, f2, f3, f4⟩ := full_35 (b := b) H
  obtain ⟨m1, m2, m3, m4, m5⟩ := mid_35 (b := b) H
  obtain ⟨F, P1, -, -⟩ := mid_full (b := b) H hκ ha
  obtain ⟨L1, L5, L6, L2, L3, L4⟩ := mid_limits (b := b) H hκ hκ3 ha
  have z1 : ((variableHeating b q h κ w1 w w3 v).low.q0 - (variableHeating b q h κ w1 w w3 v).low.q1) / 15 = 0 := by simp [variableHeating]
  have z2 : ((variableHeating b q h κ w1 w w3 v).low.p0 - (variableHeating b q h κ w1 w w3 v).low.p1) / 15 = 0 := by simp [variableHeating]
  unfold VariableTests.qInt VariableTests.pInt
  rw [l1, l2, z1, z2]
  exact limit_core hq x0 x1 a0 a1 f1 f2 L1 L5 L6 m1 m2 m3 (lt_of_lt_of_le (by positivity) f4) P1 L2 L3 L4 ht ht'

/-- A bin of the heating season: the energy is at least the load over 9.5. From 37 °F on the load is below 70 % of the rated capacity, and up to 12 °F above 73 % of the capacity at 17 °F. -/
theorem bin_limit {cd off : ℝ} {load : ℝ → ℝ} (hcd : 0 ≤ cd) (hcd1 : cd < 1) {t : ℝ} (ht : t ∈ (seasonTemperatures : List ℝ)) (h8 : -8 ≤ t) (hl : 0 ≤ load t) (l37 : 37 ≤ t → load t < 0.7 * q)
    (l12 : t ≤ 12 → 0.73 * h ≤ load t) : let T := variableHeating b q h κ w1 w w3 v
    load t ≤ 9.5 * (T.energy cd off load t + T.resistance off load t) := by
  intro T
  obtain ⟨r1, r2⟩ := season_range t ht
  have hq := H.rated
  have hx : 0 < q / κ := div_pos hq (by linarith)
  have sl : 0 < T.pLow t ∧ T.pLow t < T.qLow t := ⟨by rw [(low_const H t).2]; positivity, low_cop H hκ t⟩
  have sf : 0 < T.full.p t ∧ T.full.p t < T.full.q t := ⟨full_pos H t ht, full_cop H hκ t ht h8⟩
  have si : 0 < T.pInt t ∧ T.pInt t < T.qInt t := ⟨(mid_pos H r1 r2).2, mid_cop H hκ h8 r2⟩
  have ll : T.qLow t < 9.5 * T.pLow t := low_limit_nine H hκ hκ3 t
  have lf : T.full.q t < 9.5 * T.full.p t := full_limit H hκ hκ3 t ht h8
  have li : T.qInt t < 9.5 * T.pInt t := mid_limit H hκ hκ3 h8 r2
  have run : ∀ c, runFraction off off t c = 0 ∨ runFraction off off t c = 1 := by
    intro c
    unfold runFraction
    split
    · exact .inl rfl
    · rename_i hn
      push Not at hn
      rw [if_pos hn.1]; exact .inr rfl
  unfold VariableTests.energy VariableTests.resistance
  by_cases h1 : load t ≤ T.qLow t
  · rw [if_pos h1, if_pos h1]
    rcases run (T.qLow t / T.pLow t) with e | e <;> rw [e]
    · linarith
    · have g1 : 0 < T.qLow t := sl.1.trans sl.2
      have hr1 : load t / T.qLow t ≤ 1 := (div_le_one g1).2 h1
      have hr2 : 0 ≤ load t / T.qLow t := div_nonneg hl g1.le
      have hr3 : 0 < 1 - cd * (1 - load t / T.qLow t) := by nlinarith
      have hr4 : 1 - cd * (1 - load t / T.qLow t) ≤ 1 := by nlinarith
      unfold cyclingRate
      have : load t / T.qLow t * T.pLow t ≤ load t / T.qLow t * T.pLow t / (1 - cd * (1 - load t / T.qLow t)) := by
        rw [le_div_iff₀ hr3]
        exact mul_le_of_le_one_right (mul_nonneg hr2 sl.1.le) hr4
      have e2 : load t = load t / T.qLow t * T.qLow t := by field_simp
      have := mul_le_mul_of_nonneg_left ll.le hr2
      linarith
  rw [if_neg h1, if_neg h1]
  by_cases h2 : load t < T.full.q t
  · rw [if_pos h2, if_pos h2]
    rcases run (T.cop load t) with e | e <;> rw [e]
    · linarith
    · have hc : 1 < T.cop load t := modulated_one ((one_lt_div sl.1).2 sl.2) ((one_lt_div si.1).2 si.2) ((one_lt_div sf.1).2 sf.2) (not_le.1 h1) h2
      have hc' : T.cop load t < 9.5 := modulated_limit ((div_lt_iff₀ sl.1).2 ll) ((div_lt_iff₀ si.1).2 li) ((div_lt_iff₀ sf.1).2 lf) (not_le.1 h1) h2
      have e2 : load t = T.cop load t * (load t / T.cop load t) := by field_simp
      have : 0 ≤ load t / T.cop load t := div_nonneg hl (by linarith)
      nlinarith
  · rw [if_neg h2, if_neg h2]
    rcases run (T.full.q t / T.full.p t) with e | e <;> rw [e]
    · linarith
    · obtain ⟨k1, k2⟩ := lines_limit (b := b) H hκ hκ3
      rcases le_or_gt t 12 with h12 | h12
      · have := k2 t h12
        have := l12 h12
        have : 0 < h := by have := H.cold; linarith
        linarith
      · have h17 : 17 ≤ t ∧ (37 ≤ t ∨ t ≤ 32) := by
          revert h12 ht
          clear * -
          simp only [seasonTemperatures, List.mem_cons, List.not_mem_nil, or_false]
          rintro (rfl | rfl | rfl | rfl | rfl | rfl | rfl | rfl | rfl | rfl | rfl | rfl | rfl | rfl | rfl | rfl | rfl | rfl) h <;> first | (exfalso; norm_num at h; done) | norm_num
        rcases h17.2 with h37 | h32
        · have := l37 h37
          have f37 : 0.7 * q ≤ T.full.q t := full_warm H ht h37
          linarith
        · have := k1 t ht h17.1 h32
          linarith
end

/-- The hours of region 4 lie above -8 °F. -/
theorem region_four {design z cx cv : ℝ} {hours : List ℝ} (hr : regionData .ahri2023 4 = some (design, hours, some (cx, cv, z))) : ∀ x ∈ (seasonTemperatures : List ℝ).zip hours, -8 ≤ x.1 ∨ x.2 = 0 := by
  simp only [regionData, Option.some.injEq, Prod.mk.injEq] at hr
  obtain ⟨-, rfl, -⟩ := hr
  simp only [seasonTemperatures, List.zip_cons_cons, List.forall_mem_cons]
  norm_num

/-- The load of region 4 from 37 °F on. -/
theorem load_four {design z cx cv : ℝ} {hours : List ℝ} (hr : regionData .ahri2023 4 = some (design, hours, some (cx, cv, z))) {q t : ℝ} (hq : 0 < q) (ht : 37 ≤ t) : heatBuildingLoad z design (cv * q) t ≤ 0.386 * q := by
  simp only [regionData, Option.some.injEq, Prod.mk.injEq] at hr
  obtain ⟨rfl, -, -, rfl, rfl⟩ := hr
  unfold heatBuildingLoad
  split
  · positivity
  · norm_num
    nlinarith

/-- The seasonal value for COPs between 2.5 and 3 is positive and at most 9.5. -/
theorem hspf_limit {u : Units ℝ} {q95 q47 q17 κ off dc : ℝ} {psc ducted b : Bool} (hu : UsualUnits u) (h95 : 0 < q95) (hpos : 0 < q47) (hcmp : Comparable q95 q47) (c1 : 0.6 * q47 ≤ q17) (c2 : q17 ≤ q47) (c3 : q17 ≤ 0.95 * q95)
    (hκ : 2.5 ≤ κ) (hκ3 : κ ≤ 3) (d0 : 0 ≤ dc ∧ dc < 1) {design z cx cv : ℝ} {hours : List ℝ} (hr : regionData .ahri2023 4 = some (design, hours, some (cx, cv, z))) :
    let V := variableHspf psc ducted u.ton q95 q47 q17 κ b dc off (heatBuildingLoad z design (cv * variableCooling psc ducted u.ton q95 q47)) (seasonTemperatures.zip hours)
    0 < V ∧ V ≤ 9.5 := by
  obtain ⟨g1, g2, g3, g4, g5⟩ := variable_fan_bounds psc ducted hu h95 hpos hcmp
  obtain ⟨VC, hVC⟩ : ∃ VC, VC = variableCooling psc ducted u.ton q95 q47 := ⟨_, rfl⟩
  have q1 : q95 ≤ 1.7321 * q47 := by
    by_contra hn
    have := mul_self_lt_mul_self (by positivity) (not_le.1 hn)
    have := hcmp.2
    nlinarith
  obtain ⟨v0, v1⟩ : 0.9785 * q95 ≤ VC ∧ VC ≤ 1.0024 * q95 := by
    obtain ⟨-, -, -, -, g6⟩ := variable_cool_bounds (u := u) (r := 0.2) psc ducted hu h95 (by norm_num) (by norm_num) hcmp
    rw [hVC]; unfold variableCooling; constructor <;> linarith [g6.1, g6.2]
  intro V
  have TB : TestBounds q47 q17 κ _ _ _ _ := ⟨hpos, c1, c2, by linarith, by linarith, g1, g2, g3, g4.1, g4.2⟩
  obtain ⟨l1, l2⟩ := region_load_variable hr (q := VC) (by linarith)
  obtain ⟨r1, -, r2, r3, ⟨n, r4, r5⟩, r6, -⟩ := region_2023 hr
  have hfull : 0 < cv * VC := mul_pos r2 (by linarith)
  have hl0 := fun t => heatBuildingLoad_nonneg (t := t) r1 hfull.le
  have hpos' := fun t ht => variable_pos (b := b) TB (off := off) d0.1 d0.2 l1 (fun t h12 => by have := l2 t h12; linarith) (t := t) ht (hl0 t)
  have hlim := fun t ht h8 => bin_limit (b := b) TB hκ hκ3 (cd := dc) (off := off) (load := heatBuildingLoad z design (cv * VC)) d0.1 d0.2 (t := t) ht h8 (hl0 t)
    (fun h37 => by have := load_four hr (q := VC) (by linarith) h37; linarith) (fun h12 => by have := l2 t h12; linarith)
  simp only [V]
  rw [← hVC]
  unfold variableHspf VariableTests.season seasonRatio
  simp only
  rw [← total_add]
  have hE := total_pos (f := fun t => (variableHeating b q47 q17 κ _ _ _ _).energy dc off (heatBuildingLoad z design (cv * VC)) t + (variableHeating b q47 q17 κ _ _ _ _).resistance off (heatBuildingLoad z design (cv * VC)) t)
    (fun b hb => ⟨(hpos' b.1 (List.of_mem_zip hb).1).1, r3 _ (List.of_mem_zip hb).2⟩) r4 ((hpos' 52 (List.of_mem_zip r4).1).2 (by norm_num) (heatBuildingLoad_pos r1 hfull r6)) r5
  refine ⟨div_pos (total_pos (fun b hb => ⟨hl0 b.1, r3 _ (List.of_mem_zip hb).2⟩) r4 (heatBuildingLoad_pos r1 hfull r6) r5) hE, ?_⟩
  rw [div_le_iff₀ hE]
  unfold CoolTests.total
  rw [← List.sum_map_mul_left]
  refine List.sum_le_sum fun x hx => ?_
  obtain ⟨m1, m2⟩ := List.of_mem_zip hx
  rcases region_four hr x hx with h8 | h0
  · have := mul_le_mul_of_nonneg_right (hlim x.1 m1 h8) (r3 _ m2)
    linarith
  · rw [h0]; simp

variable {u : Units ℝ} {E : Env ℝ} {T : Coil.Tools} {brentq : Brentq} {a : Args}

/-- C96: for heating COPs between 2.5 and 3 the HSPF2 of a variable-speed unit in region 4 is positive and, without demand defrost credit, at most 9.5 W/W. -/
theorem C96_variable_bound {q95 eer2 : ℝ} (H : UsualVariable u a q95 eer2) (hS : VariableSeason u E a q95) (h : Surroundings u E T brentq a .varSpeed (variableSizes u a q95 eer2))
    (hκ : 2.5 ≤ heatingCop (a.hspf.getD 0) a.netHeatingCop) (hκ3 : heatingCop (a.hspf.getD 0) a.netHeatingCop ≤ 3) {f : ℝ} (hf : a.defrost.demandCredit u = .ok f) (hf0 : 0 < f) :
    ∃ B v, build u E T brentq a = .ok B ∧ B.hspf u E T brentq 4 = .ok v ∧ 0 < v ∧ v * u.btuh ≤ 9.5 * f := by
  obtain ⟨B, hB, -, hH⟩ := C96_variable_ratings H hS h
  obtain ⟨d, hours, cx, cv, z, hr⟩ : ∃ d hours cx cv z, regionData (K := ℝ) .ahri2023 4 = some (d, hours, some (cx, cv, z)) := ⟨_, _, _, _, _, rfl⟩
  obtain ⟨p1, p2⟩ := hspf_limit (psc := a.motorPSC.getD false) (ducted := a.ducted) (b := a.defrost.inDefrost (frF 35)) (off := toF (lowestTemperature a .varSpeed)) H.usual H.size H.heating.rated H.comparable hS.cold hS.cold_le hS.warm
    hκ hκ3 hS.cd hr
  have hb := u.btuh_pos
  refine ⟨B, _, hB, hH hr hf, div_pos (mul_pos p1 hf0) hb, ?_⟩
  rw [div_mul_cancel₀ _ hb.ne']
  exact mul_le_mul_of_nonneg_right p2 hf0.le

end Resdx.Build

namespace Resdx.Sample

open Spec Tabular BaseModel Props ResnetFan Fan Table Build DX

/-- The hypotheses of `C96_variable_bound` hold for units of any size. -/
example {brentq : Brentq} (hbr : BrentqSpec brentq) {q κ : ℝ} (hq : 0 < q) (h1 : 2.5 ≤ κ) (h2 : κ ≤ 3) :=
  C96_variable_bound (varSizes_usual hq (by linarith) (by linarith)) (varSizes_season hq (by linarith)) (varSizes_surroundings (κ := κ) hbr hq) h1 h2 (f := 1) rfl one_pos

end Resdx.Sample
