import Verif.Props.VariableRoots

/-!
# C96: the HSPF2 of variable-speed units is a continuous function of the COP

Between the COPs 2.5 and 5, and in regions without hours below -8 °F, all COPs of the tests exceed one, so that the unit is never replaced by resistance heat above its cut-out temperature.
-/

set_option linter.unusedSectionVars false
set_option linter.unusedSimpArgs false

namespace Resdx.Build

open Spec Tabular BaseModel Props ResnetFan Fan Table DX Set

/-- The balance at -8 °F. -/
theorem cold_core {q x a d qi pi nq mp : ℝ} (hq : 0 < q) (x1 : x ≤ 0.4 * q) (a0 : 0.6 ≤ a) (a1 : a ≤ 1) (d1 : -0.0624 * q ≤ d)
    (M1 : 0.0699 * q + 0.2686 * (a * q) - 0.9478 * d ≤ qi - 68 / 227 * q) (M2 : qi - 68 / 227 * q ≤ 0.0905 * q + 0.2835 * (a * q) - d)
    (M3 : pi - 4964 / 21315.3 * x ≤ 0.137 * x + 0.37 * (a * x) - d) (c1 : nq ≤ 1.1153 * (1 - a) * (qi - 68 / 227 * q)) (c2 : -mp ≤ (a - 0.72) * (pi - 4964 / 21315.3 * x)) :
    pi - 43 / 18 * mp < qi - 43 / 18 * nq := by
  obtain ⟨Q, hQ⟩ : ∃ Q, Q = qi - 68 / 227 * q := ⟨_, rfl⟩
  obtain ⟨R, hR⟩ : ∃ R, R = pi - 4964 / 21315.3 * x := ⟨_, rfl⟩
  rw [← hQ] at M1 M2 c1
  rw [← hR] at M3 c2
  have ax4 : a * x ≤ 0.4 * (a * q) := by nlinarith only [mul_nonneg (show 0 ≤ a by linarith only [a0]) (sub_nonneg.2 x1)]
  have r1 : R ≤ 0.0548 * q + 0.148 * (a * q) - d := by linarith only [M3, x1, ax4]
  have B0 : 0 ≤ 1 + 43 / 18 * (a - 0.72) := by linarith only [a0]
  have r2 := mul_le_mul_of_nonneg_right r1 B0
  have g1 : R * (1 + 43 / 18 * (a - 0.72)) < 0.206 * q + Q * (1 - 43 / 18 * (1.1153 * (1 - a))) := by
    have dq : 0 ≤ (d + 0.0624 * q) * (1 - a) := mul_nonneg (by linarith only [d1]) (by linarith only [a1])
    have da : 0 ≤ (d + 0.0624 * q) * (a - 0.6) := mul_nonneg (by linarith only [d1]) (by linarith only [a0])
    have aq : 0 ≤ (1 - a) * (a - 0.6) * q := mul_nonneg (mul_nonneg (by linarith only [a1]) (by linarith only [a0])) hq.le
    have aq2 : 0 ≤ (a - 0.6) * q := mul_nonneg (by linarith only [a0]) hq.le
    have aq3 : 0 ≤ (a - 0.6) ^ 2 * q := mul_nonneg (sq_nonneg _) hq.le
    have aq4 : 0 ≤ (a - 0.7) ^ 2 * q := mul_nonneg (sq_nonneg _) hq.le
    rcases le_total 0 (1 - 43 / 18 * (1.1153 * (1 - a))) with hA | hA
    · have r3 := mul_le_mul_of_nonneg_right M1 hA
      have aq5 : 0 ≤ (a - 0.6246) * q := mul_nonneg (by linarith only [hA]) hq.le
      have aq6 : 0 ≤ (a - 0.6246) ^ 2 * q := mul_nonneg (sq_nonneg _) hq.le
      nlinarith only [r2, r3, dq, da, aq, aq2, aq3, aq4, aq5, aq6, hq]
    · have r3 := mul_le_mul_of_nonneg_right M2 (show 0 ≤ -(1 - 43 / 18 * (1.1153 * (1 - a))) by linarith only [hA])
      nlinarith only [r2, r3, dq, da, aq, aq2, aq3, aq4, hq]
  have e : qi - pi = (Q - R) + (68 / 227 * q - 4964 / 21315.3 * x) := by rw [hQ, hR]; ring
  linarith only [e, g1, c1, c2, x1, hq]

/-- The intermediate speed delivers more than it draws if it does so at -8 and at 62 °F. -/
theorem mid_core {q x a qi pi q2 q3 p2 p3 t : ℝ} (hq : 0 < q) (x1 : x ≤ 0.4 * q) (x0 : 0.2 * q ≤ x) (a0 : 0.6 ≤ a) (a1 : a ≤ 1)
    (f1 : 0.49 * q ≤ q2 - 68 / 227 * q) (f2 : -0.06 * q ≤ q2 - q3) (m1 : 68 / 227 * q ≤ qi) (m2 : qi ≤ 0.75 * q) (m3 : 4964 / 21315.3 * x ≤ pi) (m5 : p2 - p3 ≤ 0.12 * x)
    (F : ∃ k f, 0 ≤ k ∧ k ≤ 1.1153 * f ∧ q2 - q3 ≤ k * ((1 - a) * q) ∧ f * q ≤ q2 - 68 / 227 * q)
    (P : p3 - p2 ≤ 0.8154 * (a * x) - 0.5947 * x ∧ 0.3499 * x + 0.5357 * (a * x) ≤ p2 - 4964 / 21315.3 * x ∧ p2 - 4964 / 21315.3 * x ≤ 0.475 * x + 0.5404 * (a * x))
    (M : ∃ d, -0.0624 * q ≤ d ∧ d ≤ 0.0385 * q ∧ 0.0699 * q + 0.2686 * (a * q) - 0.9478 * d ≤ qi - 68 / 227 * q ∧
      qi - 68 / 227 * q ≤ 0.0905 * q + 0.2835 * (a * q) - d ∧ pi - 4964 / 21315.3 * x ≤ 0.137 * x + 0.37 * (a * x) - d ∧ pi - 4964 / 21315.3 * x ≤ 1.1 * (p2 - 4964 / 21315.3 * x) ∧
      pi + 0.2 * q ≤ qi) (ht : -8 ≤ t) (ht' : t ≤ 62) :
    intermediateLine (4964 / 21315.3 * x) 0 p2 ((p2 - p3) / 18) pi t < intermediateLine (68 / 227 * q) 0 q2 ((q2 - q3) / 18) qi t := by
  have hx0 : 0 < x := by linarith
  have ax0 : 0.6 * x ≤ a * x := mul_le_mul_of_nonneg_right a0 hx0.le
  unfold intermediateLine
  obtain ⟨k, f, k0, k1, k2, k3⟩ := F
  obtain ⟨P1, P2, P3⟩ := P
  obtain ⟨d, d1, d2, M1, M2, M3, M4, M5⟩ := M
  have Fq : 0 < q2 - 68 / 227 * q := by linarith
  have Fp : 0 < p2 - 4964 / 21315.3 * x := by linarith
  -- slopes
  have S1 : q2 - q3 ≤ 1.1153 * (1 - a) * (q2 - 68 / 227 * q) := by
    have s1 : 0 ≤ (1 - a) * q := mul_nonneg (by linarith) hq.le
    calc q2 - q3 ≤ k * ((1 - a) * q) := k2
      _ ≤ 1.1153 * f * ((1 - a) * q) := mul_le_mul_of_nonneg_right k1 s1
      _ = 1.1153 * (1 - a) * (f * q) := by ring
      _ ≤ _ := mul_le_mul_of_nonneg_left k3 (by linarith only [a1])
  have S2 : p3 - p2 ≤ (a - 0.72) * (p2 - 4964 / 21315.3 * x) := by
    rcases le_total 0.72 a with h72 | h72
    · calc p3 - p2 ≤ (0.8154 * a - 0.5947) * x := by linarith only [P1]
        _ ≤ (a - 0.72) * (0.3499 + 0.5357 * a) * x := mul_le_mul_of_nonneg_right (by nlinarith only [sq_nonneg (a - 0.7945)]) hx0.le
        _ = (a - 0.72) * (0.3499 * x + 0.5357 * (a * x)) := by ring
        _ ≤ _ := mul_le_mul_of_nonneg_left P2 (by linarith only [h72])
    · have s1 := mul_le_mul_of_nonneg_left P3 (show 0 ≤ 0.72 - a by linarith only [h72])
      calc p3 - p2 ≤ (0.8154 * a - 0.5947) * x := by linarith only [P1]
        _ ≤ (a - 0.72) * (0.475 + 0.5404 * a) * x := mul_le_mul_of_nonneg_right (by nlinarith only [sq_nonneg (a - 0.675)]) hx0.le
        _ = -((0.72 - a) * (0.475 * x + 0.5404 * (a * x))) := by ring
        _ ≤ -((0.72 - a) * (p2 - 4964 / 21315.3 * x)) := neg_le_neg s1
        _ = _ := by ring
  have Mq0 : 0 ≤ qi - 68 / 227 * q := by linarith
  have Mp0 : 0 ≤ pi - 4964 / 21315.3 * x := by linarith
  have nq0 : 0 ≤ (qi - 68 / 227 * q) / (q2 - 68 / 227 * q) := div_nonneg Mq0 Fq.le
  have nq1 : (qi - 68 / 227 * q) / (q2 - 68 / 227 * q) ≤ 1 := (div_le_one Fq).2 (by linarith)
  have np0 : 0 ≤ (pi - 4964 / 21315.3 * x) / (p2 - 4964 / 21315.3 * x) := div_nonneg Mp0 Fp.le
  have np1 : (pi - 4964 / 21315.3 * x) / (p2 - 4964 / 21315.3 * x) ≤ 1.1 := (div_le_iff₀ Fp).2 M4
  have nqm : (qi - 68 / 227 * q) / (q2 - 68 / 227 * q) * (q2 - 68 / 227 * q) = qi - 68 / 227 * q := div_mul_cancel₀ _ Fq.ne'
  have npm : (pi - 4964 / 21315.3 * x) / (p2 - 4964 / 21315.3 * x) * (p2 - 4964 / 21315.3 * x) = pi - 4964 / 21315.3 * x := div_mul_cancel₀ _ Fp.ne'
  generalize (qi - 68 / 227 * q) / (q2 - 68 / 227 * q) = n at *
  generalize (pi - 4964 / 21315.3 * x) / (p2 - 4964 / 21315.3 * x) = m at *
  -- at 62 °F
  have W : pi + 1.5 * (m * (p2 - p3)) < qi + 1.5 * (n * (q2 - q3)) := by
    have w1 : -0.06 * q ≤ n * (q2 - q3) := by
      calc -0.06 * q ≤ n * (-0.06 * q) := by nlinarith only [mul_nonneg (sub_nonneg.2 nq1) hq.le]
        _ ≤ _ := mul_le_mul_of_nonneg_left f2 nq0
    have w2 : m * (p2 - p3) ≤ 1.1 * (0.12 * x) :=
      (mul_le_mul_of_nonneg_left m5 np0).trans (mul_le_mul_of_nonneg_right np1 (by linarith only [hx0]))
    linarith only [w1, w2, M5, x1, hq]
  -- at -8 °F
  have C : pi - 43 / 18 * (m * (p2 - p3)) < qi - 43 / 18 * (n * (q2 - q3)) := by
    have c1 : n * (q2 - q3) ≤ 1.1153 * (1 - a) * (qi - 68 / 227 * q) := by
      rw [← nqm]
      calc n * (q2 - q3) ≤ n * (1.1153 * (1 - a) * (q2 - 68 / 227 * q)) := mul_le_mul_of_nonneg_left S1 nq0
        _ = _ := by ring
    have c2 : -(m * (p2 - p3)) ≤ (a - 0.72) * (pi - 4964 / 21315.3 * x) := by
      rw [← npm]
      calc -(m * (p2 - p3)) = m * (p3 - p2) := by ring
        _ ≤ m * ((a - 0.72) * (p2 - 4964 / 21315.3 * x)) := mul_le_mul_of_nonneg_left S2 np0
        _ = _ := by ring
    exact cold_core hq x1 a0 a1 d1 M1 M2 M3 c1 c2
  have e1 : qi + ((1 - n) * 0 + n * ((q2 - q3) / 18)) * (t - 35) = (t + 8) / 70 * (qi + 1.5 * (n * (q2 - q3))) + (62 - t) / 70 * (qi - 43 / 18 * (n * (q2 - q3))) := by ring
  have e2 : pi + ((1 - m) * 0 + m * ((p2 - p3) / 18)) * (t - 35) = (t + 8) / 70 * (pi + 1.5 * (m * (p2 - p3))) + (62 - t) / 70 * (pi - 43 / 18 * (m * (p2 - p3))) := by ring
  rw [e1, e2]
  generalize pi + 1.5 * (m * (p2 - p3)) = A1 at *
  generalize qi + 1.5 * (n * (q2 - q3)) = A2 at *
  generalize pi - 43 / 18 * (m * (p2 - p3)) = A3 at *
  generalize qi - 43 / 18 * (n * (q2 - q3)) = A4 at *
  have h70 : (t + 8) / 70 + (62 - t) / 70 = 1 := by ring
  have u0 : 0 ≤ (t + 8) / 70 := by linarith only [ht]
  have u1 : 0 ≤ (62 - t) / 70 := by linarith only [ht']
  generalize (t + 8) / 70 = u at *
  generalize (62 - t) / 70 = u' at *
  rcases u0.eq_or_lt with rfl | hu
  · rw [zero_add] at h70; rw [h70]; linarith only [C]
  · exact add_lt_add_of_lt_of_le (mul_lt_mul_of_pos_left W hu) (mul_le_mul_of_nonneg_left C.le u1)


section
variable {b : Bool} {q h κ w1 w w3 v : ℝ} (H : TestBounds q h κ w1 w w3 v) (hκ : 2.5 ≤ κ)
include H hκ

/-- Full speed delivers more than it draws. -/
theorem full_cop : ∀ t ∈ (seasonTemperatures : List ℝ), -8 ≤ t → (variableHeating b q h κ w1 w w3 v).full.p t < (variableHeating b q h κ w1 w w3 v).full.q t := by
  have hκ0 : 0 < κ := by linarith
  have x1 : q / κ ≤ 0.4 * q := by rw [div_le_iff₀ hκ0]; nlinarith [H.rated]
  have y1 : h / κ ≤ 0.4 * h := by rw [div_le_iff₀ hκ0]; nlinarith [H.rated, H.cold]
  have y2 : h / κ ≤ 0.6 * (q / κ) + 0.4 * (h - 0.6 * q) := by
    have e : h / κ = 0.6 * (q / κ) + (h - 0.6 * q) / κ := by ring
    have : (h - 0.6 * q) / κ ≤ 0.4 * (h - 0.6 * q) := by rw [div_le_iff₀ hκ0]; nlinarith [H.cold]
    linarith
  have y3 : q / κ - h / κ ≤ 0.4 * (q - h) := by
    rw [← sub_div, div_le_iff₀ hκ0]; nlinarith [H.cold_le]
  have y4 : h / κ ≤ q / κ := div_le_div_of_nonneg_right H.cold_le hκ0.le
  have y5 : 0.6 * (q / κ) ≤ h / κ := by rw [← mul_div_assoc]; exact div_le_div_of_nonneg_right H.cold hκ0.le
  obtain ⟨h1, h2, h3, -, -, h4, h5, h6, h7, h8⟩ := H
  simp only [seasonTemperatures, List.forall_mem_cons, List.not_mem_nil, false_imp_iff, implies_true, and_true, variableHeating, frosted, HeatTests.q, HeatTests.p, lineAt]
  generalize q / κ = x at *
  generalize h / κ = y at *
  norm_num
  cases b <;> simp only [if_true, if_false, Bool.false_eq_true] <;> ((repeat' constructor) <;> linarith)

/-- So does low speed. -/
theorem low_cop (t : ℝ) : (variableHeating b q h κ w1 w w3 v).pLow t < (variableHeating b q h κ w1 w w3 v).qLow t := by
  have hκ0 : 0 < κ := by linarith
  have x1 : q / κ ≤ 0.4 * q := by rw [div_le_iff₀ hκ0]; nlinarith [H.rated]
  rw [(low_const H t).1, (low_const H t).2]
  have := H.rated
  linarith

theorem mid_full {a : ℝ} (ha : h = a * q) : (∃ k f, 0 ≤ k ∧ k ≤ 1.1153 * f ∧ (variableHeating b q h κ w1 w w3 v).full.q2 - (variableHeating b q h κ w1 w w3 v).full.q3 ≤ k * ((1 - a) * q) ∧ f * q ≤ (variableHeating b q h κ w1 w w3 v).full.q2 - 68 / 227 * q) ∧
    (variableHeating b q h κ w1 w w3 v).full.p3 - (variableHeating b q h κ w1 w w3 v).full.p2 ≤ 0.8154 * (a * (q / κ)) - 0.5947 * (q / κ) ∧ 0.3499 * (q / κ) + 0.5357 * (a * (q / κ)) ≤ (variableHeating b q h κ w1 w w3 v).full.p2 - 4964 / 21315.3 * (q / κ) ∧ (variableHeating b q h κ w1 w w3 v).full.p2 - 4964 / 21315.3 * (q / κ) ≤ 0.475 * (q / κ) + 0.5404 * (a * (q / κ)) := by
  have hκ0 : 0 < κ := by linarith
  have hq := H.rated
  have x1 : q / κ ≤ 0.4 * q := by rw [div_le_iff₀ hκ0]; nlinarith
  have x0 : 0.2 * q ≤ q / κ := by rw [le_div_iff₀ hκ0]; nlinarith [H.cop_le]
  have hy : h / κ = a * (q / κ) := by rw [ha]; ring
  have a0 : 0.6 ≤ a := by have := H.cold; rw [ha] at this; exact le_of_mul_le_mul_right this hq
  have a1 : a ≤ 1 := by have := H.cold_le; rw [ha] at this; exact le_of_mul_le_mul_right (by linarith) hq
  constructor
  · obtain ⟨h1, h2, h3, -, -, h4, h5, h6, h7, h8⟩ := H
    cases b
    · refine ⟨0.6, 0.538, by norm_num, by norm_num, ?_, ?_⟩ <;> simp only [variableHeating, frosted, Bool.false_eq_true, if_false] <;> rw [ha] at * <;> linarith
    · refine ⟨0.4967, 0.494, by norm_num, by norm_num, ?_, ?_⟩ <;> simp only [variableHeating, frosted, if_true] <;> rw [ha] at * <;> linarith
  obtain ⟨h1, h2, h3, -, -, h4, h5, h6, h7, h8⟩ := H
  rw [ha] at h2 h3
  simp only [variableHeating, frosted, hy]
  generalize q / κ = x at *
  have hx0 : 0 < x := by linarith
  have ax0 : 0.6 * x ≤ a * x := by nlinarith
  have ax1 : a * x ≤ x := by nlinarith
  have ax4 : a * x ≤ 0.4 * (a * q) := by nlinarith
  cases b <;> simp only [Bool.false_eq_true, if_false, if_true] <;> (refine ⟨?_, ?_, ?_⟩ <;> linarith)

theorem mid_mid {a : ℝ} (ha : h = a * q) : ∃ d, -0.0624 * q ≤ d ∧ d ≤ 0.0385 * q ∧ 0.0699 * q + 0.2686 * (a * q) - 0.9478 * d ≤ (variableHeating b q h κ w1 w w3 v).qi - 68 / 227 * q ∧
      (variableHeating b q h κ w1 w w3 v).qi - 68 / 227 * q ≤ 0.0905 * q + 0.2835 * (a * q) - d ∧ (variableHeating b q h κ w1 w w3 v).pi - 4964 / 21315.3 * (q / κ) ≤ 0.137 * (q / κ) + 0.37 * (a * (q / κ)) - d ∧ (variableHeating b q h κ w1 w w3 v).pi - 4964 / 21315.3 * (q / κ) ≤ 1.1 * ((variableHeating b q h κ w1 w w3 v).full.p2 - 4964 / 21315.3 * (q / κ)) ∧
      (variableHeating b q h κ w1 w w3 v).pi + 0.2 * q ≤ (variableHeating b q h κ w1 w w3 v).qi := by
  have hκ0 : 0 < κ := by linarith
  have hq := H.rated
  have x1 : q / κ ≤ 0.4 * q := by rw [div_le_iff₀ hκ0]; nlinarith
  have x0 : 0.2 * q ≤ q / κ := by rw [le_div_iff₀ hκ0]; nlinarith [H.cop_le]
  have hy : h / κ = a * (q / κ) := by rw [ha]; ring
  have a0 : 0.6 ≤ a := by have := H.cold; rw [ha] at this; exact le_of_mul_le_mul_right this hq
  have a1 : a ≤ 1 := by have := H.cold_le; rw [ha] at this; exact le_of_mul_le_mul_right (by linarith) hq
  obtain ⟨h1, h2, h3, -, -, h4, h5, h6, h7, h8⟩ := H
  rw [ha] at h2 h3
  simp only [variableHeating, frosted, hy]
  generalize q / κ = x at *
  have hx0 : 0 < x := by linarith
  have ax0 : 0.6 * x ≤ a * x := by nlinarith
  have ax1 : a * x ≤ x := by nlinarith
  have ax4 : a * x ≤ 0.4 * (a * q) := by nlinarith
  obtain ⟨e1, e2, e3, e4, -⟩ := low_factors q h x (a * x)
  refine ⟨(w1 + w3) / 2 - w, by linarith, by linarith, ?_⟩
  rw [e1, e2, e3, e4, ha]
  norm_num
  cases b <;> simp only [Bool.false_eq_true, if_false, if_true] <;> (refine ⟨?_, ?_, ?_, ?_, ?_⟩ <;> linarith)

/-- And the intermediate speed. -/
theorem mid_cop {t : ℝ} (ht : -8 ≤ t) (ht' : t ≤ 62) : (variableHeating b q h κ w1 w w3 v).pInt t < (variableHeating b q h κ w1 w w3 v).qInt t := by
  obtain ⟨a, ha⟩ : ∃ a, h = a * q := ⟨h / q, by have := H.rated; field_simp⟩
  have hκ0 : 0 < κ := by linarith
  have hq := H.rated
  have x1 : q / κ ≤ 0.4 * q := by rw [div_le_iff₀ hκ0]; nlinarith
  have x0 : 0.2 * q ≤ q / κ := by rw [le_div_iff₀ hκ0]; nlinarith [H.cop_le]
  have hy : h / κ = a * (q / κ) := by rw [ha]; ring
  have a0 : 0.6 ≤ a := by have := H.cold; rw [ha] at this; exact le_of_mul_le_mul_right this hq
  have a1 : a ≤ 1 := by have := H.cold_le; rw [ha] at this; exact le_of_mul_le_mul_right (by linarith) hq
  obtain ⟨l1, l2⟩ := low_const (b := b) H 35
  obtain ⟨f1, f2, f3, f4⟩ := full_35 (b := b) H
  obtain ⟨m1, m2, m3, m4, m5⟩ := mid_35 (b := b) H
  obtain ⟨F, P⟩ := mid_full (b := b) H hκ ha
  have z1 : ((variableHeating b q h κ w1 w w3 v).low.q0 - (variableHeating b q h κ w1 w w3 v).low.q1) / 15 = 0 := by simp [variableHeating]
  have z2 : ((variableHeating b q h κ w1 w w3 v).low.p0 - (variableHeating b q h κ w1 w w3 v).low.p1) / 15 = 0 := by simp [variableHeating]
  unfold VariableTests.qInt VariableTests.pInt
  rw [l1, l2, z1, z2]
  exact mid_core hq x1 x0 a0 a1 f1 f2 m1 m2 m3 m5 F P (mid_mid H hκ ha) ht ht'

end

/-! ## The HSPF2 as a function of the reciprocal of the COP -/

theorem modulated_one {qL cL qI cI qF cF l : ℝ} (h1 : 1 < cL) (h2 : 1 < cI) (h3 : 1 < cF) (hl : qL < l) (hf : l < qF) : 1 < modulatedCop qL cL qI cI qF cF l := by
  have := modulated_pos (qI := qI) (sub_pos.2 h1) (sub_pos.2 h2) (sub_pos.2 h3) hl hf
  have e : modulatedCop qL (cL - 1) qI (cI - 1) qF (cF - 1) l = modulatedCop qL cL qI cI qF cF l - 1 := by
    unfold modulatedCop lineAt
    split <;> ring
  linarith

theorem run_one {off t c : ℝ} (h : 1 < c) : runFraction off off t c = if t ≤ off then 0 else 1 := by
  unfold runFraction
  by_cases h1 : t ≤ off
  · rw [if_pos (.inl h1), if_pos h1]
  · rw [if_neg (by rintro (h2 | h2) <;> linarith), if_pos (not_le.1 h1), if_neg h1]

section
variable {b : Bool} {q h w1 w w3 v : ℝ} (HB : ∀ k ∈ Icc (0.2 : ℝ) 0.4, TestBounds q h k⁻¹ w1 w w3 v)
include HB

/-- The energy in a bin above -8 °F is a continuous function of the reciprocal of the COP. -/
theorem bin_continuous {cd off : ℝ} {load : ℝ → ℝ} {t : ℝ} (ht : t ∈ (seasonTemperatures : List ℝ)) (h8 : -8 ≤ t) :
    ContinuousOn (fun k => (variableHeating b q h k⁻¹ w1 w w3 v).energy cd off load t + (variableHeating b q h k⁻¹ w1 w w3 v).resistance off load t) (Icc 0.2 0.4) := by
  obtain ⟨r1, r2⟩ := season_range t ht
  have hκ : ∀ k ∈ Icc (0.2 : ℝ) 0.4, 2.5 ≤ k⁻¹ := by
    intro k hk
    rw [le_inv_comm₀ (by norm_num) (by linarith [hk.1])]
    norm_num at hk ⊢
    exact hk.2
  -- continuity of the tests
  have cp : ContinuousOn (fun k => (variableHeating b q h k⁻¹ w1 w w3 v).full.p t) (Icc 0.2 0.4) := by
    simp only [HeatTests.p, variableHeating, frosted, lineAt, div_inv_eq_mul]
    cases b <;> simp only [Bool.false_eq_true, if_false, if_true] <;> split_ifs <;> fun_prop
  have cpl : ∀ t, ContinuousOn (fun k => (variableHeating b q h k⁻¹ w1 w w3 v).pLow t) (Icc 0.2 0.4) := by
    intro t
    simp only [VariableTests.pLow, variableHeating, lineAt, div_inv_eq_mul]
    fun_prop
  have cp2 : ContinuousOn (fun k => (variableHeating b q h k⁻¹ w1 w w3 v).full.p2) (Icc 0.2 0.4) := by
    simp only [variableHeating, frosted, div_inv_eq_mul]
    cases b <;> simp only [Bool.false_eq_true, if_false, if_true] <;> fun_prop
  have cp3 : ContinuousOn (fun k => (variableHeating b q h k⁻¹ w1 w w3 v).full.p3) (Icc 0.2 0.4) := by
    simp only [variableHeating, div_inv_eq_mul]
    fun_prop
  have cp4 : ContinuousOn (fun k => (variableHeating b q h k⁻¹ w1 w w3 v).p4) (Icc 0.2 0.4) := by
    simp only [variableHeating, div_inv_eq_mul]
    fun_prop
  have cpi : ContinuousOn (fun k => (variableHeating b q h k⁻¹ w1 w w3 v).pi) (Icc 0.2 0.4) := by
    simp only [variableHeating, frosted, div_inv_eq_mul]
    cases b <;> simp only [Bool.false_eq_true, if_false, if_true] <;> fun_prop
  have z : ∀ k, ((variableHeating b q h k⁻¹ w1 w w3 v).low.p0 - (variableHeating b q h k⁻¹ w1 w w3 v).low.p1) / 15 = 0 := fun k => by simp [variableHeating]
  have cI : ContinuousOn (fun k => (variableHeating b q h k⁻¹ w1 w w3 v).pInt t) (Icc 0.2 0.4) := by
    unfold VariableTests.pInt intermediateLine
    simp only [z]
    have cw := (cpi.sub (cpl 35)).div (cp2.sub (cpl 35)) fun k hk => by
      obtain ⟨-, -, -, f4⟩ := full_35 (b := b) (HB k hk)
      have : 0 < q / k⁻¹ := div_pos (HB k hk).rated (by linarith [(HB k hk).cop])
      show (variableHeating b q h k⁻¹ w1 w w3 v).full.p2 - (variableHeating b q h k⁻¹ w1 w w3 v).pLow 35 ≠ 0
      rw [(low_const (b := b) (HB k hk) 35).2]
      exact (lt_of_lt_of_le (by positivity) f4).ne'
    exact cpi.add ((((continuousOn_const.sub cw).mul continuousOn_const).add (cw.mul ((cp2.sub cp3).div_const 18))).mul continuousOn_const)
  -- capacities do not depend on the COP
  have eql : ∀ k, (variableHeating b q h k⁻¹ w1 w w3 v).qLow t = (variableHeating b q h 1 w1 w w3 v).qLow t := fun _ => rfl
  have eqf : ∀ k, (variableHeating b q h k⁻¹ w1 w w3 v).full.q t = (variableHeating b q h 1 w1 w w3 v).full.q t := fun _ => rfl
  have eqi : ∀ k, (variableHeating b q h k⁻¹ w1 w w3 v).qInt t = (variableHeating b q h 1 w1 w w3 v).qInt t := fun _ => rfl
  have eq4 : ∀ k, lineAt 5 (variableHeating b q h k⁻¹ w1 w w3 v).q4 17 (variableHeating b q h k⁻¹ w1 w w3 v).full.q3 t = lineAt 5 (variableHeating b q h 1 w1 w w3 v).q4 17 (variableHeating b q h 1 w1 w w3 v).full.q3 t :=
    fun _ => rfl
  -- signs
  have sl : ∀ k ∈ Icc (0.2 : ℝ) 0.4, 0 < (variableHeating b q h k⁻¹ w1 w w3 v).pLow t ∧ (variableHeating b q h k⁻¹ w1 w w3 v).pLow t < (variableHeating b q h 1 w1 w w3 v).qLow t := by
    intro k hk
    refine ⟨?_, low_cop (HB k hk) (hκ k hk) t⟩
    have : 0 < q / k⁻¹ := div_pos (HB k hk).rated (by linarith [(HB k hk).cop])
    rw [(low_const (b := b) (HB k hk) t).2]
    positivity
  have sf : ∀ k ∈ Icc (0.2 : ℝ) 0.4, 0 < (variableHeating b q h k⁻¹ w1 w w3 v).full.p t ∧ (variableHeating b q h k⁻¹ w1 w w3 v).full.p t < (variableHeating b q h 1 w1 w w3 v).full.q t :=
    fun k hk => ⟨full_pos (HB k hk) t ht, full_cop (HB k hk) (hκ k hk) t ht h8⟩
  have si : ∀ k ∈ Icc (0.2 : ℝ) 0.4, 0 < (variableHeating b q h k⁻¹ w1 w w3 v).pInt t ∧ (variableHeating b q h k⁻¹ w1 w w3 v).pInt t < (variableHeating b q h 1 w1 w w3 v).qInt t :=
    fun k hk => ⟨(mid_pos (HB k hk) r1 r2).2, mid_cop (HB k hk) (hκ k hk) h8 r2⟩
  unfold VariableTests.energy VariableTests.resistance
  simp only [eql, eqf, eq4]
  by_cases h1 : load t ≤ (variableHeating b q h 1 w1 w w3 v).qLow t
  · simp only [if_pos h1]
    refine ContinuousOn.congr (f := fun k => (if t ≤ off then 0 else 1) * cyclingRate cd ((variableHeating b q h 1 w1 w w3 v).qLow t) ((variableHeating b q h k⁻¹ w1 w w3 v).pLow t) (load t) +
      (load t - (if t ≤ off then 0 else 1) * load t)) ?_ fun k hk => ?_
    · unfold cyclingRate
      have := cpl t
      fun_prop
    · simp only
      rw [run_one ((one_lt_div (sl k hk).1).2 (sl k hk).2)]
  simp only [if_neg h1]
  by_cases h2 : load t < (variableHeating b q h 1 w1 w w3 v).full.q t
  · simp only [if_pos h2]
    have hc : ∀ k ∈ Icc (0.2 : ℝ) 0.4, 1 < (variableHeating b q h k⁻¹ w1 w w3 v).cop load t := fun k hk =>
      modulated_one ((one_lt_div (sl k hk).1).2 (sl k hk).2) ((one_lt_div (si k hk).1).2 (si k hk).2) ((one_lt_div (sf k hk).1).2 (sf k hk).2) (not_le.1 h1) h2
    have cc : ContinuousOn (fun k => (variableHeating b q h k⁻¹ w1 w w3 v).cop load t) (Icc 0.2 0.4) := by
      unfold VariableTests.cop modulatedCop
      simp only [eql, eqf, eqi]
      have c1 := (continuousOn_const (c := (variableHeating b q h 1 w1 w w3 v).qLow t)).div (cpl t) fun k hk => (sl k hk).1.ne'
      have c2 := (continuousOn_const (c := (variableHeating b q h 1 w1 w w3 v).qInt t)).div cI fun k hk => (si k hk).1.ne'
      have c3 := (continuousOn_const (c := (variableHeating b q h 1 w1 w w3 v).full.q t)).div cp fun k hk => (sf k hk).1.ne'
      unfold lineAt
      by_cases h3 : load t ≤ (variableHeating b q h 1 w1 w w3 v).qInt t
      · simp only [if_pos h3]; exact c1.add ((c2.sub c1).mul continuousOn_const)
      · simp only [if_neg h3]; exact c2.add ((c3.sub c2).mul continuousOn_const)
    refine ContinuousOn.congr (f := fun k => (if t ≤ off then 0 else 1) * (load t / (variableHeating b q h k⁻¹ w1 w w3 v).cop load t) + (load t - (if t ≤ off then 0 else 1) * load t)) ?_ fun k hk => ?_
    · exact (continuousOn_const.mul (continuousOn_const.div cc fun k hk => by linarith [hc k hk])).add continuousOn_const
    · simp only
      rw [run_one (hc k hk)]
  · simp only [if_neg h2]
    refine ContinuousOn.congr (f := fun k => (if t ≤ off then 0 else 1) * lineAt 5 (variableHeating b q h k⁻¹ w1 w w3 v).p4 17 (variableHeating b q h k⁻¹ w1 w w3 v).full.p3 t +
      (load t - (if t ≤ off then 0 else 1) * lineAt 5 (variableHeating b q h 1 w1 w w3 v).q4 17 (variableHeating b q h 1 w1 w w3 v).full.q3 t)) ?_ fun k hk => ?_
    · unfold lineAt
      exact (continuousOn_const.mul (cp4.add ((cp3.sub cp4).mul continuousOn_const))).add continuousOn_const
    · simp only
      rw [run_one ((one_lt_div (sf k hk).1).2 (sf k hk).2)]

/-- The heating season of a region without hours below -8 °F. -/
theorem heating_continuous {cd off : ℝ} {load : ℝ → ℝ} {bins : List (ℝ × ℝ)} (hb : ∀ x ∈ bins, x.1 ∈ (seasonTemperatures : List ℝ) ∧ (-8 ≤ x.1 ∨ x.2 = 0))
    (hp : ∀ k ∈ Icc (0.2 : ℝ) 0.4, let T := variableHeating b q h k⁻¹ w1 w w3 v; CoolTests.total (T.energy cd off load) bins + CoolTests.total (T.resistance off load) bins ≠ 0) :
    ContinuousOn (fun k => (variableHeating b q h k⁻¹ w1 w w3 v).season cd off load bins) (Icc 0.2 0.4) := by
  unfold VariableTests.season seasonRatio
  refine continuousOn_const.div ?_ hp
  simp only [← total_add]
  refine total_continuous (f := fun k t => (variableHeating b q h k⁻¹ w1 w w3 v).energy cd off load t + (variableHeating b q h k⁻¹ w1 w w3 v).resistance off load t) fun x hx => ?_
  obtain ⟨m, h8 | h0⟩ := hb x hx
  · exact (bin_continuous HB m h8).mul continuousOn_const
  · rw [h0]
    simpa only [mul_zero] using continuousOn_const

end

end Resdx.Build
