import Verif.Model.Formulas
import Verif.Spec.Formulas
import Verif.Lemmas.Util
import Mathlib.Tactic.Linarith
import Mathlib.Tactic.Positivity
import Mathlib.Tactic.Ring
import Mathlib.Analysis.SpecialFunctions.Pow.Real

/-!
# C117: the text of a fitted curve denotes that curve
-/

set_option linter.unusedSectionVars false
set_option linter.unusedSimpArgs false

namespace Resdx.Props

open Resdx.Spec Resdx.Formulas Resdx.Util

variable {K : Type} [Field K] [LinearOrder K] [IsStrictOrderedRing K]

/-! ### Cutting texts -/

theorem pieces_plain {s : Char} {a : List Char} (h : s ∉ a) : pieces s a = [a] := by
  induction a with
  | nil => rfl
  | cons c cs ih =>
    have h1 : c ≠ s := fun e => h (by simp [e])
    have h2 : s ∉ cs := fun e => h (by simp [e])
    simp [pieces, h1, ih h2]

theorem pieces_cut {s : Char} {a : List Char} (h : s ∉ a) (b : List Char) : pieces s (a ++ s :: b) = a :: pieces s b := by
  induction a with
  | nil => simp [pieces]
  | cons c cs ih =>
    have h1 : c ≠ s := fun e => h (by simp [e])
    have h2 : s ∉ cs := fun e => h (by simp [e])
    simp [pieces, h1, ih h2]

/-! ### Terms -/

section Terms

variable {R : Reader K} {x : List Char} {v : K}

theorem plain_not {t : List Char} (h : Plain t) : ' ' ∉ t ∧ '*' ∉ t ∧ '^' ∉ t ∧ '(' ∉ t ∧ ')' ∉ t :=
  ⟨fun e => (h _ e).1 rfl, fun e => (h _ e).2.1 rfl, fun e => (h _ e).2.2.1 rfl, fun e => (h _ e).2.2.2.1 rfl, fun e => (h _ e).2.2.2.2 rfl⟩

theorem term_number {t : List Char} (h : Plain t) : readTerm R t = R.number t := by
  obtain ⟨-, h2, -, h4, -⟩ := plain_not h
  simp [readTerm, readProduct, pieces_plain h2, pieces_plain h4]

theorem product_variable {t : List Char} (h : Plain t) (hx : Plain x) (hv : R.variable_ x = some v) :
    readProduct R (t ++ '*' :: x) = (R.number t).map (· * v) := by
  obtain ⟨-, h2, -, -, -⟩ := plain_not h
  obtain ⟨-, k2, k3, -, -⟩ := plain_not hx
  simp only [readProduct, pieces_cut h2, pieces_plain k2, readPower, pieces_plain k3, hv]
  cases R.number t <;> rfl

theorem term_variable {t : List Char} (h : Plain t) (hx : Plain x) (hv : R.variable_ x = some v) :
    readTerm R (t ++ '*' :: x) = (R.number t).map (· * v) := by
  have h4 : '(' ∉ t ++ '*' :: x := by
    simp [(plain_not h).2.2.2.1, (plain_not hx).2.2.2.1]
  simp only [readTerm, pieces_plain h4]
  exact product_variable h hx hv

theorem term_power {t k : List Char} {n : ℕ} (h : Plain t) (hx : Plain x) (hv : R.variable_ x = some v) (hk : wholeExponent k = some n) :
    readTerm R (t ++ '*' :: (x ++ '^' :: k)) = (R.number t).map (· * v ^ n) := by
  have hk' : Plain k := by
    unfold wholeExponent at hk
    split at hk <;> first | (intro c hc; simp at hc; subst hc; decide) | simp at hk
  have h4 : '(' ∉ t ++ '*' :: (x ++ '^' :: k) := by
    simp [(plain_not h).2.2.2.1, (plain_not hx).2.2.2.1, (plain_not hk').2.2.2.1]
  have h2 : '*' ∉ x ++ '^' :: k := by
    simp [(plain_not hx).2.1, (plain_not hk').2.1]
  simp only [readTerm, pieces_plain h4, readProduct, pieces_cut (plain_not h).2.1, pieces_plain h2, readPower,
    pieces_cut (plain_not hx).2.2.1, pieces_plain (plain_not hk').2.2.1, hv, hk]
  cases R.number t <;> rfl

theorem term_exponential {b t : List Char} (hb : Plain b) (h : Plain t) (hx : Plain x) (hv : R.variable_ x = some v) :
    readTerm R (b ++ '^' :: '(' :: (t ++ '*' :: (x ++ [')']))) = (R.number b).bind fun b => (R.number t).bind fun e => R.power b (e * v) := by
  have h1 : b ++ '^' :: '(' :: (t ++ '*' :: (x ++ [')'])) = (b ++ ['^']) ++ '(' :: (t ++ '*' :: (x ++ [')'])) := by simp
  have h2 : '(' ∉ b ++ ['^'] := by simp [(plain_not hb).2.2.2.1]
  have h3 : '(' ∉ t ++ '*' :: (x ++ [')']) := by simp [(plain_not h).2.2.2.1, (plain_not hx).2.2.2.1]
  have h5 : t ++ '*' :: (x ++ [')']) = (t ++ '*' :: x) ++ [')'] := by simp
  rw [h1]
  simp only [readTerm, pieces_cut h2, pieces_plain h3]
  rw [h5]
  simp only [List.getLast?_append, List.getLast?_singleton, Option.some_or, List.dropLast_concat, product_variable h hx hv]
  cases R.number b <;> cases R.number t <;> rfl

theorem sum_term {t : List Char} {y : K} (h : readTerm R t = some y) (hs : ' ' ∉ t) : readFormula R t = some y := by
  simp [readFormula, pieces_plain hs, readSum, h]

theorem sum_cons {t rest : List Char} {y z : K} (h : readTerm R t = some y) (hs : ' ' ∉ t) (hr : readFormula R rest = some z) :
    readFormula R (t ++ ' ' :: '+' :: ' ' :: rest) = some (y + z) := by
  have h1 : pieces ' ' (t ++ ' ' :: '+' :: ' ' :: rest) = t :: ['+'] :: pieces ' ' rest := by
    rw [pieces_cut hs]
    have := pieces_cut (s := ' ') (a := ['+']) (by decide) rest
    simp only [List.cons_append, List.nil_append] at this
    rw [this]
  unfold readFormula at hr ⊢
  rw [h1]
  cases hp : pieces ' ' rest with
  | nil => rw [hp] at hr; simp [readSum] at hr
  | cons p ps => rw [hp] at hr; simp [readSum, h, hr]

end Terms

/-! ### The curves -/

section Curves

variable {fmt : K → List Char} {R : Reader K} {shown : K → K} {x : List Char} {v : K}

theorem coefficient (F : FourDigits fmt R shown) (c : K) : readTerm R (fmt c) = some (shown c) := by rw [term_number (F.plain c), F.reads]

theorem first_power (F : FourDigits fmt R shown) (hx : Plain x) (hv : R.variable_ x = some v) (c : K) :
    readTerm R (fmt c ++ '*' :: x) = some (shown c * v) := by rw [term_variable (F.plain c) hx hv, F.reads]; rfl

theorem higher_power (F : FourDigits fmt R shown) (hx : Plain x) (hv : R.variable_ x = some v) (c : K) {k : List Char} {n : ℕ}
    (hk : wholeExponent k = some n) : readTerm R (fmt c ++ '*' :: (x ++ '^' :: k)) = some (shown c * v ^ n) := by
  rw [term_power (F.plain c) hx hv hk, F.reads]; rfl

theorem no_space (F : FourDigits fmt R shown) (hx : Plain x) (c : K) :
    ' ' ∉ fmt c ∧ ' ' ∉ fmt c ++ '*' :: x ∧ (∀ d, ' ' ≠ d → ' ' ∉ fmt c ++ '*' :: (x ++ '^' :: [d])) := by
  refine ⟨(plain_not (F.plain c)).1, ?_, fun d hd => ?_⟩
  · simp [(plain_not (F.plain c)).1, (plain_not hx).1]
  · simp [(plain_not (F.plain c)).1, (plain_not hx).1, hd]

theorem read_linear (F : FourDigits fmt R shown) (hx : Plain x) (hv : R.variable_ x = some v) (c0 c1 : K) :
    readFormula R (linearString fmt x c0 c1) = some (linear v (shown c0) (shown c1)) := by
  have h := sum_cons (coefficient F c0) (no_space F hx c0).1 (sum_term (first_power F hx hv c1) (no_space F hx c1).2.1)
  rw [linear, ← h]; simp [linearString]

theorem read_quadratic (F : FourDigits fmt R shown) (hx : Plain x) (hv : R.variable_ x = some v) (c0 c1 c2 : K) :
    readFormula R (quadraticString fmt x c0 c1 c2) = some (quadratic v (shown c0) (shown c1) (shown c2)) := by
  have h := sum_cons (coefficient F c0) (no_space F hx c0).1 (sum_cons (first_power F hx hv c1) (no_space F hx c1).2.1
    (sum_term (higher_power F hx hv c2 (k := ['2']) rfl) ((no_space F hx c2).2.2 _ (by decide))))
  have e : quadratic v (shown c0) (shown c1) (shown c2) = shown c0 + (shown c1 * v + shown c2 * v ^ 2) := by unfold quadratic; ring
  rw [e, ← h]; simp [quadraticString]

theorem read_cubic (F : FourDigits fmt R shown) (hx : Plain x) (hv : R.variable_ x = some v) (c0 c1 c2 c3 : K) :
    readFormula R (cubicString fmt x c0 c1 c2 c3) = some (cubic v (shown c0) (shown c1) (shown c2) (shown c3)) := by
  have h := sum_cons (coefficient F c0) (no_space F hx c0).1 (sum_cons (first_power F hx hv c1) (no_space F hx c1).2.1
    (sum_cons (higher_power F hx hv c2 (k := ['2']) rfl) ((no_space F hx c2).2.2 _ (by decide))
    (sum_term (higher_power F hx hv c3 (k := ['3']) rfl) ((no_space F hx c3).2.2 _ (by decide)))))
  have e : cubic v (shown c0) (shown c1) (shown c2) (shown c3) = shown c0 + (shown c1 * v + (shown c2 * v ^ 2 + shown c3 * v ^ 3)) := by
    unfold cubic; ring
  rw [e, ← h]; simp [cubicString]

theorem read_quartic (F : FourDigits fmt R shown) (hx : Plain x) (hv : R.variable_ x = some v) (c0 c1 c2 c3 c4 : K) :
    readFormula R (quarticString fmt x c0 c1 c2 c3 c4) = some (quartic v (shown c0) (shown c1) (shown c2) (shown c3) (shown c4)) := by
  have h4 := sum_term (higher_power F hx hv c4 (k := ['4']) rfl) ((no_space F hx c4).2.2 _ (by decide))
  have h3 := sum_cons (higher_power F hx hv c3 (k := ['3']) rfl) ((no_space F hx c3).2.2 _ (by decide)) h4
  have h2 := sum_cons (higher_power F hx hv c2 (k := ['2']) rfl) ((no_space F hx c2).2.2 _ (by decide)) h3
  have h1 := sum_cons (first_power F hx hv c1) (no_space F hx c1).2.1 h2
  have h0 := sum_cons (coefficient F c0) (no_space F hx c0).1 h1
  have e : quartic v (shown c0) (shown c1) (shown c2) (shown c3) (shown c4) =
      shown c0 + (shown c1 * v + (shown c2 * v ^ 2 + (shown c3 * v ^ 3 + shown c4 * v ^ 4))) := by
    simp only [quartic]; ring
  have t : quarticString fmt x c0 c1 c2 c3 c4 = fmt c0 ++ ' ' :: '+' :: ' ' :: ((fmt c1 ++ '*' :: x) ++ ' ' :: '+' :: ' ' ::
      ((fmt c2 ++ '*' :: (x ++ '^' :: ['2'])) ++ ' ' :: '+' :: ' ' :: ((fmt c3 ++ '*' :: (x ++ '^' :: ['3'])) ++ ' ' :: '+' :: ' ' ::
      (fmt c4 ++ '*' :: (x ++ '^' :: ['4']))))) := by
    delta quarticString
    generalize fmt c0 = a0, fmt c1 = a1, fmt c2 = a2, fmt c3 = a3, fmt c4 = a4
    simp only [List.append_assoc, List.cons_append, List.nil_append]
  rw [e, t]; exact h0

/-- One term: the error of the coefficient times the power. -/
theorem term_error (F : FourDigits fmt R shown) (c w : K) : |shown c * w - c * w| ≤ 1 / 2000 * (|c| * |w|) := by
  have h1 := F.close c
  have h2 := abs_nonneg w
  have h3 : |shown c * w - c * w| = |shown c - c| * |w| := by rw [← sub_mul, abs_mul]
  rw [h3, ← mul_assoc]
  exact mul_le_mul_of_nonneg_right h1 h2

/-- C117: read as a formula, the text of a linear, quadratic, cubic or quartic curve has a value for every value of the variable, within 0.05 % of the sizes of the terms of
the value of the curve. -/
theorem C117_polynomial (F : FourDigits fmt R shown) (hx : Plain x) (hv : R.variable_ x = some v) (c0 c1 c2 c3 c4 : K) :
    (∃ y, readFormula R (linearString fmt x c0 c1) = some y ∧ |y - linear v c0 c1| ≤ 1 / 2000 * (|c0| + |c1| * |v|)) ∧
    (∃ y, readFormula R (quadraticString fmt x c0 c1 c2) = some y ∧ |y - quadratic v c0 c1 c2| ≤ 1 / 2000 * (|c0| + |c1| * |v| + |c2| * |v| ^ 2)) ∧
    (∃ y, readFormula R (cubicString fmt x c0 c1 c2 c3) = some y ∧
      |y - cubic v c0 c1 c2 c3| ≤ 1 / 2000 * (|c0| + |c1| * |v| + |c2| * |v| ^ 2 + |c3| * |v| ^ 3)) ∧
    ∃ y, readFormula R (quarticString fmt x c0 c1 c2 c3 c4) = some y ∧
      |y - quartic v c0 c1 c2 c3 c4| ≤ 1 / 2000 * (|c0| + |c1| * |v| + |c2| * |v| ^ 2 + |c3| * |v| ^ 3 + |c4| * |v| ^ 4) := by
  have e0 := abs_le.mp (F.close c0)
  have e1 := abs_le.mp (term_error F c1 v)
  have e2 := abs_le.mp (term_error F c2 (v ^ 2))
  have e3 := abs_le.mp (term_error F c3 (v ^ 3))
  have e4 := abs_le.mp (term_error F c4 (v ^ 4))
  rw [abs_pow] at e2 e3 e4
  refine ⟨⟨_, read_linear F hx hv c0 c1, ?_⟩, ⟨_, read_quadratic F hx hv c0 c1 c2, ?_⟩, ⟨_, read_cubic F hx hv c0 c1 c2 c3, ?_⟩,
    ⟨_, read_quartic F hx hv c0 c1 c2 c3 c4, ?_⟩⟩
  · simp only [linear, abs_le]; constructor <;> linarith [e0.1, e0.2, e1.1, e1.2]
  · have h (a b c : K) : quadratic v a b c = a + b * v + c * v ^ 2 := by unfold quadratic; ring
    simp only [h, abs_le]; constructor <;> linarith [e0.1, e0.2, e1.1, e1.2, e2.1, e2.2]
  · have h (a b c d : K) : cubic v a b c d = a + b * v + c * v ^ 2 + d * v ^ 3 := by unfold cubic; ring
    simp only [h, abs_le]; constructor <;> linarith [e0.1, e0.2, e1.1, e1.2, e2.1, e2.2, e3.1, e3.2]
  · have h (a b c d e : K) : quartic v a b c d e = a + b * v + c * v ^ 2 + d * v ^ 3 + e * v ^ 4 := by simp only [quartic]; ring
    simp only [h, abs_le]; constructor <;> linarith [e0.1, e0.2, e1.1, e1.2, e2.1, e2.2, e3.1, e3.2, e4.1, e4.2]

end Curves

/-- C117: read as a formula, the text of an exponential curve is the exponential curve with the coefficients as shown, wherever that curve has a value. -/
theorem C117_exponential {fmt : ℝ → List Char} {R : Reader ℝ} {shown : ℝ → ℝ} {x : List Char} {v : ℝ} (F : FourDigits fmt R shown) (hx : Plain x)
    (hv : R.variable_ x = some v) (hp : ∀ b e, 0 < b → R.power b e = some (b ^ e)) (c0 c1 c2 : ℝ) (h1 : 0 < c1) :
    ∃ y, readFormula R (exponentialString fmt x c0 c1 c2) = some y ∧ exponential v (shown c0) (shown c1) (shown c2) = .ok y := by
  have hpos : 0 < shown c1 := by
    have := abs_le.mp (F.close c1)
    rw [abs_of_pos h1] at this
    linarith [this.1]
  have ht : readTerm R (fmt c1 ++ '^' :: '(' :: (fmt c2 ++ '*' :: (x ++ [')']))) = some (shown c1 ^ (shown c2 * v)) := by
    rw [term_exponential (F.plain c1) (F.plain c2) hx hv, F.reads, F.reads]
    simp [hp _ _ hpos]
  have hs : ' ' ∉ fmt c1 ++ '^' :: '(' :: (fmt c2 ++ '*' :: (x ++ [')'])) := by
    simp [(plain_not (F.plain c1)).1, (plain_not (F.plain c2)).1, (plain_not hx).1]
  have h := sum_cons (coefficient F c0) (plain_not (F.plain c0)).1 (sum_term ht hs)
  refine ⟨_, ?_, by simp [exponential, ppow_pos hpos, bind_ok, pure_eq_ok]; rfl⟩
  rw [← h]; simp [exponentialString]

/-! ### A format that meets the requirements -/

/-- A plain format: sign, then numerator and denominator in strokes. -/
def strokes (q : ℚ) : List Char :=
  (if q < 0 then ['-'] else []) ++ List.replicate q.num.natAbs '1' ++ '/' :: List.replicate q.den '1'

/-- Its reader. -/
def strokeNumber (t : List Char) : Option ℚ :=
  let s : ℚ := if '-' ∈ t then -1 else 1
  match pieces '/' (t.filter (· ≠ '-')) with
  | [a, b] => some (s * a.length / b.length)
  | _ => none

theorem strokes_read (q : ℚ) : strokeNumber (strokes q) = some q := by
  have hf : (strokes q).filter (· ≠ '-') = List.replicate q.num.natAbs '1' ++ '/' :: List.replicate q.den '1' := by
    unfold strokes
    have h1 (n : ℕ) : (List.replicate n '1').filter (fun c => decide (c ≠ '-')) = List.replicate n '1' := by
      rw [List.filter_eq_self]; intro c hc; rw [List.eq_of_mem_replicate hc]; decide
    split <;> simp only [List.filter_append, List.filter_cons, h1, List.filter_nil] <;> rfl
  have hp : pieces '/' (List.replicate q.num.natAbs '1' ++ '/' :: List.replicate q.den '1') =
      [List.replicate q.num.natAbs '1', List.replicate q.den '1'] := by
    rw [pieces_cut (fun h => by have := List.eq_of_mem_replicate h; revert this; decide),
      pieces_plain (fun h => by have := List.eq_of_mem_replicate h; revert this; decide)]
  have hs : ('-' ∈ strokes q) ↔ q < 0 := by
    unfold strokes
    split <;> rename_i h
    · simp [h]
    · simp [h, List.mem_replicate]
  simp only [strokeNumber, hf, hp, hs, List.length_replicate]
  congr 1
  have hd := Rat.num_div_den q
  split <;> rename_i h
  · have h' : (q.num.natAbs : ℚ) = -(q.num : ℚ) := by
      have : q.num < 0 := Rat.num_neg.mpr h
      have e : ((q.num.natAbs : ℤ)) = -q.num := by omega
      rw [← Int.cast_natCast, e, Int.cast_neg]
    rw [h']; rw [neg_one_mul, neg_neg]; exact hd
  · have h' : (q.num.natAbs : ℚ) = (q.num : ℚ) := by
      have : 0 ≤ q.num := Rat.num_nonneg.mpr (not_lt.mp h)
      have e : ((q.num.natAbs : ℤ)) = q.num := by omega
      rw [← Int.cast_natCast, e]
    rw [h', one_mul]; exact hd

/-- Someone who reads strokes and the variable `T`. -/
def strokeReader (v : ℚ) : Reader ℚ := ⟨strokeNumber, fun t => if t = ['T'] then some v else none, fun _ _ => none⟩

theorem strokes_format (v : ℚ) : FourDigits strokes (strokeReader v) id := by
  refine ⟨fun q c hc => ?_, strokes_read, fun q => by simp⟩
  have : c = '-' ∨ c = '1' ∨ c = '/' := by
    unfold strokes at hc
    split at hc <;> simp [List.mem_replicate] at hc <;> tauto
  rcases this with h | h | h <;> subst h <;> decide

example : ∃ y, readFormula (strokeReader 70) (quadraticString strokes ['T'] (1/2) (-3) (2/5)) = some y ∧
    |y - quadratic 70 (1/2) (-3) (2/5)| ≤ 1 / 2000 * (|(1/2 : ℚ)| + |(-3 : ℚ)| * |(70 : ℚ)| + |(2/5 : ℚ)| * |(70 : ℚ)| ^ 2) :=
  (C117_polynomial (strokes_format 70) (by unfold Plain; decide) (by rfl) (1/2) (-3) (2/5) 0 0).2.1

example : readFormula (strokeReader 70) (quadraticString strokes ['T'] (1/2) (-3) (2/5)) = some (1/2 - 3 * 70 + 2/5 * 70 ^ 2) := by decide +kernel

/-- Every real number is within 0.05 % of a rational number. -/
theorem near_rational (c : ℝ) : ∃ q : ℚ, |(q : ℝ) - c| ≤ 1 / 2000 * |c| := by
  by_cases h : c = 0
  · exact ⟨0, by simp [h]⟩
  · have hp : 0 < |c| := abs_pos.mpr h
    obtain ⟨q, h1, h2⟩ := exists_rat_btwn (show c - 1 / 2000 * |c| < c + 1 / 2000 * |c| by linarith)
    exact ⟨q, abs_le.mpr ⟨by linarith, by linarith⟩⟩

/-- A format for real numbers, and its reader. -/
noncomputable def realStrokes (c : ℝ) : List Char := strokes (near_rational c).choose

/-- Someone who reads strokes as real numbers, the variable `T` and powers. -/
noncomputable def realReader (v : ℝ) : Reader ℝ :=
  ⟨fun t => (strokeNumber t).map (fun q => (q : ℝ)), fun t => if t = ['T'] then some v else none, fun b e => if 0 < b then some (b ^ e) else none⟩

theorem realStrokes_format (v : ℝ) : FourDigits realStrokes (realReader v) (fun c => ((near_rational c).choose : ℝ)) :=
  ⟨fun c => (strokes_format 0).plain _, fun c => by simp [realReader, realStrokes, strokes_read], fun c => (near_rational c).choose_spec⟩

example : ∃ y, readFormula (realReader 70) (exponentialString realStrokes ['T'] 1 2 (1/100)) = some y ∧
    exponential 70 ((near_rational 1).choose : ℝ) ((near_rational 2).choose : ℝ) ((near_rational (1/100)).choose : ℝ) = .ok y :=
  C117_exponential (realStrokes_format 70) (by unfold Plain; decide) (by simp [realReader]) (fun b e h => by simp [realReader, h]) 1 2 (1/100) (by norm_num)

end Resdx.Props
