import Verif.Lemmas.Util
import Mathlib.Algebra.Order.Ring.Rat

/-! # Properties C01–C04: `util.py` -/

set_option linter.unusedSectionVars false
set_option linter.unusedSimpArgs false

namespace Resdx.Props

open Util Spec

variable {K : Type} [Field K] [LinearOrder K] [IsStrictOrderedRing K]

/-! ## C01 -/

/-- C01: the result respects the bounds whenever some value does (i.e. the bounds do not cross). -/
theorem C01_bracket_in_bounds (lo hi : Option K) (v : K) (h : ∃ w, InBounds lo hi w) :
    InBounds lo hi (bracket v lo hi) := by
  obtain ⟨w, h1, h2⟩ := h
  rcases lo with _ | lo <;> rcases hi with _ | hi <;>
    simp only [bracket, InBounds, reduceCtorEq, Option.some.injEq, forall_eq',
      IsEmpty.forall_iff, implies_true, true_and, and_true] at *
  · split <;> order
  · split <;> order
  · split
    · constructor <;> order
    · split <;> constructor <;> order

example : ∃ w : ℚ, InBounds (some 1) (some 2) w := ⟨1, by simp [InBounds]⟩

/-- C01: the result is the input exactly when the input is within the bounds
(crossed bounds accept nothing). -/
theorem C01_bracket_fixed_iff (lo hi : Option K) (v : K) :
    bracket v lo hi = v ↔ InBounds lo hi v := by
  rcases lo with _ | lo <;> rcases hi with _ | hi <;>
    simp only [bracket, InBounds, reduceCtorEq, Option.some.injEq, forall_eq',
      IsEmpty.forall_iff, implies_true, true_and, and_true] at *
  · split <;> constructor <;> intro _ <;> order
  · split <;> constructor <;> intro _ <;> order
  · split
    · constructor
      · intro _; constructor <;> order
      · rintro ⟨_, _⟩; order
    · split
      · constructor
        · intro _; constructor <;> order
        · rintro ⟨_, _⟩; order
      · constructor
        · intro _; constructor <;> order
        · rintro ⟨_, _⟩; order

/-- C01: with non-crossing bounds the result is the nearest admissible value: below the range it is the lower
bound and above it the upper bound. -/
theorem C01_bracket_outside (lo hi v : K) (h : lo ≤ hi) :
    (v < lo → bracket v (some lo) (some hi) = lo) ∧
    (hi < v → bracket v (some lo) (some hi) = hi) := by
  simp only [bracket]
  constructor
  · intro h1; rw [if_pos h1]
  · intro h1; rw [if_neg (by order), if_pos h1]

example : ((1 : ℚ) ≤ 2) ∧ (0 : ℚ) < 1 ∧ (2 : ℚ) < 3 := by norm_num

/-- C01: clamping twice is clamping once. -/
theorem C01_bracket_idempotent (lo hi : Option K) (v : K) (h : ∃ w, InBounds lo hi w) :
    bracket (bracket v lo hi) lo hi = bracket v lo hi :=
  (C01_bracket_fixed_iff lo hi _).2 (C01_bracket_in_bounds lo hi v h)

/-- C01: clamping is monotone. -/
theorem C01_bracket_mono (lo hi : Option K) (v w : K) (h : ∃ w, InBounds lo hi w) (hvw : v ≤ w) :
    bracket v lo hi ≤ bracket w lo hi := by
  obtain ⟨u, h1, h2⟩ := h
  rcases lo with _ | lo <;> rcases hi with _ | hi <;>
    simp only [bracket, reduceCtorEq, Option.some.injEq, forall_eq',
      IsEmpty.forall_iff, implies_true] at *
  all_goals ((repeat' split) <;> order)

example : bracket (5 : ℚ) (some 1) (some 2) = 2 := by decide +kernel
example : bracket (-5 : ℚ) (some 1) none = 1 := by decide +kernel

/-! ## C02 -/

/-- C02: `limit_check` returns the unchanged value exactly on the in-range values. -/
theorem C02_limitCheck_ok_iff (lo hi : Option K) (v r : K) :
    limitCheck v lo hi = .ok r ↔ r = v ∧ InBounds lo hi v := by
  rcases lo with _ | lo <;> rcases hi with _ | hi <;>
    simp only [limitCheck, InBounds, reduceCtorEq, Option.some.injEq, forall_eq',
      IsEmpty.forall_iff, implies_true, true_and, and_true, Except.ok.injEq]
  · exact eq_comm
  · split
    · simp; intro _; order
    · simp only [Except.ok.injEq]; constructor
      · rintro rfl; exact ⟨rfl, by order⟩
      · rintro ⟨rfl, _⟩; rfl
  · split
    · simp; intro _; order
    · simp only [Except.ok.injEq]; constructor
      · rintro rfl; exact ⟨rfl, by order⟩
      · rintro ⟨rfl, _⟩; rfl
  · split
    · simp only [reduceCtorEq, false_iff, not_and]; intro _ _; order
    · split
      · simp only [reduceCtorEq, false_iff, not_and]; intro _ _; order
      · simp only [Except.ok.injEq]; constructor
        · rintro rfl; exact ⟨rfl, by order, by order⟩
        · rintro ⟨rfl, _⟩; rfl

/-- C02: everything else raises. -/
theorem C02_limitCheck_error_iff (lo hi : Option K) (v : K) :
    limitCheck v lo hi = .error .exception ↔ ¬ InBounds lo hi v := by
  constructor
  · intro h h'
    have := (C02_limitCheck_ok_iff lo hi v v).2 ⟨rfl, h'⟩
    rw [h] at this; cases this
  · intro h
    cases hr : limitCheck v lo hi with
    | ok r => exact absurd ((C02_limitCheck_ok_iff lo hi v r).1 hr).2 h
    | error e =>
      have : e = .exception := by
        rcases lo with _ | lo <;> rcases hi with _ | hi <;> simp only [limitCheck] at hr <;>
          (repeat' split at hr) <;> simp_all
      rw [this]

example : limitCheck (5 : ℚ) (some 1) (some 7) = .ok 5 := by decide +kernel
example : limitCheck (5 : ℚ) (some 1) (some 4) = .error .exception := by decide +kernel

/-! ## C03 -/

/-- C03: on a non-empty list `find_nearest` returns the earliest closest element. -/
theorem C03_findNearest_spec (l : List K) (v : K) (h : l ≠ []) :
    ∃ r, findNearest l v = .ok r ∧ IsEarliestNearest l v r := by
  cases l with
  | nil => exact absurd rfl h
  | cons a t =>
    refine ⟨_, rfl, ?_⟩
    have := findNearestLoop_spec v t [a] 0 (by simp) (by simp) (by simp)
    have e : findNearestLoop v (a :: t) (|a - v|, a) = findNearestLoop v t (|a - v|, a) := by
      simp [findNearestLoop]
    simp only [e]
    simpa using this

/-- C03: the specification determines the result. -/
theorem C03_nearest_unique (l : List K) (v r r' : K) (h : IsEarliestNearest l v r)
    (h' : IsEarliestNearest l v r') : r = r' := by
  obtain ⟨i, hi, e, hm, hf⟩ := h
  obtain ⟨i', hi', e', hm', hf'⟩ := h'
  have h1 : |r - v| ≤ |r' - v| := hm r' (e' ▸ List.getElem_mem hi')
  have h2 : |r' - v| ≤ |r - v| := hm' r (e ▸ List.getElem_mem hi)
  rcases Nat.lt_trichotomy i i' with hlt | heq | hgt
  · have := hf' i hlt; rw [e] at this; order
  · subst heq; rw [← e, ← e']
  · have := hf i' hgt; rw [e'] at this; order

/-- C03: an empty list raises `IndexError`. -/
theorem C03_findNearest_empty (v : K) : findNearest ([] : List K) v = .error .index := rfl

example : ([1, 5, 3] : List ℚ) ≠ [] := by simp
example : findNearest ([1, 5, 3] : List ℚ) 4 = .ok 5 := by decide +kernel

/-! ## C04 -/

/-- C04: `calc_quad` evaluates the quadratic with the first three coefficients. -/
theorem C04_calcQuad (c : List K) (x : K) (h : 3 ≤ c.length) :
    calcQuad c x = .ok (polyEval (c.take 3) x) := by
  match c, h with
  | a :: b :: d :: t, _ =>
    simp only [calcQuad, pyGet, List.getElem?_cons_zero, List.getElem?_cons_succ, bind_ok,
      List.take, polyEval, pure_eq_ok, Except.ok.injEq]
    ring

/-- C04: fewer than three coefficients raise `IndexError`. -/
theorem C04_calcQuad_short (c : List K) (x : K) (h : c.length < 3) :
    calcQuad c x = .error .index := by
  match c, h with
  | [], _ => rfl
  | [_], _ => rfl
  | [_, _], _ => rfl

/-- C04: `calc_biquad` is the full biquadratic: pure polynomials in each variable plus the cross term. -/
theorem C04_calcBiquad (c0 c1 c2 c3 c4 c5 x y : K) (t : List K) :
    calcBiquad (c0 :: c1 :: c2 :: c3 :: c4 :: c5 :: t) x y =
      .ok (polyEval [c0, c1, c2] x + polyEval [0, c3, c4] y + c5 * (x * y)) := by
  simp only [calcBiquad, pyGet, List.getElem?_cons_zero, List.getElem?_cons_succ, bind_ok,
      polyEval, pure_eq_ok, Except.ok.injEq]
  ring

/-- C04: fewer than six coefficients raise `IndexError`. -/
theorem C04_calcBiquad_short (c : List K) (x y : K) (h : c.length < 6) :
    calcBiquad c x y = .error .index := by
  match c, h with
  | [], _ => rfl
  | [_], _ => rfl
  | [_, _], _ => rfl
  | [_, _, _], _ => rfl
  | [_, _, _, _], _ => rfl
  | [_, _, _, _, _], _ => rfl

/-- C04: the curve-fit polynomials. -/
theorem C04_polynomials (x c0 c1 c2 c3 c4 : K) :
    linear x c0 c1 = polyEval [c0, c1] x ∧
    quadratic x c0 c1 c2 = polyEval [c0, c1, c2] x ∧
    cubic x c0 c1 c2 c3 = polyEval [c0, c1, c2, c3] x ∧
    quartic x c0 c1 c2 c3 c4 = polyEval [c0, c1, c2, c3, c4] x := by
  simp only [linear, quadratic, cubic, quartic, polyEval]
  refine ⟨?_, ?_, ?_, ?_⟩ <;> ring

/-- C04: for a positive base the exponential fit passes through `c0 + 1` at zero and turns sums of abscissae into
products of the offsets. -/
theorem C04_exponential (c0 c1 c2 x y : ℝ) (h : 0 < c1) :
    ∃ fx fy fxy, exponential x c0 c1 c2 = .ok fx ∧ exponential y c0 c1 c2 = .ok fy ∧
      exponential (x + y) c0 c1 c2 = .ok fxy ∧ exponential 0 c0 c1 c2 = .ok (c0 + 1) ∧
      fxy - c0 = (fx - c0) * (fy - c0) ∧
      (c2 ≠ 0 → c2 * x = 1 → fx - c0 = c1) := by
  refine ⟨c0 + c1 ^ (c2 * x), c0 + c1 ^ (c2 * y), c0 + c1 ^ (c2 * (x + y)), ?_, ?_, ?_, ?_, ?_, ?_⟩
  · simp [exponential, ppow_pos h, bind_ok, pure_eq_ok]
  · simp [exponential, ppow_pos h, bind_ok, pure_eq_ok]
  · simp [exponential, ppow_pos h, bind_ok, pure_eq_ok]
  · simp [exponential, ppow_pos h, bind_ok, pure_eq_ok]
  · rw [mul_add, Real.rpow_add h]; ring
  · intro _ hx; rw [hx]; simp

example : (0 : ℝ) < 2 := by norm_num

/-- C04: the coefficient of determination never exceeds one and is one exactly for a perfect fit. -/
theorem C04_rSquared_le_one (s r : List K) (v : K) (h : calculateRSquared s r = .ok v) :
    v ≤ 1 ∧ (v = 1 ↔ s = r) := by
  simp only [calculateRSquared] at h
  by_cases hl : s.length = r.length
  · set ssTot := (s.map (fun x => (x - s.sum / (s.length : K)) ^ 2)).sum with hT
    set ssRes := ((List.zipWith (· - ·) s r).map (fun x => x ^ 2)).sum with hR
    by_cases h0 : ssTot = 0
    · simp [hl, h0, throw_eq_error, bind_error, pure_eq_ok, bind_ok] at h
    · simp [hl, h0, pure_eq_ok, bind_ok] at h
      have hT0 : 0 < ssTot := by
        refine lt_of_le_of_ne (List.sum_nonneg ?_) (Ne.symm h0)
        simp only [List.mem_map]; rintro x ⟨a, _, rfl⟩; exact sq_nonneg _
      have hR0 : 0 ≤ ssRes := by
        refine List.sum_nonneg ?_
        simp only [List.mem_map]; rintro x ⟨a, _, rfl⟩; exact sq_nonneg _
      constructor
      · rw [← h]
        have := div_nonneg hR0 hT0.le
        linarith
      · rw [← h]
        rw [← zipWith_sub_all_zero hl, ← sum_sq_eq_zero_iff, ← hR]
        constructor
        · intro h1
          have : ssRes / ssTot = 0 := by linarith
          rcases div_eq_zero_iff.1 this with h2 | h2
          · exact h2
          · exact absurd h2 h0
        · intro h1; rw [h1]; simp
  · simp [hl, throw_eq_error, bind_error] at h

/-- C04: predicting the mean everywhere scores zero. -/
theorem C04_rSquared_mean (s : List K) (h : ∃ x ∈ s, x ≠ s.sum / (s.length : K)) :
    calculateRSquared s (List.replicate s.length (s.sum / (s.length : K))) = .ok 0 := by
  have e : ∀ (t : List K) (m : K), List.zipWith (· - ·) t (List.replicate t.length m)
      = t.map (fun x => x - m) := by
    intro t m
    induction t with
    | nil => rfl
    | cons a u ih => simp [List.replicate_succ, ih]
  have hne : (s.map (fun x => (x - s.sum / (s.length : K)) ^ 2)).sum ≠ 0 := by
    intro h0
    have := (sum_sq_eq_zero_iff (s.map (fun x => x - s.sum / (s.length : K)))).1
      (by simpa [List.map_map, Function.comp_def] using h0)
    obtain ⟨x, hx, hne⟩ := h
    have := this (x - s.sum / (s.length : K)) (List.mem_map.2 ⟨x, hx, rfl⟩)
    exact hne (sub_eq_zero.1 this)
  simp [calculateRSquared, e, hne, List.map_map, Function.comp_def, pure_eq_ok, bind_ok]

/-- C04: on series of equal length the score is undefined exactly when every source value equals the mean. -/
theorem C04_rSquared_undefined_iff (s r : List K) (hl : s.length = r.length) :
    (¬ ∃ v, calculateRSquared s r = .ok v) ↔ ∀ x ∈ s, x = s.sum / (s.length : K) := by
  have h0 : (s.map (fun x => (x - s.sum / (s.length : K)) ^ 2)).sum = 0 ↔
      ∀ x ∈ s, x = s.sum / (s.length : K) := by
    have := sum_sq_eq_zero_iff (s.map (fun x => x - s.sum / (s.length : K)))
    rw [List.map_map] at this
    simp only [Function.comp_def] at this
    rw [this]
    simp [sub_eq_zero]
  rw [← h0]
  by_cases h : (s.map (fun x => (x - s.sum / (s.length : K)) ^ 2)).sum = 0
  · simp only [h, iff_true, not_exists]
    intro v
    simp only [calculateRSquared]
    rw [if_neg (by simpa using hl), if_pos h]
    simp [throw_eq_error, pure_eq_ok, bind_ok, bind_error]
  · simp only [h, iff_false, not_not]
    have e : calculateRSquared s r = .ok (1 - ((List.zipWith (· - ·) s r).map (fun x => x ^ 2)).sum /
        (s.map (fun x => (x - s.sum / (s.length : K)) ^ 2)).sum) := by
      simp only [calculateRSquared]
      rw [if_neg (by simpa using hl), if_neg h]
      rfl
    exact ⟨_, e⟩

example : calculateRSquared ([1, 2, 3] : List ℚ) [1, 2, 4] = .ok (1 / 2) := by decide +kernel
example : ∃ x ∈ ([1, 2, 3] : List ℚ), x ≠ ([1, 2, 3] : List ℚ).sum / (([1, 2, 3] : List ℚ).length : ℚ) :=
  ⟨1, by simp, by norm_num⟩

end Resdx.Props
