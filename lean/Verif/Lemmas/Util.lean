import Verif.Model.Util
import Verif.Spec.Util

/-! # Helper lemmas for `util.py` -/

set_option linter.unusedSectionVars false

namespace Resdx.Util

variable {K : Type} [Field K] [LinearOrder K] [IsStrictOrderedRing K]


theorem findNearestLoop_spec (v : K) (l pre : List K) (i : Nat) (hi : i < pre.length)
    (hmin : ∀ x ∈ pre, |pre[i] - v| ≤ |x - v|)
    (hfirst : ∀ j, (hj : j < i) → |pre[i] - v| < |pre[j] - v|) :
    Spec.IsEarliestNearest (pre ++ l) v (findNearestLoop v l (|pre[i] - v|, pre[i])).2 := by
  induction l generalizing pre i with
  | nil =>
    refine ⟨i, by simpa using hi, by simp [findNearestLoop], ?_, ?_⟩
    · simpa [findNearestLoop] using hmin
    · intro j hj
      simpa [findNearestLoop] using hfirst j hj
  | cons o rest ih =>
    have happ : pre ++ o :: rest = (pre ++ [o]) ++ rest := by simp
    rw [happ]
    simp only [findNearestLoop]
    by_cases h : |o - v| < |pre[i] - v|
    · rw [if_pos h]
      have := ih (pre ++ [o]) pre.length (by simp)
        (by
          intro x hx
          rcases List.mem_append.1 hx with hx | hx
          · simpa using (h.trans_le (hmin x hx)).le
          · simp at hx; simp [hx])
        (by
          intro j hj
          have := h.trans_le (hmin pre[j] (List.getElem_mem hj))
          simpa [List.getElem_append_left hj] using this)
      simpa using this
    · rw [if_neg h]
      have e : (pre ++ [o])[i]'(by simp; omega) = pre[i] := List.getElem_append_left hi
      have := ih (pre ++ [o]) i (by simp; omega)
        (by
          intro x hx
          rw [e]
          rcases List.mem_append.1 hx with hx | hx
          · exact hmin x hx
          · simp at hx; subst hx; exact le_of_not_gt h)
        (by
          intro j hj
          have hj' : j < pre.length := by omega
          rw [e]
          simpa [List.getElem_append_left hj'] using hfirst j hj)
      rw [e] at this
      exact this

theorem sum_sq_eq_zero_iff (l : List K) : (l.map (fun r => r ^ 2)).sum = 0 ↔ ∀ x ∈ l, x = 0 := by
  induction l with
  | nil => simp
  | cons a t ih =>
    have h1 : 0 ≤ a ^ 2 := sq_nonneg a
    have h2 : 0 ≤ (t.map (fun r => r ^ 2)).sum :=
      List.sum_nonneg (by simp; intro x _; exact sq_nonneg x)
    simp only [List.map_cons, List.sum_cons, List.mem_cons, forall_eq_or_imp]
    rw [← ih]
    constructor
    · intro h
      constructor
      · have : a ^ 2 = 0 := by linarith
        simpa using this
      · linarith
    · rintro ⟨h, h'⟩
      rw [h, h']; simp

theorem zipWith_sub_all_zero {s r : List K} (h : s.length = r.length) :
    (∀ x ∈ List.zipWith (· - ·) s r, x = 0) ↔ s = r := by
  induction s generalizing r with
  | nil => cases r <;> simp_all
  | cons a t ih =>
    cases r with
    | nil => simp at h
    | cons b u =>
      simp only [List.length_cons, add_left_inj] at h
      simp [ih h, sub_eq_zero]

end Resdx.Util
