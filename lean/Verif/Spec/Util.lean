import Mathlib.Algebra.Order.Field.Basic

/-! # Specifications for `util.py` -/

namespace Resdx.Spec

variable {K : Type} [Field K] [LinearOrder K]

/-- A value satisfies optional bounds. -/
def InBounds (lo hi : Option K) (v : K) : Prop :=
  (∀ m, lo = some m → m ≤ v) ∧ (∀ m, hi = some m → v ≤ m)

/-- `r` is the earliest element of `l` closest to `v`. -/
def IsEarliestNearest (l : List K) (v r : K) : Prop :=
  ∃ i, ∃ h : i < l.length, l[i] = r ∧
    (∀ x ∈ l, |r - v| ≤ |x - v|) ∧
    (∀ j, (hj : j < i) → |r - v| < |l[j] - v|)

/-- Horner evaluation of a polynomial given by its coefficients, constant term first. -/
def polyEval : List K → K → K
  | [], _ => 0
  | c :: cs, x => c + x * polyEval cs x

end Resdx.Spec
