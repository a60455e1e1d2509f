import Verif.Model.Rep205

/-! # Specification of a performance map: values in row-major order of the axes -/

namespace Resdx.Spec

/-- Row-major position of a multi-index; each entry is an index with the length of its axis, slowest axis first. -/
def rowMajor (ix : List (Nat × Nat)) : Nat := ix.foldl (fun acc q => acc * q.2 + q.1) 0

/-- Number of points of a grid with the given axis lengths. -/
def gridSize (ls : List Nat) : Nat := ls.foldl (· * ·) 1

/-- Axis lengths of a cooling map, slowest first. -/
def axisLengths {K : Type} (A : Rep205.Axes K) : List Nat :=
  [A.outdoorDb.length, A.indoorRh.length, A.indoorDb.length, A.massFlow.length, A.sequence.length, A.pressure.length]

/-- Values that increase strictly from `a` to `b` in equal steps. -/
def EvenlySpaced {K : Type} [Field K] [LinearOrder K] (a b : K) (l : List K) : Prop :=
  l.IsChain (· < ·) ∧ l.head? = some a ∧ l.getLast? = some b ∧
    ∀ (i : Nat) (x y z : K), l[i]? = some x → l[i + 1]? = some y → l[i + 2]? = some z → y - x = z - y

end Resdx.Spec
