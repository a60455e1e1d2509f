import Verif.Spec.BaseModel

/-! # Specification vocabulary for COP arguments of units made from lists of capacities (C110) -/

namespace Resdx.Spec

open BaseModel

variable {K : Type} [Field K] [LinearOrder K]

/-- The COP an argument gives to speed `i` of `n`: a list one per speed; a number to the first speed, and with two speeds a larger one to the second, of which it is 91 % in cooling and 87 % in heating. -/
def CopSupplied (heating : Bool) (input : NumArg K) (n i : Nat) (x : K) : Prop :=
  match input with
  | .list l => l[i]? = some x
  | .num y => (i = 0 ∧ x = y) ∨ (n = 2 ∧ i = 1 ∧ x * (if heating then 87 / 100 else 91 / 100) = y)

/-- No COP has been set yet. -/
def NoCops (s : Rated K) : Prop := ∀ i < s.n, s.grossCop[i]? = some none ∧ s.netCop[i]? = some none

/-- What the COP arguments of a mode leave: a gross COP is kept and everything is consistent with it; otherwise a list of net COPs likewise, and a single net COP at the first speed (and, through the gross COPs, at the
second of two). -/
structure CopsSet (heating : Bool) (netArg grossArg : Option (NumArg K)) (s : Rated K) : Prop where
  grossGiven : ∀ g : NumArg K, grossArg = some g → RatingsConsistent s ∧ ∀ (i : Nat) (C : K), CopSupplied heating g s.n i C → s.grossCop[i]? = some (some C)
  netList : ∀ l : List K, grossArg = none → netArg = some (.list l) → RatingsConsistent s ∧ ∀ (i : Nat) (C : K), l[i]? = some C → s.netCop[i]? = some (some C)
  netNumber : ∀ x : K, grossArg = none → netArg = some (.num x) → s.netCop[0]? = some (some x) ∧ (s.n ≤ 2 → RatingsConsistent s) ∧
    (s.n = 2 → ∃ C0 C1, s.grossCop[0]? = some (some C0) ∧ s.grossCop[1]? = some (some C1) ∧ CopSupplied heating (.num C0) 2 1 C1)

end Resdx.Spec
