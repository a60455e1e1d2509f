import Verif.Model.BaseModel

/-! # Specification vocabulary for rated quantities (C34–C37) -/

namespace Resdx.Spec

open BaseModel

variable {K : Type} [Field K] [LinearOrder K]

/-- Speed `i` has net capacity `q`, gross capacity `Q`, fan power `f`, net and gross power `p`, `P`, net and gross COP `c`, `C`. -/
structure HasRatings (s : Rated K) (i : Nat) (q Q f p P c C : K) : Prop where
  netCap : s.netCap[i]? = some q
  grossCap : s.grossCap[i]? = some (some Q)
  fan : s.fanPower[i]? = some (some f)
  netPower : s.netPower[i]? = some (some p)
  grossPower : s.grossPower[i]? = some (some P)
  netCop : s.netCop[i]? = some (some c)
  grossCop : s.grossCop[i]? = some (some C)

/-- Every speed's rated powers and COPs agree with each other: the net power is the gross power plus the fan's, and each capacity is its COP times
its power. -/
def RatingsConsistent (s : Rated K) : Prop :=
  ∀ i < s.n, ∃ q Q f p P c C, HasRatings s i q Q f p P c C ∧ p = P + f ∧ q = c * p ∧ Q = C * P

/-- Speed `i` has net capacity `q`, gross capacity `Q` and fan power `f`. -/
structure HasInputs (s : Rated K) (i : Nat) (q Q f : K) : Prop where
  netCap : s.netCap[i]? = some q
  grossCap : s.grossCap[i]? = some (some Q)
  fan : s.fanPower[i]? = some (some f)

/-- Two sides agree on what the COP setters take as given. -/
def SameInputs (s t : Rated K) : Prop := s.n = t.n ∧ s.netCap = t.netCap ∧ s.fanPower = t.fanPower ∧ s.grossCap = t.grossCap

/-- The values an argument supplies, one per speed: `x` at speed `i`. -/
def Supplies (input : NumArg K) (n i : Nat) (x : K) : Prop :=
  match input with
  | .num y => i < n ∧ x = y
  | .list l => l[i]? = some x

end Resdx.Spec
