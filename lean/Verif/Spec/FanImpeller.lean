import Verif.Model.Fan

/-!
# Specification of C120: the rotational speeds of a fan representation
-/

namespace Resdx.Spec

open Fan

/-- A representation declares that the impeller turns between 0 and 1500 revolutions per minute (25 per second), and every rotational speed it lists lies in between. -/
def SpeedsInRange (r : Rep) : Prop :=
  r.minRps = 0 ∧ r.maxRps = 25 ∧ ∀ pt ∈ r.points, 0 ≤ pt.2.2 ∧ pt.2.2 ≤ 25

end Resdx.Spec
