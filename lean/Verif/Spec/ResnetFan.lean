import Verif.Model.ResnetFan

/-! # Specification vocabulary for default fans (C36) -/

namespace Resdx.Spec

open Fan

/-- Speed `i`, whose net capacity is `q` at airflow per capacity `r`, has the rated airflow `q * r` and two settings of the fan `b`, one for operation and one for
rating, which both deliver that airflow; the stored rated fan power is the fan's power at the rating setting and the stored rated pressure. -/
def FanAssigned (power : Base → Int → Option ℝ → Py ℝ) (s : ResnetFan.Side) (b : Base) (i : Nat) (q r : ℝ) : Prop :=
  s.airflow[i]? = some (some (q * r)) ∧
  (∃ k : Nat, s.fanSpeed[i]? = some (some (k : Int)) ∧ ∀ p, resnetAirflow b k p = .ok (q * r)) ∧
  ∃ (k : Nat) (p w : ℝ), s.ratedFanSpeed[i]? = some (some (k : Int)) ∧ (∀ p, resnetAirflow b k p = .ok (q * r)) ∧
    s.esp[i]? = some (some p) ∧ power b k (some p) = .ok w ∧ s.power[i]? = some (some w)

end Resdx.Spec
