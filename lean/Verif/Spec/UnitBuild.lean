import Verif.Model.UnitBuild
import Verif.Spec.BaseModel

/-! # Specification vocabulary for the construction of units (C99–C101) -/

namespace Resdx.Spec

open BaseModel UnitBuild

/-- The capacities of the speeds of one mode: the list given, or the number given for all of the `n` speeds. -/
def Capacities (arg : NumArg ℝ) (n : Nat) (q : List ℝ) : Prop := q.length = n ∧ ∀ i < n, ∃ x, q[i]? = some x ∧ Supplies arg n i x

/-- All capacities are positive and none is larger than one before it. -/
structure Ordered (q : List ℝ) : Prop where
  pos : ∀ x ∈ q, 0 < x
  order : ∀ i x y, q[i]? = some x → q[i + 1]? = some y → y ≤ x

/-- The fan takes less power than the whole unit at the rating point: `k` is the rated fan power per net capacity. -/
def CopsUsable (k : ℝ) (n : Nat) (net gross : Option (NumArg ℝ)) : Prop :=
  (net.isSome ∨ gross.isSome) ∧ (∀ arg, net = some arg → ∀ i < n, ∃ c, Supplies arg n i c ∧ 0 < c ∧ k * c < 1) ∧
    ∀ arg, gross = some arg → match arg with
      | .num x => 0 < x
      | .list l => l.length = n

/-- The speed indices exist: `f` and `m` are the constructor arguments for the full and the intermediate speed. -/
structure SpeedsExist (st : Staging) (n f : Nat) (m : Option Nat) : Prop where
  full : f < n
  staged : st ≠ .single → 2 ≤ n
  intermediate : st = .varSpeed → m.getD (f + 1) < n

/-- Construction call `c` makes the model object `m` point to the new unit: it is the model of the new unit, or it is its base model and the keyword arguments are accepted. -/
def Binds {D : Type} (c : Call D) (m : Nat) : Prop := c.model = m ∨ c.base = some m ∧ c.outcome ≠ .rejected

/-- Among the calls `cs`, number `k` is the last that makes the model object `m` point to its unit. -/
def LastBinding {D : Type} (cs : List (Call D)) (m k : Nat) : Prop := (∃ c, cs[k]? = some c ∧ Binds c m) ∧ ∀ j c, k < j → cs[j]? = some c → ¬ Binds c m

/-- The keyword arguments a performance model documents. -/
def Recognised (m : Class) (k : String) : Prop :=
  k = "base_model" ∨ m = .title24 ∧ (k = "cap17" ∨ k = "cap35" ∨ k = "cop35" ∨ k = "input_cooling_efficiency_multiplier") ∨
    m = .resnet ∧ (k = "rated_net_heating_capacity_17" ∨ k = "rated_net_total_cooling_cop_82_min" ∨ k = "min_net_total_cooling_capacity_ratio_95" ∨ k = "tabular_data" ∨ k = "motor_type")

end Resdx.Spec
