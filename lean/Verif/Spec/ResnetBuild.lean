import Verif.Spec.Tabular
import Verif.Model.BaseModel
import Mathlib.Data.Real.Basic

/-! # Specification vocabulary for constructed RESNET units -/

namespace Resdx.Spec

open Tabular BaseModel

/-- Performance tables ready for lookups, with `n` speeds, that contain the rating temperatures (95 °F cooling, 47 °F heating). -/
structure RatedTables (n : Nat) (d : Perf ℝ) : Prop where
  qc : Fresh d.coolingCapacities
  pc : Fresh d.coolingPowers
  qh : Fresh d.heatingCapacities
  ph : Fresh d.heatingPowers
  speeds : d.coolingCapacities.nSpeeds = n ∧ d.coolingPowers.nSpeeds = n ∧ d.heatingCapacities.nSpeeds = n ∧ d.heatingPowers.nSpeeds = n
  cooling : frF 95 ∈ d.coolingCapacities.temperatures ∧ frF 95 ∈ d.coolingPowers.temperatures
  heating : frF 47 ∈ d.heatingCapacities.temperatures ∧ frF 47 ∈ d.heatingPowers.temperatures

/-- The speeds of the tables of a staging type. -/
def tableSpeeds : Staging → Nat
  | .single => 1
  | .two => 2
  | .varSpeed => 3

/-- The table speed of a compressor speed: the fastest speed has index 0; a variable-speed unit has an intermediate speed halfway between the lowest and the full table
speed. -/
def TableSpeed : Staging → Nat → ℝ → Prop
  | .single, i, σ => i = 0 ∧ σ = 1
  | .two, i, σ => i = 0 ∧ σ = 2 ∨ i = 1 ∧ σ = 1
  | .varSpeed, i, σ => i = 0 ∧ σ = 3 ∨ i = 1 ∧ σ = 2 ∨ i = 2 ∧ σ = 3 / 2 ∨ i = 3 ∧ σ = 1

/-- Rated net capacities of the speeds of a mode, fastest first, for a fan designed for the capacity `D`: positive, not increasing, none above √3 times `D`, and `D` not above √3 times the
first. -/
structure RatedSizes (D : ℝ) (q : List ℝ) : Prop where
  pos : ∀ x ∈ q, 0 < x
  order : ∀ (i j : Nat) (x y : ℝ), i ≤ j → q[i]? = some x → q[j]? = some y → y ≤ x
  below : ∀ x ∈ q, x ^ 2 ≤ 3 * D ^ 2
  above : ∀ x, q[0]? = some x → D ^ 2 ≤ 3 * x ^ 2

/-- Every entry of a table exceeds `m` times the rated capacity of its speed. -/
def Covers (m : ℝ) (st : Staging) (q : List ℝ) (t : Table ℝ) : Prop :=
  ∀ (i k : Nat) (x v c : ℝ), TableSpeed st i ((k : ℝ) + 1) → q[i]? = some c → t.get ((k : Int) + 1) x = .ok (some v) → m * c < v

/-- The rated capacities of all speeds, read from a capacity table at a temperature. -/
def RatedAt (st : Staging) (t : Table ℝ) (x : ℝ) (q : List ℝ) : Prop :=
  (∀ i σ, TableSpeed st i σ → ∃ c, q[i]? = some c ∧ t.calculate σ x = .ok c) ∧ ∀ i c, q[i]? = some c → ∃ σ, TableSpeed st i σ

/-- The index of the full speed. -/
def fullIndex : Staging → Nat
  | .varSpeed => 1
  | _ => 0

/-- Net tables from which a unit can be made: positive cooling capacities, and powers and heating capacities that exceed the largest fan power, 0.843 W/cfm at 400 cfm/ton. -/
structure Sound (u : Units ℝ) (st : Staging) (d : Perf ℝ) (qc qh : List ℝ) : Prop where
  rated : RatedTables (tableSpeeds st) d
  cooling : RatedAt st d.coolingCapacities (frF 95) qc
  heating : RatedAt st d.heatingCapacities (frF 47) qh
  sizes : ∃ x y, qc[fullIndex st]? = some x ∧ qh[fullIndex st]? = some y ∧ RatedSizes (max x y) qc ∧ RatedSizes (max x y) qh
  coversQc : Covers 0 st qc d.coolingCapacities
  coversPc : Covers (337.2 / u.ton) st qc d.coolingPowers
  coversQh : Covers (337.2 / u.ton) st qh d.heatingCapacities
  coversPh : Covers (337.2 / u.ton) st qh d.heatingPowers

end Resdx.Spec
