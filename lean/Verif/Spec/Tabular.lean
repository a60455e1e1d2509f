import Verif.Model.Tabular

/-! # Specification vocabulary for performance tables (C25–C33) -/

namespace Resdx.Spec

open Tabular

variable {K : Type} [Field K] [LinearOrder K]

/-- A well-formed table: strictly increasing temperatures, one row per temperature, one cell per speed. -/
structure TableWF (t : Table K) : Prop where
  sorted : t.temperatures.Pairwise (· < ·)
  rows : t.data.length = t.temperatures.length
  cols : ∀ row ∈ t.data, row.length = t.nSpeeds

/-- A speed of the table. -/
def IsSpeed (t : Table K) (speed : Int) : Prop := 1 ≤ speed ∧ speed ≤ t.nSpeeds

instance (t : Table K) (speed : Int) : Decidable (IsSpeed t speed) := inferInstanceAs (Decidable (_ ∧ _))

/-- Every cell of the table holds a number. -/
def TableFull (t : Table K) : Prop :=
  ∀ speed temperature, IsSpeed t speed → temperature ∈ t.temperatures → ∃ v, t.get speed temperature = .ok (some v)

/-- `(x, y)` lies on the straight line through `(x0, y0)` and `(x1, y1)`. -/
def OnLine (x0 y0 x1 y1 x y : K) : Prop := (y - y0) * (x1 - x0) = (y1 - y0) * (x - x0)

/-- At least the given multiple of the nearest row, if a multiple is given. -/
def limitedBelow (limit : Option K) (nearest line : K) : K :=
  match limit with
  | some l => max line (nearest * l)
  | none => line

/-- At most the given multiple of the nearest row, if a multiple is given. -/
def limitedAbove (limit : Option K) (nearest line : K) : K :=
  match limit with
  | some l => min line (nearest * l)
  | none => line

/-- `a` and `b` are neighbouring rows of the table. -/
def Neighbours (l : List K) (a b : K) : Prop := a ∈ l ∧ b ∈ l ∧ a < b ∧ ∀ c ∈ l, c ≤ a ∨ b ≤ c

/-- The lookup data of the table is up to date: `set_interpolator` has just been called. -/
def Fresh (t : Table K) : Prop := ∃ t0, Table.setInterpolator t0 = (.ok (), t)

/-- `f` interpolates the vector `p`, whose entries belong to the speeds `1, 2, …`: it passes through them, is a straight line between
consecutive ones, continues the outermost lines and is constant when there is only one speed. -/
structure SpeedInterpolant (p : List K) (f : K → K) : Prop where
  node : ∀ (k : Nat) (v : K), p[k]? = some v → f ((k : K) + 1) = v
  line : ∀ (k : Nat) (v0 v1 σ : K), p[k]? = some v0 → p[k + 1]? = some v1 → ((k : K) + 1 ≤ σ ∨ k = 0) →
    (σ ≤ (k : K) + 2 ∨ k + 2 = p.length) → OnLine ((k : K) + 1) v0 ((k : K) + 2) v1 σ (f σ)
  single : p.length = 1 → ∀ σ τ, f σ = f τ

/-- Every cell exceeds the entry of `p` for its speed. -/
def Exceeds (t : Table K) (p : List K) : Prop :=
  ∀ (k : Nat) (x v q : K), t.get ((k : Int) + 1) x = .ok (some v) → p[k]? = some q → q < v

/-- The public operations on a table. -/
inductive TableOp (K : Type)
  | set (speed : Int) (temperature value : K)
  | ratio (speed : Int) (temperature ratio : K)
  | interpolation (speed : Int) (temperature : K)
  | maintenance (k : Table.Kind) (speed : Int) (temperature reference ratio : K)
  | add (temperature : K) (extrapolate : Bool) (limit : Option K)
  | interpolator
  | correction (fanPowers : List K)

/-- The call of the modelled method. -/
def TableOp.run : TableOp K → PyM (Table K) Unit
  | .set s t v => Table.set s t v
  | .ratio s t r => Table.setByRatio s t r
  | .interpolation s t => Table.setByInterpolation s t
  | .maintenance k s t r m => Table.setByMaintenance k s t r m
  | .add t e l => Table.addTemperature t e l
  | .interpolator => Table.setInterpolator
  | .correction p => Table.applyFanPowerCorrection p

/-- The table after a sequence of calls, whether or not they raise (exceptions caught by the caller). -/
def runAll : List (TableOp K) → Table K → Table K
  | [], t => t
  | op :: rest, t => runAll rest (op.run t).2

end Resdx.Spec
