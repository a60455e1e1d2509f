import Verif.Model.Fan

/-!
# Model of `resdx/models/base_model.py`

The rated quantities of one mode (cooling or heating) are the same set of per-speed lists, so one record `Rated` serves both. The setters are
only called while a unit is being constructed: an exception leaves no unit, so they are functions `Rated K → Py (Rated K)`.
-/

namespace Resdx.BaseModel

variable {K : Type} [Field K] [LinearOrder K]

/-- A number or a list of numbers, the two forms in which per-speed inputs are given. -/
inductive NumArg (K : Type)
  | num (x : K)
  | list (l : List K)
  deriving DecidableEq

/-- Python `l[i] = v`, non-negative index. -/
def pySet {α : Type} (l : List α) (i : Nat) (v : α) : Py (List α) :=
  if i < l.length then .ok (l.set i v) else .error .index

/-- `DXModel.set_default`, resdx/models/base_model.py:79-89, and `set_cooling_default`, `set_heating_default`, which pass the number of speeds of the mode,
resdx/models/base_model.py:97-98, 100-101. -/
def setDefault (input : Option (NumArg K)) (default : NumArg K) (n : Nat) : NumArg K :=
  match input, default with
  | none, d => d
  | some (.list l), .list _ => .list l
  | some (.num x), .list _ => .list (List.replicate n x)
  | some i, .num _ => i

/-- `DXModel.make_list`, resdx/models/base_model.py:91-95. -/
def makeList : NumArg K → List K
  | .num x => [x]
  | .list l => l

/-- The list a scalar-or-list input stands for when there are `n` speeds, resdx/models/base_model.py:105-110, 116-121, 182-187. -/
def perSpeed (n : Nat) : NumArg K → List K
  | .num x => List.replicate n x
  | .list l => l

/-- `set_rated_net_total_cooling_capacity`, resdx/models/base_model.py:103-110. -/
def netCoolingCapacity (n : Nat) (input : NumArg K) : List K := perSpeed n input

/-- `set_rated_net_heating_capacity`, resdx/models/base_model.py:112-121: `cooling` is the list set before. -/
def netHeatingCapacity (n : Nat) (cooling : List K) (input : Option (NumArg K)) : Py (List K) := do
  let d ← pyGet cooling 0
  return perSpeed n (setDefault input (.num d) n)

/-- `set_c_d_cooling`, `set_c_d_heating`, resdx/models/base_model.py:174-178. -/
def cyclingDefault (n : Nat) (input : Option (NumArg K)) : NumArg K := setDefault input (.num 0.25) n

/-- The rated quantities of one mode, resdx/dx_unit.py:595-619; `None` placeholders are `none`. -/
structure Rated (K : Type) where
  /-- `number_of_…_speeds` -/
  n : Nat
  /-- `rated_net_…_capacity` -/
  netCap : List K
  /-- `rated_…_fan_power` -/
  fanPower : List (Option K)
  /-- `rated_gross_…_capacity` -/
  grossCap : List (Option K)
  /-- `rated_net_…_cop` -/
  netCop : List (Option K)
  /-- `rated_net_…_power` -/
  netPower : List (Option K)
  /-- `rated_gross_…_power` -/
  grossPower : List (Option K)
  /-- `rated_gross_…_cop` -/
  grossCop : List (Option K)
  deriving DecidableEq

/-- The side after `set_placeholder_arrays` (resdx/dx_unit.py:595-619) with the net capacities and fan powers set by the model. -/
def Rated.fresh (n : Nat) (netCap : List K) (fanPower : List (Option K)) : Rated K :=
  { n, netCap, fanPower, grossCap := List.replicate n none, netCop := List.replicate n none, netPower := List.replicate n none,
    grossPower := List.replicate n none, grossCop := List.replicate n none }

/-- A number out of a list of numbers and placeholders: `l[i]` used in arithmetic. -/
def numAt (l : List (Option K)) (i : Nat) : Py K := do pyNum (← pyGet l i)

/-- `[f(i) for i in range(n)]` stored in a per-speed list. -/
def comp (n : Nat) (f : Nat → Py K) : Py (List (Option K)) := do
  let l ← (List.range n).mapM f
  return l.map some

/-- The derived gross capacities: cooling, resdx/dx_unit.py:331-335. -/
def grossCooling (s : Rated K) : Py (Rated K) := do
  let l ← comp s.n fun i => do return (← pyGet s.netCap i) + (← numAt s.fanPower i)
  return { s with grossCap := l }

/-- The derived gross capacities: heating, resdx/dx_unit.py:337-340. -/
def grossHeating (s : Rated K) : Py (Rated K) := do
  let l ← comp s.n fun i => do return (← pyGet s.netCap i) - (← numAt s.fanPower i)
  return { s with grossCap := l }

/-- `set_rated_net_cooling_cop` / `set_rated_net_heating_cop`, resdx/models/base_model.py:180-202, 228-250. -/
def setNetCop (input : NumArg K) (s : Rated K) : Py (Rated K) := do
  let s := { s with netCop := (perSpeed s.n input).map some }
  let np ← comp s.n fun i => do pdiv (← pyGet s.netCap i) (← numAt s.netCop i)
  let s := { s with netPower := np }
  let gp ← comp s.n fun i => do return (← numAt s.netPower i) - (← numAt s.fanPower i)
  let s := { s with grossPower := gp }
  let gc ← comp s.n fun i => do pdiv (← numAt s.grossCap i) (← numAt s.grossPower i)
  return { s with grossCop := gc }

/-- `set_rated_gross_cooling_cop` / `set_rated_gross_heating_cop`, resdx/models/base_model.py:204-226, 252-274: the powers and the net COP are
recomputed in the scalar branch only. -/
def setGrossCop (input : NumArg K) (s : Rated K) : Py (Rated K) :=
  match input with
  | .list l => .ok { s with grossCop := l.map some }
  | .num x => do
    let s := { s with grossCop := (List.replicate s.n x).map some }
    let gp ← comp s.n fun i => do pdiv (← numAt s.grossCap i) (← numAt s.grossCop i)
    let s := { s with grossPower := gp }
    let np ← comp s.n fun i => do return (← numAt s.grossPower i) + (← numAt s.fanPower i)
    let s := { s with netPower := np }
    let nc ← comp s.n fun i => do pdiv (← pyGet s.netCap i) (← numAt s.netPower i)
    return { s with netCop := nc }

/-- One of the two optional COP arguments being applied, resdx/dx_unit.py:368-378. -/
def applyOpt (set : NumArg K → Rated K → Py (Rated K)) (input : Option (NumArg K)) (s : Rated K) : Py (Rated K) :=
  match input with
  | none => .ok s
  | some i => set i s

/-- The COP part of `DXUnit.__init__` for one mode with a model using the base-class setters, resdx/dx_unit.py:358-378: net COP first,
gross COP second. -/
def applyCops (net gross : Option (NumArg K)) (s : Rated K) : Py (Rated K) :=
  if net = none ∧ gross = none then .error .runtime
  else do
    let s ← applyOpt setNetCop net s
    applyOpt setGrossCop gross s

/-- The default of the constructor argument `rated_gross_cooling_cop`, resdx/dx_unit.py:148. -/
def defaultGrossCoolingCop : Option (NumArg K) := some (.num 3.72)

/-- The default of the constructor argument `rated_gross_heating_cop`, resdx/dx_unit.py:155. -/
def defaultGrossHeatingCop : Option (NumArg K) := some (.num 3.82)

/-! ## The default fan of the base model -/

/-- What `DXModel.set_fan` writes for one mode. -/
structure FanSide where
  /-- `rated_…_airflow` -/
  airflow : List (Option ℝ)
  /-- `rated_…_fan_power` -/
  power : List (Option ℝ)
  /-- `…_fan_speed`, which is also `rated_…_fan_speed` (lines 159-160) -/
  speed : List Nat

/-- The loop over one mode's net capacities, resdx/models/base_model.py:135-146, 148-157; `i` is the enumeration index and the last component the
local list `airflows`. -/
noncomputable def fanLoop (u : Units ℝ) : List ℝ → Nat → FanSide → List ℝ → Py (FanSide × List ℝ)
  | [], _, s, airflows => .ok (s, airflows)
  | q :: qs, i, s, airflows => do
    let a := q * (375 * u.cfm / u.ton)
    let af ← pySet s.airflow i (some a)
    let airflows := airflows ++ [a]
    let pw ← pySet s.power i (some (a * (0.365 / u.cfm)))
    fanLoop u qs (i + 1) { airflow := af, power := pw, speed := s.speed ++ [airflows.length - 1] } airflows

/-- The attributes `DXModel.set_fan` leaves on the unit when no fan is given. -/
structure FanAssignment where
  cool : FanSide
  heat : FanSide
  fan : Fan.ConstEff

/-- `DXModel.set_fan(None)`, resdx/models/base_model.py:127-165; `nC` and `nH` are the numbers of speeds, the lengths of the placeholder lists. -/
noncomputable def setFan (u : Units ℝ) (nC nH : Nat) (qc qh : List ℝ) : Py FanAssignment := do
  let (c, airflows) ← fanLoop u qc 0 ⟨List.replicate nC none, List.replicate nC none, []⟩ []
  let (h, airflows) ← fanLoop u qh 0 ⟨List.replicate nH none, List.replicate nH none, []⟩ airflows
  let fan ← Fan.ConstEff.init airflows (0.5 * u.inH2O) (.scalar (0.365 / u.cfm))
  return { cool := c, heat := h, fan }

/-! ## Speed roles and array checks of the constructor -/

/-- `StagingType`, resdx/enums.py:4-7. -/
inductive Staging
  | single
  | two
  | varSpeed
  deriving DecidableEq

/-- `StagingType.value`. -/
def Staging.value : Staging → Nat
  | .single => 1
  | .two => 2
  | .varSpeed => 3

/-- `StagingType(v)`: `ValueError` for a number that is not a value. -/
def Staging.ofValue : Nat → Py Staging
  | 1 => .ok .single
  | 2 => .ok .two
  | 3 => .ok .varSpeed
  | _ => .error .value

/-- The number of speeds of one mode, resdx/dx_unit.py:232-249; `capacity = none` is the argument `None`. -/
def numberOfSpeeds (capacity : Option (NumArg K)) (staging : Option Staging) : Nat :=
  match capacity with
  | some (.list l) => l.length
  | _ =>
    match staging with
    | some st => if st = .varSpeed then 4 else st.value
    | none => 1

/-- The speed indices of one mode, resdx/dx_unit.py:251-280. -/
structure Roles where
  n : Nat
  full : Nat
  boost : Option Nat
  intermediate : Nat
  low : Option Nat
  deriving DecidableEq

/-- The speed indices of one mode as derived by the constructor, resdx/dx_unit.py:251-280. The index arguments are non-negative. -/
def roles (n full : Nat) (intermediate : Option Nat) : Roles :=
  { n, full, boost := if 0 < full then some 0 else none, intermediate := intermediate.getD (full + 1),
    low := if 1 < n then some (n - 1) else none }

/-- `self.staging_type`, resdx/dx_unit.py:282-285. -/
def stagingOf (nHeating : Nat) : Option Staging → Py Staging
  | some s => .ok s
  | none => Staging.ofValue (min nHeating 3)

/-- The speed indices of one mode for which `set_rating_conditions` makes conditions, resdx/dx_unit.py:389-479 (the boost condition exists in
cooling only). -/
def ratedSpeeds (st : Staging) (cooling : Bool) (r : Roles) : List (Option Nat) :=
  match st with
  | .single => [some r.full]
  | .two => [some r.full] ++ (if cooling then r.boost.toList.map some else []) ++ [r.low]
  | .varSpeed => [some r.full, some r.intermediate] ++ (if cooling then r.boost.toList.map some else []) ++ [r.low]

/-- `DXUnit.check_array_length`, resdx/dx_unit.py:569-573. -/
def checkArrayLength {α : Type} (array : List α) (expected : Nat) : Py Unit :=
  if array.length ≠ expected then .error .runtime else .ok ()

/-- `DXUnit.check_array_lengths`, resdx/dx_unit.py:575-587. -/
def checkArrayLengths {α : Type} (nC nH : Nat) (netCooling : List K) (shr : List α) (grossHeatingCop : List α) (netHeating : List K) :
    Py Unit := do
  checkArrayLength netCooling nC
  checkArrayLength shr nC
  checkArrayLength grossHeatingCop nH
  checkArrayLength netHeating nH

/-- `DXUnit.check_array_order`, resdx/dx_unit.py:589-593: `all(earlier >= later for earlier, later in zip(array, array[1:]))`. -/
def checkArrayOrder (array : List K) : Py Unit :=
  if (array.zip array.tail).all (fun p => decide (p.2 ≤ p.1)) then .ok () else .error .runtime

/-- The checks at the end of `DXUnit.__init__`, resdx/dx_unit.py:380-387. -/
def finalChecks {α : Type} (nC nH : Nat) (netCooling : List K) (shr : List α) (grossHeatingCop : List α) (netHeating : List K) : Py Unit := do
  checkArrayLengths nC nH netCooling shr grossHeatingCop netHeating
  checkArrayOrder netCooling
  checkArrayOrder netHeating

end Resdx.BaseModel
