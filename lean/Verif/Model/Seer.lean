import Verif.Model.DXUnit
import Verif.Model.BaseModel

/-!
# Model of `DXUnit.seer`, `resdx/dx_unit.py`

The conditions the unit is rated at are kept in a record; those that only exist for some staging types are optional and reading a missing one
raises `AttributeError`. Divisions by differences of fixed temperatures are plain divisions.
-/

namespace Resdx.DX

open BaseModel Performance

variable {C K : Type} [Field K] [LinearOrder K]

/-- The rating conditions of a unit, resdx/dx_unit.py:389-479 (attributes `A_full_cond`, …). `none` is a missing attribute. -/
structure Points (C : Type) where
  aFull : C
  bFull : C
  h1Full : C
  h2Full : C
  h3Full : C
  h4Full : C
  aInt : Option C
  eInt : Option C
  h2Int : Option C
  aBoost : Option C
  aLow : Option C
  bLow : Option C
  fLow : Option C
  h0Low : Option C
  h1Low : Option C
  h2Low : Option C
  h3Low : Option C
  deriving DecidableEq

/-- `CyclingMethod`, resdx/dx_unit.py:43-45. -/
inductive Cycling | lowFull | offFull
  deriving DecidableEq

/-- `CoolingDistribution.outdoor_drybulbs` with `fractional_hours`, resdx/dx_unit.py:86-94. -/
def coolingBins : List (K × K) :=
  ((List.range 8).map fun (d : Nat) => frF (67 + (d : K) * 5)).zip [0.214, 0.231, 0.216, 0.161, 0.104, 0.052, 0.018, 0.004]

/-- `for i in range(number_of_bins)` with `q_sum += q; e_sum += e`, resdx/dx_unit.py:885-973, over the bins (temperature, fraction). -/
def binLoop (f : K → K → Py (K × K)) : List (K × K) → K → K → Py (K × K)
  | [], q, e => .ok (q, e)
  | (t, n) :: l, q, e => do
    let r ← f t n
    binLoop f l (q + r.1) (e + r.2)

/-- The building load, resdx/dx_unit.py:888-897 (sizing factor 1.1). -/
def coolingLoad (qA t : K) : K := max ((t - frF 65) / (frF 95 - frF 65) * qA / 1.1) 0

/-- Cycling at one capacity: `clf`, `plf`, `q`, `e`, resdx/dx_unit.py:914-917, 934-942, 951-954. -/
def cyclingBin (cd bl q p n : K) : Py (K × K) := do
  let clf ← pdiv bl q
  let plf := 1 - cd * (1 - clf)
  return (clf * q * n, ← pdiv (clf * p * n) plf)

/-- The two-stage bin, resdx/dx_unit.py:912-945. -/
def twoStageBin (cd : K) (cyc : Cycling) (bl qLow pLow qFull pFull n : K) : Py (K × K) :=
  if bl ≤ qLow then cyclingBin cd bl qLow pLow n
  else if bl < qFull ∧ cyc = .lowFull then do
    let clfLow ← pdiv (qFull - bl) (qFull - qLow)
    let clfFull := 1 - clfLow
    return ((clfLow * qLow + clfFull * qFull) * n, (clfLow * pLow + clfFull * pFull) * n)
  else if bl < qFull ∧ cyc = .offFull then cyclingBin cd bl qFull pFull n
  else .ok (qFull * n, pFull * n)

/-- Energy at a load met by modulation with the COP interpolated in capacity, resdx/dx_unit.py:956-961, 963-968. -/
def modulatingBin (bl q0 cop0 q1 cop1 n : K) : Py (K × K) := do
  let cop := cop0 + (← pdiv (cop1 - cop0) (q1 - q0)) * (bl - q0)
  return (bl * n, ← pdiv (bl * n) cop)

/-- The variable-speed bin, resdx/dx_unit.py:946-971. -/
def varSpeedBin (cd bl qLow pLow qInt pInt qFull pFull n : K) : Py (K × K) := do
  let copLow ← pdiv qLow pLow
  let copInt ← pdiv qInt pInt
  let copFull ← pdiv qFull pFull
  if bl ≤ qLow then cyclingBin cd bl qLow pLow n
  else if bl < qInt then modulatingBin bl qLow copLow qInt copInt n
  else if bl ≤ qFull then modulatingBin bl qInt copInt qFull copFull n
  else .ok (qFull * n, pFull * n)

section
variable (U : Performance C K) (P : Points C)

/-- The value of `f` (net capacity or power) at the E point and the slope `M_C`, resdx/dx_unit.py:838-858, 861-883. -/
def coolingIntermediate (f : C → Py K) : Py (K × K) := do
  let a ← f P.aFull
  let b ← f P.bFull
  let bl ← f (← pyAttr P.bLow)
  let fl ← f (← pyAttr P.fLow)
  let e ← f (← pyAttr P.eInt)
  let low ← interpolate U.db f (← pyAttr P.fLow) (← pyAttr P.bLow) (frF 87)
  let full ← interpolate U.db f P.bFull P.aFull (frF 87)
  let n ← pdiv (e - low) (full - low)
  return (e, (bl - fl) / (frF 82 - frF 67) * (1 - n) + (a - b) / (frF 95 - frF 82) * n)

/-- The load and the low and full capacities and powers of a bin, resdx/dx_unit.py:888-911. -/
def coolingLines (t : K) : Py (K × K × K × K × K) := do
  let bl := coolingLoad (← U.netTotalCoolingCapacity (some P.aFull)) t
  let qLow ← interpolate U.db (fun c => U.netTotalCoolingCapacity (some c)) (← pyAttr P.fLow) (← pyAttr P.bLow) t
  let pLow ← interpolate U.db (fun c => U.netCoolingPower (some c)) (← pyAttr P.fLow) (← pyAttr P.bLow) t
  let qFull ← interpolate U.db (fun c => U.netTotalCoolingCapacity (some c)) P.bFull P.aFull t
  let pFull ← interpolate U.db (fun c => U.netCoolingPower (some c)) P.bFull P.aFull t
  return (bl, qLow, pLow, qFull, pFull)

/-- One bin of a two-stage unit, resdx/dx_unit.py:885-945. -/
def seerTwoBin (cd : K) (cyc : Cycling) (t n : K) : Py (K × K) := do
  let (bl, qLow, pLow, qFull, pFull) ← coolingLines U P t
  twoStageBin cd cyc bl qLow pLow qFull pFull n

/-- One bin of a variable-speed unit, resdx/dx_unit.py:885-911, 946-971. -/
def seerVarBin (cd qE mQ pE mP t n : K) : Py (K × K) := do
  let (bl, qLow, pLow, qFull, pFull) ← coolingLines U P t
  varSpeedBin cd bl qLow pLow (qE + mQ * (t - frF 87)) (pE + mP * (t - frF 87)) qFull pFull n

/-- `seer`, resdx/dx_unit.py:827-975. -/
def seer (u : Units K) (st : Staging) (cd : K) (cyc : Cycling) (bins : List (K × K)) : Py K :=
  match st with
  | .single => do pdiv ((1 - 0.5 * cd) * (← U.netTotalCoolingCOP (some P.bFull))) u.btuh
  | .two => do
    let r ← binLoop (seerTwoBin U P cd cyc) bins 0 0
    pdiv (← pdiv r.1 r.2) u.btuh
  | .varSpeed => do
    let q ← coolingIntermediate U P fun c => U.netTotalCoolingCapacity (some c)
    let p ← coolingIntermediate U P fun c => U.netCoolingPower (some c)
    let r ← binLoop (seerVarBin U P cd q.1 q.2 p.1 p.2) bins 0 0
    pdiv (← pdiv r.1 r.2) u.btuh

end
end Resdx.DX
