import Verif.Lemmas.Seer

/-! # Scaling a unit: every capacity and power multiplied by one factor -/

set_option linter.unusedSectionVars false
set_option linter.unusedSimpArgs false

namespace Resdx.DX

open Spec Performance BaseModel

variable {C K : Type} [Field K] [LinearOrder K] [IsStrictOrderedRing K]

/-- Multiply a result. -/
def sc (l : K) (x : Py K) : Py K := x.map (l * ·)

/-- Multiply a pair of results. -/
def sc2 (l : K) (x : Py (K × K)) : Py (K × K) := x.map fun r => (l * r.1, l * r.2)

/-- The unit with every capacity and every power (including the fan's) multiplied by `l`. -/
def Performance.scale (l : K) (U : Performance C K) : Performance C K :=
  { U with coolCap := fun c => sc l (U.coolCap c), coolPow := fun c => sc l (U.coolPow c), sensible := fun c => sc l (U.sensible c)
           heatCap := fun c => sc l (U.heatCap c), heatPow := fun c => sc l (U.heatPow c), intCap := fun c => sc l (U.intCap c)
           intPow := fun c => sc l (U.intPow c), fanPower := fun c => sc l (U.fanPower c) }

@[simp] theorem sc_ok (l a : K) : sc l (.ok a) = .ok (l * a) := rfl
@[simp] theorem sc_error (l : K) (e : PyErr) : sc l (.error e) = .error e := rfl
@[simp] theorem sc2_ok (l : K) (a : K × K) : sc2 l (.ok a) = .ok (l * a.1, l * a.2) := rfl
@[simp] theorem sc2_error (l : K) (e : PyErr) : sc2 l (.error e) = .error e := rfl

theorem pdiv_scale {l : K} (hl : l ≠ 0) (a b : K) : pdiv (l * a) (l * b) = pdiv a b := by
  by_cases hb : b = 0
  · simp [hb, pdiv_zero]
  · rw [pdiv_ok hb, pdiv_ok (mul_ne_zero hl hb), mul_div_mul_left _ _ hl]

theorem pdiv_scale_left (l a b : K) : pdiv (l * a) b = sc l (pdiv a b) := by
  by_cases hb : b = 0
  · simp [hb, pdiv_zero]
  · rw [pdiv_ok hb, pdiv_ok hb, sc_ok, mul_div_assoc]

theorem limitCheck_scale {l : K} (hl : 0 < l) (x : K) : Util.limitCheck (l * x) (min := some 0) = sc l (Util.limitCheck x (min := some 0)) := by
  by_cases h : x < 0
  · have h' : l * x < 0 := mul_neg_of_pos_of_neg hl h
    simp [Util.limitCheck, h, h', bind_error, bind_ok]
  · have h' : ¬ l * x < 0 := not_lt.2 (mul_nonneg hl.le (not_lt.1 h))
    simp [Util.limitCheck, h, h', bind_error, bind_ok, pure_eq_ok]

section
variable (U : Performance C K) {l : K} (hl : 0 < l) (c : Option C)
include hl

theorem scale_grossTotal : (U.scale l).grossTotalCoolingCapacity c = sc l (U.grossTotalCoolingCapacity c) := by
  simp only [grossTotalCoolingCapacity, Performance.scale]
  cases U.coolCap (c.getD U.aFull) <;> simp only [sc_ok, sc_error, bind_ok, bind_error]
  cases U.coolCapCharge (c.getD U.aFull) <;> simp only [sc_ok, sc_error, bind_ok, bind_error]
  rw [mul_assoc, limitCheck_scale hl]

theorem scale_grossPower : (U.scale l).grossCoolingPower c = sc l (U.grossCoolingPower c) := by
  simp only [grossCoolingPower, Performance.scale]
  cases U.coolPow (c.getD U.aFull) <;> simp only [sc_ok, sc_error, bind_ok, bind_error]
  cases U.coolPowCharge (c.getD U.aFull) <;> simp only [sc_ok, sc_error, bind_ok, bind_error]
  rw [mul_assoc, limitCheck_scale hl]

theorem scale_netTotal : (U.scale l).netTotalCoolingCapacity c = sc l (U.netTotalCoolingCapacity c) := by
  simp only [netTotalCoolingCapacity, scale_grossTotal U hl, coolingFanHeat, coolingFanPower]
  cases U.grossTotalCoolingCapacity c <;> simp only [sc_ok, sc_error, bind_ok, bind_error]
  simp only [Performance.scale]
  cases U.fanPower (c.getD U.aFull) <;> simp only [sc_ok, sc_error, bind_ok, bind_error, pure_eq_ok, mul_sub]

theorem scale_netPower : (U.scale l).netCoolingPower c = sc l (U.netCoolingPower c) := by
  simp only [netCoolingPower, scale_grossPower U hl, coolingFanPower]
  cases U.grossCoolingPower c <;> simp only [sc_ok, sc_error, bind_ok, bind_error]
  simp only [Performance.scale]
  cases U.fanPower (c.getD U.aFull) <;> simp only [sc_ok, sc_error, bind_ok, bind_error, pure_eq_ok, mul_add]

theorem scale_netCOP : (U.scale l).netTotalCoolingCOP c = U.netTotalCoolingCOP c := by
  simp only [netTotalCoolingCOP, scale_netTotal U hl, scale_netPower U hl]
  cases U.netTotalCoolingCapacity c <;> simp only [sc_ok, sc_error, bind_ok, bind_error]
  cases U.netCoolingPower c <;> simp only [sc_ok, sc_error, bind_ok, bind_error]
  rw [pdiv_scale hl.ne']

theorem scale_interpolateSeparate (f g f' g' : C → Py K) (hf : ∀ c, f' c = sc l (f c)) (hg : ∀ c, g' c = sc l (g c)) (c1 c2 : C) (x : K) :
    interpolateSeparate (U.scale l).db f' g' c1 c2 x = sc l (interpolateSeparate U.db f g c1 c2 x) := by
  simp only [interpolateSeparate, hf, hg]
  cases f c1 <;> simp only [sc_ok, sc_error, bind_ok, bind_error]
  cases g c2 <;> simp only [sc_ok, sc_error, bind_ok, bind_error]
  rename_i a b
  have e : (U.scale l).db = U.db := rfl
  rw [e, ← mul_sub, pdiv_scale_left]
  cases pdiv (b - a) (U.db c2 - U.db c1) <;> simp only [sc_ok, sc_error, bind_ok, bind_error, pure_eq_ok, mul_add, mul_assoc]

theorem scale_interpolate (f f' : C → Py K) (hf : ∀ c, f' c = sc l (f c)) (c1 c2 : C) (x : K) :
    interpolate (U.scale l).db f' c1 c2 x = sc l (interpolate U.db f c1 c2 x) := scale_interpolateSeparate U hl f f f' f' hf hf c1 c2 x

end

section
variable {l : K} (hl : 0 < l)
include hl

theorem scale_load (q t : K) : coolingLoad (l * q) t = l * coolingLoad q t := by
  simp only [coolingLoad]
  rw [mul_max_of_nonneg _ _ hl.le]
  congr 1 <;> ring

theorem scale_cyclingBin (cd bl q p n : K) : cyclingBin cd (l * bl) (l * q) (l * p) n = sc2 l (cyclingBin cd bl q p n) := by
  simp only [cyclingBin, pdiv_scale hl.ne']
  cases pdiv bl q <;> simp only [sc2_error, bind_ok, bind_error]
  rename_i a
  rw [show a * (l * p) * n = l * (a * p * n) by ring, pdiv_scale_left]
  cases pdiv (a * p * n) (1 - cd * (1 - a)) <;> simp only [sc_ok, sc_error, sc2_ok, sc2_error, bind_ok, bind_error, pure_eq_ok, Except.ok.injEq, Prod.mk.injEq,
    and_true]
  ring

theorem scale_twoStageBin (cd : K) (cyc : Cycling) (bl qL pL qF pF n : K) :
    twoStageBin cd cyc (l * bl) (l * qL) (l * pL) (l * qF) (l * pF) n = sc2 l (twoStageBin cd cyc bl qL pL qF pF n) := by
  simp only [twoStageBin, mul_le_mul_iff_right₀ hl, mul_lt_mul_iff_right₀ hl]
  split
  · exact scale_cyclingBin hl ..
  split
  · rw [← mul_sub, ← mul_sub, pdiv_scale hl.ne']
    cases pdiv (qF - bl) (qF - qL) <;> simp only [sc2_error, sc2_ok, bind_ok, bind_error, pure_eq_ok, Except.ok.injEq, Prod.mk.injEq]
    constructor <;> ring
  split
  · exact scale_cyclingBin hl ..
  · simp only [sc2_ok, mul_assoc]

theorem scale_modulatingBin (bl q0 c0 q1 c1 n : K) : modulatingBin (l * bl) (l * q0) c0 (l * q1) c1 n = sc2 l (modulatingBin bl q0 c0 q1 c1 n) := by
  simp only [modulatingBin]
  rw [← mul_sub, ← mul_sub]
  by_cases h : q1 - q0 = 0
  · simp [h, pdiv_zero, bind_error]
  · rw [pdiv_ok h, pdiv_ok (mul_ne_zero hl.ne' h), bind_ok, bind_ok, show (c1 - c0) / (l * (q1 - q0)) * (l * (bl - q0)) = (c1 - c0) / (q1 - q0) * (bl - q0) by
      field_simp, mul_assoc, pdiv_scale_left]
    cases pdiv (bl * n) (c0 + (c1 - c0) / (q1 - q0) * (bl - q0)) <;> simp only [sc_ok, sc_error, sc2_error, sc2_ok, bind_ok, bind_error, pure_eq_ok]

theorem scale_varSpeedBin (cd bl qL pL qI pI qF pF n : K) :
    varSpeedBin cd (l * bl) (l * qL) (l * pL) (l * qI) (l * pI) (l * qF) (l * pF) n = sc2 l (varSpeedBin cd bl qL pL qI pI qF pF n) := by
  simp only [varSpeedBin, pdiv_scale hl.ne', mul_le_mul_iff_right₀ hl, mul_lt_mul_iff_right₀ hl]
  cases pdiv qL pL <;> simp only [sc2_error, bind_ok, bind_error]
  cases pdiv qI pI <;> simp only [sc2_error, bind_ok, bind_error]
  cases pdiv qF pF <;> simp only [sc2_error, bind_ok, bind_error]
  split
  · exact scale_cyclingBin hl ..
  split
  · exact scale_modulatingBin hl ..
  split
  · exact scale_modulatingBin hl ..
  · simp only [sc2_ok, mul_assoc]

theorem scale_binLoop (f f' : K → K → Py (K × K)) (h : ∀ t n, f' t n = sc2 l (f t n)) (bins : List (K × K)) (q e : K) :
    binLoop f' bins (l * q) (l * e) = sc2 l (binLoop f bins q e) := by
  induction bins generalizing q e with
  | nil => rfl
  | cons b bs ih =>
    simp only [binLoop, h]
    cases f b.1 b.2 <;> simp only [sc2_error, sc2_ok, bind_ok, bind_error]
    rw [← mul_add, ← mul_add, ih]

theorem scale_coolingIntermediate (U : Performance C K) (P : Points C) (f f' : C → Py K) (hf : ∀ c, f' c = sc l (f c)) :
    coolingIntermediate (U.scale l) P f' = sc2 l (coolingIntermediate U P f) := by
  simp only [coolingIntermediate, hf, scale_interpolate U hl f f' hf]
  cases f P.aFull <;> simp only [sc_ok, sc_error, sc2_error, bind_ok, bind_error]
  cases f P.bFull <;> simp only [sc_ok, sc_error, sc2_error, bind_ok, bind_error]
  cases pyAttr P.bLow <;> simp only [sc2_error, bind_ok, bind_error]
  rename_i b
  cases f b <;> simp only [sc_ok, sc_error, sc2_error, bind_ok, bind_error]
  cases pyAttr P.fLow <;> simp only [sc2_error, bind_ok, bind_error]
  rename_i fl
  cases f fl <;> simp only [sc_ok, sc_error, sc2_error, bind_ok, bind_error]
  cases pyAttr P.eInt <;> simp only [sc2_error, bind_ok, bind_error]
  rename_i e
  cases f e <;> simp only [sc_ok, sc_error, sc2_error, bind_ok, bind_error]
  cases interpolate U.db f fl b (frF 87) <;> simp only [sc_ok, sc_error, sc2_error, bind_ok, bind_error]
  cases interpolate U.db f P.bFull P.aFull (frF 87) <;> simp only [sc_ok, sc_error, sc2_error, bind_ok, bind_error]
  rw [← mul_sub, ← mul_sub, pdiv_scale hl.ne']
  rename_i x y
  generalize (pdiv (K := K) _ _) = z
  cases z <;> simp only [sc2_error, sc2_ok, bind_ok, bind_error, pure_eq_ok, Except.ok.injEq, Prod.mk.injEq, true_and]
  ring

/-- The bin's load and lines scale. -/
theorem scale_coolingLines (U : Performance C K) (P : Points C) (t : K) : coolingLines (U.scale l) P t =
    (coolingLines U P t).map fun r => (l * r.1, l * r.2.1, l * r.2.2.1, l * r.2.2.2.1, l * r.2.2.2.2) := by
  have hq := scale_interpolate U hl (fun c => U.netTotalCoolingCapacity (some c)) (fun c => (U.scale l).netTotalCoolingCapacity (some c))
    (fun c => scale_netTotal U hl (some c))
  have hp := scale_interpolate U hl (fun c => U.netCoolingPower (some c)) (fun c => (U.scale l).netCoolingPower (some c))
    (fun c => scale_netPower U hl (some c))
  simp only [coolingLines, hq, hp]
  rw [scale_netTotal U hl]
  cases U.netTotalCoolingCapacity (some P.aFull) <;> simp only [sc_ok, sc_error, Except.map, bind_ok, bind_error]
  cases pyAttr P.fLow <;> simp only [bind_ok, bind_error]
  cases pyAttr P.bLow <;> simp only [bind_ok, bind_error]
  rename_i f b
  cases interpolate U.db (fun c => U.netTotalCoolingCapacity (some c)) f b t <;> simp only [sc_ok, sc_error, bind_ok, bind_error]
  cases interpolate U.db (fun c => U.netCoolingPower (some c)) f b t <;> simp only [sc_ok, sc_error, bind_ok, bind_error]
  cases interpolate U.db (fun c => U.netTotalCoolingCapacity (some c)) P.bFull P.aFull t <;> simp only [sc_ok, sc_error, bind_ok, bind_error]
  cases interpolate U.db (fun c => U.netCoolingPower (some c)) P.bFull P.aFull t <;> simp only [sc_ok, sc_error, bind_ok, bind_error, pure_eq_ok,
    scale_load hl]

end
end Resdx.DX
