import Verif.Lemmas.Scale
import Verif.Lemmas.Hspf

/-! # Scaling the net powers of a unit only -/

set_option linter.unusedSectionVars false
set_option linter.unusedSimpArgs false

namespace Resdx.DX

open Spec Performance BaseModel

variable {C K : Type} [Field K] [LinearOrder K] [IsStrictOrderedRing K]

/-- `U'` delivers what `U` delivers at every condition and draws `k` times its power (net values, fan included). -/
structure PowerScaled (k : K) (U U' : Performance C K) : Prop where
  db : U'.db = U.db
  cool : ∀ c, U'.netTotalCoolingCapacity (some c) = U.netTotalCoolingCapacity (some c)
  coolP : ∀ c, U'.netCoolingPower (some c) = sc k (U.netCoolingPower (some c))
  heat : ∀ c, U'.netSteadyHeatingCapacity (some c) = U.netSteadyHeatingCapacity (some c)
  heatP : ∀ c, U'.netSteadyHeatingPower (some c) = sc k (U.netSteadyHeatingPower (some c))
  int : ∀ c, U'.netIntegratedHeatingCapacity (some c) = U.netIntegratedHeatingCapacity (some c)
  intP : ∀ c, U'.netIntegratedHeatingPower (some c) = sc k (U.netIntegratedHeatingPower (some c))

/-- Multiply the energy of a bin. -/
def scE (k : K) (x : Py (K × K)) : Py (K × K) := x.map fun r => (r.1, k * r.2)

/-- Multiply the first of two results. -/
def scF (k : K) (x : Py (K × K)) : Py (K × K) := x.map fun r => (k * r.1, r.2)

@[simp] theorem scE_ok (l : K) (a : K × K) : scE l (.ok a) = .ok (a.1, l * a.2) := rfl
@[simp] theorem scE_error (l : K) (e : PyErr) : scE l (.error e) = .error e := rfl
@[simp] theorem scF_ok (l : K) (a : K × K) : scF l (.ok a) = .ok (l * a.1, a.2) := rfl
@[simp] theorem scF_error (l : K) (e : PyErr) : scF l (.error e) = .error e := rfl

theorem pdiv_scale_right {k : K} (hk : k ≠ 0) (a b : K) : pdiv a (k * b) = sc k⁻¹ (pdiv a b) := by
  by_cases hb : b = 0
  · simp [hb, pdiv_zero]
  · rw [pdiv_ok hb, pdiv_ok (mul_ne_zero hk hb), sc_ok, Except.ok.injEq]
    field_simp

theorem pdiv_scale_inv {k : K} (hk : k ≠ 0) (a b : K) : pdiv a (k⁻¹ * b) = sc k (pdiv a b) := by
  rw [pdiv_scale_right (inv_ne_zero hk), inv_inv]

section
variable {k : K} (hk : k ≠ 0)

theorem thrift_separate (db : C → K) (f g f' g' : C → Py K) (hf : ∀ c, f' c = sc k (f c)) (hg : ∀ c, g' c = sc k (g c)) (c1 c2 : C) (x : K) :
    interpolateSeparate db f' g' c1 c2 x = sc k (interpolateSeparate db f g c1 c2 x) := by
  simp only [interpolateSeparate, hf, hg]
  cases f c1 <;> simp only [sc_ok, sc_error, bind_ok, bind_error]
  cases g c2 <;> simp only [sc_ok, sc_error, bind_ok, bind_error]
  rename_i a b
  rw [← mul_sub, pdiv_scale_left]
  cases pdiv (b - a) (db c2 - db c1) <;> simp only [sc_ok, sc_error, bind_ok, bind_error, pure_eq_ok, mul_add, mul_assoc]

theorem thrift_interpolate (db : C → K) (f f' : C → Py K) (hf : ∀ c, f' c = sc k (f c)) (c1 c2 : C) (x : K) :
    interpolate db f' c1 c2 x = sc k (interpolate db f c1 c2 x) := thrift_separate db f f f' f' hf hf c1 c2 x

include hk

theorem thrift_cyclingBin (cd bl q p n : K) : cyclingBin cd bl q (k * p) n = scE k (cyclingBin cd bl q p n) := by
  simp only [cyclingBin]
  cases pdiv bl q <;> simp only [scE_error, bind_ok, bind_error]
  rename_i a
  rw [show a * (k * p) * n = k * (a * p * n) by ring, pdiv_scale_left]
  cases pdiv (a * p * n) (1 - cd * (1 - a)) <;> simp only [sc_ok, sc_error, scE_ok, scE_error, bind_ok, bind_error, pure_eq_ok]

theorem thrift_twoStageBin (cd : K) (cyc : Cycling) (bl qL pL qF pF n : K) :
    twoStageBin cd cyc bl qL (k * pL) qF (k * pF) n = scE k (twoStageBin cd cyc bl qL pL qF pF n) := by
  simp only [twoStageBin]
  split
  · exact thrift_cyclingBin hk ..
  split
  · cases pdiv (qF - bl) (qF - qL) <;> simp only [scE_error, scE_ok, bind_ok, bind_error, pure_eq_ok, Except.ok.injEq, Prod.mk.injEq]
    exact ⟨trivial, by ring⟩
  split
  · exact thrift_cyclingBin hk ..
  · simp only [scE_ok, mul_assoc]

theorem thrift_modulatingBin (bl q0 c0 q1 c1 n : K) : modulatingBin bl q0 (k⁻¹ * c0) q1 (k⁻¹ * c1) n = scE k (modulatingBin bl q0 c0 q1 c1 n) := by
  simp only [modulatingBin]
  rw [← mul_sub, pdiv_scale_left]
  cases pdiv (c1 - c0) (q1 - q0) <;> simp only [sc_ok, sc_error, scE_error, bind_ok, bind_error]
  rename_i a
  rw [mul_assoc, ← mul_add, pdiv_scale_inv hk]
  cases pdiv (bl * n) (c0 + a * (bl - q0)) <;> simp only [sc_ok, sc_error, scE_error, scE_ok, bind_ok, bind_error, pure_eq_ok]

theorem thrift_varSpeedBin (cd bl qL pL qI pI qF pF n : K) :
    varSpeedBin cd bl qL (k * pL) qI (k * pI) qF (k * pF) n = scE k (varSpeedBin cd bl qL pL qI pI qF pF n) := by
  simp only [varSpeedBin, pdiv_scale_right hk]
  cases pdiv qL pL <;> simp only [scE_error, sc_error, sc_ok, bind_ok, bind_error]
  cases pdiv qI pI <;> simp only [scE_error, sc_error, sc_ok, bind_ok, bind_error]
  cases pdiv qF pF <;> simp only [scE_error, sc_error, sc_ok, bind_ok, bind_error]
  split
  · exact thrift_cyclingBin hk ..
  split
  · exact thrift_modulatingBin hk ..
  split
  · exact thrift_modulatingBin hk ..
  · simp only [scE_ok, mul_assoc]

theorem thrift_binLoop (f f' : K → K → Py (K × K)) (h : ∀ t n, f' t n = scE k (f t n)) (bins : List (K × K)) (q e : K) :
    binLoop f' bins q (k * e) = scE k (binLoop f bins q e) := by
  induction bins generalizing q e with
  | nil => rfl
  | cons b l ih =>
    obtain ⟨t, n⟩ := b
    simp only [binLoop, h]
    cases f t n <;> simp only [scE_error, scE_ok, bind_ok, bind_error]
    rw [← mul_add]
    exact ih ..

section
variable {U U' : Performance C K} (h : PowerScaled k U U') (P : Points C)
include h

theorem thrift_coolingLines (t : K) :
    coolingLines U' P t = (coolingLines U P t).map fun r => (r.1, r.2.1, k * r.2.2.1, r.2.2.2.1, k * r.2.2.2.2) := by
  simp only [coolingLines, h.db, h.cool]
  cases U.netTotalCoolingCapacity (some P.aFull) <;> simp only [bind_ok, bind_error, Except.map]
  cases pyAttr P.fLow <;> simp only [bind_ok, bind_error]
  cases pyAttr P.bLow <;> simp only [bind_ok, bind_error]
  simp only [thrift_interpolate (k := k) U.db (fun c => U.netCoolingPower (some c)) (fun c => U'.netCoolingPower (some c)) h.coolP]
  rename_i qa fl bl
  cases interpolate U.db (fun c => U.netTotalCoolingCapacity (some c)) fl bl t <;> simp only [bind_ok, bind_error]
  cases interpolate U.db (fun c => U.netCoolingPower (some c)) fl bl t <;> simp only [bind_ok, bind_error, sc_ok, sc_error]
  cases interpolate U.db (fun c => U.netTotalCoolingCapacity (some c)) P.bFull P.aFull t <;> simp only [bind_ok, bind_error]
  cases interpolate U.db (fun c => U.netCoolingPower (some c)) P.bFull P.aFull t <;> simp only [bind_ok, bind_error, sc_ok, sc_error, pure_eq_ok]

theorem thrift_coolingIntermediate :
    coolingIntermediate U' P (fun c => U'.netCoolingPower (some c)) = sc2 k (coolingIntermediate U P fun c => U.netCoolingPower (some c)) := by
  simp only [coolingIntermediate, h.db]
  simp only [thrift_interpolate (k := k) U.db (fun c => U.netCoolingPower (some c)) (fun c => U'.netCoolingPower (some c)) h.coolP]
  simp only [h.coolP]
  cases U.netCoolingPower (some P.aFull) <;> simp only [sc_ok, sc_error, sc2_error, bind_ok, bind_error]
  cases U.netCoolingPower (some P.bFull) <;> simp only [sc_ok, sc_error, sc2_error, bind_ok, bind_error]
  cases pyAttr P.bLow <;> simp only [bind_ok, bind_error, sc2_error]
  rename_i bl
  cases U.netCoolingPower (some bl) <;> simp only [sc_ok, sc_error, sc2_error, bind_ok, bind_error]
  cases pyAttr P.fLow <;> simp only [bind_ok, bind_error, sc2_error]
  rename_i fl
  cases U.netCoolingPower (some fl) <;> simp only [sc_ok, sc_error, sc2_error, bind_ok, bind_error]
  cases pyAttr P.eInt <;> simp only [bind_ok, bind_error, sc2_error]
  rename_i ei
  cases U.netCoolingPower (some ei) <;> simp only [sc_ok, sc_error, sc2_error, bind_ok, bind_error]
  cases interpolate U.db (fun c => U.netCoolingPower (some c)) fl bl (frF 87) <;> simp only [bind_ok, bind_error, sc_ok, sc_error, sc2_error]
  cases interpolate U.db (fun c => U.netCoolingPower (some c)) P.bFull P.aFull (frF 87) <;> simp only [bind_ok, bind_error, sc_ok, sc_error, sc2_error]
  rw [← mul_sub, ← mul_sub, pdiv_scale hk]
  rename_i e low full
  cases pdiv (e - low) (full - low) <;> simp only [bind_ok, bind_error, sc2_ok, sc2_error, pure_eq_ok, Except.ok.injEq, Prod.mk.injEq]
  exact ⟨trivial, by ring⟩

end

/-! ## Heating -/

theorem thrift_singleBin (cd bl q p d hlf n : K) : heatSingleBin cd bl q (k * p) d hlf n = scF k (heatSingleBin cd bl q p d hlf n) := by
  simp only [heatSingleBin]
  rw [show k * p * hlf * d * n = k * (p * hlf * d * n) by ring, pdiv_scale_left]
  cases pdiv (p * hlf * d * n) (1 - cd * (1 - hlf)) <;> simp only [sc_ok, sc_error, scF_ok, scF_error, bind_ok, bind_error, pure_eq_ok]

theorem thrift_lowBin (cd bl q p d n : K) : heatLowBin cd bl q (k * p) d n = scF k (heatLowBin cd bl q p d n) := by
  simp only [heatLowBin]
  cases pdiv bl q <;> simp only [scF_error, bind_ok, bind_error]
  rename_i a
  rw [show k * p * a * d * n = k * (p * a * d * n) by ring, pdiv_scale_left]
  cases pdiv (p * a * d * n) (1 - cd * (1 - a)) <;> simp only [sc_ok, sc_error, scF_ok, scF_error, bind_ok, bind_error, pure_eq_ok]

omit hk in
theorem thrift_cut {off t cop : K} (on : Option K) (hk : 0 < k) (hk1 : k ≤ 1) (hc : off < t → 1 ≤ cop) :
    cutFactor off on t (k⁻¹ * cop) = cutFactor off on t cop := by
  unfold cutFactor
  by_cases ht : t ≤ off
  · simp [ht]
  · have h1 := hc (not_le.1 ht)
    have h2 : 1 ≤ k⁻¹ * cop := by
      have : 1 ≤ k⁻¹ := (one_le_inv₀ hk).2 hk1
      nlinarith
    simp only [ht, not_lt.2 h1, not_lt.2 h2]

end

/-- Multiply the compressor's energy in a bin. -/
def scB (k : K) (x : Py ((K × K) × Option K)) : Py ((K × K) × Option K) := x.map fun r => ((k * r.1.1, r.1.2), r.2)

@[simp] theorem scB_ok (l : K) (a : (K × K) × Option K) : scB l (.ok a) = .ok ((l * a.1.1, a.1.2), a.2) := rfl
@[simp] theorem scB_error (l : K) (e : PyErr) : scB l (.error e) = .error e := rfl

/-- Multiply the compressor's energy in a bin or a season. -/
def scH (k : K) (r : K × K × K) : K × K × K := (r.1, k * r.2.1, r.2.2)

section
variable {k : K} (hk : 0 < k) (hk1 : k ≤ 1)
include hk hk1

theorem thrift_twoBin {s : HeatSettings K} {prev : Option K} {t bl qL pL cL qF pF d hlf n : K} (hc : s.off < t → 1 ≤ cL) :
    heatTwoBin s prev t bl qL (k * pL) (k⁻¹ * cL) qF (k * pF) d hlf n = scB k (heatTwoBin s prev t bl qL pL cL qF pF d hlf n) := by
  simp only [heatTwoBin, thrift_cut s.on hk hk1 hc, thrift_lowBin hk.ne']
  split
  · cases cutFactor s.off s.on t cL <;> simp only [scB_error, bind_ok, bind_error]
    rename_i a
    cases heatLowBin s.cd bl qL pL a n <;> simp only [scF_error, scF_ok, scB_ok, scB_error, bind_ok, bind_error, pure_eq_ok]
  split
  · cases pdiv (qF - bl) (qF - qL) <;> simp only [scB_error, bind_ok, bind_error]
    cases heatTwoBin.pyLocal prev <;> simp only [scB_error, scB_ok, bind_ok, bind_error, pure_eq_ok, Except.ok.injEq, Prod.mk.injEq, and_true]
    ring
  split
  · cases pdiv (qF - bl) (qF - qL) <;> simp only [scB_error, bind_ok, bind_error]
    rename_i a
    rw [show k * pF * hlf * d * n = k * (pF * hlf * d * n) by ring, pdiv_scale_left]
    cases pdiv (pF * hlf * d * n) (1 - s.cd * (1 - a)) <;> simp only [sc_ok, sc_error, scB_error, bind_ok, bind_error]
    cases heatTwoBin.pyLocal prev <;> simp only [scB_error, scB_ok, bind_ok, bind_error, pure_eq_ok]
  · simp only [scB_ok, Except.ok.injEq, Prod.mk.injEq, and_true]
    ring

theorem thrift_heatModulating {s : HeatSettings K} {t bl q0 c0 q1 c1 n : K} (hq : q0 < q1) (h0 : q0 ≤ bl) (h1 : bl ≤ q1) (hc0 : s.off < t → 1 ≤ c0)
    (hc1 : s.off < t → 1 ≤ c1) : heatModulatingBin s t bl q0 (k⁻¹ * c0) q1 (k⁻¹ * c1) n = scF k (heatModulatingBin s t bl q0 c0 q1 c1 n) := by
  have hne : q1 - q0 ≠ 0 := sub_ne_zero.2 hq.ne'
  simp only [heatModulatingBin, pdiv_ok hne, bind_ok]
  have hc : s.off < t → 1 ≤ c0 + (c1 - c0) / (q1 - q0) * (bl - q0) := fun ht => by
    obtain ⟨a, a0, a1, ea⟩ := lineAt_convex (y0 := c0) (y1 := c1) hq h0 h1
    have e : c0 + (c1 - c0) / (q1 - q0) * (bl - q0) = lineAt q0 c0 q1 c1 bl := by unfold lineAt; ring
    rw [e, ea]
    nlinarith [hc0 ht, hc1 ht]
  rw [show k⁻¹ * c0 + (k⁻¹ * c1 - k⁻¹ * c0) / (q1 - q0) * (bl - q0) = k⁻¹ * (c0 + (c1 - c0) / (q1 - q0) * (bl - q0)) by ring, thrift_cut s.on hk hk1 hc,
    pdiv_scale_inv hk.ne']
  cases cutFactor s.off s.on t (c0 + (c1 - c0) / (q1 - q0) * (bl - q0)) <;> simp only [scF_error, bind_ok, bind_error]
  cases pdiv (bl * n) (c0 + (c1 - c0) / (q1 - q0) * (bl - q0)) <;>
    simp only [sc_ok, sc_error, scF_error, scF_ok, bind_ok, bind_error, pure_eq_ok, mul_assoc]

theorem thrift_heatVar {s : HeatSettings K} {t bl qL pL cL qI cI qF cF d n : K} {again again' : Py (K × K)} (ha : again' = scE k again)
    (hL : s.off < t → 1 ≤ cL) (hI : s.off < t → 1 ≤ cI) (hF : s.off < t → 1 ≤ cF) :
    heatVarBin s t bl qL (k * pL) (k⁻¹ * cL) qI (k⁻¹ * cI) qF (k⁻¹ * cF) d n again' = scF k (heatVarBin s t bl qL pL cL qI cI qF cF d n again) := by
  subst ha
  simp only [heatVarBin, thrift_cut s.on hk hk1 hL, thrift_lowBin hk.ne']
  split
  · cases cutFactor s.off s.on t cL <;> simp only [scF_error, bind_ok, bind_error]
  rename_i hb
  have hb := not_le.1 hb
  split
  · split
    · exact thrift_heatModulating hk hk1 (hb.trans_le ‹_›) hb.le ‹_› hL hI
    · rename_i h2 h3
      exact thrift_heatModulating hk hk1 ((not_le.1 h3).trans h2) (not_le.1 h3).le h2.le hI hF
  · cases again <;> simp only [scE_error, scE_ok, scF_error, scF_ok, bind_ok, bind_error, pure_eq_ok, Except.ok.injEq, Prod.mk.injEq, and_true]
    ring

end

section
variable {k : K} {U U' : Performance C K} (h : PowerScaled k U U') (P : Points C)
include h

theorem thrift_sI (c1 c2 : C) (x : K) : interpolate U.db (sPow U') c1 c2 x = sc k (interpolate U.db (sPow U) c1 c2 x) :=
  thrift_interpolate U.db _ _ h.heatP c1 c2 x

theorem thrift_si (c1 c2 : C) (x : K) : interpolateSeparate U.db (sPow U') (iPow U') c1 c2 x = sc k (interpolateSeparate U.db (sPow U) (iPow U) c1 c2 x) :=
  thrift_separate U.db _ _ _ _ h.heatP h.intP c1 c2 x

theorem thrift_is (c1 c2 : C) (x : K) : interpolateSeparate U.db (iPow U') (sPow U') c1 c2 x = sc k (interpolateSeparate U.db (iPow U) (sPow U) c1 c2 x) :=
  thrift_separate U.db _ _ _ _ h.intP h.heatP c1 c2 x

theorem thrift_sCap : sCap U' = sCap U := funext h.heat
theorem thrift_iCap : iCap U' = iCap U := funext h.int

/-- A pair read one after the other. -/
theorem thrift_pair (x y y' : Py K) (hy : y' = sc k y) : (do let q ← x; return (q, ← y') : Py (K × K)) = scE k (do let q ← x; return (q, ← y)) := by
  subst hy
  cases x <;> simp only [bind_ok, bind_error, scE_error]
  cases y <;> simp only [bind_ok, bind_error, sc_ok, sc_error, scE_error, scE_ok, pure_eq_ok]

theorem thrift_heatFull (t : K) : heatFull U' P t = scE k (heatFull U P t) := by
  simp only [heatFull, h.db, thrift_sCap h, thrift_iCap h]
  split
  · exact thrift_pair h _ _ _ (thrift_sI h ..)
  · exact thrift_pair h _ _ _ (thrift_si h ..)

theorem thrift_lowTwo (t : K) : heatLowTwo U' P t = scE k (heatLowTwo U P t) := by
  simp only [heatLowTwo, h.db, thrift_sCap h, thrift_iCap h]
  cases pyAttr P.h0Low <;> cases pyAttr P.h1Low <;> cases pyAttr P.h2Low <;> cases pyAttr P.h3Low <;> simp only [bind_ok, bind_error] <;>
    (split <;> [skip; split]) <;>
    first
      | rfl
      | exact thrift_pair h _ _ _ (thrift_sI h ..)
      | exact thrift_pair h _ _ _ (thrift_is h ..)

theorem thrift_lowVar (t : K) : heatLowVar U' P t = scE k (heatLowVar U P t) := by
  simp only [heatLowVar, h.db, thrift_sCap h]
  cases pyAttr P.h0Low <;> cases pyAttr P.h1Low <;> simp only [bind_ok, bind_error] <;>
    first
      | rfl
      | exact thrift_pair h _ _ _ (thrift_sI h ..)

theorem thrift_again (h1 h3 h4 : K × K) (old : K × K) (t : K) :
    heatFullAgain U' P (h1.1, k * h1.2) (h3.1, k * h3.2) (h4.1, k * h4.2) (old.1, k * old.2) t = scE k (heatFullAgain U P h1 h3 h4 old t) := by
  simp only [heatFullAgain, h.db, thrift_sCap h]
  split
  · exact thrift_pair h _ _ _ (thrift_sI h ..)
  split
  · simp only [scE_ok, Except.ok.injEq, Prod.mk.injEq, true_and]
    ring
  · rfl

theorem thrift_load (u : Units K) (st : Staging) (std : RatingStandard) (d : HeatDist K) : heatingLoad U' P u st std d = heatingLoad U P u st std d := by
  cases std <;> simp only [heatingLoad, h.heat, h.cool]

/-- The intermediate values with the powers multiplied. -/
def scI (k : K) (I : HeatIntermediate K) : HeatIntermediate K :=
  ⟨I.q, I.mQ, k * I.p, k * I.mP, (I.h1.1, k * I.h1.2), (I.h3.1, k * I.h3.2), (I.h4.1, k * I.h4.2)⟩

theorem thrift_intermediateOf (hk : k ≠ 0) :
    heatIntermediateOf U' P (sPow U') (iPow U') =
      (heatIntermediateOf U P (sPow U) (iPow U)).map fun r => ((k * r.1.1, k * r.1.2), k * r.2.1, k * r.2.2.1, k * r.2.2.2) := by
  have e1 : ∀ c, sPow U' c = sc k (sPow U c) := h.heatP
  have e2 : ∀ c, iPow U' c = sc k (iPow U c) := h.intP
  simp only [heatIntermediateOf, h.db, thrift_sI h, e1, e2]
  cases pyAttr P.h0Low <;> simp only [bind_ok, bind_error, Except.map]
  rename_i c0
  cases sPow U c0 <;> simp only [sc_ok, sc_error, bind_ok, bind_error]
  cases pyAttr P.h1Low <;> simp only [bind_ok, bind_error]
  rename_i c1
  cases sPow U c1 <;> simp only [sc_ok, sc_error, bind_ok, bind_error]
  cases pyAttr P.h2Int <;> simp only [bind_ok, bind_error]
  rename_i c2
  cases iPow U c2 <;> simp only [sc_ok, sc_error, bind_ok, bind_error]
  cases sPow U P.h1Full <;> simp only [sc_ok, sc_error, bind_ok, bind_error]
  cases iPow U P.h2Full <;> simp only [sc_ok, sc_error, bind_ok, bind_error]
  cases sPow U P.h3Full <;> simp only [sc_ok, sc_error, bind_ok, bind_error]
  cases sPow U P.h4Full <;> simp only [sc_ok, sc_error, bind_ok, bind_error]
  cases interpolate U.db (sPow U) c0 c1 (frF 35) <;> simp only [sc_ok, sc_error, bind_ok, bind_error]
  rw [← mul_sub, ← mul_sub, pdiv_scale hk]
  rename_i y2 _ z2 _ _ low
  cases pdiv (y2 - low) (z2 - low) <;> simp only [bind_ok, bind_error, pure_eq_ok, Except.ok.injEq, Prod.mk.injEq, true_and, and_true]
  ring

theorem thrift_intermediate (hk : k ≠ 0) : heatIntermediate U' P = (heatIntermediate U P).map (scI k) := by
  have e0 : heatIntermediateOf U' P (sCap U') (iCap U') = heatIntermediateOf U P (sCap U) (iCap U) := by
    rw [thrift_sCap h, thrift_iCap h]; simp only [heatIntermediateOf, h.db]
  simp only [heatIntermediate, e0, thrift_intermediateOf h P hk]
  cases heatIntermediateOf U P (sCap U) (iCap U) <;> simp only [bind_ok, bind_error, Except.map]
  cases heatIntermediateOf U P (sPow U) (iPow U) <;> simp only [bind_ok, bind_error, pure_eq_ok, scI]

end
end Resdx.DX
