import Verif.Lemmas.HeatingCop
import Verif.Props.ResnetReturns

/-!
# C67 and C94: the rating solver, and what the heating ratings change

`make_rating_unit` searches for the COP at 82 °F that gives the requested SEER2, then for the COP at 47 °F that gives the requested HSPF2. The solver is a parameter; the theorems bound the ratings of
the returned unit by the residual the solver leaves at the point it returns (zero for an exact root).
-/

set_option linter.unusedSectionVars false
set_option linter.unusedSimpArgs false

namespace Resdx.DX

variable {C K : Type} [Field K] [LinearOrder K]

open Performance

/-- SEER2 is a function of the net cooling capacities and powers at the cooling tests. -/
theorem seer_congr {U U' : Performance C K} {P : Points C} {Q : C → Prop} (hdb : U'.db = U.db) (hq : ∀ c, Q c → U'.netTotalCoolingCapacity (some c) = U.netTotalCoolingCapacity (some c))
    (hp : ∀ c, Q c → U'.netCoolingPower (some c) = U.netCoolingPower (some c)) (ha : Q P.aFull) (hb : Q P.bFull) (hbl : ∀ c, P.bLow = some c → Q c) (hfl : ∀ c, P.fLow = some c → Q c)
    (he : ∀ c, P.eInt = some c → Q c) (u : Units K) (st : BaseModel.Staging) (cd : K) (cyc : Cycling) (bins : List (K × K)) : seer U' P u st cd cyc bins = seer U P u st cd cyc bins := by
  have hl : coolingLines U' P = coolingLines U P := by
    funext t
    unfold coolingLines interpolate interpolateSeparate
    rw [hdb]
    cases h1 : P.fLow with
    | none => simp only [pyAttr, bind_error, hq _ ha]
    | some f =>
      cases h2 : P.bLow with
      | none => simp only [pyAttr, bind_error, bind_ok, hq _ ha]
      | some b => simp only [pyAttr, bind_ok, hq _ ha, hp _ ha, hq _ hb, hp _ hb, hq _ (hbl b h2), hp _ (hbl b h2), hq _ (hfl f h1), hp _ (hfl f h1)]
  have hi : ∀ f g : C → Py K, (∀ c, Q c → f c = g c) → coolingIntermediate U' P f = coolingIntermediate U P g := by
    intro f g hfg
    unfold coolingIntermediate interpolate interpolateSeparate
    rw [hdb, hfg _ ha, hfg _ hb]
    cases h2 : P.bLow with
    | none => simp only [pyAttr, bind_error]
    | some b =>
      cases h1 : P.fLow with
      | none => simp only [pyAttr, bind_error, bind_ok, hfg _ (hbl b h2)]
      | some x =>
        cases h3 : P.eInt with
        | none => simp only [pyAttr, bind_error, bind_ok, hfg _ (hbl b h2), hfg _ (hfl x h1)]
        | some e => simp only [pyAttr, bind_ok, hfg _ (hbl b h2), hfg _ (hfl x h1), hfg _ (he e h3), hfg _ ha, hfg _ hb]
  unfold seer
  cases st with
  | single => simp only [netTotalCoolingCOP, hq _ hb, hp _ hb]
  | two =>
    have : seerTwoBin U' P cd cyc = seerTwoBin U P cd cyc := by funext t n; simp only [seerTwoBin, hl]
    simp only [this]
  | varSpeed =>
    have : ∀ a b c d, seerVarBin U' P cd a b c d = seerVarBin U P cd a b c d := by intro a b c d; funext t n; simp only [seerVarBin, hl]
    simp only [this, hi _ _ hq, hi _ _ hp]

end Resdx.DX

namespace Resdx.Build

open BaseModel Fan ResnetFan Tabular Spec

variable {u : Units ℝ} {E : Env ℝ} {T : Coil.Tools} {brentq : Brentq} {a : Args} {B B' : Built} {cop hspf : Option ℝ}

/-! ## C94: the heating ratings do not touch the cooling side -/

/-- C94: two units constructed from arguments that differ only in the heating COP and the HSPF2 have the same capacities, power and sensible capacity in every cooling condition, whatever the
refrigerant charge. -/
theorem C94_cooling_performance (h : build u E T brentq a = .ok B) (h' : build u E T brentq { a with netHeatingCop := cop, hspf := hspf } = .ok B') {c : Conditions ℝ} (hc : c.heating = false) :
    (B'.unit u E T brentq).netTotalCoolingCapacity (some c) = (B.unit u E T brentq).netTotalCoolingCapacity (some c) ∧
      (B'.unit u E T brentq).netCoolingPower (some c) = (B.unit u E T brentq).netCoolingPower (some c) ∧
      (B'.unit u E T brentq).netSensibleCoolingCapacity (some c) = (B.unit u E T brentq).netSensibleCoolingCapacity (some c) := by
  obtain ⟨⟨p, g, n, m, rfl⟩, -⟩ := build_powers h h'
  have e : (B.withPowers p g n m).unit u E T brentq = performance u E T brentq (B.core.withPowers p g n m) (withCop B.sys m) B.points B.coil.ntu := rfl
  have e2 : B.unit u E T brentq = performance u E T brentq B.core B.sys B.points B.coil.ntu := rfl
  rw [e, e2]
  simp only [ DX.Performance.netTotalCoolingCapacity, DX.Performance.netCoolingPower, DX.Performance.netSensibleCoolingCapacity, DX.Performance.grossSensibleCoolingCapacity,
    DX.Performance.coolingFanHeat, DX.Performance.coolingFanPower, Option.getD_some, total_agree hc, power_agree hc, sensible_agree hc, fan_agree, and_self]

/-- C94: nor do they change the SEER2, the EER2, the rated sensible heat ratios or the rated airflows. -/
theorem C94_cooling_ratings (h : build u E T brentq a = .ok B) (h' : build u E T brentq { a with netHeatingCop := cop, hspf := hspf } = .ok B') :
    B'.seer u E T brentq = B.seer u E T brentq ∧ B'.eer u E T brentq = B.eer u E T brentq ∧ B'.coil.shr = B.coil.shr ∧ B'.sys.coolingAirflow = B.sys.coolingAirflow ∧
      B'.sys.heatingAirflow = B.sys.heatingAirflow := by
  have hp := build_powers h h'
  obtain ⟨⟨p, g, n, m, e⟩, rc, rh, hP⟩ := hp
  have hm : ∀ t c, Ratings.testHeating t = false → Ratings.get B.points t = some c → c.heating = false := fun t c ht hc => (cooling_mode hP hc).trans ht
  have k := fun (c : Conditions ℝ) (hc : c.heating = false) => C94_cooling_performance h h' hc
  subst e
  refine ⟨?_, ?_, rfl, rfl, rfl⟩
  · exact DX.seer_congr (U' := (B.withPowers p g n m).unit u E T brentq) (U := B.unit u E T brentq) (P := B.points) (Q := fun c => c.heating = false) rfl (fun c hc => (k c hc).1) (fun c hc => (k c hc).2.1) (hm .aFull _ rfl rfl) (hm .bFull _ rfl rfl) (fun c hc => hm .bLow c rfl hc)
      (fun c hc => hm .fLow c rfl hc) (fun c hc => hm .eInt c rfl hc) ..
  · obtain ⟨k1, k2, -⟩ := k B.points.aFull (hm .aFull _ rfl rfl)
    have e1 : ∀ U : DX.Performance (Conditions ℝ) ℝ, U.netTotalCoolingCapacity none = U.netTotalCoolingCapacity (some U.aFull) := fun U => rfl
    have e2 : ∀ U : DX.Performance (Conditions ℝ) ℝ, U.netCoolingPower none = U.netCoolingPower (some U.aFull) := fun U => rfl
    simp only [Built.eer, DX.Performance.eer, DX.Performance.netTotalCoolingCOP]
    rw [e1, e1, e2, e2]
    exact congrArg₂ (fun x y => do pdiv (← (do pdiv (← x) (← y))) u.btuh) k1 k2

/-- C94: nor the heating capacities, with or without defrost. -/
theorem C94_heating_capacity (h : build u E T brentq a = .ok B) (h' : build u E T brentq { a with netHeatingCop := cop, hspf := hspf } = .ok B') (c : Conditions ℝ) :
    (B'.unit u E T brentq).netSteadyHeatingCapacity (some c) = (B.unit u E T brentq).netSteadyHeatingCapacity (some c) ∧
      (B'.unit u E T brentq).netIntegratedHeatingCapacity (some c) = (B.unit u E T brentq).netIntegratedHeatingCapacity (some c) := by
  obtain ⟨⟨p, g, n, m, rfl⟩, -⟩ := build_powers h h'
  have e : (B.withPowers p g n m).unit u E T brentq = performance u E T brentq (B.core.withPowers p g n m) (withCop B.sys m) B.points B.coil.ntu := rfl
  have e2 : B.unit u E T brentq = performance u E T brentq B.core B.sys B.points B.coil.ntu := rfl
  rw [e, e2]
  simp only [ DX.Performance.netSteadyHeatingCapacity, DX.Performance.netIntegratedHeatingCapacity, DX.Performance.grossSteadyHeatingCapacity, DX.Performance.grossIntegratedHeatingCapacity,
    DX.Performance.heatingFanPower, Option.getD_some, heatCap_agree, heatCharge_agree, intCap_agree, fan_agree, and_self]

/-! ## C67: the rating solver -/

/-- What is asked of scipy's `newton`: at the point it returns the function returns, with absolute value at most `ε`. -/
def SolvesWithin (ε : ℝ) (newton : Coil.Newton) : Prop := ∀ f x r, newton f x = .ok r → ∃ y, f r = .ok y ∧ |y| ≤ ε

variable {newton : Coil.Newton} {R : Request} {ε : ℝ}

/-- The steps of `make_rating_unit`. -/
theorem makeRatingUnit_ok (h : makeRatingUnit u E T brentq newton R = .ok B) :
    ∃ cop82 cop47, (R.staging = .single ∨ newton (seerResidual u E T brentq R) (R.seer / 3) = .ok cop82) ∧ newton (hspfResidual u E T brentq R cop82) (R.hspf / 2) = .ok cop47 ∧
      build u E T brentq (requestArgs u R cop82 (some cop47)) = .ok B := by
  unfold makeRatingUnit at h
  split at h
  · rename_i hs
    simp only [bind_eq_ok, Except.ok.injEq] at h
    obtain ⟨c, -, d, h2, h3⟩ := h
    exact ⟨c, d, .inl hs, h2, h3⟩
  · simp only [bind_eq_ok] at h
    obtain ⟨c, h1, d, h2, h3⟩ := h
    exact ⟨c, d, .inr h1, h2, h3⟩

/-- The unit of a request has the requested staging. -/
theorem request_staging {c d} (h : build u E T brentq (requestArgs u R c d) = .ok B) : B.core.st = R.staging := by
  obtain ⟨st0, st, _, net, _, _, b1, b2, -, b4, -, -, -, b8, -⟩ := build_ok h
  have e : B.core.st = st := by
    unfold core at b8
    simp only [bind_eq_ok, pure_eq_ok, Except.ok.injEq] at b8
    obtain ⟨qc, -, qh, -, esp, -, ⟨cool, heat, fan⟩, -, cp, -, hp, -, gross, -, ncc, -, gcc, -, nhc, -, ghc, -, h12⟩ := b8
    rw [← h12]
  simp only [requestArgs, stagingOf, modelStaging, Except.ok.injEq] at b1 b2
  rw [e, ← b2, ← b1]

/-- A single-stage unit of a request has a PSC motor. -/
theorem request_motor {c d} (h : build u E T brentq (requestArgs u R c d) = .ok B) (hst : R.staging = .single) : B.core.psc = true := by
  obtain ⟨fc, fh, F⟩ := built_facts h (by intro d hd; cases hd)
  rw [F.psc, request_staging h, hst]; rfl

/-- C67: the HSPF2 of the unit that `make_rating_unit` returns is the requested one, up to the residual left by the search. -/
theorem C67_hspf (hn : SolvesWithin ε newton) (h : makeRatingUnit u E T brentq newton R = .ok B) : ∃ v, B.hspf u E T brentq = .ok v ∧ |v - R.hspf| ≤ ε := by
  obtain ⟨c, d, -, h2, h3⟩ := makeRatingUnit_ok h
  obtain ⟨y, hy, hε⟩ := hn _ _ _ h2
  simp only [hspfResidual, h3, bind_ok, bind_eq_ok, pure_eq_ok, Except.ok.injEq] at hy
  obtain ⟨v, hv, rfl⟩ := hy
  exact ⟨v, hv, hε⟩

/-- C67: so is the SEER2 of a unit with more than one speed: the heating search that follows does not move it. -/
theorem C67_seer_staged (hn : SolvesWithin ε newton) (h : makeRatingUnit u E T brentq newton R = .ok B) (hst : R.staging ≠ .single) : ∃ v, B.seer u E T brentq = .ok v ∧ |v - R.seer| ≤ ε := by
  obtain ⟨c, d, h1, -, h3⟩ := makeRatingUnit_ok h
  obtain ⟨y, hy, hε⟩ := hn _ _ _ (h1.resolve_left hst)
  simp only [seerResidual, bind_eq_ok, pure_eq_ok, Except.ok.injEq] at hy
  obtain ⟨B0, hb, v, hv, rfl⟩ := hy
  have e := C94_cooling_ratings (cop := some d) (hspf := some R.hspf) hb (B' := B) h3
  exact ⟨v, e.1.trans hv, hε⟩

/-- C67: a single-stage unit has exactly the requested SEER2, and the requested EER2 if there is one. -/
theorem C67_seer_single (h : makeRatingUnit u E T brentq newton R = .ok B) (hst : R.staging = .single) (h95 : Outdoor E (frF 95)) (h82 : Outdoor E (frF 82)) :
    B.seer u E T brentq = .ok R.seer ∧ (∀ e, R.eer = some e → B.eer u E T brentq = .ok e) ∧ (B.unit u E T brentq).netTotalCoolingCapacity none = .ok R.q95 := by
  obtain ⟨c, d, -, -, h3⟩ := makeRatingUnit_ok h
  have hs : B.core.st = .single := (request_staging h3).trans hst
  have hp : B.core.psc = true := request_motor h3 hst
  obtain ⟨q, seer, eer, e1, e2, e3, e4, e5, e6⟩ := C45_cooling h3 hs rfl rfl (.inl hp) h95 h82
  cases e1; cases e2
  refine ⟨e5, fun e he => ?_, e6⟩
  have : inputEer (requestArgs u R c (some d)) = some e := by simp [inputEer, requestArgs, he]
  rw [this] at e3; cases e3; exact e4

/-- The net heating capacities at two outdoor conditions of one speed differ by what the net table says, whatever the motor: the fan power is the same in both. -/
theorem heating_difference (h : build u E T brentq a = .ok B) (ht : ∀ d, a.tables = some d → RatedTables (tableSpeeds B.core.st) d) (hd : a.chargeDeviation = 0) {i : Nat} {σ : ℝ}
    (hσ : TableSpeed B.core.st i σ) (h32 : σ ≠ 3 / 2) {o o' : Psych.PsychState ℝ} (hr : Outdoor E o.db) (hr' : Outdoor E o'.db) {c c' : Conditions ℝ}
    (hc : B.sys.makeCondition E true i none (some o) = .ok c) (hc' : B.sys.makeCondition E true i none (some o') = .ok c') {q q' v v' : ℝ}
    (hq : B.core.net.heatingCapacity σ o.db = .ok q) (hq' : B.core.net.heatingCapacity σ o'.db = .ok q') (hv : (B.unit u E T brentq).netSteadyHeatingCapacity (some c) = .ok v)
    (hv' : (B.unit u E T brentq).netSteadyHeatingCapacity (some c') = .ok v') : v - v' = q - q' := by
  obtain ⟨fc, fh, F⟩ := built_facts h ht
  obtain ⟨_, _, _, _, _, _, -, -, -, -, -, -, -, -, hS, -⟩ := build_ok h
  obtain ⟨Q, hQ, hQ0⟩ := rated_heating F hS hσ h32
  obtain ⟨r, hr⟩ := hr
  obtain ⟨r', hr'⟩ := hr'
  obtain ⟨g1, g2⟩ := gross_heating F hS hσ hQ hQ0.ne' hr hc
  obtain ⟨g1', g2'⟩ := gross_heating F hS hσ hQ hQ0.ne' hr' hc'
  obtain ⟨z, k1, k2⟩ := F.gross.heatCap σ o.db
  obtain ⟨z', k1', k2'⟩ := F.gross.heatCap σ o'.db
  rw [hq] at k1; cases k1
  rw [hq'] at k1'; cases k1'
  obtain ⟨p, -, p2⟩ := F.gross.heatPow σ o.db
  obtain ⟨p', -, p2'⟩ := F.gross.heatPow σ o'.db
  have hdv : B.sys.chargeDeviation = 0 := by rw [(sys_ok hS).2.2.2.2.2.2.2.2.2.2.2.1, hd]
  have hfl : c.flow = c'.flow := by
    obtain ⟨rho, pr, x, cap, n, -, -, -, -, e1, e2, e3, ⟨full, e4, -, e5⟩, e6, rfl⟩ := Sys.makeCondition_spec E B.sys true _ _ _ _ hc
    obtain ⟨rho', pr', x', cap', n', -, -, -, -, d1, d2, d3, ⟨full', d4, -, d5⟩, d6, rfl⟩ := Sys.makeCondition_spec E B.sys true _ _ _ _ hc'
    rw [e1] at d1; cases d1
    rw [e2] at d2; cases d2
    rw [e3] at d3; cases d3
    rw [e4] at d4; cases d4
    rw [e6] at d6; cases d6
    rw [e5, d5]
  have hff : fanPower u brentq B.core c = fanPower u brentq B.core c' := by simp only [fanPower, hfl]
  cases hw : fanPower u brentq B.core c with
  | error e =>
    exfalso
    have e1 : B.unit u E T brentq = performance u E T brentq B.core B.sys B.points B.coil.ntu := rfl
    rw [e1] at hv
    simp only [DX.Performance.netSteadyHeatingCapacity, DX.Performance.grossSteadyHeatingCapacity, DX.Performance.heatingFanPower, performance, Resnet.unit, Option.getD_some, g1.trans k2,
      Nrel.gradingModel, hdv, if_true, bind_ok, hw, bind_error] at hv
    cases hv
  | ok w =>
    have n1 := (unit_heating (u := u) (T := T) (P := B.points) (ntu := B.coil.ntu) hdv (g1.trans k2) (g2.trans p2) hw).1
    have n2 := (unit_heating (u := u) (T := T) (P := B.points) (ntu := B.coil.ntu) hdv (g1'.trans k2') (g2'.trans p2') (hff ▸ hw)).1
    have m1 := hv.symm.trans n1
    have m2 := hv'.symm.trans n2
    cases m1; cases m2; ring

/-- C67: the net capacity at the H1 test exceeds that at the H3 test by `1 - qm17` of the given capacity at 47 °F, whatever the staging. -/
theorem C67_difference_partial (h : makeRatingUnit u E T brentq newton R = .ok B) {q47 : ℝ} (hq : R.q47 = some q47) (h47 : Outdoor E (frF 47)) (h17 : Outdoor E (frF 17)) {v1 v3 : ℝ}
    (hv1 : (B.unit u E T brentq).netSteadyHeatingCapacity none = .ok v1) (hv3 : (B.unit u E T brentq).netSteadyHeatingCapacity (some B.points.h3Full) = .ok v3) :
    v1 - v3 = q47 * (1 - R.qm17) := by
  obtain ⟨c, d, -, -, h3⟩ := makeRatingUnit_ok h
  have ht' : ∀ x, (requestArgs u R c (some d)).tables = some x → RatedTables (tableSpeeds B.core.st) x := fun d h => by cases h
  obtain ⟨st0, q, nC, nH, -, e47, hN, -, hrh, hK, hS, hP⟩ := build_steps h3
  obtain ⟨c1, -, c3⟩ := ratings_heating hN rfl
  have hσ : TableSpeed B.core.st B.core.rh.full (fullTable B.core.st) := by rw [hrh]; exact full_table _ _
  obtain ⟨-, -, p1, p2⟩ := full_points hP
  have hqq : q = q47 := by
    unfold heating47 at e47
    simp only [requestArgs, hq, Option.getD_some, number, makeList, pyGet, bind_ok] at e47
    split at e47
    · simpa [pure_eq_ok] using e47.symm
    · simpa using e47.symm
  subst hqq
  have c4 := c3 (q * R.qm17) (by simp [requestArgs, hq])
  have k := heating_difference h3 ht' rfl hσ (fullTable_ne _) (o := defaultOutdoor E true) (o' := wetState E.atm (frF 17) (frF 15)) h47 h17 p1 p2 c1 c4 hv1 hv3
  rw [k]; ring

/-- C67: a single-stage unit with a given capacity at 47 °F has it at the H1 test, and the requested fraction of it at the H3 test. -/
theorem C67_fraction_single (h : makeRatingUnit u E T brentq newton R = .ok B) (hst : R.staging = .single) {q47 : ℝ} (hq : R.q47 = some q47) (h47 : Outdoor E (frF 47)) (h17 : Outdoor E (frF 17)) :
    (B.unit u E T brentq).netSteadyHeatingCapacity none = .ok q47 ∧ (B.unit u E T brentq).netSteadyHeatingCapacity (some B.points.h3Full) = .ok (R.qm17 * q47) := by
  obtain ⟨c, d, -, -, h3⟩ := makeRatingUnit_ok h
  obtain ⟨q, e1, e2, -, e4⟩ := C45_heating h3 ((request_staging h3).trans hst) rfl rfl (.inl (request_motor h3 hst)) h47 h17
  have hqq : q = q47 := by
    unfold heating47 at e1
    simp only [requestArgs, hq, Option.getD_some, makeList, pyGet, bind_ok] at e1
    simpa using e1.symm
  subst hqq
  refine ⟨e2, ?_⟩
  rw [mul_comm]
  exact e4 _ (by simp [requestArgs, hq])

/-- C67: without a given capacity at 47 °F the fraction is taken of the cooling capacity, while the capacity at 47 °F is `0.98 q95 + 180 Btu/h`. So a single-stage unit has the requested fraction only for a cooling
capacity of 9000 Btu/h (or for the fraction 0). -/
theorem C67_fraction_default (h : makeRatingUnit u E T brentq newton R = .ok B) (hst : R.staging = .single) (hq : R.q47 = none) (h47 : Outdoor E (frF 47)) (h17 : Outdoor E (frF 17)) :
    ∃ v1 v3, (B.unit u E T brentq).netSteadyHeatingCapacity none = .ok v1 ∧ (B.unit u E T brentq).netSteadyHeatingCapacity (some B.points.h3Full) = .ok v3 ∧
      (v3 = R.qm17 * v1 ↔ R.qm17 = 0 ∨ R.q95 = 9000 * u.btuh) := by
  obtain ⟨c, d, -, -, h3⟩ := makeRatingUnit_ok h
  obtain ⟨q, e1, e2, -, e4⟩ := C45_heating h3 ((request_staging h3).trans hst) rfl rfl (.inl (request_motor h3 hst)) h47 h17
  have hqq : q = R.q95 * 0.98 + 180 * u.btuh := by
    unfold heating47 at e1
    simp only [requestArgs, hq, Option.getD_none, makeList, pyGet, bind_ok] at e1
    simpa using e1.symm
  refine ⟨q, R.q95 * R.qm17, e2, e4 _ (by simp [requestArgs, hq]), ?_⟩
  rw [hqq]
  constructor
  · intro hh
    have : R.qm17 * (R.q95 - 9000 * u.btuh) = 0 := by linarith
    rcases mul_eq_zero.1 this with h0 | h0
    · exact .inl h0
    · exact .inr (by linarith)
  · rintro (h0 | h0)
    · rw [h0]; ring
    · rw [h0]; ring

end Resdx.Build
