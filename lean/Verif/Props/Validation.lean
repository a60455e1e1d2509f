import Verif.Spec.Reports
import Verif.Lemmas.PyList
import Verif.Props.Ratings
import Verif.Props.Hspf

/-!
# C107: the validation tables
-/

set_option linter.unusedSectionVars false
set_option linter.unusedSimpArgs false

namespace Resdx.Props

open Spec DX DX.Performance BaseModel Reports Ratings

variable {K : Type} [Field K] [LinearOrder K]

/-! ## The columns -/

theorem row_mem {X : Subject K} {cols : List (String × Cell K)} (h : row X = .ok cols) {n : String} {e : Py (Cell K)} (hm : (n, e) ∈ entries X) : ∃ v, e = .ok v ∧ (n, v) ∈ cols := by
  unfold row at h
  rw [mapM_ok_iff] at h
  generalize entries X = l at h hm
  induction h with
  | nil => simp at hm
  | cons hx _ ih =>
    simp only [bind_eq_ok, pure_eq_ok, Except.ok.injEq] at hx
    obtain ⟨v, hv, rfl⟩ := hx
    rcases List.mem_cons.1 hm with hm | hm
    · exact ⟨v, by rw [← hv, ← hm], by simp [← hm]⟩
    · obtain ⟨v', h1, h2⟩ := ih hm
      exact ⟨v', h1, by simp [h2]⟩

theorem row_keys {X : Subject K} {cols : List (String × Cell K)} (h : row X = .ok cols) : cols.map Prod.fst = (entries X).map Prod.fst := by
  unfold row at h
  rw [mapM_ok_iff] at h
  generalize entries X = l at h
  induction h with
  | nil => rfl
  | cons hx _ ih =>
    simp only [bind_eq_ok, pure_eq_ok, Except.ok.injEq] at hx
    obtain ⟨v, hv, rfl⟩ := hx
    simp [ih]

theorem inBtuh_ok {X : Subject K} {f : Option (Conditions K) → Py K} {c : Py (Conditions K)} {v : Cell K} (h : inBtuh X f c = .ok v) :
    ∃ c' q, c = .ok c' ∧ f (some c') = .ok q ∧ v = .num (q / X.u.btuh) := by
  simp only [inBtuh, bind_eq_ok, pure_eq_ok, Except.ok.injEq] at h
  obtain ⟨c', hc, q, hq, rfl⟩ := h
  exact ⟨c', q, hc, hq, rfl⟩

theorem inWatts_ok {f : Option (Conditions K) → Py K} {c : Py (Conditions K)} {v : Cell K} (h : inWatts f c = .ok v) :
    ∃ c' q, c = .ok c' ∧ f (some c') = .ok q ∧ v = .num q := by
  simp only [inWatts, bind_eq_ok, pure_eq_ok, Except.ok.injEq] at h
  obtain ⟨c', hc, q, hq, rfl⟩ := h
  exact ⟨c', q, hc, hq, rfl⟩

theorem inCfm_ok {X : Subject K} {c : Py (Conditions K)} {v : Cell K} (h : inCfm X c = .ok v) : ∃ c' q, c = .ok c' ∧ c'.flow.ratedStdVol = some q ∧ v = .num (q / X.u.cfm) := by
  simp only [inCfm, bind_eq_ok, pure_eq_ok, Except.ok.injEq] at h
  obtain ⟨c', hc, q, hq, rfl⟩ := h
  refine ⟨c', q, hc, ?_, rfl⟩
  cases hf : c'.flow.ratedStdVol <;> simp [hf, pyAttr] at hq
  rw [hq]

theorem pyAttr_ok' {α : Type} {x : Option α} {y : α} : pyAttr x = .ok y ↔ x = some y := by
  cases x <;> simp [pyAttr]

/-- **C107.** The column names of a written table are all different, so that a name stands for one value. -/
theorem C107_names {X : Subject K} {cols : List (String × Cell K)} (h : row X = .ok cols) : (cols.map Prod.fst).Nodup := by
  rw [row_keys h]
  have : (entries X).map Prod.fst = (entries X).map Prod.fst := rfl
  simp only [entries, List.map_cons, List.map_nil]
  decide +kernel

/-- **C107, partial: the power at 47 °F and full speed is missing.** Every column that names a heating test states, in Btu/h, W and standard cfm, the net capacity, the net power and the airflow of that test, with
the effect of frost in the tests at 35 °F. -/
theorem C107_columns_partial {X : Subject K} {cols : List (String × Cell K)} (h : row X = .ok cols) {name : String} (hn : name ∈ heatTestNames) :
    ∃ c q p v, heatTest X.P name = some c ∧ testCapacity X.U name c = .ok q ∧ ("heatCapacity" ++ name, .num (q / X.u.btuh)) ∈ cols ∧
      (name ≠ "47full" → testPower X.U name c = .ok p ∧ ("powerConsumption" ++ name, .num p) ∈ cols) ∧
      c.flow.ratedStdVol = some v ∧ ("scfm" ++ name, .num (v / X.u.cfm)) ∈ cols := by
  have key : ∀ {cp : Py (Conditions K)} {c : Option (Conditions K)}, (∀ c', cp = .ok c' → c = some c') →
      ∀ {f g : Option (Conditions K) → Py K}, ("heatCapacity" ++ name, inBtuh X f cp) ∈ entries X → (name ≠ "47full" → ("powerConsumption" ++ name, inWatts g cp) ∈ entries X) →
        ("scfm" ++ name, inCfm X cp) ∈ entries X → c = heatTest X.P name → (∀ c', f (some c') = testCapacity X.U name c') → (∀ c', g (some c') = testPower X.U name c') →
      ∃ c q p v, heatTest X.P name = some c ∧ testCapacity X.U name c = .ok q ∧ ("heatCapacity" ++ name, .num (q / X.u.btuh)) ∈ cols ∧
      (name ≠ "47full" → testPower X.U name c = .ok p ∧ ("powerConsumption" ++ name, .num p) ∈ cols) ∧
      c.flow.ratedStdVol = some v ∧ ("scfm" ++ name, .num (v / X.u.cfm)) ∈ cols := by
    intro cp c hcp f g m1 m2 m3 hc hf hg
    obtain ⟨v1, e1, k1⟩ := row_mem h m1
    obtain ⟨c1, q, a1, a2, rfl⟩ := inBtuh_ok e1
    obtain ⟨v3, e3, k3⟩ := row_mem h m3
    obtain ⟨c3, v, b1, b2, rfl⟩ := inCfm_ok e3
    rw [a1] at b1; cases b1
    have hh := hcp _ a1
    by_cases h47 : name = "47full"
    · exact ⟨c1, q, 0, v, by rw [← hc, hh], by rw [← hf, a2], k1, fun h => absurd h47 h, b2, k3⟩
    · obtain ⟨v2, e2, k2⟩ := row_mem h (m2 h47)
      obtain ⟨c2, p, d1, d2, rfl⟩ := inWatts_ok e2
      rw [a1] at d1; cases d1
      exact ⟨c1, q, p, v, by rw [← hc, hh], by rw [← hf, a2], k1, fun _ => ⟨by rw [← hg, d2], k2⟩, b2, k3⟩
  have f1 : ∀ {c : Conditions K} c', (.ok c : Py (Conditions K)) = .ok c' → some c = some c' := fun c' h => by cases h; rfl
  have f2 : ∀ {c : Option (Conditions K)} c', pyAttr c = .ok c' → c = some c' := fun c' h => pyAttr_ok'.1 h
  simp only [heatTestNames, List.mem_cons, List.not_mem_nil, or_false] at hn
  rcases hn with rfl | rfl | rfl | rfl | rfl | rfl | rfl | rfl | rfl | rfl
  · exact key f2 (List.mem_of_getElem? (i := 18) rfl) (fun _ => List.mem_of_getElem? (i := 28) rfl) (List.mem_of_getElem? (i := 39) rfl) rfl (fun _ => rfl) (fun _ => rfl)
  · exact key f1 (g := X.U.netSteadyHeatingPower) (List.mem_of_getElem? (i := 19) rfl) (fun h => absurd rfl h) (List.mem_of_getElem? (i := 40) rfl) rfl (fun _ => rfl) (fun _ => rfl)
  · exact key f2 (List.mem_of_getElem? (i := 20) rfl) (fun _ => List.mem_of_getElem? (i := 30) rfl) (List.mem_of_getElem? (i := 41) rfl) rfl (fun _ => rfl) (fun _ => rfl)
  · exact key f1 (List.mem_of_getElem? (i := 21) rfl) (fun _ => List.mem_of_getElem? (i := 31) rfl) (List.mem_of_getElem? (i := 42) rfl) rfl (fun _ => rfl) (fun _ => rfl)
  · exact key f1 (List.mem_of_getElem? (i := 22) rfl) (fun _ => List.mem_of_getElem? (i := 32) rfl) (List.mem_of_getElem? (i := 43) rfl) rfl (fun _ => rfl) (fun _ => rfl)
  · exact key f2 (List.mem_of_getElem? (i := 23) rfl) (fun _ => List.mem_of_getElem? (i := 33) rfl) (List.mem_of_getElem? (i := 44) rfl) rfl (fun _ => rfl) (fun _ => rfl)
  · exact key f2 (List.mem_of_getElem? (i := 24) rfl) (fun _ => List.mem_of_getElem? (i := 34) rfl) (List.mem_of_getElem? (i := 45) rfl) rfl (fun _ => rfl) (fun _ => rfl)
  · exact key f1 (List.mem_of_getElem? (i := 25) rfl) (fun _ => List.mem_of_getElem? (i := 35) rfl) (List.mem_of_getElem? (i := 46) rfl) rfl (fun _ => rfl) (fun _ => rfl)
  · exact key f2 (List.mem_of_getElem? (i := 26) rfl) (fun _ => List.mem_of_getElem? (i := 36) rfl) (List.mem_of_getElem? (i := 47) rfl) rfl (fun _ => rfl) (fun _ => rfl)
  · exact key f1 (List.mem_of_getElem? (i := 27) rfl) (fun _ => List.mem_of_getElem? (i := 37) rfl) (List.mem_of_getElem? (i := 48) rfl) rfl (fun _ => rfl) (fun _ => rfl)

/-- **C107.** The remaining columns state the cut-off and cut-in temperatures in °F, the defrost credit, the degradation coefficient and the cooling capacity at 95 °F. -/
theorem C107_settings {X : Subject K} {cols : List (String × Cell K)} (h : row X = .ok cols) :
    ∃ on credit q, X.heatingOn = some on ∧ X.S.defrost.demandCredit X.u = .ok credit ∧ X.U.netTotalCoolingCapacity (some X.P.aFull) = .ok q ∧ ("T_off", .num (toF X.heatingOff)) ∈ cols ∧
      ("T_on", .num (toF on)) ∈ cols ∧ ("demandDefrostCredit", .num credit) ∈ cols ∧ ("isDemandDefrost", .flag (X.S.defrost.control = .demand)) ∈ cols ∧ ("degCoeffHeat", .num X.cdHeating) ∈ cols ∧
      ("coolCapacity95Full", .num (q / X.u.btuh)) ∈ cols := by
  obtain ⟨v0, e0, k0⟩ := row_mem h (List.mem_of_getElem? (i := 12) rfl)
  obtain ⟨v1, e1, k1⟩ := row_mem h (List.mem_of_getElem? (i := 13) rfl)
  obtain ⟨v2, e2, k2⟩ := row_mem h (List.mem_of_getElem? (i := 14) rfl)
  obtain ⟨v3, e3, k3⟩ := row_mem h (List.mem_of_getElem? (i := 15) rfl)
  obtain ⟨v4, e4, k4⟩ := row_mem h (List.mem_of_getElem? (i := 16) rfl)
  obtain ⟨v5, e5, k5⟩ := row_mem h (List.mem_of_getElem? (i := 17) rfl)
  cases e0; cases e2; cases e4
  simp only [bind_eq_ok, pure_eq_ok, Except.ok.injEq, pyAttr_ok'] at e1 e3
  obtain ⟨on, hon, rfl⟩ := e1
  obtain ⟨credit, hcr, rfl⟩ := e3
  obtain ⟨c, q, hc, hq, rfl⟩ := inBtuh_ok e5
  cases hc
  exact ⟨on, credit, q, hon, hcr, hq, k0, k1, k3, k2, k4, k5⟩

/-- **C107.** The first columns describe the kind of unit: a tested, split, variable-speed unit whose blower type names the fan motor. The blower type is missing just for motors of unknown type, so that two units with
the same table have the same motor type. -/
theorem C107_kind {X : Subject K} {cols : List (String × Cell K)} (h : row X = .ok cols) :
    ("compressorDesignStage", .text "Variable Speed") ∈ cols ∧ ("isSplit", .flag true) ∈ cols ∧ (∀ n ∈ ["H12Tested", "H22Tested", "H42Tested"], (n, .flag true) ∈ cols) ∧
      (∀ n ∈ ["needCoilOnlyAdjust", "isNonCommunicating", "isMobileHomeAndSpaceConstrained", "isNonmobileHomeAndNonSpaceConstrained", "minSpeedLimiting", "H1NspeedMax17"], (n, .flag false) ∈ cols) ∧
      ∃ v, ("indoorBlowerType", v) ∈ cols ∧ (v = .text "Fixed Speed/PSC" ↔ X.motor = .psc) ∧ (v = .text "Fixed Speed/Constant Torque" ↔ X.motor = .bpm) ∧ (v = .empty ↔ X.motor = .unknown) := by
  have at_ : ∀ {n : String} {v : Cell K} (i : Nat), (entries X)[i]? = some (n, .ok v) → (n, v) ∈ cols := by
    intro n v i hi
    obtain ⟨w, e, k⟩ := row_mem h (List.mem_of_getElem? hi)
    cases e; exact k
  refine ⟨at_ 0 rfl, at_ 6 rfl, ?_, ?_, blower X.motor, at_ 1 rfl, ?_⟩
  · intro n hn
    simp only [List.mem_cons, List.not_mem_nil, or_false] at hn
    rcases hn with rfl | rfl | rfl
    exacts [at_ 8 rfl, at_ 9 rfl, at_ 10 rfl]
  · intro n hn
    simp only [List.mem_cons, List.not_mem_nil, or_false] at hn
    rcases hn with rfl | rfl | rfl | rfl | rfl | rfl
    exacts [at_ 2 rfl, at_ 3 rfl, at_ 4 rfl, at_ 5 rfl, at_ 7 rfl, at_ 11 rfl]
  · cases X.motor <;> simp [blower]

/-- **C107.** What the column for the power at 47 °F and full speed states instead: the power of the test at 62 °F and low speed. -/
theorem C107_power47_refuted {X : Subject K} {cols : List (String × Cell K)} (h : row X = .ok cols) :
    ∃ c p, X.P.h0Low = some c ∧ X.U.netSteadyHeatingPower (some c) = .ok p ∧ ("powerConsumption62min", .num p) ∈ cols ∧ ∀ v, ("powerConsumption47full", v) ∈ cols → v = .num p := by
  obtain ⟨v1, e1, k1⟩ := row_mem h (List.mem_of_getElem? (i := 28) rfl)
  obtain ⟨v2, e2, k2⟩ := row_mem h (List.mem_of_getElem? (i := 29) rfl)
  rw [e1] at e2; cases e2
  obtain ⟨c, p, hc, hp, rfl⟩ := inWatts_ok e1
  refine ⟨c, p, pyAttr_ok'.1 hc, hp, k1, fun v hv => ?_⟩
  have hnd := C107_names h
  obtain ⟨i, hi⟩ := List.mem_iff_getElem?.1 hv
  obtain ⟨j, hj⟩ := List.mem_iff_getElem?.1 k2
  have hij : i = j := by
    have h1 : (cols.map Prod.fst)[i]? = some "powerConsumption47full" := by simp [hi]
    have h2 : (cols.map Prod.fst)[j]? = some "powerConsumption47full" := by simp [hj]
    have hl : i < (cols.map Prod.fst).length := (List.getElem?_eq_some_iff.1 h1).1
    exact (List.nodup_iff_injective_getElem.1 hnd |> fun hinj => by
      have a1 := List.getElem?_eq_some_iff.1 h1
      have a2 := List.getElem?_eq_some_iff.1 h2
      have := @hinj ⟨i, a1.1⟩ ⟨j, a2.1⟩ (by simp only; rw [a1.2, a2.2])
      simpa using this)
  subst hij
  rw [hi] at hj
  cases hj
  rfl

/-! ## Crash points -/

/-- **C107.** The call for a variable-speed unit is atomic: it either raises and leaves the file as it was, or returns and the file holds the table. -/
theorem C107_atomic {X : Subject K} (hst : X.st = .varSpeed) (file : Option (Content K)) :
    (∃ e, row X = .error e ∧ writeTables X file = (.error e, file)) ∨ ∃ cols, row X = .ok cols ∧ writeTables X file = (.ok (), some (.table cols)) := by
  unfold writeTables
  rw [hst]
  cases hr : row X with
  | error e => left; exact ⟨e, rfl, rfl⟩
  | ok cols => right; exact ⟨cols, rfl, rfl⟩

/-- **C107.** For single- and two-stage units the call always raises, and whatever was in the file is lost. -/
theorem C107_staged_refuted {X : Subject K} (hst : X.st ≠ .varSpeed) (file : Option (Content K)) : writeTables X file = (.error .unboundLocal, some (.other "")) := by
  unfold writeTables
  cases h : X.st <;> simp [h] at hst ⊢ <;> rfl

/-- **C107.** For a unit with a cut-in temperature given by the user the call always raises (the attribute was not stored); the file is left as it was. -/
theorem C107_on_refuted {X : Subject K} (hst : X.st = .varSpeed) (off t : K) (hon : X.heatingOn = onTemperature (some t) off) (file : Option (Content K)) :
    ∃ e, writeTables X file = (.error e, file) := by
  rcases C107_atomic hst file with ⟨e, -, h⟩ | ⟨cols, h, -⟩
  · exact ⟨e, h⟩
  · obtain ⟨on, _, _, h1, -⟩ := C107_settings h
    rw [hon] at h1
    simp [onTemperature] at h1

/-! ## The table determines the rating -/

/-- Two units give the same values in the tests the heating rating of a variable-speed unit reads. -/
structure SameTests {C C' : Type} (U : Performance C K) (P : Points C) (U' : Performance C' K) (P' : Points C') : Prop where
  h0Low : ∃ c c', P.h0Low = some c ∧ P'.h0Low = some c' ∧ U.db c = U'.db c' ∧ sCap U c = sCap U' c' ∧ sPow U c = sPow U' c'
  h1Low : ∃ c c', P.h1Low = some c ∧ P'.h1Low = some c' ∧ U.db c = U'.db c' ∧ sCap U c = sCap U' c' ∧ sPow U c = sPow U' c'
  h2Int : ∃ c c', P.h2Int = some c ∧ P'.h2Int = some c' ∧ iCap U c = iCap U' c' ∧ iPow U c = iPow U' c'
  h1 : U.db P.h1Full = U'.db P'.h1Full ∧ sCap U P.h1Full = sCap U' P'.h1Full ∧ sPow U P.h1Full = sPow U' P'.h1Full
  h2 : U.db P.h2Full = U'.db P'.h2Full ∧ iCap U P.h2Full = iCap U' P'.h2Full ∧ iPow U P.h2Full = iPow U' P'.h2Full
  h3 : U.db P.h3Full = U'.db P'.h3Full ∧ sCap U P.h3Full = sCap U' P'.h3Full ∧ sPow U P.h3Full = sPow U' P'.h3Full
  h4 : U.db P.h4Full = U'.db P'.h4Full ∧ sCap U P.h4Full = sCap U' P'.h4Full ∧ sPow U P.h4Full = sPow U' P'.h4Full
  a : U.netTotalCoolingCapacity (some P.aFull) = U'.netTotalCoolingCapacity (some P'.aFull)

theorem hspf_same {C C' : Type} {U : Performance C K} {P : Points C} {U' : Performance C' K} {P' : Points C'} (h : SameTests U P U' P') (u : Units K) (std : RatingStandard)
    (s : HeatSettings K) (hs : s.st = .varSpeed) (d : HeatDist K) (credit : Py K) : hspfWith U P u std s d credit = hspfWith U' P' u std s d credit := by
  obtain ⟨a0, b0, ea0, eb0, d0, q0, p0⟩ := h.h0Low
  obtain ⟨a1, b1, ea1, eb1, d1, q1, p1⟩ := h.h1Low
  obtain ⟨a2, b2, ea2, eb2, q2, p2⟩ := h.h2Int
  obtain ⟨dh1, qh1, ph1⟩ := h.h1
  obtain ⟨dh2, qh2, ph2⟩ := h.h2
  obtain ⟨dh3, qh3, ph3⟩ := h.h3
  obtain ⟨dh4, qh4, ph4⟩ := h.h4
  have ha := h.a
  have eLoad : heatingLoad U P u s.st std d = heatingLoad U' P' u s.st std d := by
    unfold heatingLoad
    have : U.netSteadyHeatingCapacity (some P.h1Full) = U'.netSteadyHeatingCapacity (some P'.h1Full) := qh1
    rw [this, ha]
  have eI : heatIntermediateFor U P s.st = heatIntermediateFor U' P' s.st := by
    unfold heatIntermediateFor heatIntermediate
    have e1 : heatIntermediateOf U P (sCap U) (iCap U) = heatIntermediateOf U' P' (sCap U') (iCap U') := by
      unfold heatIntermediateOf
      simp only [interpolate, interpolateSeparate, ea0, eb0, ea1, eb1, ea2, eb2, pyAttr, bind_ok, d0, d1, q0, q1, q2, qh1, qh2, qh3, qh4]
    have e2 : heatIntermediateOf U P (sPow U) (iPow U) = heatIntermediateOf U' P' (sPow U') (iPow U') := by
      unfold heatIntermediateOf
      simp only [interpolate, interpolateSeparate, ea0, eb0, ea1, eb1, ea2, eb2, pyAttr, bind_ok, d0, d1, p0, p1, p2, ph1, ph2, ph3, ph4]
    rw [e1, e2]
  have eFull : ∀ t, heatFull U P t = heatFull U' P' t := by
    intro t
    unfold heatFull
    simp only [interpolate, interpolateSeparate, dh1, dh2, dh3, qh1, qh2, qh3, ph1, ph2, ph3]
  have eLow : ∀ t, heatLowVar U P t = heatLowVar U' P' t := by
    intro t
    unfold heatLowVar
    simp only [interpolate, interpolateSeparate, ea0, eb0, ea1, eb1, pyAttr, bind_ok, d0, d1, q0, q1, p0, p1]
  have eAgain : ∀ x y z w t, heatFullAgain U P x y z w t = heatFullAgain U' P' x y z w t := by
    intro x y z w t
    unfold heatFullAgain
    simp only [interpolate, interpolateSeparate, dh3, dh4, qh3, qh4, ph3, ph4]
  have eBin : heatBin U P s = heatBin U' P' s := by
    funext I load prev t n
    unfold heatBin heatStaging
    simp only [hs, eFull, eLow, eAgain]
  unfold hspfWith
  rw [eLoad, eI, eBin]

section
variable [IsStrictOrderedRing K]

theorem toF_inj {x y : K} (h : toF x = toF y) : x = y := by
  unfold toF at h; linarith

/-- **C107.** The table determines the heating rating: two variable-speed units with the same table whose test conditions have the temperatures of the standard have the same HSPF (or HSPF2) in every region, whatever
else distinguishes them. -/
theorem C107_determines {X Y : Subject K} (hu : X.u = Y.u) (hb : X.u.btuh ≠ 0) {cols : List (String × Cell K)} (hX : row X = .ok cols) (hY : row Y = .ok cols)
    (tX : TestTemperatures X.U X.P) (tY : TestTemperatures Y.U Y.P) (std : RatingStandard) (cyc cyc' : Cycling) (region : Nat) :
    hspf X.U X.P X.u std { st := .varSpeed, cd := X.cdHeating, cyc, off := X.heatingOff, on := X.heatingOn } X.S.defrost region =
      hspf Y.U Y.P Y.u std { st := .varSpeed, cd := Y.cdHeating, cyc := cyc', off := Y.heatingOff, on := Y.heatingOn } Y.S.defrost region := by
  have uniq : ∀ {n : String} {v w : Cell K}, (n, v) ∈ cols → (n, w) ∈ cols → v = w := by
    intro n v w hv hw
    have hnd := C107_names hX
    exact (List.pairwise_map.1 hnd |> fun h => by
      by_contra hne
      rcases List.pairwise_iff_getElem.1 h with h
      obtain ⟨i, hi, ei⟩ := List.mem_iff_getElem.1 hv
      obtain ⟨j, hj, ej⟩ := List.mem_iff_getElem.1 hw
      rcases Nat.lt_trichotomy i j with hij | hij | hij
      · exact h i j hi hj hij (by rw [ei, ej])
      · subst hij; rw [ei] at ej; cases ej; exact hne rfl
      · exact h j i hj hi hij (by rw [ei, ej]))
  have hbY : Y.u.btuh ≠ 0 := by rw [← hu]; exact hb
  have cap : ∀ name ∈ heatTestNames, ∃ c c', heatTest X.P name = some c ∧ heatTest Y.P name = some c' ∧ testCapacity X.U name c = testCapacity Y.U name c' ∧
      (name ≠ "47full" → testPower X.U name c = testPower Y.U name c') := by
    intro name hn
    obtain ⟨c, q, p, _, e1, e2, e3, e4, -⟩ := C107_columns_partial hX hn
    obtain ⟨c', q', p', _, f1, f2, f3, f4, -⟩ := C107_columns_partial hY hn
    refine ⟨c, c', e1, f1, ?_, fun h47 => ?_⟩
    · rw [e2, f2]
      have := uniq e3 f3
      simp only [Cell.num.injEq] at this
      rw [hu, div_left_inj' hbY] at this
      rw [this]
    · rw [(e4 h47).1, (f4 h47).1]
      have := uniq (e4 h47).2 (f4 h47).2
      simp only [Cell.num.injEq] at this
      rw [this]
  obtain ⟨onX, crX, qX, a1, a2, a3, a4, a5, a6, -, a7, a8⟩ := C107_settings hX
  obtain ⟨onY, crY, qY, b1, b2, b3, b4, b5, b6, -, b7, b8⟩ := C107_settings hY
  have s1 : X.heatingOff = Y.heatingOff := by have := uniq a4 b4; simp only [Cell.num.injEq] at this; exact toF_inj this
  have s2 : X.heatingOn = Y.heatingOn := by have := uniq a5 b5; simp only [Cell.num.injEq] at this; rw [a1, b1, toF_inj this]
  have s3 : X.cdHeating = Y.cdHeating := by have := uniq a7 b7; simpa only [Cell.num.injEq] using this
  have s4 : X.S.defrost.demandCredit X.u = Y.S.defrost.demandCredit Y.u := by have := uniq a6 b6; simp only [Cell.num.injEq] at this; rw [a2, b2, this]
  have s5 : X.U.netTotalCoolingCapacity (some X.P.aFull) = Y.U.netTotalCoolingCapacity (some Y.P.aFull) := by
    have := uniq a8 b8; simp only [Cell.num.injEq] at this; rw [hu, div_left_inj' hbY] at this; rw [a3, b3, this]
  obtain ⟨c0, c0', g1, g2, g3, g4⟩ := cap "62min" (by decide)
  obtain ⟨c1, c1', i1, i2, i3, i4⟩ := cap "47min" (by decide)
  obtain ⟨c2, c2', j1, j2, j3, j4⟩ := cap "47nominal" (by decide)
  obtain ⟨c3, c3', k1, k2, k3, k4⟩ := cap "35full" (by decide)
  obtain ⟨c4, c4', l1, l2, l3, l4⟩ := cap "35inter" (by decide)
  obtain ⟨c5, c5', m1, m2, m3, m4⟩ := cap "17full" (by decide)
  obtain ⟨c6, c6', n1, n2, n3, n4⟩ := cap "5full" (by decide)
  cases j1; cases j2; cases k1; cases k2; cases m1; cases m2; cases n1; cases n2
  have same : SameTests X.U X.P Y.U Y.P :=
    { h0Low := ⟨c0, c0', g1, g2, by rw [tX.h0Low _ g1, tY.h0Low _ g2], g3, g4 (by decide)⟩
      h1Low := ⟨c1, c1', i1, i2, by rw [tX.h1Low _ i1, tY.h1Low _ i2], i3, i4 (by decide)⟩
      h2Int := ⟨c4, c4', l1, l2, l3, l4 (by decide)⟩
      h1 := ⟨by rw [tX.h1, tY.h1], j3, j4 (by decide)⟩
      h2 := ⟨by rw [tX.h2, tY.h2], k3, k4 (by decide)⟩
      h3 := ⟨by rw [tX.h3, tY.h3], m3, m4 (by decide)⟩
      h4 := ⟨by rw [tX.h4, tY.h4], n3, n4 (by decide)⟩
      a := s5 }
  have cycIrrelevant : ∀ (s : HeatSettings K), s.st = .varSpeed → ∀ d credit, hspfWith Y.U Y.P Y.u std s d credit = hspfWith Y.U Y.P Y.u std { s with cyc := cyc' } d credit := by
    intro s hs d credit
    have : heatBin Y.U Y.P s = heatBin Y.U Y.P { s with cyc := cyc' } := by
      funext I load prev t n
      unfold heatBin heatStaging
      simp only [hs]
      rfl
    unfold hspfWith
    rw [this]
  unfold hspf
  rw [s1, s2, s3, s4, hu]
  congr 1
  funext d
  rw [hspf_same same _ _ _ rfl, cycIrrelevant _ rfl]

end

/-! ## Non-vacuity -/

/-- A variable-speed unit: capacity and power by speed and outdoor temperature. -/
def reportUnit (a h1 : Conditions ℚ) : Performance (Conditions ℚ) ℚ :=
  let level := fun c : Conditions ℚ => (5 - c.flow.compressorSpeed : ℚ)
  { coolCap := fun c => .ok (2500 * level c)
    coolCapCharge := fun _ => .ok 1
    coolPow := fun c => .ok (600 * level c)
    coolPowCharge := fun _ => .ok 1
    sensible := fun c => .ok (2000 * level c)
    heatCap := fun c => .ok (level c * (2500 + 40 * (c.outdoor.db - 280)))
    heatCapCharge := fun _ => .ok 1
    heatPow := fun c => .ok (level c * (700 + 2 * (c.outdoor.db - 280)))
    heatPowCharge := fun _ => .ok 1
    intCap := fun c => .ok (level c * (2300 + 40 * (c.outdoor.db - 280)))
    intPow := fun c => .ok (level c * (690 + 2 * (c.outdoor.db - 280)))
    fanPower := fun c => .ok (50 * level c)
    db := fun c => c.outdoor.db
    aFull := a
    h1Full := h1 }

/-- A unit that can be reported, with the given rating conditions. -/
def reportSubject (P : Points (Conditions ℚ)) : Subject ℚ :=
  { u := Units.ofOnes ℚ
    E := sampleEnv
    S := fourSpeed
    U := reportUnit P.aFull P.h1Full
    P
    st := .varSpeed
    rc := roles 4 1 none
    rh := roles 4 1 none
    cdHeating := 0.25
    coolingOff := frF 125
    heatingOff := frF (-20)
    heatingOn := some (frF (-20))
    motor := .bpm
    seer := .ok 16
    hspf := fun _ => .ok 8 }

/-- The rating conditions of the sample unit. -/
def reportPoints : Py (Points (Conditions ℚ)) := setRatingConditions sampleEnv fourSpeed .varSpeed (roles 4 1 none) (roles 4 1 none)

/-- A unit satisfying all hypotheses of C107: its table is written, its tests are at the temperatures of the standard. -/
example : ∃ P cols, reportPoints = .ok P ∧ row (reportSubject P) = .ok cols ∧ TestTemperatures (reportSubject P).U P := by
  have h : DX.okTest reportPoints (fun P => DX.okTest (row (reportSubject P)) (fun _ =>
      let db := (reportSubject P).U.db
      db P.h1Full == frF 47 && db P.h2Full == frF 35 && db P.h3Full == frF 17 && db P.h4Full == frF 5 && P.h0Low.all (fun c => db c == frF 62) && P.h1Low.all (fun c => db c == frF 47))) = true := by
    decide +kernel
  obtain ⟨P, hP, h⟩ := okTest_iff.1 h
  obtain ⟨cols, hc, h⟩ := okTest_iff.1 h
  simp only [Bool.and_eq_true, beq_iff_eq] at h
  obtain ⟨⟨⟨⟨⟨h1, h2⟩, h3⟩, h4⟩, h5⟩, h6⟩ := h
  refine ⟨P, cols, hP, hc, h1, h2, h3, h4, fun c hc => ?_, fun c hc => ?_⟩
  · rw [hc] at h5; simpa using h5
  · rw [hc] at h6; simpa using h6

/-- **C107 fails for the power at 47 °F and full speed**: a unit whose table states another power than that of the test. -/
theorem C107_column47_refuted : ∃ P cols p v, reportPoints = .ok P ∧ row (reportSubject P) = .ok cols ∧ testPower (reportSubject P).U "47full" P.h1Full = .ok p ∧
    ("powerConsumption47full", .num v) ∈ cols ∧ v < p * (3 / 4) := by
  have h : DX.okTest reportPoints (fun P => DX.okTest (row (reportSubject P)) (fun cols => DX.okTest (testPower (reportSubject P).U "47full" P.h1Full) (fun p =>
      match (cols[29]? : Option (String × Cell ℚ)) with
      | some (n, .num v) => decide (n = "powerConsumption47full" ∧ v < p * (3 / 4))
      | _ => false))) = true := by
    decide +kernel
  obtain ⟨P, hP, h⟩ := okTest_iff.1 h
  obtain ⟨cols, hc, h⟩ := okTest_iff.1 h
  obtain ⟨p, hp, h⟩ := okTest_iff.1 h
  split at h
  · rename_i n v he
    simp only [decide_eq_true_eq] at h
    obtain ⟨rfl, h⟩ := h
    exact ⟨P, cols, p, v, hP, hc, hp, List.mem_of_getElem? he, h⟩
  · simp at h

/-- Units of the other staging types. -/
example (P : Points (Conditions ℚ)) : ({ reportSubject P with st := .single } : Subject ℚ).st ≠ .varSpeed := by simp

end Resdx.Props
