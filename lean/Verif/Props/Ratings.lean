import Verif.Lemmas.Ratings
import Verif.Lemmas.FanCurves
import Mathlib.Tactic.IntervalCases
import Verif.Props.Performance
import Verif.Props.Hspf
import Mathlib.Tactic.Linarith
import Mathlib.Tactic.FieldSimp
import Mathlib.Tactic.Positivity

/-!
# Properties of the rating conditions and of resetting rated airflows: C66, C81, C82, C83
-/

set_option linter.unusedSectionVars false
set_option linter.unusedSimpArgs false

namespace Resdx.Ratings

open BaseModel

variable {K : Type} [Field K] [LinearOrder K] [IsStrictOrderedRing K]

/-! ## Specification: the tests of AHRI 210/240 -/

/-- Is it a heating test? -/
def testHeating : Test → Bool
  | .aFull | .bFull | .aInt | .eInt | .aBoost | .aLow | .bLow | .fLow => false
  | .h1Full | .h2Full | .h3Full | .h4Full | .h2Int | .h0Low | .h1Low | .h2Low | .h3Low => true

/-- Outdoor dry bulb and wet bulb, °F. -/
def testOutdoor : Test → K × K
  | .aFull | .aInt | .aBoost | .aLow => (95, 75)
  | .bFull | .bLow => (82, 65)
  | .eInt => (87, 69)
  | .fLow => (67, 53.5)
  | .h0Low => (62, 56.5)
  | .h1Full | .h1Low => (47, 43)
  | .h2Full | .h2Int | .h2Low => (35, 33)
  | .h3Full | .h3Low => (17, 15)
  | .h4Full => (5, 3)

/-- Indoor dry bulb and wet bulb, °F. -/
def testIndoor (heating : Bool) : K × K := if heating then (70, 60) else (80, 67)

/-- The speed at which a test is run. -/
inductive TestSpeed
  | full | intermediate | boost | low
  deriving DecidableEq

/-- The speed of each test. -/
def testSpeed : Test → TestSpeed
  | .aFull | .bFull | .h1Full | .h2Full | .h3Full | .h4Full => .full
  | .aInt | .eInt | .h2Int => .intermediate
  | .aBoost => .boost
  | .aLow | .bLow | .fLow | .h0Low | .h1Low | .h2Low | .h3Low => .low

/-- The index of a named speed. -/
def speedOf (r : Roles) : TestSpeed → Option Nat
  | .full => some r.full
  | .intermediate => some r.intermediate
  | .boost => r.boost
  | .low => r.low

/-- The index of the compressor speed a test is run at. -/
def speedOfTest (rc rh : Roles) (t : Test) : Option Nat := speedOf (if testHeating t then rh else rc) (testSpeed t)

/-- Which tests a unit undergoes: full speed always, low speed if it has more than one stage, intermediate speed if it has variable speed, boost
speed if there is one. -/
def carriedOut (st : Staging) (rc : Roles) (t : Test) : Prop := match testSpeed t with
  | .full => True
  | .intermediate => st = .varSpeed
  | .boost => st ≠ .single ∧ rc.boost.isSome
  | .low => st ≠ .single

/-- The condition `c` is the test `t`, run at compressor speed `i` with the rated airflow `a` of that speed. -/
structure Meets (E : Env K) (S : Sys K) (t : Test) (i : Nat) (c : Conditions K) : Prop where
  mode : c.heating = testHeating t
  outdoor : c.outdoor = wetState E.atm (frF (testOutdoor t).1) (frF (testOutdoor t).2)
  indoor : c.indoor = wetState E.atm (frF (testIndoor (testHeating t)).1) (frF (testIndoor (testHeating t)).2)
  speed : c.flow.compressorSpeed = i
  fanSpeed : (if testHeating t then S.ratedHeatingFanSpeed else S.ratedCoolingFanSpeed)[i]? = some c.flow.fanSpeed
  airflow : ∃ a, (if testHeating t then S.heatingAirflow else S.coolingAirflow)[i]? = some (some a) ∧ c.flow.stdVol = some a
  ratio : c.flow.ratio = some 1
  perCapacity : ∃ a q, (if testHeating t then S.netHeating else S.netCooling)[i]? = some q ∧ c.flow.stdVol = some a ∧ c.flow.stdVolPerCap = some (a / q)
  pressure : ∃ a a0, (if testHeating t then S.heatingAirflow else S.coolingAirflow)[0]? = some (some a0) ∧ c.flow.stdVol = some a ∧
    c.flow.esp = some (S.fullESP * (a / a0) ^ 2)

theorem IsTest.meets {E : Env K} {S : Sys K} {t : Test} {i : Nat} {c : Conditions K}
    (h : IsTest E S (testHeating t) i (testOutdoor t : K × K).1 (testOutdoor t : K × K).2 c) : Meets E S t i c := by
  obtain ⟨h1, h2, h3, rho, a, a0, cap, fs, -, -, -, -, -, -, ha, ha0, hcap, hfs, hf⟩ := h
  refine ⟨h1, h3, ?_, by rw [hf]; rfl, by rw [hf]; exact hfs, ⟨a, ha, by rw [hf]; rfl⟩, by rw [hf]; rfl, ⟨a, cap, hcap, by rw [hf]; rfl, by rw [hf]; rfl⟩,
    ⟨a, a0, ha0, by rw [hf]; rfl, by rw [hf]; rfl⟩⟩
  rw [h2]; cases testHeating t <;> rfl

/-! ## C81 -/

theorem isTests {E : Env K} {S : Sys K} {st : Staging} {rc rh : Roles} {P : DX.Points (Conditions K)} (h : setRatingConditions E S st rc rh = .ok P) (t : Test) :
    (carriedOut st rc t ∧ ∃ i c, speedOfTest rc rh t = some i ∧ get P t = some c ∧
        IsTest E S (testHeating t) i (testOutdoor t : K × K).1 (testOutdoor t : K × K).2 c) ∨
      (¬ carriedOut st rc t ∧ get P t = none) := by
  simp only [setRatingConditions, bind_eq_ok] at h
  obtain ⟨a, ha, b, hb, h1, hh1, h2, hh2, h3, hh3, h4, hh4, h⟩ := h
  have ha := isTest_a ha
  have hb := isTest_testAt hb
  have hh1 := isTest_h1 hh1
  have hh2 := isTest_testAt hh2
  have hh3 := isTest_testAt hh3
  have hh4 := isTest_testAt hh4
  split at h
  · rename_i hst
    cases h
    subst hst
    cases t <;> first
      | exact Or.inl ⟨trivial, _, _, rfl, rfl, by assumption⟩
      | exact Or.inr ⟨by simp [carriedOut, testSpeed], rfl⟩
  · rename_i hst
    simp only [bind_eq_ok] at h
    obtain ⟨P2, ⟨P1, hP1, hP2⟩, hP⟩ := h
    simp only [setRatingConditions.low, bind_eq_ok] at hP
    obtain ⟨c, hc, la, hla, lb, hlb, lf, hlf, k, hk, k0, hk0, k1, hk1, k2, hk2, k3, hk3, hP⟩ := hP
    have hla := isTest_a hla
    have hlb := isTest_testAt hlb
    have hlf := isTest_testAt hlf
    have hk0 := isTest_testAt hk0
    have hk1 := isTest_h1 hk1
    have hk2 := isTest_testAt hk2
    have hk3 := isTest_testAt hk3
    have hc' : rc.low = some c := by cases hr : rc.low <;> rw [hr] at hc <;> simp_all [speedIndex, pyNum]
    have hk' : rh.low = some k := by cases hr : rh.low <;> rw [hr] at hk <;> simp_all [speedIndex, pyNum]
    cases hP
    simp only [setRatingConditions.intermediate] at hP1
    simp only [setRatingConditions.boost] at hP2
    split at hP1
    · rename_i hv
      simp only [bind_eq_ok] at hP1
      obtain ⟨x, hx, y, hy, z, hz, hP1⟩ := hP1
      have hx := isTest_a hx
      have hy := isTest_testAt hy
      have hz := isTest_testAt hz
      cases hP1
      split at hP2
      · rename_i hbo
        cases hP2
        cases t <;> first
          | exact Or.inl ⟨trivial, _, _, rfl, rfl, by assumption⟩
          | exact Or.inl ⟨hv, _, _, rfl, rfl, by assumption⟩
          | exact Or.inl ⟨hst, _, _, hc', rfl, by assumption⟩
          | exact Or.inl ⟨hst, _, _, hk', rfl, by assumption⟩
          | exact Or.inr ⟨by simp [carriedOut, testSpeed, hbo], rfl⟩
      · rename_i b' hbo
        simp only [bind_eq_ok] at hP2
        obtain ⟨w, hw, hP2⟩ := hP2
        have hw := isTest_a hw
        cases hP2
        cases t <;> first
          | exact Or.inl ⟨trivial, _, _, rfl, rfl, by assumption⟩
          | exact Or.inl ⟨hv, _, _, rfl, rfl, by assumption⟩
          | exact Or.inl ⟨hst, _, _, hc', rfl, by assumption⟩
          | exact Or.inl ⟨hst, _, _, hk', rfl, by assumption⟩
          | exact Or.inl ⟨⟨hst, by rw [hbo]; rfl⟩, _, _, hbo, rfl, by assumption⟩
    · rename_i hv
      cases hP1
      split at hP2
      · rename_i hbo
        cases hP2
        cases t <;> first
          | exact Or.inl ⟨trivial, _, _, rfl, rfl, by assumption⟩
          | exact Or.inl ⟨hst, _, _, hc', rfl, by assumption⟩
          | exact Or.inl ⟨hst, _, _, hk', rfl, by assumption⟩
          | exact Or.inr ⟨hv, rfl⟩
          | exact Or.inr ⟨by simp [carriedOut, testSpeed, hbo], rfl⟩
      · rename_i b' hbo
        simp only [bind_eq_ok] at hP2
        obtain ⟨w, hw, hP2⟩ := hP2
        have hw := isTest_a hw
        cases hP2
        cases t <;> first
          | exact Or.inl ⟨trivial, _, _, rfl, rfl, by assumption⟩
          | exact Or.inl ⟨hst, _, _, hc', rfl, by assumption⟩
          | exact Or.inl ⟨hst, _, _, hk', rfl, by assumption⟩
          | exact Or.inl ⟨⟨hst, by rw [hbo]; rfl⟩, _, _, hbo, rfl, by assumption⟩
          | exact Or.inr ⟨hv, rfl⟩

/-- **C81.** The rating conditions of every unit are exactly the tests of the standard for its staging: each test's mode, outdoor and indoor air states and speed, at
the rated airflow, fan speed and static pressure of that speed. Tests not carried out have no condition. -/
theorem C81_tests {E : Env K} {S : Sys K} {st : Staging} {rc rh : Roles} {P : DX.Points (Conditions K)} (h : setRatingConditions E S st rc rh = .ok P) (t : Test) :
    (carriedOut st rc t → ∃ i c, speedOfTest rc rh t = some i ∧ get P t = some c ∧ Meets E S t i c) ∧ (¬ carriedOut st rc t → get P t = none) := by
  rcases isTests h t with ⟨h1, i, c, h2, h3, h4⟩ | ⟨h1, h2⟩
  · exact ⟨fun _ => ⟨i, c, h2, h3, h4.meets⟩, fun hn => absurd h1 hn⟩
  · exact ⟨fun hy => absurd hy h1, fun _ => h2⟩

/-- The rated data of one speed of one mode that a rating condition needs. -/
def HasRating (E : Env K) (S : Sys K) (heating : Bool) (i : Nat) : Prop :=
  ∃ q a a0 fs, (if heating then S.netHeating else S.netCooling)[i]? = some q ∧ q ≠ 0 ∧
    (if heating then S.heatingAirflow else S.coolingAirflow)[i]? = some (some a) ∧ a ≠ 0 ∧
    (if heating then S.heatingAirflow else S.coolingAirflow)[0]? = some (some a0) ∧ a0 ≠ 0 ∧
    (if heating then S.ratedHeatingFanSpeed else S.ratedCoolingFanSpeed)[i]? = some fs

theorem make_ok {E : Env K} {S : Sys K} {heating : Bool} {i : Nat} (o : Option (Psych.PsychState K)) (hstd : E.rhoStd ≠ 0)
    (hrho : ∃ rho, (Psych.getRho E.lib (defaultIndoor E heating)).1 = .ok rho ∧ rho ≠ 0) (h : HasRating E S heating i) :
    ∃ c, S.makeCondition E heating i none o = .ok c := by
  obtain ⟨q, a, a0, fs, h1, h2, h3, h4, h5, h6, h7⟩ := h
  obtain ⟨rho, hr, hr0⟩ := hrho
  exact ⟨_, Sys.makeCondition_ok E S heating i none o rho a q a0 fs hr0 hstd h4 h2 h6 hr h1 h3 h5 h7⟩

/-- **C81.** The rating conditions can be made whenever every speed a test is run at has a rated capacity, airflow and fan speed. -/
theorem C81_total {E : Env K} {S : Sys K} {st : Staging} {rc rh : Roles} (hstd : E.rhoStd ≠ 0)
    (hrho : ∀ m, ∃ rho, (Psych.getRho E.lib (wetState E.atm (frF (testIndoor m).1) (frF (testIndoor m).2))).1 = .ok rho ∧ rho ≠ 0)
    (h : ∀ t, carriedOut st rc t → ∃ i, speedOfTest rc rh t = some i ∧ HasRating E S (testHeating t) i) :
    ∃ P, setRatingConditions E S st rc rh = .ok P := by
  have hr : ∀ m, ∃ rho, (Psych.getRho E.lib (defaultIndoor E m)).1 = .ok rho ∧ rho ≠ 0 := fun m => by
    have := hrho m; cases m <;> exact this
  have fullC : HasRating E S false rc.full := by obtain ⟨i, h1, h2⟩ := h .aFull trivial; cases h1; exact h2
  have fullH : HasRating E S true rh.full := by obtain ⟨i, h1, h2⟩ := h .h1Full trivial; cases h1; exact h2
  obtain ⟨a, ha⟩ := make_ok none hstd (hr false) fullC
  obtain ⟨b, hb⟩ := make_ok (some (wetState E.atm (frF 82) (frF 65))) hstd (hr false) fullC
  obtain ⟨h1, hh1⟩ := make_ok none hstd (hr true) fullH
  obtain ⟨h2, hh2⟩ := make_ok (some (wetState E.atm (frF 35) (frF 33))) hstd (hr true) fullH
  obtain ⟨h3, hh3⟩ := make_ok (some (wetState E.atm (frF 17) (frF 15))) hstd (hr true) fullH
  obtain ⟨h4, hh4⟩ := make_ok (some (wetState E.atm (frF 5) (frF 3))) hstd (hr true) fullH
  simp only [setRatingConditions, testAt, ha, hb, hh1, hh2, hh3, hh4, bind_ok]
  split
  · exact ⟨_, rfl⟩
  rename_i hst
  obtain ⟨c, hc, lowC⟩ := h .aLow hst
  obtain ⟨k, hk, lowH⟩ := h .h1Low hst
  replace hc : rc.low = some c := hc
  replace hk : rh.low = some k := hk
  obtain ⟨la, hla⟩ := make_ok none hstd (hr false) lowC
  obtain ⟨lb, hlb⟩ := make_ok (some (wetState E.atm (frF 82) (frF 65))) hstd (hr false) lowC
  obtain ⟨lf, hlf⟩ := make_ok (some (wetState E.atm (frF 67) (frF 53.5))) hstd (hr false) lowC
  obtain ⟨k0, hk0⟩ := make_ok (some (wetState E.atm (frF 62) (frF 56.5))) hstd (hr true) lowH
  obtain ⟨k1, hk1⟩ := make_ok none hstd (hr true) lowH
  obtain ⟨k2, hk2⟩ := make_ok (some (wetState E.atm (frF 35) (frF 33))) hstd (hr true) lowH
  obtain ⟨k3, hk3⟩ := make_ok (some (wetState E.atm (frF 17) (frF 15))) hstd (hr true) lowH
  have low : ∀ P, ∃ P', setRatingConditions.low E S rc rh P = .ok P' := fun P => by
    exact ⟨_, by simp only [setRatingConditions.low, testAt, hc, hk, speedIndex, pyNum, hla, hlb, hlf, hk0, hk1, hk2, hk3, bind_ok]; rfl⟩
  have boost : ∀ P, ∃ P', setRatingConditions.boost E S rc P = .ok P' := fun P => by
    unfold setRatingConditions.boost
    cases hb' : rc.boost with
    | none => exact ⟨P, rfl⟩
    | some n =>
      obtain ⟨i, hi, hB⟩ := h .aBoost ⟨hst, by rw [hb']; rfl⟩
      replace hi : rc.boost = some i := hi
      rw [hb'] at hi
      cases hi
      obtain ⟨w, hw⟩ := make_ok none hstd (hr false) hB
      exact ⟨_, by simp only [hw, bind_ok]; rfl⟩
  have inter : ∀ P, ∃ P', setRatingConditions.intermediate E S st rc rh P = .ok P' := fun P => by
    unfold setRatingConditions.intermediate
    split
    · rename_i hv
      have intC : HasRating E S false rc.intermediate := by obtain ⟨i, h1, h2⟩ := h .aInt hv; cases h1; exact h2
      have intH : HasRating E S true rh.intermediate := by obtain ⟨i, h1, h2⟩ := h .h2Int hv; cases h1; exact h2
      obtain ⟨x, hx⟩ := make_ok none hstd (hr false) intC
      obtain ⟨y, hy⟩ := make_ok (some (wetState E.atm (frF 87) (frF 69))) hstd (hr false) intC
      obtain ⟨z, hz⟩ := make_ok (some (wetState E.atm (frF 35) (frF 33))) hstd (hr true) intH
      exact ⟨_, by simp only [testAt, hx, hy, hz, bind_ok]; rfl⟩
    · exact ⟨P, rfl⟩
  obtain ⟨P1, e1⟩ := inter { aFull := a, bFull := b, h1Full := h1, h2Full := h2, h3Full := h3, h4Full := h4, aInt := none, eInt := none, h2Int := none
                             aBoost := none, aLow := none, bLow := none, fLow := none, h0Low := none, h1Low := none, h2Low := none, h3Low := none }
  obtain ⟨P2, e2⟩ := boost P1
  obtain ⟨P3, e3⟩ := low P2
  exact ⟨P3, by rw [e1, bind_ok, e2, bind_ok, e3]⟩

/-! ### Non-vacuity -/

/-- Rated data of a four-speed unit whose first speed is a boost speed. -/
def fourSpeed : Sys ℚ :=
  { sampleSys with
    netCooling := [12000, 10550, 8000, 4000], netHeating := [12000, 10400, 8000, 4000]
    coolingAirflow := [some 0.6, some 0.57, some 0.5, some 0.3], heatingAirflow := [some 0.6, some 0.56, some 0.5, some 0.3]
    ratedCoolingFanSpeed := [some 0, some 1, some 2, some 3], ratedHeatingFanSpeed := [some 4, some 5, some 6, some 7] }

example : DX.okTest (setRatingConditions sampleEnv fourSpeed .varSpeed (roles 4 1 none) (roles 4 1 none)) (fun P =>
    (get P .aInt).all (fun c => c.flow.stdVol == some 0.5) && (get P .aBoost).isSome && (get P .h3Low).all (fun c => c.flow.compressorSpeed == 3)) = true := by
  decide +kernel

example : DX.okTest (setRatingConditions sampleEnv sampleSys .single (roles 1 0 none) (roles 1 0 none)) (fun P =>
    (get P .h4Full).all (fun c => c.outdoor.db == frF 5) && (get P .aLow).isNone) = true := by decide +kernel

/-! ## C83: changing the rating standard -/

/-- `S'` is what `S` has become after some calls of `set_rating_standard`. -/
inductive Switched (u : Units K) (E : Env K) (ducted : Bool) (st : Staging) (rc rh : Roles) (S : Sys K) : Sys K → Prop
  | refl : Switched u E ducted st rc rh S S
  | step {S1 S2 : Sys K} {P : DX.Points (Conditions K)} (std : ResnetFan.Standard) (h : Switched u E ducted st rc rh S S1)
      (hs : setRatingStandard u E S1 ducted st rc rh std = .ok (S2, P)) : Switched u E ducted st rc rh S S2

/-- The static pressure of a rating condition is all that depends on the standard. -/
def sansPressure (c : Conditions K) : Conditions K := { c with flow := { c.flow with esp := none, ratedESP := none } }

/-- **C83.** Whatever standards were set before, setting a standard gives the same unit and the same rating conditions; and nothing of the rated data but the rating
pressure is changed on the way. -/
theorem C83_last_standard {u : Units K} {E : Env K} {ducted : Bool} {st : Staging} {rc rh : Roles} {S S' : Sys K} (h : Switched u E ducted st rc rh S S') :
    { S' with fullESP := 0 } = { S with fullESP := 0 } ∧
      ∀ std, setRatingStandard u E S' ducted st rc rh std = setRatingStandard u E S ducted st rc rh std := by
  have key : ∀ S S' : Sys K, { S' with fullESP := 0 } = { S with fullESP := 0 } →
      ∀ std, setRatingStandard u E S' ducted st rc rh std = setRatingStandard u E S ducted st rc rh std := by
    intro S S' e std
    cases S; cases S'; cases e; rfl
  have main : { S' with fullESP := 0 } = { S with fullESP := 0 } := by
    induction h with
    | refl => rfl
    | step std _ hs ih =>
      rw [← ih]
      simp only [setRatingStandard, bind_eq_ok] at hs
      obtain ⟨p, -, P', -, hs⟩ := hs
      cases hs
      rfl
  exact ⟨main, key S S' main⟩

/-- **C83.** Two standards give rating conditions that differ in their static pressures only, and each pressure is the standard's full-flow pressure times the square of the
airflow relative to the first speed's. -/
theorem C83_pressure_only {u : Units K} {E : Env K} {ducted : Bool} {st : Staging} {rc rh : Roles} {S S1 S2 : Sys K} {std1 std2 : ResnetFan.Standard}
    {P1 P2 : DX.Points (Conditions K)} (h1 : setRatingStandard u E S ducted st rc rh std1 = .ok (S1, P1))
    (h2 : setRatingStandard u E S ducted st rc rh std2 = .ok (S2, P2)) (t : Test) :
    (get P1 t).map sansPressure = (get P2 t).map sansPressure ∧
      ∀ c1 c2, get P1 t = some c1 → get P2 t = some c2 → ∃ r p1 p2, ResnetFan.fullFlowPressure u ducted std1 S.netCooling = .ok p1 ∧
        ResnetFan.fullFlowPressure u ducted std2 S.netCooling = .ok p2 ∧ c1.flow.esp = some (p1 * r ^ 2) ∧ c2.flow.esp = some (p2 * r ^ 2) := by
  simp only [setRatingStandard, bind_eq_ok] at h1 h2
  obtain ⟨p1, hp1, Q1, hQ1, h1⟩ := h1
  obtain ⟨p2, hp2, Q2, hQ2, h2⟩ := h2
  cases h1
  cases h2
  rcases isTests hQ1 t with ⟨c1, i, x, hi, hx, hT⟩ | ⟨c1, hx⟩ <;> rcases isTests hQ2 t with ⟨c2, j, y, hj, hy, hT'⟩ | ⟨c2, hy⟩
  · rw [hi] at hj
    cases hj
    obtain ⟨m1, n1, o1, rho, a, a0, cap, fs, e0, -, -, -, -, -, e1, e2, e3, e4, e5⟩ := hT
    obtain ⟨m2, n2, o2, rho', a', a0', cap', fs', e0', -, -, -, -, -, e1', e2', e3', e4', e5'⟩ := hT'
    rw [e0] at e0'
    have e1' := e1.symm.trans e1'
    have e2' := e2.symm.trans e2'
    have e3' := e3.symm.trans e3'
    have e4' := e4.symm.trans e4'
    cases e0'; cases e1'; cases e2'; cases e3'; cases e4'
    obtain ⟨xh, xi, xo, xf⟩ := x
    obtain ⟨yh, yi, yo, yf⟩ := y
    simp only at m1 n1 o1 m2 n2 o2 e5 e5'
    subst m1 n1 o1 m2 n2 o2 e5 e5'
    refine ⟨by rw [hx, hy]; rfl, ?_⟩
    intro c1 c2 h1 h2
    rw [hx] at h1
    rw [hy] at h2
    cases h1
    cases h2
    exact ⟨a / a0, p1, p2, hp1, hp2, rfl, rfl⟩
  · exact absurd c1 c2
  · exact absurd c2 c1
  · rw [hx, hy]; exact ⟨rfl, fun _ _ h => by cases h⟩

example : ∃ S P, setRatingStandard (Units.ofOnes ℚ) sampleEnv fourSpeed true .varSpeed (roles 4 1 none) (roles 4 1 none) .ahri2017 = .ok (S, P) := by
  have : DX.okTest (setRatingStandard (Units.ofOnes ℚ) sampleEnv fourSpeed true .varSpeed (roles 4 1 none) (roles 4 1 none) .ahri2017) (fun x => x.1.fullESP == 0.1) = true := by
    decide +kernel
  obtain ⟨x, hx, -⟩ := DX.okTest_iff.1 this
  exact ⟨x.1, x.2, hx⟩

/-! ## C66, C82: resetting rated airflows -/

/-- A condition changed to a new fan speed and airflow: the air states and the compressor speed stay, and airflow, ratio to the rated airflow, airflow per capacity and static
pressure follow from the new airflow `a` (`aOld`, `q`: rated airflow and capacity of the compressor speed; `p` its rated pressure). -/
structure Moved (c c' : Conditions K) (f : Nat) (a aOld q p : K) : Prop where
  mode : c'.heating = c.heating
  indoor : c'.indoor = c.indoor
  outdoor : c'.outdoor = c.outdoor
  speed : c'.flow.compressorSpeed = c.flow.compressorSpeed
  fanSpeed : c'.flow.fanSpeed = some f
  airflow : c'.flow.stdVol = some a
  ratio : c'.flow.ratio = some (a / aOld)
  perCapacity : c'.flow.stdVolPerCap = some (a / q)
  pressure : c'.flow.esp = some (p * (a / aOld) ^ 2)

theorem IsTest.rated {E : Env K} {S : Sys K} {heating : Bool} {i : Nat} {db wb : K} {c : Conditions K} (h : IsTest E S heating i db wb c) : Rated c := by
  obtain ⟨-, -, -, rho, a, a0, cap, fs, -, h1, h2, h3, -, h4, -, -, -, -, hf⟩ := h
  unfold Rated
  rw [hf]
  exact ⟨h1, h2, rfl, ⟨_, rfl, mul_ne_zero h3 h2⟩, _, rfl, h4⟩

theorem IsTest.bump {E : Env K} {S : Sys K} {heating : Bool} {i : Nat} {db wb : K} {c : Conditions K} (h : IsTest E S heating i db wb c) (f : Nat) (a : K) :
    ∃ aOld a0 q, (if heating then S.heatingAirflow else S.coolingAirflow)[i]? = some (some aOld) ∧
      (if heating then S.heatingAirflow else S.coolingAirflow)[0]? = some (some a0) ∧ (if heating then S.netHeating else S.netCooling)[i]? = some q ∧
      aOld ≠ 0 ∧ a0 ≠ 0 ∧ Moved c (bump f a c) f a aOld q (S.fullESP * (aOld / a0) ^ 2) := by
  have hr := h.rated
  obtain ⟨-, -, -, rho, aOld, a0, cap, fs, -, h1, h2, h3, h5, h4, e1, e2, e3, e4, hf⟩ := h
  refine ⟨aOld, a0, cap, e1, e2, e3, h3, h5, ?_⟩
  have hok := setNew_ok (f := f) (a := a) hr
  rw [Cond.newFanSpeed_run] at hok
  obtain ⟨rm, q, hrm, hq, hrun, -⟩ := (Cond.setStandard_run { c.flow with fanSpeed := some f } a).2.2.1 hok hr.2.2.1
  have hb : Ratings.bump f a c = { c with flow := (Cond.setStandardVolumetricAirflow a { c.flow with fanSpeed := some f }).2 } := rfl
  rw [hb, hrun]
  simp only [hf, ratedFlow, Option.some.injEq] at hrm hq ⊢
  subst hrm hq
  have hratio : a * E.rhoStd / rho * rho / (aOld * E.rhoStd) = a / aOld := by field_simp
  exact ⟨rfl, rfl, rfl, by rw [hf]; rfl, rfl, rfl, by simp only [hratio], rfl, by simp only [hratio]⟩

theorem mem_cooling {r : Roles} {i : Nat} {t : Test} : t ∈ coolingTests r i ↔ testHeating t = false ∧ testSpeed t ≠ .boost ∧ speedOf r (testSpeed t) = some i := by
  rw [mem_coolingTests]
  cases t <;> simp [testHeating, testSpeed, speedOf, eq_comm]

theorem mem_heating {r : Roles} {i : Nat} {t : Test} : t ∈ heatingTests r i ↔ testHeating t = true ∧ speedOf r (testSpeed t) = some i := by
  rw [mem_heatingTests]
  cases t <;> simp [testHeating, testSpeed, speedOf, eq_comm]

/-- Airflows per capacity that suit the rated capacities: at most one per speed, and no airflow (nor the pressure that goes with it) that the fan rejects. -/
def Suitable (A : K → K → Prop) (S : Sys K) (caps : List K) (n : Nat) (l : List K) : Prop :=
  l.length ≤ n ∧ ∃ q0 a0, caps[0]? = some q0 ∧ l[0]? = some a0 ∧ q0 * a0 ≠ 0 ∧
    ∀ (i : Nat) (a : K), l[i]? = some a → ∃ q, caps[i]? = some q ∧ A (q * a) (S.fullESP * (q * a / (q0 * a0)) ^ 2)

theorem resetMode_ok {σ : Type} {F : FanOps σ K} {I : σ → Prop} {A : K → K → Prop} (hF : F.Ok I A) {S : Sys K} {caps : List K} {n : Nat} {tests : Nat → List Test}
    (hnd : ∀ i, (tests i).Nodup) (hdis : ∀ i j t, t ∈ tests i → t ∈ tests j → i = j) {l : List K} (hl : Suitable A S caps n l) {s : σ} (hI : I s)
    {P : DX.Points (Conditions K)} (hex : ∀ j, j < l.length → ∀ t ∈ tests j, ∃ c, get P t = some c ∧ Rated c) :
    ∃ s' P', resetMode F S caps tests l (s, P) = (.ok (), (s', P')) ∧ I s' ∧ F.count s' = F.count s + l.length ∧
      (∀ (j : Nat) (a q : K), l[j]? = some a → caps[j]? = some q → ∀ t ∈ tests j, get P' t = (get P t).map (bump (F.count s + j) (q * a))) ∧
      (∀ t, (∀ j, j < l.length → t ∉ tests j) → get P' t = get P t) ∧
      ∃ q0 a0 qs, caps[0]? = some q0 ∧ l[0]? = some a0 ∧ qs.length = l.length ∧ (∀ j, j < l.length → caps[j]? = qs[j]?) ∧
        addMany F ((List.zipWith (· * ·) qs l).map fun a => (a, S.fullESP * (a / (q0 * a0)) ^ 2)) s = (.ok (), s') := by
  obtain ⟨hn, q0, a0, hq0, ha0, hne, hA⟩ := hl
  obtain ⟨s', P', h1, h2, h3, ⟨qs, h6, h7, h8⟩, h4, h5⟩ := resetLoop_ok hF S caps hne tests hnd hdis l 0 s P hI (by simpa using hA) (by simpa using hex)
  refine ⟨s', P', ?_, h2, h3, by simpa using h4, by simpa using h5, q0, a0, qs, hq0, ha0, h6, by simpa using h7, h8⟩
  simp only [resetMode, PyM.bind_run, PyM.lift_run, pyGet_eq_ok.2 hq0, pyGet_eq_ok.2 ha0, h1]

theorem reset_core {σ : Type} {F : FanOps σ K} {I : σ → Prop} {A : K → K → Prop} (hF : F.Ok I A) {E : Env K} {S : Sys K} {st : Staging} {rc rh : Roles}
    {P : DX.Points (Conditions K)} (hP : setRatingConditions E S st rc rh = .ok P) {s : σ} (hI : I s)
    (hint : st = .varSpeed ∨ (rc.n ≤ rc.intermediate ∧ rh.n ≤ rh.intermediate)) (hlow : st = .single → rc.low = none ∧ rh.low = none) (cooling heating : NumArg K)
    (hc : Suitable A S S.netCooling rc.n (perSpeed rc.n cooling)) (hh : Suitable A S S.netHeating rh.n (perSpeed rh.n heating)) :
    ∃ s' P', resetRatedFlowRates F S rc rh cooling heating (s, P) = (.ok (), (s', P')) ∧
      F.count s' = F.count s + (perSpeed rc.n cooling).length + (perSpeed rh.n heating).length ∧
      (∀ (t : Test) (c : Conditions K) (i : Nat) (a q : K), get P t = some c → speedOfTest rc rh t = some i → testSpeed t ≠ .boost →
        (if testHeating t then perSpeed rh.n heating else perSpeed rc.n cooling)[i]? = some a → (if testHeating t then S.netHeating else S.netCooling)[i]? = some q →
        ∃ c' aOld a0, get P' t = some c' ∧ (if testHeating t then S.heatingAirflow else S.coolingAirflow)[i]? = some (some aOld) ∧
          (if testHeating t then S.heatingAirflow else S.coolingAirflow)[0]? = some (some a0) ∧
          Moved c c' (F.count s + (if testHeating t then (perSpeed rc.n cooling).length else 0) + i) (q * a) aOld q (S.fullESP * (aOld / a0) ^ 2)) ∧
      get P' .aBoost = get P .aBoost ∧
      ∃ added, addMany F added s = (.ok (), s') ∧ added.length = (perSpeed rc.n cooling).length + (perSpeed rh.n heating).length ∧
        ∀ (m : Bool) (i : Nat) (a q : K), (if m then perSpeed rh.n heating else perSpeed rc.n cooling)[i]? = some a →
          (if m then S.netHeating else S.netCooling)[i]? = some q → ∃ q0 a0, (if m then S.netHeating else S.netCooling)[0]? = some q0 ∧
            (if m then perSpeed rh.n heating else perSpeed rc.n cooling)[0]? = some a0 ∧ q0 * a0 ≠ 0 ∧
            added[(if m then (perSpeed rc.n cooling).length else 0) + i]? = some (q * a, S.fullESP * (q * a / (q0 * a0)) ^ 2) := by
  have good : ∀ t, carriedOut st rc t → ∃ c, get P t = some c ∧ Rated c := fun t ht => by
    rcases isTests hP t with ⟨-, i, c, -, h3, h4⟩ | ⟨h1, -⟩
    · exact ⟨c, h3, h4.rated⟩
    · exact absurd ht h1
  have hexC : ∀ j, j < (perSpeed rc.n cooling).length → ∀ t ∈ coolingTests rc j, ∃ c, get P t = some c ∧ Rated c := by
    intro j hj t ht
    have hjn := hj.trans_le hc.1
    apply good
    rw [mem_coolingTests] at ht
    rcases ht with ⟨-, rfl | rfl⟩ | ⟨e, h⟩ | ⟨e, h⟩
    · trivial
    · trivial
    · have hv : st = .varSpeed := hint.resolve_right (fun hge => by omega)
      rcases h with rfl | rfl <;> exact hv
    · have hs : st ≠ .single := fun hs => by rw [(hlow hs).1] at e; simp at e
      rcases h with rfl | rfl | rfl <;> exact hs
  have hexH : ∀ j, j < (perSpeed rh.n heating).length → ∀ t ∈ heatingTests rh j, ∃ c, get P t = some c ∧ Rated c := by
    intro j hj t ht
    have hjn := hj.trans_le hh.1
    apply good
    rw [mem_heatingTests] at ht
    rcases ht with ⟨-, rfl | rfl | rfl | rfl⟩ | ⟨e, h⟩ | ⟨e, h⟩
    · trivial
    · trivial
    · trivial
    · trivial
    · have hv : st = .varSpeed := hint.resolve_right (fun hge => by omega)
      subst h; exact hv
    · have hs : st ≠ .single := fun hs => by rw [(hlow hs).2] at e; simp at e
      rcases h with rfl | rfl | rfl | rfl <;> exact hs
  obtain ⟨s1, P1, hr1, hI1, hn1, hset1, hkeep1, q0, a0, qs, hq0, ha0, hqs, hqs', hadd1⟩ := resetMode_ok hF (coolingTests_nodup rc) (coolingTests_disjoint rc) hc hI hexC
  have keepH : ∀ t, testHeating t = true → get P1 t = get P t := fun t ht => hkeep1 t (fun j _ hm => by rw [mem_cooling] at hm; rw [ht] at hm; cases hm.1)
  obtain ⟨s2, P2, hr2, hI2, hn2, hset2, hkeep2, k0, b0, ks, hk0, hb0, hks, hks', hadd2⟩ := resetMode_ok hF (heatingTests_nodup rh) (heatingTests_disjoint rh) hh hI1 (P := P1)
    (fun j hj t ht => by rw [keepH t (mem_heating.1 ht).1]; exact hexH j hj t ht)
  have keepC : ∀ t, testHeating t = false → get P2 t = get P1 t := fun t ht => hkeep2 t (fun j _ hm => by rw [mem_heating] at hm; rw [ht] at hm; cases hm.1)
  refine ⟨s2, P2, by simp only [resetRatedFlowRates, PyM.bind_run, hr1, hr2], by rw [hn2, hn1], ?_, ?_, ?_⟩
  · intro t c i a q hg hi hb ha hq
    have hT : IsTest E S (testHeating t) i (testOutdoor t : K × K).1 (testOutdoor t : K × K).2 c := by
      rcases isTests hP t with ⟨-, j, c', h2, h3, h4⟩ | ⟨-, h1⟩
      · rw [hi] at h2; rw [hg] at h3; cases h2; cases h3; exact h4
      · rw [hg] at h1; cases h1
    obtain ⟨aOld, a0, q', e1, e2, e3, -, -, hm⟩ := hT.bump (F.count s + (if testHeating t then (perSpeed rc.n cooling).length else 0) + i) (q * a)
    rw [hq] at e3
    cases e3
    refine ⟨_, aOld, a0, ?_, e1, e2, hm⟩
    unfold speedOfTest at hi
    cases ht : testHeating t with
    | false =>
      simp only [ht, Bool.false_eq_true, if_false] at hi ha hq ⊢
      rw [keepC t ht, hset1 i a q ha hq t (mem_cooling.2 ⟨ht, hb, hi⟩), hg, Nat.add_zero]
      rfl
    | true =>
      simp only [ht, if_true] at hi ha hq ⊢
      rw [hset2 i a q ha hq t (mem_heating.2 ⟨ht, hi⟩), keepH t ht, hg, hn1]
      rfl
  · rw [keepC _ rfl]
    exact hkeep1 _ (fun j _ hm => (mem_cooling.1 hm).2.1 rfl)
  · refine ⟨_, addMany_append F hadd1 hadd2, by simp [hqs, hks], ?_⟩
    have hlen1 : (List.zipWith (· * ·) qs (perSpeed rc.n cooling)).length = (perSpeed rc.n cooling).length := by simp [hqs]
    have hne1 : q0 * a0 ≠ 0 := by
      obtain ⟨-, x, y, hx, hy, hxy, -⟩ := hc
      rw [hx] at hq0; rw [hy] at ha0; cases hq0; cases ha0; exact hxy
    have hne2 : k0 * b0 ≠ 0 := by
      obtain ⟨-, x, y, hx, hy, hxy, -⟩ := hh
      rw [hx] at hk0; rw [hy] at hb0; cases hk0; cases hb0; exact hxy
    intro m i a q ha hq
    cases m with
    | false =>
      simp only [Bool.false_eq_true, if_false, Nat.zero_add] at ha hq ⊢
      have hi := (List.getElem?_eq_some_iff.1 ha).1
      refine ⟨q0, a0, hq0, ha0, hne1, ?_⟩
      rw [List.getElem?_append_left (by rw [List.length_map, hlen1]; exact hi), List.getElem?_map, List.getElem?_zipWith, ← hqs' i hi, hq, ha]
      rfl
    | true =>
      simp only [if_true] at ha hq ⊢
      have hi := (List.getElem?_eq_some_iff.1 ha).1
      refine ⟨k0, b0, hk0, hb0, hne2, ?_⟩
      rw [List.getElem?_append_right (by rw [List.length_map, hlen1]; omega), List.length_map, hlen1, Nat.add_sub_cancel_left, List.getElem?_map,
        List.getElem?_zipWith, ← hks' i hi, hq, ha]
      rfl

/-- **C66 (partial).** `reset_rated_flow_rates` on a variable-speed unit, or on any unit whose "intermediate" speed index lies beyond its last speed (every single-speed unit),
succeeds. It adds one fan speed per airflow, cooling first, and moves every rating condition except the boost one to the fan speed and the airflow of its compressor speed.
Missing: two-stage units (`C66_two_stage_refuted`). -/
theorem C66_partial {σ : Type} {F : FanOps σ K} {I : σ → Prop} {A : K → K → Prop} (hF : F.Ok I A) {E : Env K} {S : Sys K} {st : Staging} {rc rh : Roles}
    {P : DX.Points (Conditions K)} (hP : setRatingConditions E S st rc rh = .ok P) {s : σ} (hI : I s)
    (hint : st = .varSpeed ∨ (rc.n ≤ rc.intermediate ∧ rh.n ≤ rh.intermediate)) (hlow : st = .single → rc.low = none ∧ rh.low = none) (cooling heating : NumArg K)
    (hc : Suitable A S S.netCooling rc.n (perSpeed rc.n cooling)) (hh : Suitable A S S.netHeating rh.n (perSpeed rh.n heating)) :
    ∃ s' P', resetRatedFlowRates F S rc rh cooling heating (s, P) = (.ok (), (s', P')) ∧
      F.count s' = F.count s + (perSpeed rc.n cooling).length + (perSpeed rh.n heating).length ∧
      (∀ (t : Test) (c : Conditions K) (i : Nat) (a q : K), get P t = some c → speedOfTest rc rh t = some i → testSpeed t ≠ .boost →
        (if testHeating t then perSpeed rh.n heating else perSpeed rc.n cooling)[i]? = some a → (if testHeating t then S.netHeating else S.netCooling)[i]? = some q →
        ∃ c' aOld a0, get P' t = some c' ∧ (if testHeating t then S.heatingAirflow else S.coolingAirflow)[i]? = some (some aOld) ∧
          (if testHeating t then S.heatingAirflow else S.coolingAirflow)[0]? = some (some a0) ∧
          Moved c c' (F.count s + (if testHeating t then (perSpeed rc.n cooling).length else 0) + i) (q * a) aOld q (S.fullESP * (aOld / a0) ^ 2)) ∧
      get P' .aBoost = get P .aBoost := by
  obtain ⟨s', P', h1, h2, h3, h4, -⟩ := reset_core hF hP hI hint hlow cooling heating hc hh
  exact ⟨s', P', h1, h2, h3, h4⟩

/-- **C66 is refuted for two-stage units.** With default speed indices, `reset_rated_flow_rates` on a two-stage unit always raises `AttributeError`; by then the fan has two
more speeds, the full-speed cooling conditions use the first of them, and the low-speed ones are as before. -/
theorem C66_two_stage_refuted {σ : Type} {F : FanOps σ K} {I : σ → Prop} {A : K → K → Prop} (hF : F.Ok I A) {E : Env K} {S : Sys K}
    {P : DX.Points (Conditions K)} (hP : setRatingConditions E S .two (roles 2 0 none) (roles 2 0 none) = .ok P) {s : σ} (hI : I s) (cooling heating : K)
    (hc : Suitable A S S.netCooling 2 [cooling, cooling]) :
    ∃ s' P', resetRatedFlowRates F S (roles 2 0 none) (roles 2 0 none) (.num cooling) (.num heating) (s, P) = (.error .attribute, (s', P')) ∧
      F.count s' = F.count s + 2 ∧ P'.aFull.flow.fanSpeed = some (F.count s) ∧ P'.aLow = P.aLow := by
  obtain ⟨-, q0, a0, hq0, ha0, hne, hA⟩ := hc
  cases ha0
  obtain ⟨q, hq, hA0⟩ := hA 0 cooling rfl
  rw [hq0] at hq
  cases hq
  obtain ⟨q1, hq1, hA1⟩ := hA 1 cooling rfl
  have good : ∀ t, carriedOut .two (roles 2 0 none) t → ∃ i c, get P t = some c ∧ Rated c ∧ IsTest E S (testHeating t) i (testOutdoor t : K × K).1 (testOutdoor t : K × K).2 c :=
    fun t ht => by
      rcases isTests hP t with ⟨-, i, c, -, h3, h4⟩ | ⟨h1, -⟩
      · exact ⟨i, c, h3, h4.rated, h4⟩
      · exact absurd ht h1
  have hnone : get P .aInt = none := (C81_tests hP .aInt).2 (by simp [carriedOut, testSpeed])
  obtain ⟨s1, had1, hI1, hn1⟩ := hF s _ _ hI hA0
  obtain ⟨s2, had2, hI2, hn2⟩ := hF s1 _ _ hI1 hA1
  have e1 : F.count s1 - 1 = F.count s := by omega
  obtain ⟨P1, hP1, hg1⟩ := newFanSpeeds_ok s1 (F.count s) (q0 * cooling) (coolingTests (roles 2 0 none) 0) P (coolingTests_nodup _ _) (fun t ht => by
    have ht' : t = .aFull ∨ t = .bFull := by simpa [coolingTests, roles] using ht
    obtain ⟨i, c, h1, h2, -⟩ := good t (by rcases ht' with rfl | rfl <;> trivial)
    exact ⟨c, h1, h2⟩)
  have hnone1 : get P1 .aInt = none := by rw [hg1, hnone]; simp
  have p1 : S.ratedPressure (q0 * cooling) (q0 * cooling) = .ok (S.fullESP * (q0 * cooling / (q0 * cooling)) ^ 2) := by
    unfold Sys.ratedPressure; simp only [pdiv_ok hne, bind_ok, pure_eq_ok]
  have p2 : S.ratedPressure (q1 * cooling) (q0 * cooling) = .ok (S.fullESP * (q1 * cooling / (q0 * cooling)) ^ 2) := by
    unfold Sys.ratedPressure; simp only [pdiv_ok hne, bind_ok, pure_eq_ok]
  have hfail : newFanSpeeds (F.count s2 - 1) (q1 * cooling) (coolingTests (roles 2 0 none) 1) (s2, P1) = (.error .attribute, (s2, P1)) := by
    have hl : coolingTests (roles 2 0 none) 1 = [.aInt, .eInt, .aLow, .bLow, .fLow] := rfl
    rw [hl, newFanSpeeds]
    simp only [PyM.bind_run, newFanSpeed_missing hnone1]
  refine ⟨s2, P1, ?_, by omega, ?_, ?_⟩
  · simp only [resetRatedFlowRates, resetMode, perSpeed, roles, List.replicate, pyGet_eq_ok.2 hq0, PyM.bind_run, PyM.lift_run]
    have : pyGet [cooling, cooling] 0 = .ok cooling := rfl
    simp only [this, resetLoop, PyM.bind_run, PyM.lift_run, pyGet_eq_ok.2 hq0, pyGet_eq_ok.2 hq1, p1, p2, PyM.zoom_run, had1, had2, PyM.get_run, e1]
    have h1 := hP1
    have h2 := hfail
    simp only [roles] at h1 h2
    simp only [h1, had2, h2, PyM.zoom_run, Nat.zero_add]
  · obtain ⟨i, c, hc', -, hT⟩ := good .aFull trivial
    have := hg1 .aFull
    rw [if_pos (by decide), hc'] at this
    have e : P1.aFull = bump (F.count s) (q0 * cooling) c := Option.some.inj this
    obtain ⟨_, _, _, -, -, -, -, -, hm⟩ := hT.bump (F.count s) (q0 * cooling)
    rw [e]; exact hm.fanSpeed
  · have := hg1 .aLow
    rw [if_neg (by decide)] at this
    exact this

/-! ### C82: the conditions and the fan after a reset -/

/-- **C82 (partial).** After a successful reset, each rating condition except the boost one uses one of the fan speeds just added, and has the airflow that speed was added with. Its
static pressure is the one the speed was added with exactly if the rating pressure is zero or the first speed's airflow is what it was before.
Missing: equal pressures in every case (`C82_pressure_refuted`). -/
theorem C82_partial {σ : Type} {F : FanOps σ K} {I : σ → Prop} {A : K → K → Prop} (hF : F.Ok I A) (hA : ∀ a p, A a p → 0 < a) {E : Env K} {S : Sys K} {st : Staging} {rc rh : Roles}
    {P : DX.Points (Conditions K)} (hP : setRatingConditions E S st rc rh = .ok P) {s : σ} (hI : I s)
    (hint : st = .varSpeed ∨ (rc.n ≤ rc.intermediate ∧ rh.n ≤ rh.intermediate)) (hlow : st = .single → rc.low = none ∧ rh.low = none) (cooling heating : NumArg K)
    (hc : Suitable A S S.netCooling rc.n (perSpeed rc.n cooling)) (hh : Suitable A S S.netHeating rh.n (perSpeed rh.n heating))
    (hpos : ∀ x, (some x) ∈ S.coolingAirflow ++ S.heatingAirflow → 0 < x) :
    ∃ s' P' added, resetRatedFlowRates F S rc rh cooling heating (s, P) = (.ok (), (s', P')) ∧ addMany F added s = (.ok (), s') ∧
      ∀ (t : Test) (c : Conditions K) (i : Nat), get P t = some c → speedOfTest rc rh t = some i → testSpeed t ≠ .boost →
        i < (if testHeating t then perSpeed rh.n heating else perSpeed rc.n cooling).length →
        ∃ c' k a p q0 a0 aOld, get P' t = some c' ∧ c'.flow.fanSpeed = some (F.count s + k) ∧ added[k]? = some (a, p) ∧ c'.flow.stdVol = some a ∧
          (if testHeating t then S.netHeating else S.netCooling)[0]? = some q0 ∧
          (if testHeating t then perSpeed rh.n heating else perSpeed rc.n cooling)[0]? = some a0 ∧
          (if testHeating t then S.heatingAirflow else S.coolingAirflow)[0]? = some (some aOld) ∧
          (c'.flow.esp = some p ↔ S.fullESP = 0 ∨ q0 * a0 = aOld) := by
  obtain ⟨s', P', h1, h2, h3, h4, added, h5, h6, h7⟩ := reset_core hF hP hI hint hlow cooling heating hc hh
  refine ⟨s', P', added, h1, h5, ?_⟩
  intro t c i hg hi hb hlt
  have hsuit : ∃ n, Suitable A S (if testHeating t then S.netHeating else S.netCooling) n (if testHeating t then perSpeed rh.n heating else perSpeed rc.n cooling) := by
    cases testHeating t
    · exact ⟨_, hc⟩
    · exact ⟨_, hh⟩
  obtain ⟨n, -, q0', a0', hq0', ha0', -, hall⟩ := hsuit
  have hx := List.getElem?_eq_getElem hlt
  obtain ⟨q, hq, hAq⟩ := hall i _ hx
  obtain ⟨_, hq00, hA0⟩ := hall 0 a0' ha0'
  rw [hq0'] at hq00
  cases hq00
  generalize (if testHeating t then perSpeed rh.n heating else perSpeed rc.n cooling)[i] = a at hx hAq
  obtain ⟨c', aOld, a0, hg', e1, e2, hm⟩ := h3 t c i a q hg hi hb hx hq
  obtain ⟨q0, b0, hq0, hb0, hne, hadd⟩ := h7 (testHeating t) i a q hx hq
  rw [hq0'] at hq0
  rw [ha0'] at hb0
  cases hq0
  cases hb0
  have p1 := hpos aOld (by
    have := List.mem_of_getElem? e1
    cases ht : testHeating t <;> simp only [ht, Bool.false_eq_true, if_false, if_true] at this <;> simp [this])
  have p2 := hpos a0 (by
    have := List.mem_of_getElem? e2
    cases ht : testHeating t <;> simp only [ht, Bool.false_eq_true, if_false, if_true] at this <;> simp [this])
  have p3 := hA _ _ hAq
  have p4 := hA _ _ hA0
  refine ⟨c', _, q * a, _, q0', a0', a0, hg', by rw [hm.fanSpeed, Nat.add_assoc], hadd, hm.airflow, hq0', ha0', e2, ?_⟩
  rw [hm.pressure, Option.some.injEq]
  generalize q * a = x at p3
  generalize q0' * a0' = y at p4
  have e : S.fullESP * (aOld / a0) ^ 2 * (x / aOld) ^ 2 = S.fullESP * (x / a0) ^ 2 := by field_simp
  rw [e]
  constructor
  · intro h
    rcases mul_eq_mul_left_iff.1 h with h | h
    · right
      have h' : x / a0 = x / y := by
        rcases sq_eq_sq_iff_eq_or_eq_neg.1 h with h | h
        · exact h
        · have := div_pos p3 p2
          have := div_pos p3 p4
          linarith
      rw [div_eq_div_iff p2.ne' p4.ne'] at h'
      exact mul_left_cancel₀ p3.ne' h'
    · exact Or.inl h
  · rintro (h | h)
    · rw [h, zero_mul, zero_mul]
    · rw [h]

/-- A fan that remembers the speeds added to it. -/
def recorder : FanOps (List (K × K)) K where
  add a p := PyM.modify fun l => l ++ [(a, p)]
  count l := l.length

theorem recorder_ok : (recorder : FanOps (List (K × K)) K).Ok (fun _ => True) (fun a _ => 0 < a) := fun s a p _ _ =>
  ⟨s ++ [(a, p)], rfl, trivial, by simp [recorder]⟩

/-- The full-speed cooling condition and the fan speeds of a unit after a reset. -/
def resetSample (S : Sys ℚ) (st : Staging) (rc rh : Roles) (cooling heating : NumArg ℚ) : Py (List (ℚ × ℚ) × DX.Points (Conditions ℚ)) := do
  let P ← setRatingConditions sampleEnv S st rc rh
  (resetRatedFlowRates recorder S rc rh cooling heating).exec ([], P)

/-- **C82 is refuted for pressures.** Resetting a single-speed unit's airflow: the full-speed cooling condition has the airflow of its new fan speed but not the pressure. -/
theorem C82_pressure_refuted : ∃ added P, resetSample sampleSys .single (roles 1 0 none) (roles 1 0 none) (.num 0.00005) (.num 0.00005) = .ok (added, P) ∧
    ∃ f a p p', P.aFull.flow.fanSpeed = some f ∧ added[f]? = some (a, p) ∧ P.aFull.flow.stdVol = some a ∧ P.aFull.flow.esp = some p' ∧ p' ≠ p := by
  have h : DX.okTest (resetSample sampleSys .single (roles 1 0 none) (roles 1 0 none) (.num 0.00005) (.num 0.00005)) (fun x =>
      x.2.aFull.flow.fanSpeed == some 0 && x.1[0]? == some ((10550 * 0.00005 : ℚ), (125 : ℚ)) && x.2.aFull.flow.stdVol == some (10550 * 0.00005) &&
        x.2.aFull.flow.esp == some (125 * (10550 * 0.00005 / 0.57) ^ 2)) = true := by decide +kernel
  obtain ⟨⟨added, P⟩, h1, h2⟩ := DX.okTest_iff.1 h
  simp only [Bool.and_eq_true, beq_iff_eq] at h2
  obtain ⟨⟨⟨e1, e2⟩, e3⟩, e4⟩ := h2
  exact ⟨added, P, h1, 0, _, _, _, e1, e2, e3, e4, by norm_num⟩

/-- **C82 is refuted for the boost speed.** Resetting the airflows of a unit with a boost speed leaves its boost condition at the old fan speed and airflow. -/
theorem C82_boost_refuted : ∃ added P c, resetSample fourSpeed .varSpeed (roles 4 1 none) (roles 4 1 none) (.num 0.00005) (.num 0.00005) = .ok (added, P) ∧
    P.aBoost = some c ∧ c.flow.compressorSpeed = 0 ∧ c.flow.stdVol = some 0.6 ∧ added[0]? = some ((12000 * 0.00005 : ℚ), (125 : ℚ)) ∧ P.aFull.flow.fanSpeed = some 1 := by
  have h : DX.okTest (resetSample fourSpeed .varSpeed (roles 4 1 none) (roles 4 1 none) (.num 0.00005) (.num 0.00005)) (fun x =>
      x.2.aBoost.any (fun c => c.flow.compressorSpeed == 0 && c.flow.stdVol == some 0.6) && x.1[0]? == some ((12000 * 0.00005 : ℚ), (125 : ℚ)) &&
        x.2.aFull.flow.fanSpeed == some 1) = true := by decide +kernel
  obtain ⟨⟨added, P⟩, h1, h2⟩ := DX.okTest_iff.1 h
  simp only [Bool.and_eq_true, beq_iff_eq, Option.any_eq_true] at h2
  obtain ⟨⟨⟨c, hc, e1, e2⟩, e3⟩, e4⟩ := h2
  exact ⟨added, P, c, h1, hc, e1, e2, e3, e4⟩

/-- The hypotheses of `C66_partial` and `C82_partial` are met by that four-speed unit, and those of the two-stage theorem by a two-stage one. -/
example : Suitable (fun a _ => 0 < a) fourSpeed fourSpeed.netCooling 4 (perSpeed 4 (.num 0.00005)) := by
  refine ⟨le_refl _, 12000, 0.00005, rfl, rfl, by norm_num, ?_⟩
  intro i a h
  have hi : i < 4 := by simpa [perSpeed] using (List.getElem?_eq_some_iff.1 h).1
  interval_cases i <;> (simp [perSpeed] at h; subst h; exact ⟨_, rfl, by norm_num⟩)

example : DX.okTest (do
    let P ← setRatingConditions sampleEnv fourSpeed .two (roles 2 0 none) (roles 2 0 none)
    return (resetRatedFlowRates recorder fourSpeed (roles 2 0 none) (roles 2 0 none) (.num 0.00005) (.num 0.00005) ([], P)))
    (fun x => (match x.1 with | .error .attribute => true | _ => false) && x.2.1.length == 2) = true := by decide +kernel

/-! ### The fans -/

open Fan

/-- A fan that has its speeds: the first design airflow is not zero. -/
def GoodBase (b : Base) : Prop := 0 ≤ b.n ∧ ∃ a l, b.airflow = a :: l ∧ a ≠ 0

theorem GoodBase.step {b b' : Base} {a : ℝ} (h : GoodBase b) (hb : Base.addSpeed a b = (.ok (), b')) : GoodBase b' ∧ b'.n.toNat = b.n.toNat + 1 := by
  obtain ⟨hn, x, l, hl, hx⟩ := h
  obtain ⟨-, rfl⟩ := Base.addSpeed_ok hb
  exact ⟨⟨by show 0 ≤ b.n + 1; omega, x, l ++ [a], by simp [hl], hx⟩, by show (b.n + 1).toNat = _; omega⟩

theorem GoodBase.add {b : Base} (h : GoodBase b) (a : ℝ) : ∃ b', Base.addSpeed a b = (.ok (), b') := by
  obtain ⟨hn, x, l, hl, hx⟩ := h
  rw [Base.addSpeed_run, if_neg (by simpa [hl] using hx)]
  exact ⟨_, rfl⟩

theorem ecm_ok : ecmOps.Ok (fun s => GoodBase s.base) (fun a _ => 0 < a) := by
  intro s a p hs _
  obtain ⟨-, x, l, hl, hx⟩ := id hs
  obtain ⟨s', h⟩ := ECM.addSpeed_of_ok (s := s) (a := a) (p := some p) (by simpa [hl] using hx)
  obtain ⟨b', hb, rfl⟩ := ECM.addSpeed_ok h
  obtain ⟨h1, h2⟩ := hs.step hb
  exact ⟨_, h, h1, h2⟩

theorem eere_ok (u : Units ℝ) (kind : EEREKind) : (eereOps u kind).Ok (fun s => GoodBase s.base) (fun a _ => 0 < a) := by
  intro s a p hs _
  obtain ⟨-, x, l, hl, hx⟩ := id hs
  obtain ⟨s', h⟩ := EERE.addSpeed_of_ok u kind (s := s) (a := a) (p := some p) (by simpa [hl] using hx)
  obtain ⟨b', hb, rfl⟩ := EERE.addSpeed_ok u kind h
  obtain ⟨h1, h2⟩ := hs.step hb
  exact ⟨_, h, h1, h2⟩

theorem psc_ok (u : Units ℝ) : (pscOps u).Ok (fun s => GoodBase s.base ∧ ∃ f l, s.freeAirflow = f :: l ∧ f ≠ 0) (fun a p => 0 < a ∧ 0 ≤ p) := by
  intro s a p ⟨hs, f, l', hf, hf0⟩ ⟨ha, hp⟩
  obtain ⟨-, x, l, hl, hx⟩ := id hs
  have hfree : PSC.storedAirflow u s a (some p) + s.designReduction = a + PSC.reduction u p := by simp only [PSC.storedAirflow]; ring
  obtain ⟨s', h⟩ := PSC.addSpeed_of_ok u (s := s) (a := a) (p := some p) (by simpa [hl] using hx) (by simpa [hf] using hf0) (by
    rw [hfree]
    have h1 := PSC.reduction_nonneg u hp
    have h2 := PSC.coef_pos u
    positivity)
  obtain ⟨b', hb, -, -, rfl⟩ := PSC.addSpeed_ok u h
  obtain ⟨h1, h2⟩ := hs.step hb
  exact ⟨_, h, ⟨h1, f, _, by show s.freeAirflow ++ _ = _; rw [hf]; rfl, hf0⟩, h2⟩

theorem constEff_add {s : ConstEff} {l : List ℝ} (hl : s.designEfficacy = .list l) {a p : ℝ} {b : Base} (hb : Base.addSpeed a s.base = (.ok (), b)) :
    constEffOps.add a p s = (.ok (), { base := b, designEfficacy := .list (l ++ [p]) }) := by
  simp only [constEffOps, ConstEff.addSpeed, ConstEff.sup, PyM.bind_run, PyM.zoom_run, hb, PyM.get_run, hl, PyM.modify_run]

/-- A constant-efficacy fan as its constructor leaves it. -/
def GoodConstEff (s : ConstEff) : Prop := GoodBase s.base ∧ s.base.n = s.base.airflow.length ∧ ∃ l, s.designEfficacy = .list l ∧ l.length = s.base.airflow.length

theorem constEff_ok : constEffOps.Ok GoodConstEff (fun a _ => 0 < a) := by
  intro s a p ⟨hs, hn, l, hl, hlen⟩ _
  obtain ⟨b, hb⟩ := hs.add a
  obtain ⟨h1, h2⟩ := hs.step hb
  refine ⟨_, constEff_add hl hb, ⟨h1, ?_, l ++ [p], rfl, ?_⟩, h2⟩
  · obtain ⟨-, rfl⟩ := Base.addSpeed_ok hb; simp [hn]
  · obtain ⟨-, rfl⟩ := Base.addSpeed_ok hb; simp [hlen]

theorem constEff_addMany (added : List (ℝ × ℝ)) : ∀ {s s' : ConstEff} {l : List ℝ}, GoodBase s.base → s.designEfficacy = .list l →
    addMany constEffOps added s = (.ok (), s') → s'.designEfficacy = .list (l ++ added.map Prod.snd) ∧ s'.base.airflow = s.base.airflow ++ added.map Prod.fst := by
  induction added with
  | nil => intro s s' l _ hl h; cases h; simp [hl]
  | cons x added ih =>
    intro s s' l hs hl h
    obtain ⟨b, hb⟩ := hs.add x.1
    simp only [addMany, PyM.bind_run, constEff_add hl hb] at h
    have hg : GoodBase b := (hs.step hb).1
    obtain ⟨h1, h2⟩ := ih (s := { base := b, designEfficacy := .list (l ++ [x.2]) }) hg rfl h
    obtain ⟨-, rfl⟩ := Base.addSpeed_ok hb
    exact ⟨by rw [h1]; simp, by rw [h2]; simp⟩

/-- **C82 is refuted for constant-efficacy fans.** The efficacy of every fan speed added by a reset is the static *pressure* of that speed, so the power at such a speed is airflow times
pressure, whatever the efficacy of the fan is. -/
theorem C82_constant_efficacy_refuted {E : Env ℝ} {S : Sys ℝ} {st : Staging} {rc rh : Roles} {P : DX.Points (Conditions ℝ)}
    (hP : setRatingConditions E S st rc rh = .ok P) {s : ConstEff} (hs : GoodConstEff s) (hint : st = .varSpeed ∨ (rc.n ≤ rc.intermediate ∧ rh.n ≤ rh.intermediate))
    (hlow : st = .single → rc.low = none ∧ rh.low = none) (cooling heating : NumArg ℝ)
    (hc : Suitable (fun a _ => 0 < a) S S.netCooling rc.n (perSpeed rc.n cooling)) (hh : Suitable (fun a _ => 0 < a) S S.netHeating rh.n (perSpeed rh.n heating)) :
    ∃ s' P', resetRatedFlowRates constEffOps S rc rh cooling heating (s, P) = (.ok (), (s', P')) ∧
      ∀ (i : Nat) (a q : ℝ), (perSpeed rc.n cooling)[i]? = some a → S.netCooling[i]? = some q → ∃ p q0 a0, S.netCooling[0]? = some q0 ∧ (perSpeed rc.n cooling)[0]? = some a0 ∧
        p = S.fullESP * (q * a / (q0 * a0)) ^ 2 ∧ ConstEff.efficacy s' (s.base.n + i) none = .ok p ∧ ConstEff.power s' (s.base.n + i) none = .ok (q * a * p) := by
  obtain ⟨s', P', h1, h2, h3, h4, added, h5, h6, h7⟩ := reset_core constEff_ok hP hs hint hlow cooling heating hc hh
  refine ⟨s', P', h1, ?_⟩
  obtain ⟨hg, hn, l, hl, hlen⟩ := hs
  obtain ⟨e1, e2⟩ := constEff_addMany added hg hl h5
  intro i a q ha hq
  obtain ⟨q0, a0, hq0, ha0, -, hadd⟩ := h7 false i a q ha hq
  simp only [Bool.false_eq_true, if_false, Nat.zero_add] at hadd hq0 ha0
  have g1 : pyGetI (l ++ added.map Prod.snd) (s.base.n + i) = .ok (S.fullESP * (q * a / (q0 * a0)) ^ 2) := by
    rw [hn, ← hlen, ← Nat.cast_add, pyGetI_natCast, List.getElem?_append_right (by omega), Nat.add_sub_cancel_left, List.getElem?_map, hadd]
    rfl
  have g2 : pyGetI (s.base.airflow ++ added.map Prod.fst) (s.base.n + i) = .ok (q * a) := by
    rw [hn, ← Nat.cast_add, pyGetI_natCast, List.getElem?_append_right (by omega), Nat.add_sub_cancel_left, List.getElem?_map, hadd]
    rfl
  have g3 : ConstEff.efficacy s' (s.base.n + i) none = .ok (S.fullESP * (q * a / (q0 * a0)) ^ 2) := by
    unfold ConstEff.efficacy
    rw [e1]
    exact g1
  refine ⟨_, q0, a0, hq0, ha0, rfl, g3, ?_⟩
  unfold ConstEff.power ConstEff.airflow
  rw [e2, g2, bind_ok, g3]
  rfl

/-- A fan with one speed meets `GoodConstEff`. -/
example : GoodConstEff { base := { designESP := 125, n := 1, airflow := [0.57], ratio := [1], sysConst := 20 }, designEfficacy := .list [700] } :=
  ⟨⟨by decide, _, _, rfl, by norm_num⟩, rfl, _, rfl, rfl⟩

end Resdx.Ratings
