import Verif.Model.ReportsResnet
import Verif.Props.Reports
import Verif.Props.ResnetReturns
import Verif.Props.ResnetSeason

/-!
# C107–C109 for constructed RESNET units
-/

set_option linter.unusedSectionVars false
set_option linter.unusedSimpArgs false

namespace Resdx.Build

open Spec Tabular BaseModel Props ResnetFan Fan Table DX Reports Ratings

/-- The tests of the rating conditions are at the temperatures of the standard. -/
theorem test_temperatures {K : Type} [Field K] [LinearOrder K] [IsStrictOrderedRing K] {E : Env K} {S : Sys K} {st : Staging} {rc rh : Roles} {P : Points (Conditions K)} {U : Performance (Conditions K) K}
    (h : Ratings.setRatingConditions E S st rc rh = .ok P) (hU : U.db = fun c => c.outdoor.db) : TestTemperatures U P := by
  have key : ∀ t c, Ratings.get P t = some c → U.db c = frF (testOutdoor t : K × K).1 := by
    intro t c hc
    rcases Classical.em (carriedOut st rc t) with hy | hn
    · obtain ⟨i, c', -, h2, h3⟩ := (C81_tests h t).1 hy
      rw [hc] at h2; cases h2
      rw [hU]
      show c.outdoor.db = _
      rw [h3.outdoor]
      rfl
    · rw [(C81_tests h t).2 hn] at hc; cases hc
  exact ⟨key .h1Full _ rfl, key .h2Full _ rfl, key .h3Full _ rfl, key .h4Full _ rfl, fun c hc => key .h0Low c hc, fun c hc => key .h1Low c hc⟩

variable {u : Units ℝ} {E : Env ℝ} {T : Coil.Tools} {brentq : Brentq} {a : Args} {B : Built}

theorem h4_point {S : Sys ℝ} {rc rh : Roles} {P : DX.Points (Conditions ℝ)} {st : Staging} (h : Ratings.setRatingConditions E S st rc rh = .ok P) :
    S.makeCondition E true rh.full none (some (wetState E.atm (frF 5) (frF 3))) = .ok P.h4Full := by
  unfold Ratings.setRatingConditions at h
  simp only [bind_eq_ok] at h
  obtain ⟨x1, h1, x2, h2, x3, h3, x4, h4, x5, h5, x6, h6, h7⟩ := h
  split at h7
  · simp only [pure_eq_ok, Except.ok.injEq] at h7
    rw [← h7]; exact h6
  · simp only [bind_eq_ok] at h7
    obtain ⟨P2, ⟨P1, i1, i3⟩, i4⟩ := h7
    have e1 : P1.h4Full = x6 := by
      unfold Ratings.setRatingConditions.intermediate at i1
      split at i1
      · simp only [bind_eq_ok, pure_eq_ok, Except.ok.injEq] at i1
        obtain ⟨_, -, _, -, _, -, rfl⟩ := i1
        rfl
      · rw [← Except.ok.inj i1]
    have e2 : P2.h4Full = P1.h4Full := by
      unfold Ratings.setRatingConditions.boost at i3
      split at i3
      · rw [← Except.ok.inj i3]
      · simp only [bind_eq_ok, pure_eq_ok, Except.ok.injEq] at i3
        obtain ⟨_, -, rfl⟩ := i3
        rfl
    unfold Ratings.setRatingConditions.low at i4
    simp only [bind_eq_ok, pure_eq_ok, Except.ok.injEq] at i4
    obtain ⟨_, -, _, -, _, -, _, -, _, -, _, -, _, -, _, -, _, -, rfl⟩ := i4
    show _ = Except.ok P2.h4Full
    rw [e2, e1]
    exact h6

theorem h2_point {S : Sys ℝ} {rc rh : Roles} {P : DX.Points (Conditions ℝ)} {st : Staging} (h : Ratings.setRatingConditions E S st rc rh = .ok P) :
    S.makeCondition E true rh.full none (some (wetState E.atm (frF 35) (frF 33))) = .ok P.h2Full := by
  unfold Ratings.setRatingConditions at h
  simp only [bind_eq_ok] at h
  obtain ⟨x1, h1, x2, h2, x3, h3, x4, h4, x5, h5, x6, h6, h7⟩ := h
  split at h7
  · simp only [pure_eq_ok, Except.ok.injEq] at h7
    rw [← h7]; exact h4
  · simp only [bind_eq_ok] at h7
    obtain ⟨P2, ⟨P1, i1, i3⟩, i4⟩ := h7
    have e1 : P1.h2Full = x4 := by
      unfold Ratings.setRatingConditions.intermediate at i1
      split at i1
      · simp only [bind_eq_ok, pure_eq_ok, Except.ok.injEq] at i1
        obtain ⟨_, -, _, -, _, -, rfl⟩ := i1
        rfl
      · rw [← Except.ok.inj i1]
    have e2 : P2.h2Full = P1.h2Full := by
      unfold Ratings.setRatingConditions.boost at i3
      split at i3
      · rw [← Except.ok.inj i3]
      · simp only [bind_eq_ok, pure_eq_ok, Except.ok.injEq] at i3
        obtain ⟨_, -, rfl⟩ := i3
        rfl
    unfold Ratings.setRatingConditions.low at i4
    simp only [bind_eq_ok, pure_eq_ok, Except.ok.injEq] at i4
    obtain ⟨_, -, _, -, _, -, _, -, _, -, _, -, _, -, _, -, _, -, rfl⟩ := i4
    show _ = Except.ok P2.h2Full
    rw [e2, e1]
    exact h4

/-- **C107.** Two constructed variable-speed RESNET units with the same validation table and the same rating standard have the same HSPF (or HSPF2) in every region. -/
theorem C107_resnet_determines {a' : Args} {B' : Built} (h : build u E T brentq a = .ok B) (h' : build u E T brentq a' = .ok B') (hv : B.core.st = .varSpeed) (hv' : B'.core.st = .varSpeed)
    (hs : B.standard = B'.standard) {cols : List (String × Cell ℝ)} (hr : row (B.report u E T brentq) = .ok cols) (hr' : row (B'.report u E T brentq) = .ok cols) (region : Nat) :
    B.hspf u E T brentq region = B'.hspf u E T brentq region := by
  obtain ⟨_, _, _, _, -, -, -, -, -, -, -, b10⟩ := build_steps h
  obtain ⟨_, _, _, _, -, -, -, -, -, -, -, b10'⟩ := build_steps h'
  have := C107_determines (X := B.report u E T brentq) (Y := B'.report u E T brentq) rfl u.btuh_pos.ne' hr hr' (test_temperatures b10 rfl) (test_temperatures b10' rfl) (hspfStandard B.standard)
    B.cycling B'.cycling region
  simp only [Built.hspf, Built.heatSettings, hv, hv', ← hs]
  exact this

/-- Outdoor temperature (°F) and table speed of the steady-state tests. -/
def tablePoint : String → Option (ℝ × ℝ)
  | "62min" => some (62, 1)
  | "47full" => some (47, 2)
  | "47min" => some (47, 1)
  | "47nominal" => some (47, 2)
  | "17full" => some (17, 2)
  | "17min" => some (17, 1)
  | "5full" => some (5, 2)
  | _ => none

/-- **C107, partial: the power at 47 °F and full speed is missing.** The steady-state columns of the validation table of a constructed variable-speed RESNET unit are the values of its net performance tables. -/
theorem C107_resnet_partial (h : build u E T brentq a = .ok B) (hv : B.core.st = .varSpeed) (ht : ∀ d, a.tables = some d → RatedTables (tableSpeeds B.core.st) d) (hd : a.chargeDeviation = 0)
    (hfan : SameFan B.core B.core.rh B.core.heat B.core.rh.full) {cols : List (String × Cell ℝ)} (hr : row (B.report u E T brentq) = .ok cols) {name : String} {t σ : ℝ}
    (hn : tablePoint name = some (t, σ)) (ho : Outdoor E (frF t)) :
    ∃ q p, B.core.net.heatingCapacity σ (frF t) = .ok q ∧ B.core.net.heatingPower σ (frF t) = .ok p ∧ ("heatCapacity" ++ name, .num (q / u.btuh)) ∈ cols ∧
      (name ≠ "47full" → ("powerConsumption" ++ name, .num p) ∈ cols) := by
  obtain ⟨st0, q47, nC, nH, b2, b3, b4, b6, b7, b8, b9, b10⟩ := build_steps h
  have hst : B.core.st ≠ .single := by rw [hv]; decide
  obtain ⟨-, j, -, -, h0, h1, -, h3, -, hj, -, -, l0, l1, -, l3, -, -, m0, m1, -, m3⟩ := low_points b10 hst
  obtain ⟨-, -, f1, f3⟩ := full_points b10
  have f4 := h4_point b10
  have hσ : TableSpeed B.core.st B.core.rh.full 2 := by
    have := full_table B.core.st (roles nH a.heatingFullSpeed a.heatingIntermediateSpeed)
    rw [← b7] at this
    simpa [fullTable, hv] using this
  obtain ⟨hτ, hne⟩ : TableSpeed B.core.st j 1 ∧ j ≠ B.core.rh.full := by rw [b7] at hj ⊢; exact low_table hst hj
  have full : ∀ {o : Psych.PsychState ℝ} {c : Conditions ℝ}, o.db = frF t → B.sys.makeCondition E true B.core.rh.full none (some o) = .ok c → ∃ q p, B.core.net.heatingCapacity 2 (frF t) = .ok q ∧
      B.core.net.heatingPower 2 (frF t) = .ok p ∧ (B.unit u E T brentq).netSteadyHeatingCapacity (some c) = .ok q ∧ (B.unit u E T brentq).netSteadyHeatingPower (some c) = .ok p := by
    intro o c hdb hc
    have := C88_heating h ht hd hσ (by norm_num) hfan (o := o) (by rw [hdb]; exact ho) hc
    rwa [hdb] at this
  have low : ∀ {o : Psych.PsychState ℝ} {c : Conditions ℝ}, o.db = frF t → B.sys.makeCondition E true j none (some o) = .ok c → ∃ q p, B.core.net.heatingCapacity 1 (frF t) = .ok q ∧
      B.core.net.heatingPower 1 (frF t) = .ok p ∧ (B.unit u E T brentq).netSteadyHeatingCapacity (some c) = .ok q ∧ (B.unit u E T brentq).netSteadyHeatingPower (some c) = .ok p := by
    intro o c hdb hc
    have := C88_heating h ht hd hτ (by norm_num) (.inr (.inl hne)) (o := o) (by rw [hdb]; exact ho) hc
    rwa [hdb] at this
  have fin : ∀ {c : Conditions ℝ}, name ∈ heatTestNames → isFrostTest name = false → heatTest B.points name = some c → (∃ q p, B.core.net.heatingCapacity σ (frF t) = .ok q ∧
      B.core.net.heatingPower σ (frF t) = .ok p ∧ (B.unit u E T brentq).netSteadyHeatingCapacity (some c) = .ok q ∧ (B.unit u E T brentq).netSteadyHeatingPower (some c) = .ok p) →
      ∃ q p, B.core.net.heatingCapacity σ (frF t) = .ok q ∧ B.core.net.heatingPower σ (frF t) = .ok p ∧ ("heatCapacity" ++ name, .num (q / u.btuh)) ∈ cols ∧
        (name ≠ "47full" → ("powerConsumption" ++ name, .num p) ∈ cols) := by
    rintro c hmem hfr hc ⟨q, p, e1, e2, e3, e4⟩
    obtain ⟨c', q', p', _, g1, g2, g3, g4, -⟩ := C107_columns_partial hr hmem
    have : c' = c := by
      have : heatTest B.points name = some c' := g1
      rw [hc] at this; cases this; rfl
    subst this
    simp only [testCapacity, hfr, Bool.false_eq_true, if_false] at g2
    have g2 : (B.unit u E T brentq).netSteadyHeatingCapacity (some c') = .ok q' := g2
    rw [e3] at g2; cases g2
    refine ⟨q, p, e1, e2, g3, fun h47 => ?_⟩
    obtain ⟨k1, k2⟩ := g4 h47
    simp only [testPower, hfr, Bool.false_eq_true, if_false] at k1
    have k1 : (B.unit u E T brentq).netSteadyHeatingPower (some c') = .ok p' := k1
    rw [e4] at k1; cases k1
    exact k2
  unfold tablePoint at hn
  split at hn <;> cases hn
  · exact fin (by decide) (by decide) l0 (low rfl m0)
  · exact fin (by decide) (by decide) rfl (full rfl f1)
  · exact fin (by decide) (by decide) l1 (low rfl m1)
  · exact fin (by decide) (by decide) rfl (full rfl f1)
  · exact fin (by decide) (by decide) rfl (full rfl f3)
  · exact fin (by decide) (by decide) l3 (low rfl m3)
  · exact fin (by decide) (by decide) rfl (full rfl f4)

/-! ## The table of a constructed unit is written -/

theorem made_flow {S : Sys ℝ} {heating : Bool} {i : Nat} {o : Option (Psych.PsychState ℝ)} {c : Conditions ℝ} (h : S.makeCondition E heating i none o = .ok c) : ∃ x, c.flow.ratedStdVol = some x := by
  obtain ⟨rho, pr, x, cap, fs, _, _, _, _, _, _, _, _, _, rfl⟩ := Sys.makeCondition_spec E S heating _ _ _ _ h
  exact ⟨_, rfl⟩

theorem integrated_ok {c : Conditions ℝ} {q p : ℝ} (hq : (B.unit u E T brentq).netSteadyHeatingCapacity (some c) = .ok q) (hp : (B.unit u E T brentq).netSteadyHeatingPower (some c) = .ok p) :
    (∃ x, (B.unit u E T brentq).netIntegratedHeatingCapacity (some c) = .ok x) ∧ ∃ x, (B.unit u E T brentq).netIntegratedHeatingPower (some c) = .ok x := by
  simp only [Performance.netSteadyHeatingCapacity, Performance.netSteadyHeatingPower, Performance.netIntegratedHeatingCapacity, Performance.netIntegratedHeatingPower, bind_eq_ok, pure_eq_ok, Except.ok.injEq] at hq hp ⊢
  obtain ⟨g, hg, w, hw, -⟩ := hq
  obtain ⟨g', hg', w', hw', -⟩ := hp
  have e1 : ∃ x, (B.unit u E T brentq).grossIntegratedHeatingCapacity (some c) = .ok x := by
    have hg : Nrel.steadyCapacity E B.sys (Resnet.raw E B.sys (data B.core)) c = .ok g := hg
    show ∃ x, Resnet.grossIntegratedHeatingCapacity E B.sys (data B.core) c = .ok x
    unfold Resnet.grossIntegratedHeatingCapacity
    rw [hg]
    split
    · exact ⟨_, rfl⟩
    · exact ⟨_, rfl⟩
  have e2 : ∃ x, (B.unit u E T brentq).grossIntegratedHeatingPower (some c) = .ok x := by
    simp only [Performance.grossSteadyHeatingPower, bind_eq_ok] at hg'
    obtain ⟨y, hy, -⟩ := hg'
    have hy : Resnet.grossSteadyHeatingPower E B.sys (data B.core) c = .ok y := hy
    show ∃ x, Resnet.grossIntegratedHeatingPower E B.sys (data B.core) c = .ok x
    unfold Resnet.grossIntegratedHeatingPower
    rw [hy]
    split
    · exact ⟨_, rfl⟩
    · exact ⟨_, rfl⟩
  obtain ⟨x, hx⟩ := e1
  obtain ⟨y, hy⟩ := e2
  exact ⟨⟨_, x, hx, w, hw, rfl⟩, _, y, hy, w, hw, rfl⟩

/-- The fan's power at full speed is known: either its conditions use the pressure the speed is rated at, or the motor is a BPM motor, the airflows are positive and the root finder works. -/
def FanRuns (brentq : Brentq) (k : Core) (r : Roles) (s : Side) : Prop :=
  SameFan k r s r.full ∨ BrentqSpec brentq ∧ k.psc = false ∧ ∃ af a0 d, FullAirflows k s r.full af a0 d

/-- The A test of a constructed unit can be evaluated: the construction did. -/
theorem a_test (h : build u E T brentq a = .ok B) (ht : ∀ d, a.tables = some d → RatedTables (tableSpeeds B.core.st) d) 
    (hfan : FanRuns brentq B.core B.core.rc B.core.cool) : ∃ x, (B.unit u E T brentq).netTotalCoolingCapacity (some B.points.aFull) = .ok x := by
  have hgross : ∃ g, (B.unit u E T brentq).grossTotalCoolingCapacity (some B.points.aFull) = .ok g := by
    have h' := h
    unfold build at h'
    simp only [bind_eq_ok] at h'
    obtain ⟨st0, h1, st, h2, q47, h3, net, h4, k, h5, S, h6, cr, h7, P, h8, coil, h9, h10⟩ := h'
    have hcoil : ∃ g, (performance u E T brentq k S P []).grossTotalCoolingCapacity (some P.aFull) = .ok g := by
      unfold coilData at h9
      simp only [bind_eq_ok] at h9
      obtain ⟨d, hd, -⟩ := h9
      unfold coilStep at hd
      simp only [bind_eq_ok] at hd
      obtain ⟨_, -, _, -, _, -, _, -, _, -, g, hg, -⟩ := hd
      exact ⟨_, hg⟩
    split at h10
    · cases h10
    · split at h10
      · cases h10
      · simp only [bind_eq_ok, pure_eq_ok, Except.ok.injEq] at h10
        obtain ⟨-, -, rfl⟩ := h10
        exact hcoil
  obtain ⟨g, hg⟩ := hgross
  obtain ⟨st0, q47, nC, nH, b2, b3, b4, b6, b7, b8, b9, b10⟩ := build_steps h
  obtain ⟨fc, fh, F⟩ := built_facts h ht
  obtain ⟨g1, -⟩ := full_points b10
  have hσ : TableSpeed B.core.st B.core.rc.full (fullTable B.core.st) := by rw [b6]; exact full_table _ _
  obtain ⟨s1, -, s3, -, s5, -, s7, -, -, -, -, s12, -⟩ := sys_ok b9
  obtain ⟨ac, ah, A1, -, -, A4, M, -⟩ := F.fan
  obtain ⟨w, hw'⟩ : ∃ w, fanPower u brentq B.core B.points.aFull = .ok w := by
    rcases hfan with hfan | ⟨hbr, hpsc, af, a0, d, i1, i2, i3, i4, i5⟩
    · obtain ⟨w, -, hw⟩ := fanPower_cond g1 (by simpa using s3) (by simpa using s5) s7 M (by rw [F.coolCaps.1]; exact tableSpeed_lt hσ) (by
        rcases hfan with h | h | ⟨d, h1, h2⟩
        · exact .inl h
        · exact .inr (.inl h)
        · rw [A4] at h1; cases h1; exact .inr (.inr h2))
      exact ⟨w, hw⟩
    · have e1 : ac = af := by
        obtain ⟨_, _, _, _, _, e⟩ := A1
        rw [i1] at e; exact (Option.some.inj (Option.some.inj e)).symm
      subst e1
      rw [i3] at A4; cases A4
      have hG := core_good b8 i3 (i4.trans_le (le_max_left _ _))
      have hesp := core_esp b8
      have hesp0 : 0 ≤ B.core.fullESP := by
        cases hdu : a.ducted <;> rw [hdu] at hesp
        · exact (show B.core.fullESP = 0 from hesp).ge
        · exact le_of_lt hesp
      obtain ⟨w, w', g, -, w2, -⟩ := fanPower_full hbr g1 (by simpa using s3) (by simpa using s5) s7 M (by rw [F.coolCaps.1]; exact tableSpeed_lt hσ) hpsc hG hesp0 i1 i2 i4 (le_max_left _ _) i5
      exact ⟨w', w2⟩
  refine ⟨g - w, ?_⟩
  have hf : (B.unit u E T brentq).coolingFanHeat (some B.points.aFull) = .ok w := hw'
  simp only [Performance.netTotalCoolingCapacity, hg, hf, bind_ok, pure_eq_ok]

theorem built_defrost (h : build u E T brentq a = .ok B) : B.sys.defrost = a.defrost := by
  obtain ⟨_, _, _, _, _, _, -, -, -, -, -, -, -, -, hS, -⟩ := build_ok h
  unfold Build.sys at hS
  simp only [bind_eq_ok, pure_eq_ok, Except.ok.injEq] at hS
  obtain ⟨_, -, _, -, h'⟩ := hS
  rw [← h']

/-- **C107.** The table of every constructed variable-speed RESNET unit is written, if no cut-in temperature was given: the call returns and the file holds the table. -/
theorem C107_resnet_written (h : build u E T brentq a = .ok B) (hv : B.core.st = .varSpeed) (ht : ∀ d, a.tables = some d → RatedTables (tableSpeeds B.core.st) d) (hd : a.chargeDeviation = 0)
    (hon : a.heatingOn = none) (hcr : ∃ x, a.defrost.demandCredit u = .ok x) (hc : FanRuns brentq B.core B.core.rc B.core.cool) (hfan : FanRuns brentq B.core B.core.rh B.core.heat)
    {Q : ℝ} (hQ : B.sys.grossHeating[2]? = some (some Q)) (hQ0 : Q ≠ 0) (ho : ∀ t, Outdoor E t) (file : Option (Content ℝ)) :
    ∃ cols, row (B.report u E T brentq) = .ok cols ∧ writeTables (B.report u E T brentq) file = (.ok (), some (.table cols)) := by
  obtain ⟨st0, q47, nC, nH, b2, b3, b4, b6, b7, b8, b9, b10⟩ := build_steps h
  have hst : B.core.st ≠ .single := by rw [hv]; decide
  obtain ⟨-, j, -, -, h0, h1, h2, h3, -, hj, -, -, l0, l1, l2, l3, -, -, m0, m1, m2, m3⟩ := low_points b10 hst
  obtain ⟨f0, -, f1, f3⟩ := full_points b10
  obtain ⟨-, i2, -, k2, -, n2⟩ := int_points b10 hv
  have f4 := h4_point b10
  have f2 : ∃ o : Psych.PsychState ℝ, B.sys.makeCondition E true B.core.rh.full none (some o) = .ok B.points.h2Full := by
    exact ⟨wetState E.atm (frF 35) (frF 33), h2_point b10⟩
  have hint : B.core.rh.intermediate = 2 := by rw [b7, hv]; rfl
  have hful : B.core.rh.full = 1 := by rw [b7, hv]; rfl
  rw [hint] at n2
  have hσ : TableSpeed B.core.st B.core.rh.full 2 := by
    have := full_table B.core.st (roles nH a.heatingFullSpeed a.heatingIntermediateSpeed)
    rw [← b7] at this
    simpa [fullTable, hv] using this
  obtain ⟨hτ, hne⟩ : TableSpeed B.core.st j 1 ∧ j ≠ B.core.rh.full := by rw [b7] at hj ⊢; exact low_table hst hj
  have full : ∀ {o : Psych.PsychState ℝ} {c : Conditions ℝ}, B.sys.makeCondition E true B.core.rh.full none (some o) = .ok c → ∃ q p,
      (B.unit u E T brentq).netSteadyHeatingCapacity (some c) = .ok q ∧ (B.unit u E T brentq).netSteadyHeatingPower (some c) = .ok p := by
    intro o c hc
    rcases hfan with hfan | ⟨hbr, hpsc, af, a0, d, hair⟩
    · obtain ⟨q, p, -, -, e1, e2⟩ := C88_heating h ht hd hσ (by norm_num) hfan (o := o) (ho _) hc
      exact ⟨q, p, e1, e2⟩
    · obtain ⟨q, p, δ, -, -, e1, e2, -⟩ := C88_heating_bpm h ht hd hbr hpsc hσ (by norm_num) hair (o := o) (ho _) hc
      exact ⟨_, _, e1, e2⟩
  have low : ∀ {o : Psych.PsychState ℝ} {c : Conditions ℝ}, B.sys.makeCondition E true j none (some o) = .ok c → ∃ q p,
      (B.unit u E T brentq).netSteadyHeatingCapacity (some c) = .ok q ∧ (B.unit u E T brentq).netSteadyHeatingPower (some c) = .ok p := by
    intro o c hc
    obtain ⟨q, p, -, -, e1, e2⟩ := C88_heating h ht hd hτ (by norm_num) (.inr (.inl hne)) (o := o) (ho _) hc
    exact ⟨q, p, e1, e2⟩
  have inter : ∃ q p, (B.unit u E T brentq).netSteadyHeatingCapacity (some i2) = .ok q ∧ (B.unit u E T brentq).netSteadyHeatingPower (some i2) = .ok p := by
    obtain ⟨q, p, w, w1, w3, -, -, -, -, -, e1, e2⟩ := C88_heating_intermediate h ht hd hv hQ hQ0 (.inr (.inl (by rw [hful]; decide))) (ho _) n2
    exact ⟨_, _, e1, e2⟩
  obtain ⟨xa, hxa⟩ := a_test h ht hc
  obtain ⟨xc, hxc⟩ := hcr
  rw [← built_defrost h] at hxc
  obtain ⟨_, _, _, _, _, _, -, -, -, -, -, -, -, -, -, -, -, -, -, -, -, hB⟩ := build_ok h
  have hon' : B.heatingOn = some B.heatingOff := by rw [hB, hon]; rfl
  obtain ⟨q1, p1, a1, a1'⟩ := low m0
  obtain ⟨q2, p2, a2, a2'⟩ := full f1
  obtain ⟨q3, p3, a3, a3'⟩ := low m1
  obtain ⟨q4, p4, a4, a4'⟩ := full f2.choose_spec
  obtain ⟨q5, p5, a5, a5'⟩ := inter
  obtain ⟨q6, p6, a6, a6'⟩ := low m2
  obtain ⟨q7, p7, a7, a7'⟩ := full f3
  obtain ⟨q8, p8, a8, a8'⟩ := low m3
  obtain ⟨q9, p9, a9, a9'⟩ := full f4
  obtain ⟨⟨c4, d4⟩, c4', d4'⟩ := integrated_ok a4 a4'
  obtain ⟨⟨c5, d5⟩, c5', d5'⟩ := integrated_ok a5 a5'
  obtain ⟨⟨c6, d6⟩, c6', d6'⟩ := integrated_ok a6 a6'
  obtain ⟨v0, w0⟩ := made_flow f0
  obtain ⟨v1, w1⟩ := made_flow m0
  obtain ⟨v2, w2⟩ := made_flow f1
  obtain ⟨v3, w3⟩ := made_flow m1
  obtain ⟨v4, w4⟩ := made_flow f2.choose_spec
  obtain ⟨v5, w5⟩ := made_flow n2
  obtain ⟨v6, w6⟩ := made_flow m2
  obtain ⟨v7, w7⟩ := made_flow f3
  obtain ⟨v8, w8⟩ := made_flow m3
  obtain ⟨v9, w9⟩ := made_flow f4
  have hrow : ∃ cols, row (B.report u E T brentq) = .ok cols := by
    unfold row
    refine mapM_isOk _ _ fun e he => ?_
    suffices ∃ v, e.2 = .ok v by
      obtain ⟨v, hv⟩ := this
      exact ⟨(e.1, v), by simp only [hv, bind_ok, pure_eq_ok]⟩
    simp only [entries, Built.report, List.mem_cons, List.not_mem_nil, or_false, l0, l1, l2, l3, k2, pyAttr, inBtuh, inWatts, inCfm, bind_ok, hon', hxc, hxa, a1, a1', a2, a2', a3, a3', a7, a7', a8, a8', a9, a9',
      d4, d4', d5, d5', d6, d6', w0, w1, w2, w3, w4, w5, w6, w7, w8, w9, pure_eq_ok] at he
    rcases he with rfl | rfl | rfl | rfl | rfl | rfl | rfl | rfl | rfl | rfl | rfl | rfl | rfl | rfl | rfl | rfl | rfl | rfl | rfl | rfl | rfl | rfl | rfl | rfl | rfl | rfl | rfl | rfl | rfl | rfl | rfl |
      rfl | rfl | rfl | rfl | rfl | rfl | rfl | rfl | rfl | rfl | rfl | rfl | rfl | rfl | rfl | rfl | rfl | rfl <;> exact ⟨_, rfl⟩
  rcases C107_atomic (X := B.report u E T brentq) hv file with ⟨e, he, -⟩ | h
  · obtain ⟨cols, hcols⟩ := hrow
    rw [hcols] at he; cases he
  · exact h

/-- **C108.** The cooling power and capacity printed for a stage of a constructed RESNET unit, for every stage with its own table column: the values of its net tables at 95 °F. -/
theorem C108_resnet_cooling (h : build u E T brentq a = .ok B) (ht : ∀ d, a.tables = some d → RatedTables (tableSpeeds B.core.st) d) (hd : a.chargeDeviation = 0) {i : Nat} {σ : ℝ}
    (hσ : TableSpeed B.core.st i σ) (h32 : σ ≠ 3 / 2) (hfan : SameFan B.core B.core.rc B.core.cool i) (ho : Outdoor E (frF 95)) {pu cu : String} {toU : ℝ → String → Py ℝ} {P Q : ℝ}
    (hp : coolingValue toU (B.report u E T brentq) pu cu ("Net cooling power", some (i + 1)) = .ok P) (hq : coolingValue toU (B.report u E T brentq) pu cu ("Net cooling capacity", some (i + 1)) = .ok Q) :
    ∃ q p, B.core.net.coolingCapacity σ (frF 95) = .ok q ∧ B.core.net.coolingPower σ (frF 95) = .ok p ∧ toU p pu = .ok P ∧ toU q cu = .ok Q := by
  simp only [coolingValue, bind_eq_ok] at hp hq
  obtain ⟨c, hc, p', hp1, hp2⟩ := hp
  obtain ⟨c', hc', q', hq1, hq2⟩ := hq
  rw [hc] at hc'; cases hc'
  have hc1 : B.sys.makeCondition E false i none (some (defaultOutdoor E false)) = .ok c := hc
  obtain ⟨q, p, w, e1, e2, e3, e4, e5⟩ := C88_cooling h ht hd hσ h32 hfan (o := defaultOutdoor E false) (by show toF (frF 95) ≤ _; rw [toF_frF]; norm_num) ho hc1
  have hq1 : (B.unit u E T brentq).netTotalCoolingCapacity (some c) = .ok q' := hq1
  have hp1 : (B.unit u E T brentq).netCoolingPower (some c) = .ok p' := hp1
  rw [e4] at hq1
  rw [e5] at hp1
  split at hq1 <;> cases hq1
  split at hp1 <;> cases hp1
  exact ⟨_, _, e1, e2, hp2, hq2⟩

/-- **C108.** The heating power and capacity printed for such a stage: the values of the net tables at 47 °F, if the unit does not defrost at that temperature. -/
theorem C108_resnet_heating (h : build u E T brentq a = .ok B) (ht : ∀ d, a.tables = some d → RatedTables (tableSpeeds B.core.st) d) (hd : a.chargeDeviation = 0) {i : Nat} {σ : ℝ}
    (hσ : TableSpeed B.core.st i σ) (h32 : σ ≠ 3 / 2) (hfan : SameFan B.core B.core.rh B.core.heat i) (ho : Outdoor E (frF 47)) (hdef : a.defrost.inDefrost (frF 47) = false)
    {pu cu : String} {region : Nat} {toU : ℝ → String → Py ℝ} {P Q : ℝ}
    (hp : heatingValue toU (B.report u E T brentq) pu cu region ("Net heating power", some (i + 1)) = .ok P)
    (hq : heatingValue toU (B.report u E T brentq) pu cu region ("Net heating capacity", some (i + 1)) = .ok Q) :
    ∃ q p, B.core.net.heatingCapacity σ (frF 47) = .ok q ∧ B.core.net.heatingPower σ (frF 47) = .ok p ∧ toU p pu = .ok P ∧ toU q cu = .ok Q := by
  simp only [heatingValue, bind_eq_ok] at hp hq
  obtain ⟨c, hc, p', hp1, hp2⟩ := hp
  obtain ⟨c', hc', q', hq1, hq2⟩ := hq
  rw [hc] at hc'; cases hc'
  have hc1 : B.sys.makeCondition E true i none (some (defaultOutdoor E true)) = .ok c := hc
  obtain ⟨q, p, w, e1, e2, e3, e4, e5, e6, e7⟩ := C96_integrated h ht hd hσ h32 hfan (o := defaultOutdoor E true) ho hc1
  have hdef' : a.defrost.inDefrost (defaultOutdoor E true).db = false := hdef
  rw [hdef'] at e6 e7
  have hq1 : (B.unit u E T brentq).netIntegratedHeatingCapacity (some c) = .ok q' := hq1
  have hp1 : (B.unit u E T brentq).netIntegratedHeatingPower (some c) = .ok p' := hp1
  rw [e6] at hq1; cases hq1
  rw [e7] at hp1; cases hp1
  exact ⟨q, p, e1, e2, by simpa [frosted] using hp2, by simpa [frosted] using hq2⟩

/-- **C109.** Every speed of a constructed RESNET unit has a name in the plot. -/
theorem C109_resnet (h : build u E T brentq a = .ok B) (heating : Bool) {s : Nat} (hs : s < (if heating then (B.report u E T brentq).rh else (B.report u E T brentq).rc).n) :
    ∃ n, IsSpeedName (if heating then (B.report u E T brentq).rh else (B.report u E T brentq).rc) s n := by
  obtain ⟨st0, q47, nC, nH, -, -, -, b6, b7, -, -, -⟩ := build_steps h
  have key : ∀ r : Roles, s < speedCount B.core.st → ∃ n, IsSpeedName { modelRoles B.core.st r with n := speedCount B.core.st } s n := by
    intro r hs
    cases hst : B.core.st <;> rw [hst] at hs
    · simp [speedCount, Staging.value] at hs
      exact ⟨"Rated Speed", by simp [IsSpeedName, modelRoles, hs]⟩
    · simp [speedCount, Staging.value] at hs
      rcases (by omega : s = 0 ∨ s = 1) with rfl | rfl
      · exact ⟨"Rated Speed", by simp [IsSpeedName, modelRoles]⟩
      · exact ⟨"Min Speed", by simp [IsSpeedName, modelRoles]⟩
    · simp [speedCount] at hs
      rcases (by omega : s = 0 ∨ s = 1 ∨ s = 2 ∨ s = 3) with rfl | rfl | rfl | rfl
      · exact ⟨"Max Speed", by simp [IsSpeedName, modelRoles]⟩
      · exact ⟨"Rated Speed", by simp [IsSpeedName, modelRoles]⟩
      · exact ⟨"Int. Speed", by simp [IsSpeedName, modelRoles]⟩
      · exact ⟨"Min Speed", by simp [IsSpeedName, modelRoles]⟩
  cases heating
  · simp only [Built.report, Bool.false_eq_true, if_false, b6] at hs ⊢
    exact key _ hs
  · simp only [Built.report, if_true, b7] at hs ⊢
    exact key _ hs

end Resdx.Build

namespace Resdx.Sample

open Spec Tabular BaseModel Props ResnetFan Fan Table Build Transfer Reports

/-- `C107_resnet_written`, `C107_resnet_determines`: the table of the sample variable-speed unit (with the default BPM motor) is written. -/
theorem var_written : ∃ brentq B cols, build units env tools brentq varArgs = .ok B ∧ B.core.st = .varSpeed ∧ row (B.report units env tools brentq) = .ok cols ∧
    writeTables (B.report units env tools brentq) none = (.ok (), some (.table cols)) := by
  obtain ⟨brentq, hbr⟩ := brentqSpec_satisfiable
  obtain ⟨B, net, h, hB⟩ := var_made hbr
  obtain ⟨w', g3, g4, g5⟩ := hB.grossHeat 2 _ rfl
  have hp : B.core.psc = false := hB.motor
  obtain ⟨a1, a2⟩ := var_airflows (brentq := brentq) hB
  obtain ⟨cols, h1, h2⟩ := C107_resnet_written (T := tools) h hB.staging (by intro d hd; cases hd) rfl rfl ⟨1, rfl⟩ (.inr ⟨hbr, hp, _, _, _, a1⟩) (.inr ⟨hbr, hp, _, _, _, a2⟩) g3 (by
    have : (337.2 / units.ton : ℝ) < 1 := by norm_num [units]
    nlinarith) outdoorAir none
  exact ⟨brentq, B, cols, h, hB.staging, h1, h2⟩

/-- The same unit with a PSC motor. -/
noncomputable def pscArgs : Args := { varArgs with motorPSC := some true }

theorem psc_made {brentq : Brentq} (hbr : BrentqSpec brentq) :
    ∃ B net, build units env tools brentq pscArgs = .ok B ∧ Made units env pscArgs .varSpeed net [5000000 / 467, 10000, 3085000 / 467, 1500000 / 467] [2500000 / 227, 10000, 1475000 / 227, 680000 / 227] B := by
  obtain ⟨d, hd, hs⟩ := of_check (x := makeNeepStatistical unitsQ 10000 18 12 10000 (some 6890) 9 (frF 125) (frF (-20)) (some 0.3) (some 4) (some 3.2))
    (p := fun d => soundB .varSpeed d [5000000 / 467, 10000, 3085000 / 467, 1500000 / 467] [2500000 / 227, 10000, 1475000 / 227, 680000 / 227]) (by decide +kernel)
  have hm : makeNeepStatistical units 10000 18 12 10000 (some 6890) 9 (frF 125) (frF (-20)) (some 0.3) (some 4) (some 3.2) = .ok (pT φ d) := by
    have := makeNeepStatistical_map φ_mono units_btuh 10000 18 12 10000 (some 6890) 9 (frF 125) (frF (-20)) (some 0.3) (some 4) (some 3.2)
    rw [hd] at this
    refine Eq.trans ?_ this
    congr 1 <;> norm_num [frF_cast]
  have hS := sound_of (st := .varSpeed) (variable_rated hm) hs
  simp only [List.map, Rat.coe_castHom, Rat.cast_ofNat, Rat.cast_div] at hS
  obtain ⟨B, h, hB⟩ := C90_ratings (a := pscArgs) (brentq := brentq) rfl rfl (q47 := 10000) rfl
    (by simpa [netTables, pscArgs, varArgs, number, pyNum, inputEer, hspfFor, bind_ok, seerFor, cd, DX.offTemperature] using hm) hS (surroundings hbr rfl rfl rfl rfl rfl (by simp))
  exact ⟨B, _, h, hB⟩

/-- `C107_resnet_partial`: the table of the sample unit with a PSC motor shows its net tables at every tabulated test. -/
example {name : String} {t σ : ℝ} (hn : tablePoint name = some (t, σ)) : ∃ brentq B cols q p, build units env tools brentq pscArgs = .ok B ∧ row (B.report units env tools brentq) = .ok cols ∧
    B.core.net.heatingCapacity σ (frF t) = .ok q ∧ B.core.net.heatingPower σ (frF t) = .ok p ∧ ("heatCapacity" ++ name, .num (q / units.btuh)) ∈ cols := by
  obtain ⟨brentq, hbr⟩ := brentqSpec_satisfiable
  obtain ⟨B, net, h, hB⟩ := psc_made hbr
  obtain ⟨w', g3, g4, g5⟩ := hB.grossHeat 2 _ rfl
  have hp : B.core.psc = true := hB.motor
  obtain ⟨cols, h1, -⟩ := C107_resnet_written (T := tools) h hB.staging (by intro d hd; cases hd) rfl rfl ⟨1, rfl⟩ (.inl (.inl hp)) (.inl (.inl hp)) g3 (by
    have : (337.2 / units.ton : ℝ) < 1 := by norm_num [units]
    nlinarith) outdoorAir none
  obtain ⟨q, p, e1, e2, e3, -⟩ := C107_resnet_partial (T := tools) h hB.staging (by intro d hd; cases hd) rfl (.inl hp) h1 hn (outdoorAir _)
  exact ⟨brentq, B, cols, q, p, h, h1, e1, e2, e3⟩

/-- `C108_resnet_cooling`, `C108_resnet_heating`: the full speed of the sample unit with a PSC motor has a printed power and capacity in both modes. -/
example : ∃ brentq B P Q P' Q', build units env tools brentq pscArgs = .ok B ∧ TableSpeed B.core.st 1 2 ∧ SameFan B.core B.core.rc B.core.cool 1 ∧ SameFan B.core B.core.rh B.core.heat 1 ∧
    coolingValue (fun x _ => .ok x) (B.report units env tools brentq) "W" "W" ("Net cooling power", some 2) = .ok P ∧
    coolingValue (fun x _ => .ok x) (B.report units env tools brentq) "W" "W" ("Net cooling capacity", some 2) = .ok Q ∧
    pscArgs.defrost.inDefrost (frF 47) = false ∧
    heatingValue (fun x _ => .ok x) (B.report units env tools brentq) "W" "W" 4 ("Net heating power", some 2) = .ok P' ∧
    heatingValue (fun x _ => .ok x) (B.report units env tools brentq) "W" "W" 4 ("Net heating capacity", some 2) = .ok Q' := by
  obtain ⟨brentq, hbr⟩ := brentqSpec_satisfiable
  obtain ⟨B, net, h, hB⟩ := psc_made hbr
  have hp : B.core.psc = true := hB.motor
  have hσ : TableSpeed B.core.st 1 2 := by
    have := full_table B.core.st ({ n := 1, full := 0, intermediate := 0, low := none, boost := none } : Roles)
    rw [hB.staging] at this ⊢
    simpa [fullTable, modelRoles] using this
  have hfull : B.core.rc.full = 1 := hB.full.1
  obtain ⟨c, hc⟩ := hB.conditions false 1 (defaultOutdoor env false) (by decide)
  obtain ⟨c', hc'⟩ := hB.conditions true 1 (defaultOutdoor env true) (by decide)
  obtain ⟨q, p, w, e1, e2, e3, e4, e5⟩ := C88_cooling (T := tools) h (by intro d hd; cases hd) rfl hσ (by norm_num) (.inl hp) (o := defaultOutdoor env false) (by show toF (frF 95) ≤ _; rw [toF_frF]; norm_num)
    (outdoorAir _) hc
  obtain ⟨p1, p2⟩ := a_test_positive h rfl (by rw [hfull]; exact hσ) (by norm_num) e1 e2 (by rw [hfull]; exact e3)
  rw [if_neg (not_lt.2 p1.le)] at e4
  rw [if_neg (not_lt.2 p2.le)] at e5
  obtain ⟨q', p', w', f1, f2, f3, f4, f5, f6, f7⟩ := C96_integrated (T := tools) h (by intro d hd; cases hd) rfl hσ (by norm_num) (.inl hp) (o := defaultOutdoor env true) (outdoorAir _) hc'
  have hc0 : B.sys.makeCondition env false 1 = .ok c := hc
  have hc0' : B.sys.makeCondition env true 1 = .ok c' := hc'
  generalize frosted _ _ w' q' = Q' at f6
  generalize frosted _ _ w' p' = P' at f7
  refine ⟨brentq, B, p, q, P', Q', h, hσ, .inl hp, .inl hp, ?_, ?_, ?_, ?_, ?_⟩
  · simp only [coolingValue, Built.report, hc0, bind_ok, e5]
  · simp only [coolingValue, Built.report, hc0, bind_ok, e4]
  · have : ¬ (frF 47 : ℝ) < frF 41 := by rw [frF_lt]; norm_num
    simp [pscArgs, varArgs, defrost, Defrost.inDefrost, this]
  · simp only [heatingValue, Built.report, hc0', bind_ok, f7]
  · simp only [heatingValue, Built.report, hc0', bind_ok, f6]

end Resdx.Sample
