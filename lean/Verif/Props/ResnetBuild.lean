import Verif.Lemmas.ResnetBuild
import Verif.Props.Hspf
import Verif.Props.TabularBuild

/-!
# Properties of constructed RESNET units (C45, C88)

The unit is the result of the modelled constructor `Build.build`: table construction from ratings (or supplied tables), fan selection, gross tables and rating conditions.
-/

set_option linter.unusedSectionVars false
set_option linter.unusedSimpArgs false

namespace Resdx.Build

open Spec Tabular BaseModel Props ResnetFan Fan Table

/-- psychrolib returns the state of air at this temperature and 40 % relative humidity (the outdoor air of the table correction). -/
def Outdoor (E : Env ℝ) (db : ℝ) : Prop := ∃ r, Resnet.ratedOutdoor E db = .ok r

/-- Compressor speed `i` of a mode is rated at the fan pressure that its conditions use: always for a PSC motor (whose power does not depend on the pressure) and for
every speed but the full speed; for the full speed if the mode's fastest airflow is the fan's design airflow. -/
def SameFan (k : Core) (r : Roles) (s : Side) (i : Nat) : Prop :=
  k.psc = true ∨ i ≠ r.full ∨ ∃ d, k.fan.airflow[0]? = some d ∧ s.airflow[0]? = some (some d)

variable {u : Units ℝ} {E : Env ℝ} {T : Coil.Tools} {brentq : Brentq} {a : Args} {B : Built}

/-! ## C88: net performance at rated indoor conditions and airflow is that of the net tables -/

/-- C88, cooling, speeds that have their own table column: net capacity and net power at any outdoor temperature up to 125 °F are the values of the net tables; an
extrapolated table value that would make the gross value negative is rejected. -/
theorem C88_cooling (h : build u E T brentq a = .ok B) (ht : ∀ d, a.tables = some d → RatedTables (tableSpeeds B.core.st) d) (hd : a.chargeDeviation = 0)
    {i : Nat} {σ : ℝ} (hσ : TableSpeed B.core.st i σ) (h32 : σ ≠ 3 / 2) (hfan : SameFan B.core B.core.rc B.core.cool i)
    {o : Psych.PsychState ℝ} (ho : toF o.db ≤ 125) (hr : Outdoor E o.db) {c : Conditions ℝ} (hc : B.sys.makeCondition E false i none (some o) = .ok c) :
    ∃ q p w, B.core.net.coolingCapacity σ o.db = .ok q ∧ B.core.net.coolingPower σ o.db = .ok p ∧ B.core.cool.power[i]? = some (some w) ∧
      (B.unit u E T brentq).netTotalCoolingCapacity (some c) = (if q + w < 0 then .error .exception else .ok q) ∧
      (B.unit u E T brentq).netCoolingPower (some c) = (if p - w < 0 then .error .exception else .ok p) := by
  obtain ⟨fc, fh, F⟩ := built_facts h ht
  obtain ⟨_, _, _, _, _, _, -, -, -, -, -, -, -, -, hS, -⟩ := build_ok h
  obtain ⟨q, hq, hq'⟩ := F.gross.coolCap σ o.db
  obtain ⟨p, hp, hp'⟩ := F.gross.coolPow σ o.db
  obtain ⟨Q, hQ, hQ0⟩ := rated_cooling F hS hσ h32
  obtain ⟨r, hr⟩ := hr
  obtain ⟨g1, g2⟩ := gross_cooling F hS hσ hQ hQ0 ho hr hc
  obtain ⟨s1, -, s3, -, s5, -, s7, -, -, -, -, s12, -⟩ := sys_ok hS
  obtain ⟨ac, ah, -, -, -, A4, M, -⟩ := F.fan
  obtain ⟨w, hw, hw'⟩ := fanPower_cond hc (by simpa using s3) (by simpa using s5) s7 M (by rw [F.coolCaps.1]; exact tableSpeed_lt hσ) (by
    rcases hfan with h | h | ⟨d, h1, h2⟩
    · exact .inl h
    · exact .inr (.inl h)
    · rw [A4] at h1; cases h1; exact .inr (.inr h2))
  have hf := F.coolFan i σ w hσ h32 hw
  obtain ⟨n1, n2⟩ := unit_cooling (u := u) (T := T) (P := B.points) (ntu := B.coil.ntu) (by rw [s12, hd]) (g1.trans hq') (g2.trans hp') hw'
  rw [hf] at n1 n2
  refine ⟨q, p, w, hq, hp, hw, ?_, ?_⟩
  · rw [show q + w - w = q by ring] at n1; exact n1
  · rw [show p - w + w = p by ring] at n2; exact n2

/-- C88, heating: at any outdoor temperature. -/
theorem C88_heating (h : build u E T brentq a = .ok B) (ht : ∀ d, a.tables = some d → RatedTables (tableSpeeds B.core.st) d) (hd : a.chargeDeviation = 0)
    {i : Nat} {σ : ℝ} (hσ : TableSpeed B.core.st i σ) (h32 : σ ≠ 3 / 2) (hfan : SameFan B.core B.core.rh B.core.heat i)
    {o : Psych.PsychState ℝ} (hr : Outdoor E o.db) {c : Conditions ℝ} (hc : B.sys.makeCondition E true i none (some o) = .ok c) :
    ∃ q p, B.core.net.heatingCapacity σ o.db = .ok q ∧ B.core.net.heatingPower σ o.db = .ok p ∧
      (B.unit u E T brentq).netSteadyHeatingCapacity (some c) = .ok q ∧ (B.unit u E T brentq).netSteadyHeatingPower (some c) = .ok p := by
  obtain ⟨fc, fh, F⟩ := built_facts h ht
  obtain ⟨_, _, _, _, _, _, -, -, -, -, -, -, -, -, hS, -⟩ := build_ok h
  obtain ⟨q, hq, hq'⟩ := F.gross.heatCap σ o.db
  obtain ⟨p, hp, hp'⟩ := F.gross.heatPow σ o.db
  obtain ⟨Q, hQ, hQ0⟩ := rated_heating F hS hσ h32
  obtain ⟨r, hr⟩ := hr
  obtain ⟨g1, g2⟩ := gross_heating F hS hσ hQ hQ0.ne' hr hc
  obtain ⟨-, -, -, s4, -, s6, s7, -, -, -, -, s12, -⟩ := sys_ok hS
  obtain ⟨ac, ah, -, -, -, A4, -, M⟩ := F.fan
  obtain ⟨w, hw, hw'⟩ := fanPower_cond hc (by simpa using s4) (by simpa using s6) s7 M (by rw [F.heatCaps.1]; exact tableSpeed_lt hσ) (by
    rcases hfan with h | h | ⟨d, h1, h2⟩
    · exact .inl h
    · exact .inr (.inl h)
    · rw [A4] at h1; cases h1; exact .inr (.inr h2))
  have hf := F.heatFan i σ w hσ h32 hw
  obtain ⟨n1, n2⟩ := unit_heating (u := u) (T := T) (P := B.points) (ntu := B.coil.ntu) (by rw [s12, hd]) (g1.trans hq') (g2.trans hp') hw'
  rw [hf] at n1 n2
  refine ⟨q, p, hq, hp, ?_, ?_⟩
  · rw [show q - w + w = q by ring] at n1; exact n1
  · rw [show p - w + w = p by ring] at n2; exact n2

/-- C88, the intermediate speed of a variable-speed unit, cooling: the net values are those of the net tables, shifted by the difference between its rated fan power and the mean of the
rated fan powers of the full and the low speed. -/
theorem C88_cooling_intermediate (h : build u E T brentq a = .ok B) (ht : ∀ d, a.tables = some d → RatedTables (tableSpeeds B.core.st) d) (hd : a.chargeDeviation = 0)
    (hv : B.core.st = .varSpeed) {Q : ℝ} (hQ : B.sys.grossCooling[2]? = some (some Q)) (hQ0 : 0 < Q) (hfan : SameFan B.core B.core.rc B.core.cool 2)
    {o : Psych.PsychState ℝ} (ho : toF o.db ≤ 125) (hr : Outdoor E o.db) {c : Conditions ℝ} (hc : B.sys.makeCondition E false 2 none (some o) = .ok c) :
    ∃ q p w w1 w3, B.core.net.coolingCapacity (3 / 2) o.db = .ok q ∧ B.core.net.coolingPower (3 / 2) o.db = .ok p ∧ B.core.cool.power[2]? = some (some w) ∧
      B.core.cool.power[1]? = some (some w1) ∧ B.core.cool.power[3]? = some (some w3) ∧
      (B.unit u E T brentq).netTotalCoolingCapacity (some c) = (if q + (w1 + w3) / 2 < 0 then .error .exception else .ok (q + ((w1 + w3) / 2 - w))) ∧
      (B.unit u E T brentq).netCoolingPower (some c) = (if p - (w1 + w3) / 2 < 0 then .error .exception else .ok (p - ((w1 + w3) / 2 - w))) := by
  obtain ⟨fc, fh, F⟩ := built_facts h ht
  obtain ⟨_, _, _, _, _, _, -, -, -, -, -, -, -, -, hS, -⟩ := build_ok h
  rw [hv] at F
  have hσ : TableSpeed .varSpeed 2 (3 / 2) := .inr (.inr (.inl ⟨rfl, rfl⟩))
  have hσ1 : TableSpeed .varSpeed 1 2 := .inr (.inl ⟨rfl, rfl⟩)
  have hσ3 : TableSpeed .varSpeed 3 1 := .inr (.inr (.inr ⟨rfl, rfl⟩))
  obtain ⟨q, hq, hq'⟩ := F.gross.coolCap (3 / 2) o.db
  obtain ⟨p, hp, hp'⟩ := F.gross.coolPow (3 / 2) o.db
  obtain ⟨r, hr⟩ := hr
  obtain ⟨g1, g2⟩ := gross_cooling F hS hσ hQ hQ0 ho hr hc
  obtain ⟨s1, -, s3, -, s5, -, s7, -, -, -, -, s12, -⟩ := sys_ok hS
  obtain ⟨ac, ah, -, -, -, A4, M, -⟩ := F.fan
  obtain ⟨w, hw, hw'⟩ := fanPower_cond hc (by simpa using s3) (by simpa using s5) s7 M (by rw [F.coolCaps.1]; exact tableSpeed_lt hσ) (by
    rcases hfan with h | h | ⟨d, h1, h2⟩
    · exact .inl h
    · exact .inr (.inl h)
    · rw [A4] at h1; cases h1; exact .inr (.inr h2))
  obtain ⟨_, _, _, w1, -, -, -, -, -, hw1⟩ := M.rated 1 (by rw [F.coolCaps.1]; exact tableSpeed_lt hσ1)
  obtain ⟨_, _, _, w3, -, -, -, -, -, hw3⟩ := M.rated 3 (by rw [F.coolCaps.1]; exact tableSpeed_lt hσ3)
  have f1 := F.coolFan 1 2 w1 hσ1 (by norm_num) hw1
  have f3 := F.coolFan 3 1 w3 hσ3 (by norm_num) hw3
  have hf : fc (3 / 2) = (w1 + w3) / 2 := by rw [(F.half rfl).1, f1, f3]; ring
  obtain ⟨n1, n2⟩ := unit_cooling (u := u) (T := T) (P := B.points) (ntu := B.coil.ntu) (by rw [s12, hd]) (g1.trans hq') (g2.trans hp') hw'
  rw [hf] at n1 n2
  refine ⟨q, p, w, w1, w3, hq, hp, hw, hw1, hw3, ?_, ?_⟩
  · rw [show q + (w1 + w3) / 2 - w = q + ((w1 + w3) / 2 - w) by ring] at n1; exact n1
  · rw [show p - (w1 + w3) / 2 + w = p - ((w1 + w3) / 2 - w) by ring] at n2; exact n2

/-- C88, the intermediate speed of a variable-speed unit, heating. -/
theorem C88_heating_intermediate (h : build u E T brentq a = .ok B) (ht : ∀ d, a.tables = some d → RatedTables (tableSpeeds B.core.st) d) (hd : a.chargeDeviation = 0)
    (hv : B.core.st = .varSpeed) {Q : ℝ} (hQ : B.sys.grossHeating[2]? = some (some Q)) (hQ0 : Q ≠ 0) (hfan : SameFan B.core B.core.rh B.core.heat 2)
    {o : Psych.PsychState ℝ} (hr : Outdoor E o.db) {c : Conditions ℝ} (hc : B.sys.makeCondition E true 2 none (some o) = .ok c) :
    ∃ q p w w1 w3, B.core.net.heatingCapacity (3 / 2) o.db = .ok q ∧ B.core.net.heatingPower (3 / 2) o.db = .ok p ∧ B.core.heat.power[2]? = some (some w) ∧
      B.core.heat.power[1]? = some (some w1) ∧ B.core.heat.power[3]? = some (some w3) ∧
      (B.unit u E T brentq).netSteadyHeatingCapacity (some c) = .ok (q - ((w1 + w3) / 2 - w)) ∧ (B.unit u E T brentq).netSteadyHeatingPower (some c) = .ok (p - ((w1 + w3) / 2 - w)) := by
  obtain ⟨fc, fh, F⟩ := built_facts h ht
  obtain ⟨_, _, _, _, _, _, -, -, -, -, -, -, -, -, hS, -⟩ := build_ok h
  rw [hv] at F
  have hσ : TableSpeed .varSpeed 2 (3 / 2) := .inr (.inr (.inl ⟨rfl, rfl⟩))
  have hσ1 : TableSpeed .varSpeed 1 2 := .inr (.inl ⟨rfl, rfl⟩)
  have hσ3 : TableSpeed .varSpeed 3 1 := .inr (.inr (.inr ⟨rfl, rfl⟩))
  obtain ⟨q, hq, hq'⟩ := F.gross.heatCap (3 / 2) o.db
  obtain ⟨p, hp, hp'⟩ := F.gross.heatPow (3 / 2) o.db
  obtain ⟨r, hr⟩ := hr
  obtain ⟨g1, g2⟩ := gross_heating F hS hσ hQ hQ0 hr hc
  obtain ⟨-, -, -, s4, -, s6, s7, -, -, -, -, s12, -⟩ := sys_ok hS
  obtain ⟨ac, ah, -, -, -, A4, -, M⟩ := F.fan
  obtain ⟨w, hw, hw'⟩ := fanPower_cond hc (by simpa using s4) (by simpa using s6) s7 M (by rw [F.heatCaps.1]; exact tableSpeed_lt hσ) (by
    rcases hfan with h | h | ⟨d, h1, h2⟩
    · exact .inl h
    · exact .inr (.inl h)
    · rw [A4] at h1; cases h1; exact .inr (.inr h2))
  obtain ⟨_, _, _, w1, -, -, -, -, -, hw1⟩ := M.rated 1 (by rw [F.heatCaps.1]; exact tableSpeed_lt hσ1)
  obtain ⟨_, _, _, w3, -, -, -, -, -, hw3⟩ := M.rated 3 (by rw [F.heatCaps.1]; exact tableSpeed_lt hσ3)
  have f1 := F.heatFan 1 2 w1 hσ1 (by norm_num) hw1
  have f3 := F.heatFan 3 1 w3 hσ3 (by norm_num) hw3
  have hf : fh (3 / 2) = (w1 + w3) / 2 := by rw [(F.half rfl).2, f1, f3]; ring
  obtain ⟨n1, n2⟩ := unit_heating (u := u) (T := T) (P := B.points) (ntu := B.coil.ntu) (by rw [s12, hd]) (g1.trans hq') (g2.trans hp') hw'
  rw [hf] at n1 n2
  refine ⟨q, p, w, w1, w3, hq, hp, hw, hw1, hw3, ?_, ?_⟩
  · rw [show q - (w1 + w3) / 2 + w = q - ((w1 + w3) / 2 - w) by ring] at n1; exact n1
  · rw [show p - (w1 + w3) / 2 + w = p - ((w1 + w3) / 2 - w) by ring] at n2; exact n2

/-! ## C45: a single-stage unit returns its ratings -/

/-- The rating conditions used below. -/
theorem single_points {S : Sys ℝ} {rc rh : Roles} {P : DX.Points (Conditions ℝ)} {st : Staging} (h : Ratings.setRatingConditions E S st rc rh = .ok P) (hst : st = .single) :
    S.makeCondition E false rc.full none (some (defaultOutdoor E false)) = .ok P.aFull ∧ S.makeCondition E false rc.full none (some (wetState E.atm (frF 82) (frF 65))) = .ok P.bFull ∧
      S.makeCondition E true rh.full none (some (defaultOutdoor E true)) = .ok P.h1Full ∧ S.makeCondition E true rh.full none (some (wetState E.atm (frF 17) (frF 15))) = .ok P.h3Full := by
  subst hst
  unfold Ratings.setRatingConditions at h
  simp only [bind_eq_ok, if_true, pure_eq_ok, Except.ok.injEq] at h
  obtain ⟨x1, h1, x2, h2, x3, h3, x4, h4, x5, h5, x6, h6, rfl⟩ := h
  exact ⟨h1, h2, h3, h5⟩

/-- A COP obtained from a lookup. -/
theorem cop_of_tables {x y z : ℝ} (h : Perf.ndiv x y = .ok z) (hx : x ≠ 0) (hz : z ≠ 0) : y ≠ 0 ∧ z = x / y := by
  unfold Perf.ndiv at h
  split at h
  · simp_all
  · rename_i hy; exact ⟨hy, (Except.ok.inj h).symm⟩

/-- C45: a single-stage unit made from its ratings returns them: EER2 (the given one, or the one derived from SEER2), SEER2 and the rated net cooling capacity at the A test. It holds for a
PSC motor (the default for one stage) and for a BPM motor when the cooling airflow is the fan's design airflow. -/
theorem C45_cooling (h : build u E T brentq a = .ok B) (hst : B.core.st = .single) (ht : a.tables = none) (hd : a.chargeDeviation = 0)
    (hfan : SameFan B.core B.core.rc B.core.cool 0) (h95 : Outdoor E (frF 95)) (h82 : Outdoor E (frF 82)) :
    ∃ q seer eer, a.cooling = .num q ∧ a.seer = some seer ∧ inputEer a = some eer ∧ B.eer u E T brentq = .ok eer ∧ B.seer u E T brentq = .ok seer ∧
      (B.unit u E T brentq).netTotalCoolingCapacity none = .ok q := by
  have ht' : ∀ d, a.tables = some d → RatedTables (tableSpeeds B.core.st) d := fun d h => by rw [ht] at h; cases h
  obtain ⟨fc, fh, F⟩ := built_facts h ht'
  obtain ⟨st0, st, q47, net, rc, rh, b1, b2, b3, b4, b5, b6, b7, b8, b9, b10, b11, -⟩ := build_ok h
  have e : B.core.st = st ∧ B.core.rc = rc ∧ B.core.rh = rh ∧ B.core.net = net := by
    unfold core at b8
    simp only [bind_eq_ok, pure_eq_ok, Except.ok.injEq] at b8
    obtain ⟨qc, -, qh, -, esp, -, ⟨cool, heat, fan⟩, -, cp, -, hp, -, gross, -, ncc, -, gcc, -, nhc, -, ghc, -, h12⟩ := b8
    rw [← h12]; exact ⟨rfl, rfl, rfl, rfl⟩
  obtain ⟨rfl, rfl, rfl, rfl⟩ := e
  rw [hst] at b4 b6 F
  obtain ⟨pA, pB, -, -⟩ := single_points b10 hst
  have hfull : B.core.rc.full = 0 := by rw [b6]; rfl
  rw [hfull] at pA pB
  have hσ : TableSpeed .single 0 1 := ⟨rfl, rfl⟩
  have hσ' : TableSpeed B.core.st 0 1 := by rw [hst]; exact hσ
  obtain ⟨cA, wA, vA, tA1, tA2, tA3, tA4, tA5⟩ := C88_cooling h ht' hd hσ' (by norm_num) hfan (o := defaultOutdoor E false)
    (by simp [defaultOutdoor, wetState, Psych.blank, toF_frF]; norm_num) h95 pA
  obtain ⟨cB, wB, vB, tB1, tB2, tB3, tB4, tB5⟩ := C88_cooling h ht' hd hσ' (by norm_num) hfan (o := wetState E.atm (frF 82) (frF 65))
    (by simp [wetState, Psych.blank, toF_frF]; norm_num) h82 pB
  have hdbA : (defaultOutdoor E false).db = frF 95 := rfl
  have hdbB : (wetState E.atm (frF 82) (frF 65)).db = frF 82 := rfl
  rw [hdbA] at tA1 tA2
  rw [hdbB] at tB1 tB2
  -- the tables
  unfold netTables at b4
  rw [ht] at b4
  simp only [bind_eq_ok] at b4
  obtain ⟨q, c1, seer, c2, eer, c3, hspf, c4, c5⟩ := b4
  have hq : a.cooling = .num q := by
    cases hc : a.cooling with
    | num x => rw [hc] at c1; simp only [number, Except.ok.injEq] at c1; rw [c1]
    | list l => rw [hc] at c1; simp [number] at c1
  have hs : a.seer = some seer := by
    cases hc : a.seer with
    | some x => rw [hc] at c2; simp only [pyNum, Except.ok.injEq] at c2; rw [c2]
    | none => rw [hc] at c2; simp [pyNum] at c2
  have he : inputEer a = some eer := by
    cases hc : inputEer a with
    | some x => rw [hc] at c3; simp only [pyNum, Except.ok.injEq] at c3; rw [c3]
    | none => rw [hc] at c3; simp [pyNum] at c3
  obtain ⟨T1, T2, T3, -⟩ := C32_single_speed u q seer eer q47 _ _ _ _ _ _ _ c5
  obtain ⟨hcd, m1, m2⟩ := single_82 c5
  have hcA : q = cA := Except.ok.inj (T1.symm.trans tA1)
  subst hcA
  -- the rated capacity is not zero
  have hq0 : q ≠ 0 := by
    obtain ⟨rho, pr, x, cap, fs, -, -, -, hcap, -, hcap', -⟩ := Sys.makeCondition_spec E B.sys false _ _ _ _ pA
    obtain ⟨q', z1, z2⟩ := F.coolCaps.2 0 1 hσ
    have hz : q = q' := Except.ok.inj (T1.symm.trans z2)
    subst hz
    rw [(sys_ok b9).1] at hcap'
    simp only [Bool.false_eq_true, if_false] at hcap'
    rw [z1] at hcap'; cases hcap'
    exact hcap
  -- positive gross values
  have pos : ∀ (x y z w : ℝ), x ∈ B.core.net.coolingCapacities.temperatures → x ∈ B.core.net.coolingPowers.temperatures → B.core.net.coolingCapacity 1 x = .ok y →
      B.core.net.coolingPower 1 x = .ok z → B.core.cool.power[0]? = some (some w) → ¬ y + w < 0 ∧ ¬ z - w < 0 := by
    intro x y z w x1 x2 hy hz hw
    obtain ⟨f1, f2⟩ := F.posAt 0 1 hσ
    obtain ⟨y', g1, g2⟩ := f1 x x1
    obtain ⟨z', g3, g4⟩ := f2 x x2
    obtain ⟨_, k1, k2⟩ := F.gross.coolCap 1 x
    obtain ⟨_, k3, k4⟩ := F.gross.coolPow 1 x
    rw [hy] at k1; cases k1
    rw [hz] at k3; cases k3
    rw [g1] at k2; cases k2
    rw [g3] at k4; cases k4
    rw [F.coolFan 0 1 w hσ (by norm_num) hw] at g2 g4
    exact ⟨not_lt.2 g2.le, not_lt.2 g4.le⟩
  have RT : RatedTables 1 B.core.net := single_rated c5
  obtain ⟨r1, r2⟩ := pos (frF 95) q wA vA RT.cooling.1 RT.cooling.2 T1 tA2 tA3
  obtain ⟨r3, r4⟩ := pos (frF 82) cB wB vB m1 m2 tB1 tB2 tB3
  rw [if_neg r1] at tA4; rw [if_neg r2] at tA5
  rw [if_neg r3] at tB4; rw [if_neg r4] at tB5
  have hb := u.btuh_pos.ne'
  -- EER
  have T2 := T2 hq0
  have T3 := T3 hq0
  simp only [Perf.coolingCop, T1, tA2, tB1, tB2, bind_ok] at T2 T3
  obtain ⟨N1, N2⟩ : eer * u.btuh ≠ 0 ∧ seer / (1 - 0.5 * cd a.cdCooling) * u.btuh ≠ 0 := by
    simp only [makeSingleSpeed, bind_eq_ok] at c5
    obtain ⟨⟨qc, pc⟩, y1, -⟩ := c5
    obtain ⟨m, hm, n1, n2, n3, -⟩ := singleCooling_cells y1
    exact ⟨n1, n3⟩
  obtain ⟨d1, d2⟩ := cop_of_tables T2 hq0 N1
  have hcB : cB ≠ 0 := by
    intro h0
    rw [h0] at T3
    unfold Perf.ndiv at T3
    split at T3
    · simp at T3
    · simp only [zero_div, Except.ok.injEq] at T3; exact N2 T3.symm
  obtain ⟨d3, d4⟩ := cop_of_tables T3 hcB N2
  refine ⟨q, seer, eer, hq, hs, he, ?_, ?_, tA4⟩
  · have e1 : (B.unit u E T brentq).netTotalCoolingCapacity none = .ok q := tA4
    have e2 : (B.unit u E T brentq).netCoolingPower none = .ok wA := tA5
    simp only [Built.eer, DX.Performance.eer, DX.Performance.netTotalCoolingCOP, e1, e2, bind_ok, pdiv_ok d1, pdiv_ok hb, Except.ok.injEq]
    rw [← d2]; field_simp
  · simp only [Built.seer, hst, DX.seer, DX.Performance.netTotalCoolingCOP, tB4, tB5, bind_ok, pdiv_ok d3, pdiv_ok hb, Except.ok.injEq]
    rw [← d4, b11]; field_simp

/-- C45, heating: the unit has the rated net heating capacity (the given one, or the default derived from the cooling capacity) and COP at the H1 test, and the given capacity at the H3
test. -/
theorem C45_heating (h : build u E T brentq a = .ok B) (hst : B.core.st = .single) (ht : a.tables = none) (hd : a.chargeDeviation = 0)
    (hfan : SameFan B.core B.core.rh B.core.heat 0) (h47 : Outdoor E (frF 47)) (h17 : Outdoor E (frF 17)) :
    ∃ q, heating47 u a .single = .ok q ∧ (B.unit u E T brentq).netSteadyHeatingCapacity none = .ok q ∧
      (∀ c, a.netHeatingCop = some c → (B.unit u E T brentq).netSteadyHeatingCOP none = .ok c) ∧
      ∀ q17, a.heating17 = some q17 → (B.unit u E T brentq).netSteadyHeatingCapacity (some B.points.h3Full) = .ok q17 := by
  have ht' : ∀ d, a.tables = some d → RatedTables (tableSpeeds B.core.st) d := fun d h => by rw [ht] at h; cases h
  obtain ⟨fc, fh, F⟩ := built_facts h ht'
  obtain ⟨st0, st, q47, net, rc, rh, b1, b2, b3, b4, b5, b6, b7, b8, b9, b10, b11, -⟩ := build_ok h
  have e : B.core.st = st ∧ B.core.rc = rc ∧ B.core.rh = rh ∧ B.core.net = net := by
    unfold core at b8
    simp only [bind_eq_ok, pure_eq_ok, Except.ok.injEq] at b8
    obtain ⟨qc, -, qh, -, esp, -, ⟨cool, heat, fan⟩, -, cp, -, hp, -, gross, -, ncc, -, gcc, -, nhc, -, ghc, -, h12⟩ := b8
    rw [← h12]; exact ⟨rfl, rfl, rfl, rfl⟩
  obtain ⟨rfl, rfl, rfl, rfl⟩ := e
  rw [hst] at b3 b4 b7 F
  obtain ⟨-, -, pH, pH3⟩ := single_points b10 hst
  have hfull : B.core.rh.full = 0 := by rw [b7]; rfl
  rw [hfull] at pH pH3
  have hσ : TableSpeed .single 0 1 := ⟨rfl, rfl⟩
  have hσ' : TableSpeed B.core.st 0 1 := by rw [hst]; exact hσ
  obtain ⟨cA, wA, tA1, tA2, tA4, tA5⟩ := C88_heating h ht' hd hσ' (by norm_num) hfan (o := defaultOutdoor E true) h47 pH
  obtain ⟨cB, wB, tB1, tB2, tB4, tB5⟩ := C88_heating h ht' hd hσ' (by norm_num) hfan (o := wetState E.atm (frF 17) (frF 15)) h17 pH3
  have hdbA : (defaultOutdoor E true).db = frF 47 := rfl
  have hdbB : (wetState E.atm (frF 17) (frF 15)).db = frF 17 := rfl
  rw [hdbA] at tA1 tA2
  rw [hdbB] at tB1 tB2
  unfold netTables at b4
  rw [ht] at b4
  simp only [bind_eq_ok] at b4
  obtain ⟨q, c1, seer, c2, eer, c3, hspf, c4, c5⟩ := b4
  obtain ⟨-, -, -, T1, T2, T3⟩ := C32_single_speed u q seer eer q47 _ _ _ _ _ _ _ c5
  have hcA : q47 = cA := Except.ok.inj (T1.symm.trans tA1)
  subst hcA
  have hq0 : q47 ≠ 0 := by
    obtain ⟨rho, pr, x, cap, fs, -, -, -, hcap, -, hcap', -⟩ := Sys.makeCondition_spec E B.sys true _ _ _ _ pH
    obtain ⟨q', z1, z2⟩ := F.heatCaps.2 0 1 hσ
    have hz : q47 = q' := Except.ok.inj (T1.symm.trans z2)
    subst hz
    rw [(sys_ok b9).2.1] at hcap'
    simp only [if_true] at hcap'
    rw [z1] at hcap'; cases hcap'
    exact hcap
  refine ⟨q47, b3, tA4, ?_, ?_⟩
  · intro c hc
    have T2 := T2 hq0
    rw [hc] at T2
    simp only [Perf.heatingCop, T1, tA2, bind_ok, Option.getD_some] at T2
    have hc0 : c ≠ 0 := by
      simp only [makeSingleSpeed, bind_eq_ok] at c5
      obtain ⟨-, -, ⟨qh, ph⟩, y1, -⟩ := c5
      obtain ⟨n4, -⟩ := singleHeating_cells y1
      rw [hc] at n4
      exact n4
    obtain ⟨d1, d2⟩ := cop_of_tables T2 hq0 hc0
    have e1 : (B.unit u E T brentq).netSteadyHeatingCapacity none = .ok q47 := tA4
    have e2 : (B.unit u E T brentq).netSteadyHeatingPower none = .ok wA := tA5
    simp only [DX.Performance.netSteadyHeatingCOP, e1, e2, bind_ok, pdiv_ok d1, ← d2]
  · intro q17 h
    have := T3 q17 h
    have hc : q17 = cB := Except.ok.inj (this.symm.trans tB1)
    rw [hc]; exact tB4

end Resdx.Build
