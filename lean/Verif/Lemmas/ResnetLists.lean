import Verif.Model.ResnetLists
import Verif.Props.NrelCop
import Verif.Lemmas.ResnetConstruct
import Verif.Lemmas.ResnetRatings

/-! # Helper lemmas for RESNET units made from lists of capacities -/

set_option linter.unusedSectionVars false
set_option linter.unusedSimpArgs false

namespace Resdx.ListBuild

open Spec BaseModel Props ResnetFan Fan UnitBuild

variable {u : Units ℝ} {E : Env ℝ} {T : Coil.Tools} {brentq : Brentq} {a : Args} {B : Built}

/-- One mode of the fan data. -/
def FanSet.airflow (f : FanSet) (heating : Bool) : List (Option ℝ) := if heating then f.heatAirflow else f.coolAirflow
/-- One mode of the fan data. -/
def FanSet.ratedPower (f : FanSet) (heating : Bool) : List (Option ℝ) := if heating then f.heatPower else f.coolPower
/-- One mode of the fan data. -/
def FanSet.speed (f : FanSet) (heating : Bool) : List (Option Nat) := if heating then f.heatSpeed else f.coolSpeed

/-- The capacities of a mode. -/
def Args.caps (a : Args) (heating : Bool) : List ℝ := if heating then a.heating else makeList a.cooling
/-- The number of speeds of a mode. -/
def Args.speeds (a : Args) (heating : Bool) : Nat := if heating then a.nH else a.nC
/-- The full-load speed of a mode. -/
def Args.full (a : Args) (heating : Bool) : Nat := if heating then a.heatingFullSpeed else a.coolingFullSpeed
/-- The net COP argument of a mode. -/
def Args.netCop (a : Args) (heating : Bool) : Option (NumArg ℝ) := if heating then a.netHeatingCop else a.netCoolingCop
/-- The gross COP argument of a mode. -/
def Args.grossCop (a : Args) (heating : Bool) : Option (NumArg ℝ) := if heating then a.grossHeatingCop else a.grossCoolingCop
/-- The rated quantities of a mode. -/
def Built.side (B : Built) (heating : Bool) : Rated ℝ := if heating then B.heat else B.cool

/-- The steps of a successful construction. -/
structure Steps (u : Units ℝ) (E : Env ℝ) (brentq : Brentq) (a : Args) (B : Built) (qc : List ℝ) (fullESP : ℝ) (gc gh : List (Option ℝ)) : Prop where
  list : a.cooling = .list qc
  staging : stagingOf a.nH a.staging = .ok B.st
  pressure : fullFlowPressure u a.ducted a.standard qc = .ok fullESP
  fan : setFan u brentq a B.st fullESP qc = .ok B.fan
  stages : ¬ (B.st = .two ∧ qc.length = 1)
  grossC : Build.grossList a.nC qc B.fan.coolPower 1 = .ok gc
  grossH : Build.grossList a.nH a.heating B.fan.heatPower (-1) = .ok gh
  sys : B.sys = sysOf a qc fullESP B.fan gc gh B.cool.grossCop B.heat.grossCop
  points : Ratings.setRatingConditions E B.sys B.st a.rc a.rh = .ok B.points
  cops : ListBuild.cops a { Rated.fresh a.nC qc B.fan.coolPower with grossCap := gc } { Rated.fresh a.nH a.heating B.fan.heatPower with grossCap := gh } = .ok (B.cool, B.heat)
  checks : finalChecks a.nC a.nH qc B.coil.shr B.heat.grossCop a.heating = .ok ()
  cd : B.cdCooling = Build.cd a.cdCooling
  roles : B.rc = a.rc ∧ B.rh = a.rh

theorem lowerSpeeds_ok {st : Staging} {qc : List ℝ} (h : lowerSpeeds st qc = .ok ()) : ¬ (st = .two ∧ qc.length = 1) := by
  unfold lowerSpeeds at h
  split at h
  · cases h
  · assumption

theorem build_steps (h : build u E T brentq a = .ok B) : ∃ qc fullESP gc gh, Steps u E brentq a B qc fullESP gc gh := by
  unfold build at h
  simp only [bind_eq_ok] at h
  obtain ⟨st, h1, qc, h2, p, h3, f, h4, _, h5, gc, h6, gh, h7, cr, h8, P, h9, coil, h10, ⟨c, h'⟩, h11, _, h12, h13⟩ := h
  simp only [pure_eq_ok, Except.ok.injEq] at h13
  subst h13
  have hq : a.cooling = .list qc := by
    cases hc : a.cooling with
    | num x => simp [coolingList, hc] at h2
    | list l => simp only [coolingList, hc, Except.ok.injEq] at h2; rw [h2]
  exact ⟨qc, p, gc, gh, hq, h1, h3, h4, lowerSpeeds_ok h5, h6, h7, rfl, h9, h11, h12, rfl, rfl, rfl⟩

variable {qc : List ℝ} {fullESP : ℝ} {gc gh : List (Option ℝ)}

theorem Steps.nC (s : Steps u E brentq a B qc fullESP gc gh) : a.nC = qc.length := by
  simp [Args.nC, s.list, numberOfSpeeds]

theorem Steps.caps (s : Steps u E brentq a B qc fullESP gc gh) (heating : Bool) : (if heating then B.sys.netHeating else B.sys.netCooling) = a.caps heating := by
  rw [s.sys]; cases heating <;> simp [sysOf, Args.caps, s.list, makeList]

theorem Steps.capsLength (s : Steps u E brentq a B qc fullESP gc gh) (heating : Bool) : (a.caps heating).length = a.speeds heating := by
  cases heating <;> simp [Args.caps, Args.speeds, s.list, makeList, s.nC, Args.nH]

theorem Steps.airflows (s : Steps u E brentq a B qc fullESP gc gh) (heating : Bool) : (if heating then B.sys.heatingAirflow else B.sys.coolingAirflow) = B.fan.airflow heating := by
  rw [s.sys]; rfl

theorem Steps.fanSpeeds (s : Steps u E brentq a B qc fullESP gc gh) (heating : Bool) : (if heating then B.sys.ratedHeatingFanSpeed else B.sys.ratedCoolingFanSpeed) = B.fan.speed heating := by
  rw [s.sys]; rfl

/-- Every speed has a rated fan power. -/
theorem Steps.power (s : Steps u E brentq a B qc fullESP gc gh) (heating : Bool) {i : Nat} (hi : i < a.speeds heating) :
    ∃ q w, (a.caps heating)[i]? = some q ∧ (B.fan.ratedPower heating)[i]? = some (some w) ∧
      (if heating then B.sys.grossHeating else B.sys.grossCooling)[i]? = some (some (if heating then q - w else q + w)) := by
  have hl := s.capsLength heating
  obtain ⟨q, hq⟩ : ∃ q, (a.caps heating)[i]? = some q := ⟨_, List.getElem?_eq_getElem (by omega)⟩
  cases heating with
  | false =>
    have hc : a.caps false = qc := by simp [Args.caps, s.list, makeList]
    have h := s.grossC
    unfold Build.grossList at h
    rw [comp_eq_ok] at h
    obtain ⟨v, e1, e2⟩ := h.2 i hi
    simp only [bind_eq_ok, pyGet_eq_ok, numAt_eq_ok, pure_eq_ok, Except.ok.injEq] at e2
    obtain ⟨q', e3, w, e4, rfl⟩ := e2
    rw [hc] at hq ⊢
    rw [hq] at e3; cases e3
    refine ⟨q, w, hq, e4, ?_⟩
    rw [s.sys]
    simp only [sysOf, Bool.false_eq_true, if_false, e1, one_mul]
  | true =>
    have h := s.grossH
    unfold Build.grossList at h
    rw [comp_eq_ok] at h
    obtain ⟨v, e1, e2⟩ := h.2 i hi
    simp only [bind_eq_ok, pyGet_eq_ok, numAt_eq_ok, pure_eq_ok, Except.ok.injEq] at e2
    obtain ⟨q', e3, w, e4, rfl⟩ := e2
    have hc : a.caps true = a.heating := rfl
    rw [hc] at hq ⊢
    rw [hq] at e3; cases e3
    refine ⟨q, w, hq, e4, ?_⟩
    rw [s.sys]
    simp only [sysOf, if_true, e1]
    congr 2; ring

/-! ## The COPs -/

theorem applied {heating : Bool} {net gross : Option (NumArg ℝ)} {s0 s1 s : Rated ℝ} (h1 : applyOpt (Nrel.setNetCop heating) net s0 = .ok s1)
    (h2 : applyOpt (Nrel.setGrossCop heating) gross s1 = .ok s) : SameInputs s s0 ∧ CopsSet heating net gross s := by
  have hs1 : SameInputs s1 s0 := by
    cases net with
    | none => simp only [applyOpt, Except.ok.injEq] at h1; subst h1; exact ⟨rfl, rfl, rfl, rfl⟩
    | some i => cases i with
      | num x => exact (C110_net_number heating x s0 s1 h1).1
      | list l => exact (C110_net_list heating l s0 s1 h1).1
  cases gross with
  | some g =>
    obtain ⟨e1, e2, e3⟩ := C110_gross heating g s1 s h2
    refine ⟨⟨e1.1.trans hs1.1, e1.2.1.trans hs1.2.1, e1.2.2.1.trans hs1.2.2.1, e1.2.2.2.trans hs1.2.2.2⟩, fun g' hg => ?_, fun _ hg => by simp at hg, fun _ hg => by simp at hg⟩
    cases hg
    exact ⟨e2, fun i C hC => e3 i C (by rw [← e1.1]; exact hC)⟩
  | none =>
    simp only [applyOpt, Except.ok.injEq] at h2
    subst h2
    refine ⟨hs1, fun _ hg => by simp at hg, fun l _ hl => ?_, fun x _ hx => ?_⟩
    · subst hl
      obtain ⟨-, e2, e3⟩ := C110_net_list heating l s0 s1 h1
      exact ⟨e2, e3⟩
    · subst hx
      obtain ⟨e1, e2, e3, e4⟩ := C110_net_number heating x s0 s1 h1
      rw [← e1.1] at e3 e4
      exact ⟨e2, e3, e4⟩

theorem Steps.copsSet (s : Steps u E brentq a B qc fullESP gc gh) (heating : Bool) :
    (B.side heating).n = a.speeds heating ∧ (B.side heating).netCap = a.caps heating ∧ (B.side heating).fanPower = B.fan.ratedPower heating ∧
      (B.side heating).grossCap = (if heating then B.sys.grossHeating else B.sys.grossCooling) ∧
      (B.side heating).grossCop = (if heating then B.sys.grossHeatingCop else B.sys.grossCoolingCop) ∧
      ¬ (a.netCop heating = none ∧ a.grossCop heating = none) ∧ CopsSet heating (a.netCop heating) (a.grossCop heating) (B.side heating) := by
  have h := s.cops
  unfold ListBuild.cops at h
  split at h
  · cases h
  · rename_i g1
    split at h
    · cases h
    · rename_i g2
      simp only [bind_eq_ok, pure_eq_ok, Except.ok.injEq, Prod.mk.injEq] at h
      obtain ⟨c1, i1, c2, i2, h1, i3, h2, i4, rfl, rfl⟩ := h
      cases heating with
      | false =>
        obtain ⟨⟨e1, e2, e3, e4⟩, e⟩ := applied i1 i2
        refine ⟨e1, ?_, e3, ?_, ?_, g1, e⟩
        · simp only [Built.side, Bool.false_eq_true, if_false, e2, Rated.fresh, Args.caps, s.list, makeList]
        · rw [s.sys]; exact e4
        · rw [s.sys]; rfl
      | true =>
        obtain ⟨⟨e1, e2, e3, e4⟩, e⟩ := applied i3 i4
        refine ⟨e1, e2, e3, ?_, ?_, g2, e⟩
        · rw [s.sys]; exact e4
        · rw [s.sys]; rfl

/-! ## The fan at a rating condition -/

/-- The model's own fan runs at its rated power at the rating conditions of speed `i`: a PSC motor, no duct pressure, a speed other than full load, or a mode whose first airflow is the fan's design airflow. -/
def SamePower (a : Args) (B : Built) (heating : Bool) (i : Nat) : Prop :=
  a.motorPSC.getD (defaultMotorPSC B.st) = true ∨ B.sys.fullESP = 0 ∨ i ≠ a.full heating ∨
    ∃ x y, B.fan.coolAirflow[a.coolingFullSpeed]? = some (some x) ∧ B.fan.heatAirflow[a.heatingFullSpeed]? = some (some y) ∧ (B.fan.airflow heating)[0]? = some (some (max x y))

theorem mode_cond {psc : Bool} {S : Sys ℝ} {s s0 : Side} {b : Base} {heating : Bool} {i : Nat} {ind out : Option (Psych.PsychState ℝ)} {c : Conditions ℝ} {design p : ℝ} {fs : Nat}
    (h : S.makeCondition E heating i ind out = .ok c) (hA : (if heating then S.heatingAirflow else S.coolingAirflow) = s.airflow)
    (hF : (if heating then S.ratedHeatingFanSpeed else S.ratedCoolingFanSpeed) = s.ratedFanSpeed.map (·.map Int.toNat)) (hE : S.fullESP = p)
    (M : ModeSet (motorPower u brentq psc) p design fs s0 s b) (hi : i < s.caps.length)
    (hok : psc = true ∨ p = 0 ∨ i ≠ fs ∨ s.airflow[0]? = some (some design)) {f : FanSet} (hf : f.power = motorPower u brentq psc b) :
    ∃ w, s.power[i]? = some (some w) ∧ fanPower f c = .ok w := by
  obtain ⟨rho, pr, x, cap, n, h1, h2, h3, h4, h5, h6, h7, ⟨full, h8, h9, rfl⟩, h10, rfl⟩ := Sys.makeCondition_spec E S heating _ _ _ _ h
  obtain ⟨a', m, p', w, ⟨q, r, g1, g2, g3, g4⟩, g5, g6, g7, g8, g9⟩ := M.rated i hi
  rw [hA] at h7 h8
  rw [hF, Build.toNat_map g5] at h10
  rw [g4] at h7
  cases h7
  cases h10
  refine ⟨w, g9, ?_⟩
  simp only [fanPower, ratedFlow, pyNum, pyAttr, bind_ok, hf]
  rw [hE]
  have hfull : i = fs → p' = p * (x / design) ^ 2 := by
    rintro rfl
    obtain ⟨y, ⟨_, _, _, _, _, e1⟩, e2⟩ := M.full
    rw [g4] at e1; cases e1
    rw [g7] at e2; cases e2
    rfl
  have hother : i ≠ fs → p' = p * (x / full) ^ 2 := by
    intro hne
    obtain ⟨y, b0, e1, e2, e3, e4⟩ := M.other i hi hne
    rw [e2] at h8; cases h8
    rw [g4] at e1; cases e1
    rw [g7] at e4; cases e4
    rfl
  rcases hok with hp | hp | hp | hp
  · subst hp
    simp only [ResnetFan.motorPower, if_true] at g8 ⊢
    exact g8
  · have : p' = 0 := by
      by_cases hif : i = fs
      · rw [hfull hif, hp, zero_mul]
      · rw [hother hif, hp, zero_mul]
    rw [hp, zero_mul, ← this]; exact g8
  · rw [← hother hp]; exact g8
  · rw [hp] at h8; cases h8
    by_cases hif : i = fs
    · rw [← hfull hif]; exact g8
    · rw [← hother hif]; exact g8

theorem own_cond (s : Steps u E brentq a B qc fullESP gc gh) (hf : a.fan = none) {heating : Bool} {i : Nat} (hi : i < a.speeds heating) {ind out : Option (Psych.PsychState ℝ)}
    {c : Conditions ℝ} (h : B.sys.makeCondition E heating i ind out = .ok c) (hok : SamePower a B heating i) :
    ∃ w, (B.fan.ratedPower heating)[i]? = some (some w) ∧ fanPower B.fan c = .ok w := by
  have hfan := s.fan
  simp only [setFan, hf, ownFan, bind_eq_ok, pure_eq_ok, Except.ok.injEq] at hfan
  obtain ⟨⟨c', h', b⟩, hrun, hfan⟩ := hfan
  obtain ⟨ac, ah, A1, A2, A3, A4, A5, A6⟩ := setFan_sets u (motor_local u brentq _) hrun
  have hE : B.sys.fullESP = fullESP := by rw [s.sys]; rfl
  have hca : c'.caps = qc := A5.caps
  have hch : h'.caps = a.heating := A6.caps
  have hca' : (B.fan.coolAirflow)[a.coolingFullSpeed]? = some (some ac) := by
    obtain ⟨_, _, _, _, _, e⟩ := A1
    rw [← hfan]; exact e
  have hha' : (B.fan.heatAirflow)[a.heatingFullSpeed]? = some (some ah) := by
    obtain ⟨_, _, _, _, _, e⟩ := A2
    rw [← hfan]; exact e
  have hmax : ∀ z, (∃ x y, B.fan.coolAirflow[a.coolingFullSpeed]? = some (some x) ∧ B.fan.heatAirflow[a.heatingFullSpeed]? = some (some y) ∧ z = some (some (max x y))) →
      z = some (some (max ac ah)) := by
    rintro z ⟨x, y, e1, e2, e3⟩
    rw [hca'] at e1; cases e1
    rw [hha'] at e2; cases e2
    exact e3
  have hpow : B.fan.power = motorPower u brentq (a.motorPSC.getD (defaultMotorPSC B.st)) b := by rw [← hfan]
  cases heating with
  | false =>
    have hok' : a.motorPSC.getD (defaultMotorPSC B.st) = true ∨ fullESP = 0 ∨ i ≠ a.coolingFullSpeed ∨ c'.airflow[0]? = some (some (max ac ah)) := by
      rcases hok with h | h | h | h
      · exact .inl h
      · exact .inr (.inl (hE ▸ h))
      · exact .inr (.inr (.inl h))
      · refine .inr (.inr (.inr ?_))
        have := hmax _ h
        rw [← hfan] at this; exact this
    have := mode_cond (u := u) (brentq := brentq) (s := c') h (by rw [s.airflows]; rw [← hfan]; rfl) (by rw [s.fanSpeeds]; rw [← hfan]; rfl) hE A5
      (by rw [hca, ← s.nC]; exact hi) hok' hpow
    obtain ⟨w, w1, w2⟩ := this
    exact ⟨w, by rw [← hfan]; exact w1, w2⟩
  | true =>
    have hok' : a.motorPSC.getD (defaultMotorPSC B.st) = true ∨ fullESP = 0 ∨ i ≠ a.heatingFullSpeed ∨ h'.airflow[0]? = some (some (max ac ah)) := by
      rcases hok with h | h | h | h
      · exact .inl h
      · exact .inr (.inl (hE ▸ h))
      · exact .inr (.inr (.inl h))
      · refine .inr (.inr (.inr ?_))
        have := hmax _ h
        rw [← hfan] at this; exact this
    have := mode_cond (u := u) (brentq := brentq) (s := h') h (by rw [s.airflows]; rw [← hfan]; rfl) (by rw [s.fanSpeeds]; rw [← hfan]; rfl) hE A6
      (by rw [hch]; exact hi) hok' hpow
    obtain ⟨w, w1, w2⟩ := this
    exact ⟨w, by rw [← hfan]; exact w1, w2⟩

/-- A supplied fan at a rating condition. -/
theorem given_cond (s : Steps u E brentq a B qc fullESP gc gh) {f : AnyFan} (hf : a.fan = some f) {heating : Bool} {i : Nat} (hi : i < a.speeds heating) {ind out : Option (Psych.PsychState ℝ)}
    {c : Conditions ℝ} (h : B.sys.makeCondition E heating i ind out = .ok c) :
    ∃ l k p x w, (if heating then a.ratedHeatingFanSpeed else a.ratedCoolingFanSpeed) = some l ∧ l[i]? = some k ∧ f.airflow k none = .ok x ∧ (B.fan.airflow heating)[i]? = some (some x) ∧
      f.power k none = .ok w ∧ (B.fan.ratedPower heating)[i]? = some (some w) ∧ c.flow.esp = some p ∧ fanPower B.fan c = f.power k (some p) := by
  have hfan := s.fan
  simp only [setFan, hf, givenFan, bind_eq_ok, pure_eq_ok, Except.ok.injEq] at hfan
  obtain ⟨⟨ca, cp⟩, r1, ⟨ha, hp⟩, r2, hfan⟩ := hfan
  have key : ∀ (n : Nat) (sp : Option (List Nat)) (A P : List (Option ℝ)), resnetSupplied f n sp = .ok (A, P) → i < n →
      ∃ l k x w, sp = some l ∧ l[i]? = some k ∧ f.airflow k none = .ok x ∧ A[i]? = some (some x) ∧ f.power k none = .ok w ∧ P[i]? = some (some w) := by
    intro n sp A P hr hin
    simp only [resnetSupplied, bind_eq_ok, pure_eq_ok, Except.ok.injEq, Prod.mk.injEq, comp_eq_ok] at hr
    obtain ⟨A', ⟨-, q1⟩, P', ⟨-, q2⟩, rfl, rfl⟩ := hr
    obtain ⟨x, e1, l, e2, k, e3, e4⟩ := q1 i hin
    obtain ⟨w, e5, l', e6, k', e7, e8⟩ := q2 i hin
    cases sp with
    | none => simp [pyNum] at e2
    | some l0 =>
      simp only [pyNum, Except.ok.injEq] at e2 e6
      subst e2; subst e6
      rw [pyGet_eq_ok] at e3 e7
      rw [e3] at e7; cases e7
      exact ⟨_, k, x, w, rfl, e3, e4, e1, e8, e5⟩
  obtain ⟨rho, pr, x, cap, n, h1, h2, h3, h4, h5, h6, h7, h8, h10, rfl⟩ := Sys.makeCondition_spec E B.sys heating _ _ _ _ h
  rw [s.fanSpeeds] at h10
  cases heating with
  | false =>
    obtain ⟨l, k, x', w, e1, e2, e3, e4, e5, e6⟩ := key _ _ _ _ r1 hi
    refine ⟨l, k, pr, x', w, e1, e2, e3, by rw [← hfan]; exact e4, e5, by rw [← hfan]; exact e6, rfl, ?_⟩
    have : n = some k := by
      rw [← hfan] at h10
      simp only [FanSet.speed, Bool.false_eq_true, if_false, e1, Option.getD_some] at h10
      simpa [e2] using h10.symm
    rw [this, ← hfan]
    simp only [fanPower, ratedFlow, pyNum, pyAttr, bind_ok]
  | true =>
    obtain ⟨l, k, x', w, e1, e2, e3, e4, e5, e6⟩ := key _ _ _ _ r2 hi
    refine ⟨l, k, pr, x', w, e1, e2, e3, by rw [← hfan]; exact e4, e5, by rw [← hfan]; exact e6, rfl, ?_⟩
    have : n = some k := by
      rw [← hfan] at h10
      simp only [FanSet.speed, if_true, e1, Option.getD_some] at h10
      simpa [e2] using h10.symm
    rw [this, ← hfan]
    simp only [fanPower, ratedFlow, pyNum, pyAttr, bind_ok]

end Resdx.ListBuild
