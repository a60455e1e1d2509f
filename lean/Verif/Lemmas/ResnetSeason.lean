import Verif.Spec.Season
import Verif.Props.DerivedRange
import Verif.Props.HspfLow

/-!
# The standard tests of constructed RESNET units
-/

set_option linter.unusedSectionVars false
set_option linter.unusedSimpArgs false

namespace Resdx.Build

open Spec Tabular BaseModel Props ResnetFan Fan Table

variable {u : Units ℝ} {E : Env ℝ} {T : Coil.Tools} {brentq : Brentq} {a : Args} {B : Built}

theorem frostShare_eq (db : ℝ) : Resnet.fdef db = frostShare (toF db) := by
  unfold Resnet.fdef frostShare
  split
  · rename_i h; rw [max_eq_right ((min_le_left _ _).trans h)]
  · rename_i h
    split
    · rename_i h2; rw [min_eq_left h2, max_eq_left (not_le.1 h).le]
    · rename_i h2; rw [min_eq_right (not_le.1 h2).le, max_eq_left (by norm_num)]

/-- Net integrated heating capacity and power from the gross steady-state values. -/
theorem unit_integrated {k : Core} {S : Sys ℝ} {P : DX.Points (Conditions ℝ)} {ntu : List (Option ℝ)} {c : Conditions ℝ} {q p w : ℝ} (hd : S.chargeDeviation = 0)
    (hq : Resnet.grossSteadyHeatingCapacity E S (data k) c = .ok q) (hp : Resnet.grossSteadyHeatingPower E S (data k) c = .ok p) (hw : fanPower u brentq k c = .ok w) :
    (performance u E T brentq k S P ntu).netIntegratedHeatingCapacity (some c) = .ok (frosted (S.defrost.inDefrost c.outdoor.db) (1.8 * frostShare (toF c.outdoor.db)) w (q + w)) ∧
      (performance u E T brentq k S P ntu).netIntegratedHeatingPower (some c) = .ok (frosted (S.defrost.inDefrost c.outdoor.db) (0.3 * frostShare (toF c.outdoor.db)) w (p + w)) := by
  have e1 : Resnet.grossIntegratedHeatingCapacity E S (data k) c = .ok (if S.defrost.inDefrost c.outdoor.db then q * (1 - 1.8 * frostShare (toF c.outdoor.db)) else q) := by
    have : Nrel.steadyCapacity E S (Resnet.raw E S (data k)) c = .ok q := by
      simp only [Nrel.steadyCapacity, Resnet.raw, hq, Nrel.gradingModel, hd, if_true, bind_ok, mul_one, pure_eq_ok]
    simp only [Resnet.grossIntegratedHeatingCapacity, this, bind_ok, pure_eq_ok, frostShare_eq]
    split <;> rfl
  have e2 : Resnet.grossIntegratedHeatingPower E S (data k) c = .ok (if S.defrost.inDefrost c.outdoor.db then p * (1 - 0.3 * frostShare (toF c.outdoor.db)) else p) := by
    simp only [Resnet.grossIntegratedHeatingPower, hp, bind_ok, pure_eq_ok, frostShare_eq]
    split <;> rfl
  have h1 : (performance u E T brentq k S P ntu).intCap c = Resnet.grossIntegratedHeatingCapacity E S (data k) c := rfl
  have h2 : (performance u E T brentq k S P ntu).intPow c = Resnet.grossIntegratedHeatingPower E S (data k) c := rfl
  have h3 : (performance u E T brentq k S P ntu).fanPower c = fanPower u brentq k c := rfl
  constructor
  · simp only [DX.Performance.netIntegratedHeatingCapacity, DX.Performance.grossIntegratedHeatingCapacity, DX.Performance.heatingFanPower, Option.getD_some, h1, h3, e1, hw, bind_ok, pure_eq_ok]
    unfold frosted
    split <;> simp
  · simp only [DX.Performance.netIntegratedHeatingPower, DX.Performance.grossIntegratedHeatingPower, DX.Performance.heatingFanPower, Option.getD_some, h2, h3, e2, hw, bind_ok, pure_eq_ok]
    unfold frosted
    split <;> simp

/-- The other full-speed tests in heating. -/
theorem frost_points {S : Sys ℝ} {rc rh : Roles} {P : DX.Points (Conditions ℝ)} {st : Staging} (h : Ratings.setRatingConditions E S st rc rh = .ok P) :
    S.makeCondition E true rh.full none (some (wetState E.atm (frF 35) (frF 33))) = .ok P.h2Full ∧ S.makeCondition E true rh.full none (some (wetState E.atm (frF 5) (frF 3))) = .ok P.h4Full := by
  unfold Ratings.setRatingConditions at h
  simp only [bind_eq_ok] at h
  obtain ⟨x1, h1, x2, h2, x3, h3, x4, h4, x5, h5, x6, h6, h7⟩ := h
  split at h7
  · simp only [pure_eq_ok, Except.ok.injEq] at h7
    rw [← h7]; exact ⟨h4, h6⟩
  · simp only [bind_eq_ok] at h7
    obtain ⟨P2, ⟨P1, i1, i3⟩, i4⟩ := h7
    have e1 : P1.h2Full = x4 ∧ P1.h4Full = x6 := by
      unfold Ratings.setRatingConditions.intermediate at i1
      split at i1
      · simp only [bind_eq_ok, pure_eq_ok, Except.ok.injEq] at i1
        obtain ⟨_, -, _, -, _, -, rfl⟩ := i1
        exact ⟨rfl, rfl⟩
      · rw [← Except.ok.inj i1]; exact ⟨rfl, rfl⟩
    have e2 : P2.h2Full = P1.h2Full ∧ P2.h4Full = P1.h4Full := by
      unfold Ratings.setRatingConditions.boost at i3
      split at i3
      · rw [← Except.ok.inj i3]; exact ⟨rfl, rfl⟩
      · simp only [bind_eq_ok, pure_eq_ok, Except.ok.injEq] at i3
        obtain ⟨_, -, rfl⟩ := i3
        exact ⟨rfl, rfl⟩
    have e3 : P.h2Full = P2.h2Full ∧ P.h4Full = P2.h4Full := by
      unfold Ratings.setRatingConditions.low at i4
      simp only [bind_eq_ok, pure_eq_ok, Except.ok.injEq] at i4
      obtain ⟨_, -, _, -, _, -, _, -, _, -, _, -, _, -, _, -, _, -, rfl⟩ := i4
      exact ⟨rfl, rfl⟩
    rw [e3.1, e2.1, e1.1, e3.2, e2.2, e1.2]
    exact ⟨h4, h6⟩

/-- The low-speed tests. -/
theorem low_points {S : Sys ℝ} {rc rh : Roles} {P : DX.Points (Conditions ℝ)} {st : Staging} (h : Ratings.setRatingConditions E S st rc rh = .ok P) (hst : st ≠ .single) :
    ∃ i j b f h0 h1 h2 h3, rc.low = some i ∧ rh.low = some j ∧ P.bLow = some b ∧ P.fLow = some f ∧ P.h0Low = some h0 ∧ P.h1Low = some h1 ∧ P.h2Low = some h2 ∧ P.h3Low = some h3 ∧
      S.makeCondition E false i none (some (wetState E.atm (frF 82) (frF 65))) = .ok b ∧ S.makeCondition E false i none (some (wetState E.atm (frF 67) (frF 53.5))) = .ok f ∧
      S.makeCondition E true j none (some (wetState E.atm (frF 62) (frF 56.5))) = .ok h0 ∧ S.makeCondition E true j none (some (defaultOutdoor E true)) = .ok h1 ∧
      S.makeCondition E true j none (some (wetState E.atm (frF 35) (frF 33))) = .ok h2 ∧ S.makeCondition E true j none (some (wetState E.atm (frF 17) (frF 15))) = .ok h3 := by
  unfold Ratings.setRatingConditions at h
  simp only [bind_eq_ok] at h
  obtain ⟨x1, g1, x2, g2, x3, g3, x4, g4, x5, g5, x6, g6, h7⟩ := h
  rw [if_neg hst] at h7
  simp only [bind_eq_ok] at h7
  obtain ⟨P2, -, i4⟩ := h7
  unfold Ratings.setRatingConditions.low at i4
  simp only [bind_eq_ok, pure_eq_ok, Except.ok.injEq] at i4
  obtain ⟨i, k1, _, -, b, k3, f, k4, j, k5, h0, k6, h1, k7, h2, k8, h3, k9, rfl⟩ := i4
  have num : ∀ {x : Option Nat} {y}, Ratings.speedIndex x = .ok y → x = some y := by
    intro x y hx
    cases x with
    | none => cases hx
    | some z => exact congrArg some (Except.ok.inj hx)
  exact ⟨i, j, b, f, h0, h1, h2, h3, num k1, num k5, rfl, rfl, rfl, rfl, rfl, rfl, k3, k4, k6, k7, k8, k9⟩

/-- The tests of variable-speed units at intermediate speed. -/
theorem int_points {S : Sys ℝ} {rc rh : Roles} {P : DX.Points (Conditions ℝ)} {st : Staging} (h : Ratings.setRatingConditions E S st rc rh = .ok P) (hst : st = .varSpeed) :
    ∃ e h2, P.eInt = some e ∧ P.h2Int = some h2 ∧ S.makeCondition E false rc.intermediate none (some (wetState E.atm (frF 87) (frF 69))) = .ok e ∧
      S.makeCondition E true rh.intermediate none (some (wetState E.atm (frF 35) (frF 33))) = .ok h2 := by
  subst hst
  unfold Ratings.setRatingConditions at h
  simp only [bind_eq_ok] at h
  obtain ⟨x1, g1, x2, g2, x3, g3, x4, g4, x5, g5, x6, g6, h7⟩ := h
  rw [if_neg (by simp)] at h7
  simp only [bind_eq_ok] at h7
  obtain ⟨P2, ⟨P1, i1, i3⟩, i4⟩ := h7
  unfold Ratings.setRatingConditions.intermediate at i1
  rw [if_pos rfl] at i1
  simp only [bind_eq_ok, pure_eq_ok, Except.ok.injEq] at i1
  obtain ⟨_, -, e, k1, h2, k2, rfl⟩ := i1
  have e2 : P2.eInt = some e ∧ P2.h2Int = some h2 := by
    unfold Ratings.setRatingConditions.boost at i3
    split at i3
    · rw [← Except.ok.inj i3]; exact ⟨rfl, rfl⟩
    · simp only [bind_eq_ok, pure_eq_ok, Except.ok.injEq] at i3
      obtain ⟨_, -, rfl⟩ := i3
      exact ⟨rfl, rfl⟩
  unfold Ratings.setRatingConditions.low at i4
  simp only [bind_eq_ok, pure_eq_ok, Except.ok.injEq] at i4
  obtain ⟨_, -, _, -, _, -, _, -, _, -, _, -, _, -, _, -, _, -, rfl⟩ := i4
  exact ⟨e, h2, e2.1, e2.2, k1, k2⟩

/-- The outdoor air of a condition. -/
theorem makeCondition_outdoor {S : Sys ℝ} {heating : Bool} {i : Nat} {o : Psych.PsychState ℝ} {c : Conditions ℝ} (h : S.makeCondition E heating i none (some o) = .ok c) : c.outdoor = o := by
  obtain ⟨rho, pr, x, cap, fs, _, _, _, _, _, _, _, _, _, rfl⟩ := Sys.makeCondition_spec E S heating _ _ _ _ h
  rfl

end Resdx.Build
