import Verif.Props.Ratings
import Verif.Props.Psychrometrics

/-!
# C81: the air states of the rating conditions
-/

set_option linter.unusedSectionVars false
set_option linter.unusedSimpArgs false

namespace Resdx.Ratings

open Psych BaseModel Props

variable {K : Type} [Field K] [LinearOrder K] [IsStrictOrderedRing K]

/-- **C81.** The air states of every rating condition are those made from the dry and wet bulbs of the test at one atmosphere; whatever was read of them before, reading them
gives these temperatures, and the humidity ratio psychrolib gives for them in °C. -/
theorem C81_states {E : Env K} {S : Sys K} {st : Staging} {rc rh : Roles} {P : DX.Points (Conditions K)} (h : setRatingConditions E S st rc rh = .ok P) (t : Test) {c : Conditions K}
    (hc : get P t = some c) :
    init E.lib (frF (testOutdoor t).1) E.atm [("wetbulb", frF (testOutdoor t).2)] = .ok c.outdoor ∧
    init E.lib (frF (testIndoor (testHeating t)).1) E.atm [("wetbulb", frF (testIndoor (testHeating t)).2)] = .ok c.indoor ∧
    ∀ history, (read E.lib .db (afterReads E.lib history c.outdoor)).1 = .ok (frF (testOutdoor t).1) ∧
      (read E.lib .wb (afterReads E.lib history c.outdoor)).1 = .ok (frF (testOutdoor t).2) ∧
      (read E.lib .hr (afterReads E.lib history c.outdoor)).1 = E.lib.humRatioFromTWetBulb (toC (frF (testOutdoor t).1)) (toC (frF (testOutdoor t).2)) E.atm ∧
      (read E.lib .db (afterReads E.lib history c.indoor)).1 = .ok (frF (testIndoor (testHeating t)).1) ∧
      (read E.lib .wb (afterReads E.lib history c.indoor)).1 = .ok (frF (testIndoor (testHeating t)).2) ∧
      (read E.lib .hr (afterReads E.lib history c.indoor)).1 =
        E.lib.humRatioFromTWetBulb (toC (frF (testIndoor (testHeating t)).1)) (toC (frF (testIndoor (testHeating t)).2)) E.atm := by
  by_cases g : carriedOut st rc t
  · obtain ⟨i, c', -, h2, h3⟩ := (C81_tests h t).1 g
    obtain rfl : c' = c := by rw [hc] at h2; exact (Option.some.inj h2).symm
    have ho : init E.lib (frF (testOutdoor t).1) E.atm [("wetbulb", frF (testOutdoor t).2)] = .ok c'.outdoor := by rw [h3.outdoor]; exact init_wetbulb _ _ _ _
    have hi : init E.lib (frF (testIndoor (testHeating t)).1) E.atm [("wetbulb", frF (testIndoor (testHeating t)).2)] = .ok c'.indoor := by
      rw [h3.indoor]; exact init_wetbulb _ _ _ _
    refine ⟨ho, hi, fun history => ?_⟩
    have k1 := C05_reads_from_wetbulb E.lib _ _ _ _ ho history
    have k2 := C05_reads_from_wetbulb E.lib _ _ _ _ hi history
    exact ⟨k1.1, k1.2.2.2.1, k1.2.2.2.2.2.1, k2.1, k2.2.2.2.1, k2.2.2.2.2.2.1⟩
  · rw [(C81_tests h t).2 g] at hc; cases hc

/-- A four-speed unit has rating conditions. -/
example : ∃ P c, setRatingConditions sampleEnv fourSpeed .varSpeed (roles 4 1 none) (roles 4 1 none) = .ok P ∧ get P .fLow = some c := by
  have : DX.okTest (setRatingConditions sampleEnv fourSpeed .varSpeed (roles 4 1 none) (roles 4 1 none)) (fun P => (get P .fLow).isSome) = true := by decide +kernel
  obtain ⟨P, h1, h2⟩ := DX.okTest_iff.1 this
  obtain ⟨c, hc⟩ := Option.isSome_iff_exists.1 h2
  exact ⟨P, c, h1, hc⟩

end Resdx.Ratings
