import Verif.Model.Defrost
import Mathlib.Algebra.Order.Ring.Rat

/-! # Properties C11–C12: defrost -/

set_option linter.unusedSectionVars false
set_option linter.unusedSimpArgs false

namespace Resdx.Props

open Defrost

variable {K : Type} [Field K] [LinearOrder K] [IsStrictOrderedRing K]

/-! ## C11 -/

/-- C11: a unit is in defrost exactly when it has a strategy and the outdoor temperature is strictly inside the window. -/
theorem C11_inDefrost_iff (d : Defrost K) (db : K) :
    d.inDefrost db = true ↔ d.strategy ≠ .none ∧ db < d.highTemperature ∧
      ∀ low, d.lowTemperature = some low → low < db := by
  unfold inDefrost
  by_cases h : d.strategy = .none
  · simp [h]
  · cases hl : d.lowTemperature with
    | none => simp [h]
    | some low => simp [h, and_comm]

/-- C11: the constructor rejects exactly the resistive defrosts without positive heater power. -/
theorem C11_init (d : Defrost K) :
    (Defrost.init d = .ok d ↔ (d.strategy = .resistive → 0 < d.resistivePower)) ∧
    (Defrost.init d = .error .systemExit ↔ (d.strategy = .resistive ∧ ¬ 0 < d.resistivePower)) := by
  unfold Defrost.init
  by_cases h : d.strategy = .resistive ∧ d.resistivePower ≤ 0
  · rw [if_pos h]; simp [h.1, h.2]
  · rw [if_neg h]
    simp only [not_and, not_le] at h
    simp only [reduceCtorEq, false_iff, not_and, not_not, true_iff]
    exact ⟨h, h⟩

example : (Defrost.default (Units.ofOnes ℚ)).inDefrost (frF 40) = true := by decide +kernel
example : (Defrost.default (Units.ofOnes ℚ)).inDefrost (frF 41) = false := by decide +kernel

/-! ## C12 -/

/-- C12: without demand control the credit is one. -/
theorem C12_credit_not_demand (u : Units K) (d : Defrost K) (h : d.control ≠ .demand) :
    d.demandCredit u = .ok 1 := by
  simp [demandCredit, h, pure_eq_ok]

/-- C12: with demand control, a maximum time above 90 minutes and a period not above the maximum time (nor above 720 minutes), the
credit lies in [1, 1.03]; it is 1.03 for periods up to 90 minutes and 1 when the period reaches the capped maximum. -/
theorem C12_credit_bounds_partial (u : Units K) (d : Defrost K) (h : d.control = .demand)
    (hmax : 90 * u.minute < d.maxTime) (hper : d.period ≤ d.maxTime) (hper' : d.period ≤ 720 * u.minute) :
    ∃ c, d.demandCredit u = .ok c ∧ 1 ≤ c ∧ c ≤ 1.03 ∧ (d.period ≤ 90 * u.minute → c = 1.03) ∧
      (d.period = min d.maxTime (720 * u.minute) → c = 1) := by
  have hm := u.minute_pos
  have hT : 90 * u.minute < min d.maxTime (720 * u.minute) := lt_min hmax (by linarith)
  have hD : 0 < min d.maxTime (720 * u.minute) - 90 * u.minute := by linarith
  have hP : max d.period (90 * u.minute) ≤ min d.maxTime (720 * u.minute) :=
    max_le (le_min hper hper') hT.le
  refine ⟨1 + 0.03 * (1 - (max d.period (90 * u.minute) - 90 * u.minute) /
    (min d.maxTime (720 * u.minute) - 90 * u.minute)), ?_, ?_, ?_, ?_, ?_⟩
  · simp [demandCredit, h, pdiv_ok hD.ne', bind_ok, pure_eq_ok]
  · have : (max d.period (90 * u.minute) - 90 * u.minute) /
        (min d.maxTime (720 * u.minute) - 90 * u.minute) ≤ 1 := by
      rw [div_le_one hD]; linarith
    nlinarith
  · have : 0 ≤ (max d.period (90 * u.minute) - 90 * u.minute) /
        (min d.maxTime (720 * u.minute) - 90 * u.minute) := by
      apply div_nonneg _ hD.le
      have := le_max_right d.period (90 * u.minute)
      linarith
    norm_num
    linarith
  · intro h90
    rw [max_eq_right h90]
    norm_num
  · intro he
    have : max d.period (90 * u.minute) = min d.maxTime (720 * u.minute) := by
      rw [he]; exact max_eq_left hT.le
    rw [this, div_self hD.ne']
    norm_num

/-- C12: between the limits the credit falls linearly: the credit lost is proportional to the time beyond 90 minutes. -/
theorem C12_credit_linear (u : Units K) (d : Defrost K) (h : d.control = .demand)
    (hmax : 90 * u.minute < d.maxTime) (hper : 90 * u.minute ≤ d.period) :
    ∃ c, d.demandCredit u = .ok c ∧
      (1.03 - c) * (min d.maxTime (720 * u.minute) - 90 * u.minute) = 0.03 * (d.period - 90 * u.minute) := by
  have hm := u.minute_pos
  have hT : 90 * u.minute < min d.maxTime (720 * u.minute) := lt_min hmax (by linarith)
  have hD : 0 < min d.maxTime (720 * u.minute) - 90 * u.minute := by linarith
  refine ⟨1 + 0.03 * (1 - (max d.period (90 * u.minute) - 90 * u.minute) /
    (min d.maxTime (720 * u.minute) - 90 * u.minute)), ?_, ?_⟩
  · simp [demandCredit, h, pdiv_ok hD.ne', bind_ok, pure_eq_ok]
  · rw [max_eq_left hper]
    have hne := hD.ne'
    generalize min d.maxTime (720 * u.minute) - 90 * u.minute = D at *
    field_simp
    ring

/-- C12: a longer period never gives a larger credit. -/
theorem C12_credit_antitone (u : Units K) (d d' : Defrost K) (c c' : K)
    (hc : d.demandCredit u = .ok c) (hc' : d'.demandCredit u = .ok c')
    (hctl : d'.control = d.control) (hmt : d'.maxTime = d.maxTime) (hmax : 90 * u.minute < d.maxTime)
    (hper : d.period ≤ d'.period) : c' ≤ c := by
  have hm := u.minute_pos
  have hT : 90 * u.minute < min d.maxTime (720 * u.minute) := lt_min hmax (by linarith)
  have hD : 0 < min d.maxTime (720 * u.minute) - 90 * u.minute := by linarith
  unfold demandCredit at hc hc'
  rw [hctl, hmt] at hc'
  by_cases hd : d.control = .demand
  · simp only [if_pos hd, pdiv_ok hD.ne', bind_ok, pure_eq_ok, Except.ok.injEq] at hc hc'
    rw [← hc, ← hc']
    have : (max d.period (90 * u.minute) - 90 * u.minute) / (min d.maxTime (720 * u.minute) - 90 * u.minute) ≤
        (max d'.period (90 * u.minute) - 90 * u.minute) / (min d.maxTime (720 * u.minute) - 90 * u.minute) := by
      apply div_le_div_of_nonneg_right _ hD.le
      have := max_le_max_right (90 * u.minute) hper
      linarith
    norm_num
    linarith
  · simp only [if_neg hd, pure_eq_ok, Except.ok.injEq] at hc hc'
    rw [← hc, ← hc']

/-- C12 (the unrestricted claim is false of the code): a period longer than the maximum time gives a "credit" below one. -/
theorem C12_refuted :
    ¬ ∀ (u : Units ℚ) (d : Defrost ℚ) (c : ℚ), d.control = .demand → d.demandCredit u = .ok c → 1 ≤ c := by
  intro h
  have := h (Units.ofOnes ℚ) { Defrost.default (Units.ofOnes ℚ) with
    control := .demand, period := 300, maxTime := 200 } (1 + 0.03 * (1 - 210 / 110)) rfl (by decide +kernel)
  norm_num at this

/-- C12: a maximum time of exactly 90 minutes makes the call raise `ZeroDivisionError`. -/
theorem C12_credit_singular (u : Units K) (d : Defrost K) (h : d.control = .demand)
    (hmax : d.maxTime = 90 * u.minute) : d.demandCredit u = .error .zeroDivision := by
  have hm := u.minute_pos
  have : min d.maxTime (720 * u.minute) - 90 * u.minute = 0 := by
    rw [hmax, min_eq_left (by linarith)]; ring
  simp [demandCredit, h, this, pdiv, bind_error]

example : let d := { Defrost.default (Units.ofOnes ℚ) with control := .demand, period := 100, maxTime := 600 }
    d.control = .demand ∧ 90 * (Units.ofOnes ℚ).minute < d.maxTime ∧ d.period ≤ d.maxTime ∧
    d.period ≤ 720 * (Units.ofOnes ℚ).minute ∧ 90 * (Units.ofOnes ℚ).minute ≤ d.period := by decide +kernel

end Resdx.Props
