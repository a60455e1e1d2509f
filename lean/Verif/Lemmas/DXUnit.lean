import Verif.Model.DXUnit
import Verif.Lemmas.Util
import Mathlib.Tactic.Linarith
import Mathlib.Tactic.FieldSimp
import Mathlib.Tactic.Ring

/-! # Unfolding lemmas for the accessors -/

set_option linter.unusedSectionVars false
set_option linter.unusedSimpArgs false

namespace Resdx.DX.Performance

open Util

variable {C K : Type} [Field K] [LinearOrder K] [IsStrictOrderedRing K]
variable {U : Performance C K} {c : Option C} {v : K}

theorem limitCheck_min_eq_ok {x m v : K} : limitCheck x (min := some m) = .ok v ↔ m ≤ x ∧ v = x := by
  unfold limitCheck; dsimp only
  split
  · rename_i h; simp [not_le.mpr h]
  · rename_i h; simp [not_lt.mp h, eq_comm]

theorem limitCheck_both_eq_ok {x m M v : K} : limitCheck x (min := some m) (max := some M) = .ok v ↔ m ≤ x ∧ x ≤ M ∧ v = x := by
  unfold limitCheck; dsimp only
  split
  · rename_i h; simp [not_le.mpr h]
  · rename_i h
    split
    · rename_i h'; simp [not_le.mpr h']
    · rename_i h'; simp [not_lt.mp h, not_lt.mp h', eq_comm]

theorem grossTotal_eq_ok : U.grossTotalCoolingCapacity c = .ok v ↔
    ∃ q f, U.coolCap (c.getD U.aFull) = .ok q ∧ U.coolCapCharge (c.getD U.aFull) = .ok f ∧ 0 ≤ q * f ∧ v = q * f := by
  simp only [grossTotalCoolingCapacity, bind_eq_ok, limitCheck_min_eq_ok]
  constructor
  · rintro ⟨q, hq, f, hf, h⟩; exact ⟨q, f, hq, hf, h⟩
  · rintro ⟨q, f, hq, hf, h⟩; exact ⟨q, hq, f, hf, h⟩

theorem grossPower_eq_ok : U.grossCoolingPower c = .ok v ↔
    ∃ q f, U.coolPow (c.getD U.aFull) = .ok q ∧ U.coolPowCharge (c.getD U.aFull) = .ok f ∧ 0 ≤ q * f ∧ v = q * f := by
  simp only [grossCoolingPower, bind_eq_ok, limitCheck_min_eq_ok]
  constructor
  · rintro ⟨q, hq, f, hf, h⟩; exact ⟨q, f, hq, hf, h⟩
  · rintro ⟨q, f, hq, hf, h⟩; exact ⟨q, hq, f, hf, h⟩

theorem grossSensible_eq_ok : U.grossSensibleCoolingCapacity c = .ok v ↔ U.sensible (c.getD U.aFull) = .ok v ∧ 0 ≤ v := by
  simp only [grossSensibleCoolingCapacity, bind_eq_ok, limitCheck_min_eq_ok]
  constructor
  · rintro ⟨q, hq, h, rfl⟩; exact ⟨hq, h⟩
  · rintro ⟨hq, h⟩; exact ⟨v, hq, h, rfl⟩

theorem quotient_eq_ok {x y : Py K} : (do pdiv (← x) (← y)) = .ok v ↔ ∃ a b, x = .ok a ∧ y = .ok b ∧ b ≠ 0 ∧ v = a / b := by
  simp only [bind_eq_ok, pdiv_eq_ok]
  constructor
  · rintro ⟨a, ha, b, hb, h0, rfl⟩; exact ⟨a, b, ha, hb, h0, rfl⟩
  · rintro ⟨a, b, ha, hb, h0, rfl⟩; exact ⟨a, ha, b, hb, h0, rfl⟩

theorem sum_eq_ok {x y : Py K} : (do return (← x) + (← y)) = .ok v ↔ ∃ a b, x = .ok a ∧ y = .ok b ∧ v = a + b := by
  simp only [bind_eq_ok, pure_eq_ok, Except.ok.injEq]
  constructor
  · rintro ⟨a, ha, b, hb, rfl⟩; exact ⟨a, b, ha, hb, rfl⟩
  · rintro ⟨a, b, ha, hb, rfl⟩; exact ⟨a, ha, b, hb, rfl⟩

theorem diff_eq_ok {x y : Py K} : (do return (← x) - (← y)) = .ok v ↔ ∃ a b, x = .ok a ∧ y = .ok b ∧ v = a - b := by
  simp only [bind_eq_ok, pure_eq_ok, Except.ok.injEq]
  constructor
  · rintro ⟨a, ha, b, hb, rfl⟩; exact ⟨a, b, ha, hb, rfl⟩
  · rintro ⟨a, b, ha, hb, rfl⟩; exact ⟨a, ha, b, hb, rfl⟩

theorem prod_eq_ok {x y : Py K} : (do return (← x) * (← y)) = .ok v ↔ ∃ a b, x = .ok a ∧ y = .ok b ∧ v = a * b := by
  simp only [bind_eq_ok, pure_eq_ok, Except.ok.injEq]
  constructor
  · rintro ⟨a, ha, b, hb, rfl⟩; exact ⟨a, b, ha, hb, rfl⟩
  · rintro ⟨a, b, ha, hb, rfl⟩; exact ⟨a, ha, b, hb, rfl⟩

theorem cop_cooling {T P F : K} (hT : 0 ≤ T) (hP : 0 < P) (hF : 0 ≤ F) : (T - F) / (P + F) ≤ T / P := by
  rw [div_le_div_iff₀ (by linarith) hP]
  nlinarith [mul_nonneg hF hP.le, mul_nonneg hT hF]

theorem cop_cooling_lt {T P F : K} (hT : 0 ≤ T) (hP : 0 < P) (hF : 0 < F) : (T - F) / (P + F) < T / P := by
  rw [div_lt_div_iff₀ (by linarith) hP]
  nlinarith [mul_pos hF hP, mul_nonneg hT hF.le]

theorem cop_heating {Q P F : K} (hP : 0 < P) (hF : 0 ≤ F) :
    (P ≤ Q → 1 ≤ (Q + F) / (P + F) ∧ (Q + F) / (P + F) ≤ Q / P) ∧
      (Q ≤ P → Q / P ≤ (Q + F) / (P + F) ∧ (Q + F) / (P + F) ≤ 1) := by
  have h : 0 < P + F := by linarith
  refine ⟨fun hQ => ⟨?_, ?_⟩, fun hQ => ⟨?_, ?_⟩⟩
  · rw [one_le_div₀ h]; linarith
  · rw [div_le_div_iff₀ h hP]; nlinarith
  · rw [div_le_div_iff₀ hP h]; nlinarith
  · rw [div_le_one₀ h]; linarith

theorem shr_net {S T F : K} (hST : S ≤ T) (hF : 0 ≤ F) (hT : F < T) : (S - F) / (T - F) ≤ S / T := by
  have h1 : 0 < T - F := by linarith
  have h2 : 0 < T := by linarith
  rw [div_le_div_iff₀ h1 h2]; nlinarith

end Resdx.DX.Performance
