import Verif.Props.DerivedReturns

/-! # Margins of the curves, from their values at the test temperatures -/

set_option linter.unusedSectionVars false
set_option linter.unusedSimpArgs false

namespace Resdx.Build

open Spec Tabular BaseModel Props Table

theorem line_cooling (l h x : ℝ) : lineAt (frF 82) l (frF 95) h x = l + (toF x - 82) / 13 * (h - l) := by
  unfold lineAt frF toF; ring

theorem line_heating (l h x : ℝ) : lineAt (frF 17) l (frF 47) h x = l + (toF x - 17) / 30 * (h - l) := by
  unfold lineAt frF toF; ring

theorem line_cold (l h x mn : ℝ) : lineAt mn l (frF 5) h x = l + (h - l) * ((toF x - toF mn) / (5 - toF mn)) := by
  have h1 : (5 : ℝ) - toF mn = (frF 5 - mn) * (9 / 5) := by unfold frF toF; ring
  have h2 : toF x - toF mn = (x - mn) * (9 / 5) := by unfold toF; ring
  rw [h1, h2, mul_div_mul_right _ _ (by norm_num)]
  rfl

theorem toF_frF (x : ℝ) : toF (frF x) = x := by unfold toF frF; ring

theorem toF_lt {x y : ℝ} : toF x < toF y ↔ x < y := by unfold toF; constructor <;> intro h <;> linarith
theorem toF_le {x y : ℝ} : toF x ≤ toF y ↔ x ≤ y := by unfold toF; constructor <;> intro h <;> linarith

/-- A bound below the cooling values at every temperature of the tables. -/
theorem cooling_margin {e : Ends ℝ} {b mx : ℝ} (hmx : frF 95 < mx) (h82 : b < e.low) (h95 : b < e.high) (h60 : b < e.low / 2 ∨ b < e.low - 22 / 13 * (e.high - e.low))
    (hm : b < e.low + (toF mx - 82) / 13 * (e.high - e.low)) : ∀ x ∈ [frF 60, frF 82, frF 95, mx], b < e.cooling x := by
  intro x hx
  simp only [List.mem_cons, List.not_mem_nil, or_false] at hx
  have a1 := f60_82 (K := ℝ)
  have a2 := f82_95 (K := ℝ)
  rcases hx with rfl | rfl | rfl | rfl
  · rw [Ends.cooling, if_neg a1.not_ge, line_cooling, toF_frF]
    have : ∀ y : ℝ, lineAt (frF 60) y (frF 82) e.low (frF 60) = y := fun y => by unfold lineAt; simp
    rw [this]
    rcases h60 with h | h
    · exact lt_of_lt_of_le h (le_max_right _ _)
    · refine lt_of_lt_of_le h (le_trans (le_of_eq ?_) (le_max_left _ _)); ring
  · rw [ends_cooling.1]; exact h82
  · rw [ends_cooling.2]; exact h95
  · rw [Ends.cooling, if_pos (by order), line_cooling]; exact hm

/-- A bound below the heating values at every temperature of the tables. -/
theorem heating_margin {e : Ends ℝ} {b mn : ℝ} (hmn : mn < frF 5) (h17 : b < e.low) (h47 : b < e.high) (hm : b < e.low + (toF mn - 17) / 30 * (e.high - e.low)) :
    ∀ x ∈ [mn, frF 5, frF 17, frF 47, frF 60], b < e.heating x := by
  intro x hx
  simp only [List.mem_cons, List.not_mem_nil, or_false] at hx
  have a1 := f5_17 (K := ℝ)
  have a2 := f17_47 (K := ℝ)
  have hl : toF mn < 5 := by have := toF_lt.2 hmn; rwa [toF_frF] at this
  rcases hx with rfl | rfl | rfl | rfl | rfl
  · rw [Ends.heating, if_pos (by order), line_heating]; exact hm
  · rw [Ends.heating, if_pos (by order), line_heating, toF_frF]
    rcases le_total e.low e.high with h | h
    · nlinarith
    · nlinarith
  · rw [ends_heating.1]; exact h17
  · rw [ends_heating.2.1]; exact h47
  · rw [ends_heating.2.2]; exact h47

/-- A bound below the heating values of a variable-speed unit at every temperature of the tables. -/
theorem cold_margin {v : Cold ℝ} {b mn : ℝ} (hmn : mn < frF 5) (h0 : b < v.lowest) (h5 : b < v.at5) (h17 : b < v.at17) (h47 : b < v.at47) :
    ∀ x ∈ [mn, frF 5, frF 17, frF 47, frF 60], b < v.heating mn x := by
  intro x hx
  simp only [List.mem_cons, List.not_mem_nil, or_false] at hx
  have a1 := f5_17 (K := ℝ)
  have a2 := f17_47 (K := ℝ)
  have a3 := f47_60 (K := ℝ)
  have end0 : ∀ x0 y0 x1 y1 : ℝ, lineAt x0 y0 x1 y1 x0 = y0 := fun _ _ _ _ => by unfold lineAt; simp
  have end1 : ∀ x0 y0 x1 y1 : ℝ, x0 < x1 → lineAt x0 y0 x1 y1 x1 = y1 := fun _ _ _ _ h => by unfold lineAt; rw [div_self (sub_ne_zero.2 h.ne')]; ring
  rcases hx with rfl | rfl | rfl | rfl | rfl
  · rw [Cold.heating, if_pos hmn.le, end0]; exact h0
  · rw [Cold.heating, if_pos le_rfl, end1 _ _ _ _ hmn]; exact h5
  · rw [Cold.heating, if_neg (by order), if_pos le_rfl, end1 _ _ _ _ a1]; exact h17
  · rw [Cold.heating, if_neg (by order), if_neg (by order), if_pos le_rfl, end1 _ _ _ _ a2]; exact h47
  · rw [Cold.heating, if_neg (by order), if_neg (by order), if_neg (by order)]; exact h47

end Resdx.Build
