import Verif.Lemmas.Transfer

/-! # Transfer of interpolated table values -/

set_option linter.unusedSectionVars false
set_option linter.unusedSimpArgs false

namespace Resdx.Transfer

open Tabular Table

variable {K : Type} [Field K] [LinearOrder K] [IsStrictOrderedRing K] {L : Type} [Field L] [LinearOrder L] [IsStrictOrderedRing L]
variable {φ : K →+* L} (hφ : StrictMono φ)

include hφ in
theorem takeWhile_map_length (x : K) (l : List K) : ((l.map φ).takeWhile (fun y => decide (y ≤ φ x))).length = (l.takeWhile (fun y => decide (y ≤ x))).length := by
  induction l with
  | nil => rfl
  | cons a l ih =>
    by_cases h : a ≤ x
    · have h' : φ a ≤ φ x := hφ.monotone h
      simp [List.takeWhile_cons, h, h', ih]
    · have h' : ¬ φ a ≤ φ x := fun h' => h (hφ.le_iff_le.1 h')
      simp [List.takeWhile_cons, h, h']

include hφ in
theorem interval_map (grid : List K) (x : K) : interval (grid.map φ) (φ x) = interval grid x := by
  unfold interval
  rw [← List.map_drop, ← List.map_dropLast]
  exact takeWhile_map_length hφ x _

theorem getD_map (l : List K) (i : Nat) : (l.map φ).getD i 0 = φ (l.getD i 0) := by
  simp only [List.getD, List.getElem?_map]
  cases l[i]? <;> simp

include hφ in
theorem interp1_map (grid values : List K) (x : K) : interp1 (grid.map φ) (values.map φ) (φ x) = φ (interp1 grid values x) := by
  unfold interp1
  rw [interval_map hφ, List.length_map, getD_map, getD_map, getD_map, getD_map, getD_map]
  split
  · rfl
  · simp [lerp]

theorem speedGrid_map (n : Nat) : (speedGrid n : List L) = (speedGrid n : List K).map φ := by
  simp [speedGrid]

include hφ in
theorem eval_map (f : Interp K) (s x : K) : (iT φ f).eval (φ s) (φ x) = φ (f.eval s x) := by
  unfold Interp.eval iT
  simp only [List.map_map]
  rw [← interp1_map hφ, List.map_map]
  congr 1
  apply List.map_congr_left
  intro row _
  simp only [Function.comp]
  rw [speedGrid_map (φ := φ), interp1_map hφ]

include hφ in
theorem calculate_map (t : Table K) (s x : K) : (tT φ t).calculate (φ s) (φ x) = (t.calculate s x).map φ := by
  unfold Table.calculate tT
  simp only
  cases t.interpolator with
  | none => rfl
  | some f =>
    simp only [Option.map, pyAttr, bind_ok, pure_eq_ok, Except.map]
    rw [eval_map hφ]

end Resdx.Transfer
