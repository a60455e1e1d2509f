import Verif.Lemmas.Tabular
import Mathlib.Algebra.Order.Ring.Rat

/-! # Properties C25 and C26: cells of a performance table -/

set_option linter.unusedSectionVars false
set_option linter.unusedSimpArgs false

namespace Resdx.Props

open Tabular Tabular.Table Spec

variable {K : Type} [Field K] [LinearOrder K] [IsStrictOrderedRing K]

/-- A three-speed example table. -/
def exTable : Table ℚ :=
  { temperatures := [10, 20, 40], nSpeeds := 3
    data := [[some 1, none, some 3], [some 2, some 3, some 4], [some 4, some 5, some 8]] }

theorem exTable_wf : TableWF exTable := ⟨by decide +kernel, by decide +kernel, by decide +kernel⟩

/-! ## C25 -/

/-- C25: storing a value always succeeds on a cell of the table; reading that cell returns the value, every other cell reads as before,
and temperatures, speeds and the interpolator are untouched. -/
theorem C25_set_get (t : Table K) (h : TableWF t) (speed : Int) (x v : K) (hs : IsSpeed t speed) (hx : x ∈ t.temperatures) :
    ∃ t', Table.set speed x v t = (.ok (), t') ∧ t'.get speed x = .ok (some v) ∧
      (∀ speed' x', IsSpeed t speed' → (speed' ≠ speed ∨ x' ≠ x) → t'.get speed' x' = t.get speed' x') ∧
      t'.temperatures = t.temperatures ∧ t'.nSpeeds = t.nSpeeds ∧ t'.interpolator = t.interpolator ∧ TableWF t' := by
  obtain ⟨i, s, hs1, hs2, hi, hrun⟩ := set_writes h v hs hx
  exact ⟨_, hrun, get_upd_self h _ hs1 hs2 hi, fun _ _ h1 h2 => get_upd_other h _ hs1 hi h1 h2, rfl, rfl, rfl, wf_upd h _ _ _⟩

example : TableWF exTable ∧ IsSpeed exTable 2 ∧ (10 : ℚ) ∈ exTable.temperatures ∧
    exTable.get 2 10 = .ok none ∧ (Table.set 2 10 7 exTable).2.get 2 10 = .ok (some 7) :=
  ⟨exTable_wf, by decide +kernel, by decide +kernel, by decide +kernel, by decide +kernel⟩

/-- C25: a temperature without a row raises `ValueError`, in reading and in writing, and nothing changes. -/
theorem C25_missing_temperature (t : Table K) (speed : Int) (x v : K) (hx : x ∉ t.temperatures) :
    Table.set speed x v t = (.error .value, t) ∧ t.get speed x = .error .value := by
  simp [Table.set, Table.get, PyM.bind_run, PyM.get_run, PyM.liftM_run, PyM.monadLift_run, pyIndex_not_mem hx, bind_error]

example : (11 : ℚ) ∉ exTable.temperatures := by decide +kernel

/-- C25: a speed above the last one raises `IndexError`, in reading and in writing, and nothing changes. -/
theorem C25_speed_too_high (t : Table K) (h : TableWF t) (speed : Int) (x v : K) (hx : x ∈ t.temperatures)
    (hs : (t.nSpeeds : Int) < speed) :
    Table.set speed x v t = (.error .index, t) ∧ t.get speed x = .error .index := by
  obtain ⟨i, hi⟩ := List.mem_iff_getElem?.1 hx
  have hs1 : speed - 1 = ((speed - 1).toNat : Int) := by omega
  have hnone : at? t.data i (speed - 1).toNat = none := at?_none h.cols (by omega)
  refine ⟨?_, by rw [get_at h hs1 hi, hnone]⟩
  simp only [Table.set, PyM.bind_run, PyM.get_run, PyM.liftM_run, PyM.monadLift_run, pyIndex_sorted h.sorted hi]
  rw [hs1, store_error _ hnone]

example : TableWF exTable ∧ ((exTable.nSpeeds : Int) < 4) := ⟨exTable_wf, by decide⟩

/-- C25: the speeds `0, -1, …` are not rejected: they address the speeds counted from the top, speed `0` being the highest. -/
theorem C25_speed_wraps (t : Table K) (h : TableWF t) (speed : Int) (x : K) (hx : x ∈ t.temperatures)
    (h1 : 1 - (t.nSpeeds : Int) ≤ speed) (h2 : speed ≤ 0) :
    t.get speed x = t.get (speed + t.nSpeeds) x := by
  obtain ⟨i, hi⟩ := List.mem_iff_getElem?.1 hx
  simp only [Table.get, pyIndex_sorted h.sorted hi, bind_ok, cell]
  have hl : i < t.data.length := by rw [h.rows]; exact (List.getElem?_eq_some_iff.1 hi).1
  rw [pyGetI_nat hl, bind_ok]
  have hr := h.cols _ (List.getElem_mem hl)
  have e1 : pyIdx t.data[i].length (speed - 1) = .ok (speed - 1 + t.nSpeeds).toNat := by
    rw [pyIdx_eq_ok, hr]; omega
  have e2 : pyIdx t.data[i].length (speed + t.nSpeeds - 1) = .ok (speed - 1 + t.nSpeeds).toNat := by
    rw [pyIdx_eq_ok, hr]; omega
  simp only [pyGetI, e1, e2, bind_ok]

example : exTable.get 0 20 = .ok (some 4) ∧ exTable.get 3 20 = .ok (some 4) := by decide +kernel

/-! ## C26 -/

/-- C26: below the highest speed, `set_by_ratio` makes `get_ratio` return the ratio, and changes nothing else. -/
theorem C26_ratio (t : Table K) (h : TableWF t) (speed : Int) (x r q : K) (hs : IsSpeed t speed) (hlow : speed ≠ t.nSpeeds)
    (hx : x ∈ t.temperatures) (hq : t.get t.nSpeeds x = .ok (some q)) (hq0 : q ≠ 0) :
    ∃ t', setByRatio speed x r t = (.ok (), t') ∧ t'.getRatio speed x = .ok r ∧ TableWF t' ∧
      ∀ speed' x', IsSpeed t speed' → (speed' ≠ speed ∨ x' ≠ x) → t'.get speed' x' = t.get speed' x' := by
  obtain ⟨i, s, hs1, hs2, hi, hrun⟩ := setByRatio_writes h r hs hlow hx hq
  refine ⟨_, hrun, ?_, wf_upd h _ _ _, fun _ _ h1 h2 => get_upd_other h _ hs1 hi h1 h2⟩
  have hw := wf_upd h i s (some (q * r))
  have hself := get_upd_self h (some (q * r)) hs1 hs2 hi
  have hmax : ({ t with data := upd t.data i s (some (q * r)) } : Table K).get t.nSpeeds x = .ok (some q) := by
    rw [get_upd_other h _ hs1 hi ⟨by omega, by omega⟩ (.inl (Ne.symm hlow))]; exact hq
  have hm : ((t.nSpeeds : Int) - 1) = ((t.nSpeeds - 1 : Nat) : Int) := by omega
  have c1 := cell_of_get hw hs1 hi hself
  have c2 := cell_of_get hw hm hi hmax
  simp only [getRatio, pyIndex_sorted h.sorted hi, bind_ok, hs1, hm, c1, c2, pyNum, pdiv_ok hq0]
  rw [mul_div_cancel_left₀ _ hq0]

example : TableWF exTable ∧ IsSpeed exTable 1 ∧ (1 : Int) ≠ exTable.nSpeeds ∧ exTable.get exTable.nSpeeds 20 = .ok (some 4) ∧
    (setByRatio 1 20 (3 / 8) exTable).2.getRatio 1 20 = .ok (3 / 8) :=
  ⟨exTable_wf, by decide +kernel, by decide +kernel, by decide +kernel, by decide +kernel⟩

/-- C26: at the highest speed, `set_by_ratio` sets that speed so that the speed below it has the given ratio. -/
theorem C26_ratio_max (t : Table K) (h : TableWF t) (x r q : K) (hn : 2 ≤ t.nSpeeds) (hr : r ≠ 0)
    (hx : x ∈ t.temperatures) (hq : t.get (t.nSpeeds - 1) x = .ok (some q)) (hq0 : q ≠ 0) :
    ∃ t', setByRatio t.nSpeeds x r t = (.ok (), t') ∧ t'.getRatio (t.nSpeeds - 1) x = .ok r ∧ TableWF t' ∧
      ∀ speed' x', IsSpeed t speed' → (speed' ≠ t.nSpeeds ∨ x' ≠ x) → t'.get speed' x' = t.get speed' x' := by
  obtain ⟨i, s, hs1, hs2, hi, hrun⟩ := setByRatio_max_writes h hn hr hx hq
  refine ⟨_, hrun, ?_, wf_upd h _ _ _, fun _ _ h1 h2 => get_upd_other h _ hs1 hi h1 h2⟩
  have hw := wf_upd h i s (some (q / r))
  have hself := get_upd_self h (some (q / r)) hs1 hs2 hi
  have hlow : ({ t with data := upd t.data i s (some (q / r)) } : Table K).get (t.nSpeeds - 1) x = .ok (some q) := by
    rw [get_upd_other h _ hs1 hi ⟨by omega, by omega⟩ (.inl (by omega))]; exact hq
  have hm : ((t.nSpeeds : Int) - 1 - 1) = ((t.nSpeeds - 2 : Nat) : Int) := by omega
  have hm1 : ((t.nSpeeds : Int) - 1) = (s : Int) := hs1
  have c1 := cell_of_get hw hs1 hi hself
  have c2 := cell_of_get hw hm hi hlow
  have hne : q / r ≠ 0 := div_ne_zero hq0 hr
  simp only [getRatio, pyIndex_sorted h.sorted hi, bind_ok, hm, c2, pyNum]
  rw [hm1]
  simp only [c1, bind_ok, pyNum, pdiv_ok hne]
  congr 1; field_simp

example : TableWF exTable ∧ 2 ≤ exTable.nSpeeds ∧ exTable.get (exTable.nSpeeds - 1) 20 = .ok (some 3) ∧
    (setByRatio 3 20 (3 / 5) exTable).2.get 3 20 = .ok (some 5) :=
  ⟨exTable_wf, by decide +kernel, by decide +kernel, by decide +kernel⟩

theorem maintenance_of_cells {t : Table K} (h : TableWF t) {speed : Int} {x y a b : K} (hs : IsSpeed t speed)
    (ha : t.get speed x = .ok (some a)) (hb : t.get speed y = .ok (some b)) (hb0 : b ≠ 0)
    (hx : x ∈ t.temperatures) (hy : y ∈ t.temperatures) : t.getMaintenance speed x y = .ok (a / b) := by
  obtain ⟨s, hs1, -⟩ := isSpeed_nat hs
  obtain ⟨i, hi⟩ := List.mem_iff_getElem?.1 hx
  obtain ⟨j, hj⟩ := List.mem_iff_getElem?.1 hy
  simp only [getMaintenance, pyIndex_sorted h.sorted hi, pyIndex_sorted h.sorted hj, bind_ok, hs1,
    cell_of_get h hs1 hi ha, cell_of_get h hs1 hj hb, pyNum, pdiv_ok hb0]

/-- C26: after `set_by_maintenance` the maintenance of the milder to the more extreme temperature is the given ratio: in cooling the value at the
hotter over the value at the colder temperature, in heating the value at the colder over the value at the hotter one. Nothing else changes. -/
theorem C26_maintenance (t : Table K) (h : TableWF t) (k : Kind) (speed : Int) (x ref m q : K) (hs : IsSpeed t speed)
    (hx : x ∈ t.temperatures) (href : ref ∈ t.temperatures) (hne : x ≠ ref) (hm : m ≠ 0)
    (hq : t.get speed ref = .ok (some q)) (hq0 : q ≠ 0) :
    ∃ t', setByMaintenance k speed x ref m t = (.ok (), t') ∧
      (k = .cooling → t'.getMaintenance speed (max x ref) (min x ref) = .ok m) ∧
      (k = .heating → t'.getMaintenance speed (min x ref) (max x ref) = .ok m) ∧ TableWF t' ∧
      ∀ speed' x', IsSpeed t speed' → (speed' ≠ speed ∨ x' ≠ x) → t'.get speed' x' = t.get speed' x' := by
  obtain ⟨i, s, hs1, hs2, hi, hrun⟩ := setByMaintenance_writes h k hs hx hm hne hq
  generalize hv : (if (k = .cooling ∧ ref < x) ∨ (k = .heating ∧ x < ref) then q * m else q / m) = v at hrun
  have hw := wf_upd h i s (some v)
  have hself := get_upd_self h (some v) hs1 hs2 hi
  have hr : ({ t with data := upd t.data i s (some v) } : Table K).get speed ref = .ok (some q) := by
    rw [get_upd_other h _ hs1 hi hs (.inr hne.symm)]; exact hq
  have hv0 : v ≠ 0 := by
    rw [← hv]; split
    · exact mul_ne_zero hq0 hm
    · exact div_ne_zero hq0 hm
  have m1 := maintenance_of_cells hw hs hself hr hq0 hx href
  have m2 := maintenance_of_cells hw hs hr hself hv0 href hx
  refine ⟨_, hrun, ?_, ?_, hw, fun _ _ h1 h2 => get_upd_other h _ hs1 hi h1 h2⟩
  · rintro rfl
    rcases lt_or_gt_of_ne hne with hlt | hlt
    · rw [max_eq_right hlt.le, min_eq_left hlt.le, m2, ← hv]
      simp [not_lt_of_gt hlt]
      field_simp
    · rw [max_eq_left hlt.le, min_eq_right hlt.le, m1, ← hv]
      simp [hlt]
      field_simp
  · rintro rfl
    rcases lt_or_gt_of_ne hne with hlt | hlt
    · rw [max_eq_right hlt.le, min_eq_left hlt.le, m1, ← hv]
      simp [hlt]
      field_simp
    · rw [max_eq_left hlt.le, min_eq_right hlt.le, m2, ← hv]
      simp [not_lt_of_gt hlt]
      field_simp

example : exTable.get 1 20 = .ok (some 2) ∧
    (setByMaintenance .cooling 1 40 20 (3 / 4) exTable).2.get 1 40 = .ok (some (3 / 2)) ∧
    (setByMaintenance .heating 1 40 20 (3 / 4) exTable).2.get 1 40 = .ok (some (8 / 3)) := by decide +kernel

/-- C26: `set_by_interpolation` gives the cell the relative position, between the two neighbouring speeds, that the next higher temperature has. -/
theorem C26_interpolation (t : Table K) (h : TableWF t) (speed : Int) (x y a0 a2 b0 b1 b2 : K)
    (hs0 : IsSpeed t (speed - 1)) (hs2 : IsSpeed t (speed + 1)) (hxy : Neighbours t.temperatures x y)
    (ha0 : t.get (speed - 1) x = .ok (some a0)) (ha2 : t.get (speed + 1) x = .ok (some a2))
    (hb0 : t.get (speed - 1) y = .ok (some b0)) (hb1 : t.get speed y = .ok (some b1))
    (hb2 : t.get (speed + 1) y = .ok (some b2)) (hb : b2 ≠ b0) :
    ∃ t' a1, setByInterpolation speed x t = (.ok (), t') ∧ t'.get speed x = .ok (some a1) ∧
      (a1 - a0) * (b2 - b0) = (b1 - b0) * (a2 - a0) ∧ TableWF t' ∧
      ∀ speed' x', IsSpeed t speed' → (speed' ≠ speed ∨ x' ≠ x) → t'.get speed' x' = t.get speed' x' := by
  obtain ⟨i, s, hs1, hsn, hi, hrun⟩ := setByInterpolation_writes h
    (⟨by have := hs0.1; omega, by have := hs2.2; omega⟩ : IsSpeed t speed) hs0 hxy ha0 ha2 hb0 hb1 hb2 hb
  refine ⟨_, _, hrun, get_upd_self h _ hs1 hsn hi, ?_, wf_upd h _ _ _, fun _ _ h1 h2 => get_upd_other h _ hs1 hi h1 h2⟩
  have : b2 - b0 ≠ 0 := sub_ne_zero.2 hb
  field_simp; ring

example : Neighbours exTable.temperatures 10 20 ∧ exTable.get 2 10 = .ok none ∧
    (setByInterpolation 2 10 exTable).2.get 2 10 = .ok (some 2) :=
  ⟨by refine ⟨by decide +kernel, by decide +kernel, by norm_num, by decide +kernel⟩, by decide +kernel, by decide +kernel⟩

/-- C26: an interpolated cell lies between its two neighbours whenever the reference cell does. -/
theorem C26_interpolation_between (t : Table K) (h : TableWF t) (speed : Int) (x y a0 a2 b0 b1 b2 : K)
    (hs0 : IsSpeed t (speed - 1)) (hs2 : IsSpeed t (speed + 1)) (hxy : Neighbours t.temperatures x y)
    (ha0 : t.get (speed - 1) x = .ok (some a0)) (ha2 : t.get (speed + 1) x = .ok (some a2))
    (hb0 : t.get (speed - 1) y = .ok (some b0)) (hb1 : t.get speed y = .ok (some b1))
    (hb2 : t.get (speed + 1) y = .ok (some b2)) (hb : b0 < b2) (h01 : b0 ≤ b1) (h12 : b1 ≤ b2) (ha : a0 ≤ a2) :
    ∃ t' a1, setByInterpolation speed x t = (.ok (), t') ∧ t'.get speed x = .ok (some a1) ∧ a0 ≤ a1 ∧ a1 ≤ a2 := by
  obtain ⟨t', a1, hrun, hget, heq, -⟩ := C26_interpolation t h speed x y a0 a2 b0 b1 b2 hs0 hs2 hxy ha0 ha2 hb0 hb1 hb2 hb.ne'
  refine ⟨t', a1, hrun, hget, ?_, ?_⟩
  · have h1 : 0 ≤ (a1 - a0) * (b2 - b0) := by
      rw [heq]; exact mul_nonneg (by linarith) (by linarith)
    have := nonneg_of_mul_nonneg_left h1 (by linarith)
    linarith
  · have h1 : 0 ≤ (a2 - a1) * (b2 - b0) := by
      have : (a2 - a1) * (b2 - b0) = (b2 - b1) * (a2 - a0) := by linear_combination -heq
      rw [this]; exact mul_nonneg (by linarith) (by linarith)
    have := nonneg_of_mul_nonneg_left h1 (by linarith)
    linarith

example : exTable.get 1 10 = .ok (some 1) ∧ exTable.get 3 10 = .ok (some 3) ∧ exTable.get 1 20 = .ok (some 2) ∧
    exTable.get 2 20 = .ok (some 3) ∧ exTable.get 3 20 = .ok (some 4) := by decide +kernel

end Resdx.Props
