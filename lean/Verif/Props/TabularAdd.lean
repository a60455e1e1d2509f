import Verif.Lemmas.TabularAdd
import Mathlib.Algebra.Order.Ring.Rat

/-! # Properties C27–C29: adding a temperature to a performance table -/

set_option linter.unusedSectionVars false
set_option linter.unusedSimpArgs false

namespace Resdx.Props

open Tabular Tabular.Table Spec

variable {K : Type} [Field K] [LinearOrder K] [IsStrictOrderedRing K]

/-- A complete two-speed example table. -/
def exFull : Table ℚ :=
  { temperatures := [10, 20, 40, 50], nSpeeds := 2, data := [[some 1, some 3], [some 2, some 4], [some 4, some 8], [some 4, some 9]] }

theorem exFull_wf : TableWF exFull := ⟨by decide +kernel, by decide +kernel, by decide +kernel⟩

/-! ## C27 -/

/-- C27: a temperature already present is rejected with `RuntimeError` and the table is unchanged. -/
theorem C27_duplicate_rejected (t : Table K) (x : K) (e : Bool) (limit : Option K) (hx : x ∈ t.temperatures) :
    addTemperature x e limit t = (.error .runtime, t) := addTemperature_present hx e limit

example : (20 : ℚ) ∈ exFull.temperatures := by decide +kernel

/-- C27: adding a new temperature keeps the table well formed, adds exactly that temperature and leaves every existing cell unchanged;
this holds whether the call returns or raises. -/
theorem C27_add_temperature_wf (t : Table K) (h : TableWF t) (x : K) (e : Bool) (limit : Option K) (hx : x ∉ t.temperatures) :
    TableWF (addTemperature x e limit t).2 ∧
    (∀ y, y ∈ (addTemperature x e limit t).2.temperatures ↔ y = x ∨ y ∈ t.temperatures) ∧
    (addTemperature x e limit t).2.nSpeeds = t.nSpeeds ∧
    (addTemperature x e limit t).2.interpolator = t.interpolator ∧
    ∀ speed y, IsSpeed t speed → y ∈ t.temperatures → (addTemperature x e limit t).2.get speed y = t.get speed y := by
  rw [addTemperature_new h hx]
  have hs := fillNew_sameBut x e limit (insPos t.temperatures x) (inserted t x)
  generalize (fillNew x e limit (insPos t.temperatures x) (inserted t x)).2 = t' at hs
  have hw := hs.wf (inserted_wf h hx)
  refine ⟨hw, ?_, hs.2.1, hs.2.2.1, ?_⟩
  · intro y
    rw [hs.1]
    exact mem_pyInsert _ _ _ _
  · intro speed y hsp hy
    obtain ⟨s, hs1, -⟩ := isSpeed_nat hsp
    obtain ⟨i, hi⟩ := List.mem_iff_getElem?.1 hy
    obtain ⟨j, hj, hj1, hj2⟩ := inserted_at h hx hi
    rw [get_at h hs1 hi, get_at hw hs1 (by rw [hs.1]; exact hj1), hs.2.2.2.2.2 j s hj, hj2 s]

example : TableWF exFull ∧ (5 : ℚ) ∉ exFull.temperatures ∧
    (addTemperature 5 true none exFull).2.temperatures = [5, 10, 20, 40, 50] := ⟨exFull_wf, by decide +kernel, by decide +kernel⟩

/-- C27: no sequence of public operations, returning or raising, breaks the shape of a table. -/
theorem C27_histories_wf (ops : List (TableOp K)) (t : Table K) (h : TableWF t) :
    TableWF (runAll ops t) ∧ (runAll ops t).nSpeeds = t.nSpeeds ∧
      ∀ y ∈ t.temperatures, y ∈ (runAll ops t).temperatures := by
  have hstore : ∀ (t : Table K) (i s : Int) (v : Option K), TableWF t → TableWF (store i s v t).2 ∧
      (store i s v t).2.nSpeeds = t.nSpeeds ∧ ∀ y ∈ t.temperatures, y ∈ (store i s v t).2.temperatures := by
    intro t i s v h
    refine ⟨wf_store h i s v, ?_⟩
    rcases store_cases t i s v with ⟨e, h1⟩ | ⟨i', k, h1⟩ <;> rw [h1] <;> exact ⟨rfl, fun _ h => h⟩
  have hcorr : ∀ (p : List K) (l : List (Nat × Nat)) (t : Table K), TableWF t → TableWF (correctCells p l t).2 ∧
      (correctCells p l t).2.nSpeeds = t.nSpeeds ∧ ∀ y ∈ t.temperatures, y ∈ (correctCells p l t).2.temperatures := by
    intro p l
    induction l with
    | nil => intro t h; exact ⟨h, rfl, fun _ h => h⟩
    | cons a l ih =>
      obtain ⟨ti, si⟩ := a
      intro t h
      have hc : TableWF (correctCell p ti si t).2 ∧ (correctCell p ti si t).2.nSpeeds = t.nSpeeds ∧
          ∀ y ∈ t.temperatures, y ∈ (correctCell p ti si t).2.temperatures := by
        simp only [correctCell, PyM.bind_run, PyM.get_run, PyM.liftM_run, PyM.monadLift_run]
        cases cell t.data ti si with
        | error e => exact ⟨h, rfl, fun _ h => h⟩
        | ok c =>
          simp only []
          cases pyNum c with
          | error e => exact ⟨h, rfl, fun _ h => h⟩
          | ok v =>
            simp only []
            cases pyGetI p si with
            | error e => exact ⟨h, rfl, fun _ h => h⟩
            | ok q =>
              simp only []
              have h3 := hstore t ti si (some (v - q)) h
              generalize store (ti : Int) (si : Int) (some (v - q)) t = r at h3
              obtain ⟨r1, t1⟩ := r
              cases r1 with
              | error e => exact h3
              | ok u =>
                simp only []
                split
                · exact h3
                · exact h3
      simp only [correctCells, PyM.bind_run]
      generalize correctCell p ti si t = r at hc
      obtain ⟨r1, t1⟩ := r
      cases r1 with
      | error e => exact hc
      | ok u =>
        have := ih t1 hc.1
        exact ⟨this.1, this.2.1.trans hc.2.1, fun y hy => this.2.2 y (hc.2.2 y hy)⟩
  have hint : ∀ (t : Table K), TableWF t → TableWF (setInterpolator t).2 ∧
      (setInterpolator t).2.nSpeeds = t.nSpeeds ∧ ∀ y ∈ t.temperatures, y ∈ (setInterpolator t).2.temperatures := by
    intro t h
    simp only [setInterpolator, PyM.bind_run, PyM.get_run, PyM.liftM_run, PyM.monadLift_run, PyM.modify_run]
    cases Interp.make t.temperatures t.nSpeeds t.data with
    | error e => exact ⟨h, rfl, fun _ h => h⟩
    | ok f => exact ⟨⟨h.sorted, h.rows, h.cols⟩, rfl, fun _ h => h⟩
  have hop : ∀ (op : TableOp K) (t : Table K), TableWF t → TableWF (op.run t).2 ∧ (op.run t).2.nSpeeds = t.nSpeeds ∧
      ∀ y ∈ t.temperatures, y ∈ (op.run t).2.temperatures := by
    intro op t h
    cases op with
    | set s x v =>
      simp only [TableOp.run, Table.set, PyM.bind_run, PyM.get_run, PyM.liftM_run, PyM.monadLift_run]
      cases pyIndex t.temperatures x with
      | error e => exact ⟨h, rfl, fun _ h => h⟩
      | ok i => exact hstore _ _ _ _ h
    | ratio s x r =>
      simp only [TableOp.run, setByRatio, PyM.bind_run, PyM.get_run, PyM.liftM_run, PyM.monadLift_run]
      cases pyIndex t.temperatures x with
      | error e => exact ⟨h, rfl, fun _ h => h⟩
      | ok i =>
        simp only []
        split
        · simp only [PyM.bind_run, PyM.liftM_run, PyM.monadLift_run]
          cases cell t.data (i : Int) (s - 1 - 1) with
          | error e => exact ⟨h, rfl, fun _ h => h⟩
          | ok c =>
            simp only []
            cases pyNum c with
            | error e => exact ⟨h, rfl, fun _ h => h⟩
            | ok q =>
              simp only []
              cases pdiv q r with
              | error e => exact ⟨h, rfl, fun _ h => h⟩
              | ok v => exact hstore _ _ _ _ h
        · simp only [PyM.bind_run, PyM.liftM_run, PyM.monadLift_run]
          cases cell t.data (i : Int) ((t.nSpeeds : Int) - 1) with
          | error e => exact ⟨h, rfl, fun _ h => h⟩
          | ok c =>
            simp only []
            cases pyNum c with
            | error e => exact ⟨h, rfl, fun _ h => h⟩
            | ok q => exact hstore _ _ _ _ h
    | interpolation s x =>
      simp only [TableOp.run, setByInterpolation, PyM.bind_run, PyM.get_run, PyM.liftM_run, PyM.monadLift_run]
      cases pyIndex t.temperatures x with
      | error e => exact ⟨h, rfl, fun _ h => h⟩
      | ok i =>
        simp only []
        cases interpolationValue t.data (i : Int) ((i : Int) + 1) (s - 1 - 1) (s - 1) (s - 1 + 1) with
        | error e => exact ⟨h, rfl, fun _ h => h⟩
        | ok v => exact hstore _ _ _ _ h
    | maintenance k s x r m =>
      simp only [TableOp.run, setByMaintenance, PyM.bind_run, PyM.get_run, PyM.liftM_run, PyM.monadLift_run]
      cases pyIndex t.temperatures x with
      | error e => exact ⟨h, rfl, fun _ h => h⟩
      | ok i =>
        simp only []
        cases pyIndex t.temperatures r with
        | error e => exact ⟨h, rfl, fun _ h => h⟩
        | ok j =>
          simp only []
          cases cell t.data (j : Int) (s - 1) with
          | error e => exact ⟨h, rfl, fun _ h => h⟩
          | ok c =>
            simp only []
            cases pyNum c with
            | error e => exact ⟨h, rfl, fun _ h => h⟩
            | ok q =>
              simp only []
              split
              · exact hstore _ _ _ _ h
              · simp only [PyM.bind_run, PyM.liftM_run, PyM.monadLift_run]
                cases pdiv q m with
                | error e => exact ⟨h, rfl, fun _ h => h⟩
                | ok v => exact hstore _ _ _ _ h
    | add x e limit =>
      by_cases hx : x ∈ t.temperatures
      · simp only [TableOp.run, addTemperature_present hx]; exact ⟨h, trivial, fun _ h => h⟩
      · obtain ⟨h1, h2, h3, -⟩ := C27_add_temperature_wf t h x e limit hx
        exact ⟨h1, h3, fun y hy => (h2 y).2 (.inr hy)⟩
    | interpolator => exact hint t h
    | correction p =>
      simp only [TableOp.run, applyFanPowerCorrection, PyM.bind_run, PyM.get_run]
      split
      · simp only [PyM.bind_run]
        have hc := hcorr p (positions t.data) t h
        generalize correctCells p (positions t.data) t = r at hc
        obtain ⟨r1, t1⟩ := r
        cases r1 with
        | error e => exact hc
        | ok u =>
          have := hint t1 hc.1
          exact ⟨this.1, this.2.1.trans hc.2.1, fun y hy => this.2.2 y (hc.2.2 y hy)⟩
      · exact ⟨h, rfl, fun _ h => h⟩
  induction ops generalizing t with
  | nil => exact ⟨h, rfl, fun _ h => h⟩
  | cons op ops ih =>
    obtain ⟨h1, h2, h3⟩ := hop op t h
    obtain ⟨h4, h5, h6⟩ := ih _ h1
    exact ⟨h4, h5.trans h2, fun y hy => h6 y (h3 y hy)⟩

example : runAll [.add 60 true none, .set 7 20 1, .add 20 true none, .set 1 60 2] exFull =
    { exFull with temperatures := [10, 20, 40, 50, 60]
                  data := exFull.data ++ [[some 2, some 10]] } := by decide +kernel

/-! ## C28 -/

/-- C28: a temperature added below the range gets, at every speed, the value on the line through the two lowest rows, limited from below by the
requested multiple of the lowest row. -/
theorem C28_below (t : Table K) (h : TableWF t) (x t1 t2 : K) (rest : List K) (ht : t.temperatures = t1 :: t2 :: rest)
    (hx : x < t1) (a b : Int → K) (ha : ∀ s, IsSpeed t s → t.get s t1 = .ok (some (a s)))
    (hb : ∀ s, IsSpeed t s → t.get s t2 = .ok (some (b s))) (limit : Option K) :
    ∃ t', addTemperature x true limit t = (.ok (), t') ∧ TableWF t' ∧ ∀ s, IsSpeed t s → ∃ line,
      OnLine t1 (a s) t2 (b s) x line ∧ t'.get s x = .ok (some (limitedBelow limit (a s) line)) := by
  have h12 : t1 < t2 := by have := h.sorted; rw [ht] at this; simp at this; exact this.1.1
  have hne : t2 - t1 ≠ 0 := sub_ne_zero.2 h12.ne'
  obtain ⟨t', hrun, hw, hget⟩ := addTemperature_below h ht hx true limit
    (fun s => some (limitedBelow limit (a s) (a s - (b s - a s) / (t2 - t1) * (t1 - x)))) (by
      intro s hs
      obtain ⟨c1, c2⟩ := below_cells h ht hx hs
      rw [ha _ ⟨by omega, by omega⟩] at c1
      rw [hb _ ⟨by omega, by omega⟩] at c2
      cases limit <;>
        simp only [belowValue, if_true, c1, c2, bind_ok, osub, pyNum, pure_eq_ok, pdiv_ok hne, limitedBelow])
  refine ⟨t', hrun, hw, fun s hs => ⟨_, ?_, hget s hs⟩⟩
  simp only [OnLine]; field_simp; ring

example : exFull.temperatures = 10 :: 20 :: [40, 50] ∧
    (addTemperature 0 true none exFull).2.get 1 0 = .ok (some 0) ∧
    (addTemperature 0 true (some (1 / 2)) exFull).2.get 1 0 = .ok (some (1 / 2)) := by decide +kernel

/-- C28: a temperature added above the range gets, at every speed, the value on the line through the two highest rows, limited from above by the
requested multiple of the highest row. -/
theorem C28_above (t : Table K) (h : TableWF t) (x t1 t2 : K) (rest : List K) (ht : t.temperatures = rest ++ [t2, t1])
    (hx : t1 < x) (a b : Int → K) (ha : ∀ s, IsSpeed t s → t.get s t1 = .ok (some (a s)))
    (hb : ∀ s, IsSpeed t s → t.get s t2 = .ok (some (b s))) (limit : Option K) :
    ∃ t', addTemperature x true limit t = (.ok (), t') ∧ TableWF t' ∧ ∀ s, IsSpeed t s → ∃ line,
      OnLine t2 (b s) t1 (a s) x line ∧ t'.get s x = .ok (some (limitedAbove limit (a s) line)) := by
  have h12 : t2 < t1 := by
    have := h.sorted; rw [ht, List.pairwise_append] at this; simpa using this.2.1
  have hne : t1 - t2 ≠ 0 := sub_ne_zero.2 h12.ne'
  obtain ⟨t', hrun, hw, hget⟩ := addTemperature_above h ht hx true limit
    (fun s => some (limitedAbove limit (a s) (a s + (a s - b s) / (t1 - t2) * (x - t1)))) (by
      intro s hs
      obtain ⟨c1, c2⟩ := above_cells h ht hx hs
      rw [ha _ ⟨by omega, by omega⟩] at c1
      rw [hb _ ⟨by omega, by omega⟩] at c2
      cases limit <;>
        simp only [aboveValue, if_true, c1, c2, bind_ok, osub, pyNum, pure_eq_ok, pdiv_ok hne, limitedAbove])
  refine ⟨t', hrun, hw, fun s hs => ⟨_, ?_, hget s hs⟩⟩
  simp only [OnLine]; field_simp; ring

example : exFull.temperatures = [10, 20] ++ [40, 50] ∧
    (addTemperature 60 true none exFull).2.get 2 60 = .ok (some 10) ∧
    (addTemperature 60 true (some (1 / 2)) exFull).2.get 2 60 = .ok (some (9 / 2)) := by decide +kernel

/-- C28: without extrapolation the new row below the range is a copy of the lowest row (also of empty cells). -/
theorem C28_below_copy (t : Table K) (h : TableWF t) (x t1 t2 : K) (rest : List K) (ht : t.temperatures = t1 :: t2 :: rest)
    (hx : x < t1) (limit : Option K) :
    ∃ t', addTemperature x false limit t = (.ok (), t') ∧ TableWF t' ∧ ∀ s, IsSpeed t s → t'.get s x = t.get s t1 := by
  have e1 : t.temperatures[0]? = some t1 := by rw [ht]; rfl
  obtain ⟨t', hrun, hw, hget⟩ := addTemperature_below h ht hx false limit
    (fun s => ((at? t.data 0 (s - 1).toNat).getD none)) (by
      intro s hs
      obtain ⟨c1, -⟩ := below_cells h ht hx hs
      obtain ⟨c, hc⟩ := at_of_wf h e1 hs
      simp only [belowValue, if_false, Bool.false_eq_true, c1]
      have e : ((s : Int) + 1 - 1).toNat = s := by omega
      rw [get_at h (s := s) (by omega) e1, e, hc]; rfl)
  refine ⟨t', hrun, hw, fun s hs => ?_⟩
  obtain ⟨k, hk, hkn⟩ := isSpeed_nat hs
  obtain ⟨c, hc⟩ := at_of_wf h e1 hkn
  have e : (s - 1).toNat = k := by omega
  rw [hget s hs, get_at h hk e1, e, hc]; rfl

/-- C28: without extrapolation the new row above the range is a copy of the highest row (also of empty cells). -/
theorem C28_above_copy (t : Table K) (h : TableWF t) (x t1 t2 : K) (rest : List K) (ht : t.temperatures = rest ++ [t2, t1])
    (hx : t1 < x) (limit : Option K) :
    ∃ t', addTemperature x false limit t = (.ok (), t') ∧ TableWF t' ∧ ∀ s, IsSpeed t s → t'.get s x = t.get s t1 := by
  have e1 : t.temperatures[rest.length + 1]? = some t1 := by rw [ht]; simp
  obtain ⟨t', hrun, hw, hget⟩ := addTemperature_above h ht hx false limit
    (fun s => ((at? t.data (rest.length + 1) (s - 1).toNat).getD none)) (by
      intro s hs
      obtain ⟨c1, -⟩ := above_cells h ht hx hs
      obtain ⟨c, hc⟩ := at_of_wf h e1 hs
      simp only [aboveValue, if_false, Bool.false_eq_true, c1]
      have e : ((s : Int) + 1 - 1).toNat = s := by omega
      rw [get_at h (s := s) (by omega) e1, e, hc]; rfl)
  refine ⟨t', hrun, hw, fun s hs => ?_⟩
  obtain ⟨k, hk, hkn⟩ := isSpeed_nat hs
  obtain ⟨c, hc⟩ := at_of_wf h e1 hkn
  have e : (s - 1).toNat = k := by omega
  rw [hget s hs, get_at h hk e1, e, hc]; rfl

example : (addTemperature 0 false none exFull).2.get 2 0 = .ok (some 3) ∧
    (addTemperature 60 false none exFull).2.get 2 60 = .ok (some 9) := by decide +kernel

/-- C28: a table with a single row cannot be extended: below the range the call raises `IndexError` (even without extrapolation), above the
range it raises `TypeError` when extrapolating. -/
theorem C28_single_row (t : Table K) (h : TableWF t) (x t1 : K) (ht : t.temperatures = [t1]) (hn : 0 < t.nSpeeds) (e : Bool)
    (limit : Option K) :
    (x < t1 → (addTemperature x e limit t).1 = .error .index) ∧
    (t1 < x → (addTemperature x true limit t).1 = .error .type) := by
  constructor
  · intro hx
    have hall : ∀ y ∈ t.temperatures, x < y := by rw [ht]; simpa using hx
    have hnot : x ∉ t.temperatures := fun hc => lt_irrefl _ (hall x hc)
    have hpos := insPos_below h.sorted hall
    have htemps : (inserted t x).temperatures = [x, t1] := by
      simp only [inserted, insort]
      rw [show bisectRight t.temperatures x t.temperatures.length 0 t.temperatures.length = 0 from hpos, ht]; rfl
    rw [addTemperature_new h hnot, hpos]
    have g1 : pyGetI [x, t1] 1 = .ok t1 := pyGetI_nat_eq [x, t1] 1
    have g2 : pyGetI [x, t1] 2 = .error .index := pyGetI_nat_eq [x, t1] 2
    simp only [fillNew, PyM.bind_run, PyM.get_run, if_true, PyM.liftM_run, PyM.monadLift_run, htemps, g1, g2]
  · intro hx
    have hall : ∀ y ∈ t.temperatures, y < x := by rw [ht]; simpa using hx
    have hnot : x ∉ t.temperatures := fun hc => lt_irrefl _ (hall x hc)
    have hpos : insPos t.temperatures x = 1 := by rw [insPos_above h.sorted hall, ht]; rfl
    have htemps : (inserted t x).temperatures = [t1, x] := by
      simp only [inserted, insort]
      rw [show bisectRight t.temperatures x t.temperatures.length 0 t.temperatures.length = 1 from hpos, ht]; rfl
    have hd : t.data.length = 1 := by rw [h.rows, ht]; rfl
    obtain ⟨row, hrow⟩ : ∃ row, t.data = [row] := List.length_eq_one_iff.1 hd
    have hdata : (inserted t x).data = [row, List.replicate t.nSpeeds none] := by
      simp only [inserted, hpos, hrow]; rfl
    obtain ⟨m, hm⟩ : ∃ m, t.nSpeeds = m + 1 := ⟨t.nSpeeds - 1, by omega⟩
    rw [addTemperature_new h hnot, hpos]
    have n0 : ¬ ((1 : Nat) = 0) := by omega
    have n1 : 1 = (inserted t x).temperatures.length - 1 := by rw [htemps]; rfl
    have g1 : pyGetI (inserted t x).temperatures (((1 : Nat) : Int) - 1) = .ok t1 := by rw [htemps]; rfl
    have g2 : pyGetI (inserted t x).temperatures (((1 : Nat) : Int) - 2) = .ok x := by rw [htemps]; rfl
    have hl := h.cols row (by rw [hrow]; simp)
    obtain ⟨c, row', hc⟩ : ∃ c row', row = c :: row' := by
      cases row with
      | nil => rw [hm] at hl; simp at hl
      | cons c row' => exact ⟨c, row', rfl⟩
    have c1 : cell (inserted t x).data (((1 : Nat) : Int) - 1) ((0 : Nat) : Int) = .ok c := by
      have e0 : ((1 : Nat) : Int) - 1 = ((0 : Nat) : Int) := rfl
      rw [e0, cell_nat, hdata, hc]; rfl
    have c2 : cell (inserted t x).data (((1 : Nat) : Int) - 2) ((0 : Nat) : Int) = .ok none := by
      have r : pyGetI [row, List.replicate (m + 1) (none : Option K)] (((1 : Nat) : Int) - 2) =
        .ok (List.replicate (m + 1) none) := rfl
      rw [hdata, hm, cell, r, bind_ok, pyGetI_nat_eq]; simp
    have hval : aboveValue x t1 x 1 true limit (inserted t x).data ((0 : Nat) : Int) = .error .type := by
      cases c <;> simp only [aboveValue, if_true, c1, c2, bind_ok, osub, pyNum, bind_error]
    have hn : (inserted t x).nSpeeds = m + 1 := hm
    simp only [fillNew, PyM.bind_run, PyM.get_run, if_neg n0, if_pos n1, PyM.liftM_run, PyM.monadLift_run, g1, g2, hn,
      List.range_succ_eq_map, fillRow, fillCell, hval]

example : TableWF ({ temperatures := [1], nSpeeds := 1, data := [[some 2]] } : Table ℚ) :=
  ⟨by decide +kernel, by decide +kernel, by decide +kernel⟩

/-! ## C29 -/

/-- C29 as stated is false: between the rows 10 (value 1) and 20 (value 2) the temperature 15 gets 2 instead of 3/2. -/
theorem C29_interior_refuted : ∃ (t : Table ℚ) (x y : ℚ), TableWF t ∧ TableFull t ∧ Neighbours t.temperatures 10 20 ∧
    10 < x ∧ x < 20 ∧ t.get 1 10 = .ok (some 1) ∧ t.get 1 20 = .ok (some 2) ∧
    (addTemperature x true none t).1 = .ok () ∧ (addTemperature x true none t).2.get 1 x = .ok (some y) ∧
    ¬ OnLine 10 1 20 2 x y := by
  refine ⟨exFull, 15, 2, exFull_wf, ?_, ⟨by decide +kernel, by decide +kernel, by norm_num, by decide +kernel⟩, by norm_num, by norm_num,
    by decide +kernel, by decide +kernel, by decide +kernel, by decide +kernel, by norm_num [OnLine]⟩
  intro s x hs hx
  have h1 : s = 1 ∨ s = 2 := by
    obtain ⟨h1, h2⟩ := hs
    have : (exFull.nSpeeds : Int) = 2 := rfl
    omega
  simp only [exFull, List.mem_cons, List.not_mem_nil, or_false] at hx
  rcases h1 with rfl | rfl <;> rcases hx with rfl | rfl | rfl | rfl <;> exact ⟨_, rfl⟩

/-- C29: between the two lowest rows the new row is a copy of the upper one (the line is never followed). -/
theorem C29_first_gap_partial (t : Table K) (h : TableWF t) (x a b : K) (ha : t.temperatures[0]? = some a)
    (hb : t.temperatures[1]? = some b) (hax : a < x) (hxb : x < b) (e : Bool) (limit : Option K)
    (hfull : TableFull t) :
    ∃ t', addTemperature x e limit t = (.ok (), t') ∧ TableWF t' ∧ ∀ s, IsSpeed t s → t'.get s x = t.get s b := by
  choose lo hlo using fun s (hs : IsSpeed t s) => hfull s a hs (List.mem_of_getElem? ha)
  choose hi hhi using fun s (hs : IsSpeed t s) => hfull s b hs (List.mem_of_getElem? hb)
  obtain ⟨-, -, -, h2, -⟩ := inserted_inside h ha hb hax hxb
  obtain ⟨t', hrun, hw, hget⟩ := addTemperature_inside h ha hb hax hxb h2 hax.ne' e limit
    (fun s => if hs : IsSpeed t s then lo s hs else 0) (fun s => if hs : IsSpeed t s then hi s hs else 0)
    (fun s hs => by simp only [hs, dite_true]; exact hlo s hs) (fun s hs => by simp only [hs, dite_true]; exact hhi s hs)
  refine ⟨t', hrun, hw, fun s hs => ?_⟩
  have hne : x - a ≠ 0 := sub_ne_zero.2 hax.ne'
  rw [hget s hs, hhi s hs]
  simp only [hs, dite_true]
  congr 2; field_simp; ring

example : TableWF exFull ∧ exFull.temperatures[0]? = some 10 ∧ exFull.temperatures[1]? = some 20 ∧
    (addTemperature 15 true none exFull).2.get 2 15 = .ok (some 4) := ⟨exFull_wf, by decide +kernel, by decide +kernel, by decide +kernel⟩

/-- C29: between the second and third row the call raises `ZeroDivisionError` and leaves an empty row behind. -/
theorem C29_second_gap_partial (t : Table K) (h : TableWF t) (x a b : K) (ha : t.temperatures[1]? = some a)
    (hb : t.temperatures[2]? = some b) (hax : a < x) (hxb : x < b) (e : Bool) (limit : Option K)
    (hfull : TableFull t) (hn : 0 < t.nSpeeds) :
    (addTemperature x e limit t).1 = .error .zeroDivision ∧
    ∀ s, IsSpeed t s → (addTemperature x e limit t).2.get s x = .ok none := by
  obtain ⟨hnot, hpos, h1, h2, -, -, -⟩ := inserted_inside h ha hb hax hxb
  have hc : (inserted t x).temperatures[1]? = some a := by rw [h1 1 (by omega)]; exact ha
  obtain ⟨m, hm⟩ : ∃ m, t.nSpeeds = m + 1 := ⟨t.nSpeeds - 1, by omega⟩
  obtain ⟨c1, c2⟩ := inside_cells h ha hb hax hxb 0
  have hsp : IsSpeed t (((0 : Nat) : Int) + 1) := ⟨by omega, by omega⟩
  obtain ⟨lo, hlo⟩ := hfull _ a hsp (List.mem_of_getElem? ha)
  obtain ⟨hi, hhi⟩ := hfull _ b hsp (List.mem_of_getElem? hb)
  rw [hlo] at c1
  rw [hhi] at c2
  have hval : insideValue x a a (1 + 1) (inserted t x).data ((0 : Nat) : Int) = .error .zeroDivision := by
    simp only [insideValue, c1, c2, bind_ok, osub, pyNum, pure_eq_ok, sub_self, pdiv_zero, bind_error]
  have hrun : addTemperature x e limit t = (.error .zeroDivision, inserted t x) := by
    rw [addTemperature_inside_eq h ha hb hax hxb hc, hm]
    simp only [List.range_succ_eq_map, fillRow, fillCell, PyM.bind_run, PyM.get_run, PyM.liftM_run, PyM.monadLift_run, hval]
  refine ⟨by rw [hrun], fun s hs => ?_⟩
  obtain ⟨k, hk, hkn⟩ := isSpeed_nat hs
  rw [hrun, get_ok_iff (inserted_wf h hnot) hk h2]
  simp only [at?, inserted]
  rw [← hpos, pyInsert_self _ _ (inserted_pos_le h hnot)]
  simp [hkn]

example : (addTemperature 30 true none exFull).1 = .error .zeroDivision := by decide +kernel

/-- C29, exact extent: an added interior temperature ends up on the line between its neighbours at every speed if and only if the gap is not the
second one and the two neighbouring rows are equal. -/
theorem C29_exact_partial (t : Table K) (h : TableWF t) (x a b : K) (i : Nat) (ha : t.temperatures[i]? = some a)
    (hb : t.temperatures[i + 1]? = some b) (hax : a < x) (hxb : x < b) (e : Bool) (limit : Option K)
    (hfull : TableFull t) (hn : 0 < t.nSpeeds) :
    ((addTemperature x e limit t).1 = .ok () ∧ ∀ s, IsSpeed t s → ∃ lo hi y, t.get s a = .ok (some lo) ∧
      t.get s b = .ok (some hi) ∧ (addTemperature x e limit t).2.get s x = .ok (some y) ∧ OnLine a lo b hi x y) ↔
    i ≠ 1 ∧ ∀ s, IsSpeed t s → t.get s a = t.get s b := by
  obtain ⟨hnot, hpos, h1, h2, h3, -, -⟩ := inserted_inside h ha hb hax hxb
  have hil := (List.getElem?_eq_some_iff.1 hb).1
  by_cases hi1 : i = 1
  · subst hi1
    have := (C29_second_gap_partial t h x a b ha hb hax hxb e limit hfull hn).1
    constructor
    · rintro ⟨h1, -⟩; rw [this] at h1; simp at h1
    · rintro ⟨h1, -⟩; exact absurd rfl h1
  · have hlen : 1 < (inserted t x).temperatures.length := by omega
    obtain ⟨c, hc⟩ : ∃ c, (inserted t x).temperatures[1]? = some c := ⟨_, List.getElem?_eq_getElem hlen⟩
    have hwi := inserted_wf h hnot
    have hca : c ≠ a := by
      rintro rfl
      have hai : (inserted t x).temperatures[i]? = some c := by rw [h1 i (by omega)]; exact ha
      exact hi1 (sorted_inj hwi.sorted hai hc)
    have hcb : c < b := by
      by_cases hi0 : i = 0
      · subst hi0; rw [h2] at hc; simp at hc; rw [← hc]; exact hxb
      · have hc' : t.temperatures[1]? = some c := by rw [← h1 1 (by omega)]; exact hc
        exact (sorted_lt_iff h.sorted hc' hb).2 (by omega)
    choose lo hlo using fun s (hs : IsSpeed t s) => hfull s a hs (List.mem_of_getElem? ha)
    choose hi hhi using fun s (hs : IsSpeed t s) => hfull s b hs (List.mem_of_getElem? hb)
    obtain ⟨t', hrun, hw, hget⟩ := addTemperature_inside h ha hb hax hxb hc hca e limit
      (fun s => if hs : IsSpeed t s then lo s hs else 0) (fun s => if hs : IsSpeed t s then hi s hs else 0)
      (fun s hs => by simp only [hs, dite_true]; exact hlo s hs) (fun s hs => by simp only [hs, dite_true]; exact hhi s hs)
    have hne : c - a ≠ 0 := sub_ne_zero.2 hca
    rw [hrun]
    constructor
    · rintro ⟨-, hall⟩
      refine ⟨hi1, fun s hs => ?_⟩
      obtain ⟨l, u, y, e1, e2, e3, e4⟩ := hall s hs
      have e5 := hget s hs
      simp only [hs, dite_true] at e5
      rw [hlo s hs] at e1
      rw [hhi s hs] at e2
      simp at e1 e2
      rw [e3, e1, e2] at e5
      simp only [Except.ok.injEq, Option.some.injEq] at e5
      rw [hlo s hs, hhi s hs, e1, e2]
      simp only [OnLine, e5] at e4
      have e6 : (u - l) * (x - a) * (b - c) = 0 := by
        have e7 : (l + (u - l) / (c - a) * (x - a) - l) * (b - a) * (c - a) = (u - l) * (x - a) * (b - a) := by
          field_simp; ring
        rw [e4] at e7
        linear_combination -e7
      have hxa : x - a ≠ 0 := sub_ne_zero.2 hax.ne'
      have hbc : b - c ≠ 0 := sub_ne_zero.2 hcb.ne'
      have : u - l = 0 := by
        rcases mul_eq_zero.1 e6 with e8 | e8
        · rcases mul_eq_zero.1 e8 with e9 | e9
          · exact e9
          · exact absurd e9 hxa
        · exact absurd e8 hbc
      rw [sub_eq_zero.1 this]
    · rintro ⟨-, heq⟩
      refine ⟨rfl, fun s hs => ?_⟩
      have e1 := heq s hs
      have e5 := hget s hs
      simp only [hs, dite_true] at e5
      rw [hlo s hs, hhi s hs] at e1
      simp only [Except.ok.injEq, Option.some.injEq] at e1
      rw [← e1] at e5
      refine ⟨_, _, _, hlo s hs, hhi s hs, e5, ?_⟩
      rw [← e1]
      simp [OnLine]

example : TableWF ({ temperatures := [1, 2], nSpeeds := 1, data := [[some 5], [some 5]] } : Table ℚ) ∧
    (addTemperature (3 / 2) true none ({ temperatures := [1, 2], nSpeeds := 1, data := [[some 5], [some 5]] } : Table ℚ)).2.get 1 (3 / 2) =
      .ok (some 5) := ⟨⟨by decide +kernel, by decide +kernel, by decide +kernel⟩, by decide +kernel⟩

end Resdx.Props
