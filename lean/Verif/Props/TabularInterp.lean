import Verif.Lemmas.TabularInterp
import Verif.Lemmas.TabularAdd
import Mathlib.Algebra.Order.Ring.Rat

/-! # Property C30: looking up a performance table -/

set_option linter.unusedSectionVars false
set_option linter.unusedSimpArgs false

namespace Resdx.Props

open Tabular Tabular.Table Spec

variable {K : Type} [Field K] [LinearOrder K] [IsStrictOrderedRing K]

/-- An example table whose lookup data is up to date. -/
def exLookup : Table ℚ :=
  { temperatures := [10, 20, 40], nSpeeds := 2, data := [[some 1, some 3], [some 2, some 4], [some 4, some 8]]
    interpolator := some ⟨[10, 20, 40], 2, [[1, 3], [2, 4], [4, 8]]⟩ }

theorem exLookup_fresh : Fresh exLookup :=
  ⟨{ temperatures := [10, 20, 40], nSpeeds := 2, data := [[some 1, some 3], [some 2, some 4], [some 4, some 8]] }, by decide +kernel⟩

/-- C30: lookup data can be prepared exactly when no cell is empty (for a well-formed non-empty table), and preparing it changes no cell. -/
theorem C30_set_interpolator (t : Table K) (h : TableWF t) (ht : t.temperatures ≠ []) (hn : t.nSpeeds ≠ 0) :
    ((setInterpolator t).1 = .ok () ↔ TableFull t) ∧
    ∀ s x, (setInterpolator t).2.get s x = t.get s x := by
  constructor
  · rw [setInterpolator_run]
    constructor
    · intro hrun
      cases hm : Interp.make t.temperatures t.nSpeeds t.data with
      | error e => rw [hm] at hrun; simp at hrun
      | ok f =>
        obtain ⟨-, -, -, -, -, h1, h2, h3⟩ := make_eq_ok.1 hm
        intro s x hs hx
        obtain ⟨k, hk, hkn⟩ := isSpeed_nat hs
        obtain ⟨i, hi⟩ := List.mem_iff_getElem?.1 hx
        obtain ⟨c, hc⟩ := at_of_wf h hi hkn
        cases c with
        | some v => exact ⟨v, (get_ok_iff h hk hi).2 hc⟩
        | none =>
          rw [h3] at hc
          obtain ⟨row, hr1, hr2⟩ := at?_some hc
          simp only [List.getElem?_map, Option.map_eq_some_iff] at hr1
          obtain ⟨r, -, rfl⟩ := hr1
          simp at hr2
    · intro hfull
      have : ∃ vs : List (List K), t.data = vs.map (List.map some) := by
        have hrow : ∀ row ∈ t.data, ∃ r : List K, row = r.map some := by
          intro row hrow
          obtain ⟨i, hi⟩ := List.mem_iff_getElem?.1 hrow
          have hil : i < t.temperatures.length := by rw [← h.rows]; exact (List.getElem?_eq_some_iff.1 hi).1
          have hcell : ∀ c ∈ row, ∃ v : K, c = some v := by
            intro c hc
            obtain ⟨s, hs⟩ := List.mem_iff_getElem?.1 hc
            have hsl := (List.getElem?_eq_some_iff.1 hs).1
            rw [h.cols row hrow] at hsl
            obtain ⟨v, hv⟩ := hfull ((s : Int) + 1) _ ⟨by omega, by omega⟩ (List.getElem_mem hil)
            rw [get_ok_iff h (s := s) (by omega) (List.getElem?_eq_getElem hil)] at hv
            simp only [at?, hi, Option.bind_some, hs, Option.some.injEq] at hv
            exact ⟨v, hv⟩
          clear hrow hi
          induction row with
          | nil => exact ⟨[], rfl⟩
          | cons c row ih =>
            obtain ⟨v, rfl⟩ := hcell c (by simp)
            obtain ⟨r, rfl⟩ := ih (fun c hc => hcell c (by simp [hc]))
            exact ⟨v :: r, rfl⟩
        generalize t.data = d at hrow
        induction d with
        | nil => exact ⟨[], rfl⟩
        | cons row d ih =>
          obtain ⟨r, rfl⟩ := hrow row (by simp)
          obtain ⟨vs, rfl⟩ := ih (fun row hr => hrow row (by simp [hr]))
          exact ⟨r :: vs, rfl⟩
      obtain ⟨vs, hvs⟩ := this
      have hm : Interp.make t.temperatures t.nSpeeds t.data = .ok ⟨t.temperatures, t.nSpeeds, vs⟩ :=
        make_eq_ok.2 ⟨h.rows, h.cols, h.sorted, ht, hn, rfl, rfl, hvs⟩
      rw [hm]
  · intro s x
    rw [setInterpolator_run]
    cases Interp.make t.temperatures t.nSpeeds t.data <;> rfl

example : (setInterpolator ({ temperatures := [10, 20], nSpeeds := 1, data := [[some 1], [none]] } : Table ℚ)).1 = .error .notReal := by
  decide +kernel

/-- C30: before lookup data has been prepared every lookup raises `AttributeError`. -/
theorem C30_no_interpolator (temps : List K) (n : Nat) (d : Option (List (List (Option K)))) (σ x : K) :
    (Table.init temps n d).calculate σ x = .error .attribute := by
  simp [Table.init, calculate, pyAttr, bind_error]

/-- C30: looking up a tabulated point returns the stored value. -/
theorem C30_node (t : Table K) (h : Fresh t) (s : Int) (x v : K) (hs : IsSpeed t s) (hv : t.get s x = .ok (some v)) :
    t.calculate (s : K) x = .ok v := by
  obtain ⟨vs, hvs, hlen, hrows, ht, hn, -, hcalc⟩ := fresh_data h
  obtain ⟨k, hk, hkn⟩ := isSpeed_nat hs
  have hx : x ∈ t.temperatures := by
    by_contra hcon
    rw [Table.get, pyIndex_not_mem hcon, bind_error] at hv; simp at hv
  obtain ⟨i, hi⟩ := List.mem_iff_getElem?.1 hx
  obtain ⟨row, h1, h2⟩ := (fresh_cell h hvs hk hi).1 hv
  have hsk : (s : K) = (k : K) + 1 := by
    have : s = (k : Int) + 1 := by omega
    rw [this]; push_cast; rfl
  rw [hcalc]
  congr 1
  refine interp1_node (fresh_wf h).sorted (by simpa using hlen) hi ?_
  rw [List.getElem?_map, h1]
  simp only [Option.map_some, Option.some.injEq]
  rw [hsk]
  exact interp1_node (speedGrid_sorted _) (by rw [speedGrid_length, hrows row (List.mem_of_getElem? h1)]) (speedGrid_get _ _ hkn) h2

example : Fresh exLookup ∧ IsSpeed exLookup 2 ∧ exLookup.get 2 40 = .ok (some 8) ∧ exLookup.calculate 2 40 = .ok 8 :=
  ⟨exLookup_fresh, by decide +kernel, by decide +kernel, by decide +kernel⟩

/-- C30: at any speed, between two neighbouring rows the lookup follows the straight line through the lookups at the two rows; beyond the lowest and
the highest row the outermost line is continued. -/
theorem C30_linear_in_temperature (t : Table K) (h : Fresh t) (σ a b x : K) (hab : Neighbours t.temperatures a b)
    (hlo : a ≤ x ∨ ∀ y ∈ t.temperatures, a ≤ y) (hhi : x ≤ b ∨ ∀ y ∈ t.temperatures, y ≤ b) :
    ∃ ya yb y, t.calculate σ a = .ok ya ∧ t.calculate σ b = .ok yb ∧ t.calculate σ x = .ok y ∧ OnLine a ya b yb x y := by
  obtain ⟨vs, hvs, hlen, hrows, ht, hn, -, hcalc⟩ := fresh_data h
  have hsorted := (fresh_wf h).sorted
  obtain ⟨i, hi, hi1⟩ := neighbours_idx hsorted hab
  have hl1 := (List.getElem?_eq_some_iff.1 hi1).1
  have hv0 : i < (vs.map fun row => interp1 (speedGrid t.nSpeeds) row σ).length := by simp; omega
  have hv1 : i + 1 < (vs.map fun row => interp1 (speedGrid t.nSpeeds) row σ).length := by simp; omega
  have e0 := List.getElem?_eq_getElem hv0
  have e1 := List.getElem?_eq_getElem hv1
  refine ⟨_, _, _, hcalc σ a, hcalc σ b, hcalc σ x, ?_⟩
  have hvl : (vs.map fun row => interp1 (speedGrid t.nSpeeds) row σ).length = t.temperatures.length := by simpa using hlen
  rw [interp1_node hsorted hvl hi e0, interp1_node hsorted hvl hi1 e1]
  rw [interp1_segment hsorted hi hi1 e0 e1 (x := x)]
  · exact lerp_onLine hab.2.2.1 _ _ _
  · rcases hlo with hlo | hlo
    · exact .inl hlo
    · right
      by_contra hne
      have h0 : 0 < t.temperatures.length := by omega
      have := (sorted_lt_iff hsorted (List.getElem?_eq_getElem h0) hi).2 (by omega)
      exact absurd (hlo _ (List.getElem_mem h0)) (not_le.2 this)
  · rcases hhi with hhi | hhi
    · exact .inl hhi
    · right
      by_contra hne
      have h0 : i + 2 < t.temperatures.length := by omega
      have := (sorted_lt_iff hsorted hi1 (List.getElem?_eq_getElem h0)).2 (by omega)
      exact absurd (hhi _ (List.getElem_mem h0)) (not_le.2 this)

example : Fresh exLookup ∧ Neighbours exLookup.temperatures 20 40 ∧ exLookup.calculate 1 50 = .ok 5 :=
  ⟨exLookup_fresh, ⟨by decide +kernel, by decide +kernel, by norm_num, by decide +kernel⟩, by decide +kernel⟩

/-- C30: at any temperature, between two consecutive speeds the lookup follows the straight line through the lookups at the two speeds; beyond the first
and the last speed the outermost line is continued. -/
theorem C30_linear_in_speed (t : Table K) (h : Fresh t) (s : Int) (σ x : K) (hs : IsSpeed t s) (hs1 : IsSpeed t (s + 1))
    (hlo : (s : K) ≤ σ ∨ s = 1) (hhi : σ ≤ (s : K) + 1 ∨ s + 1 = t.nSpeeds) :
    ∃ y0 y1 y, t.calculate (s : K) x = .ok y0 ∧ t.calculate ((s : K) + 1) x = .ok y1 ∧ t.calculate σ x = .ok y ∧
      OnLine (s : K) y0 ((s : K) + 1) y1 σ y := by
  obtain ⟨vs, hvs, hlen, hrows, ht, hn, -, hcalc⟩ := fresh_data h
  obtain ⟨k, hk, hkn⟩ := isSpeed_nat hs
  have hkn1 : k + 1 < t.nSpeeds := by have := hs1.2; omega
  have hsk : (s : K) = (k : K) + 1 := by
    have : s = (k : Int) + 1 := by omega
    rw [this]; push_cast; rfl
  have hrow : ∀ (σ : K), ((s : K) ≤ σ ∨ s = 1) → (σ ≤ (s : K) + 1 ∨ s + 1 = t.nSpeeds) →
      (vs.map fun row => interp1 (speedGrid t.nSpeeds) row σ) =
      vs.map fun row => lerp (s : K) ((s : K) + 1) (row.getD k 0) (row.getD (k + 1) 0) σ := by
    intro σ hlo hhi
    refine List.map_congr_left ?_
    intro row hr
    have hrl := hrows row hr
    have g0 : row[k]? = some (row.getD k 0) := by
      rw [List.getElem?_eq_getElem (by omega : k < row.length)]; simp [List.getD_eq_getElem?_getD, (by omega : k < row.length)]
    have g1 : row[k + 1]? = some (row.getD (k + 1) 0) := by
      rw [List.getElem?_eq_getElem (by omega : k + 1 < row.length)]; simp [List.getD_eq_getElem?_getD, (by omega : k + 1 < row.length)]
    have hg := interp1_segment (speedGrid_sorted (K := K) t.nSpeeds) (speedGrid_get _ _ hkn) (speedGrid_get _ _ hkn1) g0 g1 (x := σ)
      (by rcases hlo with hlo | hlo
          · left; rw [← hsk]; exact hlo
          · right; omega)
      (by rcases hhi with hhi | hhi
          · left; push_cast; rw [hsk] at hhi; linarith
          · right; rw [speedGrid_length]; omega)
    rw [hg]; push_cast; rw [hsk]
  refine ⟨_, _, _, hcalc _ x, hcalc _ x, hcalc _ x, ?_⟩
  rw [hrow σ hlo hhi, hrow _ (.inl le_rfl) (.inl (by linarith)), hrow ((s : K) + 1) (.inl (by linarith)) (.inl le_rfl)]
  rw [interp1_lerp hlen _ _ _ _ _ _ ht, interp1_lerp hlen _ _ _ _ _ _ ht, interp1_lerp hlen _ _ _ _ _ _ ht, lerp_left,
    lerp_right (by linarith)]
  exact lerp_onLine (by linarith) _ _ _

example : Fresh exLookup ∧ IsSpeed exLookup 1 ∧ IsSpeed exLookup (1 + 1) ∧ exLookup.calculate (3 / 2) 10 = .ok 2 :=
  ⟨exLookup_fresh, by decide +kernel, by decide +kernel, by decide +kernel⟩

/-- C30: between two neighbouring rows and two consecutive speeds the lookup stays within the range of the four surrounding cells. -/
theorem C30_no_overshoot (t : Table K) (h : Fresh t) (s : Int) (σ a b x m M v00 v01 v10 v11 : K) (hs : IsSpeed t s)
    (hs1 : IsSpeed t (s + 1)) (hσ0 : (s : K) ≤ σ) (hσ1 : σ ≤ (s : K) + 1) (hab : Neighbours t.temperatures a b)
    (hx0 : a ≤ x) (hx1 : x ≤ b)
    (h00 : t.get s a = .ok (some v00)) (h01 : t.get (s + 1) a = .ok (some v01))
    (h10 : t.get s b = .ok (some v10)) (h11 : t.get (s + 1) b = .ok (some v11))
    (hm : m ≤ v00 ∧ m ≤ v01 ∧ m ≤ v10 ∧ m ≤ v11) (hM : v00 ≤ M ∧ v01 ≤ M ∧ v10 ≤ M ∧ v11 ≤ M) :
    ∃ y, t.calculate σ x = .ok y ∧ m ≤ y ∧ y ≤ M := by
  have line_between : ∀ {x0 x1 y0 y1 x y : K}, x0 < x1 → x0 ≤ x → x ≤ x1 → OnLine x0 y0 x1 y1 x y → m ≤ y0 → m ≤ y1 → y0 ≤ M →
      y1 ≤ M → m ≤ y ∧ y ≤ M := by
    intro x0 x1 y0 y1 x y h01 hx0 hx1 hl hm0 hm1 hM0 hM1
    have hd : x1 - x0 ≠ 0 := sub_ne_zero.2 h01.ne'
    have hy : y = lerp x0 x1 y0 y1 x := by
      have h2 := lerp_onLine h01 y0 y1 x
      have h3 : (y - y0) * (x1 - x0) = (lerp x0 x1 y0 y1 x - y0) * (x1 - x0) := by rw [hl, h2]
      have := mul_right_cancel₀ hd h3
      linarith
    rw [hy]
    exact lerp_between h01 hx0 hx1 hm0 hm1 hM0 hM1
  obtain ⟨p0, p1, pa, ep0, ep1, epa, hla⟩ := C30_linear_in_speed t h s σ a hs hs1 (.inl hσ0) (.inl hσ1)
  obtain ⟨q0, q1, qb, eq0, eq1, eqb, hlb⟩ := C30_linear_in_speed t h s σ b hs hs1 (.inl hσ0) (.inl hσ1)
  obtain ⟨ya, yb, y, eya, eyb, ey, hly⟩ := C30_linear_in_temperature t h σ a b x hab (.inl hx0) (.inl hx1)
  have hcast : ((s + 1 : Int) : K) = (s : K) + 1 := by push_cast; rfl
  have n00 := C30_node t h s a v00 hs h00
  have n01 := C30_node t h (s + 1) a v01 hs1 h01
  have n10 := C30_node t h s b v10 hs h10
  have n11 := C30_node t h (s + 1) b v11 hs1 h11
  rw [hcast] at n01 n11
  rw [n00] at ep0; rw [n01] at ep1; rw [n10] at eq0; rw [n11] at eq1; rw [epa] at eya; rw [eqb] at eyb
  simp only [Except.ok.injEq] at ep0 ep1 eq0 eq1 eya eyb
  subst ep0 ep1 eq0 eq1 eya eyb
  have ba := line_between (by linarith) hσ0 hσ1 hla hm.1 hm.2.1 hM.1 hM.2.1
  have bb := line_between (by linarith) hσ0 hσ1 hlb hm.2.2.1 hm.2.2.2 hM.2.2.1 hM.2.2.2
  exact ⟨y, ey, line_between hab.2.2.1 hx0 hx1 hly ba.1 bb.1 ba.2 bb.2⟩

example : exLookup.get 1 20 = .ok (some 2) ∧ exLookup.get 2 20 = .ok (some 4) ∧ exLookup.get 1 40 = .ok (some 4) ∧
    exLookup.get 2 40 = .ok (some 8) ∧ exLookup.calculate (3 / 2) 30 = .ok (9 / 2) := by decide +kernel

/-- C30: a table with one speed ignores the requested speed. -/
theorem C30_single_speed (t : Table K) (h : Fresh t) (hn : t.nSpeeds = 1) (σ τ x : K) : t.calculate σ x = t.calculate τ x := by
  obtain ⟨vs, hvs, hlen, hrows, ht, -, -, hcalc⟩ := fresh_data h
  rw [hcalc, hcalc]
  have hg : (speedGrid t.nSpeeds : List K).length ≤ 1 := by rw [speedGrid_length, hn]
  simp only [interp1_single hg]

example : Fresh ({ temperatures := [1, 2], nSpeeds := 1, data := [[some 5], [some 6]], interpolator := some ⟨[1, 2], 1, [[5], [6]]⟩ } : Table ℚ) :=
  ⟨{ temperatures := [1, 2], nSpeeds := 1, data := [[some 5], [some 6]] }, by decide +kernel⟩

/-- C30: lookups use the data as of the last `set_interpolator`: later changes of cells or rows are not seen. -/
theorem C30_snapshot (t : Table K) (s : Int) (x v : K) (e : Bool) (limit : Option K) (h : TableWF t) (σ y : K) :
    (Table.set s x v t).2.calculate σ y = t.calculate σ y ∧
    (addTemperature x e limit t).2.calculate σ y = t.calculate σ y := by
  constructor
  · have : (Table.set s x v t).2.interpolator = t.interpolator := by
      simp only [Table.set, PyM.bind_run, PyM.get_run, PyM.liftM_run, PyM.monadLift_run]
      cases pyIndex t.temperatures x with
      | error e => rfl
      | ok i =>
        simp only []
        rcases store_cases t i (s - 1) (some v) with ⟨e, h1⟩ | ⟨i', k, h1⟩ <;> rw [h1]
    simp only [calculate, this]
  · have : (addTemperature x e limit t).2.interpolator = t.interpolator := by
      by_cases hx : x ∈ t.temperatures
      · simp only [addTemperature, PyM.bind_run, PyM.get_run, if_pos hx, PyM.raise_run]
      · rw [addTemperature_new h hx]
        exact (fillNew_sameBut x e limit _ (inserted t x)).2.2.1
    simp only [calculate, this]

example : (Table.set 1 10 7 exLookup).2.get 1 10 = .ok (some 7) ∧ (Table.set 1 10 7 exLookup).2.calculate 1 10 = .ok 1 := by
  decide +kernel

end Resdx.Props
