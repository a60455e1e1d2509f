import Verif.Lemmas.Tabular
import Mathlib.Data.List.TakeWhile

set_option linter.unusedSectionVars false
set_option linter.unusedSimpArgs false

/-! # Helper lemmas for table interpolation -/

namespace Resdx.Tabular

open Spec Util

variable {K : Type} [Field K] [LinearOrder K] [IsStrictOrderedRing K]

/-! ## One axis -/

theorem lerp_left (x0 x1 y0 y1 : K) : lerp x0 x1 y0 y1 x0 = y0 := by simp [lerp]

theorem lerp_right {x0 x1 : K} (h : x0 < x1) (y0 y1 : K) : lerp x0 x1 y0 y1 x1 = y1 := by
  have : x1 - x0 ≠ 0 := sub_ne_zero.2 h.ne'
  simp [lerp, div_self this]

theorem lerp_onLine {x0 x1 : K} (h : x0 < x1) (y0 y1 x : K) : OnLine x0 y0 x1 y1 x (lerp x0 x1 y0 y1 x) := by
  have : x1 - x0 ≠ 0 := sub_ne_zero.2 h.ne'
  simp only [OnLine, lerp]; field_simp; ring

theorem lerp_between {x0 x1 y0 y1 x m M : K} (h : x0 < x1) (h0 : x0 ≤ x) (h1 : x ≤ x1) (hm0 : m ≤ y0) (hm1 : m ≤ y1)
    (hM0 : y0 ≤ M) (hM1 : y1 ≤ M) : m ≤ lerp x0 x1 y0 y1 x ∧ lerp x0 x1 y0 y1 x ≤ M := by
  have hd : 0 < x1 - x0 := sub_pos.2 h
  have hw0 : 0 ≤ (x - x0) / (x1 - x0) := div_nonneg (by linarith) hd.le
  have hw1 : (x - x0) / (x1 - x0) ≤ 1 := (div_le_one hd).2 (by linarith)
  simp only [lerp]
  generalize (x - x0) / (x1 - x0) = w at *
  constructor <;> nlinarith

theorem lerp_sub (x0 x1 y0 y1 z0 z1 x : K) :
    lerp x0 x1 (y0 - z0) (y1 - z1) x = lerp x0 x1 y0 y1 x - lerp x0 x1 z0 z1 x := by simp only [lerp]; ring

theorem lerp_const (x0 x1 c x : K) : lerp x0 x1 c c x = c := by simp only [lerp]; ring

theorem interval_spec {grid : List K} (hl : 2 ≤ grid.length) (x : K) :
    interval grid x + 1 < grid.length ∧
    (∀ (j : Nat) (y : K), 1 ≤ j → j ≤ interval grid x → grid[j]? = some y → y ≤ x) ∧
    (interval grid x + 2 = grid.length ∨ ∃ y, grid[interval grid x + 1]? = some y ∧ x < y) := by
  let inner := (grid.drop 1).dropLast
  have hinner : inner.length = grid.length - 2 := by simp [inner]; omega
  have hget : ∀ j, j < grid.length - 2 → inner[j]? = grid[j + 1]? := by
    intro j hj
    simp only [inner, List.dropLast_eq_take, List.getElem?_take, List.getElem?_drop, List.length_drop]
    rw [if_pos (by omega)]
    congr 1; omega
  have hk : interval grid x = (inner.takeWhile (· ≤ x)).length := rfl
  have hle : (inner.takeWhile (· ≤ x)).length ≤ inner.length := (List.takeWhile_prefix _).length_le
  refine ⟨by omega, ?_, ?_⟩
  · intro j y h1 h2 hy
    have hj : j - 1 < (inner.takeWhile (· ≤ x)).length := by omega
    have hp := (List.takeWhile_prefix (p := fun z => decide (z ≤ x)) (l := inner))
    have e1 : (inner.takeWhile (· ≤ x))[j - 1]? = inner[j - 1]? := by
      obtain ⟨r, hr⟩ := hp
      conv_rhs => rw [← hr]
      rw [List.getElem?_append_left hj]
    rw [hget _ (by omega), show j - 1 + 1 = j by omega, hy] at e1
    have hmem := List.mem_of_getElem? e1
    have := List.mem_takeWhile_imp hmem
    simpa using this
  · by_cases hfull : (inner.takeWhile (· ≤ x)).length = inner.length
    · left; omega
    · right
      have hlt : (inner.takeWhile (· ≤ x)).length < inner.length := by omega
      refine ⟨inner[(inner.takeWhile (· ≤ x)).length], ?_, ?_⟩
      · rw [hk, ← hget _ (by omega), List.getElem?_eq_getElem hlt]
      · have hdw : (inner.dropWhile (· ≤ x)).length > 0 := by
          have := congrArg List.length (List.takeWhile_append_dropWhile (p := fun z => decide (z ≤ x)) (l := inner))
          rw [List.length_append] at this; omega
        have h0 := List.dropWhile_get_zero_not (fun z => decide (z ≤ x)) inner hdw
        have e : (inner.dropWhile (· ≤ x)).get ⟨0, hdw⟩ = inner[(inner.takeWhile (· ≤ x)).length] := by
          have := List.takeWhile_append_dropWhile (p := fun z => decide (z ≤ x)) (l := inner)
          have h2 : inner[(inner.takeWhile (· ≤ x)).length]? = (inner.dropWhile (· ≤ x))[0]? := by
            have h3 := List.getElem?_append_right (l₁ := inner.takeWhile (· ≤ x)) (l₂ := inner.dropWhile (· ≤ x)) (le_refl _)
            rw [Nat.sub_self, this] at h3
            exact h3
          rw [List.getElem?_eq_getElem hlt, List.getElem?_eq_getElem hdw] at h2
          simpa using h2.symm
        rw [e] at h0
        simpa using h0

/-- On a segment, and beyond the ends on the outermost segments, `interp1` is the line of that segment. -/
theorem interp1_segment {grid values : List K} (hs : grid.Pairwise (· < ·)) {k : Nat} {x0 x1 y0 y1 x : K}
    (h0 : grid[k]? = some x0) (h1 : grid[k + 1]? = some x1) (hv0 : values[k]? = some y0) (hv1 : values[k + 1]? = some y1)
    (hlo : x0 ≤ x ∨ k = 0) (hhi : x ≤ x1 ∨ k + 2 = grid.length) :
    interp1 grid values x = lerp x0 x1 y0 y1 x := by
  have hk1 := (List.getElem?_eq_some_iff.1 h1).1
  obtain ⟨s1, s2, s3⟩ := interval_spec (grid := grid) (by omega) x
  have h01 : x0 < x1 := (Table.sorted_lt_iff hs h0 h1).2 (by omega)
  have hnot : ¬ grid.length ≤ 1 := by omega
  simp only [interp1, if_neg hnot]
  have gd : ∀ {l : List K} {i : Nat} {y : K}, l[i]? = some y → l.getD i 0 = y := by
    intro l i y h; rw [List.getD_eq_getElem?_getD, h]; rfl
  rcases Nat.lt_trichotomy (interval grid x) k with hlt | heq | hgt
  · exfalso
    rcases s3 with s3 | ⟨y, hy, hxy⟩
    · omega
    · rcases hlo with hlo | hlo
      · have : y ≤ x0 := by
          rcases Nat.lt_or_eq_of_le (Nat.succ_le_of_lt hlt) with h | h
          · exact ((Table.sorted_lt_iff hs hy h0).2 h).le
          · have e : interval grid x + 1 = k := h
            rw [e, h0] at hy; simp at hy; exact hy.ge
        order
      · omega
  · rw [heq, gd h0, gd h1, gd hv0, gd hv1]
  · have hx1 : x1 ≤ x := s2 (k + 1) x1 (by omega) (by omega) h1
    rcases hhi with hhi | hhi
    · have hx : x = x1 := le_antisymm hhi hx1
      have hkk : interval grid x = k + 1 := by
        by_contra hne
        have hgt2 : k + 2 ≤ interval grid x := by omega
        have hl2 : k + 2 < grid.length := by omega
        have hy := List.getElem?_eq_getElem hl2
        have := s2 (k + 2) _ (by omega) hgt2 hy
        have h2 := (Table.sorted_lt_iff hs h1 hy).2 (by omega)
        order
      rw [hkk, gd h1, gd hv1, hx, lerp_left, lerp_right h01]
    · omega

/-- At a node `interp1` returns the value of the node. -/
theorem interp1_node {grid values : List K} (hs : grid.Pairwise (· < ·)) (hl : values.length = grid.length) {k : Nat} {x y : K}
    (h : grid[k]? = some x) (hv : values[k]? = some y) : interp1 grid values x = y := by
  have hk := (List.getElem?_eq_some_iff.1 h).1
  by_cases h1 : grid.length ≤ 1
  · have : k = 0 := by omega
    subst this
    simp only [interp1, if_pos h1, List.getD_eq_getElem?_getD, hv, Option.getD_some]
  · by_cases hlast : k + 1 < grid.length
    · have e1 := List.getElem?_eq_getElem hlast
      have hlv : k + 1 < values.length := by omega
      have e2 := List.getElem?_eq_getElem hlv
      rw [interp1_segment hs h e1 hv e2 (.inl le_rfl) (.inl ((Table.sorted_lt_iff hs h e1).2 (by omega)).le), lerp_left]
    · obtain ⟨m, rfl⟩ : ∃ m, k = m + 1 := ⟨k - 1, by omega⟩
      have hlm : m < grid.length := by omega
      have hlv : m < values.length := by omega
      have e1 := List.getElem?_eq_getElem hlm
      have e2 := List.getElem?_eq_getElem hlv
      have hlt := (Table.sorted_lt_iff hs e1 h).2 (by omega)
      rw [interp1_segment hs e1 h e2 hv (.inl hlt.le) (.inl le_rfl), lerp_right hlt]

theorem interp1_single {grid values : List K} (h : grid.length ≤ 1) (x : K) : interp1 grid values x = values.getD 0 0 := by
  simp [interp1, h]

theorem interp1_sub {grid v w : List K} (hv : v.length = grid.length) (hw : w.length = grid.length) (x : K) :
    interp1 grid (List.zipWith (· - ·) v w) x = interp1 grid v x - interp1 grid w x := by
  have gd : ∀ i, i < grid.length → (List.zipWith (· - ·) v w).getD i 0 = v.getD i 0 - w.getD i 0 := by
    intro i hi
    have h1 : i < v.length := by omega
    have h2 : i < w.length := by omega
    simp [List.getD_eq_getElem?_getD, List.getElem?_zipWith, List.getElem?_eq_getElem h1, List.getElem?_eq_getElem h2]
  by_cases h : grid.length ≤ 1
  · simp only [interp1, if_pos h]
    by_cases h0 : grid.length = 0
    · have e1 : v = [] := List.eq_nil_of_length_eq_zero (by omega)
      have e2 : w = [] := List.eq_nil_of_length_eq_zero (by omega)
      simp [e1, e2]
    · exact gd 0 (by omega)
  · obtain ⟨s1, -, -⟩ := interval_spec (grid := grid) (by omega) x
    simp only [interp1, if_neg h]
    rw [gd _ (by omega), gd _ s1, lerp_sub]

theorem interp1_sub_const {grid v : List K} (hv : v.length = grid.length) (h0 : grid ≠ []) (c x : K) :
    interp1 grid (v.map (· - c)) x = interp1 grid v x - c := by
  have hpos := List.length_pos_iff.2 h0
  have gd : ∀ i, i < grid.length → (v.map (· - c)).getD i 0 = v.getD i 0 - c := by
    intro i hi
    have h1 : i < v.length := by omega
    simp [List.getD_eq_getElem?_getD, List.getElem?_eq_getElem h1]
  by_cases h : grid.length ≤ 1
  · simp only [interp1, if_pos h]
    exact gd 0 hpos
  · obtain ⟨s1, -, -⟩ := interval_spec (grid := grid) (by omega) x
    simp only [interp1, if_neg h]
    rw [gd _ (by omega), gd _ s1]
    have := lerp_sub (grid.getD (interval grid x) 0) (grid.getD (interval grid x + 1) 0) (v.getD (interval grid x) 0)
      (v.getD (interval grid x + 1) 0) c c x
    rw [lerp_const] at this
    exact this

/-! ## Two axes -/

theorem speedGrid_get (n k : Nat) (h : k < n) : (speedGrid n : List K)[k]? = some ((k : K) + 1) := by
  simp [speedGrid, h]

theorem speedGrid_length (n : Nat) : (speedGrid n : List K).length = n := by simp [speedGrid]

theorem speedGrid_sorted (n : Nat) : (speedGrid n : List K).Pairwise (· < ·) := by
  rw [speedGrid, List.pairwise_map]
  refine List.Pairwise.imp ?_ (List.pairwise_lt_range (n := n))
  intro a b h
  have : (a : K) < (b : K) := by exact_mod_cast h
  linarith

theorem fullRow_eq_ok {row : List (Option K)} {r : List K} : fullRow row = .ok r ↔ row = r.map some := by
  induction row generalizing r with
  | nil => simp only [fullRow, Except.ok.injEq]; constructor
           · rintro rfl; rfl
           · intro h; exact (List.map_eq_nil_iff.1 h.symm).symm
  | cons c row ih =>
    cases c with
    | none => simp only [fullRow, reduceCtorEq, false_iff]; cases r <;> simp
    | some v =>
      simp only [fullRow, bind_eq_ok, pure_eq_ok, Except.ok.injEq]
      constructor
      · rintro ⟨r', h1, rfl⟩; rw [ih.1 h1]; rfl
      · intro h
        cases r with
        | nil => simp at h
        | cons a r =>
          simp only [List.map_cons, List.cons.injEq, Option.some.injEq] at h
          exact ⟨r, ih.2 h.2, by rw [h.1]⟩

theorem fullData_eq_ok {d : List (List (Option K))} {vs : List (List K)} :
    fullData d = .ok vs ↔ d = vs.map (List.map some) := by
  induction d generalizing vs with
  | nil => simp only [fullData, Except.ok.injEq]; constructor
           · rintro rfl; rfl
           · intro h; exact (List.map_eq_nil_iff.1 h.symm).symm
  | cons row d ih =>
    simp only [fullData, bind_eq_ok, pure_eq_ok, Except.ok.injEq]
    constructor
    · rintro ⟨r, h1, vs', h2, rfl⟩; rw [ih.1 h2, fullRow_eq_ok.1 h1]; rfl
    · intro h
      cases vs with
      | nil => simp at h
      | cons r vs =>
        simp only [List.map_cons, List.cons.injEq] at h
        exact ⟨r, fullRow_eq_ok.2 h.1, vs, ih.2 h.2, rfl⟩

/-- The data of an interpolator that was just built. -/
theorem make_eq_ok {temps : List K} {n : Nat} {data : List (List (Option K))} {f : Interp K} :
    Interp.make temps n data = .ok f ↔ data.length = temps.length ∧ (∀ row ∈ data, row.length = n) ∧
      temps.Pairwise (· < ·) ∧ temps ≠ [] ∧ n ≠ 0 ∧ f.temps = temps ∧ f.nSpeeds = n ∧ data = f.values.map (List.map some) := by
  unfold Interp.make
  split
  · rename_i h
    simp only [bind_eq_ok, pure_eq_ok, Except.ok.injEq, fullData_eq_ok]
    constructor
    · rintro ⟨vs, h1, rfl⟩; exact ⟨h.1, h.2.1, h.2.2.1, h.2.2.2.1, h.2.2.2.2, rfl, rfl, h1⟩
    · rintro ⟨-, -, -, -, -, h1, h2, h3⟩
      refine ⟨f.values, h3, ?_⟩
      cases f; simp_all
  · rename_i h
    simp only [reduceCtorEq, false_iff]
    rintro ⟨h1, h2, h3, h4, h5, -⟩
    exact h ⟨h1, h2, h3, h4, h5⟩

theorem at?_full {vs : List (List K)} {i s : Nat} {v : K} :
    at? (vs.map (List.map some)) i s = some (some v) ↔ ∃ row, vs[i]? = some row ∧ row[s]? = some v := by
  simp only [at?, List.getElem?_map, Option.bind_eq_some_iff, Option.map_eq_some_iff]
  constructor
  · rintro ⟨r, ⟨row, h1, rfl⟩, h2⟩
    simp only [List.getElem?_map, Option.map_eq_some_iff, Option.some.injEq] at h2
    obtain ⟨v', h2, rfl⟩ := h2
    exact ⟨row, h1, h2⟩
  · rintro ⟨row, h1, h2⟩
    exact ⟨_, ⟨row, h1, rfl⟩, by simp [h2]⟩

namespace Table

theorem setInterpolator_run (t : Table K) :
    setInterpolator t = match Interp.make t.temperatures t.nSpeeds t.data with
      | .ok f => (.ok (), { t with interpolator := some f })
      | .error e => (.error e, t) := by
  simp only [setInterpolator, PyM.bind_run, PyM.get_run, PyM.liftM_run, PyM.monadLift_run, PyM.modify_run]
  cases Interp.make t.temperatures t.nSpeeds t.data <;> rfl

theorem fresh_iff {t : Table K} :
    Fresh t ↔ ∃ f, Interp.make t.temperatures t.nSpeeds t.data = .ok f ∧ t.interpolator = some f := by
  constructor
  · rintro ⟨t0, h⟩
    rw [setInterpolator_run] at h
    cases hm : Interp.make t0.temperatures t0.nSpeeds t0.data with
    | error e => rw [hm] at h; simp at h
    | ok f =>
      rw [hm] at h
      simp only [Prod.mk.injEq, true_and] at h
      subst h
      exact ⟨f, hm, rfl⟩
  · rintro ⟨f, h1, h2⟩
    refine ⟨t, ?_⟩
    rw [setInterpolator_run, h1]
    simp only [Prod.mk.injEq, true_and]
    rw [← h2]

theorem fresh_wf {t : Table K} (h : Fresh t) : TableWF t := by
  obtain ⟨f, h1, -⟩ := fresh_iff.1 h
  obtain ⟨h1, h2, h3, -⟩ := make_eq_ok.1 h1
  exact ⟨h3, h1, h2⟩

/-- All the facts about an up-to-date table. -/
theorem fresh_data {t : Table K} (h : Fresh t) : ∃ vs : List (List K), t.data = vs.map (List.map some) ∧
    vs.length = t.temperatures.length ∧ (∀ row ∈ vs, row.length = t.nSpeeds) ∧ t.temperatures ≠ [] ∧ t.nSpeeds ≠ 0 ∧
    t.interpolator = some ⟨t.temperatures, t.nSpeeds, vs⟩ ∧
    ∀ σ x, t.calculate σ x = .ok (interp1 t.temperatures (vs.map fun row => interp1 (speedGrid t.nSpeeds) row σ) x) := by
  obtain ⟨f, h1, h2⟩ := fresh_iff.1 h
  obtain ⟨h3, h4, h5, h6, h7, h8, h9, h10⟩ := make_eq_ok.1 h1
  have hf : f = ⟨t.temperatures, t.nSpeeds, f.values⟩ := by cases f; simp_all
  refine ⟨f.values, h10, ?_, ?_, h6, h7, by rw [h2, ← hf], ?_⟩
  · rw [h10] at h3; simpa using h3
  · intro row hrow
    have := h4 (row.map some) (by rw [h10]; exact List.mem_map_of_mem hrow)
    simpa using this
  · intro σ x
    simp only [calculate, h2, pyAttr, bind_ok, pure_eq_ok, Interp.eval, h8, h9]

theorem fresh_cell {t : Table K} (h : Fresh t) {vs : List (List K)} (hvs : t.data = vs.map (List.map some)) {i s : Nat} {speed : Int}
    {x v : K} (hs : speed - 1 = (s : Int)) (hi : t.temperatures[i]? = some x) :
    t.get speed x = .ok (some v) ↔ ∃ row, vs[i]? = some row ∧ row[s]? = some v := by
  rw [get_ok_iff (fresh_wf h) hs hi, hvs, at?_full]

end Table

/-- `interp1` is linear in the values. -/
theorem interp1_lerp {α : Type} {grid : List K} {l : List α} (hl : l.length = grid.length) (s0 s1 σ : K) (f g : α → K) (x : K)
    (h0 : grid ≠ []) :
    interp1 grid (l.map fun a => lerp s0 s1 (f a) (g a) σ) x = lerp s0 s1 (interp1 grid (l.map f) x) (interp1 grid (l.map g) x) σ := by
  have hpos := List.length_pos_iff.2 h0
  have gd : ∀ (f : α → K) i (hi : i < grid.length), (l.map f).getD i 0 = f (l[i]'(by omega)) := by
    intro f i hi
    have h1 : i < l.length := by omega
    simp [List.getD_eq_getElem?_getD, List.getElem?_eq_getElem h1]
  by_cases h : grid.length ≤ 1
  · simp only [interp1, if_pos h]
    rw [gd _ 0 hpos, gd _ 0 hpos, gd _ 0 hpos]
  · obtain ⟨s1, -, -⟩ := interval_spec (grid := grid) (by omega) x
    simp only [interp1, if_neg h]
    rw [gd _ _ (by omega : interval grid x < grid.length), gd _ _ s1, gd _ _ (by omega : interval grid x < grid.length), gd _ _ s1,
      gd _ _ (by omega : interval grid x < grid.length), gd _ _ s1]
    simp only [lerp]; ring

end Resdx.Tabular
