import Verif.Lemmas.IdfNames

/-! # Lemmas about air nodes and tables in the file written for a unit -/

set_option linter.unusedSectionVars false
set_option linter.unusedSimpArgs false

namespace Resdx.Idf

open Spec.Idf

variable {C K : Type} [Field K] [LinearOrder K] {fmt : K → Nat → String}

/-! ## Air nodes -/

theorem label_ne_number {a b : String} (k : Nat) (h : b.toList.getLast?.all (fun c => !c.isDigit) = true) : a ++ toString k ≠ b := by
  intro e
  have := congrArg (fun s => s.toList.getLast?) e
  simp only [String.toList_append, toString_toList, List.getLast?_append_of_ne_nil _ Nat.toDigits_ne_nil] at this
  cases hl : (Nat.toDigits 10 k).getLast? with
  | none => simp [List.getLast?_eq_none_iff, Nat.toDigits_ne_nil] at hl
  | some c =>
    rw [← this, hl] at h
    have := toDigits_digit (List.mem_of_getLast? hl)
    simp [this] at h

theorem find_numbered {a b : String} (l : List String) (h : b.toList.getLast?.all (fun c => !c.isDigit) = true) : (numbered a l).find? (fun f => f.name = b) = none := by
  rw [List.find?_eq_none]
  intro f hf
  obtain ⟨k, hk⟩ := numbered_names hf
  rw [hk]
  simpa using label_ne_number k h

theorem hasInlet_table (name listName unitType : String) (values : List K) (precision : Nat) (rated : Option K) :
    hasInlet (tableObj fmt name listName unitType values precision rated) = false := by
  simp [hasInlet, valueOf, tableObj, find_numbered _ (b := "Air Inlet Node Name") (by decide)]

theorem hasInlet_axis (name unitType : String) (rated : K) (values : List K) : hasInlet (independentVariable fmt name unitType rated values) = false := by
  simp [hasInlet, valueOf, independentVariable, find_numbered _ (b := "Air Inlet Node Name") (by decide)]

theorem hasInlet_speedTables {sys mode : String} {normalize : Bool} {setRatio : C → K → C} {make : Option (K × K) → Py C} {cap cop : C → Py K} {indoor outdoor : List K}
    {c0 : C} {q0 cop0 : K} {k : Nat} {ts : List IObj}
    (h : speedTables fmt sys mode normalize setRatio make cap cop indoor outdoor c0 q0 cop0 k = .ok ts) : ∀ o ∈ ts, hasInlet o = false := by
  obtain ⟨ff, ft, _, _, rfl⟩ := speedTables_ok h
  simp [hasInlet_table]

theorem hasInlet_axes (sys : String) (U : IdfUnit C K) : ∀ o ∈ axes fmt sys U, hasInlet o = false := by
  unfold axes
  simp only [List.forall_mem_cons, hasInlet_axis, List.not_mem_nil, false_imp_iff, implies_true, and_true, true_and]
  simp [hasInlet, valueOf]

theorem hasInlet_schedules (sys : String) : ∀ o ∈ schedules sys, hasInlet o = false := by
  simp [schedules, hasInlet, valueOf]

theorem hasInlet_coolCurve (sys : String) (U : IdfUnit C K) : hasInlet (coolCurve fmt sys U) = false := by
  simp [coolCurve, hasInlet, valueOf]

theorem hasInlet_heatCurves (sys : String) (U : IdfUnit C K) (eir : K) : ∀ o ∈ heatCurves fmt sys U eir, hasInlet o = false := by
  simp [heatCurves, hasInlet, valueOf]

theorem filter_none {l : List IObj} (h : ∀ o ∈ l, hasInlet o = false) : l.filter hasInlet = [] := by
  rw [List.filter_eq_nil_iff]
  intro o ho
  simp [h o ho]

/-! ## Tables -/

theorem tableValues_table (name listName unitType : String) (values : List K) (precision : Nat) (rated : Option K) :
    tableValues (tableObj fmt name listName unitType values precision rated) = (scaled values rated).map fun v => fmt v precision := by
  simp [tableValues, tableObj, tableHeader, numbered_values]

theorem tableValues_axis (name unitType : String) (rated : K) (values : List K) :
    tableValues (independentVariable fmt name unitType rated values) = values.map fun v => fmt v 2 := by
  simp [tableValues, independentVariable, tableHeader, numbered_values]

theorem listName_table (name listName unitType : String) (values : List K) (precision : Nat) (rated : Option K) :
    valueOf (tableObj fmt name listName unitType values precision rated) "Independent Variable List Name" = some listName := by
  simp [valueOf, tableObj]

theorem scaled_length (values : List K) (r : Option K) : (scaled values r).length = values.length := by cases r <;> simp [scaled]

theorem scaled_get {values : List K} {normalize : Bool} {r v : K} {i : Nat} (h : values[i]? = some v) :
    (scaled values (if normalize then some r else none))[i]? = some (if normalize then v / r else v) := by
  cases normalize <;> simp [scaled, h]

theorem product_length (xs ys : List K) : (xs.flatMap fun x => ys.map fun y => (x, y)).length = xs.length * ys.length := by
  induction xs with
  | nil => simp
  | cons a l ih => rw [List.flatMap_cons, List.length_append, ih]; simp; ring

theorem product_get {xs ys : List K} {i j : Nat} {x y : K} (hx : xs[i]? = some x) (hy : ys[j]? = some y) :
    (xs.flatMap fun x => ys.map fun y => (x, y))[i * ys.length + j]? = some (x, y) := by
  have hj : j < ys.length := (List.getElem?_eq_some_iff.1 hy).1
  induction xs generalizing i with
  | nil => simp at hx
  | cons a l ih =>
    rw [List.flatMap_cons]
    cases i with
    | zero =>
      simp at hx
      subst hx
      rw [List.getElem?_append_left (by simpa using hj)]
      simp [hy]
    | succ i =>
      simp at hx
      rw [List.getElem?_append_right (by simp; nlinarith)]
      rw [show (i + 1) * ys.length + j - (List.map (fun y => (a, y)) ys).length = i * ys.length + j by simp; rw [Nat.add_mul]; omega]
      exact ih hx

theorem forall₂_get {α β : Type} {R : α → β → Prop} {l : List α} {r : List β} (h : List.Forall₂ R l r) {i : Nat} {a : α} (ha : l[i]? = some a) :
    ∃ b, r[i]? = some b ∧ R a b := by
  rw [List.forall₂_iff_get] at h
  obtain ⟨hl, h⟩ := h
  obtain ⟨hi, rfl⟩ := List.getElem?_eq_some_iff.1 ha
  exact ⟨r[i], by simp, h i hi (hl ▸ hi)⟩

/-- The tables of a speed tabulate the unit at that speed. -/
theorem speedTables_right {sys mode : String} {normalize : Bool} {setRatio : C → K → C} {make : Option (K × K) → Py C} {cap cop : C → Py K} {indoor outdoor : List K}
    {c0 : C} {q0 cop0 : K} {k : Nat} {ts objs : List IObj} {xa ya fa : IObj}
    (h : speedTables fmt sys mode normalize setRatio make cap cop indoor outdoor c0 q0 cop0 k = .ok ts) (hsub : ∀ o ∈ ts, o ∈ objs) (hn : (objs.map nameOf).Nodup)
    (hfT : AxesOf objs (tableObj fmt "" (sys ++ mode ++ " fT List") "" [] 0 none) [xa, ya]) (hfF : AxesOf objs (tableObj fmt "" (sys ++ "fFF List") "" [] 0 none) [fa])
    (hx : tableValues xa = indoor.map fun x => fmt (fToC x) 2) (hy : tableValues ya = outdoor.map fun x => fmt (fToC x) 2)
    (hf : tableValues fa = flowFractions.map fun x => fmt x 2) :
    SpeedTabulated fmt fToC objs normalize (fun x y => make (some (x, y))) setRatio cap cop indoor outdoor flowFractions c0 q0 cop0
      (sys ++ mode ++ " CapfT " ++ toString k) (sys ++ mode ++ " CapfFF " ++ toString k) (sys ++ mode ++ " EIRfT " ++ toString k) (sys ++ mode ++ " EIRfFF " ++ toString k) := by
  obtain ⟨ff, ft, hff, hft, rfl⟩ := speedTables_ok h
  simp only [List.forall_mem_cons, List.not_mem_nil, false_imp_iff, implies_true, and_true] at hsub
  obtain ⟨m1, m2, m3, m4⟩ := hsub
  have named_ : ∀ {n l u : String} {vs : List K} {p : Nat} {r : Option K}, tableObj fmt n l u vs p r ∈ objs → named objs n = [tableObj fmt n l u vs p r] :=
    fun ho => named_of_mem hn ho (nameOf_tableObj _ _ _ _ _ _)
  have axes_ : ∀ {n l u : String} {vs : List K} {p : Nat} {r : Option K} {as : List IObj}, AxesOf objs (tableObj fmt "" l "" [] 0 none) as →
      AxesOf objs (tableObj fmt n l u vs p r) as := by
    intro n l u vs p r as ha
    obtain ⟨ln, li, e1, e2⟩ := ha
    rw [listName_table] at e1
    exact ⟨ln, li, by rw [listName_table]; exact e1, e2⟩
  have len1 : ff.length = (flowFractions : List K).length := hff.length_eq.symm
  have len2 : ft.length = indoor.length * outdoor.length := by rw [← hft.length_eq, product_length]
  constructor
  · refine ⟨_, named_ m3, rfl, xa, ya, axes_ hfT, hx, hy, ?_, ?_⟩
    · simp [tableValues_table, scaled_length, len2]
    · intro i j x y hi hj
      obtain ⟨b, hb, c, hc, q, e, hq, he, h0, rfl⟩ := forall₂_get hft (product_get hi hj)
      refine ⟨_, ?_, c, q, hc, hq, rfl⟩
      rw [tableValues_table, List.getElem?_map, scaled_get (v := q) (by simp [hb])]
      rfl
  · refine ⟨_, named_ m1, rfl, fa, axes_ hfF, hf, ?_, ?_⟩
    · simp [tableValues_table, scaled_length, len1]
    · intro i x hi
      obtain ⟨b, hb, q, e, hq, he, h0, rfl⟩ := forall₂_get hff hi
      refine ⟨_, ?_, q, hq, rfl⟩
      rw [tableValues_table, List.getElem?_map, scaled_get (v := q) (by simp [hb])]
      rfl
  · refine ⟨_, named_ m4, rfl, xa, ya, axes_ hfT, hx, hy, ?_, ?_⟩
    · simp [tableValues_table, scaled_length, len2]
    · intro i j x y hi hj
      obtain ⟨b, hb, c, hc, q, e, hq, he, h0, rfl⟩ := forall₂_get hft (product_get hi hj)
      refine ⟨_, ?_, c, e, hc, he, h0, rfl⟩
      rw [tableValues_table, List.getElem?_map, scaled_get (v := 1 / e) (by simp [hb])]
      rfl
  · refine ⟨_, named_ m2, rfl, fa, axes_ hfF, hf, ?_, ?_⟩
    · simp [tableValues_table, scaled_length, len1]
    · intro i x hi
      obtain ⟨b, hb, q, e, hq, he, h0, rfl⟩ := forall₂_get hff hi
      refine ⟨_, ?_, e, he, h0, rfl⟩
      rw [tableValues_table, List.getElem?_map, scaled_get (v := 1 / e) (by simp [hb])]
      rfl

/-- The axes of the three lists. -/
theorem idf_axes {sys : String} {U : IdfUnit C K} {objs : List IObj} (hsub : ∀ o ∈ axes fmt sys U, o ∈ objs) (hn : (objs.map nameOf).Nodup) :
    AxesOf objs (tableObj fmt "" (sys ++ "Cooling fT List") "" [] 0 none)
      [independentVariable fmt (sys ++ "Cooling Indoor Wetbulb") "Temperature" (fToC 67) (coolIndoor.map fToC),
       independentVariable fmt (sys ++ "Cooling Outdoor Drybulb") "Temperature" (fToC 95) (coolOutdoor.map fToC)] ∧
    AxesOf objs (tableObj fmt "" (sys ++ "Heating fT List") "" [] 0 none)
      [independentVariable fmt (sys ++ "Heating Indoor Drybulb") "Temperature" (fToC 70) (heatIndoor.map fToC),
       independentVariable fmt (sys ++ "Heating Outdoor Drybulb") "Temperature" (fToC 47) ((heatOutdoor U).map fToC)] ∧
    AxesOf objs (tableObj fmt "" (sys ++ "fFF List") "" [] 0 none) [independentVariable fmt (sys ++ "Coil Flow Fraction") "Dimensionless" 1 flowFractions] := by
  have nm : ∀ (i : Nat) (v : String) (hi : i < (axes fmt sys U).length), nameOf (axes fmt sys U)[i] = some v → named objs v = [(axes fmt sys U)[i]] :=
    fun i v hi hv => named_of_mem hn (hsub _ (List.getElem_mem hi)) hv
  have l8 : (axes fmt sys U).length = 8 := rfl
  refine ⟨?_, ?_, ?_⟩
  · refine ⟨_, _, listName_table _ _ _ _ _ _, nm 2 _ (by omega) (nameOf_cons _ _ _), rfl, ?_⟩
    exact .cons ⟨nm 1 _ (by omega) (nameOf_cons _ _ _), rfl⟩ (.cons ⟨nm 0 _ (by omega) (nameOf_cons _ _ _), rfl⟩ .nil)
  · refine ⟨_, _, listName_table _ _ _ _ _ _, nm 7 _ (by omega) (nameOf_cons _ _ _), rfl, ?_⟩
    exact .cons ⟨nm 6 _ (by omega) (nameOf_cons _ _ _), rfl⟩ (.cons ⟨nm 5 _ (by omega) (nameOf_cons _ _ _), rfl⟩ .nil)
  · refine ⟨_, _, listName_table _ _ _ _ _ _, nm 4 _ (by omega) (nameOf_cons _ _ _), rfl, ?_⟩
    exact .cons ⟨nm 3 _ (by omega) (nameOf_cons _ _ _), rfl⟩ .nil

end Resdx.Idf
