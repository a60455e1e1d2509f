import Verif.Lemmas.IdfObjects
import Mathlib.Data.List.Nodup

/-! # Lemmas about the names of the objects written for a unit -/

set_option linter.unusedSectionVars false
set_option linter.unusedSimpArgs false

namespace Resdx.Idf

open Spec.Idf

variable {C K : Type} [Field K] [LinearOrder K] {fmt : K → Nat → String}

/-- The end of a name: a text, or a text and a number. -/
def render : String × Option Nat → String
  | (s, none) => s
  | (s, some k) => s ++ toString k

/-- Whether a text ends with a digit. -/
def endsInDigit (s : String) : Bool := match s.toList.reverse with
  | [] => false
  | c :: _ => c.isDigit

theorem toString_toList (k : Nat) : (toString k).toList = Nat.toDigits 10 k := Nat.toList_repr

theorem toDigits_digit {k : Nat} {c : Char} (h : c ∈ Nat.toDigits 10 k) : c.isDigit = true := Nat.isDigit_of_mem_toDigits (by norm_num) (by norm_num) h

theorem toDigits_inj {a b : Nat} (h : Nat.toDigits 10 a = Nat.toDigits 10 b) : a = b := by
  rw [← Nat.ofDigitChars_toDigits (b := 10) (n := a) (by norm_num) (by norm_num), h, Nat.ofDigitChars_toDigits (by norm_num) (by norm_num)]

theorem takeWhile_digits {d t : List Char} (hd : ∀ c ∈ d, c.isDigit = true) (ht : t.head?.all (fun c => !c.isDigit) = true) :
    (d ++ t).takeWhile Char.isDigit = d ∧ (d ++ t).dropWhile Char.isDigit = t := by
  induction d with
  | nil =>
    cases t with
    | nil => simp
    | cons c t => simp at ht; simp [ht]
  | cons c d ih =>
    obtain ⟨h1, h2⟩ := ih fun x hx => hd x (List.mem_cons_of_mem _ hx)
    have := hd c List.mem_cons_self
    simp [this, h1, h2]

/-- A name's end split into its text and its digits. -/
def splitDigits (s : String) : List Char × List Char := (s.toList.reverse.dropWhile Char.isDigit, s.toList.reverse.takeWhile Char.isDigit)

theorem splitDigits_render_none {s : String} (h : endsInDigit s = false) : splitDigits (render (s, none)) = (s.toList.reverse, []) := by
  simp only [splitDigits, render]
  unfold endsInDigit at h
  cases hl : s.toList.reverse with
  | nil => simp
  | cons c l => rw [hl] at h; simp at h; simp [h]

theorem splitDigits_render_some {s : String} (h : endsInDigit s = false) (k : Nat) :
    splitDigits (render (s, some k)) = (s.toList.reverse, (Nat.toDigits 10 k).reverse) := by
  have h' : s.toList.reverse.head?.all (fun c => !c.isDigit) = true := by
    unfold endsInDigit at h
    cases hl : s.toList.reverse with
    | nil => simp
    | cons c l => rw [hl] at h; simp at h; simp [h]
  obtain ⟨h1, h2⟩ := takeWhile_digits (d := (Nat.toDigits 10 k).reverse) (fun c hc => toDigits_digit (List.mem_reverse.1 hc)) h'
  simp only [splitDigits, render, String.toList_append, List.reverse_append, toString_toList, h1, h2]

/-- Ends of names are told apart by their text and number. -/
theorem render_inj {a b : String × Option Nat} (ha : endsInDigit a.1 = false) (hb : endsInDigit b.1 = false) (h : render a = render b) : a = b := by
  have hs := congrArg splitDigits h
  obtain ⟨s, x⟩ := a
  obtain ⟨t, y⟩ := b
  cases x <;> cases y <;> simp only [splitDigits_render_none ha, splitDigits_render_none hb, splitDigits_render_some ha, splitDigits_render_some hb, Prod.mk.injEq,
    List.reverse_inj, String.toList_inj] at hs
  · rw [hs.1]
  · exact absurd hs.2.symm (by simp)
  · exact absurd hs.2 (by simp)
  · rw [hs.1, toDigits_inj hs.2]

/-- The ends of the names of the system objects. -/
def sysKeys : SystemType → List String
  | .unitarySystem => ["Unitary"]
  | .pthp => ["Unitary", "Supp Heating Coil"]

/-- The ends of the names of the objects before the cooling tables. -/
def headKeys (st : SystemType) : List String :=
  sysKeys st ++
  ["Schedule", "Fan Mode Schedule", "Supply Fan", "Cooling Outdoor Drybulb", "Cooling Indoor Wetbulb", "Cooling fT List", "Coil Flow Fraction", "fFF List",
   "Heating Outdoor Drybulb", "Heating Indoor Drybulb", "Heating fT List", "Cooling Coil", "Cooling fPLR"]

/-- The ends of the names of the objects between the cooling and the heating tables. -/
def midKeys : List String := ["Heating Coil", "Heating fPLR", "Defrost EIR"]

/-- The tables of a mode. -/
def tableKeys (mode : String) : List String := [mode ++ " CapfFF ", mode ++ " EIRfFF ", mode ++ " CapfT ", mode ++ " EIRfT "]

/-- The ends of the names of all tables of a mode. -/
def allTableKeys (mode : String) (n : Nat) : List (String × Option Nat) := (List.range n).flatMap fun i => (tableKeys mode).map fun s => (s, some (i + 1))

/-- The ends of all names, in the order of the file. -/
def keys (st : SystemType) (nCool nHeat : Nat) : List (String × Option Nat) :=
  (headKeys st).map (·, none) ++ (allTableKeys "Cooling" nCool ++ (midKeys.map (·, none) ++ allTableKeys "Heating" nHeat))

theorem allTableKeys_nodup (mode : String) (h : (tableKeys mode).Nodup) (n : Nat) : (allTableKeys mode n).Nodup := by
  unfold allTableKeys
  rw [List.nodup_flatMap]
  refine ⟨fun i _ => h.map fun a b hab => by simpa using hab, ?_⟩
  refine (List.nodup_range (n := n)).imp ?_
  intro i j hij x hx hy
  simp only [List.mem_map] at hx hy
  obtain ⟨s, _, rfl⟩ := hx
  obtain ⟨t, _, ht⟩ := hy
  simp only [Prod.mk.injEq, Option.some.injEq] at ht
  omega

theorem keys_nodup (st : SystemType) (nCool nHeat : Nat) : (keys st nCool nHeat).Nodup := by
  have hsome : ∀ (mode : String) (n : Nat) x, x ∈ allTableKeys mode n → x.1 ∈ tableKeys mode ∧ x.2.isSome := by
    intro mode n x hx
    simp only [allTableKeys, List.mem_flatMap, List.mem_map] at hx
    obtain ⟨i, _, s, hs, rfl⟩ := hx
    exact ⟨hs, rfl⟩
  have hnone : ∀ (l : List String) x, x ∈ l.map (fun s => (s, (none : Option Nat))) → x.1 ∈ l ∧ x.2 = none := by
    intro l x hx
    simp only [List.mem_map] at hx
    obtain ⟨s, hs, rfl⟩ := hx
    exact ⟨hs, rfl⟩
  have hcases : ∀ st, (headKeys st).Nodup ∧ ∀ s ∈ headKeys st, s ∉ midKeys := by intro st; cases st <;> exact ⟨by decide, by decide⟩
  unfold keys
  rw [List.nodup_append', List.nodup_append', List.nodup_append']
  refine ⟨(hcases st).1.map fun a b hab => by simpa using hab, ⟨allTableKeys_nodup _ (by decide) _, ⟨List.Nodup.map (fun a b hab => by simpa using hab) (by decide),
    allTableKeys_nodup _ (by decide) _, ?_⟩, ?_⟩, ?_⟩
  · intro x hx hy
    have := (hsome _ _ _ hy).2
    rw [(hnone _ _ hx).2] at this
    simp at this
  · intro x hx hy
    obtain ⟨h1, h2⟩ := hsome _ _ _ hx
    rcases List.mem_append.1 hy with hy | hy
    · rw [(hnone _ _ hy).2] at h2; simp at h2
    · exact absurd (hsome _ _ _ hy).1 ((by decide : ∀ s ∈ tableKeys "Cooling", s ∉ tableKeys "Heating") _ h1)
  · intro x hx hy
    obtain ⟨h1, h2⟩ := hnone _ _ hx
    rcases List.mem_append.1 hy with hy | hy
    · have := (hsome _ _ _ hy).2; rw [h2] at this; simp at this
    · rcases List.mem_append.1 hy with hy | hy
      · exact (hcases st).2 _ h1 (hnone _ _ hy).1
      · have := (hsome _ _ _ hy).2; rw [h2] at this; simp at this

theorem keys_text (st : SystemType) (nCool nHeat : Nat) : ∀ x ∈ keys st nCool nHeat, endsInDigit x.1 = false := by
  intro x hx
  simp only [keys, List.mem_append, List.mem_map, allTableKeys, List.mem_flatMap] at hx
  rcases hx with ⟨s, hs, rfl⟩ | ⟨i, _, s, hs, rfl⟩ | ⟨s, hs, rfl⟩ | ⟨i, _, s, hs, rfl⟩
  · cases st <;> exact (by decide : ∀ s ∈ headKeys _, endsInDigit s = false) s hs
  · exact (by decide : ∀ s ∈ tableKeys "Cooling", endsInDigit s = false) s hs
  · exact (by decide : ∀ s ∈ midKeys, endsInDigit s = false) s hs
  · exact (by decide : ∀ s ∈ tableKeys "Heating", endsInDigit s = false) s hs

/-! ## Names in the file -/

theorem nameOf_cons (cls v : String) (l : List IField) : nameOf ⟨cls, ⟨v, "Name"⟩ :: l⟩ = some v := by simp [nameOf, valueOf]

theorem nameOf_tableObj (name listName unitType : String) (values : List K) (precision : Nat) (rated : Option K) :
    nameOf (tableObj fmt name listName unitType values precision rated) = some name := nameOf_cons _ _ _

/-- The names of objects, given by their ends. -/
def namesOf (sys : String) (l : List (String × Option Nat)) : List (Option String) := l.map fun x => some (sys ++ render x)

theorem speedTables_names {sys mode : String} {normalize : Bool} {setRatio : C → K → C} {make : Option (K × K) → Py C} {cap cop : C → Py K} {indoor outdoor : List K}
    {c0 : C} {q0 cop0 : K} {k : Nat} {ts : List IObj}
    (h : speedTables fmt sys mode normalize setRatio make cap cop indoor outdoor c0 q0 cop0 k = .ok ts) :
    ts.map nameOf = namesOf sys ((tableKeys mode).map fun s => (s, some k)) := by
  obtain ⟨ff, ft, _, _, rfl⟩ := speedTables_ok h
  simp only [List.map_cons, List.map_nil, nameOf_tableObj, namesOf, tableKeys, render, String.append_assoc]

theorem speeds_names {sys mode : String} {n : Nat} {f : Nat → Py (List IField × List IObj)} {r : List (List IField × List IObj)}
    (h : (List.range n).reverse.mapM f = .ok r)
    (hf : ∀ s < n, ∀ x, f s = .ok x → x.2.map nameOf = namesOf sys ((tableKeys mode).map fun t => (t, some (n - s)))) :
    (r.map Prod.snd).flatten.map nameOf = namesOf sys (allTableKeys mode n) := by
  obtain ⟨hl, hr⟩ := reverse_loop h
  have e : r.map (fun x => x.2.map nameOf) = (List.range n).map fun i => namesOf sys ((tableKeys mode).map fun t => (t, some (i + 1))) := by
    refine List.ext_getElem? fun i => ?_
    by_cases hi : i < n
    · obtain ⟨b, h1, h2⟩ := hr i hi
      have := hf (n - 1 - i) (by omega) b h2
      rw [show n - (n - 1 - i) = i + 1 by omega] at this
      simp [h1, hi, this]
    · simp [hi, hl]
  rw [List.map_flatten, List.map_map]
  rw [show (List.map nameOf ∘ Prod.snd : List IField × List IObj → List (Option String)) = fun x => x.2.map nameOf from rfl, e]
  simp only [allTableKeys, namesOf, List.flatMap_def, List.map_flatten, List.map_map, Function.comp_def]

theorem system_names {sys : String} {st : SystemType} {U : IdfUnit C K} {system : List IObj} (h : systemObjects fmt sys st U = .ok system) :
    system.map nameOf = namesOf sys ((sysKeys st).map (·, none)) := by
  cases st with
  | unitarySystem =>
    simp only [systemObjects, bind_eq_ok, pure_eq_ok, Except.ok.injEq] at h
    obtain ⟨_, _, _, _, _, _, rfl⟩ := h
    simp [unitaryObject, nameOf_cons, namesOf, render, sysKeys]
  | pthp =>
    simp only [systemObjects, Except.ok.injEq] at h
    subst h
    simp [pthpObjects, nameOf_cons, namesOf, render, sysKeys]

/-- The names of all objects, in order. -/
theorem idf_names {name : Option String} {st : SystemType} {autosize normalize : Bool} {U : IdfUnit C K} {objs : List IObj}
    (h : idfObjects fmt name st autosize normalize U = .ok objs) : objs.map nameOf = namesOf (prefixOf name) (keys st U.nCool U.nHeat) := by
  obtain ⟨system, fan, ccap, cs, hcap, on, tf, eir, hs, h1, h2, h3, h4, h5, h6, h7, h8, h9, rfl⟩ := idfObjects_ok h
  have hsys := system_names h1
  have hfan : nameOf fan = some (prefixOf name ++ "Supply Fan") := by
    obtain ⟨_, _, _, _, _, _, _, _, _, _, _, _, _, _, _, _, _, _, hf⟩ := fanObject_ok h2
    rw [hf]
    exact nameOf_cons _ _ _
  have hc := speeds_names (sys := prefixOf name) (mode := "Cooling") h4 (by
    intro s _ x hx
    obtain ⟨_, _, _, _, _, _, _, _, _, hx⟩ := coolSpeed_ok hx
    exact speedTables_names hx)
  have hh := speeds_names (sys := prefixOf name) (mode := "Heating") h9 (by
    intro s _ x hx
    obtain ⟨_, _, _, _, _, _, _, hx⟩ := heatSpeed_ok hx
    exact speedTables_names hx)
  simp only [List.map_append, List.map_cons, hsys, hfan, hc, hh]
  simp [keys, headKeys, midKeys, namesOf, schedules, axes, independentVariable, coolHeader, coolCurve, heatHeader, heatCurves, nameOf_cons, render]

/-- No two objects have the same name. -/
theorem idf_names_nodup {name : Option String} {st : SystemType} {autosize normalize : Bool} {U : IdfUnit C K} {objs : List IObj}
    (h : idfObjects fmt name st autosize normalize U = .ok objs) : (objs.map nameOf).Nodup := by
  rw [idf_names h, namesOf]
  refine List.Nodup.map_on ?_ (keys_nodup _ _ _)
  intro x hx y hy hxy
  simp only [Option.some.injEq] at hxy
  exact render_inj (keys_text _ _ _ x hx) (keys_text _ _ _ y hy) (String.append_right_inj _ |>.1 hxy)

theorem named_of_mem {objs : List IObj} (hn : (objs.map nameOf).Nodup) {o : IObj} (ho : o ∈ objs) {v : String} (hv : nameOf o = some v) : named objs v = [o] := by
  unfold named
  induction objs with
  | nil => simp at ho
  | cons a l ih =>
    rw [List.map_cons, List.nodup_cons] at hn
    rcases List.mem_cons.1 ho with rfl | ho
    · rw [List.filter_cons_of_pos (by simpa using hv)]
      congr 1
      rw [List.filter_eq_nil_iff]
      intro b hb hb'
      apply hn.1
      rw [hv, ← (by simpa using hb' : nameOf b = some v)]
      exact List.mem_map_of_mem hb
    · rw [List.filter_cons_of_neg, ih hn.2 ho]
      intro ha
      apply hn.1
      rw [(by simpa using ha : nameOf a = some v), ← hv]
      exact List.mem_map_of_mem ho

end Resdx.Idf
