import Verif.Lemmas.IdfNames

/-! # Lemmas about references and tables in the file written for a unit -/

set_option linter.unusedSectionVars false
set_option linter.unusedSimpArgs false

namespace Resdx.Idf

open Spec.Idf

variable {C K : Type} [Field K] [LinearOrder K] {fmt : K → Nat → String}

/-! ## Labels -/

theorem endsWith_append {b t : String} (a : String) (h : t.toList.length ≤ b.toList.length) : endsWith (a ++ b) t = endsWith b t := by
  unfold endsWith
  rw [Bool.eq_iff_iff, List.isSuffixOf_iff_suffix, List.isSuffixOf_iff_suffix, String.toList_append]
  constructor
  · intro hs
    exact List.suffix_of_suffix_length_le hs (List.suffix_append _ _) h
  · intro hs
    exact hs.trans (List.suffix_append _ _)

/-- A label made of a long literal text and something before it is judged by the text. -/
theorem refersTo_append {b : String} (a : String) (h : 30 ≤ b.toList.length) : refersTo (a ++ b) = refersTo b := by
  have key : ∀ t : String, t.toList.length ≤ 30 → endsWith (a ++ b) t = endsWith b t := fun t ht => endsWith_append a (by omega)
  unfold refersTo
  rw [key " Node Name" (by decide), key " File Name" (by decide), key " Type Limits Name" (by decide), key " Schedule Name" (by decide), key " Curve Name" (by decide),
    key "Fan Name" (by decide), key "Cooling Coil Name" (by decide), key "Supplemental Heating Coil Name" (by decide), key "Heating Coil Name" (by decide),
    key "Variable List Name" (by decide), key " Name" (by decide)]

theorem endsWith_last {s t : String} (h : endsWith s t = true) (ht : t.toList ≠ []) : s.toList.getLast? = t.toList.getLast? := by
  unfold endsWith at h
  rw [List.isSuffixOf_iff_suffix] at h
  obtain ⟨p, hp⟩ := h
  rw [← hp]
  exact List.getLast?_append_of_ne_nil _ ht

/-- A label that does not end with the letter e is no reference. -/
theorem refersTo_last {s : String} (h : s.toList.getLast? ≠ some 'e') : refersTo s = none := by
  have key : ∀ t : String, t.toList ≠ [] → t.toList.getLast? = some 'e' → endsWith s t = false := by
    intro t h1 h2
    cases hb : endsWith s t with
    | false => rfl
    | true => exact absurd ((endsWith_last hb h1).trans h2) h
  unfold refersTo
  rw [key " Node Name" (by decide) (by decide), key " File Name" (by decide) (by decide), key " Type Limits Name" (by decide) (by decide),
    key " Schedule Name" (by decide) (by decide), key " Curve Name" (by decide) (by decide), key "Fan Name" (by decide) (by decide),
    key "Cooling Coil Name" (by decide) (by decide), key "Supplemental Heating Coil Name" (by decide) (by decide), key "Heating Coil Name" (by decide) (by decide),
    key "Variable List Name" (by decide) (by decide), key " Name" (by decide) (by decide)]
  rfl

theorem getLast_number (a : String) (k : Nat) : (a ++ toString k).toList.getLast? ≠ some 'e' := by
  rw [String.toList_append, toString_toList, List.getLast?_append_of_ne_nil _ Nat.toDigits_ne_nil]
  intro h
  have := toDigits_digit (List.mem_of_getLast? h)
  exact absurd this (by decide)

theorem getLast_tail (a b : String) (hb : b.toList ≠ []) : (a ++ b).toList.getLast? = b.toList.getLast? := by
  rw [String.toList_append, List.getLast?_append_of_ne_nil _ hb]

/-! ## References -/

/-- The file has an object of that name and class. -/
def Has (objs : List IObj) (v c : String) : Prop := ∃ o ∈ objs, nameOf o = some v ∧ o.cls = c

/-- A field that is empty, no reference, or the name of an object of the right class. -/
def FieldOk (objs : List IObj) (f : IField) : Prop := ∀ cl, refersTo f.name = some cl → f.value ≠ "" → ∃ c ∈ cl, Has objs f.value c

theorem fieldOk_none {objs : List IObj} {v n : String} (h : refersTo n = none) : FieldOk objs ⟨v, n⟩ := by
  intro cl h1
  rw [h] at h1
  cases h1

theorem fieldOk_empty {objs : List IObj} {n : String} : FieldOk objs ⟨"", n⟩ := fun _ _ h => absurd rfl h

theorem fieldOk_ref {objs : List IObj} {v n c : String} (d : Has objs v c) (cl : List String) (h : refersTo n = some cl) (hc : c ∈ cl) : FieldOk objs ⟨v, n⟩ := by
  intro cl' h1 _
  rw [h] at h1
  cases h1
  exact ⟨c, hc, d⟩

/-- The objects others refer to. -/
structure Directory (objs : List IObj) (sys : String) (st : SystemType) (nCool nHeat : Nat) : Prop where
  schedule : Has objs (sys ++ "Schedule") "Schedule:Compact"
  fanMode : Has objs (sys ++ "Fan Mode Schedule") "Schedule:Compact"
  fan : Has objs (sys ++ "Supply Fan") "Fan:SystemModel"
  supp : st = .pthp → Has objs (sys ++ "Supp Heating Coil") "Coil:Heating:Electric"
  coolOut : Has objs (sys ++ "Cooling Outdoor Drybulb") "Table:IndependentVariable"
  coolIn : Has objs (sys ++ "Cooling Indoor Wetbulb") "Table:IndependentVariable"
  coolList : Has objs (sys ++ "Cooling fT List") "Table:IndependentVariableList"
  flow : Has objs (sys ++ "Coil Flow Fraction") "Table:IndependentVariable"
  flowList : Has objs (sys ++ "fFF List") "Table:IndependentVariableList"
  heatOut : Has objs (sys ++ "Heating Outdoor Drybulb") "Table:IndependentVariable"
  heatIn : Has objs (sys ++ "Heating Indoor Drybulb") "Table:IndependentVariable"
  heatList : Has objs (sys ++ "Heating fT List") "Table:IndependentVariableList"
  coolCoil : Has objs (sys ++ "Cooling Coil") "Coil:Cooling:DX:VariableSpeed"
  coolPlr : Has objs (sys ++ "Cooling fPLR") "Curve:Linear"
  heatCoil : Has objs (sys ++ "Heating Coil") "Coil:Heating:DX:VariableSpeed"
  heatPlr : Has objs (sys ++ "Heating fPLR") "Curve:Linear"
  defrost : Has objs (sys ++ "Defrost EIR") "Curve:Biquadratic"
  coolTables : ∀ k, 1 ≤ k → k ≤ nCool → ∀ s ∈ tableKeys "Cooling", Has objs (sys ++ s ++ toString k) "Table:Lookup"
  heatTables : ∀ k, 1 ≤ k → k ≤ nHeat → ∀ s ∈ tableKeys "Heating", Has objs (sys ++ s ++ toString k) "Table:Lookup"

theorem has_of_mem {objs : List IObj} {o : IObj} {v c : String} (h : o ∈ objs) (hn : nameOf o = some v) (hc : o.cls = c) : Has objs v c := ⟨o, h, hn, hc⟩

theorem speedTables_has {sys mode : String} {normalize : Bool} {setRatio : C → K → C} {make : Option (K × K) → Py C} {cap cop : C → Py K} {indoor outdoor : List K}
    {c0 : C} {q0 cop0 : K} {k : Nat} {ts : List IObj}
    (h : speedTables fmt sys mode normalize setRatio make cap cop indoor outdoor c0 q0 cop0 k = .ok ts) : ∀ s ∈ tableKeys mode, Has ts (sys ++ s ++ toString k) "Table:Lookup" := by
  obtain ⟨ff, ft, _, _, rfl⟩ := speedTables_ok h
  intro s hs
  simp only [tableKeys, List.mem_cons, List.not_mem_nil, or_false] at hs
  rcases hs with rfl | rfl | rfl | rfl
  · exact ⟨_, List.mem_cons_self, by rw [nameOf_tableObj]; simp [String.append_assoc], rfl⟩
  · exact ⟨_, List.mem_cons_of_mem _ List.mem_cons_self, by rw [nameOf_tableObj]; simp [String.append_assoc], rfl⟩
  · exact ⟨_, List.mem_cons_of_mem _ (List.mem_cons_of_mem _ List.mem_cons_self), by rw [nameOf_tableObj]; simp [String.append_assoc], rfl⟩
  · exact ⟨_, List.mem_cons_of_mem _ (List.mem_cons_of_mem _ (List.mem_cons_of_mem _ List.mem_cons_self)), by rw [nameOf_tableObj]; simp [String.append_assoc], rfl⟩

theorem speeds_has {sys mode : String} {n : Nat} {f : Nat → Py (List IField × List IObj)} {r : List (List IField × List IObj)}
    (h : (List.range n).reverse.mapM f = .ok r)
    (hf : ∀ s < n, ∀ x, f s = .ok x → ∀ t ∈ tableKeys mode, Has x.2 (sys ++ t ++ toString (n - s)) "Table:Lookup") :
    ∀ k, 1 ≤ k → k ≤ n → ∀ s ∈ tableKeys mode, Has (r.map Prod.snd).flatten (sys ++ s ++ toString k) "Table:Lookup" := by
  intro k h1 h2 s hs
  obtain ⟨_, hr⟩ := reverse_loop h
  obtain ⟨b, hb, hb'⟩ := hr (k - 1) (by omega)
  obtain ⟨o, ho, hn, hc⟩ := hf _ (by omega) b hb' s hs
  rw [show n - (n - 1 - (k - 1)) = k by omega] at hn
  exact ⟨o, List.mem_flatten.2 ⟨b.2, List.mem_map_of_mem (List.mem_of_getElem? hb), ho⟩, hn, hc⟩

theorem Has.mono {a b : List IObj} {v c : String} (h : Has a v c) (hab : ∀ o ∈ a, o ∈ b) : Has b v c := by
  obtain ⟨o, ho, h⟩ := h
  exact ⟨o, hab o ho, h⟩

theorem idf_directory {name : Option String} {st : SystemType} {autosize normalize : Bool} {U : IdfUnit C K} {objs : List IObj}
    (h : idfObjects fmt name st autosize normalize U = .ok objs) : Directory objs (prefixOf name) st U.nCool U.nHeat := by
  obtain ⟨system, fan, ccap, cs, hcap, on, tf, eir, hs, h1, h2, h3, h4, h5, h6, h7, h8, h9, rfl⟩ := idfObjects_ok h
  have hfan : nameOf fan = some (prefixOf name ++ "Supply Fan") ∧ fan.cls = "Fan:SystemModel" := by
    obtain ⟨_, _, _, _, _, _, _, _, _, _, _, _, _, _, _, _, _, _, hf⟩ := fanObject_ok h2
    rw [hf]
    exact ⟨nameOf_cons _ _ _, rfl⟩
  have hc := speeds_has (sys := prefixOf name) (mode := "Cooling") h4 (by
    intro s _ x hx
    obtain ⟨_, _, _, _, _, _, _, _, _, hx⟩ := coolSpeed_ok hx
    exact speedTables_has hx)
  have hh := speeds_has (sys := prefixOf name) (mode := "Heating") h9 (by
    intro s _ x hx
    obtain ⟨_, _, _, _, _, _, _, hx⟩ := heatSpeed_ok hx
    exact speedTables_has hx)
  have hax : ∀ a ∈ axes fmt (prefixOf name) U, a ∈ system ++ (schedules (prefixOf name) ++ (fan :: (axes fmt (prefixOf name) U ++
        (⟨"Coil:Cooling:DX:VariableSpeed", coolHeader fmt (prefixOf name) autosize U ccap ++ (cs.map Prod.fst).flatten⟩ :: coolCurve fmt (prefixOf name) U ::
          ((cs.map Prod.snd).flatten ++
        (⟨"Coil:Heating:DX:VariableSpeed", heatHeader fmt (prefixOf name) autosize U hcap on tf ++ (hs.map Prod.fst).flatten⟩ ::
          (heatCurves fmt (prefixOf name) U eir ++ (hs.map Prod.snd).flatten))))))) := by
    intro a ha
    simp [ha]
  constructor
  · exact has_of_mem (o := (schedules (prefixOf name))[0]'(by simp [schedules])) (by simp [schedules]) (nameOf_cons _ _ _) rfl
  · exact has_of_mem (o := (schedules (prefixOf name))[1]'(by simp [schedules])) (by simp [schedules]) (nameOf_cons _ _ _) rfl
  · exact has_of_mem (o := fan) (by simp) hfan.1 hfan.2
  · rintro rfl
    simp only [systemObjects, Except.ok.injEq] at h1
    subst h1
    exact has_of_mem (o := (pthpObjects fmt (prefixOf name))[1]'(by simp [pthpObjects])) (by simp [pthpObjects]) (nameOf_cons _ _ _) rfl
  · exact has_of_mem (hax ((axes fmt (prefixOf name) U)[0]'(by simp [axes])) (by simp [axes])) (nameOf_cons _ _ _) rfl
  · exact has_of_mem (hax ((axes fmt (prefixOf name) U)[1]'(by simp [axes])) (by simp [axes])) (nameOf_cons _ _ _) rfl
  · exact has_of_mem (hax ((axes fmt (prefixOf name) U)[2]'(by simp [axes])) (by simp [axes])) (nameOf_cons _ _ _) rfl
  · exact has_of_mem (hax ((axes fmt (prefixOf name) U)[3]'(by simp [axes])) (by simp [axes])) (nameOf_cons _ _ _) rfl
  · exact has_of_mem (hax ((axes fmt (prefixOf name) U)[4]'(by simp [axes])) (by simp [axes])) (nameOf_cons _ _ _) rfl
  · exact has_of_mem (hax ((axes fmt (prefixOf name) U)[5]'(by simp [axes])) (by simp [axes])) (nameOf_cons _ _ _) rfl
  · exact has_of_mem (hax ((axes fmt (prefixOf name) U)[6]'(by simp [axes])) (by simp [axes])) (nameOf_cons _ _ _) rfl
  · exact has_of_mem (hax ((axes fmt (prefixOf name) U)[7]'(by simp [axes])) (by simp [axes])) (nameOf_cons _ _ _) rfl
  · exact has_of_mem (o := ⟨"Coil:Cooling:DX:VariableSpeed", coolHeader fmt (prefixOf name) autosize U ccap ++ (cs.map Prod.fst).flatten⟩) (by simp) (nameOf_cons _ _ _) rfl
  · exact has_of_mem (o := coolCurve fmt (prefixOf name) U) (by simp) (nameOf_cons _ _ _) rfl
  · exact has_of_mem (o := ⟨"Coil:Heating:DX:VariableSpeed", heatHeader fmt (prefixOf name) autosize U hcap on tf ++ (hs.map Prod.fst).flatten⟩) (by simp) (nameOf_cons _ _ _) rfl
  · exact has_of_mem (o := (heatCurves fmt (prefixOf name) U eir)[0]'(by simp [heatCurves])) (by simp [heatCurves]) (nameOf_cons _ _ _) rfl
  · exact has_of_mem (o := (heatCurves fmt (prefixOf name) U eir)[1]'(by simp [heatCurves])) (by simp [heatCurves]) (nameOf_cons _ _ _) rfl
  · exact fun k h1 h2 s hs => (hc k h1 h2 s hs).mono fun o ho => by simp only [List.mem_append, List.mem_cons]; tauto
  · exact fun k h1 h2 s hs => (hh k h1 h2 s hs).mono fun o ho => by simp only [List.mem_append, List.mem_cons]; tauto

/-! ## The fields of each object -/

/-- All fields of a list. -/
def FieldsOk (objs : List IObj) (l : List IField) : Prop := ∀ f ∈ l, FieldOk objs f

theorem fieldsOk_nil (objs : List IObj) : FieldsOk objs [] := fun f hf => by simp at hf

theorem fieldsOk_cons {objs : List IObj} {f : IField} {l : List IField} (h : FieldOk objs f) (hl : FieldsOk objs l) : FieldsOk objs (f :: l) :=
  List.forall_mem_cons.2 ⟨h, hl⟩

theorem fieldsOk_append {objs : List IObj} {a b : List IField} (ha : FieldsOk objs a) (hb : FieldsOk objs b) : FieldsOk objs (a ++ b) :=
  List.forall_mem_append.2 ⟨ha, hb⟩

theorem fieldsOk_numbered (objs : List IObj) (label : String) (l : List String) : FieldsOk objs (numbered label l) := by
  intro f hf
  obtain ⟨k, hk⟩ := numbered_names hf
  obtain ⟨v, n⟩ := f
  simp only at hk
  subst hk
  exact fieldOk_none (refersTo_last (getLast_number _ _))

section
variable {objs : List IObj} {sys : String} {st : SystemType} {U : IdfUnit C K} {nCool nHeat : Nat}

/-- Settle the fields of a list of literal fields. -/
local macro "fields" d:term : tactic => `(tactic|
  (repeat' (first | exact fieldsOk_nil _ | refine fieldsOk_cons ?_ ?_)) <;>
    first
    | exact fieldOk_empty
    | exact fieldOk_none (by decide)
    | exact fieldOk_ref (Directory.schedule $d) _ rfl (by decide)
    | exact fieldOk_ref (Directory.fanMode $d) _ rfl (by decide)
    | exact fieldOk_ref (Directory.fan $d) _ rfl (by decide)
    | exact fieldOk_ref (Directory.coolOut $d) _ rfl (by decide)
    | exact fieldOk_ref (Directory.coolIn $d) _ rfl (by decide)
    | exact fieldOk_ref (Directory.heatOut $d) _ rfl (by decide)
    | exact fieldOk_ref (Directory.heatIn $d) _ rfl (by decide)
    | exact fieldOk_ref (Directory.flow $d) _ rfl (by decide)
    | exact fieldOk_ref (Directory.coolCoil $d) _ rfl (by decide)
    | exact fieldOk_ref (Directory.heatCoil $d) _ rfl (by decide)
    | exact fieldOk_ref (Directory.coolPlr $d) _ rfl (by decide)
    | exact fieldOk_ref (Directory.heatPlr $d) _ rfl (by decide)
    | exact fieldOk_ref (Directory.defrost $d) _ rfl (by decide)
    | exact fieldOk_ref (Directory.supp $d rfl) _ rfl (by decide))

theorem pthp_fields (d : Directory objs sys .pthp nCool nHeat) : ∀ o ∈ pthpObjects fmt sys, FieldsOk objs o.fields := by
  unfold pthpObjects
  simp only [List.forall_mem_cons, List.not_mem_nil, false_imp_iff, implies_true, and_true]
  refine ⟨?_, ?_⟩ <;> fields d

theorem unitary_fields (d : Directory objs sys .unitarySystem nCool nHeat) (ratio : K) : FieldsOk objs (unitaryObject fmt sys ratio).fields := by
  unfold unitaryObject
  fields d

theorem schedules_fields (d : Directory objs sys st nCool nHeat) : ∀ o ∈ schedules sys, FieldsOk objs o.fields := by
  unfold schedules
  simp only [List.forall_mem_cons, List.not_mem_nil, false_imp_iff, implies_true, and_true]
  refine ⟨?_, ?_⟩ <;> fields d

theorem fanHeader_fields (d : Directory objs sys st nCool nHeat) (flow : String) (m p : K) (power : String) (e : K) : FieldsOk objs (fanHeader fmt sys st U flow m p power e) := by
  unfold fanHeader
  fields d

theorem fanSpeed_fields (k : Nat) (f p : K) : FieldsOk objs (fanSpeedFields fmt k f p) := by
  refine fieldsOk_cons (fieldOk_none (refersTo_last ?_)) (fieldsOk_cons (fieldOk_none (refersTo_last ?_)) (fieldsOk_nil _))
  · rw [getLast_tail _ _ (by decide)]; decide
  · rw [getLast_tail _ _ (by decide)]; decide

theorem axis_fields (name unitType : String) (rated : K) (values : List K) : FieldsOk objs (independentVariable fmt name unitType rated values).fields := by
  refine fieldsOk_append ?_ (fieldsOk_numbered _ _ _)
  (repeat' (first | exact fieldsOk_nil _ | refine fieldsOk_cons ?_ ?_)) <;> first | exact fieldOk_empty | exact fieldOk_none (by decide)

theorem table_fields {name listName unitType : String} {values : List K} {precision : Nat} {rated : Option K} (hl : Has objs listName "Table:IndependentVariableList") :
    FieldsOk objs (tableObj fmt name listName unitType values precision rated).fields := by
  refine fieldsOk_append ?_ (fieldsOk_numbered _ _ _)
  (repeat' (first | exact fieldsOk_nil _ | refine fieldsOk_cons ?_ ?_)) <;> first | exact fieldOk_empty | exact fieldOk_none (by decide) | exact fieldOk_ref hl _ rfl (by decide)

theorem axes_fields (d : Directory objs sys st nCool nHeat) : ∀ o ∈ axes fmt sys U, FieldsOk objs o.fields := by
  unfold axes
  simp only [List.forall_mem_cons, List.not_mem_nil, false_imp_iff, implies_true, and_true]
  refine ⟨axis_fields _ _ _ _, axis_fields _ _ _ _, ?_, axis_fields _ _ _ _, ?_, axis_fields _ _ _ _, axis_fields _ _ _ _, ?_⟩ <;> fields d

theorem coolHeader_fields (d : Directory objs sys st nCool nHeat) (autosize : Bool) (cap : String) : FieldsOk objs (coolHeader fmt sys autosize U cap) := by
  unfold coolHeader
  fields d

theorem coolCurve_fields (d : Directory objs sys st nCool nHeat) : FieldsOk objs (coolCurve fmt sys U).fields := by
  unfold coolCurve
  fields d

theorem heatHeader_fields (d : Directory objs sys st nCool nHeat) (autosize : Bool) (cap : String) (on : K) (tf : String) :
    FieldsOk objs (heatHeader fmt sys autosize U cap on tf) := by
  unfold heatHeader
  fields d

theorem heatCurves_fields (d : Directory objs sys st nCool nHeat) (eir : K) : ∀ o ∈ heatCurves fmt sys U eir, FieldsOk objs o.fields := by
  unfold heatCurves
  simp only [List.forall_mem_cons, List.not_mem_nil, false_imp_iff, implies_true, and_true]
  refine ⟨?_, ?_⟩ <;> fields d

theorem coolSpeed_fields (d : Directory objs sys st nCool nHeat) {k : Nat} (h1 : 1 ≤ k) (h2 : k ≤ nCool) (cap shr cop flow : K) :
    FieldsOk objs (coolSpeedFields fmt sys k cap shr cop flow) := by
  have t := d.coolTables k h1 h2
  unfold coolSpeedFields
  refine fieldsOk_cons ?_ (fieldsOk_cons ?_ (fieldsOk_cons ?_ (fieldsOk_cons ?_ (fieldsOk_cons fieldOk_empty (fieldsOk_cons fieldOk_empty (fieldsOk_cons ?_
    (fieldsOk_cons ?_ (fieldsOk_cons ?_ (fieldsOk_cons ?_ (fieldsOk_nil _))))))))))
  · exact fieldOk_none ((refersTo_append _ (by decide)).trans (by decide))
  · exact fieldOk_none ((refersTo_append _ (by decide)).trans (by decide))
  · exact fieldOk_none ((refersTo_append _ (by decide)).trans (by decide))
  · exact fieldOk_none ((refersTo_append _ (by decide)).trans (by decide))
  · exact fieldOk_ref (t "Cooling CapfT " (by decide)) _ ((refersTo_append _ (by decide)).trans rfl) (by decide)
  · exact fieldOk_ref (t "Cooling CapfFF " (by decide)) _ ((refersTo_append _ (by decide)).trans rfl) (by decide)
  · exact fieldOk_ref (t "Cooling EIRfT " (by decide)) _ ((refersTo_append _ (by decide)).trans rfl) (by decide)
  · exact fieldOk_ref (t "Cooling EIRfFF " (by decide)) _ ((refersTo_append _ (by decide)).trans rfl) (by decide)

theorem heatSpeed_fields (d : Directory objs sys st nCool nHeat) {k : Nat} (h1 : 1 ≤ k) (h2 : k ≤ nHeat) (cap cop flow : K) :
    FieldsOk objs (heatSpeedFields fmt sys k cap cop flow) := by
  have t := d.heatTables k h1 h2
  unfold heatSpeedFields
  refine fieldsOk_cons ?_ (fieldsOk_cons ?_ (fieldsOk_cons ?_ (fieldsOk_cons ?_ (fieldsOk_cons ?_ (fieldsOk_cons ?_ (fieldsOk_cons ?_ (fieldsOk_nil _)))))))
  · exact fieldOk_none ((refersTo_append _ (by decide)).trans (by decide))
  · exact fieldOk_none ((refersTo_append _ (by decide)).trans (by decide))
  · exact fieldOk_none ((refersTo_append _ (by decide)).trans (by decide))
  · exact fieldOk_ref (t "Heating CapfT " (by decide)) _ ((refersTo_append _ (by decide)).trans rfl) (by decide)
  · exact fieldOk_ref (t "Heating CapfFF " (by decide)) _ ((refersTo_append _ (by decide)).trans rfl) (by decide)
  · exact fieldOk_ref (t "Heating EIRfT " (by decide)) _ ((refersTo_append _ (by decide)).trans rfl) (by decide)
  · exact fieldOk_ref (t "Heating EIRfFF " (by decide)) _ ((refersTo_append _ (by decide)).trans rfl) (by decide)

end

/-- The loop over the speeds: what holds of each pass holds of the whole. -/
theorem speeds_forall {n : Nat} {f : Nat → Py (List IField × List IObj)} {r : List (List IField × List IObj)} (h : (List.range n).reverse.mapM f = .ok r)
    (P : IField → Prop) (Q : IObj → Prop) (hf : ∀ s < n, ∀ x, f s = .ok x → (∀ a ∈ x.1, P a) ∧ ∀ o ∈ x.2, Q o) :
    (∀ a ∈ (r.map Prod.fst).flatten, P a) ∧ ∀ o ∈ (r.map Prod.snd).flatten, Q o := by
  have key : ∀ x ∈ r, ∃ s < n, f s = .ok x := by
    intro x hx
    obtain ⟨i, hi⟩ := List.getElem?_of_mem hx
    obtain ⟨hl, hr⟩ := reverse_loop h
    have hin : i < n := by
      have := (List.getElem?_eq_some_iff.1 hi).1
      omega
    obtain ⟨b, h1, h2⟩ := hr i hin
    rw [hi] at h1
    cases h1
    exact ⟨n - 1 - i, by omega, h2⟩
  constructor
  · intro a ha
    simp only [List.mem_flatten, List.mem_map] at ha
    obtain ⟨_, ⟨x, hx, rfl⟩, ha⟩ := ha
    obtain ⟨s, hs, h⟩ := key x hx
    exact (hf s hs x h).1 a ha
  · intro a ha
    simp only [List.mem_flatten, List.mem_map] at ha
    obtain ⟨_, ⟨x, hx, rfl⟩, ha⟩ := ha
    obtain ⟨s, hs, h⟩ := key x hx
    exact (hf s hs x h).2 a ha

theorem forall₂_flatten {α : Type} {l : List α} {r : List (List IField)} {R : α → List IField → Prop} {P : IField → Prop} (h : List.Forall₂ R l r)
    (hR : ∀ a b, R a b → ∀ f ∈ b, P f) : ∀ f ∈ r.flatten, P f := by
  induction h with
  | nil => simp
  | cons ha _ ih => rw [List.flatten_cons]; exact List.forall_mem_append.2 ⟨hR _ _ ha, ih⟩

theorem speedTables_fields {sys mode : String} {normalize : Bool} {setRatio : C → K → C} {make : Option (K × K) → Py C} {cap cop : C → Py K} {indoor outdoor : List K}
    {c0 : C} {q0 cop0 : K} {k : Nat} {ts objs : List IObj}
    (h : speedTables fmt sys mode normalize setRatio make cap cop indoor outdoor c0 q0 cop0 k = .ok ts)
    (h1 : Has objs (sys ++ "fFF List") "Table:IndependentVariableList") (h2 : Has objs (sys ++ mode ++ " fT List") "Table:IndependentVariableList") :
    ∀ o ∈ ts, FieldsOk objs o.fields := by
  obtain ⟨ff, ft, _, _, rfl⟩ := speedTables_ok h
  simp only [List.forall_mem_cons, List.not_mem_nil, false_imp_iff, implies_true, and_true]
  exact ⟨table_fields h1, table_fields h1, table_fields h2, table_fields h2⟩

/-- Every field of the file is settled. -/
theorem idf_fields {name : Option String} {st : SystemType} {autosize normalize : Bool} {U : IdfUnit C K} {objs : List IObj}
    (h : idfObjects fmt name st autosize normalize U = .ok objs) : ∀ o ∈ objs, FieldsOk objs o.fields := by
  have d := idf_directory h
  obtain ⟨system, fan, ccap, cs, hcap, on, tf, eir, hs, h1, h2, h3, h4, h5, h6, h7, h8, h9, e⟩ := idfObjects_ok h
  have hsys : ∀ o ∈ system, FieldsOk objs o.fields := by
    cases st with
    | unitarySystem =>
      simp only [systemObjects, bind_eq_ok, pure_eq_ok, Except.ok.injEq] at h1
      obtain ⟨_, _, _, _, _, _, rfl⟩ := h1
      simpa using unitary_fields d _
    | pthp =>
      simp only [systemObjects, Except.ok.injEq] at h1
      rw [← h1]
      exact pthp_fields d
  have hfan : FieldsOk objs fan.fields := by
    obtain ⟨_, _, _, _, _, _, _, _, _, _, _, _, _, _, _, _, _, hsp, hf⟩ := fanObject_ok h2
    rw [hf]
    refine fieldsOk_append (fanHeader_fields d _ _ _ _ _) (forall₂_flatten hsp ?_)
    rintro a b ⟨f, p, _, _, rfl⟩
    exact fanSpeed_fields _ _ _
  have hc := speeds_forall h4 (FieldOk objs) (fun o => FieldsOk objs o.fields) (by
    intro s hs x hx
    obtain ⟨_, _, _, _, _, _, _, _, hx1, hx2⟩ := coolSpeed_ok hx
    refine ⟨?_, speedTables_fields hx2 d.flowList ?_⟩
    · rw [hx1]; exact coolSpeed_fields d (by omega) (by omega) _ _ _ _
    · have := d.coolList
      rwa [String.append_assoc, show "Cooling" ++ " fT List" = "Cooling fT List" by decide])
  have hh := speeds_forall h9 (FieldOk objs) (fun o => FieldsOk objs o.fields) (by
    intro s hs x hx
    obtain ⟨_, _, _, _, _, _, hx1, hx2⟩ := heatSpeed_ok hx
    refine ⟨?_, speedTables_fields hx2 d.flowList ?_⟩
    · rw [hx1]; exact heatSpeed_fields d (by omega) (by omega) _ _ _
    · have := d.heatList
      rwa [String.append_assoc, show "Heating" ++ " fT List" = "Heating fT List" by decide])
  intro o ho
  rw [e] at ho
  simp only [List.mem_append, List.mem_cons] at ho
  rcases ho with ho | ho | rfl | ho | rfl | rfl | ho | rfl | ho | ho
  · exact hsys o ho
  · exact schedules_fields d o ho
  · exact hfan
  · exact axes_fields d o ho
  · exact fieldsOk_append (coolHeader_fields d _ _) hc.1
  · exact coolCurve_fields d
  · exact hc.2 o ho
  · exact fieldsOk_append (heatHeader_fields d _ _ _ _) hh.1
  · exact heatCurves_fields d eir o ho
  · exact hh.2 o ho

end Resdx.Idf
