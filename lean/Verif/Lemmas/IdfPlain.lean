import Verif.Lemmas.IdfRefs

/-! # Lemmas: the texts written for a unit hold no separators -/

set_option linter.unusedSectionVars false
set_option linter.unusedSimpArgs false

namespace Resdx.Idf

open Spec.Idf

variable {C K : Type} [Field K] [LinearOrder K] {fmt : K → Nat → String}

theorem strip_eq {l : List Char} (h1 : l.head?.all (fun c => !isBlank c) = true) (h2 : l.getLast?.all (fun c => !isBlank c) = true) : strip l = l := by
  have drop : ∀ l : List Char, l.head?.all (fun c => !isBlank c) = true → l.dropWhile isBlank = l := by
    intro l hl
    cases l with
    | nil => rfl
    | cons c l => simp at hl; simp [hl]
  unfold strip
  rw [drop l h1, drop l.reverse (by rw [List.head?_reverse]; exact h2), List.reverse_reverse]

theorem last_of_strip {l : List Char} (h : strip l = l) : l.getLast?.all (fun c => !isBlank c) = true := by
  have hd : ∀ l : List Char, (l.dropWhile isBlank).head?.all (fun c => !isBlank c) = true := by
    intro l
    induction l with
    | nil => rfl
    | cons c l ih =>
      by_cases hc : isBlank c = true
      · rw [List.dropWhile_cons_of_pos hc]; exact ih
      · rw [List.dropWhile_cons_of_neg hc]; simp [hc]
  rw [← h, strip, List.getLast?_reverse]
  exact hd _

instance (l : List Char) : Decidable (Plain l) :=
  decidable_of_iff ((∀ c ∈ l, c ≠ ',' ∧ c ≠ ';' ∧ c ≠ '!' ∧ c ≠ '\n') ∧ strip l = l) ⟨fun h => ⟨h.1, h.2⟩, fun h => ⟨h.1, h.2⟩⟩

/-- A beginning of names. -/
structure CleanStart (s : String) : Prop where
  noSeparator : ∀ c ∈ s.toList, c ≠ ',' ∧ c ≠ ';' ∧ c ≠ '!' ∧ c ≠ '\n'
  start : s.toList.head?.all (fun c => !isBlank c) = true

theorem plain_append {s t : String} (hs : CleanStart s) (ht : Plain t.toList) (hne : t.toList ≠ []) (hh : t.toList.head?.all (fun c => !isBlank c) = true) :
    Plain (s ++ t).toList := by
  rw [String.toList_append]
  refine ⟨fun c hc => ?_, strip_eq ?_ ?_⟩
  · rcases List.mem_append.1 hc with h | h
    · exact hs.noSeparator c h
    · exact ht.noSeparator c h
  · cases hl : s.toList with
    | nil => simpa using hh
    | cons c l => have := hs.start; rw [hl] at this; simpa using this
  · rw [List.getLast?_append_of_ne_nil _ hne]
    exact last_of_strip ht.stripped

theorem isDigit_clean {c : Char} (h : c.isDigit = true) : (c ≠ ',' ∧ c ≠ ';' ∧ c ≠ '!' ∧ c ≠ '\n') ∧ isBlank c = false := by
  have key : ∀ d : Char, d.isDigit = false → c ≠ d := fun d hd e => by rw [e, hd] at h; cases h
  refine ⟨⟨key _ (by decide), key _ (by decide), key _ (by decide), key _ (by decide)⟩, ?_⟩
  simp [isBlank, key ' ' (by decide), key '\n' (by decide), key '\t' (by decide), key '\r' (by decide)]

theorem plain_digits {s : String} (k : Nat) (hs : CleanStart s) : Plain (s ++ toString k).toList := by
  rw [String.toList_append, toString_toList]
  refine ⟨fun c hc => ?_, strip_eq ?_ ?_⟩
  · rcases List.mem_append.1 hc with h | h
    · exact hs.noSeparator c h
    · exact (isDigit_clean (toDigits_digit h)).1
  · cases hl : s.toList with
    | nil =>
      cases hd : Nat.toDigits 10 k with
      | nil => rfl
      | cons c l =>
        have := (isDigit_clean (toDigits_digit (k := k) (c := c) (by rw [hd]; simp))).2
        simp [this]
    | cons c l => have := hs.start; rw [hl] at this; simpa using this
  · rw [List.getLast?_append_of_ne_nil _ Nat.toDigits_ne_nil]
    cases hd : (Nat.toDigits 10 k).getLast? with
    | none => rfl
    | some c =>
      have := (isDigit_clean (toDigits_digit (List.mem_of_getLast? hd))).2
      simp [this]

theorem cleanStart_append {s t : String} (hs : CleanStart s) (ht : ∀ c ∈ t.toList, c ≠ ',' ∧ c ≠ ';' ∧ c ≠ '!' ∧ c ≠ '\n')
    (hh : t.toList.head?.all (fun c => !isBlank c) = true) : CleanStart (s ++ t) := by
  constructor
  · rw [String.toList_append]
    intro c hc
    rcases List.mem_append.1 hc with h | h
    · exact hs.noSeparator c h
    · exact ht c h
  · rw [String.toList_append]
    cases hl : s.toList with
    | nil => simpa using hh
    | cons c l => have := hs.start; rw [hl] at this; simpa using this

/-- A field that can be written and read. -/
def FieldPlain (f : IField) : Prop := Plain f.value.toList ∧ ∀ c ∈ f.name.toList, c ≠ '\n'

/-- All fields of a list can. -/
def FieldsPlain (l : List IField) : Prop := ∀ f ∈ l, FieldPlain f

theorem fp_nil : FieldsPlain [] := fun f hf => by simp at hf

theorem fp_cons {f : IField} {l : List IField} (h : FieldPlain f) (hl : FieldsPlain l) : FieldsPlain (f :: l) := List.forall_mem_cons.2 ⟨h, hl⟩

theorem fp_append {a b : List IField} (ha : FieldsPlain a) (hb : FieldsPlain b) : FieldsPlain (a ++ b) := List.forall_mem_append.2 ⟨ha, hb⟩

theorem no_newline_number {a : String} (k : Nat) (b : String) (ha : ∀ c ∈ a.toList, c ≠ '\n') (hb : ∀ c ∈ b.toList, c ≠ '\n') : ∀ c ∈ (a ++ toString k ++ b).toList, c ≠ '\n' := by
  intro c hc
  simp only [String.toList_append, List.mem_append, toString_toList] at hc
  rcases hc with (h | h) | h
  · exact ha c h
  · exact (isDigit_clean (toDigits_digit h)).1.2.2.2
  · exact hb c h

theorem fp_numbered {label : String} {l : List String} (hl : ∀ v ∈ l, Plain v.toList) (ha : ∀ c ∈ label.toList, c ≠ '\n') : FieldsPlain (numbered label l) := by
  intro f hf
  refine ⟨hl _ ?_, ?_⟩
  · rw [← numbered_values label l]
    exact List.mem_map_of_mem hf
  · obtain ⟨k, hk⟩ := numbered_names hf
    rw [hk]
    have := no_newline_number k "" ha (by simp)
    simpa using this

theorem fp_lit {v n : String} (hv : Plain v.toList) (hn : ∀ c ∈ n.toList, c ≠ '\n') : FieldPlain ⟨v, n⟩ := ⟨hv, hn⟩

section
variable {sys : String} {st : SystemType} {U : IdfUnit C K}

/-- What is assumed of the texts a unit's file is made of. -/
structure Clean (fmt : K → Nat → String) (sys : String) : Prop where
  number : ∀ x n, Plain (fmt x n).toList
  sys : CleanStart sys

theorem Clean.lit (h : Clean fmt sys) {t : String} (ht : Plain t.toList) (hne : t.toList ≠ []) (hh : t.toList.head?.all (fun c => !isBlank c) = true) :
    Plain (sys ++ t).toList := plain_append h.sys ht hne hh

theorem plain_nat (k : Nat) : Plain (toString k : String).toList := by
  have := plain_digits k (s := "") ⟨by simp, rfl⟩
  simpa using this

theorem plain_int (i : Int) : Plain (toString i : String).toList := by
  cases i with
  | ofNat n => exact plain_nat n
  | negSucc n =>
    have : (toString (Int.negSucc n) : String) = "-" ++ toString (n + 1) := rfl
    rw [this]
    exact plain_digits _ ⟨by decide, by decide⟩

/-- Settle a text. -/
local macro "text" h:term : tactic => `(tactic|
  first
  | with_reducible exact Clean.number $h _ _
  | (with_reducible refine Clean.lit $h ?_ ?_ ?_) <;> decide +kernel
  | with_reducible exact plain_nat _
  | with_reducible exact plain_int _
  | with_reducible assumption
  | decide +kernel)

/-- Settle the fields of a list of literal fields. -/
local macro "plain" h:term : tactic => `(tactic|
  (repeat' (first | with_reducible exact fp_nil | with_reducible refine fp_cons ?_ ?_)) <;>
    ((with_reducible refine fp_lit ?_ (by decide +kernel)); first | text $h | (split <;> text $h)))

theorem pthp_plain (h : Clean fmt sys) : ∀ o ∈ pthpObjects fmt sys, FieldsPlain o.fields := by
  unfold pthpObjects
  simp only [List.forall_mem_cons, List.not_mem_nil, false_imp_iff, implies_true, and_true]
  refine ⟨?_, ?_⟩ <;> plain h

theorem unitary_plain (h : Clean fmt sys) (ratio : K) : FieldsPlain (unitaryObject fmt sys ratio).fields := by
  unfold unitaryObject
  plain h

theorem schedules_plain (h : Clean fmt sys) : ∀ o ∈ schedules sys, FieldsPlain o.fields := by
  unfold schedules
  simp only [List.forall_mem_cons, List.not_mem_nil, false_imp_iff, implies_true, and_true]
  refine ⟨?_, ?_⟩ <;> plain h

theorem fanHeader_plain (h : Clean fmt sys) {flow : String} {m p : K} {power : String} {e : K} (h1 : Plain flow.toList) (h2 : Plain power.toList) :
    FieldsPlain (fanHeader fmt sys st U flow m p power e) := by
  unfold fanHeader
  plain h

theorem fanSpeed_plain (h : Clean fmt sys) (k : Nat) (f p : K) : FieldsPlain (fanSpeedFields fmt k f p) :=
  fp_cons ⟨h.number _ _, no_newline_number _ _ (by decide +kernel) (by decide +kernel)⟩ (fp_cons ⟨h.number _ _, no_newline_number _ _ (by decide +kernel) (by decide +kernel)⟩ fp_nil)

theorem axis_plain (h : Clean fmt sys) {name unitType : String} (hn : Plain name.toList) (hu : Plain unitType.toList) (rated : K) (values : List K) :
    FieldsPlain (independentVariable fmt name unitType rated values).fields := by
  refine fp_append ?_ (fp_numbered ?_ (by decide +kernel))
  · plain h
  · intro v hv
    obtain ⟨x, _, rfl⟩ := List.mem_map.1 hv
    exact h.number _ _

theorem table_plain (h : Clean fmt sys) {name listName unitType : String} {values : List K} {precision : Nat} {rated : Option K} (hn : Plain name.toList)
    (hl : Plain listName.toList) (hu : Plain unitType.toList) : FieldsPlain (tableObj fmt name listName unitType values precision rated).fields := by
  refine fp_append ?_ (fp_numbered ?_ (by decide +kernel))
  · plain h
  · intro v hv
    obtain ⟨x, _, rfl⟩ := List.mem_map.1 hv
    exact h.number _ _

theorem axes_plain (h : Clean fmt sys) : ∀ o ∈ axes fmt sys U, FieldsPlain o.fields := by
  unfold axes
  simp only [List.forall_mem_cons, List.not_mem_nil, false_imp_iff, implies_true, and_true]
  have ax : ∀ (t u : String) (r : K) (vs : List K), Plain t.toList → t.toList ≠ [] → t.toList.head?.all (fun c => !isBlank c) = true → Plain u.toList →
      FieldsPlain (independentVariable fmt (sys ++ t) u r vs).fields := fun t u r vs h1 h2 h3 h4 => axis_plain h (h.lit h1 h2 h3) h4 r vs
  refine ⟨ax _ _ _ _ (by decide +kernel) (by decide +kernel) (by decide +kernel) (by decide +kernel), ax _ _ _ _ (by decide +kernel) (by decide +kernel) (by decide +kernel) (by decide +kernel), ?_,
    ax _ _ _ _ (by decide +kernel) (by decide +kernel) (by decide +kernel) (by decide +kernel), ?_, ax _ _ _ _ (by decide +kernel) (by decide +kernel) (by decide +kernel) (by decide +kernel),
    ax _ _ _ _ (by decide +kernel) (by decide +kernel) (by decide +kernel) (by decide +kernel), ?_⟩ <;> plain h

theorem auto_plain (h : Clean fmt sys) (autosize : Bool) (x : K) : Plain (auto fmt autosize x).toList := by
  unfold auto
  split
  · decide +kernel
  · exact h.number _ _

theorem autoM_plain (h : Clean fmt sys) {autosize : Bool} {v : Py K} {s : String} (hs : autoM fmt autosize v = .ok s) : Plain s.toList := by
  unfold autoM at hs
  split at hs
  · cases hs; decide +kernel
  · simp only [bind_eq_ok, pure_eq_ok, Except.ok.injEq] at hs
    obtain ⟨x, _, rfl⟩ := hs
    exact h.number _ _

theorem coolHeader_plain (h : Clean fmt sys) {autosize : Bool} {cap : String} (h1 : Plain cap.toList) : FieldsPlain (coolHeader fmt sys autosize U cap) := by
  have h2 := auto_plain h autosize U.aFullFlow
  unfold coolHeader
  plain h

theorem coolCurve_plain (h : Clean fmt sys) : FieldsPlain (coolCurve fmt sys U).fields := by
  unfold coolCurve
  plain h

theorem heatHeader_plain (h : Clean fmt sys) {autosize : Bool} {cap tf : String} {on : K} (h1 : Plain cap.toList) (h3 : Plain tf.toList) :
    FieldsPlain (heatHeader fmt sys autosize U cap on tf) := by
  have h2 := auto_plain h autosize U.h1FullFlow
  unfold heatHeader
  plain h

theorem heatCurves_plain (h : Clean fmt sys) (eir : K) : ∀ o ∈ heatCurves fmt sys U eir, FieldsPlain o.fields := by
  unfold heatCurves
  simp only [List.forall_mem_cons, List.not_mem_nil, false_imp_iff, implies_true, and_true]
  refine ⟨?_, ?_⟩ <;> plain h

theorem Clean.table (h : Clean fmt sys) {t : String} (k : Nat) (ht : ∀ c ∈ t.toList, c ≠ ',' ∧ c ≠ ';' ∧ c ≠ '!' ∧ c ≠ '\n')
    (hh : t.toList.head?.all (fun c => !isBlank c) = true) : Plain (sys ++ t ++ toString k).toList := plain_digits k (cleanStart_append h.sys ht hh)

theorem coolSpeed_plain (h : Clean fmt sys) (k : Nat) (cap shr cop flow : K) : FieldsPlain (coolSpeedFields fmt sys k cap shr cop flow) := by
  have n : ∀ b : String, (∀ c ∈ b.toList, c ≠ '\n') → ∀ c ∈ ("Speed " ++ toString k ++ b).toList, c ≠ '\n' := fun b hb => no_newline_number k b (by decide +kernel) hb
  unfold coolSpeedFields
  exact fp_cons ⟨h.number _ _, n _ (by decide +kernel)⟩ (fp_cons ⟨h.number _ _, n _ (by decide +kernel)⟩ (fp_cons ⟨h.number _ _, n _ (by decide +kernel)⟩ (fp_cons ⟨h.number _ _, n _ (by decide +kernel)⟩
    (fp_cons ⟨(by decide +kernel : Plain "".toList), n _ (by decide +kernel)⟩ (fp_cons ⟨(by decide +kernel : Plain "".toList), n _ (by decide +kernel)⟩ (fp_cons ⟨h.table _ (by decide +kernel) (by decide +kernel), n _ (by decide +kernel)⟩
    (fp_cons ⟨h.table _ (by decide +kernel) (by decide +kernel), n _ (by decide +kernel)⟩ (fp_cons ⟨h.table _ (by decide +kernel) (by decide +kernel), n _ (by decide +kernel)⟩
    (fp_cons ⟨h.table _ (by decide +kernel) (by decide +kernel), n _ (by decide +kernel)⟩ fp_nil)))))))))

theorem heatSpeed_plain (h : Clean fmt sys) (k : Nat) (cap cop flow : K) : FieldsPlain (heatSpeedFields fmt sys k cap cop flow) := by
  have n : ∀ b : String, (∀ c ∈ b.toList, c ≠ '\n') → ∀ c ∈ ("Speed " ++ toString k ++ b).toList, c ≠ '\n' := fun b hb => no_newline_number k b (by decide +kernel) hb
  unfold heatSpeedFields
  exact fp_cons ⟨h.number _ _, n _ (by decide +kernel)⟩ (fp_cons ⟨h.number _ _, n _ (by decide +kernel)⟩ (fp_cons ⟨h.number _ _, n _ (by decide +kernel)⟩
    (fp_cons ⟨h.table _ (by decide +kernel) (by decide +kernel), n _ (by decide +kernel)⟩
    (fp_cons ⟨h.table _ (by decide +kernel) (by decide +kernel), n _ (by decide +kernel)⟩ (fp_cons ⟨h.table _ (by decide +kernel) (by decide +kernel), n _ (by decide +kernel)⟩
    (fp_cons ⟨h.table _ (by decide +kernel) (by decide +kernel), n _ (by decide +kernel)⟩ fp_nil))))))

theorem speedTables_plain {mode : String} {normalize : Bool} {setRatio : C → K → C} {make : Option (K × K) → Py C} {cap cop : C → Py K} {indoor outdoor : List K}
    {c0 : C} {q0 cop0 : K} {k : Nat} {ts : List IObj} (h : Clean fmt sys) (hm : mode = "Cooling" ∨ mode = "Heating")
    (hok : speedTables fmt sys mode normalize setRatio make cap cop indoor outdoor c0 q0 cop0 k = .ok ts) :
    ∀ o ∈ ts, Plain o.cls.toList ∧ FieldsPlain o.fields := by
  obtain ⟨ff, ft, _, _, rfl⟩ := speedTables_ok hok
  have t : ∀ s : String, (∀ c ∈ s.toList, c ≠ ',' ∧ c ≠ ';' ∧ c ≠ '!' ∧ c ≠ '\n') → s.toList.head?.all (fun c => !isBlank c) = true →
      Plain (sys ++ s ++ toString k).toList := fun s h1 h2 => h.table k h1 h2
  have hl : Plain (sys ++ "fFF List").toList := h.lit (by decide +kernel) (by decide +kernel) (by decide +kernel)
  simp only [List.forall_mem_cons, List.not_mem_nil, false_imp_iff, implies_true, and_true]
  rcases hm with rfl | rfl
  · have hl2 : Plain (sys ++ "Cooling" ++ " fT List").toList := by rw [String.append_assoc]; exact h.lit (by decide +kernel) (by decide +kernel) (by decide +kernel)
    have assoc : ∀ b d : String, sys ++ "Cooling" ++ b ++ d = sys ++ ("Cooling" ++ b) ++ d := fun b d => by rw [String.append_assoc (s₁ := sys)]
    rw [assoc, assoc, assoc, assoc]
    exact ⟨⟨(by decide +kernel : Plain "Table:Lookup".toList), table_plain h (t _ (by decide +kernel) (by decide +kernel)) hl (by decide +kernel)⟩, ⟨(by decide +kernel : Plain "Table:Lookup".toList), table_plain h (t _ (by decide +kernel) (by decide +kernel)) hl (by decide +kernel)⟩,
      ⟨(by decide +kernel : Plain "Table:Lookup".toList), table_plain h (t _ (by decide +kernel) (by decide +kernel)) hl2 (by decide +kernel)⟩, (by decide +kernel : Plain "Table:Lookup".toList), table_plain h (t _ (by decide +kernel) (by decide +kernel)) hl2 (by decide +kernel)⟩
  · have hl2 : Plain (sys ++ "Heating" ++ " fT List").toList := by rw [String.append_assoc]; exact h.lit (by decide +kernel) (by decide +kernel) (by decide +kernel)
    have assoc : ∀ b d : String, sys ++ "Heating" ++ b ++ d = sys ++ ("Heating" ++ b) ++ d := fun b d => by rw [String.append_assoc (s₁ := sys)]
    rw [assoc, assoc, assoc, assoc]
    exact ⟨⟨(by decide +kernel : Plain "Table:Lookup".toList), table_plain h (t _ (by decide +kernel) (by decide +kernel)) hl (by decide +kernel)⟩, ⟨(by decide +kernel : Plain "Table:Lookup".toList), table_plain h (t _ (by decide +kernel) (by decide +kernel)) hl (by decide +kernel)⟩,
      ⟨(by decide +kernel : Plain "Table:Lookup".toList), table_plain h (t _ (by decide +kernel) (by decide +kernel)) hl2 (by decide +kernel)⟩, (by decide +kernel : Plain "Table:Lookup".toList), table_plain h (t _ (by decide +kernel) (by decide +kernel)) hl2 (by decide +kernel)⟩

theorem cls_plain (l : List IObj) (h : ∀ o ∈ l, Plain o.cls.toList) (hf : ∀ o ∈ l, FieldsPlain o.fields) : ∀ o ∈ l, Plain o.cls.toList ∧ FieldsPlain o.fields :=
  fun o ho => ⟨h o ho, hf o ho⟩

end

/-- Every text of the file can be written and read. -/
theorem idf_plain {name : Option String} {st : SystemType} {autosize normalize : Bool} {U : IdfUnit C K} {objs : List IObj} (hc : Clean fmt (prefixOf name))
    (h : idfObjects fmt name st autosize normalize U = .ok objs) : ∀ o ∈ objs, Plain o.cls.toList ∧ FieldsPlain o.fields := by
  obtain ⟨system, fan, ccap, cs, hcap, on, tf, eir, hs, h1, h2, h3, h4, h5, h6, h7, h8, h9, rfl⟩ := idfObjects_ok h
  have hsys : ∀ o ∈ system, Plain o.cls.toList ∧ FieldsPlain o.fields := by
    cases st with
    | unitarySystem =>
      simp only [systemObjects, bind_eq_ok, pure_eq_ok, Except.ok.injEq] at h1
      obtain ⟨_, _, _, _, _, _, rfl⟩ := h1
      simp only [List.forall_mem_cons, List.not_mem_nil, false_imp_iff, implies_true, and_true]
      exact ⟨(by decide +kernel : Plain ("AirLoopHVAC:UnitarySystem".toList)), unitary_plain hc _⟩
    | pthp =>
      simp only [systemObjects, Except.ok.injEq] at h1
      rw [← h1]
      refine cls_plain _ ?_ (pthp_plain hc)
      unfold pthpObjects
      simp only [List.forall_mem_cons, List.not_mem_nil, false_imp_iff, implies_true, and_true]
      exact ⟨by decide +kernel, by decide +kernel⟩
  have hfan : Plain fan.cls.toList ∧ FieldsPlain fan.fields := by
    obtain ⟨_, _, _, _, _, _, _, _, _, _, _, _, _, hfl, _, hpw, _, hsp, hf⟩ := fanObject_ok h2
    rw [hf]
    refine ⟨(by decide +kernel : Plain "Fan:SystemModel".toList), fp_append (fanHeader_plain hc (autoM_plain hc hfl) (autoM_plain hc hpw)) (forall₂_flatten hsp ?_)⟩
    rintro a b ⟨f, p, _, _, rfl⟩
    exact fanSpeed_plain hc _ _ _
  have htf : Plain tf.toList := by
    unfold timeFractionField at h7
    split at h7
    · simp only [bind_eq_ok, pure_eq_ok, Except.ok.injEq] at h7
      obtain ⟨x, _, rfl⟩ := h7
      exact hc.number _ _
    · cases h7; decide +kernel
  have hcool := speeds_forall h4 FieldPlain (fun o => Plain o.cls.toList ∧ FieldsPlain o.fields) (by
    intro s hs x hx
    obtain ⟨_, _, _, _, _, _, _, _, hx1, hx2⟩ := coolSpeed_ok hx
    exact ⟨by rw [hx1]; exact coolSpeed_plain hc _ _ _ _ _, speedTables_plain hc (.inl rfl) hx2⟩)
  have hheat := speeds_forall h9 FieldPlain (fun o => Plain o.cls.toList ∧ FieldsPlain o.fields) (by
    intro s hs x hx
    obtain ⟨_, _, _, _, _, _, hx1, hx2⟩ := heatSpeed_ok hx
    exact ⟨by rw [hx1]; exact heatSpeed_plain hc _ _ _ _, speedTables_plain hc (.inr rfl) hx2⟩)
  have hsch : ∀ o ∈ schedules (prefixOf name), Plain o.cls.toList := by simp [schedules]; decide +kernel
  have hax : ∀ o ∈ axes fmt (prefixOf name) U, Plain o.cls.toList := by
    unfold axes
    simp only [List.forall_mem_cons, List.not_mem_nil, false_imp_iff, implies_true, and_true]
    exact ⟨(by decide +kernel : Plain "Table:IndependentVariable".toList), (by decide +kernel : Plain "Table:IndependentVariable".toList), by decide +kernel,
      (by decide +kernel : Plain "Table:IndependentVariable".toList), by decide +kernel, (by decide +kernel : Plain "Table:IndependentVariable".toList),
      (by decide +kernel : Plain "Table:IndependentVariable".toList), by decide +kernel⟩
  have hcu : ∀ o ∈ heatCurves fmt (prefixOf name) U eir, Plain o.cls.toList := by
    unfold heatCurves
    simp only [List.forall_mem_cons, List.not_mem_nil, false_imp_iff, implies_true, and_true]
    exact ⟨by decide +kernel, by decide +kernel⟩
  intro o ho
  simp only [List.mem_append, List.mem_cons] at ho
  rcases ho with ho | ho | rfl | ho | rfl | rfl | ho | rfl | ho | ho
  · exact hsys o ho
  · exact ⟨hsch o ho, schedules_plain hc o ho⟩
  · exact hfan
  · exact ⟨hax o ho, axes_plain hc o ho⟩
  · exact ⟨(by decide +kernel : Plain "Coil:Cooling:DX:VariableSpeed".toList), fp_append (coolHeader_plain hc (autoM_plain hc h3)) hcool.1⟩
  · exact ⟨(by decide +kernel : Plain "Curve:Linear".toList), coolCurve_plain hc⟩
  · exact hcool.2 o ho
  · exact ⟨(by decide +kernel : Plain "Coil:Heating:DX:VariableSpeed".toList), fp_append (heatHeader_plain hc (autoM_plain hc h5) htf) hheat.1⟩
  · exact ⟨hcu o ho, heatCurves_plain hc eir o ho⟩
  · exact hheat.2 o ho

end Resdx.Idf
