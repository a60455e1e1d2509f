import Verif.Model.Idf
import Verif.Spec.Idf
import Verif.Lemmas.PyList

/-! # Lemmas about writing and reading EnergyPlus text -/

set_option linter.unusedSectionVars false
set_option linter.unusedSimpArgs false

namespace Resdx.Idf

open Spec.Idf

/-! ## Stripping -/

theorem dropWhile_all {l : List Char} (h : ∀ c ∈ l, isBlank c = true) (r : List Char) : (l ++ r).dropWhile isBlank = r.dropWhile isBlank := by
  induction l with
  | nil => rfl
  | cons c l ih =>
    rw [List.cons_append, List.dropWhile_cons_of_pos (h c List.mem_cons_self)]
    exact ih fun c hc => h c (List.mem_cons_of_mem _ hc)

theorem strip_blank_left {w l : List Char} (h : ∀ c ∈ w, isBlank c = true) : strip (w ++ l) = strip l := by
  unfold strip
  rw [dropWhile_all h]

/-! ## Scanning -/

theorem scan_text {v : List Char} (h : ∀ c ∈ v, c ≠ ',' ∧ c ≠ ';' ∧ c ≠ '!') (cur : List Char) (done : List Token) (rest : List Char) :
    scan false cur done (v ++ rest) = scan false (v.reverse ++ cur) done rest := by
  induction v generalizing cur with
  | nil => rfl
  | cons c v ih =>
    obtain ⟨h1, h2, h3⟩ := h c List.mem_cons_self
    rw [List.cons_append, scan]
    simp only [h1, h2, h3, decide_false, Bool.or_self, Bool.false_eq_true, if_false]
    rw [ih fun c hc => h c (List.mem_cons_of_mem _ hc)]
    simp

theorem scan_comment {n : List Char} (h : ∀ c ∈ n, c ≠ '\n') (cur : List Char) (t : Token) (done : List Token) (rest : List Char) :
    scan true cur (t :: done) (n ++ '\n' :: rest) = scan false cur ({ t with comment := t.comment ++ n } :: done) rest := by
  induction n generalizing t with
  | nil => simp [scan]
  | cons c n ih =>
    rw [List.cons_append, scan, if_neg (h c List.mem_cons_self), addComment, ih fun c hc => h c (List.mem_cons_of_mem _ hc)]
    simp

/-- A field with its comment, `sep` being the separator. -/
theorem scan_field {w v p n : List Char} {sep : Char} (hs : sep = ',' ∨ sep = ';') (hw : ∀ c ∈ w, isBlank c = true) (hv : Plain v) (hp : ∀ c ∈ p, c = ' ')
    (hn : ∀ c ∈ n, c ≠ '\n') (done : List Token) (rest : List Char) :
    scan false w.reverse done (' ' :: ' ' :: (v ++ sep :: (p ++ '!' :: '-' :: ' ' :: (n ++ '\n' :: rest)))) =
      scan false p.reverse (⟨v, sep = ';', '-' :: ' ' :: n⟩ :: done) rest := by
  have hv' : ∀ c ∈ ([' ', ' '] : List Char) ++ v, c ≠ ',' ∧ c ≠ ';' ∧ c ≠ '!' := by
    intro c hc
    rcases List.mem_append.1 hc with h | h
    · simp only [List.mem_cons, List.not_mem_nil, or_false, or_self] at h
      subst h; decide
    · obtain ⟨a, b, d, -⟩ := hv.noSeparator c h
      exact ⟨a, b, d⟩
  have hp' : ∀ c ∈ p, c ≠ ',' ∧ c ≠ ';' ∧ c ≠ '!' := fun c hc => by rw [hp c hc]; decide
  have e1 := scan_text hv' w.reverse done (sep :: (p ++ '!' :: '-' :: ' ' :: (n ++ '\n' :: rest)))
  simp only [List.cons_append, List.nil_append] at e1
  rw [e1, scan]
  have hsep : (decide (sep = ',') || decide (sep = ';')) = true := by rcases hs with rfl | rfl <;> decide
  rw [if_pos hsep, scan_text hp', scan]
  have hstrip : strip ((' ' :: ' ' :: v).reverse ++ w.reverse).reverse = v := by
    rw [List.reverse_append, List.reverse_reverse, List.reverse_reverse]
    rw [strip_blank_left hw]
    rw [show (' ' :: ' ' :: v) = [' ', ' '] ++ v from rfl, strip_blank_left (by decide), hv.stripped]
  rw [hstrip, List.append_nil]
  simp only [if_neg (show ¬ ((decide ('!' = ',') || decide ('!' = ';')) = true) by decide), if_true]
  have e2 := scan_comment (n := '-' :: ' ' :: n) (fun c hc => by
    simp only [List.mem_cons] at hc
    rcases hc with rfl | rfl | hc
    · decide
    · decide
    · exact hn c hc) p.reverse ⟨v, sep = ';', []⟩ done rest
  simpa using e2

/-! ## The text of an object -/

theorem toList_pad (s : String) (w : Nat) : (pad s w).toList = s.toList ++ List.replicate (w - s.length) ' ' := by
  simp [pad, String.toList_append]

/-- The fields as tokens. -/
def tokensOf : List IField → List Token
  | [] => []
  | [f] => [⟨f.value.toList, true, '-' :: ' ' :: f.name.toList⟩]
  | f :: l => ⟨f.value.toList, false, '-' :: ' ' :: f.name.toList⟩ :: tokensOf l

theorem scan_fieldLines (w : Nat) (fs : List IField) (hne : fs ≠ []) (h : ∀ f ∈ fs, Plain f.value.toList ∧ ∀ c ∈ f.name.toList, c ≠ '\n') (b : List Char)
    (hb : ∀ c ∈ b, isBlank c = true) (done : List Token) (rest : List Char) :
    ∃ b' : List Char, (∀ c ∈ b', isBlank c = true) ∧
      scan false b.reverse done ((fieldLines w fs).toList ++ rest) = scan false b'.reverse ((tokensOf fs).reverse ++ done) rest := by
  induction fs generalizing b done with
  | nil => exact absurd rfl hne
  | cons f l ih =>
    obtain ⟨hf, hn⟩ := h f List.mem_cons_self
    have hp : ∀ k : Nat, ∀ c ∈ List.replicate k ' ', c = ' ' := fun k c hc => List.eq_of_mem_replicate hc
    have hp' : ∀ k : Nat, ∀ c ∈ List.replicate k ' ', isBlank c = true := fun k c hc => by rw [hp k c hc]; decide
    cases l with
    | nil =>
      have key := scan_field (sep := ';') (p := List.replicate (w - (f.value ++ ";").length) ' ') (Or.inr rfl) hb hf (hp _) hn done ('\n' :: rest)
      have e : (fieldLines w [f]).toList ++ rest =
          ' ' :: ' ' :: (f.value.toList ++ ';' :: (List.replicate (w - (f.value ++ ";").length) ' ' ++ '!' :: '-' :: ' ' :: (f.name.toList ++ '\n' :: '\n' :: rest))) := by
        simp only [fieldLines, String.toList_append, toList_pad]
        simp
      refine ⟨List.replicate (w - (f.value ++ ";").length) ' ' ++ ['\n'], ?_, ?_⟩
      · intro c hc
        rcases List.mem_append.1 hc with hc | hc
        · exact hp' _ c hc
        · rw [List.mem_singleton.1 hc]; decide
      · rw [e, key, scan]
        simp only [if_neg (show ¬ ((decide ('\n' = ',') || decide ('\n' = ';')) = true) by decide), if_neg (show ¬ ('\n' = '!') by decide)]
        simp [tokensOf]
    | cons g l =>
      have key := scan_field (sep := ',') (p := List.replicate (w - (f.value ++ ",").length) ' ') (Or.inl rfl) hb hf (hp _) hn done
        ((fieldLines w (g :: l)).toList ++ rest)
      have e : (fieldLines w (f :: g :: l)).toList ++ rest =
          ' ' :: ' ' :: (f.value.toList ++ ',' :: (List.replicate (w - (f.value ++ ",").length) ' ' ++ '!' :: '-' :: ' ' :: (f.name.toList ++ '\n' ::
            ((fieldLines w (g :: l)).toList ++ rest)))) := by
        simp only [fieldLines, String.toList_append, toList_pad]
        simp
      obtain ⟨b', h1, h2⟩ := ih (by simp) (fun x hx => h x (List.mem_cons_of_mem _ hx)) (List.replicate (w - (f.value ++ ",").length) ' ') (hp' _)
        (⟨f.value.toList, false, '-' :: ' ' :: f.name.toList⟩ :: done)
      refine ⟨b', h1, ?_⟩
      rw [e, key]
      simp only [show decide (',' = ';') = false by decide]
      rw [h2]
      simp [tokensOf]

/-- An object as tokens. -/
def objTokens (o : IObj) : List Token := ⟨o.cls.toList, false, []⟩ :: tokensOf o.fields

theorem scan_object {o : IObj} {s : String} (hw : writeObject o = .ok s) (hc : Plain o.cls.toList)
    (h : ∀ f ∈ o.fields, Plain f.value.toList ∧ ∀ c ∈ f.name.toList, c ≠ '\n') (b : List Char) (hb : ∀ c ∈ b, isBlank c = true) (done : List Token) (rest : List Char) :
    ∃ b' : List Char, (∀ c ∈ b', isBlank c = true) ∧ scan false b.reverse done (s.toList ++ rest) = scan false b'.reverse ((objTokens o).reverse ++ done) rest := by
  simp only [writeObject, bind_eq_ok, pure_eq_ok, Except.ok.injEq] at hw
  obtain ⟨w, hsp, rfl⟩ := hw
  have hne : o.fields ≠ [] := by
    intro h0
    rw [h0] at hsp
    simp [spacing] at hsp
  obtain ⟨b', h1, h2⟩ := scan_fieldLines w o.fields hne h ['\n'] (by decide) (⟨o.cls.toList, false, []⟩ :: done) rest
  refine ⟨b', h1, ?_⟩
  have e : (o.cls ++ ",\n" ++ fieldLines w o.fields).toList ++ rest = o.cls.toList ++ ',' :: '\n' :: ((fieldLines w o.fields).toList ++ rest) := by
    simp only [String.toList_append]
    simp
  have hc' : ∀ c ∈ o.cls.toList, c ≠ ',' ∧ c ≠ ';' ∧ c ≠ '!' := fun c hc0 => by
    obtain ⟨a, b, d, -⟩ := hc.noSeparator c hc0
    exact ⟨a, b, d⟩
  rw [e, scan_text hc', scan, if_pos (by decide), scan, if_neg (by decide), if_neg (by decide)]
  have hstrip : strip (o.cls.toList.reverse ++ b.reverse).reverse = o.cls.toList := by
    rw [List.reverse_append, List.reverse_reverse, List.reverse_reverse, strip_blank_left hb, hc.stripped]
  rw [hstrip]
  have h2' := h2
  simp only [List.reverse_cons, List.reverse_nil, List.nil_append] at h2'
  simp only [show decide (',' = ';') = false by decide]
  rw [h2']
  simp [objTokens]

theorem foldl_append (l : List String) (s : String) : l.foldl (· ++ ·) s = s ++ l.foldl (· ++ ·) "" := by
  induction l generalizing s with
  | nil => simp
  | cons a l ih => rw [List.foldl_cons, ih, List.foldl_cons, ih ("" ++ a)]; simp [String.append_assoc]

theorem scan_objects {os : List IObj} {ss : List String} (hw : os.mapM writeObject = .ok ss) (h : ∀ o ∈ os, Plain o.cls.toList ∧
    ∀ f ∈ o.fields, Plain f.value.toList ∧ ∀ c ∈ f.name.toList, c ≠ '\n') (b : List Char) (hb : ∀ c ∈ b, isBlank c = true) (done : List Token) :
    scan false b.reverse done (ss.foldl (· ++ ·) "").toList = done.reverse ++ (os.flatMap objTokens) := by
  induction os generalizing ss b done with
  | nil =>
    simp only [List.mapM_nil, pure_eq_ok, Except.ok.injEq] at hw
    subst hw
    simp [scan]
  | cons o l ih =>
    simp only [List.mapM_cons, bind_eq_ok, pure_eq_ok, Except.ok.injEq] at hw
    obtain ⟨s, h1, ss', h2, rfl⟩ := hw
    obtain ⟨hc, hf⟩ := h o List.mem_cons_self
    obtain ⟨b', h3, h4⟩ := scan_object h1 hc hf b hb done (ss'.foldl (· ++ ·) "").toList
    rw [List.foldl_cons, foldl_append, String.toList_append, String.empty_append, h4, ih h2 (fun x hx => h x (List.mem_cons_of_mem _ hx)) b' h3]
    simp

theorem group_tokensOf (fs : List IField) (hne : fs ≠ []) (rest : List Token) : group (tokensOf fs ++ rest) = tokensOf fs :: group rest := by
  induction fs with
  | nil => exact absurd rfl hne
  | cons f l ih =>
    cases l with
    | nil => simp [tokensOf, group]
    | cons g l =>
      rw [tokensOf, List.cons_append, group, ih (by simp)]
      simp

theorem tokensOf_read (fs : List IField) : (tokensOf fs).map (fun t => (t.text, t.comment.drop 2)) = fs.map fun f => (f.value.toList, f.name.toList) := by
  induction fs with
  | nil => rfl
  | cons f l ih =>
    cases l with
    | nil => simp [tokensOf]
    | cons g l => rw [tokensOf, List.map_cons, ih] <;> simp

theorem group_objects (os : List IObj) (h : ∀ o ∈ os, o.fields ≠ []) : group (os.flatMap objTokens) = os.map objTokens := by
  induction os with
  | nil => rfl
  | cons o l ih =>
    rw [List.flatMap_cons, objTokens, List.cons_append, group, group_tokensOf _ (h o List.mem_cons_self), ih fun x hx => h x (List.mem_cons_of_mem _ hx)]
    simp [objTokens]

end Resdx.Idf
