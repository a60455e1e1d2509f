import Verif.Lemmas.Tabular

set_option linter.unusedSectionVars false
set_option linter.unusedSimpArgs false

/-! # Helper lemmas for `add_temperature` -/

namespace Resdx.Tabular

open Spec Util

variable {K : Type} [Field K] [LinearOrder K]

theorem bisectRight_spec {l : List K} (hl : l.Pairwise (· < ·)) (x : K) (fuel lo hi : Nat) (h1 : lo ≤ hi) (h2 : hi ≤ l.length)
    (hf : hi - lo ≤ fuel) (hlo : ∀ (j : Nat) (y : K), j < lo → l[j]? = some y → y ≤ x)
    (hhi : ∀ (j : Nat) (y : K), hi ≤ j → l[j]? = some y → x < y) :
    bisectRight l x fuel lo hi ≤ l.length ∧
    (∀ (j : Nat) (y : K), j < bisectRight l x fuel lo hi → l[j]? = some y → y ≤ x) ∧
    (∀ (j : Nat) (y : K), bisectRight l x fuel lo hi ≤ j → l[j]? = some y → x < y) := by
  induction fuel generalizing lo hi with
  | zero =>
    have : lo = hi := by omega
    subst this
    exact ⟨by simpa [bisectRight] using h2, by simpa [bisectRight] using hlo, by simpa [bisectRight] using hhi⟩
  | succ fuel ih =>
    simp only [bisectRight]
    by_cases hlt : lo < hi
    · have hmid : (lo + hi) / 2 < l.length := by omega
      have hget : l[(lo + hi) / 2]? = some l[(lo + hi) / 2] := List.getElem?_eq_getElem hmid
      rw [if_pos hlt, List.getD_eq_getElem?_getD, hget, Option.getD_some]
      by_cases hx : x < l[(lo + hi) / 2]
      · rw [if_pos hx]
        refine ih lo _ (by omega) (by omega) (by omega) hlo ?_
        intro j y hj hy
        rcases Nat.lt_or_eq_of_le hj with h | h
        · exact lt_trans hx ((Table.sorted_lt_iff hl hget hy).2 h)
        · subst h; rw [hget] at hy; simp at hy; rwa [← hy]
      · rw [if_neg hx]
        refine ih _ hi (by omega) (by omega) (by omega) ?_ hhi
        intro j y hj hy
        rcases Nat.lt_or_eq_of_le (Nat.lt_succ_iff.1 hj) with h | h
        · exact ((Table.sorted_lt_iff hl hy hget).2 h).le.trans (not_lt.1 hx)
        · subst h; rw [hget] at hy; simp at hy; rw [← hy]; exact not_lt.1 hx
    · rw [if_neg hlt]
      have : lo = hi := by omega
      subst this
      exact ⟨h2, hlo, hhi⟩

/-- Where `insort` puts a new element. -/
def insPos (l : List K) (x : K) : Nat := bisectRight l x l.length 0 l.length

theorem insPos_spec {l : List K} (hl : l.Pairwise (· < ·)) {x : K} (hx : x ∉ l) :
    insPos l x ≤ l.length ∧ (∀ (j : Nat) (y : K), j < insPos l x → l[j]? = some y → y < x) ∧
    (∀ (j : Nat) (y : K), insPos l x ≤ j → l[j]? = some y → x < y) := by
  obtain ⟨h1, h2, h3⟩ := bisectRight_spec hl x l.length 0 l.length (Nat.zero_le _) le_rfl (by omega)
    (by intro j y hj; omega) (by
      intro j y hj hy
      have := (List.getElem?_eq_some_iff.1 hy).1
      omega)
  refine ⟨h1, ?_, h3⟩
  intro j y hj hy
  refine lt_of_le_of_ne (h2 j y hj hy) ?_
  rintro rfl
  exact hx (List.mem_of_getElem? hy)

section
variable {α : Type}

theorem pyInsert_length (l : List α) (r : Nat) (x : α) : (pyInsert l r x).length = l.length + 1 := by
  simp [pyInsert]; omega

theorem pyInsert_lt (l : List α) {r j : Nat} (x : α) (hr : r ≤ l.length) (hj : j < r) : (pyInsert l r x)[j]? = l[j]? := by
  have : j < (l.take r).length := by simp; omega
  rw [pyInsert, List.getElem?_append_left this, List.getElem?_take, if_pos hj]

theorem pyInsert_self (l : List α) {r : Nat} (x : α) (hr : r ≤ l.length) : (pyInsert l r x)[r]? = some x := by
  have h1 : (l.take r).length = r := by simp; omega
  rw [pyInsert, List.getElem?_append_right (by omega), h1]; simp

theorem pyInsert_gt (l : List α) {r j : Nat} (x : α) (hr : r ≤ l.length) (hj : r ≤ j) :
    (pyInsert l r x)[j + 1]? = l[j]? := by
  have h1 : (l.take r).length = r := by simp; omega
  rw [pyInsert, List.getElem?_append_right (by omega), h1]
  have : j + 1 - r = (j - r) + 1 := by omega
  rw [this, List.getElem?_cons_succ, List.getElem?_drop]
  congr 1; omega

theorem mem_pyInsert (l : List α) (r : Nat) (x y : α) : y ∈ pyInsert l r x ↔ y = x ∨ y ∈ l := by
  rw [pyInsert, List.mem_append, List.mem_cons]
  constructor
  · rintro (h | h | h)
    · exact .inr (List.mem_of_mem_take h)
    · exact .inl h
    · exact .inr (List.mem_of_mem_drop h)
  · rintro (h | h)
    · exact .inr (.inl h)
    · rw [← List.take_append_drop r l, List.mem_append] at h
      rcases h with h | h
      · exact .inl h
      · exact .inr (.inr h)

end

theorem insort_sorted {l : List K} (hl : l.Pairwise (· < ·)) {x : K} (hx : x ∉ l) : (insort l x).Pairwise (· < ·) := by
  obtain ⟨h1, h2, h3⟩ := insPos_spec hl hx
  have : insort l x = pyInsert l (insPos l x) x := rfl
  rw [this, pyInsert, List.pairwise_append, List.pairwise_cons]
  refine ⟨hl.sublist (List.take_sublist _ _), ⟨?_, hl.sublist (List.drop_sublist _ _)⟩, ?_⟩
  · intro y hy
    obtain ⟨j, hj⟩ := List.mem_iff_getElem?.1 hy
    rw [List.getElem?_drop] at hj
    exact h3 _ _ (by omega) hj
  · intro a ha b hb
    obtain ⟨j, hj⟩ := List.mem_iff_getElem?.1 ha
    rw [List.getElem?_take] at hj
    split at hj
    · rename_i hjr
      have hax := h2 j a hjr hj
      rcases List.mem_cons.1 hb with rfl | hb
      · exact hax
      · obtain ⟨k, hk⟩ := List.mem_iff_getElem?.1 hb
        rw [List.getElem?_drop] at hk
        exact lt_trans hax (h3 _ _ (by omega) hk)
    · simp at hj

theorem insPos_index {l : List K} (hl : l.Pairwise (· < ·)) {x : K} (hx : x ∉ l) :
    pyIndex (insort l x) x = .ok (insPos l x) :=
  pyIndex_sorted (insort_sorted hl hx) (pyInsert_self l x (insPos_spec hl hx).1)

theorem insPos_below {l : List K} (hl : l.Pairwise (· < ·)) {x : K} (h : ∀ y ∈ l, x < y) : insPos l x = 0 := by
  have hx : x ∉ l := fun hx => lt_irrefl _ (h x hx)
  obtain ⟨h1, h2, h3⟩ := insPos_spec hl hx
  by_contra hne
  have hlt : 0 < l.length := by omega
  have := h2 0 _ (by omega) (List.getElem?_eq_getElem hlt)
  exact absurd (h _ (List.getElem_mem hlt)) (not_lt_of_gt this)

theorem insPos_above {l : List K} (hl : l.Pairwise (· < ·)) {x : K} (h : ∀ y ∈ l, y < x) : insPos l x = l.length := by
  have hx : x ∉ l := fun hx => lt_irrefl _ (h x hx)
  obtain ⟨h1, h2, h3⟩ := insPos_spec hl hx
  by_contra hne
  have hlt : insPos l x < l.length := by omega
  have := h3 _ _ le_rfl (List.getElem?_eq_getElem hlt)
  exact absurd (h _ (List.getElem_mem hlt)) (not_lt_of_gt this)

theorem insPos_between {l : List K} (hl : l.Pairwise (· < ·)) {x a b : K} {i : Nat} (ha : l[i]? = some a)
    (hb : l[i + 1]? = some b) (hax : a < x) (hxb : x < b) : insPos l x = i + 1 := by
  have hx : x ∉ l := by
    intro hx
    obtain ⟨j, hj⟩ := List.mem_iff_getElem?.1 hx
    have h1 := (Table.sorted_lt_iff hl ha hj).1 hax
    have h2 := (Table.sorted_lt_iff hl hj hb).1 hxb
    omega
  obtain ⟨h1, h2, h3⟩ := insPos_spec hl hx
  rcases Nat.lt_trichotomy (insPos l x) (i + 1) with h | h | h
  · exact absurd (h3 i a (by omega) ha) (not_lt_of_gt hax)
  · exact h
  · exact absurd (h2 (i + 1) b (by omega) hb) (not_lt_of_gt hxb)

/-! ## The insertion -/

namespace Table

/-- The table with the empty row inserted. -/
def inserted (t : Table K) (x : K) : Table K :=
  { t with temperatures := insort t.temperatures x
           data := pyInsert t.data (insPos t.temperatures x) (List.replicate t.nSpeeds none) }

theorem insertEmpty_run {t : Table K} (h : TableWF t) {x : K} (hx : x ∉ t.temperatures) :
    insertEmpty x t = (.ok (insPos t.temperatures x), inserted t x) := by
  simp only [insertEmpty, PyM.bind_run, PyM.modify_run, PyM.get_run, PyM.liftM_run, PyM.monadLift_run,
    insPos_index h.sorted hx, PyM.pure_run, inserted]

theorem inserted_wf {t : Table K} (h : TableWF t) {x : K} (hx : x ∉ t.temperatures) : TableWF (inserted t x) := by
  refine ⟨insort_sorted h.sorted hx, ?_, ?_⟩
  · simp only [inserted, insort, pyInsert_length, h.rows]
  · intro row hrow
    simp only [inserted, mem_pyInsert] at hrow
    rcases hrow with h1 | h1
    · rw [h1]; simp [inserted]
    · exact h.cols row h1

theorem inserted_pos_le {t : Table K} (h : TableWF t) {x : K} (hx : x ∉ t.temperatures) :
    insPos t.temperatures x ≤ t.data.length := by rw [h.rows]; exact (insPos_spec h.sorted hx).1

/-- The data rows move with their temperatures. -/
theorem inserted_at {t : Table K} (h : TableWF t) {x : K} (hx : x ∉ t.temperatures) {i : Nat} {y : K}
    (hi : t.temperatures[i]? = some y) :
    ∃ j, j ≠ insPos t.temperatures x ∧ (inserted t x).temperatures[j]? = some y ∧
      ∀ s, at? (inserted t x).data j s = at? t.data i s := by
  have hp := (insPos_spec h.sorted hx).1
  have hp' := inserted_pos_le h hx
  by_cases hlt : i < insPos t.temperatures x
  · refine ⟨i, by omega, ?_, ?_⟩
    · simp only [inserted, insort]; rw [← hi]; exact pyInsert_lt _ _ hp hlt
    · intro s; simp only [inserted, at?, pyInsert_lt _ _ hp' hlt]
  · refine ⟨i + 1, by omega, ?_, ?_⟩
    · simp only [inserted, insort]; rw [← hi]; exact pyInsert_gt _ _ hp (not_lt.1 hlt)
    · intro s; simp only [inserted, at?, pyInsert_gt _ _ hp' (not_lt.1 hlt)]

/-! ## Filling the row -/

/-- Two tables that agree outside row `ti`. -/
def SameBut (ti : Nat) (t t' : Table K) : Prop :=
  t'.temperatures = t.temperatures ∧ t'.nSpeeds = t.nSpeeds ∧ t'.interpolator = t.interpolator ∧
  t'.data.length = t.data.length ∧ (∀ n, (∀ row ∈ t.data, row.length = n) → ∀ row ∈ t'.data, row.length = n) ∧
  ∀ i s, i ≠ ti → at? t'.data i s = at? t.data i s

theorem SameBut.refl (ti : Nat) (t : Table K) : SameBut ti t t := ⟨rfl, rfl, rfl, rfl, fun _ h => h, fun _ _ _ => rfl⟩

theorem SameBut.trans {ti : Nat} {a b c : Table K} (h1 : SameBut ti a b) (h2 : SameBut ti b c) : SameBut ti a c :=
  ⟨h2.1.trans h1.1, h2.2.1.trans h1.2.1, h2.2.2.1.trans h1.2.2.1, h2.2.2.2.1.trans h1.2.2.2.1,
    fun n h => h2.2.2.2.2.1 n (h1.2.2.2.2.1 n h), fun i s h => (h2.2.2.2.2.2 i s h).trans (h1.2.2.2.2.2 i s h)⟩

theorem SameBut.wf {ti : Nat} {t t' : Table K} (h : SameBut ti t t') (hw : TableWF t) : TableWF t' :=
  ⟨by rw [h.1]; exact hw.sorted, by rw [h.2.2.2.1, h.1]; exact hw.rows,
    by rw [h.2.1]; exact h.2.2.2.2.1 _ hw.cols⟩

theorem sameBut_upd (ti s : Nat) (v : Option K) (t : Table K) : SameBut ti t { t with data := upd t.data ti s v } :=
  ⟨rfl, rfl, rfl, upd_length _ _ _ _, fun _ h => cols_upd h _ _ _, fun _ _ h => at?_upd_ne _ _ (.inl h)⟩

theorem store_sameBut (t : Table K) (ti s : Nat) (v : Option K) : SameBut ti t (store (ti : Int) (s : Int) v t).2 := by
  cases h : at? t.data ti s with
  | none => rw [store_error v h]; exact .refl _ _
  | some c => rw [store_ok v h]; exact sameBut_upd _ _ _ _

theorem fillCell_sameBut (ti si : Nat) (value : List (List (Option K)) → Int → Py (Option K)) (t : Table K) :
    SameBut ti t (fillCell ti value si t).2 := by
  simp only [fillCell, PyM.bind_run, PyM.get_run, PyM.liftM_run, PyM.monadLift_run]
  cases h : value t.data si with
  | error e => exact .refl _ _
  | ok v => exact store_sameBut _ _ _ _

theorem fillRow_sameBut (ti : Nat) (value : List (List (Option K)) → Int → Py (Option K)) (l : List Nat) (t : Table K) :
    SameBut ti t (fillRow ti value l t).2 := by
  induction l generalizing t with
  | nil => exact .refl _ _
  | cons si l ih =>
    have h1 := fillCell_sameBut ti si value t
    simp only [fillRow, PyM.bind_run]
    generalize fillCell ti value si t = r at h1
    obtain ⟨r1, t1⟩ := r
    cases r1 with
    | error e => exact h1
    | ok u => exact h1.trans (ih t1)

theorem fillNew_sameBut (x : K) (e : Bool) (limit : Option K) (ti : Nat) (t : Table K) :
    SameBut ti t (fillNew x e limit ti t).2 := by
  simp only [fillNew, PyM.bind_run, PyM.get_run]
  split
  · simp only [PyM.bind_run, PyM.liftM_run, PyM.monadLift_run]
    cases pyGetI t.temperatures 1 with
    | error e => exact .refl _ _
    | ok a =>
      simp only [PyM.bind_run, PyM.liftM_run, PyM.monadLift_run]
      cases pyGetI t.temperatures 2 with
      | error e => exact .refl _ _
      | ok b => exact fillRow_sameBut _ _ _ _
  · split
    · simp only [PyM.bind_run, PyM.liftM_run, PyM.monadLift_run]
      cases pyGetI t.temperatures ((ti : Int) - 1) with
      | error e => exact .refl _ _
      | ok a =>
        simp only [PyM.bind_run, PyM.liftM_run, PyM.monadLift_run]
        cases pyGetI t.temperatures ((ti : Int) - 2) with
        | error e => exact .refl _ _
        | ok b => exact fillRow_sameBut _ _ _ _
    · simp only [PyM.bind_run, PyM.liftM_run, PyM.monadLift_run]
      cases pyGetI t.temperatures ((ti : Int) - 1) with
      | error e => exact .refl _ _
      | ok a =>
        simp only [PyM.bind_run, PyM.liftM_run, PyM.monadLift_run]
        cases pyGetI t.temperatures 1 with
        | error e => exact .refl _ _
        | ok b => exact fillRow_sameBut _ _ _ _

theorem addTemperature_new {t : Table K} (h : TableWF t) {x : K} (hx : x ∉ t.temperatures) (e : Bool) (limit : Option K) :
    addTemperature x e limit t = fillNew x e limit (insPos t.temperatures x) (inserted t x) := by
  simp only [addTemperature, PyM.bind_run, PyM.get_run, if_neg hx, insertEmpty_run h hx]

theorem addTemperature_present {t : Table K} {x : K} (hx : x ∈ t.temperatures) (e : Bool) (limit : Option K) :
    addTemperature x e limit t = (.error .runtime, t) := by
  simp only [addTemperature, PyM.bind_run, PyM.get_run, if_pos hx, PyM.raise_run]

/-- A value function that does not look at the row being filled. -/
def Local (ti : Nat) (value : List (List (Option K)) → Int → Py (Option K)) : Prop :=
  ∀ (t t' : Table K), SameBut ti t t' → ∀ si : Int, value t'.data si = value t.data si

theorem fillRow_ok {ti : Nat} {value : List (List (Option K)) → Int → Py (Option K)} (hloc : Local ti value)
    {t : Table K} (hw : TableWF t) (hti : ti < t.data.length) (v : Nat → Option K) (l : List Nat)
    (hl : ∀ s ∈ l, s < t.nSpeeds) (hv : ∀ s ∈ l, value t.data (s : Int) = .ok (v s)) :
    ∃ t', fillRow ti value l t = (.ok (), t') ∧ SameBut ti t t' ∧ (∀ s ∈ l, at? t'.data ti s = some (v s)) ∧
      ∀ s, s ∉ l → at? t'.data ti s = at? t.data ti s := by
  induction l generalizing t with
  | nil => exact ⟨t, rfl, .refl _ _, by simp, by simp⟩
  | cons si l ih =>
    obtain ⟨c, hc⟩ := at?_isSome hw.cols hti (hl si (by simp))
    have h1 : fillCell ti value si t = (.ok (), { t with data := upd t.data ti si (v si) }) := by
      simp only [fillCell, PyM.bind_run, PyM.get_run, PyM.liftM_run, PyM.monadLift_run, hv si (by simp), store_ok _ hc]
    have hsame := sameBut_upd ti si (v si) t
    obtain ⟨t', h2, h3, h4, h5⟩ := ih (t := { t with data := upd t.data ti si (v si) }) (hsame.wf hw)
      (by rw [upd_length]; exact hti) (fun s hs => hl s (by simp [hs]))
      (fun s hs => by rw [hloc _ _ hsame]; exact hv s (by simp [hs]))
    refine ⟨t', by simp only [fillRow, PyM.bind_run, h1, h2], hsame.trans h3, ?_, ?_⟩
    · intro s hs
      by_cases hs' : s ∈ l
      · exact h4 s hs'
      · have : s = si := by simpa [hs'] using hs
        subst this
        rw [h5 s hs']; exact at?_upd_self _ hc
    · intro s hs
      rw [List.mem_cons, not_or] at hs
      rw [h5 s hs.2]
      exact at?_upd_ne _ _ (.inr hs.1)

theorem cell_sameBut {ti i : Nat} {t t' : Table K} (h : SameBut ti t t') (hi : i ≠ ti) (si : Int) :
    cell t'.data (i : Int) si = cell t.data (i : Int) si := by
  have hrow : t'.data[i]? = t.data[i]? := by
    apply Option.ext
    intro row
    have hext : ∀ (a b : List (List (Option K))), (∀ s, at? a i s = at? b i s) → a.length = b.length →
        a[i]? = some row → b[i]? = some row := by
      intro a b hab hlen ha
      have hia := (List.getElem?_eq_some_iff.1 ha).1
      have hib : i < b.length := by omega
      rw [List.getElem?_eq_getElem hib]
      congr 1
      apply List.ext_getElem?
      intro s
      have := hab s
      simp [at?, ha, List.getElem?_eq_getElem hib] at this
      exact this.symm
    exact ⟨hext _ _ (fun s => h.2.2.2.2.2 i s hi) h.2.2.2.1, hext _ _ (fun s => (h.2.2.2.2.2 i s hi).symm) h.2.2.2.1.symm⟩
  simp only [cell, pyGetI_nat_eq, hrow]

theorem inserted_below {t : Table K} (h : TableWF t) {x t1 t2 : K} {rest : List K} (ht : t.temperatures = t1 :: t2 :: rest)
    (hx : x < t1) : x ∉ t.temperatures ∧ insPos t.temperatures x = 0 ∧ (inserted t x).temperatures = x :: t1 :: t2 :: rest ∧
      ∀ (i s : Nat), at? (inserted t x).data (i + 1) s = at? t.data i s := by
  have hall : ∀ y ∈ t.temperatures, x < y := by
    intro y hy
    have hs := h.sorted; rw [ht] at hs hy
    rcases List.mem_cons.1 hy with rfl | hy
    · exact hx
    · exact lt_trans hx ((List.pairwise_cons.1 hs).1 y hy)
  have hpos := insPos_below h.sorted hall
  refine ⟨fun hc => lt_irrefl _ (hall x hc), hpos, ?_, ?_⟩
  · simp only [inserted, insort]
    rw [show bisectRight t.temperatures x t.temperatures.length 0 t.temperatures.length = 0 from hpos, ht]; rfl
  · intro i s
    simp only [at?, inserted, hpos, pyInsert_gt _ _ (Nat.zero_le _) (Nat.zero_le _)]

theorem below_cells {t : Table K} (h : TableWF t) {x t1 t2 : K} {rest : List K} (ht : t.temperatures = t1 :: t2 :: rest)
    (hx : x < t1) {s : Nat} (_hs : s < t.nSpeeds) :
    cell (inserted t x).data 1 (s : Int) = t.get (s + 1) t1 ∧ cell (inserted t x).data 2 (s : Int) = t.get (s + 1) t2 := by
  obtain ⟨-, -, -, hat⟩ := inserted_below h ht hx
  have e1 : t.temperatures[0]? = some t1 := by rw [ht]; rfl
  have e2 : t.temperatures[1]? = some t2 := by rw [ht]; rfl
  have c1 := cell_nat (inserted t x).data 1 s
  have c2 := cell_nat (inserted t x).data 2 s
  rw [hat] at c1 c2
  refine ⟨?_, ?_⟩
  · rw [get_at h (s := s) (by omega) e1]; exact c1
  · rw [get_at h (s := s) (by omega) e2]; exact c2

theorem addTemperature_below {t : Table K} (h : TableWF t) {x t1 t2 : K} {rest : List K}
    (ht : t.temperatures = t1 :: t2 :: rest) (hx : x < t1) (e : Bool) (limit : Option K) (v : Int → Option K)
    (hv : ∀ s : Nat, s < t.nSpeeds → belowValue x t1 t2 e limit (inserted t x).data (s : Int) = .ok (v (s + 1))) :
    ∃ t', addTemperature x e limit t = (.ok (), t') ∧ TableWF t' ∧ ∀ s, IsSpeed t s → t'.get s x = .ok (v s) := by
  obtain ⟨hnot, hpos, htemps, hat⟩ := inserted_below h ht hx
  have hw := inserted_wf h hnot
  have hn : (inserted t x).nSpeeds = t.nSpeeds := rfl
  have hloc : Local 0 (belowValue x t1 t2 e limit) := by
    intro u u' hu si
    have c1 := cell_sameBut hu (i := 1) (by omega) si
    have c2 := cell_sameBut hu (i := 2) (by omega) si
    simp only [Nat.cast_one, Nat.cast_ofNat] at c1 c2
    simp only [belowValue, c1, c2]
  obtain ⟨t', hrun, hsame, hfill, -⟩ := fillRow_ok hloc hw (by simp only [inserted, pyInsert_length]; omega)
    (fun s => v (s + 1)) (List.range t.nSpeeds) (by intro s hs; simpa [hn] using hs)
    (fun s hs => hv s (by simpa using hs))
  refine ⟨t', ?_, hsame.wf hw, ?_⟩
  · rw [addTemperature_new h hnot, hpos]
    simp only [fillNew, PyM.bind_run, PyM.get_run, if_true, PyM.liftM_run, PyM.monadLift_run, htemps, hn]
    have g1 : pyGetI (x :: t1 :: t2 :: rest) 1 = .ok t1 := pyGetI_nat_eq (x :: t1 :: t2 :: rest) 1
    have g2 : pyGetI (x :: t1 :: t2 :: rest) 2 = .ok t2 := pyGetI_nat_eq (x :: t1 :: t2 :: rest) 2
    simp only [g1, g2, hrun]
  · intro s hs
    obtain ⟨k, hk, hkn⟩ := isSpeed_nat hs
    have hk1 : ((k : Int) + 1) = s := by omega
    rw [get_ok_iff (hsame.wf hw) hk (i := 0) (by rw [hsame.1, htemps]; rfl), hfill k (by simpa using hkn), hk1]

theorem inserted_above {t : Table K} (h : TableWF t) {x t1 t2 : K} {rest : List K} (ht : t.temperatures = rest ++ [t2, t1])
    (hx : t1 < x) : x ∉ t.temperatures ∧ insPos t.temperatures x = rest.length + 2 ∧
      (inserted t x).temperatures = rest ++ [t2, t1, x] ∧
      ∀ (i s : Nat), i < rest.length + 2 → at? (inserted t x).data i s = at? t.data i s := by
  have hlen : t.temperatures.length = rest.length + 2 := by rw [ht]; simp
  have e1 : t.temperatures[rest.length + 1]? = some t1 := by rw [ht]; simp
  have hall : ∀ y ∈ t.temperatures, y < x := by
    intro y hy
    obtain ⟨i, hi⟩ := List.mem_iff_getElem?.1 hy
    have hil := (List.getElem?_eq_some_iff.1 hi).1
    by_cases hi1 : i = rest.length + 1
    · subst hi1; rw [e1] at hi; simp at hi; rwa [← hi]
    · exact lt_trans ((sorted_lt_iff h.sorted hi e1).2 (by omega)) hx
  have hpos : insPos t.temperatures x = rest.length + 2 := by rw [insPos_above h.sorted hall, hlen]
  refine ⟨fun hc => lt_irrefl _ (hall x hc), hpos, ?_, ?_⟩
  · simp only [inserted, insort]
    rw [show bisectRight t.temperatures x t.temperatures.length 0 t.temperatures.length = rest.length + 2 from hpos,
      ← hlen, pyInsert, List.take_length, List.drop_length, ht]
    simp
  · intro i s hi
    have hd : rest.length + 2 ≤ t.data.length := by rw [h.rows, hlen]
    simp only [at?, inserted, hpos, pyInsert_lt _ _ hd hi]

theorem above_cells {t : Table K} (h : TableWF t) {x t1 t2 : K} {rest : List K} (ht : t.temperatures = rest ++ [t2, t1])
    (hx : t1 < x) {s : Nat} (_hs : s < t.nSpeeds) :
    cell (inserted t x).data (((rest.length + 2 : Nat) : Int) - 1) (s : Int) = t.get (s + 1) t1 ∧
    cell (inserted t x).data (((rest.length + 2 : Nat) : Int) - 2) (s : Int) = t.get (s + 1) t2 := by
  obtain ⟨-, -, -, hat⟩ := inserted_above h ht hx
  have e1 : t.temperatures[rest.length + 1]? = some t1 := by rw [ht]; simp
  have e2 : t.temperatures[rest.length]? = some t2 := by rw [ht]; simp
  have c1e : ((rest.length + 2 : Nat) : Int) - 1 = ((rest.length + 1 : Nat) : Int) := by omega
  have c2e : ((rest.length + 2 : Nat) : Int) - 2 = ((rest.length : Nat) : Int) := by omega
  rw [c1e, c2e, cell_nat, cell_nat, hat _ _ (by omega), hat _ _ (by omega), get_at h (s := s) (by omega) e1,
    get_at h (s := s) (by omega) e2]
  exact ⟨rfl, rfl⟩

theorem addTemperature_above {t : Table K} (h : TableWF t) {x t1 t2 : K} {rest : List K}
    (ht : t.temperatures = rest ++ [t2, t1]) (hx : t1 < x) (e : Bool) (limit : Option K) (v : Int → Option K)
    (hv : ∀ s : Nat, s < t.nSpeeds →
      aboveValue x t1 t2 (rest.length + 2) e limit (inserted t x).data (s : Int) = .ok (v (s + 1))) :
    ∃ t', addTemperature x e limit t = (.ok (), t') ∧ TableWF t' ∧ ∀ s, IsSpeed t s → t'.get s x = .ok (v s) := by
  obtain ⟨hnot, hpos, htemps, hat⟩ := inserted_above h ht hx
  have hw := inserted_wf h hnot
  have hn : (inserted t x).nSpeeds = t.nSpeeds := rfl
  have hd : t.data.length = rest.length + 2 := by rw [h.rows, ht]; simp
  have c1e : ((rest.length + 2 : Nat) : Int) - 1 = ((rest.length + 1 : Nat) : Int) := by omega
  have c2e : ((rest.length + 2 : Nat) : Int) - 2 = ((rest.length : Nat) : Int) := by omega
  have hloc : Local (rest.length + 2) (aboveValue x t1 t2 (rest.length + 2) e limit) := by
    intro u u' hu si
    have c1 := cell_sameBut hu (i := rest.length + 1) (by omega) si
    have c2 := cell_sameBut hu (i := rest.length) (by omega) si
    simp only [aboveValue, c1e, c2e, c1, c2]
  obtain ⟨t', hrun, hsame, hfill, -⟩ := fillRow_ok hloc hw (by simp only [inserted, pyInsert_length]; omega)
    (fun s => v (s + 1)) (List.range t.nSpeeds) (by intro s hs; simpa [hn] using hs)
    (fun s hs => hv s (by simpa using hs))
  refine ⟨t', ?_, hsame.wf hw, ?_⟩
  · rw [addTemperature_new h hnot, hpos]
    have g1 : pyGetI (inserted t x).temperatures (((rest.length + 2 : Nat) : Int) - 1) = .ok t1 := by
      rw [c1e, pyGetI_nat_eq, htemps]; simp
    have g2 : pyGetI (inserted t x).temperatures (((rest.length + 2 : Nat) : Int) - 2) = .ok t2 := by
      rw [c2e, pyGetI_nat_eq, htemps]; simp
    have n0 : ¬ (rest.length + 2 = 0) := by omega
    have n1 : rest.length + 2 = (inserted t x).temperatures.length - 1 := by rw [htemps]; simp
    simp only [fillNew, PyM.bind_run, PyM.get_run, if_neg n0, if_pos n1, PyM.liftM_run, PyM.monadLift_run, g1, g2, hn,
      hrun]
  · intro s hs
    obtain ⟨k, hk, hkn⟩ := isSpeed_nat hs
    have hk1 : ((k : Int) + 1) = s := by omega
    rw [get_ok_iff (hsame.wf hw) hk (i := rest.length + 2) (by rw [hsame.1, htemps]; simp), hfill k (by simpa using hkn), hk1]

theorem inserted_inside {t : Table K} (h : TableWF t) {x a b : K} {i : Nat} (ha : t.temperatures[i]? = some a)
    (hb : t.temperatures[i + 1]? = some b) (hax : a < x) (hxb : x < b) :
    x ∉ t.temperatures ∧ insPos t.temperatures x = i + 1 ∧
      (∀ j, j < i + 1 → (inserted t x).temperatures[j]? = t.temperatures[j]?) ∧
      (inserted t x).temperatures[i + 1]? = some x ∧ (inserted t x).temperatures.length = t.temperatures.length + 1 ∧
      (∀ (j s : Nat), j < i + 1 → at? (inserted t x).data j s = at? t.data j s) ∧
      ∀ (j s : Nat), i + 1 ≤ j → at? (inserted t x).data (j + 1) s = at? t.data j s := by
  have hpos := insPos_between h.sorted ha hb hax hxb
  have hnot : x ∉ t.temperatures := by
    intro hx
    obtain ⟨j, hj⟩ := List.mem_iff_getElem?.1 hx
    have h1 := (sorted_lt_iff h.sorted ha hj).1 hax
    have h2 := (sorted_lt_iff h.sorted hj hb).1 hxb
    omega
  have hle := (insPos_spec h.sorted hnot).1
  have hle' := inserted_pos_le h hnot
  refine ⟨hnot, hpos, ?_, ?_, ?_, ?_, ?_⟩
  · intro j hj
    exact pyInsert_lt _ _ hle (by
      have : bisectRight t.temperatures x t.temperatures.length 0 t.temperatures.length = i + 1 := hpos
      omega)
  · rw [← hpos]; exact pyInsert_self _ _ hle
  · exact pyInsert_length _ _ _
  · intro j s hj
    simp only [at?, inserted, pyInsert_lt _ _ hle' (by omega : j < insPos t.temperatures x)]
  · intro j s hj
    simp only [at?, inserted, pyInsert_gt _ _ hle' (by omega : insPos t.temperatures x ≤ j)]

theorem inside_cells {t : Table K} (h : TableWF t) {x a b : K} {i : Nat} (ha : t.temperatures[i]? = some a)
    (hb : t.temperatures[i + 1]? = some b) (hax : a < x) (hxb : x < b) (s : Nat) :
    cell (inserted t x).data (((i + 1 : Nat) : Int) - 1) (s : Int) = t.get (s + 1) a ∧
    cell (inserted t x).data (((i + 1 : Nat) : Int) + 1) (s : Int) = t.get (s + 1) b := by
  obtain ⟨-, -, -, -, -, h1, h2⟩ := inserted_inside h ha hb hax hxb
  have c1e : ((i + 1 : Nat) : Int) - 1 = ((i : Nat) : Int) := by omega
  have c2e : ((i + 1 : Nat) : Int) + 1 = ((i + 1 + 1 : Nat) : Int) := by omega
  rw [c1e, c2e, cell_nat, cell_nat, h1 _ _ (by omega), h2 _ _ (by omega), get_at h (s := s) (by omega) ha,
    get_at h (s := s) (by omega) hb]
  exact ⟨rfl, rfl⟩

/-- In the interior branch the second abscissa is the second entry of the new temperature list. -/
theorem addTemperature_inside_eq {t : Table K} (h : TableWF t) {x a b c : K} {i : Nat} (ha : t.temperatures[i]? = some a)
    (hb : t.temperatures[i + 1]? = some b) (hax : a < x) (hxb : x < b) (hc : (inserted t x).temperatures[1]? = some c)
    (e : Bool) (limit : Option K) :
    addTemperature x e limit t =
      fillRow (i + 1) (insideValue x a c (i + 1)) (List.range t.nSpeeds) (inserted t x) := by
  obtain ⟨hnot, hpos, h1, h2, h3, -, -⟩ := inserted_inside h ha hb hax hxb
  have hil := (List.getElem?_eq_some_iff.1 hb).1
  rw [addTemperature_new h hnot, hpos]
  have c1e : ((i + 1 : Nat) : Int) - 1 = ((i : Nat) : Int) := by omega
  have g1 : pyGetI (inserted t x).temperatures (((i + 1 : Nat) : Int) - 1) = .ok a := by
    rw [c1e, pyGetI_nat_eq, h1 _ (by omega), ha]
  have g2 : pyGetI (inserted t x).temperatures 1 = .ok c := by
    have := pyGetI_nat_eq (inserted t x).temperatures 1
    rw [hc] at this; exact this
  have n0 : ¬ (i + 1 = 0) := by omega
  have n1 : ¬ (i + 1 = (inserted t x).temperatures.length - 1) := by omega
  have hn : (inserted t x).nSpeeds = t.nSpeeds := rfl
  simp only [fillNew, PyM.bind_run, PyM.get_run, if_neg n0, if_neg n1, PyM.liftM_run, PyM.monadLift_run, g1, g2, hn]

theorem addTemperature_inside {t : Table K} (h : TableWF t) {x a b c : K} {i : Nat} (ha : t.temperatures[i]? = some a)
    (hb : t.temperatures[i + 1]? = some b) (hax : a < x) (hxb : x < b) (hc : (inserted t x).temperatures[1]? = some c)
    (hca : c ≠ a) (e : Bool) (limit : Option K) (lo hi : Int → K) (hlo : ∀ s, IsSpeed t s → t.get s a = .ok (some (lo s)))
    (hhi : ∀ s, IsSpeed t s → t.get s b = .ok (some (hi s))) :
    ∃ t', addTemperature x e limit t = (.ok (), t') ∧ TableWF t' ∧
      ∀ s, IsSpeed t s → t'.get s x = .ok (some (lo s + (hi s - lo s) / (c - a) * (x - a))) := by
  obtain ⟨hnot, hpos, h1, h2, h3, -, -⟩ := inserted_inside h ha hb hax hxb
  have hw := inserted_wf h hnot
  have hn : (inserted t x).nSpeeds = t.nSpeeds := rfl
  have hil := (List.getElem?_eq_some_iff.1 hb).1
  have hrows := h.rows
  have c1e : ((i + 1 : Nat) : Int) - 1 = ((i : Nat) : Int) := by omega
  have c2e : ((i + 1 : Nat) : Int) + 1 = ((i + 1 + 1 : Nat) : Int) := by omega
  have hloc : Local (i + 1) (insideValue x a c (i + 1)) := by
    intro u u' hu si
    have c1 := cell_sameBut hu (i := i) (by omega) si
    have c2 := cell_sameBut hu (i := i + 1 + 1) (by omega) si
    simp only [insideValue, c1e, c2e, c1, c2]
  have hne : c - a ≠ 0 := sub_ne_zero.2 hca
  obtain ⟨t', hrun, hsame, hfill, -⟩ := fillRow_ok hloc hw (by simp only [inserted, pyInsert_length]; omega)
    (fun s => some (lo (s + 1) + (hi (s + 1) - lo (s + 1)) / (c - a) * (x - a))) (List.range t.nSpeeds)
    (by intro s hs; simpa [hn] using hs) (by
      intro s hs
      obtain ⟨c1, c2⟩ := inside_cells h ha hb hax hxb s
      have hsp : IsSpeed t ((s : Int) + 1) := ⟨by omega, by have : s < t.nSpeeds := by simpa using hs
                                                            omega⟩
      rw [hlo _ hsp] at c1
      rw [hhi _ hsp] at c2
      simp only [insideValue, c1, c2, bind_ok, osub, pyNum, pure_eq_ok, pdiv_ok hne])
  refine ⟨t', ?_, hsame.wf hw, ?_⟩
  · rw [addTemperature_inside_eq h ha hb hax hxb hc, hrun]
  · intro s hs
    obtain ⟨k, hk, hkn⟩ := isSpeed_nat hs
    have hk1 : ((k : Int) + 1) = s := by omega
    rw [get_ok_iff (hsame.wf hw) hk (i := i + 1) (by rw [hsame.1, h2]), hfill k (by simpa using hkn), hk1]

end Table

end Resdx.Tabular
