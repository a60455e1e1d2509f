import Verif.Spec.Tabular

set_option linter.unusedSectionVars false
set_option linter.unusedSimpArgs false

/-! # Helper lemmas for `tabular_data.py` -/

namespace Resdx.Tabular

open Spec Util

variable {K : Type} [Field K] [LinearOrder K]

/-! ## `index` -/

theorem pyIndex_ok {l : List K} {x : K} {i : Nat} (h : pyIndex l x = .ok i) : l[i]? = some x := by
  induction l generalizing i with
  | nil => simp [pyIndex] at h
  | cons a l ih =>
    simp only [pyIndex] at h
    split at h
    · rename_i h1; simp at h; subst h h1; simp
    · simp only [bind_eq_ok, pure_eq_ok] at h
      obtain ⟨k, hk, h⟩ := h
      simp at h; subst h
      simpa using ih hk

theorem pyIndex_error {l : List K} {x : K} {e : PyErr} (h : pyIndex l x = .error e) : e = .value ∧ x ∉ l := by
  induction l with
  | nil => simp [pyIndex] at h; simp [h]
  | cons a l ih =>
    simp only [pyIndex] at h
    split at h
    · simp at h
    · rename_i h1
      simp only [bind_eq_error, pure_eq_ok] at h
      rcases h with h | ⟨k, hk, h⟩
      · have := ih h
        refine ⟨this.1, ?_⟩
        simp only [List.mem_cons, not_or]
        exact ⟨fun h => h1 h.symm, this.2⟩
      · simp at h

theorem pyIndex_not_mem {l : List K} {x : K} (h : x ∉ l) : pyIndex l x = .error .value := by
  cases h1 : pyIndex l x with
  | ok i => exact absurd (List.mem_of_getElem? (pyIndex_ok h1)) h
  | error e => rw [(pyIndex_error h1).1]

theorem pyIndex_mem {l : List K} {x : K} (h : x ∈ l) : ∃ i, pyIndex l x = .ok i := by
  cases h1 : pyIndex l x with
  | ok i => exact ⟨i, rfl⟩
  | error e => exact absurd h (pyIndex_error h1).2

theorem sorted_inj {l : List K} (hl : l.Pairwise (· < ·)) {i j : Nat} {x : K} (hi : l[i]? = some x) (hj : l[j]? = some x) :
    i = j := by
  obtain ⟨h1, e1⟩ := List.getElem?_eq_some_iff.1 hi
  obtain ⟨h2, e2⟩ := List.getElem?_eq_some_iff.1 hj
  rcases Nat.lt_trichotomy i j with h | h | h
  · have := List.pairwise_iff_getElem.1 hl i j h1 h2 h
    rw [e1, e2] at this; exact absurd this (lt_irrefl _)
  · exact h
  · have := List.pairwise_iff_getElem.1 hl j i h2 h1 h
    rw [e1, e2] at this; exact absurd this (lt_irrefl _)

theorem pyIndex_sorted {l : List K} (hl : l.Pairwise (· < ·)) {i : Nat} {x : K} (hi : l[i]? = some x) :
    pyIndex l x = .ok i := by
  obtain ⟨j, hj⟩ := pyIndex_mem (List.mem_of_getElem? hi)
  rw [hj, sorted_inj hl hi (pyIndex_ok hj)]

/-! ## Cells -/

/-- The cell at a position. -/
def at? (data : List (List (Option K))) (i s : Nat) : Option (Option K) := data[i]?.bind (·[s]?)

/-- Update a cell. -/
def upd (data : List (List (Option K))) (i s : Nat) (v : Option K) : List (List (Option K)) :=
  data.set i ((data.getD i []).set s v)

theorem pyGetI_nat_eq {α : Type} (l : List α) (i : Nat) :
    pyGetI l (i : Int) = match l[i]? with | some a => .ok a | none => .error .index := by
  by_cases h : i < l.length
  · rw [pyGetI_nat h]; simp [h]
  · have : pyIdx l.length (i : Int) = .error .index := by
      unfold pyIdx; simp [h]
    simp [pyGetI, this, bind_error, List.getElem?_eq_none (not_lt.1 h)]

theorem cell_nat (data : List (List (Option K))) (i s : Nat) :
    cell data (i : Int) (s : Int) = match at? data i s with | some c => .ok c | none => .error .index := by
  simp only [cell, at?, pyGetI_nat_eq]
  cases h : data[i]? with
  | none => simp [bind_error]
  | some row =>
    simp only [bind_ok, Option.bind_some, pyGetI_nat_eq]
    cases row[s]? <;> rfl

theorem cell_nat_ok {data : List (List (Option K))} {i s : Nat} {c : Option K} :
    cell data (i : Int) (s : Int) = .ok c ↔ at? data i s = some c := by
  rw [cell_nat]; cases h : at? data i s <;> simp

theorem at?_some {data : List (List (Option K))} {i s : Nat} {c : Option K} (h : at? data i s = some c) :
    ∃ row, data[i]? = some row ∧ row[s]? = some c := by
  simpa [at?, Option.bind_eq_some_iff] using h

theorem pySetI_nat {α : Type} {l : List α} {i : Nat} (v : α) (h : i < l.length) :
    pySetI l (i : Int) v = .ok (l.set i v) := by
  simp [pySetI, pyIdx_nat h, bind_ok, pure_eq_ok]

theorem pySetI_nat_error {α : Type} {l : List α} {i : Nat} (v : α) (h : l.length ≤ i) :
    pySetI l (i : Int) v = .error .index := by
  have : pyIdx l.length (i : Int) = .error .index := by
    unfold pyIdx; simp [h]
  simp [pySetI, this, bind_error]

theorem setCell_nat {data : List (List (Option K))} {i s : Nat} (v : Option K) {c : Option K} (h : at? data i s = some c) :
    setCell data (i : Int) (s : Int) v = .ok (upd data i s v) := by
  obtain ⟨row, h1, h2⟩ := at?_some h
  have hi := (List.getElem?_eq_some_iff.1 h1).1
  have hs := (List.getElem?_eq_some_iff.1 h2).1
  simp only [setCell, pyGetI_nat_eq, h1, bind_ok, pySetI_nat v hs, pySetI_nat _ hi, upd, List.getD_eq_getElem?_getD,
    Option.getD_some]

theorem setCell_nat_error {data : List (List (Option K))} {i s : Nat} (v : Option K) (h : at? data i s = none) :
    setCell data (i : Int) (s : Int) v = .error .index := by
  simp only [setCell, pyGetI_nat_eq]
  cases h1 : data[i]? with
  | none => simp [bind_error]
  | some row =>
    simp only [at?, h1, Option.bind_some] at h
    simp [bind_ok, pySetI_nat_error v (List.getElem?_eq_none_iff.1 h), bind_error]

theorem upd_length (data : List (List (Option K))) (i s : Nat) (v : Option K) : (upd data i s v).length = data.length := by
  simp [upd]

theorem at?_upd_self {data : List (List (Option K))} {i s : Nat} (v : Option K) {c : Option K} (h : at? data i s = some c) :
    at? (upd data i s v) i s = some v := by
  obtain ⟨row, h1, h2⟩ := at?_some h
  have hi := (List.getElem?_eq_some_iff.1 h1).1
  have hs := (List.getElem?_eq_some_iff.1 h2).1
  have h3 : data[i] = row := (List.getElem?_eq_some_iff.1 h1).2
  simp [at?, upd, hi, hs, h3, List.getD_eq_getElem?_getD, List.getElem?_set]

theorem at?_upd_ne (data : List (List (Option K))) {i s i' s' : Nat} (v : Option K) (h : i' ≠ i ∨ s' ≠ s) :
    at? (upd data i s v) i' s' = at? data i' s' := by
  by_cases hi : i' = i
  · subst hi
    have hs : s' ≠ s := by rcases h with h | h; exact absurd rfl h; exact h
    simp only [at?, upd, List.getElem?_set, if_true]
    by_cases hl : i' < data.length
    · simp [hl, List.getD_eq_getElem?_getD, List.getElem?_set, hs.symm]
    · simp [hl]
  · simp [at?, upd, List.getElem?_set, Ne.symm hi]

theorem cols_upd {data : List (List (Option K))} {n : Nat} (h : ∀ row ∈ data, row.length = n) (i s : Nat) (v : Option K) :
    ∀ row ∈ upd data i s v, row.length = n := by
  intro row hrow
  by_cases hi : i < data.length
  · rcases List.mem_or_eq_of_mem_set hrow with h1 | h1
    · exact h row h1
    · rw [h1, List.length_set, List.getD_eq_getElem?_getD, List.getElem?_eq_getElem hi, Option.getD_some]
      exact h _ (List.getElem_mem hi)
  · rw [upd, List.set_eq_of_length_le (not_lt.1 hi)] at hrow
    exact h row hrow

theorem at?_isSome {data : List (List (Option K))} {n i s : Nat} (h : ∀ row ∈ data, row.length = n) (hi : i < data.length)
    (hs : s < n) : ∃ c, at? data i s = some c := by
  have h1 := h _ (List.getElem_mem hi)
  have h2 : s < (data[i]).length := by rw [h1]; exact hs
  exact ⟨data[i][s], by simp [at?, hi, h2]⟩

theorem at?_none {data : List (List (Option K))} {n i s : Nat} (h : ∀ row ∈ data, row.length = n) (hs : n ≤ s) :
    at? data i s = none := by
  simp only [at?]
  cases h1 : data[i]? with
  | none => simp
  | some row =>
    have := h row (List.mem_of_getElem? h1)
    simp [this, hs]

theorem setCell_cases (data : List (List (Option K))) (t s : Int) (v : Option K) :
    (∃ e, setCell data t s v = .error e) ∨ ∃ i k, setCell data t s v = .ok (upd data i k v) := by
  cases h : setCell data t s v with
  | error e => exact .inl ⟨e, rfl⟩
  | ok d =>
    right
    simp only [setCell, pyGetI, pySetI, bind_eq_ok, pyGet_eq_ok, pure_eq_ok] at h
    obtain ⟨row, ⟨i, hi, hrow⟩, row', ⟨k, hk, hr⟩, i', hi', hd⟩ := h
    rw [hi] at hi'
    simp at hi' hr hd
    subst hi' hr hd
    exact ⟨i, k, by simp [upd, List.getD_eq_getElem?_getD, hrow]⟩

namespace Table

theorem store_ok {t : Table K} {i s : Nat} (v : Option K) {c : Option K} (h : at? t.data i s = some c) :
    store (i : Int) (s : Int) v t = (.ok (), { t with data := upd t.data i s v }) := by
  simp only [store, PyM.bind_run, PyM.get_run, PyM.liftM_run, PyM.monadLift_run, setCell_nat v h, PyM.modify_run]

theorem store_error {t : Table K} {i s : Nat} (v : Option K) (h : at? t.data i s = none) :
    store (i : Int) (s : Int) v t = (.error .index, t) := by
  simp only [store, PyM.bind_run, PyM.get_run, PyM.liftM_run, PyM.monadLift_run, setCell_nat_error v h, PyM.modify_run]

theorem store_cases (t : Table K) (i s : Int) (v : Option K) :
    (∃ e, store i s v t = (.error e, t)) ∨ ∃ i' k, store i s v t = (.ok (), { t with data := upd t.data i' k v }) := by
  rcases setCell_cases t.data i s v with ⟨e, h⟩ | ⟨i', k, h⟩
  · left; exact ⟨e, by simp only [store, PyM.bind_run, PyM.get_run, PyM.liftM_run, PyM.monadLift_run, h, PyM.modify_run]⟩
  · right; exact ⟨i', k, by simp only [store, PyM.bind_run, PyM.get_run, PyM.liftM_run, PyM.monadLift_run, h, PyM.modify_run]⟩

theorem wf_upd {t : Table K} (h : TableWF t) (i s : Nat) (v : Option K) : TableWF { t with data := upd t.data i s v } :=
  ⟨h.sorted, by simpa [upd_length] using h.rows, cols_upd h.cols i s v⟩

theorem wf_store {t : Table K} (h : TableWF t) (i s : Int) (v : Option K) : TableWF (store i s v t).2 := by
  rcases store_cases t i s v with ⟨e, h1⟩ | ⟨i', k, h1⟩ <;> rw [h1]
  · exact h
  · exact wf_upd h _ _ _

/-- A speed as a position. -/
theorem isSpeed_nat {t : Table K} {speed : Int} (h : IsSpeed t speed) : ∃ s : Nat, speed - 1 = (s : Int) ∧ s < t.nSpeeds := by
  obtain ⟨h1, h2⟩ := h
  exact ⟨(speed - 1).toNat, by omega, by omega⟩

theorem get_at {t : Table K} (h : TableWF t) {i s : Nat} {speed : Int} {temperature : K} (hs : speed - 1 = (s : Int))
    (hi : t.temperatures[i]? = some temperature) :
    t.get speed temperature = match at? t.data i s with | some c => .ok c | none => .error .index := by
  simp only [Table.get, pyIndex_sorted h.sorted hi, bind_ok, hs, cell_nat]

theorem get_ok_iff {t : Table K} (h : TableWF t) {i s : Nat} {speed : Int} {temperature : K} {c : Option K}
    (hs : speed - 1 = (s : Int)) (hi : t.temperatures[i]? = some temperature) :
    t.get speed temperature = .ok c ↔ at? t.data i s = some c := by
  rw [get_at h hs hi]; cases at? t.data i s <;> simp

/-- Reading the same temperature and speed of two tables that agree on the cell. -/
theorem get_congr {t t' : Table K} (h : TableWF t) (h' : TableWF t') (htemps : t'.temperatures = t.temperatures)
    (hn : t'.nSpeeds = t.nSpeeds)
    {speed : Int} {temperature : K} (hs : IsSpeed t speed)
    (hc : ∀ i s : Nat, t.temperatures[i]? = some temperature → speed - 1 = (s : Int) → at? t'.data i s = at? t.data i s) :
    t'.get speed temperature = t.get speed temperature := by
  obtain ⟨s, hs1, hs2⟩ := isSpeed_nat hs
  by_cases hm : temperature ∈ t.temperatures
  · obtain ⟨i, hi⟩ := List.mem_iff_getElem?.1 hm
    rw [get_at h hs1 hi, get_at h' hs1 (by rw [htemps]; exact hi), hc i s hi hs1]
  · simp [Table.get, pyIndex_not_mem hm, htemps, bind_error]

theorem at_of_wf {t : Table K} (h : TableWF t) {i s : Nat} {x : K} (hi : t.temperatures[i]? = some x) (hs : s < t.nSpeeds) :
    ∃ c, at? t.data i s = some c :=
  at?_isSome h.cols (by rw [h.rows]; exact (List.getElem?_eq_some_iff.1 hi).1) hs

theorem get_upd_self {t : Table K} (h : TableWF t) {i s : Nat} {speed : Int} {x : K} (v : Option K)
    (hs : speed - 1 = (s : Int)) (hn : s < t.nSpeeds) (hi : t.temperatures[i]? = some x) :
    ({ t with data := upd t.data i s v } : Table K).get speed x = .ok v := by
  obtain ⟨c, hc⟩ := at_of_wf h hi hn
  rw [get_ok_iff (wf_upd h i s v) hs hi]
  exact at?_upd_self v hc

theorem get_upd_other {t : Table K} (h : TableWF t) {i s : Nat} {speed speed' : Int} {x x' : K} (v : Option K)
    (hs : speed - 1 = (s : Int)) (hi : t.temperatures[i]? = some x)
    (hs' : IsSpeed t speed') (hne : speed' ≠ speed ∨ x' ≠ x) :
    ({ t with data := upd t.data i s v } : Table K).get speed' x' = t.get speed' x' := by
  refine get_congr h (wf_upd h i s v) rfl rfl hs' ?_
  intro i' s' hi' hs1
  refine at?_upd_ne _ _ ?_
  rcases hne with hne | hne
  · right; omega
  · left; rintro rfl; rw [hi] at hi'; simp at hi'; exact hne hi'.symm

/-- What the setters do: one cell is overwritten. -/
def Writes (m : PyM (Table K) Unit) (t : Table K) (speed : Int) (x : K) (v : K) : Prop :=
  ∃ i s : Nat, speed - 1 = (s : Int) ∧ s < t.nSpeeds ∧ t.temperatures[i]? = some x ∧
    m t = (.ok (), { t with data := upd t.data i s (some v) })

theorem set_writes {t : Table K} (h : TableWF t) {speed : Int} {x : K} (v : K) (hs : IsSpeed t speed)
    (hx : x ∈ t.temperatures) : Writes (Table.set speed x v) t speed x v := by
  obtain ⟨s, hs1, hs2⟩ := isSpeed_nat hs
  obtain ⟨i, hi⟩ := List.mem_iff_getElem?.1 hx
  obtain ⟨c, hc⟩ := at_of_wf h hi hs2
  refine ⟨i, s, hs1, hs2, hi, ?_⟩
  simp only [Table.set, PyM.bind_run, PyM.get_run, PyM.liftM_run, PyM.monadLift_run, pyIndex_sorted h.sorted hi, hs1,
    store_ok _ hc]

theorem cell_of_get {t : Table K} (h : TableWF t) {i s : Nat} {speed : Int} {x : K} {c : Option K}
    (hs : speed - 1 = (s : Int)) (hi : t.temperatures[i]? = some x) (hg : t.get speed x = .ok c) :
    cell t.data (i : Int) (s : Int) = .ok c := by
  rw [cell_nat_ok]; exact (get_ok_iff h hs hi).1 hg

theorem setByRatio_writes {t : Table K} (h : TableWF t) {speed : Int} {x : K} (r : K) {q : K} (hs : IsSpeed t speed)
    (hlow : speed ≠ t.nSpeeds) (hx : x ∈ t.temperatures) (hq : t.get t.nSpeeds x = .ok (some q)) :
    Writes (setByRatio speed x r) t speed x (q * r) := by
  obtain ⟨s, hs1, hs2⟩ := isSpeed_nat hs
  obtain ⟨i, hi⟩ := List.mem_iff_getElem?.1 hx
  obtain ⟨c, hc⟩ := at_of_wf h hi hs2
  refine ⟨i, s, hs1, hs2, hi, ?_⟩
  have hm : ((t.nSpeeds : Int) - 1) = ((t.nSpeeds - 1 : Nat) : Int) := by omega
  have hcell := cell_of_get h hm hi hq
  have hne : ¬ ((s : Int) = ((t.nSpeeds - 1 : Nat) : Int)) := by omega
  simp only [setByRatio, PyM.bind_run, PyM.get_run, PyM.liftM_run, PyM.monadLift_run, pyIndex_sorted h.sorted hi, hs1, hm,
    if_neg hne, hcell, pyNum, store_ok _ hc]

theorem setByRatio_max_writes {t : Table K} (h : TableWF t) {x : K} {r : K} {q : K} (hn : 2 ≤ t.nSpeeds) (hr : r ≠ 0)
    (hx : x ∈ t.temperatures) (hq : t.get (t.nSpeeds - 1) x = .ok (some q)) :
    Writes (setByRatio t.nSpeeds x r) t t.nSpeeds x (q / r) := by
  obtain ⟨s, hs1, hs2⟩ := isSpeed_nat (t := t) (speed := t.nSpeeds) ⟨by omega, by omega⟩
  obtain ⟨i, hi⟩ := List.mem_iff_getElem?.1 hx
  obtain ⟨c, hc⟩ := at_of_wf h hi hs2
  refine ⟨i, s, hs1, hs2, hi, ?_⟩
  have hm : ((t.nSpeeds : Int) - 1 - 1) = ((t.nSpeeds - 2 : Nat) : Int) := by omega
  have hcell := cell_of_get h hm hi hq
  have hm' : ((s : Int) - 1) = ((t.nSpeeds - 2 : Nat) : Int) := by omega
  simp only [setByRatio, PyM.bind_run, PyM.get_run, PyM.liftM_run, PyM.monadLift_run, pyIndex_sorted h.sorted hi, hs1,
    if_true, hm', hcell, pyNum, pdiv_ok hr, store_ok _ hc]

theorem setByMaintenance_writes {t : Table K} (h : TableWF t) (k : Kind) {speed : Int} {x ref : K} {m q : K}
    (hs : IsSpeed t speed) (hx : x ∈ t.temperatures) (hm : m ≠ 0) (hne : x ≠ ref)
    (hq : t.get speed ref = .ok (some q)) :
    Writes (setByMaintenance k speed x ref m) t speed x
      (if (k = .cooling ∧ ref < x) ∨ (k = .heating ∧ x < ref) then q * m else q / m) := by
  obtain ⟨s, hs1, hs2⟩ := isSpeed_nat hs
  obtain ⟨i, hi⟩ := List.mem_iff_getElem?.1 hx
  obtain ⟨c, hc⟩ := at_of_wf h hi hs2
  have href : ref ∈ t.temperatures := by
    by_contra hcon
    rw [Table.get, pyIndex_not_mem hcon, bind_error] at hq; simp at hq
  obtain ⟨j, hj⟩ := List.mem_iff_getElem?.1 href
  refine ⟨i, s, hs1, hs2, hi, ?_⟩
  have hcell := cell_of_get h hs1 hj hq
  have hord : ∀ {a b : Nat} {u v : K}, t.temperatures[a]? = some u → t.temperatures[b]? = some v → (a < b ↔ u < v) := by
    intro a b u v ha hb
    obtain ⟨h1, e1⟩ := List.getElem?_eq_some_iff.1 ha
    obtain ⟨h2, e2⟩ := List.getElem?_eq_some_iff.1 hb
    constructor
    · intro hab
      have := List.pairwise_iff_getElem.1 h.sorted a b h1 h2 hab
      rwa [e1, e2] at this
    · intro huv
      rcases Nat.lt_trichotomy a b with hab | hab | hab
      · exact hab
      · subst hab; rw [e1] at e2; subst e2; exact absurd huv (lt_irrefl _)
      · have := List.pairwise_iff_getElem.1 h.sorted b a h2 h1 hab
        rw [e1, e2] at this; exact absurd huv (not_lt_of_gt this)
  have hmul : k.multiplies i j ↔ (k = .cooling ∧ ref < x) ∨ (k = .heating ∧ x < ref) := by
    cases k <;> simp [Kind.multiplies, hord hi hj, hord hj hi]
  simp only [setByMaintenance, PyM.bind_run, PyM.get_run, PyM.liftM_run, PyM.monadLift_run, pyIndex_sorted h.sorted hi,
    pyIndex_sorted h.sorted hj, hs1, hcell, pyNum, hmul]
  split
  · simp only [store_ok _ hc]
  · simp only [PyM.bind_run, PyM.liftM_run, PyM.monadLift_run, pdiv_ok hm, store_ok _ hc]

theorem sorted_lt_iff {l : List K} (hl : l.Pairwise (· < ·)) {a b : Nat} {u v : K} (ha : l[a]? = some u)
    (hb : l[b]? = some v) : u < v ↔ a < b := by
  obtain ⟨h1, e1⟩ := List.getElem?_eq_some_iff.1 ha
  obtain ⟨h2, e2⟩ := List.getElem?_eq_some_iff.1 hb
  constructor
  · intro huv
    rcases Nat.lt_trichotomy a b with hab | hab | hab
    · exact hab
    · subst hab; rw [e1] at e2; subst e2; exact absurd huv (lt_irrefl _)
    · have := List.pairwise_iff_getElem.1 hl b a h2 h1 hab
      rw [e1, e2] at this; exact absurd huv (not_lt_of_gt this)
  · intro hab
    have := List.pairwise_iff_getElem.1 hl a b h1 h2 hab
    rwa [e1, e2] at this

theorem neighbours_idx {l : List K} (hl : l.Pairwise (· < ·)) {x y : K} (h : Neighbours l x y) :
    ∃ i : Nat, l[i]? = some x ∧ l[i + 1]? = some y := by
  obtain ⟨hx, hy, hlt, hbet⟩ := h
  obtain ⟨i, hi⟩ := List.mem_iff_getElem?.1 hx
  obtain ⟨j, hj⟩ := List.mem_iff_getElem?.1 hy
  have hij := (sorted_lt_iff hl hi hj).1 hlt
  have hjl := (List.getElem?_eq_some_iff.1 hj).1
  have hi1 : i + 1 < l.length := by omega
  have hi1' : l[i + 1]? = some l[i + 1] := List.getElem?_eq_getElem hi1
  refine ⟨i, hi, ?_⟩
  have h1 : x < l[i + 1] := (sorted_lt_iff hl hi hi1').2 (by omega)
  rcases hbet _ (List.getElem_mem hi1) with h2 | h2
  · exact absurd h1 (not_lt.2 h2)
  · rcases lt_or_eq_of_le h2 with h3 | h3
    · have := (sorted_lt_iff hl hj hi1').1 h3
      omega
    · rw [hi1', h3]

theorem setByInterpolation_writes {t : Table K} (h : TableWF t) {speed : Int} {x y : K} {a0 a2 b0 b1 b2 : K}
    (hs1 : IsSpeed t speed) (hs0 : IsSpeed t (speed - 1))
    (hxy : Neighbours t.temperatures x y)
    (ha0 : t.get (speed - 1) x = .ok (some a0)) (ha2 : t.get (speed + 1) x = .ok (some a2))
    (hb0 : t.get (speed - 1) y = .ok (some b0)) (hb1 : t.get speed y = .ok (some b1))
    (hb2 : t.get (speed + 1) y = .ok (some b2)) (hb : b2 ≠ b0) :
    Writes (setByInterpolation speed x) t speed x (a0 + (b1 - b0) / (b2 - b0) * (a2 - a0)) := by
  obtain ⟨s, hs, hsn⟩ := isSpeed_nat hs1
  obtain ⟨s', hs', -⟩ := isSpeed_nat hs0
  obtain ⟨i, hi, hi1⟩ := neighbours_idx h.sorted hxy
  obtain ⟨c, hc⟩ := at_of_wf h hi hsn
  refine ⟨i, s, hs, hsn, hi, ?_⟩
  have e0 : speed - 1 - 1 = ((s - 1 : Nat) : Int) := by omega
  have e2 : speed + 1 - 1 = ((s + 1 : Nat) : Int) := by omega
  have e0' : (s : Int) - 1 = ((s - 1 : Nat) : Int) := by omega
  have e2' : (s : Int) + 1 = ((s + 1 : Nat) : Int) := by omega
  have ei : (i : Int) + 1 = ((i + 1 : Nat) : Int) := by omega
  have c1 := cell_of_get h e0 hi ha0
  have c2 := cell_of_get h e2 hi ha2
  have c3 := cell_of_get h e0 hi1 hb0
  have c4 := cell_of_get h hs hi1 hb1
  have c5 := cell_of_get h e2 hi1 hb2
  have hd : b2 - b0 ≠ 0 := sub_ne_zero.2 hb
  have hv : interpolationValue t.data (i : Int) ((i + 1 : Nat) : Int) ((s - 1 : Nat) : Int) (s : Int) ((s + 1 : Nat) : Int)
      = .ok (a0 + (b1 - b0) / (b2 - b0) * (a2 - a0)) := by
    simp only [interpolationValue, c1, c2, c3, c4, c5, bind_ok, osub, pyNum, pure_eq_ok, pdiv_ok hd]
  simp only [setByInterpolation, PyM.bind_run, PyM.get_run, PyM.liftM_run, PyM.monadLift_run, pyIndex_sorted h.sorted hi, hs,
    e0', e2', ei, hv, store_ok _ hc]

end Table

end Resdx.Tabular
