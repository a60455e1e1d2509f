import Verif.Model.Title24
import Verif.Lemmas.BaseModel

/-! # Lemmas about the Title-24 model: the cached heating data -/

set_option linter.unusedSectionVars false
set_option linter.unusedSimpArgs false

namespace Resdx.Title24

variable {K : Type} [Field K] [LinearOrder K] [IsStrictOrderedRing K]
variable {σ α β : Type}

/-! ## What every run of a method keeps -/

/-- Every run relates the state before to the state after. -/
def Keeps (P : σ → σ → Prop) (m : PyM σ α) : Prop := ∀ d, P d (m d).2

theorem keeps_pure {P : σ → σ → Prop} (hr : ∀ d, P d d) (a : α) : Keeps P (pure a) := fun d => hr d
theorem keeps_lift {P : σ → σ → Prop} (hr : ∀ d, P d d) (x : Py α) : Keeps P (PyM.lift x) := fun d => hr d
theorem keeps_bind {P : σ → σ → Prop} (ht : ∀ a b c, P a b → P b c → P a c) {m : PyM σ α} {f : α → PyM σ β} (hm : Keeps P m) (hf : ∀ a, Keeps P (f a)) :
    Keeps P (m >>= f) := by
  intro d
  rw [PyM.bind_run]
  have h := hm d
  rcases hx : m d with ⟨x, d'⟩
  rw [hx] at h
  cases x with
  | error e => exact h
  | ok a => exact ht _ _ _ h (hf a d')

theorem keeps_search {P : σ → σ → Prop} (hr : ∀ d, P d d) (ht : ∀ a b c, P a b → P b c → P a c) {f : K → PyM σ K} (hf : ∀ x, Keeps P (f x)) (s : Search K) :
    Keeps P (s.run f) := by
  induction s with
  | ret x => exact keeps_pure hr x
  | fail e => exact fun d => hr d
  | eval x next ih => exact keeps_bind ht (hf x) fun y => ih y

/-- A capacity the unit can report at a speed it has. -/
def atSpeed (n i : Nat) (w : Py K) : Py K := if i < n then w else .error .index

/-- `get_cap35` as a function of the unit alone. -/
def cap35Value (U : Unit24 K) (i : Nat) : Py K :=
  match U.cap35 with
  | some l => pyGet l i
  | none => do
    let cap47 ← pyGet U.sys.netHeating i
    let cap17 ← atSpeed U.nHeating i (cap17Value U i)
    return cap35Default U cap47 cap17

/-- A cache holds correct values only. -/
def CacheOk (n : Nat) (w : Nat → Py K) (o : Option (List (Option K))) : Prop :=
  ∀ l, o = some l → l.length = n ∧ ∀ (i : Nat) (v : K), l[i]? = some (some v) → w i = .ok v

/-- Both capacity caches are correct. -/
def Inv (U : Unit24 K) (d : Data K) : Prop :=
  CacheOk U.nHeating (cap17Value U) (d .cap17) ∧ CacheOk U.nHeating (cap35Value U) (d .cap35)

theorem inv_empty (U : Unit24 K) : Inv U (fun _ => none) := ⟨fun _ h => by simp at h, fun _ h => by simp at h⟩

theorem cacheOk_ensure {n : Nat} {w : Nat → Py K} {o : Option (List (Option K))} (h : CacheOk n w o) : CacheOk n w (some (o.getD (List.replicate n none))) := by
  intro l hl
  rw [Option.some.injEq] at hl
  cases o with
  | some l' => exact h l (by simpa using hl)
  | none =>
    simp only [Option.getD_none] at hl
    subst hl
    refine ⟨by simp, fun i v hv => ?_⟩
    rw [List.getElem?_replicate] at hv
    split at hv <;> simp at hv

theorem cacheOk_set {n : Nat} {w : Nat → Py K} {l : List (Option K)} {i : Nat} {v : K} (h : CacheOk n w (some l)) (hv : w i = .ok v) :
    CacheOk n w (some (l.set i (some v))) := by
  intro l' hl'
  rw [Option.some.injEq] at hl'
  subst hl'
  obtain ⟨h1, h2⟩ := h l rfl
  refine ⟨by simpa using h1, fun j x hx => ?_⟩
  rw [List.getElem?_set] at hx
  split at hx
  · rename_i hij
    split at hx
    · rw [Option.some.injEq, Option.some.injEq] at hx; rw [← hij, ← hx]; exact hv
    · simp at hx
  · exact h2 j x hx

theorem ensure_run (n : Nat) (k : Slot) (d : Data K) :
    ensure n k d = (.ok (), Function.update d k (some ((d k).getD (List.replicate n none)))) := rfl

/-- A cached query: the value, and what happens to the caches. `other` stands for any slot the computation does not touch. -/
theorem cached_run {n : Nat} {k : Slot} {i : Nat} {compute : PyM (Data K) K} {w : Nat → Py K} {d : Data K} (hc : CacheOk n w (d k))
    (hk : ∀ d' : Data K, (compute d').2 k = d' k)
    (hw : ∀ d' : Data K, (∀ k', k' ≠ k → d' k' = d k') → (compute d').1 = w i) :
    (cached n k i compute d).1 = atSpeed n i (w i) ∧ CacheOk n w ((cached n k i compute d).2 k) ∧
      ((∀ k', k' ≠ k → (cached n k i compute d).2 k' = d k') ∨
        ∃ d' : Data K, (∀ k', k' ≠ k → d' k' = d k') ∧ ∀ k', k' ≠ k → (cached n k i compute d).2 k' = (compute d').2 k') := by
  set l := (d k).getD (List.replicate n none) with hl
  have hok := cacheOk_ensure hc
  rw [← hl] at hok
  obtain ⟨hlen, hval⟩ := hok l rfl
  set d1 : Data K := Function.update d k (some l) with hd1
  have hd1k : d1 k = some l := by simp [d1]
  have hd1o : ∀ k', k' ≠ k → d1 k' = d k' := fun k' h => by simp [d1, Function.update_of_ne h]
  have he : entry k i d1 = pyGet l i := by simp [entry, hd1k]
  have hrun : cached n k i compute d = match entry k i d1 with
      | .error e => (.error e, d1)
      | .ok (some v) => (.ok v, d1)
      | .ok none => (do let v ← compute; store k i v; return v) d1 := rfl
  rw [hrun, he]
  by_cases hi : i < n
  · have hi' : i < l.length := by rw [hlen]; exact hi
    have hg : pyGet l i = .ok l[i] := by simp [pyGet, List.getElem?_eq_getElem hi']
    rw [hg]
    rcases hx : l[i] with _ | v
    · simp only [PyM.bind_run]
      have h1 := hw d1 hd1o
      have h2 := hk d1
      rcases hcd : compute d1 with ⟨x, d2⟩
      rw [hcd] at h1 h2
      simp only at h1 h2
      cases x with
      | error e =>
        simp only
        refine ⟨by simp [atSpeed, hi, ← h1], ?_, Or.inr ⟨d1, hd1o, fun k' _ => by rw [hcd]⟩⟩
        rw [h2, hd1k]; exact hok
      | ok v =>
        have hst : store k i v d2 = (.ok (), Function.update d2 k (some (l.set i (some v)))) := by
          simp [store, h2, hd1k, hi']
        simp only [hst, PyM.pure_run]
        refine ⟨by simp [atSpeed, hi, ← h1], ?_, Or.inr ⟨d1, hd1o, fun k' hk' => ?_⟩⟩
        · simp only [Function.update_self]
          exact cacheOk_set hok h1.symm
        · rw [hcd]; simp [Function.update_of_ne hk']
    · simp only
      refine ⟨?_, by rw [hd1k]; exact hok, Or.inl hd1o⟩
      rw [atSpeed, if_pos hi]
      exact (hval i v (by rw [List.getElem?_eq_getElem hi', hx])).symm
  · have hi' : ¬ i < l.length := by rw [hlen]; exact hi
    have hg : pyGet l i = .error .index := by simp [pyGet, List.getElem?_eq_none (not_lt.mp hi')]
    rw [hg]
    refine ⟨by simp [atSpeed, hi], ?_, Or.inl hd1o⟩
    show CacheOk n w (d1 k)
    rw [hd1k]; exact hok

/-- `get_cap17` in any state whose caches are correct. -/
theorem getCap17_run (U : Unit24 K) (i : Nat) {d : Data K} (h : CacheOk U.nHeating (cap17Value U) (d .cap17)) :
    (getCap17 U i d).1 = atSpeed U.nHeating i (cap17Value U i) ∧ CacheOk U.nHeating (cap17Value U) ((getCap17 U i d).2 .cap17) ∧
      ∀ k', k' ≠ .cap17 → (getCap17 U i d).2 k' = d k' := by
  obtain ⟨h1, h2, h3⟩ := cached_run (i := i) (compute := PyM.lift (cap17Value U i)) h (fun d' => rfl) (fun d' _ => rfl)
  refine ⟨h1, h2, fun k' hk' => ?_⟩
  rcases h3 with h3 | ⟨d', h4, h5⟩
  · exact h3 k' hk'
  · rw [getCap17, h5 k' hk']; exact h4 k' hk'

theorem cap35Compute_run (U : Unit24 K) (i : Nat) {d : Data K} (h : CacheOk U.nHeating (cap17Value U) (d .cap17)) :
    (cap35Compute U i d).1 = cap35Value U i ∧ CacheOk U.nHeating (cap17Value U) ((cap35Compute U i d).2 .cap17) ∧
      ∀ k', k' ≠ .cap17 → (cap35Compute U i d).2 k' = d k' := by
  unfold cap35Compute cap35Value
  cases U.cap35 with
  | some l => exact ⟨rfl, h, fun _ _ => rfl⟩
  | none =>
    simp only [PyM.bind_run, PyM.lift_run]
    cases hq : pyGet U.sys.netHeating i with
    | error e => exact ⟨rfl, h, fun _ _ => rfl⟩
    | ok cap47 =>
      obtain ⟨h1, h2, h3⟩ := getCap17_run U i h
      simp only [bind_ok]
      rcases hg : getCap17 U i d with ⟨x, d'⟩
      rw [hg] at h1 h2 h3
      simp only at h1 h2 h3
      cases x with
      | error e => simp only; rw [← h1]; exact ⟨rfl, h2, h3⟩
      | ok v => simp only [PyM.pure_run]; rw [← h1]; exact ⟨rfl, h2, h3⟩

/-- No method needs a correct cache to leave the other entries alone. -/
theorem cached_other {n : Nat} {k : Slot} {i : Nat} {compute : PyM (Data K) K} {k' : Slot} (hk' : k' ≠ k) (hc : ∀ d : Data K, (compute d).2 k' = d k') (d : Data K) :
    (cached n k i compute d).2 k' = d k' := by
  unfold cached
  simp only [ensure_run]
  have h0 : Function.update d k (some ((d k).getD (List.replicate n none))) k' = d k' := by simp [Function.update_of_ne hk']
  split
  · exact h0
  · exact h0
  · rw [PyM.bind_run]
    have h1 := hc (Function.update d k (some ((d k).getD (List.replicate n none))))
    rw [h0] at h1
    rcases hcd : compute (Function.update d k (some ((d k).getD (List.replicate n none)))) with ⟨x, d2⟩
    rw [hcd] at h1
    cases x with
    | error e => exact h1
    | ok v =>
      simp only [PyM.bind_run]
      have h2 : (store k i v d2).2 k' = d2 k' := by
        unfold store
        split
        · rfl
        · split
          · simp [Function.update_of_ne hk']
          · rfl
      rcases hst : store k i v d2 with ⟨y, d3⟩
      rw [hst] at h2
      cases y <;> exact h2.trans h1

theorem getCap17_other (U : Unit24 K) (i : Nat) (d : Data K) {k : Slot} (hk : k ≠ .cap17) : (getCap17 U i d).2 k = d k :=
  cached_other hk (fun _ => rfl) d

theorem cap35Compute_other (U : Unit24 K) (i : Nat) (d : Data K) {k : Slot} (hk : k ≠ .cap17) : (cap35Compute U i d).2 k = d k := by
  unfold cap35Compute
  cases U.cap35 with
  | some l => rfl
  | none =>
    simp only [PyM.bind_run, PyM.lift_run]
    cases pyGet U.sys.netHeating i with
    | error e => rfl
    | ok cap47 =>
      simp only
      have h := getCap17_other U i d hk
      rcases hg : getCap17 U i d with ⟨x, d'⟩
      rw [hg] at h
      cases x <;> exact h

theorem getCap35_other (U : Unit24 K) (i : Nat) (d : Data K) {k : Slot} (hk : k ≠ .cap17) (hk' : k ≠ .cap35) : (getCap35 U i d).2 k = d k :=
  cached_other hk' (fun d => cap35Compute_other U i d hk) d

/-- `get_cap35` in any state whose caches are correct. -/
theorem getCap35_run (U : Unit24 K) (i : Nat) {d : Data K} (h : Inv U d) :
    (getCap35 U i d).1 = atSpeed U.nHeating i (cap35Value U i) ∧ Inv U (getCap35 U i d).2 := by
  obtain ⟨h17, h35⟩ := h
  obtain ⟨h1, h2, h3⟩ := cached_run (i := i) (compute := cap35Compute U i) h35 (fun d' => cap35Compute_other U i d' (by decide))
    (fun d' hd' => (cap35Compute_run U i (by rw [hd' .cap17 (by decide)]; exact h17)).1)
  refine ⟨h1, ?_, h2⟩
  rcases h3 with h3 | ⟨d', h4, h5⟩
  · rw [getCap35, h3 .cap17 (by decide)]; exact h17
  · rw [getCap35, h5 .cap17 (by decide)]
    exact (cap35Compute_run U i (by rw [h4 .cap17 (by decide)]; exact h17)).2.1

theorem getCap17_inv (U : Unit24 K) (i : Nat) {d : Data K} (h : Inv U d) : Inv U (getCap17 U i d).2 :=
  ⟨(getCap17_run U i h.1).2.1, by rw [getCap17_other U i d (by decide)]; exact h.2⟩

/-- Writing a COP entry keeps the capacity caches. -/
theorem inv_store {U : Unit24 K} {k : Slot} (h17 : k ≠ .cap17) (h35 : k ≠ .cap35) (i : Nat) (v : K) {d : Data K} (h : Inv U d) : Inv U (store k i v d).2 := by
  unfold store
  split
  · exact h
  · split
    · exact ⟨by simpa [Function.update_of_ne h17.symm] using h.1, by simpa [Function.update_of_ne h35.symm] using h.2⟩
    · exact h

theorem inv_ensure {U : Unit24 K} {k : Slot} (h17 : k ≠ .cap17) (h35 : k ≠ .cap35) (n : Nat) {d : Data K} (h : Inv U d) : Inv U (ensure n k d).2 :=
  ⟨by simpa [ensure_run, Function.update_of_ne h17.symm] using h.1, by simpa [ensure_run, Function.update_of_ne h35.symm] using h.2⟩

/-- A COP cache before and after: the same list except at one entry. -/
def SameBut (i : Nat) (o o' : Option (List (Option K))) : Prop :=
  (o = none → o' = none) ∧ ∀ l, o = some l → ∃ l', o' = some l' ∧ l'.length = l.length ∧ ∀ j, j ≠ i → l'[j]? = l[j]?

theorem SameBut.refl (i : Nat) (o : Option (List (Option K))) : SameBut i o o := ⟨id, fun l hl => ⟨l, hl, rfl, fun _ _ => rfl⟩⟩

theorem SameBut.trans {i : Nat} {a b c : Option (List (Option K))} (h : SameBut i a b) (h' : SameBut i b c) : SameBut i a c := by
  refine ⟨fun ha => h'.1 (h.1 ha), fun l hl => ?_⟩
  obtain ⟨l', hl', hn, hj⟩ := h.2 l hl
  obtain ⟨l'', hl'', hn', hj'⟩ := h'.2 l' hl'
  exact ⟨l'', hl'', hn'.trans hn, fun j hji => (hj' j hji).trans (hj j hji)⟩

/-- What the solver's evaluations do to the dictionary: the capacity caches stay correct, `cop17` is untouched, `cop35` changes at one entry only. -/
def Step (U : Unit24 K) (i : Nat) (d d' : Data K) : Prop := (Inv U d → Inv U d') ∧ d' .cop17 = d .cop17 ∧ SameBut i (d .cop35) (d' .cop35)

theorem Step.refl (U : Unit24 K) (i : Nat) (d : Data K) : Step U i d d := ⟨id, rfl, SameBut.refl i _⟩
theorem Step.trans (U : Unit24 K) (i : Nat) (a b c : Data K) (h : Step U i a b) (h' : Step U i b c) : Step U i a c :=
  ⟨fun ha => h'.1 (h.1 ha), h'.2.1.trans h.2.1, h.2.2.trans h'.2.2⟩

theorem step_store (U : Unit24 K) (i : Nat) (v : K) (d : Data K) : Step U i d (store .cop35 i v d).2 := by
  refine ⟨inv_store (by decide) (by decide) i v, ?_, ?_⟩
  · unfold store
    split
    · rfl
    · split <;> simp [Function.update_of_ne]
  · unfold store
    split
    · exact SameBut.refl i _
    · rename_i l hl
      split
      · refine ⟨fun hn => by simp [hl] at hn, fun l' hl' => ?_⟩
        rw [hl, Option.some.injEq] at hl'
        subst hl'
        exact ⟨_, by simp; rfl, by simp, fun j hj => by rw [List.getElem?_set_ne (Ne.symm hj)]⟩
      · exact SameBut.refl i _

theorem step_getCap35 (U : Unit24 K) (i j : Nat) : Keeps (Step U i) (getCap35 U j) := fun d =>
  ⟨fun h => (getCap35_run U j h).2, getCap35_other U j d (by decide) (by decide), by
    rw [getCap35_other U j d (by decide) (by decide)]; exact SameBut.refl i _⟩

theorem step_getCap17 (U : Unit24 K) (i j : Nat) : Keeps (Step U i) (getCap17 U j) := fun d =>
  ⟨fun h => getCap17_inv U j h, getCap17_other U j d (by decide), by rw [getCap17_other U j d (by decide)]; exact SameBut.refl i _⟩

theorem step_inp35 (U : Unit24 K) (i : Nat) (a b c : K) : Keeps (Step U i) (inp35Of U i a b c) := by
  unfold inp35Of
  cases U.cop35 with
  | some l =>
    exact keeps_bind (Step.trans U i) (keeps_lift (Step.refl U i) _) fun cop =>
      keeps_bind (Step.trans U i) (step_store U i cop) fun _ => keeps_lift (Step.refl U i) _
  | none =>
    exact keeps_bind (Step.trans U i) (keeps_lift (Step.refl U i) _) fun cop =>
      keeps_bind (Step.trans U i) (step_store U i cop) fun _ => keeps_pure (Step.refl U i) _

theorem step_checkHspf (U : Unit24 K) (i : Nat) (x : K) : Keeps (Step U i) (checkHspf U i x) := by
  have hl : ∀ {α : Type} (y : Py α), Keeps (Step U i) (PyM.lift y) := fun y => keeps_lift (Step.refl U i) y
  have hb : ∀ {α β : Type} {m : PyM (Data K) α} {f : α → PyM (Data K) β}, Keeps (Step U i) m → (∀ a, Keeps (Step U i) (f a)) → Keeps (Step U i) (m >>= f) :=
    fun hm hf => keeps_bind (Step.trans U i) hm hf
  exact hb (hl _) fun _ => hb (hl _) fun _ => hb (hl _) fun _ => hb (step_getCap35 U i i) fun _ => hb (step_getCap17 U i i) fun _ => hb (hl _) fun _ =>
    hb (step_inp35 U i _ _ _) fun _ => hl _

theorem step_rootFn (U : Unit24 K) (i : Nat) (x : K) : Keeps (Step U i) (rootFn U i x) :=
  keeps_bind (Step.trans U i) (step_checkHspf U i x) fun _ => keeps_bind (Step.trans U i) (keeps_lift (Step.refl U i) _) fun _ => keeps_pure (Step.refl U i) _

theorem step_search (U : Unit24 K) (i : Nat) (s : Search K) : Keeps (Step U i) (s.run (rootFn U i)) :=
  keeps_search (Step.refl U i) (Step.trans U i) (step_rootFn U i) s

end Resdx.Title24

/-! ## Query histories -/

namespace Resdx.Title24

variable {K : Type} [Field K] [LinearOrder K] [IsStrictOrderedRing K]

/-- The COP tables exist together, with one entry per speed. -/
def Paired (n : Nat) (d : Data K) : Prop :=
  (d .cop17 = none ∧ d .cop35 = none) ∨ ∃ l l', d .cop17 = some l ∧ d .cop35 = some l' ∧ l.length = n ∧ l'.length = n

/-- What any query does: correct caches stay correct and COP tables that exist stay as they are. -/
def Grow (U : Unit24 K) (d d' : Data K) : Prop :=
  Inv U d → Paired U.nHeating d → Inv U d' ∧ Paired U.nHeating d' ∧ (∀ l, d .cop17 = some l → d' .cop17 = some l) ∧ ∀ l, d .cop35 = some l → d' .cop35 = some l

theorem Grow.refl (U : Unit24 K) (d : Data K) : Grow U d d := fun h h' => ⟨h, h', fun _ h => h, fun _ h => h⟩
theorem Grow.trans (U : Unit24 K) (a b c : Data K) (h : Grow U a b) (h' : Grow U b c) : Grow U a c := fun hi hp => by
  obtain ⟨h1, h2, h3, h4⟩ := h hi hp
  obtain ⟨h5, h6, h7, h8⟩ := h' h1 h2
  exact ⟨h5, h6, fun l hl => h7 l (h3 l hl), fun l hl => h8 l (h4 l hl)⟩

theorem grow_of_same {U : Unit24 K} {d d' : Data K} (hi : Inv U d → Inv U d') (h17 : d' .cop17 = d .cop17) (h35 : d' .cop35 = d .cop35) : Grow U d d' :=
  fun h hp => ⟨hi h, by simpa only [Paired, h17, h35] using hp, fun l hl => by rw [h17, hl], fun l hl => by rw [h35, hl]⟩

theorem grow_getCap17 (U : Unit24 K) (i : Nat) : Keeps (Grow U) (getCap17 U i) := fun d =>
  grow_of_same (getCap17_inv U i) (getCap17_other U i d (by decide)) (getCap17_other U i d (by decide))

theorem grow_getCap35 (U : Unit24 K) (i : Nat) : Keeps (Grow U) (getCap35 U i) := fun d =>
  grow_of_same (fun h => (getCap35_run U i h).2) (getCap35_other U i d (by decide) (by decide)) (getCap35_other U i d (by decide) (by decide))

/-- The dictionary when the search starts, resdx/models/title24.py:472-480. -/
def prepared (U : Unit24 K) (d : Data K) : Data K := (ensure U.nHeating .cop17 (ensure U.nHeating .cop35 d).2).2

theorem prepared_cop17 (U : Unit24 K) (d : Data K) : prepared U d .cop17 = some ((d .cop17).getD (List.replicate U.nHeating none)) := by
  simp [prepared, ensure_run, Function.update_of_ne]
theorem prepared_cop35 (U : Unit24 K) (d : Data K) : prepared U d .cop35 = some ((d .cop35).getD (List.replicate U.nHeating none)) := by
  simp [prepared, ensure_run, Function.update_of_ne]
theorem prepared_inv {U : Unit24 K} {d : Data K} (h : Inv U d) : Inv U (prepared U d) :=
  inv_ensure (by decide) (by decide) _ (inv_ensure (by decide) (by decide) _ h)

theorem calculateCops_run (newton : K → Search K) (U : Unit24 K) (i : Nat) (d : Data K) :
    calculateCops newton U i d = match (newton 3).run (rootFn U i) (prepared U d) with
      | (.ok x, d') => store .cop17 i x d'
      | (.error e, d') => (.error e, d') := by
  have h : calculateCops newton U i d = ((newton 3).run (rootFn U i) >>= fun x => store .cop17 i x) (prepared U d) := rfl
  rw [h, PyM.bind_run]
  rcases (newton 3).run (rootFn U i) (prepared U d) with ⟨x, d'⟩
  cases x <;> rfl

/-- After solving for the COPs on a unit without COP tables. -/
theorem calculateCops_tables (newton : K → Search K) (U : Unit24 K) (i : Nat) {d : Data K} (hi : Inv U d) (h17 : d .cop17 = none) (h35 : d .cop35 = none) :
    Inv U (calculateCops newton U i d).2 ∧ ∃ l l', (calculateCops newton U i d).2 .cop17 = some l ∧ (calculateCops newton U i d).2 .cop35 = some l' ∧
      l.length = U.nHeating ∧ l'.length = U.nHeating ∧ (∀ j, j ≠ i → j < U.nHeating → l[j]? = some none ∧ l'[j]? = some none) ∧
      (∀ a, (calculateCops newton U i d).1 = .ok a → i < U.nHeating ∧ ∃ x, ((newton 3).run (rootFn U i) (prepared U d)).1 = .ok x ∧ l[i]? = some (some x)) ∧
      ((newton 3).run (rootFn U i) (prepared U d)).2 .cop35 = some l' := by
  obtain ⟨h1, h2, h3⟩ := step_search U i (newton 3) (prepared U d)
  rw [prepared_cop17, h17] at h2
  rw [prepared_cop35, h35] at h3
  obtain ⟨l', hl', hn', hj'⟩ := h3.2 _ rfl
  have hi1 := h1 (prepared_inv hi)
  rw [calculateCops_run]
  rcases hr : (newton 3).run (rootFn U i) (prepared U d) with ⟨x, d'⟩
  rw [hr] at h2 hl' hi1
  simp only [Option.getD_none, List.length_replicate] at h2 hn' hj' hl' hi1
  have hrep : ∀ j, j < U.nHeating → (List.replicate U.nHeating (none : Option K))[j]? = some none := fun j hj => by
    rw [List.getElem?_replicate, if_pos hj]
  cases x with
  | error e =>
    refine ⟨hi1, _, l', h2, hl', by simp, hn', fun j hji hj => ⟨hrep j hj, (hj' j hji).trans (hrep j hj)⟩, fun a ha => by simp at ha, hl'⟩
  | ok x =>
    by_cases hlt : i < U.nHeating
    · have hst : store .cop17 i x d' = (.ok (), Function.update d' .cop17 (some ((List.replicate U.nHeating none).set i (some x)))) := by
        simp [store, h2, hlt]
      simp only [hst]
      refine ⟨?_, _, l', by simp; rfl, by simp [Function.update_of_ne, hl'], by simp, hn', fun j hji hj => ⟨?_, (hj' j hji).trans (hrep j hj)⟩, fun _ _ => ⟨hlt, x, rfl, ?_⟩, hl'⟩
      · have := inv_store (U := U) (k := .cop17) (by decide) (by decide) i x hi1
        rwa [hst] at this
      · rw [List.getElem?_set_ne (Ne.symm hji)]; exact hrep j hj
      · rw [List.getElem?_set]; simp [hlt]
    · have hst : store .cop17 i x d' = (.error .index, d') := by simp [store, h2, hlt]
      simp only [hst]
      exact ⟨hi1, _, l', h2, hl', by simp, hn', fun j hji hj => ⟨hrep j hj, (hj' j hji).trans (hrep j hj)⟩, fun a ha => by simp at ha, hl'⟩

theorem grow_getCop (newton : K → Search K) (U : Unit24 K) (k : Slot) (hk : k = .cop17 ∨ k = .cop35) (i : Nat) : Keeps (Grow U) (getCop newton U k i) := by
  intro d
  unfold getCop
  cases hd : d k with
  | some l => exact Grow.refl U d
  | none =>
    intro hi hp
    have h : d .cop17 = none ∧ d .cop35 = none := by
      rcases hp with hp | ⟨l, l', h1, h2, -, -⟩
      · exact hp
      · rcases hk with rfl | rfl
        · rw [h1] at hd; simp at hd
        · rw [h2] at hd; simp at hd
    obtain ⟨h1, l, l', h2, h3, h4, h5, -, -⟩ := calculateCops_tables newton U i hi h.1 h.2
    beta_reduce
    rcases hc : calculateCops newton U i d with ⟨x, d'⟩
    rw [hc] at h1 h2 h3
    simp only at h1 h2 h3
    cases x <;> simp only <;>
      exact ⟨h1, Or.inr ⟨l, l', h2, h3, h4, h5⟩, fun m hm => by rw [h.1] at hm; simp at hm, fun m hm => by rw [h.2] at hm; simp at hm⟩

section
variable (newton : K → Search K) (U : Unit24 K)

private theorem gb {α β : Type} {m : PyM (Data K) α} {f : α → PyM (Data K) β} (hm : Keeps (Grow U) m) (hf : ∀ a, Keeps (Grow U) (f a)) : Keeps (Grow U) (m >>= f) :=
  keeps_bind (Grow.trans U) hm hf
private theorem gl {α : Type} (y : Py α) : Keeps (Grow U) (PyM.lift y) := keeps_lift (Grow.refl U) y
private theorem gp {α : Type} (y : α) : Keeps (Grow U) (pure y) := keeps_pure (Grow.refl U) y

theorem grow_steadyCapacity (c : Conditions K) : Keeps (Grow U) (grossSteadyCapacity U c) :=
  gb U (gl U _) fun _ => gb U (grow_getCap17 U _) fun _ => gb U (gl U _) fun _ => gp U _
theorem grow_integratedCapacity (c : Conditions K) : Keeps (Grow U) (grossIntegratedCapacity U c) :=
  gb U (gl U _) fun _ => gb U (grow_getCap17 U _) fun _ => gb U (grow_getCap35 U _) fun _ => gb U (gl U _) fun _ => gp U _
theorem grow_steadyPower (c : Conditions K) : Keeps (Grow U) (grossSteadyPower newton U c) :=
  gb U (gl U _) fun _ => gb U (grow_getCap17 U _) fun _ => gb U (gl U _) fun _ => gb U (grow_getCop newton U _ (Or.inl rfl) _) fun _ => gb U (gl U _) fun _ =>
    gb U (gl U _) fun _ => gb U (gl U _) fun _ => gp U _
theorem grow_integratedPower (c : Conditions K) : Keeps (Grow U) (grossIntegratedPower newton U c) :=
  gb U (gl U _) fun _ => gb U (grow_getCap35 U _) fun _ => gb U (grow_getCap17 U _) fun _ => gb U (gl U _) fun _ => gb U (grow_getCop newton U _ (Or.inr rfl) _) fun _ =>
    gb U (grow_getCop newton U _ (Or.inl rfl) _) fun _ => gb U (gl U _) fun _ => gb U (gl U _) fun _ => gb U (gl U _) fun _ => gb U (gl U _) fun _ => gp U _

end

/-! ## The rating as a function of the COP -/

/-- The rating `check_hspf` computes, as a function of the unit alone; the second component is the COP at 35 °F it stores. -/
def hspfAt (U : Unit24 K) (i : Nat) (cop17 : K) : Py (K × K) := do
  let cap47 ← pyGet U.sys.netHeating i
  let cop47 ← Sys.at_ U.netHeatingCop i
  let inp47 ← pdiv cap47 cop47
  let cap35 ← cap35Value U i
  let cap17 ← cap17Value U i
  let inp17 ← pdiv cap17 cop17
  match U.cop35 with
  | some l => do
    let cop35 ← pyGet l i
    let inp35 ← pdiv cap35 cop35
    return (← hspfOf U ⟨cap47, cap35, cap17, inp47, inp35, inp17⟩, cop35)
  | none => do
    let cop35 ← pdiv cap35 (inp35Default U inp47 inp17)
    return (← hspfOf U ⟨cap47, cap35, cap17, inp47, inp35Default U inp47 inp17, inp17⟩, cop35)

/-- Ready for an evaluation: correct caches and a COP table with one entry per speed. -/
def Ready (U : Unit24 K) (d : Data K) : Prop := Inv U d ∧ ∃ l, d .cop35 = some l ∧ l.length = U.nHeating

theorem store_ready {U : Unit24 K} {d : Data K} (h : Ready U d) {i : Nat} (hi : i < U.nHeating) (v : K) :
    ∃ d', store .cop35 i v d = (.ok (), d') ∧ Ready U d' ∧ entry .cop35 i d' = .ok (some v) := by
  obtain ⟨hinv, l, hl, hn⟩ := h
  have hst : store .cop35 i v d = (.ok (), Function.update d .cop35 (some (l.set i (some v)))) := by simp [store, hl, hn, hi]
  refine ⟨_, hst, ⟨?_, _, by simp; rfl, by simpa using hn⟩, ?_⟩
  · have := inv_store (U := U) (k := .cop35) (by decide) (by decide) i v hinv
    rwa [hst] at this
  · simp [entry, pyGet, List.getElem?_set, hn, hi]

/-- An evaluation that succeeds. -/
theorem checkHspf_ok {U : Unit24 K} {d : Data K} (h : Ready U d) {i : Nat} (hi : i < U.nHeating) {x v c : K} (hx : hspfAt U i x = .ok (v, c)) :
    ∃ d', checkHspf U i x d = (.ok v, d') ∧ Ready U d' ∧ entry .cop35 i d' = .ok (some c) := by
  unfold hspfAt at hx
  simp only [bind_eq_ok] at hx
  obtain ⟨cap47, h1, cop47, h2, inp47, h3, cap35, h4, cap17, h5, inp17, h6, hx⟩ := hx
  obtain ⟨hinv, l, hl, hn⟩ := h
  obtain ⟨a1, a2⟩ := getCap35_run U i hinv
  have a3 := getCap35_other U i d (k := .cop35) (by decide) (by decide)
  obtain ⟨b1, -, -⟩ := getCap17_run U i a2.1
  have b2 := getCap17_inv U i a2
  have b3 := getCap17_other U i (getCap35 U i d).2 (k := .cop35) (by decide)
  rw [atSpeed, if_pos hi, h4] at a1
  rw [atSpeed, if_pos hi, h5] at b1
  rcases hd1 : getCap35 U i d with ⟨y1, d1⟩
  rw [hd1] at a1 a3 b1 b2 b3
  simp only at a1 a3 b1 b2 b3
  subst a1
  rcases hd2 : getCap17 U i d1 with ⟨y2, d2⟩
  rw [hd2] at b1 b2 b3
  simp only at b1 b2 b3
  subst b1
  have hr : Ready U d2 := ⟨b2, l, by rw [b3, a3, hl], hn⟩
  unfold checkHspf
  simp only [PyM.bind_run, PyM.lift_run, h1, h2, h3, hd1, hd2, h6]
  unfold inp35Of
  cases hc : U.cop35 with
  | some m =>
    rw [hc] at hx
    simp only [bind_eq_ok, pure_eq_ok] at hx
    obtain ⟨cop35, g1, inp35, g2, r, g3, g4⟩ := hx
    obtain ⟨rfl, rfl⟩ := Prod.mk.inj (Except.ok.inj g4)
    obtain ⟨d3, k1, k2, k3⟩ := store_ready hr hi cop35
    refine ⟨d3, ?_, k2, k3⟩
    simp only [PyM.bind_run, PyM.lift_run, g1, k1, g2, g3]
  | none =>
    rw [hc] at hx
    simp only [bind_eq_ok, pure_eq_ok] at hx
    obtain ⟨cop35, g1, r, g3, g4⟩ := hx
    obtain ⟨rfl, rfl⟩ := Prod.mk.inj (Except.ok.inj g4)
    obtain ⟨d3, k1, k2, k3⟩ := store_ready hr hi cop35
    refine ⟨d3, ?_, k2, k3⟩
    simp only [PyM.bind_run, PyM.lift_run, PyM.pure_run, g1, k1, g3]

/-- An evaluation succeeds only if the rating is defined. -/
theorem checkHspf_inv {U : Unit24 K} {d d' : Data K} (h : Inv U d) {i : Nat} {x v : K} (hx : checkHspf U i x d = (.ok v, d')) :
    ∃ c, hspfAt U i x = .ok (v, c) := by
  unfold checkHspf at hx
  simp only [PyM.bind_run, PyM.lift_run] at hx
  cases h1 : pyGet U.sys.netHeating i with
  | error e => rw [h1] at hx; simp at hx
  | ok cap47 =>
  rw [h1] at hx; simp only at hx
  cases h2 : Sys.at_ U.netHeatingCop i with
  | error e => rw [h2] at hx; simp at hx
  | ok cop47 =>
  rw [h2] at hx; simp only at hx
  cases h3 : pdiv cap47 cop47 with
  | error e => rw [h3] at hx; simp at hx
  | ok inp47 =>
  rw [h3] at hx; simp only at hx
  obtain ⟨a1, a2⟩ := getCap35_run U i h
  rcases hd1 : getCap35 U i d with ⟨y1, d1⟩
  rw [hd1] at a1 a2 hx
  simp only at a1 a2 hx
  cases y1 with
  | error e => simp at hx
  | ok cap35 =>
  simp only at hx
  obtain ⟨b1, -, -⟩ := getCap17_run U i a2.1
  rcases hd2 : getCap17 U i d1 with ⟨y2, d2⟩
  rw [hd2] at b1 hx
  simp only at b1 hx
  cases y2 with
  | error e => simp at hx
  | ok cap17 =>
  simp only at hx
  have hlt : i < U.nHeating := by by_contra hn; simp [atSpeed, hn] at a1
  rw [atSpeed, if_pos hlt] at a1 b1
  cases h6 : pdiv cap17 x with
  | error e => rw [h6] at hx; simp at hx
  | ok inp17 =>
  rw [h6] at hx; simp only at hx
  unfold inp35Of at hx
  unfold hspfAt
  simp only [h1, h2, h3, ← a1, ← b1, h6, bind_ok]
  cases hc : U.cop35 with
  | some m =>
    rw [hc] at hx
    simp only [PyM.bind_run, PyM.lift_run] at hx ⊢
    cases g1 : pyGet m i with
    | error e => rw [g1] at hx; simp at hx
    | ok cop35 =>
    rw [g1] at hx; simp only at hx
    rcases hd3 : store .cop35 i cop35 d2 with ⟨y3, d3⟩
    rw [hd3] at hx
    cases y3 with
    | error e => simp at hx
    | ok _ =>
    simp only at hx
    cases g2 : pdiv cap35 cop35 with
    | error e => rw [g2] at hx; simp at hx
    | ok inp35 =>
    rw [g2] at hx; simp only at hx
    exact ⟨cop35, by simp only [bind_ok, g2, (Prod.mk.inj hx).1, pure_eq_ok]⟩
  | none =>
    rw [hc] at hx
    simp only [PyM.bind_run, PyM.lift_run, PyM.pure_run] at hx ⊢
    cases g1 : pdiv cap35 (inp35Default U inp47 inp17) with
    | error e => rw [g1] at hx; simp at hx
    | ok cop35 =>
    rw [g1] at hx; simp only at hx
    rcases hd3 : store .cop35 i cop35 d2 with ⟨y3, d3⟩
    rw [hd3] at hx
    cases y3 with
    | error e => simp at hx
    | ok _ =>
    simp only at hx
    exact ⟨cop35, by simp only [bind_ok, (Prod.mk.inj hx).1, pure_eq_ok]⟩

/-- What a search does on a plain function: the points it evaluates, in order, and its outcome. -/
def Search.outcome (f : K → Py K) : Search K → List K × Py K
  | .ret x => ([], .ok x)
  | .fail e => ([], .error e)
  | .eval x next =>
    match f x with
    | .error e => ([x], .error e)
    | .ok y => (x :: ((next y).outcome f).1, ((next y).outcome f).2)

/-- The function whose root is sought. -/
def objective (U : Unit24 K) (i : Nat) (x : K) : Py K := do
  let r ← hspfAt U i x
  return r.1 - (← pyNum U.inputHspf)

theorem rootFn_ok {U : Unit24 K} {d : Data K} (h : Ready U d) {i : Nat} (hi : i < U.nHeating) {x y : K} (hx : objective U i x = .ok y) :
    ∃ d' v c, rootFn U i x d = (.ok y, d') ∧ Ready U d' ∧ hspfAt U i x = .ok (v, c) ∧ entry .cop35 i d' = .ok (some c) := by
  unfold objective at hx
  simp only [bind_eq_ok, pure_eq_ok] at hx
  obtain ⟨⟨v, c⟩, h1, t, h2, h3⟩ := hx
  obtain ⟨d', k1, k2, k3⟩ := checkHspf_ok h hi h1
  refine ⟨d', v, c, ?_, k2, h1, k3⟩
  simp only [rootFn, PyM.bind_run, PyM.lift_run, k1, h2, PyM.pure_run]
  rw [Except.ok.inj h3]

/-- A search that succeeds on the plain function succeeds on the unit, with the same result, and leaves the COP at 35 °F of the last point it evaluated. -/
theorem search_ok {U : Unit24 K} {i : Nat} (hi : i < U.nHeating) (s : Search K) : ∀ (d : Data K), Ready U d → ∀ r, (s.outcome (objective U i)).2 = .ok r →
    ∃ d', s.run (rootFn U i) d = (.ok r, d') ∧ Ready U d' ∧
      (∀ z, (s.outcome (objective U i)).1.getLast? = some z → ∃ v c, hspfAt U i z = .ok (v, c) ∧ entry .cop35 i d' = .ok (some c)) ∧
      ((s.outcome (objective U i)).1 = [] → d' = d) := by
  induction s with
  | ret x => exact fun d hd r hr => ⟨d, by simp only [Search.outcome] at hr; rw [Search.run, PyM.pure_run, hr], hd, fun z hz => by simp [Search.outcome] at hz, fun _ => rfl⟩
  | fail e => exact fun d hd r hr => by simp [Search.outcome] at hr
  | eval x next ih =>
    intro d hd r hr
    cases hf : objective U i x with
    | error e => simp [Search.outcome, hf] at hr
    | ok y =>
      simp only [Search.outcome, hf] at hr ⊢
      obtain ⟨d1, v, c, k1, k2, k3, k4⟩ := rootFn_ok hd hi hf
      obtain ⟨d2, m1, m2, m3, m4⟩ := ih y d1 k2 r hr
      refine ⟨d2, ?_, m2, fun z hz => ?_, fun h => by simp at h⟩
      · simp only [Search.run, PyM.bind_run, k1, m1]
      · cases hl : ((next y).outcome (objective U i)).1 with
        | nil =>
          rw [hl] at hz
          simp only [List.getLast?_singleton, Option.some.injEq] at hz
          subst hz
          rw [m4 hl]
          exact ⟨v, c, k3, k4⟩
        | cons a t =>
          rw [hl, List.getLast?_cons_cons] at hz
          exact m3 z (by rw [hl]; exact hz)

theorem prepared_ready {U : Unit24 K} {d : Data K} (hi : Inv U d) (h : d .cop35 = none) : Ready U (prepared U d) :=
  ⟨prepared_inv hi, _, by rw [prepared_cop35, h], by simp⟩

end Resdx.Title24
