import Verif.Py

/-! # List comprehensions that may raise -/

namespace Resdx

variable {α β : Type}

theorem mapM_ok_iff (f : α → Py β) : ∀ (l : List α) (r : List β), l.mapM f = .ok r ↔
    List.Forall₂ (fun a b => f a = .ok b) l r := by
  intro l
  induction l with
  | nil =>
    intro r
    simp only [List.mapM_nil, pure_eq_ok, Except.ok.injEq, List.forall₂_nil_left_iff, eq_comm]
  | cons a l ih =>
    intro r
    simp only [List.mapM_cons, bind_eq_ok, pure_eq_ok, Except.ok.injEq]
    constructor
    · rintro ⟨b, hb, bs, hbs, rfl⟩
      exact .cons hb ((ih bs).1 hbs)
    · intro h
      cases h with
      | cons hb hbs => exact ⟨_, hb, _, (ih _).2 hbs, rfl⟩

theorem mapM_range_ok_iff (f : Nat → Py β) (n : Nat) (r : List β) : (List.range n).mapM f = .ok r ↔
    r.length = n ∧ ∀ i < n, ∃ b, r[i]? = some b ∧ f i = .ok b := by
  rw [mapM_ok_iff, List.forall₂_iff_get]
  constructor
  · rintro ⟨hl, h⟩
    simp only [List.length_range] at hl
    refine ⟨hl.symm, fun i hi => ?_⟩
    have := h i (by simpa using hi) (by omega)
    refine ⟨r[i], by simp [hl ▸ hi], ?_⟩
    simpa using this
  · rintro ⟨hl, h⟩
    refine ⟨by simp [hl], fun i h1 h2 => ?_⟩
    simp only [List.length_range] at h1
    obtain ⟨b, hb, hf⟩ := h i h1
    have : r[i] = b := by
      have := List.getElem?_eq_some_iff.1 hb
      obtain ⟨_, h⟩ := this; exact h
    simp [this, hf]

theorem mapM_range_of_ok (f : Nat → Py β) (g : Nat → β) (n : Nat) (h : ∀ i < n, f i = .ok (g i)) :
    (List.range n).mapM f = .ok ((List.range n).map g) := by
  rw [mapM_range_ok_iff]
  refine ⟨by simp, fun i hi => ⟨g i, ?_, h i hi⟩⟩
  simp [hi]

theorem mapM_isOk (f : α → Py β) (l : List α) (h : ∀ a ∈ l, ∃ b, f a = .ok b) : ∃ r, l.mapM f = .ok r := by
  induction l with
  | nil => exact ⟨[], rfl⟩
  | cons a l ih =>
    obtain ⟨b, hb⟩ := h a (by simp)
    obtain ⟨r, hr⟩ := ih fun a ha => h a (by simp [ha])
    exact ⟨b :: r, by simp [List.mapM_cons, hb, hr, bind_ok, pure_eq_ok]⟩

end Resdx
