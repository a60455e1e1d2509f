import Verif.Model.Rep205
import Verif.Spec.Rep205
import Verif.Lemmas.PyList

/-! # Nested appending loops -/

set_option linter.unusedSectionVars false
set_option linter.unusedSimpArgs false

namespace Resdx.Rep205

open Spec

variable {α β : Type}

theorem forAppend_spec (l : List α) (body : α → Py (List β)) (r : List β) (m : Nat) (h : forAppend l body = .ok r)
    (hm : ∀ a x, body a = .ok x → x.length = m) :
    r.length = l.length * m ∧ ∀ i a, l[i]? = some a → ∃ x, body a = .ok x ∧ ∀ j < m, r[i * m + j]? = x[j]? := by
  simp only [forAppend, bind_eq_ok, pure_eq_ok, Except.ok.injEq] at h
  obtain ⟨parts, hp, rfl⟩ := h
  rw [mapM_ok_iff] at hp
  induction hp with
  | nil => simp
  | @cons a x l parts hax _ ih =>
    have hx := hm a x hax
    obtain ⟨ih1, ih2⟩ := ih
    refine ⟨by simp only [List.flatten_cons, List.length_append, ih1, List.length_cons, hx]; ring, ?_⟩
    intro i b hb
    cases i with
    | zero =>
      simp only [List.getElem?_cons_zero, Option.some.injEq] at hb
      subst hb
      refine ⟨x, hax, fun j hj => ?_⟩
      simp only [List.flatten_cons, Nat.zero_mul, Nat.zero_add]
      rw [List.getElem?_append_left (by omega)]
    | succ i =>
      simp only [List.getElem?_cons_succ] at hb
      obtain ⟨y, hy, hj⟩ := ih2 i b hb
      refine ⟨y, hy, fun j hj' => ?_⟩
      rw [← hj j hj', List.flatten_cons, List.getElem?_append_right (by rw [hx]; nlinarith)]
      congr 1
      rw [hx, Nat.succ_mul]
      omega

theorem forAppend_length {l : List α} {body : α → Py (List β)} {m : Nat} (hm : ∀ a x, body a = .ok x → x.length = m) (x : List β)
    (h : forAppend l body = .ok x) : x.length = l.length * m := (forAppend_spec l body x m h hm).1

theorem forAppend_isOk (l : List α) (body : α → Py (List β)) (h : ∀ a ∈ l, ∃ x, body a = .ok x) : ∃ r, forAppend l body = .ok r := by
  obtain ⟨r, hr⟩ := mapM_isOk body l h
  exact ⟨r.flatten, by simp [forAppend, hr, bind_ok, pure_eq_ok]⟩

/-- Conversely, a loop that returns has run every body. -/
theorem forAppend_all (l : List α) (body : α → Py (List β)) (r : List β) (h : forAppend l body = .ok r) : ∀ a ∈ l, ∃ x, body a = .ok x := by
  simp only [forAppend, bind_eq_ok, pure_eq_ok, Except.ok.injEq] at h
  obtain ⟨parts, hp, rfl⟩ := h
  rw [mapM_ok_iff] at hp
  intro a ha
  induction hp with
  | nil => simp at ha
  | @cons b x l parts hax _ ih =>
    rcases List.mem_cons.1 ha with rfl | ha
    · exact ⟨x, hax⟩
    · exact ih ha

/-! ## Row-major positions -/

theorem rowMajor_snoc (ix : List (Nat × Nat)) (q : Nat × Nat) : rowMajor (ix ++ [q]) = rowMajor ix * q.2 + q.1 := by
  simp [rowMajor]

theorem gridSize_snoc (ls : List Nat) (n : Nat) : gridSize (ls ++ [n]) = gridSize ls * n := by
  simp [gridSize]

theorem rowMajor_lt (ix : List (Nat × Nat)) (h : ∀ q ∈ ix, q.1 < q.2) : rowMajor ix < gridSize (ix.map Prod.snd) := by
  induction ix using List.reverseRecOn with
  | nil => simp [rowMajor, gridSize]
  | append_singleton ix q ih =>
    rw [rowMajor_snoc, List.map_append, List.map_singleton, gridSize_snoc]
    have h1 := ih fun q hq => h q (by simp [hq])
    have h2 := h q (by simp)
    calc rowMajor ix * q.2 + q.1 < rowMajor ix * q.2 + q.2 := by omega
      _ = (rowMajor ix + 1) * q.2 := by ring
      _ ≤ gridSize (ix.map Prod.snd) * q.2 := Nat.mul_le_mul_right _ h1

theorem rowMajor_inj (ix jx : List (Nat × Nat)) (hi : ∀ q ∈ ix, q.1 < q.2) (hj : ∀ q ∈ jx, q.1 < q.2)
    (hl : ix.map Prod.snd = jx.map Prod.snd) (h : rowMajor ix = rowMajor jx) : ix = jx := by
  induction ix using List.reverseRecOn generalizing jx with
  | nil => simpa using hl
  | append_singleton ix q ih =>
    obtain rfl | ⟨jx, r, rfl⟩ := List.eq_nil_or_concat' jx
    · simp at hl
    · simp only [List.map_append, List.map_singleton] at hl
      obtain ⟨hl1, hl2⟩ := List.append_inj' hl rfl
      simp only [List.cons.injEq, and_true] at hl2
      rw [rowMajor_snoc, rowMajor_snoc, ← hl2] at h
      have h1 := hi q (by simp)
      have h2 := hj r (by simp)
      rw [← hl2] at h2
      have e1 : q.1 = r.1 := by
        have := congrArg (· % q.2) h
        simpa [Nat.mul_add_mod_self_right, Nat.add_mod, Nat.mod_eq_of_lt h1, Nat.mod_eq_of_lt h2] using this
      have e2 : rowMajor ix = rowMajor jx := by
        rw [e1] at h
        exact Nat.eq_of_mul_eq_mul_right (by omega) (Nat.add_right_cancel h)
      rw [ih jx (fun q hq => hi q (by simp [hq])) (fun q hq => hj q (by simp [hq])) hl1 e2, Prod.ext e1 hl2]

end Resdx.Rep205
