import Verif.Spec.BaseModel
import Verif.Lemmas.PyList

/-! # Helper lemmas about the rated quantities -/

set_option linter.unusedSectionVars false
set_option linter.unusedSimpArgs false

namespace Resdx.BaseModel

open Spec

variable {K : Type} [Field K] [LinearOrder K]

theorem numAt_eq_ok {l : List (Option K)} {i : Nat} {x : K} : numAt l i = .ok x ↔ l[i]? = some (some x) := by
  unfold numAt
  simp only [bind_eq_ok, pyGet_eq_ok]
  constructor
  · rintro ⟨o, h, ho⟩
    cases o with
    | none => simp [pyNum] at ho
    | some y => simp [pyNum] at ho; simpa [ho] using h
  · intro h
    exact ⟨_, h, rfl⟩

theorem exists_map_some {l : List (Option K)} (h : ∀ o ∈ l, ∃ x, o = some x) : ∃ g : List K, l = g.map some := by
  induction l with
  | nil => exact ⟨[], rfl⟩
  | cons o l ih =>
    obtain ⟨x, rfl⟩ := h o (by simp)
    obtain ⟨g, hg⟩ := ih fun o ho => h o (by simp [ho])
    exact ⟨x :: g, by simp [← hg]⟩

theorem comp_eq_ok {n : Nat} {f : Nat → Py K} {r : List (Option K)} : comp n f = .ok r ↔
    r.length = n ∧ ∀ i < n, ∃ x, r[i]? = some (some x) ∧ f i = .ok x := by
  unfold comp
  simp only [bind_eq_ok, pure_eq_ok, Except.ok.injEq, mapM_range_ok_iff]
  constructor
  · rintro ⟨l, ⟨hl, h⟩, rfl⟩
    refine ⟨by simp [hl], fun i hi => ?_⟩
    obtain ⟨b, hb, hf⟩ := h i hi
    exact ⟨b, by simp [hb], hf⟩
  · rintro ⟨hl, h⟩
    have hsome : ∀ o ∈ r, ∃ x, o = some x := by
      intro o ho
      obtain ⟨i, hi, rfl⟩ := List.getElem_of_mem ho
      obtain ⟨x, hx, _⟩ := h i (by omega)
      rw [List.getElem?_eq_getElem hi] at hx
      exact ⟨x, by simpa using hx⟩
    obtain ⟨g, rfl⟩ := exists_map_some hsome
    refine ⟨g, ⟨by simpa using hl, fun i hi => ?_⟩, rfl⟩
    obtain ⟨x, hx, hf⟩ := h i hi
    exact ⟨x, by simpa using hx, hf⟩

theorem comp_isOk {n : Nat} {f : Nat → Py K} (h : ∀ i < n, ∃ x, f i = .ok x) : ∃ r, comp n f = .ok r := by
  obtain ⟨l, hl⟩ := mapM_isOk f (List.range n) fun a ha => h a (by simpa using ha)
  exact ⟨l.map some, by simp [comp, hl, bind_ok, pure_eq_ok]⟩

/-- Two comprehensions with the same values are the same list. -/
theorem comp_unique {n : Nat} {f : Nat → Py K} {r t : List (Option K)} (hr : comp n f = .ok r) (ht : t.length = n)
    (h : ∀ i < n, ∃ x, t[i]? = some (some x) ∧ f i = .ok x) : t = r := by
  have := comp_eq_ok.2 ⟨ht, h⟩
  rw [hr] at this
  simpa using this.symm

theorem supplies_iff {input : NumArg K} {n i : Nat} {x : K} :
    ((perSpeed n input).map some)[i]? = some (some x) ↔ Supplies input n i x := by
  cases input with
  | num y =>
    simp only [perSpeed, Supplies, List.map_replicate, List.getElem?_replicate]
    split <;> simp_all [eq_comm]
  | list l => simp [perSpeed, Supplies]

/-- The net-COP setter, speed by speed. -/
theorem setNetCop_eq_ok {input : NumArg K} {s s' : Rated K} (h : setNetCop input s = .ok s') :
    SameInputs s' s ∧ s'.netCop = (perSpeed s.n input).map some ∧
    s'.netPower.length = s.n ∧ s'.grossPower.length = s.n ∧ s'.grossCop.length = s.n ∧
    ∀ i < s.n, ∃ q Q f p P c C, HasRatings s' i q Q f p P c C ∧ c ≠ 0 ∧ P ≠ 0 ∧ p = q / c ∧ P = p - f ∧ C = Q / P := by
  unfold setNetCop at h
  simp only [bind_eq_ok, pure_eq_ok, Except.ok.injEq, comp_eq_ok, numAt_eq_ok, pyGet_eq_ok, pdiv_eq_ok] at h
  obtain ⟨np, ⟨hnp, h1⟩, gp, ⟨hgp, h2⟩, gc, ⟨hgc, h3⟩, rfl⟩ := h
  refine ⟨⟨rfl, rfl, rfl, rfl⟩, rfl, hnp, hgp, hgc, fun i hi => ?_⟩
  obtain ⟨p, e1, q, e2, c, e3, e4, e5⟩ := h1 i hi
  obtain ⟨P, e6, p', e7, f, e8, e9⟩ := h2 i hi
  obtain ⟨C, e10, Q, e11, P', e12, e13, e14⟩ := h3 i hi
  have hp : p' = p := by rw [e1] at e7; simpa using e7.symm
  have hP : P' = P := by rw [e6] at e12; simpa using e12.symm
  subst hp; subst hP
  exact ⟨q, Q, f, p', P', c, C, ⟨e2, e11, e8, e1, e6, e3, e10⟩, e4, e13, e5.symm, e9.symm, e14.symm⟩

/-- The gross-COP setter with a number, speed by speed. -/
theorem setGrossCop_eq_ok {x : K} {s s' : Rated K} (h : setGrossCop (.num x) s = .ok s') :
    SameInputs s' s ∧ s'.grossCop = List.replicate s.n (some x) ∧
    s'.netPower.length = s.n ∧ s'.grossPower.length = s.n ∧ s'.netCop.length = s.n ∧
    ∀ i < s.n, ∃ q Q f p P c, HasRatings s' i q Q f p P c x ∧ x ≠ 0 ∧ p ≠ 0 ∧ P = Q / x ∧ p = P + f ∧ c = q / p := by
  unfold setGrossCop at h
  simp only [bind_eq_ok, pure_eq_ok, Except.ok.injEq, comp_eq_ok, numAt_eq_ok, pyGet_eq_ok, pdiv_eq_ok, List.map_replicate] at h
  obtain ⟨gp, ⟨hgp, h1⟩, np, ⟨hnp, h2⟩, nc, ⟨hnc, h3⟩, rfl⟩ := h
  refine ⟨⟨rfl, rfl, rfl, rfl⟩, rfl, hnp, hgp, hnc, fun i hi => ?_⟩
  obtain ⟨P, e1, Q, e2, x', e3, e4, e5⟩ := h1 i hi
  obtain ⟨p, e6, P', e7, f, e8, e9⟩ := h2 i hi
  obtain ⟨c, e10, q, e11, p', e12, e13, e14⟩ := h3 i hi
  have hx : x' = x := by
    rw [List.getElem?_replicate, if_pos hi] at e3; simpa using e3.symm
  have hP : P' = P := by rw [e1] at e7; simpa using e7.symm
  have hp : p' = p := by rw [e6] at e12; simpa using e12.symm
  subst hx; subst hP; subst hp
  exact ⟨q, Q, f, p', P', c, ⟨e11, e2, e8, e6, e1, e10, e3⟩, e4, e13, e5.symm, e9.symm, e14.symm⟩

theorem setNetCop_returns {input : NumArg K} {s : Rated K}
    (h : ∀ i < s.n, ∃ q Q f c, HasInputs s i q Q f ∧ Supplies input s.n i c ∧ c ≠ 0 ∧ q / c ≠ f) :
    ∃ s', setNetCop input s = .ok s' := by
  unfold setNetCop
  have k1 : ∃ np, comp s.n (fun i => do pdiv (← pyGet s.netCap i) (← numAt ((perSpeed s.n input).map some) i)) = .ok np := by
    apply comp_isOk
    intro i hi
    obtain ⟨q, Q, f, c, hin, hs, hc, _⟩ := h i hi
    refine ⟨q / c, ?_⟩
    rw [pyGet_eq_ok.2 hin.netCap, bind_ok, numAt_eq_ok.2 (supplies_iff.2 hs), bind_ok, pdiv_ok hc]
  obtain ⟨np, hnp⟩ := k1
  have v1 : ∀ i < s.n, ∃ q Q f c, HasInputs s i q Q f ∧ c ≠ 0 ∧ q / c ≠ f ∧ np[i]? = some (some (q / c)) := by
    intro i hi
    obtain ⟨q, Q, f, c, hin, hs, hc, hne⟩ := h i hi
    obtain ⟨x, hx, hf⟩ := (comp_eq_ok.1 hnp).2 i hi
    rw [pyGet_eq_ok.2 hin.netCap, bind_ok, numAt_eq_ok.2 (supplies_iff.2 hs), bind_ok, pdiv_ok hc] at hf
    simp only [Except.ok.injEq] at hf
    exact ⟨q, Q, f, c, hin, hc, hne, by rw [hx, hf]⟩
  have k2 : ∃ gp, comp s.n (fun i => do return (← numAt np i) - (← numAt s.fanPower i)) = .ok gp := by
    apply comp_isOk
    intro i hi
    obtain ⟨q, Q, f, c, hin, hc, hne, hv⟩ := v1 i hi
    exact ⟨q / c - f, by rw [numAt_eq_ok.2 hv, bind_ok, numAt_eq_ok.2 hin.fan, bind_ok]; rfl⟩
  obtain ⟨gp, hgp⟩ := k2
  have k3 : ∃ gc, comp s.n (fun i => do pdiv (← numAt s.grossCap i) (← numAt gp i)) = .ok gc := by
    apply comp_isOk
    intro i hi
    obtain ⟨q, Q, f, c, hin, hc, hne, hv⟩ := v1 i hi
    obtain ⟨x, hx, hf⟩ := (comp_eq_ok.1 hgp).2 i hi
    rw [numAt_eq_ok.2 hv, bind_ok, numAt_eq_ok.2 hin.fan, bind_ok, pure_eq_ok] at hf
    simp only [Except.ok.injEq] at hf
    exact ⟨Q / x, by rw [numAt_eq_ok.2 hin.grossCap, bind_ok, numAt_eq_ok.2 hx, bind_ok, pdiv_ok (by rw [← hf]; exact sub_ne_zero.2 hne)]⟩
  obtain ⟨gc, hgc⟩ := k3
  simp only [hnp, bind_ok, hgp, hgc]
  exact ⟨_, rfl⟩

theorem setGrossCop_returns {x : K} {s : Rated K} (hx0 : x ≠ 0)
    (h : ∀ i < s.n, ∃ q Q f, HasInputs s i q Q f ∧ Q / x + f ≠ 0) :
    ∃ s', setGrossCop (.num x) s = .ok s' := by
  unfold setGrossCop
  have hc : ∀ i < s.n, numAt ((List.replicate s.n x).map some) i = .ok x := by
    intro i hi
    rw [numAt_eq_ok]; simp [hi]
  have k1 : ∃ gp, comp s.n (fun i => do pdiv (← numAt s.grossCap i) (← numAt ((List.replicate s.n x).map some) i)) = .ok gp := by
    apply comp_isOk
    intro i hi
    obtain ⟨q, Q, f, hin, _⟩ := h i hi
    refine ⟨Q / x, ?_⟩
    rw [numAt_eq_ok.2 hin.grossCap, bind_ok, hc i hi, bind_ok, pdiv_ok hx0]
  obtain ⟨gp, hgp⟩ := k1
  have v1 : ∀ i < s.n, ∃ q Q f, HasInputs s i q Q f ∧ Q / x + f ≠ 0 ∧ gp[i]? = some (some (Q / x)) := by
    intro i hi
    obtain ⟨q, Q, f, hin, hne⟩ := h i hi
    obtain ⟨y, hy, hf⟩ := (comp_eq_ok.1 hgp).2 i hi
    rw [numAt_eq_ok.2 hin.grossCap, bind_ok, hc i hi, bind_ok, pdiv_ok hx0] at hf
    simp only [Except.ok.injEq] at hf
    exact ⟨q, Q, f, hin, hne, by rw [hy, hf]⟩
  have k2 : ∃ np, comp s.n (fun i => do return (← numAt gp i) + (← numAt s.fanPower i)) = .ok np := by
    apply comp_isOk
    intro i hi
    obtain ⟨q, Q, f, hin, hne, hv⟩ := v1 i hi
    exact ⟨Q / x + f, by rw [numAt_eq_ok.2 hv, bind_ok, numAt_eq_ok.2 hin.fan, bind_ok]; rfl⟩
  obtain ⟨np, hnp⟩ := k2
  have k3 : ∃ nc, comp s.n (fun i => do pdiv (← pyGet s.netCap i) (← numAt np i)) = .ok nc := by
    apply comp_isOk
    intro i hi
    obtain ⟨q, Q, f, hin, hne, hv⟩ := v1 i hi
    obtain ⟨y, hy, hf⟩ := (comp_eq_ok.1 hnp).2 i hi
    rw [numAt_eq_ok.2 hv, bind_ok, numAt_eq_ok.2 hin.fan, bind_ok, pure_eq_ok] at hf
    simp only [Except.ok.injEq] at hf
    exact ⟨q / y, by rw [pyGet_eq_ok.2 hin.netCap, bind_ok, numAt_eq_ok.2 hy, bind_ok, pdiv_ok (by rw [← hf]; exact hne)]⟩
  obtain ⟨nc, hnc⟩ := k3
  simp only [hgp, bind_ok, hnp, hnc]
  exact ⟨_, rfl⟩

theorem ext_some {l t : List (Option K)} (n : Nat) (hl : l.length = n) (ht : t.length = n)
    (h : ∀ i < n, ∃ x, l[i]? = some (some x) ∧ t[i]? = some (some x)) : l = t := by
  apply List.ext_getElem?
  intro i
  by_cases hi : i < n
  · obtain ⟨x, h1, h2⟩ := h i hi
    rw [h1, h2]
  · rw [List.getElem?_eq_none (by omega), List.getElem?_eq_none (by omega)]

end Resdx.BaseModel
