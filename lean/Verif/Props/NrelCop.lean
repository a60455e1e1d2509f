import Verif.Spec.NrelCop
import Verif.Model.ResnetLists
import Verif.Lemmas.BaseModel
import Verif.Lemmas.ResnetFan
import Mathlib.Tactic.FieldSimp
import Mathlib.Tactic.Linarith

/-! # C110: the COP setters used for lists of capacities -/

set_option linter.unusedSectionVars false
set_option linter.unusedSimpArgs false

namespace Resdx.Props

open Spec BaseModel ResnetFan

variable {K : Type} [Field K] [LinearOrder K] [IsStrictOrderedRing K]

theorem copLow_eq (heating : Bool) : (Nrel.copLow heating : K) = if heating then 87 / 100 else 91 / 100 := by
  cases heating <;> simp [Nrel.copLow] <;> norm_num

theorem copLow_pos (heating : Bool) : (0 : K) < Nrel.copLow heating := by
  cases heating <;> simp [Nrel.copLow] <;> norm_num

theorem grossCops_supplied {heating : Bool} {input : NumArg K} {s : Rated K} {gc : List (Option K)} (h : Nrel.grossCops heating input s = .ok gc) {i : Nat} {C : K}
    (hC : CopSupplied heating input s.n i C) : gc[i]? = some (some C) := by
  cases input with
  | list l => simp only [Nrel.grossCops, Except.ok.injEq] at h; subst h; simp only [CopSupplied] at hC; simp [hC]
  | num y =>
    simp only [Nrel.grossCops, bind_eq_ok, pySet_eq_ok] at h
    obtain ⟨g0, ⟨h0, rfl⟩, h⟩ := h
    have e0 : numAt (s.grossCop.set 0 (some y)) 0 = .ok y := by rw [numAt_eq_ok]; simp [h0]
    rcases hC with ⟨rfl, rfl⟩ | ⟨hn, rfl, hy⟩
    · split at h
      · simp only [bind_eq_ok, pySet_eq_ok] at h
        obtain ⟨v, -, -, rfl⟩ := h
        rw [List.getElem?_set_ne (by decide)]; simp [h0]
      · simp only [pure_eq_ok, Except.ok.injEq] at h
        subst h; simp [h0]
    · rw [if_pos hn, e0, bind_ok, pySet_eq_ok] at h
      obtain ⟨h1, rfl⟩ := h
      rw [List.getElem?_set_self h1]
      have hp := copLow_pos (K := K) heating
      rw [← copLow_eq] at hy
      rw [← hy]
      congr 2
      field_simp

/-- C110: a gross COP leaves every speed consistent: the powers and the net COPs all follow from the gross COPs, and a speed to which the argument gives a COP has that gross COP. -/
theorem C110_gross (heating : Bool) (input : NumArg K) (s s' : Rated K) (h : Nrel.setGrossCop heating input s = .ok s') :
    SameInputs s' s ∧ RatingsConsistent s' ∧ ∀ i C, CopSupplied heating input s.n i C → s'.grossCop[i]? = some (some C) := by
  unfold Nrel.setGrossCop at h
  simp only [bind_eq_ok, pure_eq_ok, Except.ok.injEq, comp_eq_ok, numAt_eq_ok, pyGet_eq_ok, pdiv_eq_ok] at h
  obtain ⟨gc, hgc, gp, ⟨hgp, h1⟩, np, ⟨hnp, h2⟩, nc, ⟨hnc, h3⟩, rfl⟩ := h
  refine ⟨⟨rfl, rfl, rfl, rfl⟩, fun i hi => ?_, fun i C hC => grossCops_supplied hgc hC⟩
  obtain ⟨P, e1, Q, e2, C, e3, e4, e5⟩ := h1 i hi
  obtain ⟨p, e6, P', e7, f, e8, e9⟩ := h2 i hi
  obtain ⟨c, e10, q, e11, p', e12, e13, e14⟩ := h3 i hi
  have hP : P' = P := by rw [e1] at e7; simpa using e7.symm
  have hp : p' = p := by rw [e6] at e12; simpa using e12.symm
  subst hP; subst hp
  refine ⟨q, Q, f, p', P', c, C, ⟨e11, e2, e8, e6, e1, e10, e3⟩, e9.symm, ?_, ?_⟩
  · rw [← e14]; field_simp
  · rw [← e5]; field_simp

/-- C110: a list of net COPs is kept and leaves every speed consistent. -/
theorem C110_net_list (heating : Bool) (l : List K) (s s' : Rated K) (h : Nrel.setNetCop heating (.list l) s = .ok s') :
    SameInputs s' s ∧ RatingsConsistent s' ∧ ∀ i C, CopSupplied heating (.list l) s.n i C → s'.netCop[i]? = some (some C) := by
  obtain ⟨h1, h2, -, -, -, h3⟩ := setNetCop_eq_ok h
  refine ⟨h1, fun i hi => ?_, fun i C hC => by rw [h2]; simp only [CopSupplied] at hC; simp [perSpeed, hC]⟩
  rw [h1.1] at hi
  obtain ⟨q, Q, f, p, P, c, C, r, c0, P0, rfl, rfl, rfl⟩ := h3 i hi
  exact ⟨q, Q, f, _, _, c, _, r, by ring, by field_simp, (div_mul_cancel₀ _ P0).symm⟩

/-- What a net COP given as a number does to the first speed. -/
theorem net_number_first {heating : Bool} {x : K} {s s' : Rated K} (h : Nrel.setNetCop heating (.num x) s = .ok s') :
    ∃ s1 q Q f p P C, HasRatings s1 0 q Q f p P x C ∧ p = P + f ∧ q = x * p ∧ Q = C * P ∧ SameInputs s1 s ∧ Nrel.netCopLow heating s1 = .ok s' ∧
      (∀ i, i ≠ 0 → s1.netCop[i]? = s.netCop[i]? ∧ s1.grossCop[i]? = s.grossCop[i]? ∧ s1.netPower[i]? = s.netPower[i]? ∧ s1.grossPower[i]? = s.grossPower[i]?) := by
  simp only [Nrel.setNetCop, bind_eq_ok, pySet_eq_ok, pdiv_eq_ok, pyGet_eq_ok, numAt_eq_ok] at h
  obtain ⟨nc, ⟨n0, rfl⟩, q, e1, x', e2, p, ⟨x0, rfl⟩, np, ⟨n1, rfl⟩, p', e3, f, e4, gp, ⟨n2, rfl⟩, Q, e5, P, e6, C, ⟨P0, rfl⟩, gc, ⟨n3, rfl⟩, h⟩ := h
  have hx : x' = x := by simpa [n0] using e2.symm
  subst hx
  have hp : p' = q / x' := by simpa [n1] using e3.symm
  subst hp
  have hP : P = q / x' - f := by simpa [n2] using e6.symm
  refine ⟨{ s with netCop := s.netCop.set 0 (some x'), netPower := s.netPower.set 0 (some (q / x')), grossPower := s.grossPower.set 0 (some (q / x' - f)), grossCop := s.grossCop.set 0 (some (Q / P)) },
    q, Q, f, q / x', P, Q / P, ⟨e1, e5, e4, ?_, ?_, ?_, ?_⟩, by rw [hP]; ring, by field_simp, by field_simp, ⟨rfl, rfl, rfl, rfl⟩, h, ?_⟩
  · simp [n1]
  · simp [n2, hP]
  · simp [n0]
  · simp [n3, hP]
  · intro i hi
    simp only [List.getElem?_set_ne (Ne.symm hi), and_self]

/-- C110: a net COP given as a number is the net COP of the first speed, whose rated values agree with each other; the second of two speeds also agrees, and its gross COP is the first's over 0.91 (cooling) or 0.87 (heating). -/
theorem C110_net_number (heating : Bool) (x : K) (s s' : Rated K) (h : Nrel.setNetCop heating (.num x) s = .ok s') :
    SameInputs s' s ∧ s'.netCop[0]? = some (some x) ∧ (s.n ≤ 2 → RatingsConsistent s') ∧
      (s.n = 2 → ∃ C0 C1, s'.grossCop[0]? = some (some C0) ∧ s'.grossCop[1]? = some (some C1) ∧ CopSupplied heating (.num C0) 2 1 C1) := by
  obtain ⟨s1, q, Q, f, p, P, C, r, hp, hq, hQ, si, h, -⟩ := net_number_first h
  unfold Nrel.netCopLow at h
  split at h
  · rename_i hn
    simp only [bind_eq_ok, pySet_eq_ok, pdiv_eq_ok, pyGet_eq_ok, numAt_eq_ok, pure_eq_ok, Except.ok.injEq] at h
    obtain ⟨C', e1, gc, ⟨n1, rfl⟩, Q1, e2, C1, e3, P1, ⟨C0, rfl⟩, gp, ⟨n2, rfl⟩, P1', e4, f1, e5, np, ⟨n3, rfl⟩, q1, e6, p1, e7, c1, ⟨p0, rfl⟩, nc, ⟨n4, rfl⟩, rfl⟩ := h
    have hC' : C' = C := by rw [r.grossCop] at e1; simpa using e1.symm
    subst hC'
    have hC1 : C1 = C' / Nrel.copLow heating := by simpa [n1] using e3.symm
    have hP1 : P1' = Q1 / C1 := by simpa [n2] using e4.symm
    have hp1 : p1 = P1' + f1 := by simpa [n3] using e7.symm
    refine ⟨si, ?_, fun _ i hi => ?_, fun _ => ⟨C', C1, ?_, ?_, .inr ⟨rfl, rfl, ?_⟩⟩⟩
    · simp [r.netCop]
    · have hi' : i = 0 ∨ i = 1 := by simp only at hi; omega
      rcases hi' with rfl | rfl
      · exact ⟨q, Q, f, p, P, x, C', ⟨r.netCap, r.grossCap, r.fan, by simp [r.netPower], by simp [r.grossPower], by simp [r.netCop], by simp [r.grossCop]⟩, hp, hq, hQ⟩
      · exact ⟨q1, Q1, f1, p1, P1', q1 / p1, C1, ⟨e6, e2, e5, by simp [n3, hp1], by simp [n2, hP1], by simp [n4], by simp [n1, hC1]⟩, hp1, by field_simp, by rw [hP1]; field_simp⟩
    · simp [r.grossCop]
    · simp [n1, hC1]
    · rw [hC1, ← copLow_eq]
      have := copLow_pos (K := K) heating
      field_simp
  · rename_i hn
    simp only [Except.ok.injEq] at h
    subst h
    refine ⟨si, r.netCop, fun h2 i hi => ?_, fun h2 => absurd (si.1.trans h2) hn⟩
    have hi' : i = 0 := by have := si.1; omega
    subst hi'
    exact ⟨q, Q, f, p, P, x, C, r, hp, hq, hQ⟩

/-- C110 fails for a net COP given as a number with three or more speeds: the other speeds keep what they had (at construction nothing, so that using them is an error). -/
theorem C110_net_many_refuted (heating : Bool) (x : K) (s s' : Rated K) (hn : 3 ≤ s.n) (h : Nrel.setNetCop heating (.num x) s = .ok s') (i : Nat) (hi : i ≠ 0) :
    s'.netCop[i]? = s.netCop[i]? ∧ s'.grossCop[i]? = s.grossCop[i]? ∧ s'.netPower[i]? = s.netPower[i]? ∧ s'.grossPower[i]? = s.grossPower[i]? := by
  obtain ⟨s1, _, _, _, _, _, _, _, _, _, _, si, h, hs⟩ := net_number_first h
  have : s1.n ≠ 2 := by have := si.1; omega
  rw [Nrel.netCopLow, if_neg this, Except.ok.injEq] at h
  subst h
  exact hs i hi

/-- C110 fails for a gross COP given as a number (as the constructor's defaults are) with three or more speeds: no unit is made, since the other speeds have no COP. -/
theorem C110_gross_many_refuted (heating : Bool) (x : K) (s s' : Rated K) (hn : 3 ≤ s.n) (hs : ∃ i < s.n, i ≠ 0 ∧ s.grossCop[i]? = some none) :
    Nrel.setGrossCop heating (.num x) s ≠ .ok s' := by
  intro h
  unfold Nrel.setGrossCop at h
  simp only [bind_eq_ok, comp_eq_ok, numAt_eq_ok, pdiv_eq_ok] at h
  obtain ⟨gc, hgc, gp, ⟨-, h1⟩, -⟩ := h
  obtain ⟨i, hi, hi0, hn0⟩ := hs
  obtain ⟨P, -, Q, -, C, e, -⟩ := h1 i hi
  simp only [Nrel.grossCops, bind_eq_ok, pySet_eq_ok] at hgc
  obtain ⟨g0, ⟨h0, rfl⟩, h⟩ := hgc
  rw [if_neg (by omega), pure_eq_ok, Except.ok.injEq] at h
  subst h
  rw [List.getElem?_set_ne (Ne.symm hi0), hn0] at e
  simp at e

/-- C110: the gross setter replaces whatever a net COP set before: two sides that differ only in their COPs and powers end the same with a list, and with a number for at most two speeds. -/
theorem C110_gross_overrides (heating : Bool) (input : NumArg K) (s t s' t' : Rated K) (hst : SameInputs s t) (hl : ∀ x, input = .num x → s.n ≤ 2 ∧ s.grossCop.length = s.n ∧ t.grossCop.length = t.n)
    (hs : Nrel.setGrossCop heating input s = .ok s') (ht : Nrel.setGrossCop heating input t = .ok t') : s' = t' := by
  have key : Nrel.grossCops heating input s = Nrel.grossCops heating input t := by
    cases input with
    | list l => rfl
    | num x =>
      obtain ⟨h2, l1, l2⟩ := hl x rfl
      have hn := hst.1
      simp only [Nrel.grossCops]
      have hs2 : s.n = 0 ∨ s.n = 1 ∨ s.n = 2 := by omega
      rcases hs2 with h | h | h
      · have e1 : s.grossCop = [] := List.length_eq_zero_iff.1 (by omega)
        have e2 : t.grossCop = [] := List.length_eq_zero_iff.1 (by omega)
        rw [e1, e2]; rfl
      · obtain ⟨a, e1⟩ := List.length_eq_one_iff.1 (l1.trans h)
        obtain ⟨b, e2⟩ := List.length_eq_one_iff.1 (l2.trans (hn.symm.trans h))
        rw [e1, e2, ← hn, h]; rfl
      · obtain ⟨a, a', e1⟩ := List.length_eq_two.1 (l1.trans h)
        obtain ⟨b, b', e2⟩ := List.length_eq_two.1 (l2.trans (hn.symm.trans h))
        rw [e1, e2, ← hn, h]; rfl
  unfold Nrel.setGrossCop at hs ht
  obtain ⟨h1, h2, h3, h4⟩ := hst
  rw [key] at hs
  simp only [h1, h2, h3, h4] at hs
  simp only [bind_eq_ok, pure_eq_ok, Except.ok.injEq] at hs ht
  obtain ⟨gc, a1, gp, a2, np, a3, nc, a4, rfl⟩ := hs
  obtain ⟨gc', b1, gp', b2, np', b3, nc', b4, rfl⟩ := ht
  rw [a1] at b1; cases b1
  rw [a2] at b2; cases b2
  rw [a3] at b3; cases b3
  rw [a4] at b4; cases b4
  simp [h1, h2, h3, h4]

/-- Two speeds before their COPs are set. -/
def twoSide : Rated ℚ := { Rated.fresh 2 [10000, 7000] [some 400, some 200] with grossCap := [some 10400, some 7200] }
/-- Three speeds before their COPs are set. -/
def threeSide : Rated ℚ := { Rated.fresh 3 [10000, 7000, 4000] [some 400, some 200, some 100] with grossCap := [some 10400, some 7200, some 4100] }

example : ((Nrel.setNetCop false (.num 4) twoSide).map fun s => (s.netCop[0]?, s.grossCop[1]?)) = .ok (some (some 4), some (some (10400 / 2100 / (91 / 100)))) := by decide +kernel
example : (Nrel.setGrossCop true (.num 4) twoSide).isOk = true ∧ (Nrel.setGrossCop true (.num 4) threeSide) = .error .type := by decide +kernel
example : (Nrel.setGrossCop false (.list [4, 5, 6]) threeSide).isOk = true ∧ (Nrel.setNetCop false (.list [4, 5, 6]) threeSide).isOk = true := by decide +kernel
example : ((Nrel.setNetCop false (.num 4) threeSide).map (·.grossCop)) = .ok [some (10400 / 2100), none, none] := by decide +kernel
example : NoCops twoSide ∧ NoCops threeSide := by unfold NoCops; decide +kernel

end Resdx.Props
