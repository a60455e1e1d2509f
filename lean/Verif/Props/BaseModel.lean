import Verif.Lemmas.BaseModel
import Mathlib.Algebra.Order.Ring.Rat

/-!
# C34, C35, C37: rated COPs, speed roles and array checks of the constructor
-/

set_option linter.unusedSectionVars false
set_option linter.unusedSimpArgs false

namespace Resdx.BaseModel

open Spec

variable {K : Type} [Field K] [LinearOrder K] [IsStrictOrderedRing K]

/-! ## C34 -/

/-- A side for the examples: two speeds, net capacities 10 and 5, fan powers 1 and 1, gross capacities 11 and 6. -/
def exampleSide : Rated ℚ :=
  { Rated.fresh 2 [10, 5] [some 1, some 1] with grossCap := [some 11, some 6] }

/-- C34. Setting a net COP (a number or a list) leaves the rated quantities of every speed consistent, leaves capacities and fan powers alone and
makes the net COPs the ones supplied. -/
theorem C34_net_cop (input : NumArg K) (s s' : Rated K) (h : setNetCop input s = .ok s') :
    RatingsConsistent s' ∧ SameInputs s' s ∧ ∀ i < s.n, ∃ c, Supplies input s.n i c ∧ s'.netCop[i]? = some (some c) := by
  obtain ⟨hin, hnc, -, -, -, hr⟩ := setNetCop_eq_ok h
  refine ⟨fun i hi => ?_, hin, fun i hi => ?_⟩
  · obtain ⟨q, Q, f, p, P, c, C, h1, hc, hP, e1, e2, e3⟩ := hr i (hin.1 ▸ hi)
    refine ⟨q, Q, f, p, P, c, C, h1, by rw [e2]; ring, ?_, ?_⟩
    · rw [e1, mul_div_cancel₀ _ hc]
    · rw [e3, div_mul_cancel₀ _ hP]
  · obtain ⟨q, Q, f, p, P, c, C, h1, -⟩ := hr i hi
    exact ⟨c, supplies_iff.1 (hnc ▸ h1.netCop), h1.netCop⟩

example : ∃ s', setNetCop (.list [4, 3]) exampleSide = .ok s' := setNetCop_returns (by
  intro i hi
  have : i = 0 ∨ i = 1 := by have : exampleSide.n = 2 := rfl; omega
  rcases this with rfl | rfl
  · exact ⟨10, 11, 1, 4, ⟨rfl, rfl, rfl⟩, rfl, by norm_num, by norm_num⟩
  · exact ⟨5, 6, 1, 3, ⟨rfl, rfl, rfl⟩, rfl, by norm_num, by norm_num⟩)

/-- C34. Setting a gross COP by a number leaves the rated quantities of every speed consistent and leaves capacities and fan powers alone. -/
theorem C34_gross_cop (x : K) (s s' : Rated K) (h : setGrossCop (.num x) s = .ok s') :
    RatingsConsistent s' ∧ SameInputs s' s ∧ ∀ i < s.n, s'.grossCop[i]? = some (some x) := by
  obtain ⟨hin, hgc, -, -, -, hr⟩ := setGrossCop_eq_ok h
  refine ⟨fun i hi => ?_, hin, fun i hi => ?_⟩
  · obtain ⟨q, Q, f, p, P, c, h1, hx, hp, e1, e2, e3⟩ := hr i (hin.1 ▸ hi)
    refine ⟨q, Q, f, p, P, c, x, h1, e2, ?_, ?_⟩
    · rw [e3, div_mul_cancel₀ _ hp]
    · rw [e1, mul_div_cancel₀ _ hx]
  · obtain ⟨q, Q, f, p, P, c, h1, -⟩ := hr i hi
    exact h1.grossCop

example : ∃ s', setGrossCop (.num 3) exampleSide = .ok s' := setGrossCop_returns (by norm_num) (by
  intro i hi
  have : i = 0 ∨ i = 1 := by have : exampleSide.n = 2 := rfl; omega
  rcases this with rfl | rfl
  · exact ⟨10, 11, 1, ⟨rfl, rfl, rfl⟩, by norm_num⟩
  · exact ⟨5, 6, 1, ⟨rfl, rfl, rfl⟩, by norm_num⟩)

/-- C34. The net-COP setter returns exactly when every speed has its capacities, fan power and COP, the COP is not zero and the fan does not use
the whole net power. -/
theorem C34_net_cop_returns_iff (input : NumArg K) (s : Rated K) :
    (∃ s', setNetCop input s = .ok s') ↔
      ∀ i < s.n, ∃ q Q f c, HasInputs s i q Q f ∧ Supplies input s.n i c ∧ c ≠ 0 ∧ q / c ≠ f := by
  constructor
  · rintro ⟨s', h⟩ i hi
    obtain ⟨⟨hn, h1, h2, h3⟩, hnc, -, -, -, hr⟩ := setNetCop_eq_ok h
    obtain ⟨q, Q, f, p, P, c, C, hh, hc, hP, e1, e2, -⟩ := hr i hi
    refine ⟨q, Q, f, c, ⟨h1 ▸ hh.netCap, h3 ▸ hh.grossCap, h2 ▸ hh.fan⟩, supplies_iff.1 (hnc ▸ hh.netCop), hc, ?_⟩
    rw [e2, e1] at hP
    exact sub_ne_zero.1 hP
  · exact setNetCop_returns

/-- C34. The gross-COP setter with a number returns exactly when (for at least one speed) the COP is not zero, every speed has its capacities and fan
power, and no speed's net power comes out as zero. -/
theorem C34_gross_cop_returns_iff (x : K) (s : Rated K) (hn : 0 < s.n) :
    (∃ s', setGrossCop (.num x) s = .ok s') ↔
      x ≠ 0 ∧ ∀ i < s.n, ∃ q Q f, HasInputs s i q Q f ∧ Q / x + f ≠ 0 := by
  constructor
  · rintro ⟨s', h⟩
    obtain ⟨⟨-, h1, h2, h3⟩, -, -, -, -, hr⟩ := setGrossCop_eq_ok h
    refine ⟨?_, fun i hi => ?_⟩
    · obtain ⟨_, _, _, _, _, _, _, hx, _⟩ := hr 0 hn
      exact hx
    · obtain ⟨q, Q, f, p, P, c, hh, hx, hp, e1, e2, -⟩ := hr i hi
      refine ⟨q, Q, f, ⟨h1 ▸ hh.netCap, h3 ▸ hh.grossCap, h2 ▸ hh.fan⟩, ?_⟩
      rwa [← e1, ← e2]
  · rintro ⟨hx, h⟩
    exact setGrossCop_returns hx h

example : 0 < exampleSide.n := by decide

/-- C34, round trip gross to net: setting the net COPs that a gross COP produced gives the same rated quantities again (any number of speeds). -/
theorem C34_round_trip_gross (x : K) (s s1 : Rated K) (h : setGrossCop (.num x) s = .ok s1) (l : List K)
    (hl : s1.netCop = l.map some) (hq : ∀ i < s.n, ∃ q Q, s.netCap[i]? = some q ∧ q ≠ 0 ∧ s.grossCap[i]? = some (some Q) ∧ Q ≠ 0) :
    setNetCop (.list l) s = .ok s1 := by
  obtain ⟨⟨hn, h1, h2, h3⟩, hgc, ln, lg, lc, hr⟩ := setGrossCop_eq_ok h
  have key : ∀ i < s.n, ∃ q Q f p P c, HasRatings s1 i q Q f p P c x ∧ x ≠ 0 ∧ p ≠ 0 ∧ P = Q / x ∧ p = P + f ∧ c = q / p ∧
      HasInputs s i q Q f ∧ Supplies (.list l) s.n i c ∧ c ≠ 0 ∧ q / c = p ∧ P ≠ 0 := by
    intro i hi
    obtain ⟨q, Q, f, p, P, c, hh, hx, hp, e1, e2, e3⟩ := hr i hi
    obtain ⟨q', Q', k1, k2, k3, k4⟩ := hq i hi
    have hin : HasInputs s i q Q f := ⟨h1 ▸ hh.netCap, h3 ▸ hh.grossCap, h2 ▸ hh.fan⟩
    have eq : q' = q := by have := hin.netCap; rw [k1] at this; simpa using this
    have eQ : Q' = Q := by have := hin.grossCap; rw [k3] at this; simpa using this
    subst eq; subst eQ
    refine ⟨q', Q', f, p, P, c, hh, hx, hp, e1, e2, e3, hin, ?_, ?_, ?_, ?_⟩
    · have := hh.netCop
      rw [hl] at this
      simpa [Supplies] using this
    · rw [e3]; exact div_ne_zero k2 hp
    · rw [e3]; field_simp
    · rw [e1]; exact div_ne_zero k4 hx
  obtain ⟨s2, hs2⟩ : ∃ s', setNetCop (.list l) s = .ok s' := by
    apply setNetCop_returns
    intro i hi
    obtain ⟨q, Q, f, p, P, c, hh, hx, hp, e1, e2, e3, hin, hs, hc, e4, hP⟩ := key i hi
    refine ⟨q, Q, f, c, hin, hs, hc, ?_⟩
    rw [e4, e2]
    intro e
    exact hP (by linarith)
  rw [hs2]
  obtain ⟨⟨hn', h1', h2', h3'⟩, hnc', ln', lg', lc', hr'⟩ := setNetCop_eq_ok hs2
  have hlen : l.length = s.n := by have := congrArg List.length hl; simp [lc] at this; omega
  have same : ∀ i < s.n, ∃ q Q f p P c, HasRatings s1 i q Q f p P c x ∧ HasRatings s2 i q Q f p P c x := by
    intro i hi
    obtain ⟨q, Q, f, p, P, c, hh, hx, hp, e1, e2, e3, hin, hs, hc, e4, hP⟩ := key i hi
    obtain ⟨q', Q', f', p', P', c', C', hh', hc', hP', e1', e2', e3'⟩ := hr' i hi
    have eq : q' = q := by have := hh'.netCap; rw [h1', hin.netCap] at this; simpa using this.symm
    have eQ : Q' = Q := by have := hh'.grossCap; rw [h3', hin.grossCap] at this; simpa using this.symm
    have ef : f' = f := by have := hh'.fan; rw [h2', hin.fan] at this; simpa using this.symm
    have ec : c' = c := by
      have k := hh'.netCop
      rw [hnc'] at k
      have k := supplies_iff.1 k
      simp only [Supplies] at k hs
      rw [hs] at k; simpa using k.symm
    subst eq; subst eQ; subst ef; subst ec
    have ep : p' = p := by rw [e1', e4]
    subst ep
    have eP : P' = P := by rw [e2', e2]; ring
    subst eP
    have eC : C' = x := by rw [e3', e1]; have hQ : Q' ≠ 0 := (div_ne_zero_iff.1 (e1 ▸ hP)).1; field_simp
    subst eC
    exact ⟨_, _, _, _, _, _, hh, hh'⟩
  have a1 : s2.netCop = s1.netCop := by rw [hnc', hl]; rfl
  have a2 : s2.netPower = s1.netPower := ext_some s.n ln' ln fun i hi => by
    obtain ⟨q, Q, f, p, P, c, k1, k2⟩ := same i hi; exact ⟨p, k2.netPower, k1.netPower⟩
  have a3 : s2.grossPower = s1.grossPower := ext_some s.n lg' lg fun i hi => by
    obtain ⟨q, Q, f, p, P, c, k1, k2⟩ := same i hi; exact ⟨P, k2.grossPower, k1.grossPower⟩
  have a4 : s2.grossCop = s1.grossCop := ext_some s.n lc' (by simp [hgc]) fun i hi => by
    obtain ⟨q, Q, f, p, P, c, k1, k2⟩ := same i hi; exact ⟨x, k2.grossCop, k1.grossCop⟩
  cases s1; cases s2
  simp only at hn h1 h2 h3 hn' h1' h2' h3' a1 a2 a3 a4
  subst a1 a2 a3 a4 hn h1 h2 h3
  simp [hn', h1', h2', h3']

example : ∃ (s1 : Rated ℚ) (l : List ℚ), setGrossCop (.num 3) exampleSide = .ok s1 ∧ s1.netCop = l.map some ∧
    (∀ i < exampleSide.n, ∃ q Q, exampleSide.netCap[i]? = some q ∧ q ≠ 0 ∧ exampleSide.grossCap[i]? = some (some Q) ∧ Q ≠ 0) := by
  refine ⟨{ exampleSide with
      netCop := [some (15/7), some (5/3)], netPower := [some (14/3), some 3]
      grossPower := [some (11/3), some 2], grossCop := [some 3, some 3] }, [15/7, 5/3], by decide +kernel, rfl, ?_⟩
  intro i hi
  have : i = 0 ∨ i = 1 := by have : exampleSide.n = 2 := rfl; omega
  rcases this with rfl | rfl
  · exact ⟨10, 11, rfl, by norm_num, rfl, by norm_num⟩
  · exact ⟨5, 6, rfl, by norm_num, rfl, by norm_num⟩

/-- C34, round trip net to gross: if the gross COPs a net COP produced are the same number `C` at every speed (always so for one speed), setting the gross
COP to `C` gives the same rated quantities again. -/
theorem C34_round_trip_net (input : NumArg K) (C : K) (s s1 : Rated K) (h : setNetCop input s = .ok s1) (hn0 : 0 < s.n)
    (hlen : (perSpeed s.n input).length = s.n) (hC : s1.grossCop = List.replicate s.n (some C))
    (hq : ∀ i < s.n, ∃ q Q, s.netCap[i]? = some q ∧ q ≠ 0 ∧ s.grossCap[i]? = some (some Q) ∧ Q ≠ 0) :
    setGrossCop (.num C) s = .ok s1 := by
  obtain ⟨⟨hn, h1, h2, h3⟩, hnc, ln, lg, lc, hr⟩ := setNetCop_eq_ok h
  have key : ∀ i < s.n, ∃ q Q f p P c, HasRatings s1 i q Q f p P c C ∧ c ≠ 0 ∧ P ≠ 0 ∧ p = q / c ∧ P = p - f ∧ C = Q / P ∧
      HasInputs s i q Q f ∧ C ≠ 0 ∧ p ≠ 0 := by
    intro i hi
    obtain ⟨q, Q, f, p, P, c, C', hh, hc, hP, e1, e2, e3⟩ := hr i hi
    obtain ⟨q', Q', k1, k2, k3, k4⟩ := hq i hi
    have hin : HasInputs s i q Q f := ⟨h1 ▸ hh.netCap, h3 ▸ hh.grossCap, h2 ▸ hh.fan⟩
    have eq : q' = q := by have := hin.netCap; rw [k1] at this; simpa using this
    have eQ : Q' = Q := by have := hin.grossCap; rw [k3] at this; simpa using this
    have eC : C' = C := by
      have := hh.grossCop
      rw [hC, List.getElem?_replicate, if_pos hi] at this; simpa using this.symm
    subst eq; subst eQ; subst eC
    exact ⟨q', Q', f, p, P, c, hh, hc, hP, e1, e2, e3, hin, by rw [e3]; exact div_ne_zero k4 hP, by rw [e1]; exact div_ne_zero k2 hc⟩
  obtain ⟨s2, hs2⟩ : ∃ s', setGrossCop (.num C) s = .ok s' := by
    apply setGrossCop_returns
    · obtain ⟨_, _, _, _, _, _, _, _, _, _, _, _, _, hC0, _⟩ := key 0 hn0
      exact hC0
    · intro i hi
      obtain ⟨q, Q, f, p, P, c, hh, hc, hP, e1, e2, e3, hin, hC0, hp⟩ := key i hi
      refine ⟨q, Q, f, hin, ?_⟩
      have : Q / C = P := by
        have hQ : Q ≠ 0 := by rintro rfl; exact hC0 (by rw [e3]; simp)
        rw [e3]; field_simp
      rw [this, e2]; simpa using hp
  rw [hs2]
  obtain ⟨⟨hn', h1', h2', h3'⟩, hgc', ln', lg', lc', hr'⟩ := setGrossCop_eq_ok hs2
  have same : ∀ i < s.n, ∃ q Q f p P c, HasRatings s1 i q Q f p P c C ∧ HasRatings s2 i q Q f p P c C := by
    intro i hi
    obtain ⟨q, Q, f, p, P, c, hh, hc, hP, e1, e2, e3, hin, hC0, hp⟩ := key i hi
    obtain ⟨q', Q', f', p', P', c', hh', hx', hp', e1', e2', e3'⟩ := hr' i hi
    have eq : q' = q := by have := hh'.netCap; rw [h1', hin.netCap] at this; simpa using this.symm
    have eQ : Q' = Q := by have := hh'.grossCap; rw [h3', hin.grossCap] at this; simpa using this.symm
    have ef : f' = f := by have := hh'.fan; rw [h2', hin.fan] at this; simpa using this.symm
    subst eq; subst eQ; subst ef
    have hQ : Q' ≠ 0 := by rintro rfl; exact hC0 (by rw [e3]; simp)
    have eP : P' = P := by rw [e1', e3]; field_simp
    subst eP
    have ep : p' = p := by rw [e2', e2]; ring
    subst ep
    have hq0 : q' ≠ 0 := by rintro rfl; exact hp (by rw [e1]; simp)
    have ec : c' = c := by rw [e3', e1]; field_simp
    subst ec
    exact ⟨_, _, _, _, _, _, hh, hh'⟩
  have a1 : s2.netCop = s1.netCop := ext_some s.n lc' (by simp [hnc, hlen]) fun i hi => by
    obtain ⟨q, Q, f, p, P, c, k1, k2⟩ := same i hi; exact ⟨c, k2.netCop, k1.netCop⟩
  have a2 : s2.netPower = s1.netPower := ext_some s.n ln' ln fun i hi => by
    obtain ⟨q, Q, f, p, P, c, k1, k2⟩ := same i hi; exact ⟨p, k2.netPower, k1.netPower⟩
  have a3 : s2.grossPower = s1.grossPower := ext_some s.n lg' lg fun i hi => by
    obtain ⟨q, Q, f, p, P, c, k1, k2⟩ := same i hi; exact ⟨P, k2.grossPower, k1.grossPower⟩
  have a4 : s2.grossCop = s1.grossCop := by rw [hgc', hC]
  cases s1; cases s2
  simp only at hn h1 h2 h3 hn' h1' h2' h3' a1 a2 a3 a4
  subst a1 a2 a3 a4 hn h1 h2 h3
  simp [hn', h1', h2', h3']

example : ∃ (s s1 : Rated ℚ), setNetCop (.num 4) s = .ok s1 ∧ 0 < s.n ∧ (perSpeed s.n (.num (4 : ℚ))).length = s.n ∧
    s1.grossCop = List.replicate s.n (some (22/3)) ∧
    (∀ i < s.n, ∃ q Q, s.netCap[i]? = some q ∧ q ≠ 0 ∧ s.grossCap[i]? = some (some Q) ∧ Q ≠ 0) := by
  refine ⟨{ Rated.fresh 1 [10] [some 1] with grossCap := [some 11] },
    { n := 1, netCap := [10], fanPower := [some 1], grossCap := [some 11], netCop := [some 4], netPower := [some (5/2)]
      grossPower := [some (3/2)], grossCop := [some (22/3)] }, by decide +kernel, by decide, by decide, rfl, ?_⟩
  intro i hi
  have : i = 0 := by
    have : i < 1 := hi
    omega
  subst this
  exact ⟨10, 11, rfl, by norm_num, rfl, by norm_num⟩

/-- C34 fails for gross COPs given as a list: nothing but the gross COP is set, so the net COPs and both powers keep whatever they were. -/
theorem C34_gross_list_only (l : List K) (s : Rated K) : ∃ s', setGrossCop (.list l) s = .ok s' ∧ s'.grossCop = l.map some ∧
    SameInputs s' s ∧ s'.netCop = s.netCop ∧ s'.netPower = s.netPower ∧ s'.grossPower = s.grossPower :=
  ⟨_, rfl, rfl, ⟨rfl, rfl, rfl, rfl⟩, rfl, rfl, rfl⟩

/-- C34 refuted in the list case: a unit constructed with a list of gross COPs has inconsistent (missing) net COPs. -/
theorem C34_refuted : ¬ ∀ (gross : NumArg ℚ) (s s' : Rated ℚ), applyCops none (some gross) s = .ok s' → RatingsConsistent s' := by
  intro h
  have := h (.list [3, 3]) exampleSide { exampleSide with grossCop := [some 3, some 3] } (by decide +kernel) 0 (by decide)
  obtain ⟨q, Q, f, p, P, c, C, hh, -⟩ := this
  have := hh.netPower
  simp [exampleSide, Rated.fresh] at this

/-! ## C35 -/

/-- C35 refuted: with the constructor's default gross COP the supplied net COP is not the unit's (cooling and heating). -/
theorem C35_refuted : ¬ ∀ (c : ℚ) (s s' : Rated ℚ), (∃ s1, applyCops (some (.num c)) none s = .ok s1) →
    applyCops (some (.num c)) defaultGrossCoolingCop s = .ok s' ∨ applyCops (some (.num c)) defaultGrossHeatingCop s = .ok s' →
    ∀ i < s.n, s'.netCop[i]? = some (some c) := by
  intro h
  have := h 4 { Rated.fresh 1 [10] [some 1] with grossCap := [some 11] }
    { n := 1, netCap := [10], fanPower := [some 1], grossCap := [some 11], netCop := [some (10 / (11 / 3.72 + 1))],
      netPower := [some (11 / 3.72 + 1)], grossPower := [some (11 / 3.72)], grossCop := [some 3.72] }
    ⟨{ n := 1, netCap := [10], fanPower := [some 1], grossCap := [some 11], netCop := [some 4], netPower := [some (5/2)]
       grossPower := [some (3/2)], grossCop := [some (22/3)] }, by decide +kernel⟩
    (.inl (by decide +kernel)) 0 (by decide)
  revert this
  decide +kernel

/-- C35. Whenever a gross COP is given as a number too (as it always is by default), the supplied net COP has no effect on the result. -/
theorem C35_default_wins (c1 c2 : NumArg K) (g : K) (s s1 s2 : Rated K)
    (h1 : applyCops (some c1) (some (.num g)) s = .ok s1) (h2 : applyCops (some c2) (some (.num g)) s = .ok s2) : s1 = s2 := by
  simp only [applyCops, applyOpt, bind_eq_ok, reduceCtorEq, false_and, if_false] at h1 h2
  obtain ⟨t1, a1, b1⟩ := h1
  obtain ⟨t2, a2, b2⟩ := h2
  obtain ⟨⟨x1, x2, x3, x4⟩, -⟩ := setNetCop_eq_ok a1
  obtain ⟨⟨y1, y2, y3, y4⟩, -⟩ := setNetCop_eq_ok a2
  have : setGrossCop (.num g) t1 = setGrossCop (.num g) t2 := by
    unfold setGrossCop
    simp only [x1, x2, x3, x4, y1, y2, y3, y4]
  rw [this, b2] at b1
  simpa using b1.symm

example : ∃ s1 s2, applyCops (some (.num 4)) (some (.num (3 : ℚ))) exampleSide = .ok s1 ∧
    applyCops (some (.num 2)) (some (.num 3)) exampleSide = .ok s2 :=
  ⟨{ exampleSide with
      netCop := [some (15/7), some (5/3)], netPower := [some (14/3), some 3]
      grossPower := [some (11/3), some 2], grossCop := [some 3, some 3] },
    { exampleSide with
      netCop := [some (15/7), some (5/3)], netPower := [some (14/3), some 3]
      grossPower := [some (11/3), some 2], grossCop := [some 3, some 3] }, by decide +kernel, by decide +kernel⟩

/-- C35, the part that holds: if the gross COP is switched off explicitly (`None`), the unit's net COP is the supplied one at every speed. Missing: the
case in which the caller does not mention the gross COP (`C35_refuted`). -/
theorem C35_partial (c : NumArg K) (s s' : Rated K) (h : applyCops (some c) none s = .ok s') :
    ∀ i < s.n, ∃ x, Supplies c s.n i x ∧ s'.netCop[i]? = some (some x) := by
  simp only [applyCops, applyOpt, bind_eq_ok, reduceCtorEq, false_and, if_false, Except.ok.injEq] at h
  obtain ⟨t, ht, rfl⟩ := h
  exact (C34_net_cop c s t ht).2.2

example : ∃ s', applyCops (some (.num (4 : ℚ))) none exampleSide = .ok s' :=
  ⟨{ exampleSide with
      netCop := [some 4, some 4], netPower := [some (5/2), some (5/4)], grossPower := [some (3/2), some (1/4)]
      grossCop := [some (22/3), some 24] }, by decide +kernel⟩

/-- C35. With neither COP given the constructor raises `RuntimeError`. -/
theorem C35_neither (s : Rated K) : applyCops none none s = .error .runtime := by simp [applyCops]

/-! ## C37 -/

/-- C37. Capacity arrays are accepted exactly when they are in non-increasing order (over any distance, not only neighbours); otherwise the
constructor raises `RuntimeError`. -/
theorem C37_order (l : List K) :
    (checkArrayOrder l = .ok () ↔ ∀ (i j : Nat) (x y : K), i ≤ j → l[i]? = some x → l[j]? = some y → y ≤ x) ∧
    (checkArrayOrder l ≠ .ok () → checkArrayOrder l = .error .runtime) := by
  constructor
  · have base : checkArrayOrder l = .ok () ↔ l.Pairwise (fun x y => y ≤ x) := by
      unfold checkArrayOrder
      have : (l.zip l.tail).all (fun p => decide (p.2 ≤ p.1)) = true ↔ l.Pairwise (fun x y => y ≤ x) := by
        induction l with
        | nil => simp
        | cons a l ih =>
          cases l with
          | nil => simp
          | cons b l =>
            simp only [List.tail_cons, List.zip_cons_cons, List.all_cons, Bool.and_eq_true, decide_eq_true_eq] at ih ⊢
            rw [ih]
            constructor
            · rintro ⟨hab, h⟩
              refine List.pairwise_cons.2 ⟨fun c hc => ?_, h⟩
              rcases List.mem_cons.1 hc with rfl | hc
              · exact hab
              · exact le_trans ((List.pairwise_cons.1 h).1 c hc) hab
            · intro h
              exact ⟨(List.pairwise_cons.1 h).1 b (by simp), (List.pairwise_cons.1 h).2⟩
      split <;> simp_all
    rw [base, List.pairwise_iff_getElem]
    constructor
    · intro h i j x y hij hx hy
      obtain ⟨hi, rfl⟩ := List.getElem?_eq_some_iff.1 hx
      obtain ⟨hj, rfl⟩ := List.getElem?_eq_some_iff.1 hy
      rcases Nat.lt_or_eq_of_le hij with h' | rfl
      · exact h i j hi hj h'
      · exact le_rfl
    · intro h i j hi hj hij
      exact h i j _ _ hij.le (by simp [hi]) (by simp [hj])
  · intro h
    unfold checkArrayOrder at h ⊢
    split <;> simp_all

example : checkArrayOrder [3, 2, 2, (1 : ℚ)] = .ok () ∧ checkArrayOrder [3, 2, (5/2 : ℚ)] = .error .runtime := by decide +kernel

/-- C37. The final checks of the constructor accept exactly the arrays with one entry per speed and non-increasing capacities, and raise
`RuntimeError` for everything else. -/
theorem C37_final_checks {α : Type} (nC nH : Nat) (netCooling netHeating : List K) (shr cop : List α) :
    (finalChecks nC nH netCooling shr cop netHeating = .ok () ↔
      netCooling.length = nC ∧ shr.length = nC ∧ cop.length = nH ∧ netHeating.length = nH ∧
      (∀ (i j : Nat) (x y : K), i ≤ j → netCooling[i]? = some x → netCooling[j]? = some y → y ≤ x) ∧
      (∀ (i j : Nat) (x y : K), i ≤ j → netHeating[i]? = some x → netHeating[j]? = some y → y ≤ x)) ∧
    (finalChecks nC nH netCooling shr cop netHeating ≠ .ok () →
      finalChecks nC nH netCooling shr cop netHeating = .error .runtime) := by
  have hlen : ∀ {β : Type} (l : List β) (n : Nat), (l.length = n ∧ checkArrayLength l n = .ok ()) ∨
      (l.length ≠ n ∧ checkArrayLength l n = .error .runtime) := by
    intro β l n
    unfold checkArrayLength
    by_cases h : l.length = n <;> simp [h]
  obtain ⟨o1, o2⟩ := C37_order netCooling
  obtain ⟨o3, o4⟩ := C37_order netHeating
  rw [← o1, ← o3]
  unfold finalChecks checkArrayLengths
  rcases hlen netCooling nC with ⟨a1, a2⟩ | ⟨a1, a2⟩ <;> rcases hlen shr nC with ⟨b1, b2⟩ | ⟨b1, b2⟩ <;>
    rcases hlen cop nH with ⟨c1, c2⟩ | ⟨c1, c2⟩ <;> rcases hlen netHeating nH with ⟨d1, d2⟩ | ⟨d1, d2⟩ <;>
    simp [a1, a2, b1, b2, c1, c2, d1, d2, bind_ok, bind_error]
  by_cases e1 : checkArrayOrder netCooling = .ok ()
  · by_cases e2 : checkArrayOrder netHeating = .ok ()
    · simp [e1, e2, bind_ok]
    · simp [e1, o4 e2, bind_ok]
  · simp [o2 e1, bind_error]

example : finalChecks 2 1 [3, (2 : ℚ)] [some 1, none] [some 3] [(4 : ℚ)] = .ok () := by decide +kernel

/-- C37. The speed indices a unit's staging type uses in its rating conditions are all valid exactly when there are enough speeds for the full-load
index: `full < n` for one stage, additionally `n ≥ 2` for two, `full + 1 < n` for variable speed. -/
theorem C37_roles_iff (st : Staging) (cooling : Bool) (n full : Nat) :
    (∀ o ∈ ratedSpeeds st cooling (roles n full none), ∃ k < n, o = some k) ↔
      match st with
      | .single => full < n
      | .two => full < n ∧ 1 < n
      | .varSpeed => full + 1 < n := by
  have lowOk : (∃ k < n, (roles n full none).low = some k) ↔ 1 < n := by
    simp only [roles]
    by_cases h : 1 < n
    · simp [h]; omega
    · simp [h]
  have boostOk : full < n → ∀ o ∈ (roles n full none).boost.toList.map some, ∃ k < n, o = some k := by
    intro h o ho
    simp only [roles] at ho
    by_cases hf : 0 < full
    · simp only [hf, if_true, Option.toList_some, List.map_cons, List.map_nil, List.mem_singleton] at ho
      exact ⟨0, by omega, ho⟩
    · simp [hf] at ho
  cases st with
  | single => simp [ratedSpeeds, roles]
  | two =>
    simp only [ratedSpeeds, List.mem_append, List.mem_singleton]
    constructor
    · intro h
      obtain ⟨k, hk, he⟩ := h (some (roles n full none).full) (by simp)
      refine ⟨?_, lowOk.1 ?_⟩
      · simp only [roles, Option.some.injEq] at he; omega
      · exact h (roles n full none).low (by simp)
    · rintro ⟨h1, h2⟩ o ((rfl | ho) | rfl)
      · exact ⟨full, h1, rfl⟩
      · cases cooling with
        | true => exact boostOk h1 o (by simpa using ho)
        | false => simp at ho
      · exact lowOk.2 h2
  | varSpeed =>
    simp only [ratedSpeeds, List.mem_append, List.mem_singleton, List.mem_cons, List.not_mem_nil, or_false]
    constructor
    · intro h
      obtain ⟨k, hk, he⟩ := h (some (roles n full none).intermediate) (by simp)
      simp only [roles, Option.getD_none, Option.some.injEq] at he
      omega
    · rintro h1 o (((rfl | rfl) | ho) | rfl)
      · exact ⟨full, by omega, rfl⟩
      · exact ⟨full + 1, h1, rfl⟩
      · cases cooling with
        | true => exact boostOk (by omega) o (by simpa using ho)
        | false => simp at ho
      · exact lowOk.2 (by omega)

example : ¬ ∀ o ∈ ratedSpeeds .varSpeed true (roles 1 0 none), ∃ k < 1, o = some k := by
  rw [C37_roles_iff]; decide

/-- C37. With the default full-load index, the roles of a unit whose staging type is derived from its number of speeds, or whose number of speeds is
derived from its staging type, are all valid; and a variable-speed unit's full, intermediate and low speeds are three different speeds in that order. -/
theorem C37_default_roles (capacity : Option (NumArg K)) (staging : Option Staging) (st : Staging) (cooling : Bool)
    (hst : stagingOf (numberOfSpeeds capacity staging) staging = .ok st)
    (hlist : staging = none ∨ ∀ l, capacity ≠ some (.list l)) :
    (∀ o ∈ ratedSpeeds st cooling (roles (numberOfSpeeds capacity staging) 0 none), ∃ k < numberOfSpeeds capacity staging, o = some k) ∧
    (st = .varSpeed → ∃ low, (roles (numberOfSpeeds capacity staging) 0 none).low = some low ∧
      (roles (numberOfSpeeds capacity staging) 0 none).full < (roles (numberOfSpeeds capacity staging) 0 none).intermediate ∧
      (roles (numberOfSpeeds capacity staging) 0 none).intermediate < low) := by
  have key : ∃ n, numberOfSpeeds capacity staging = n ∧
      (st = .single ∧ n = 1 ∨ st = .two ∧ n = 2 ∨ st = .varSpeed ∧ 3 ≤ n) := by
    refine ⟨_, rfl, ?_⟩
    cases staging with
    | some s =>
      have hl := hlist.resolve_left (by simp)
      simp only [stagingOf, Except.ok.injEq] at hst
      subst hst
      have : numberOfSpeeds capacity (some s) = if s = .varSpeed then 4 else s.value := by
        cases capacity with
        | none => rfl
        | some c =>
          cases c with
          | num x => rfl
          | list l => exact absurd rfl (hl l)
      rw [this]
      cases s <;> simp [Staging.value]
    | none =>
      generalize numberOfSpeeds capacity none = n at *
      simp only [stagingOf] at hst
      rcases Nat.lt_or_ge n 3 with h | h
      · rw [Nat.min_eq_left (by omega)] at hst
        have : n = 0 ∨ n = 1 ∨ n = 2 := by omega
        rcases this with rfl | rfl | rfl <;> simp_all [Staging.ofValue]
      · rw [Nat.min_eq_right h] at hst
        simp only [Staging.ofValue, Except.ok.injEq] at hst
        exact .inr (.inr ⟨hst.symm, h⟩)
  obtain ⟨n, hn, hc⟩ := key
  rw [hn]
  constructor
  · rw [C37_roles_iff]
    rcases hc with ⟨rfl, h⟩ | ⟨rfl, h⟩ | ⟨rfl, h⟩
    · simp; omega
    · simp; omega
    · simp; omega
  · rintro rfl
    have h3 : 3 ≤ n := by rcases hc with ⟨h, -⟩ | ⟨h, -⟩ | ⟨-, h⟩ <;> simp_all
    refine ⟨n - 1, ?_, ?_, ?_⟩
    · simp [roles]; omega
    · simp [roles]
    · simp [roles]; omega

example : stagingOf (numberOfSpeeds (some (.list [4, 3, (2 : ℚ)])) none) none = .ok .varSpeed := by decide

/-- C37. An empty capacity list is rejected already when the staging type is derived. -/
theorem C37_no_speeds : stagingOf 0 none = .error .value := rfl

end Resdx.BaseModel
