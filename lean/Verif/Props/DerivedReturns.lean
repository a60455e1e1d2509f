import Verif.Lemmas.DerivedSound

/-!
# C90: construction returns from ratings

The tables need not be inspected: it is enough that the curves specified by the ratings leave room for the fan power.
-/

set_option linter.unusedSectionVars false
set_option linter.unusedSimpArgs false

namespace Resdx.Build

open Spec Tabular BaseModel Props ResnetFan Fan Table

variable {u : Units ℝ} {E : Env ℝ} {T : Coil.Tools} {brentq : Brentq} {a : Args}

/-- The heating capacity at 47 °F: the one given, or a regression in the cooling capacity (the one for variable-speed units differs). -/
noncomputable def ratedHeating (u : Units ℝ) (a : Args) (st : Staging) (q95 : ℝ) : ℝ :=
  a.heating.getD (if st = .varSpeed then q95 * 1.022 + 607 * u.btuh else q95 * 0.98 + 180 * u.btuh)

/-- The lowest temperature for heating: the one given, or 0 °F (−20 °F for variable-speed units). -/
noncomputable def lowestTemperature (a : Args) (st : Staging) : ℝ := a.heatingOff.getD (if st = .varSpeed then frF (-20) else frF 0)

theorem heating47_eq {st : Staging} {q95 : ℝ} (h : a.cooling = .num q95) : heating47 u a st = .ok (ratedHeating u a st q95) := by
  unfold heating47 ratedHeating
  rw [h]
  split <;> rfl

theorem offTemperature_eq (st : Staging) : DX.offTemperature a.heatingOff st = lowestTemperature a st := by
  unfold DX.offTemperature lowestTemperature
  cases a.heatingOff <;> cases st <;> rfl

theorem hspfFor_eq (h : a.netHeatingCop.isSome ∨ a.hspf.isSome) : hspfFor a = .ok (a.hspf.getD 0) := by
  unfold hspfFor
  by_cases hc : a.netHeatingCop.isSome
  · rw [if_pos hc]
  · rw [if_neg hc]
    obtain ⟨x, hx⟩ := Option.isSome_iff_exists.1 (h.resolve_left hc)
    rw [hx]; rfl

theorem seerFor_eq (h : a.cop82.isSome ∨ a.seer.isSome) : seerFor a = .ok (a.seer.getD 0) := by
  unfold seerFor
  by_cases hc : a.cop82.isSome
  · rw [if_pos hc]
  · rw [if_neg hc]
    obtain ⟨x, hx⟩ := Option.isSome_iff_exists.1 (h.resolve_left hc)
    rw [hx]; rfl

/-- Neither capacity is more than √3 times the other. -/
def Comparable (q95 q47 : ℝ) : Prop := q47 ^ 2 ≤ 3 * q95 ^ 2 ∧ q95 ^ 2 ≤ 3 * q47 ^ 2

theorem sizes_max {q95 q47 b : ℝ} (h1 : 0 < q95) (h2 : 0 < q47) (h : Comparable q95 q47) (hb : q95 ≤ b) : max q95 q47 ^ 2 ≤ 3 * b ^ 2 := by
  obtain ⟨g1, g2⟩ := h
  rcases max_choice q95 q47 with e | e <;> rw [e] <;> nlinarith

theorem sizes_max' {q95 q47 b : ℝ} (h1 : 0 < q95) (h2 : 0 < q47) (h : Comparable q95 q47) (hb : q47 ≤ b) : max q95 q47 ^ 2 ≤ 3 * b ^ 2 := by
  rw [max_comm]; exact sizes_max h2 h1 ⟨h.2, h.1⟩ hb

theorem sizes_below {D c q : ℝ} (h0 : 0 < q) (hD : q ≤ D) (hc0 : 0 ≤ c) (hc : c ≤ 1.2 * q) : c ^ 2 ≤ 3 * D ^ 2 := by nlinarith

theorem ratedSizes_of {D q : ℝ} {l : List ℝ} (h0 : 0 < q) (hD : q ≤ D) (hpos : ∀ x ∈ l, 0 < x ∧ x ≤ 1.2 * q) (ho : l.Pairwise fun x y => y ≤ x) (hb : ∀ x, l[0]? = some x → D ^ 2 ≤ 3 * x ^ 2) :
    RatedSizes D l where
  pos x hx := (hpos x hx).1
  order i j x y hij hx hy := by
    rcases hij.eq_or_lt with rfl | h
    · rw [hx] at hy; cases hy; rfl
    · obtain ⟨hi, rfl⟩ := List.getElem?_eq_some_iff.1 hx
      obtain ⟨hj, rfl⟩ := List.getElem?_eq_some_iff.1 hy
      exact List.pairwise_iff_getElem.1 ho i j hi hj h
  below x hx := sizes_below h0 hD (hpos x hx).1.le (hpos x hx).2
  above := hb

/-- C90, single stage: the unit can be made from its ratings if the curves they specify leave room for the fan power, and its tables follow these curves. -/
theorem C90_single {q95 seer2 eer2 : ℝ} (ht : a.tables = none) (hst : a.staging = some .single) (hq : a.cooling = .num q95) (hs : a.seer = some seer2) (he : inputEer a = some eer2)
    (hh : a.netHeatingCop.isSome ∨ a.hspf.isSome) (hseer : seer2 ≠ 0) (heer : eer2 ≠ 0) (hcd : cd a.cdCooling ≠ 2) (hcop : heatingCop (a.hspf.getD 0) a.netHeatingCop ≠ 0) (h95 : 0 < q95)
    (h47 : 0 < ratedHeating u a .single q95) (hsize : Comparable q95 (ratedHeating u a .single q95)) (hmx : frF 95 < a.coolingOff) (hmn : lowestTemperature a .single < frF 5)
    (hm : Margins (337.2 / u.ton) (lowestTemperature a .single) a.coolingOff
      (singleCurves u.btuh q95 seer2 eer2 (ratedHeating u a .single q95) a.heating17 (a.hspf.getD 0) a.netHeatingCop (cd a.cdCooling)))
    (h : Surroundings u E T brentq a .single [q95]) :
    ∃ B net, build u E T brentq a = .ok B ∧ Made u E a .single net [q95] [ratedHeating u a .single q95] B ∧
      Follows net 1 (singleCurves u.btuh q95 seer2 eer2 (ratedHeating u a .single q95) a.heating17 (a.hspf.getD 0) a.netHeatingCop (cd a.cdCooling)) := by
  obtain ⟨d, hd, hS, hF⟩ := C95_single u q95 seer2 eer2 (ratedHeating u a .single q95) a.heating17 (a.hspf.getD 0) a.coolingOff (lowestTemperature a .single) a.netHeatingCop (cd a.cdCooling) heer hseer hcd
    h47.ne' hcop hmx hmn
  have one : ∀ {P : Int → Prop}, P 1 → ∀ s : Int, 1 ≤ s → s ≤ (tableSpeeds .single : Int) → P s := by
    intro P hP s h1 h2
    obtain rfl : s = 1 := le_antisymm h2 h1
    exact hP
  have sound := sound_of_curves (u := u) (st := .single) hS (c := fun _ => singleCurves u.btuh q95 seer2 eer2 (ratedHeating u a .single q95) a.heating17 (a.hspf.getD 0) a.netHeatingCop (cd a.cdCooling))
    (one hF) (one hm) ⟨q95, ratedHeating u a .single q95, congrArg some ends_cooling.2, congrArg some ends_heating.2.1,
      ratedSizes_of h95 (le_max_left _ _) (by simp [speedsOf, singleCurves, ends_cooling, h95]; linarith) (by simp [speedsOf])
        (by simp only [speedsOf, List.getElem?_cons_zero, Option.some.injEq, forall_eq', singleCurves, ends_cooling.2]; exact sizes_max h95 h47 hsize le_rfl),
      ratedSizes_of h47 (le_max_right _ _) (by simp [speedsOf, singleCurves, ends_heating, fullHeatingCapacity, h47]; linarith) (by simp [speedsOf])
        (by simp only [speedsOf, List.getElem?_cons_zero, Option.some.injEq, forall_eq', singleCurves, ends_heating.2.1]; exact sizes_max' h95 h47 hsize le_rfl)⟩
  have e1 : (speedsOf .single fun _ => (singleCurves u.btuh q95 seer2 eer2 (ratedHeating u a .single q95) a.heating17 (a.hspf.getD 0) a.netHeatingCop (cd a.cdCooling)).coolingCapacity (frF 95)) = [q95] := by
    simp [speedsOf, singleCurves, ends_cooling]
  have e2 : (speedsOf .single fun _ => (singleCurves u.btuh q95 seer2 eer2 (ratedHeating u a .single q95) a.heating17 (a.hspf.getD 0) a.netHeatingCop (cd a.cdCooling)).heatingCapacity (frF 47)) =
      [ratedHeating u a .single q95] := by
    simp [speedsOf, singleCurves, ends_heating, fullHeatingCapacity]
  rw [e1, e2] at sound
  obtain ⟨B, hB, hM⟩ := C90_ratings ht hst (heating47_eq hq) (by
    rw [offTemperature_eq]; simp only [netTables, ht, hq, hs, he, hspfFor_eq hh, number, pyNum, bind_ok]; exact hd) sound h
  exact ⟨B, d, hB, hM, hF⟩

/-- C90, two stages. -/
theorem C90_two {q95 eer2 : ℝ} (ht : a.tables = none) (hst : a.staging = some .two) (hq : a.cooling = .num q95) (hs : a.cop82.isSome ∨ a.seer.isSome) (he : inputEer a = some eer2)
    (hh : a.netHeatingCop.isSome ∨ a.hspf.isSome) (heer : eer2 ≠ 0) (hcop82 : a.cop82.getD (a.seer.getD 0 / 2) ≠ 0) (hcop : heatingCop (a.hspf.getD 0) a.netHeatingCop ≠ 0) (h95 : 0 < q95)
    (h47 : 0 < ratedHeating u a .two q95) (hsize : Comparable q95 (ratedHeating u a .two q95)) (hmx : frF 95 < a.coolingOff) (hmn : lowestTemperature a .two < frF 5)
    (hm2 : Margins (337.2 / u.ton) (lowestTemperature a .two) a.coolingOff (highCurves u.btuh q95 eer2 (ratedHeating u a .two q95) a.heating17 (a.hspf.getD 0) a.netHeatingCop))
    (hm1 : Margins (337.2 / u.ton) (lowestTemperature a .two) a.coolingOff (lowCurves q95 (a.seer.getD 0) (ratedHeating u a .two q95) a.heating17 (a.hspf.getD 0) a.cop82 a.netHeatingCop))
    (h : Surroundings u E T brentq a .two [q95, q95 * 0.728]) :
    ∃ B net, build u E T brentq a = .ok B ∧ Made u E a .two net [q95, q95 * 0.728] [ratedHeating u a .two q95, ratedHeating u a .two q95 * 0.712] B ∧
      Follows net 2 (highCurves u.btuh q95 eer2 (ratedHeating u a .two q95) a.heating17 (a.hspf.getD 0) a.netHeatingCop) ∧
      Follows net 1 (lowCurves q95 (a.seer.getD 0) (ratedHeating u a .two q95) a.heating17 (a.hspf.getD 0) a.cop82 a.netHeatingCop) := by
  obtain ⟨d, hd, hS, hF2, hF1⟩ := C95_two u q95 (a.seer.getD 0) eer2 (ratedHeating u a .two q95) a.heating17 (a.hspf.getD 0) a.coolingOff (lowestTemperature a .two) a.cop82 a.netHeatingCop heer hcop82
    h47.ne' hcop hmx hmn
  set hi := highCurves u.btuh q95 eer2 (ratedHeating u a .two q95) a.heating17 (a.hspf.getD 0) a.netHeatingCop with hhi
  set lo := lowCurves q95 (a.seer.getD 0) (ratedHeating u a .two q95) a.heating17 (a.hspf.getD 0) a.cop82 a.netHeatingCop with hlo
  have both : ∀ {P : Int → Curves ℝ → Prop}, P 1 lo → P 2 hi → ∀ s : Int, 1 ≤ s → s ≤ (tableSpeeds .two : Int) → P s (if s = 1 then lo else hi) := by
    intro P h1 h2 s g1 g2
    have g3 : (tableSpeeds .two : Int) = 2 := rfl
    obtain rfl | rfl : s = 1 ∨ s = 2 := by omega
    · exact h1
    · exact h2
  have e1 : (speedsOf .two fun s => (if s = 1 then lo else hi : Curves ℝ).coolingCapacity (frF 95)) = [q95, q95 * 0.728] := by
    simp [speedsOf, hhi, hlo, highCurves, lowCurves, ends_cooling]
  have e2 : (speedsOf .two fun s => (if s = 1 then lo else hi : Curves ℝ).heatingCapacity (frF 47)) = [ratedHeating u a .two q95, ratedHeating u a .two q95 * 0.712] := by
    simp [speedsOf, hhi, hlo, highCurves, lowCurves, ends_heating, fullHeatingCapacity, Ends.times]
  have sound := sound_of_curves (u := u) (st := .two) hS (c := fun s => if s = 1 then lo else hi) (both (P := fun s c => Follows d s c) hF1 hF2) (both (P := fun _ c => Margins _ _ _ c) hm1 hm2) (by
    rw [e1, e2]
    generalize ratedHeating u a .two q95 = q47 at *
    refine ⟨q95, q47, rfl, rfl, ratedSizes_of h95 (le_max_left _ _) ?_ ?_ ?_, ratedSizes_of h47 (le_max_right _ _) ?_ ?_ ?_⟩
    · intro x hx; simp only [List.mem_cons, List.not_mem_nil, or_false] at hx; rcases hx with rfl | rfl <;> constructor <;> linarith
    · simp; linarith
    · rintro x hx; cases hx; exact sizes_max h95 h47 hsize le_rfl
    · intro x hx; simp only [List.mem_cons, List.not_mem_nil, or_false] at hx; rcases hx with rfl | rfl <;> constructor <;> linarith
    · simp; linarith
    · rintro x hx; cases hx; exact sizes_max' h95 h47 hsize le_rfl)
  rw [e1, e2] at sound
  obtain ⟨B, hB, hM⟩ := C90_ratings ht hst (heating47_eq hq) (by
    rw [offTemperature_eq]; simp only [netTables, ht, hq, he, hspfFor_eq hh, seerFor_eq hs, number, pyNum, bind_ok]; exact hd) sound h
  exact ⟨B, d, hB, hM, hF2, hF1⟩

/-- C90, variable speed with default ratios. -/
theorem C90_variable {q95 eer2 : ℝ} (ht : a.tables = none) (hst : a.staging = some .varSpeed) (hq : a.cooling = .num q95) (hs : a.seer.isSome) (he : inputEer a = some eer2)
    (hh : a.netHeatingCop.isSome ∨ a.hspf.isSome) (hdef : a.ratio95 = none ∧ a.cop82 = none) (heer : eer2 ≠ 0) (hcop : heatingCop (a.hspf.getD 0) a.netHeatingCop ≠ 0) (h95 : 0 < q95)
    (h47 : 0 < ratedHeating u a .varSpeed q95) (h17 : varHeating17 (ratedHeating u a .varSpeed q95) a.heating17 ≠ 0) (hsize : Comparable q95 (ratedHeating u a .varSpeed q95))
    (hmx : frF 95 < a.coolingOff) (hmn : lowestTemperature a .varSpeed < frF 5) (hlow : toF (lowestTemperature a .varSpeed) ≠ 5 - 250 / 3)
    (hm : ∀ s : Int, 1 ≤ s → s ≤ 3 → Margins (337.2 / u.ton) (lowestTemperature a .varSpeed) a.coolingOff
      (varCurves u.btuh q95 (a.seer.getD 0) eer2 (ratedHeating u a .varSpeed q95) a.heating17 (a.hspf.getD 0) (lowestTemperature a .varSpeed) none none a.netHeatingCop s))
    (h : Surroundings u E T brentq a .varSpeed (let r := (varCooling u.btuh q95 (a.seer.getD 0) eer2 none none).ratio; [q95 / 0.934, q95, (q95 / 0.934 * r + q95) / 2, q95 / 0.934 * r])) :
    ∃ B net, build u E T brentq a = .ok B ∧ Made u E a .varSpeed net (let r := (varCooling u.btuh q95 (a.seer.getD 0) eer2 none none).ratio; [q95 / 0.934, q95, (q95 / 0.934 * r + q95) / 2, q95 / 0.934 * r])
        (let q47 := ratedHeating u a .varSpeed q95; [q47 / 0.908, q47, (q47 / 0.908 * 0.272 + q47) / 2, q47 / 0.908 * 0.272]) B ∧
      ∀ s : Int, 1 ≤ s → s ≤ 3 → Follows net s (varCurves u.btuh q95 (a.seer.getD 0) eer2 (ratedHeating u a .varSpeed q95) a.heating17 (a.hspf.getD 0) (lowestTemperature a .varSpeed) none none a.netHeatingCop s) := by
  have h5 : toF (frF (5 : ℝ)) = 5 := by unfold toF frF; ring
  have hq17 : ∀ q : ℝ, varHeating17 q (some (a.heating17.getD (0.689 * q))) = varHeating17 q a.heating17 := fun q => rfl
  have hcurves : ∀ s, varCurves u.btuh q95 (a.seer.getD 0) eer2 (ratedHeating u a .varSpeed q95) (some (a.heating17.getD (0.689 * ratedHeating u a .varSpeed q95))) (a.hspf.getD 0)
      (lowestTemperature a .varSpeed) none none a.netHeatingCop s =
      varCurves u.btuh q95 (a.seer.getD 0) eer2 (ratedHeating u a .varSpeed q95) a.heating17 (a.hspf.getD 0) (lowestTemperature a .varSpeed) none none a.netHeatingCop s := fun s => rfl
  obtain ⟨d, hd, hS, hF⟩ := C95_variable_default u q95 (a.seer.getD 0) eer2 (ratedHeating u a .varSpeed q95) (some (a.heating17.getD (0.689 * ratedHeating u a .varSpeed q95))) (a.hspf.getD 0) a.coolingOff
    (lowestTemperature a .varSpeed) a.netHeatingCop h95.ne' heer h47.ne' h17 hcop hmx hmn (by rw [h5]; intro hc; apply hlow; linarith)
  simp only [hcurves] at hF
  have hr1 : (varCooling u.btuh q95 (a.seer.getD 0) eer2 none none).ratio ≤ 0.934 := max_le (by norm_num) (min_le_left _ _)
  have hr0 : 0 < (varCooling u.btuh q95 (a.seer.getD 0) eer2 none none).ratio := lt_of_lt_of_le (by norm_num) (le_max_left _ _)
  have e1 : (speedsOf .varSpeed fun s => (varCurves u.btuh q95 (a.seer.getD 0) eer2 (ratedHeating u a .varSpeed q95) a.heating17 (a.hspf.getD 0) (lowestTemperature a .varSpeed) none none a.netHeatingCop
      s).coolingCapacity (frF 95)) =
      (let r := (varCooling u.btuh q95 (a.seer.getD 0) eer2 none none).ratio; [q95 / 0.934, q95, (q95 / 0.934 * r + q95) / 2, q95 / 0.934 * r]) := by
    simp [speedsOf, varCurves, ends_cooling, VarCooling.q95s, Three.speed, varCooling]
  have cold47 : ∀ {v : Cold ℝ} {mn : ℝ}, v.heating mn (frF 47) = v.at47 := by
    intro v mn
    have h1 := f17_47 (K := ℝ)
    have h2 := f5_17 (K := ℝ)
    rw [Cold.heating, if_neg (by order), if_neg (by order), if_pos le_rfl]
    unfold lineAt; field_simp [sub_ne_zero.2 h1.ne']; ring
  have e2 : (speedsOf .varSpeed fun s => (varCurves u.btuh q95 (a.seer.getD 0) eer2 (ratedHeating u a .varSpeed q95) a.heating17 (a.hspf.getD 0) (lowestTemperature a .varSpeed) none none a.netHeatingCop
      s).heatingCapacity (frF 47)) =
      (let q47 := ratedHeating u a .varSpeed q95; [q47 / 0.908, q47, (q47 / 0.908 * 0.272 + q47) / 2, q47 / 0.908 * 0.272]) := by
    simp [speedsOf, varCurves, cold47, VarHeating.speed, VarHeating.at47, Three.speed, varHeatingCapacity]
  have sound := sound_of_curves (u := u) (st := .varSpeed) hS (c := fun s => varCurves u.btuh q95 (a.seer.getD 0) eer2 (ratedHeating u a .varSpeed q95) a.heating17 (a.hspf.getD 0)
    (lowestTemperature a .varSpeed) none none a.netHeatingCop s) hF hm (by
    rw [e1, e2]
    generalize (varCooling u.btuh q95 (a.seer.getD 0) eer2 none none).ratio = r at *
    generalize ratedHeating u a .varSpeed q95 = q47 at *
    clear hd hS hF hm h e1 e2 hcurves
    have k1 : q95 / 0.934 * r ≤ q95 := by
      rw [div_mul_eq_mul_div, div_le_iff₀ (by norm_num)]; nlinarith
    have k2 : 0 < q95 / 0.934 * r := by positivity
    have k3 : q95 ≤ q95 / 0.934 := by rw [le_div_iff₀ (by norm_num)]; linarith
    have k4 : q95 / 0.934 ≤ 1.2 * q95 := by rw [div_le_iff₀ (by norm_num)]; linarith
    have k5 : q47 / 0.908 * 0.272 ≤ q47 := by rw [div_mul_eq_mul_div, div_le_iff₀ (by norm_num)]; linarith
    have k6 : 0 < q47 / 0.908 * 0.272 := by positivity
    have k7 : q47 ≤ q47 / 0.908 := by rw [le_div_iff₀ (by norm_num)]; linarith
    have k8 : q47 / 0.908 ≤ 1.2 * q47 := by rw [div_le_iff₀ (by norm_num)]; linarith
    refine ⟨q95, q47, rfl, rfl, ratedSizes_of h95 (le_max_left _ _) ?_ ?_ ?_, ratedSizes_of h47 (le_max_right _ _) ?_ ?_ ?_⟩
    · intro x hx; simp only [List.mem_cons, List.not_mem_nil, or_false] at hx; rcases hx with rfl | rfl | rfl | rfl <;> constructor <;> linarith
    · simp only [List.pairwise_cons, List.mem_cons, List.not_mem_nil, or_false, forall_eq_or_imp, forall_eq, List.Pairwise.nil, and_true, IsEmpty.forall_iff, implies_true]
      refine ⟨⟨?_, ?_, ?_⟩, ⟨?_, ?_⟩, ?_⟩ <;> linarith
    · rintro x hx; cases hx; exact sizes_max h95 h47 hsize k3
    · intro x hx; simp only [List.mem_cons, List.not_mem_nil, or_false] at hx; rcases hx with rfl | rfl | rfl | rfl <;> constructor <;> linarith
    · simp only [List.pairwise_cons, List.mem_cons, List.not_mem_nil, or_false, forall_eq_or_imp, forall_eq, List.Pairwise.nil, and_true, IsEmpty.forall_iff, implies_true]
      refine ⟨⟨?_, ?_, ?_⟩, ⟨?_, ?_⟩, ?_⟩ <;> linarith
    · rintro x hx; cases hx; exact sizes_max' h95 h47 hsize k7)
  rw [e1, e2] at sound
  obtain ⟨B, hB, hM⟩ := C90_ratings ht hst (heating47_eq hq) (by
    rw [offTemperature_eq]; simp only [netTables, ht, hq, he, hspfFor_eq hh, seerFor_eq (.inr hs), hdef.1, hdef.2, number, pyNum, bind_ok]; exact hd) sound h
  exact ⟨B, d, hB, hM, hF⟩

end Resdx.Build
