import Verif.Props.VariableCop

/-!
# C90, C96, C97: variable-speed units with a given ratio of capacities at 95 °F, a given COP at 82 °F, both or neither
-/

set_option linter.unusedSectionVars false
set_option linter.unusedSimpArgs false

namespace Resdx.Build

open Spec Tabular BaseModel Props ResnetFan Fan Table DX

variable {u : Units ℝ} {E : Env ℝ} {T : Coil.Tools} {brentq : Brentq} {a : Args}

local macro "declin" : tactic => `(tactic| ((try ring_nf at *); linarith))

/-- The cooling of a variable-speed unit, given or default. -/
noncomputable def coolingOf (u : Units ℝ) (a : Args) (q95 eer2 : ℝ) : VarCooling ℝ := varCooling u.btuh q95 (a.seer.getD 0) eer2 a.ratio95 a.cop82

/-- The curves of its tables. -/
noncomputable def curvesOf (u : Units ℝ) (a : Args) (q95 eer2 : ℝ) (s : Int) : Curves ℝ :=
  varCurves u.btuh q95 (a.seer.getD 0) eer2 (ratedHeating u a .varSpeed q95) a.heating17 (a.hspf.getD 0) (lowestTemperature a .varSpeed) a.ratio95 a.cop82 a.netHeatingCop s

/-- The cooling capacities. -/
noncomputable def sizesOf (u : Units ℝ) (a : Args) (q95 eer2 : ℝ) : List ℝ :=
  let r := (coolingOf u a q95 eer2).ratio
  [q95 / 0.934, q95, (q95 / 0.934 * r + q95) / 2, q95 / 0.934 * r]

/-- Ranges of the ratings of a variable-speed unit whose ratio of capacities at 95 °F and whose COP at 82 °F are given or follow from the ratings: the lowest speed has at most 85 % of the capacity of the highest, and at 82 °F a COP at
least that of the highest speed and at most 6.27. -/
structure UsualVariableAny (u : Units ℝ) (a : Args) (q95 eer2 : ℝ) : Prop where
  usual : UsualUnits u
  tables : a.tables = none
  staging : a.staging = some .varSpeed
  cooling : a.cooling = .num q95
  size : 0 < q95
  seer : a.cop82.isSome ∨ a.seer.isSome
  eer : inputEer a = some eer2
  eer_pos : 0 < eer2
  eer_le : eer2 ≤ 16
  ratio_pos : 0 < (coolingOf u a q95 eer2).ratio
  ratio_le : (coolingOf u a q95 eer2).ratio ≤ 0.85
  cop_ge : 0.928 * 1.326 * eer2 * u.btuh ≤ (coolingOf u a q95 eer2).cop82
  cop_le : (coolingOf u a q95 eer2).cop82 ≤ 6.27
  hspf : a.netHeatingCop.isSome ∨ a.hspf.isSome
  comparable : Comparable q95 (ratedHeating u a .varSpeed q95)
  hottest : UsualCooling a.coolingOff
  heating : UsualHeating 5 (-20) (ratedHeating u a .varSpeed q95) (varHeating17 (ratedHeating u a .varSpeed q95) a.heating17) (heatingCop (a.hspf.getD 0) a.netHeatingCop) (lowestTemperature a .varSpeed)

/-- A variable-speed cooling with such ratings. -/
structure CoolRange (btuh q95 eer2 : ℝ) (v : VarCooling ℝ) : Prop where
  capacity : v.q95 = q95
  power : v.p95 = q95 / (eer2 * btuh)
  ratio_pos : 0 < v.ratio
  ratio_le : v.ratio ≤ 0.85
  cop_ge : 0.928 * 1.326 * eer2 * btuh ≤ v.cop82
  cop_le : v.cop82 ≤ 6.27

theorem UsualVariableAny.range {q95 eer2 : ℝ} (H : UsualVariableAny u a q95 eer2) : CoolRange u.btuh q95 eer2 (coolingOf u a q95 eer2) :=
  ⟨rfl, rfl, H.ratio_pos, H.ratio_le, H.cop_ge, H.cop_le⟩

/-- The power of the lowest speed at 95 °F is at most that of full speed, so that it differs from that of the highest. -/
theorem range_power {q95 eer2 : ℝ} {v : VarCooling ℝ} (hq : 0 < q95) (heer : 0 < eer2) (H : CoolRange u.btuh q95 eer2 v) :
    0 < v.cop82 ∧ 0 < v.p82s.min ∧ v.p95s.min ≤ v.p95s.full ∧ v.p95s.full < v.p95s.max := by
  have hbt := u.btuh_pos
  have hE0 : 0 < eer2 * u.btuh := by positivity
  have hc0 : 0 < v.cop82 := lt_of_lt_of_le (by positivity) H.cop_ge
  have r0 := H.ratio_pos
  have hm : v.q82s.min = q95 / 0.934 * v.ratio / 0.948 := by rw [← H.capacity]; rfl
  have h0 : 0 < v.q82s.min := by rw [hm]; positivity
  have hl : v.p82s.min = v.q82s.min / v.cop82 := rfl
  have hp0 : 0 < v.p95 := by rw [H.power]; positivity
  refine ⟨hc0, by rw [hl]; positivity, ?_, ?_⟩
  · show v.q82s.min / v.cop82 * (0.948 * 1.315) ≤ v.p95
    rw [div_mul_eq_mul_div, div_le_iff₀ hc0]
    have k : v.p95 * (0.928 * 1.326 * eer2 * u.btuh) = 0.928 * 1.326 * q95 := by rw [H.power]; field_simp
    have := mul_le_mul_of_nonneg_left H.cop_ge hp0.le
    rw [k] at this
    refine le_trans ?_ this
    rw [hm]
    have : q95 * v.ratio ≤ q95 * 0.85 := mul_le_mul_of_nonneg_left H.ratio_le hq.le
    rw [show q95 / 0.934 * v.ratio / 0.948 * (0.948 * 1.315) = 1.315 / 0.934 * (q95 * v.ratio) by ring]
    norm_num at this ⊢
    linarith
  · show v.p95 < v.p95 / (0.934 * 0.928)
    rw [lt_div_iff₀ (by norm_num)]; linarith

set_option maxHeartbeats 1000000 in
/-- Cooling capacities and powers of variable-speed units with such ratings. -/
theorem usual_range {q95 eer2 mx w : ℝ} {v : VarCooling ℝ} (hu : UsualUnits u) (hq : 0 < q95) (heer : 0 < eer2) (heer' : eer2 ≤ 16) (hv : CoolRange u.btuh q95 eer2 v) (hmx : UsualCooling mx)
    (hw : w < 0.096) : ∀ s : Int, 1 ≤ s → s ≤ 3 →
    (∀ x ∈ [frF 60, frF 82, frF 95, mx], 0 < Ends.cooling ⟨v.q82s.speed s, v.q95s.speed s⟩ x) ∧
      ∀ x ∈ [frF 60, frF 82, frF 95, mx], w * v.q95s.speed s < Ends.cooling ⟨v.p82s.speed s, v.p95s.speed s⟩ x := by
  obtain ⟨hc0, hl0', hl2', -⟩ := range_power hq heer hv
  obtain ⟨vq, vp, r0, r1, -, hc1⟩ := hv
  have hbt := u.btuh_pos
  have hE0 : 0 < eer2 * u.btuh := by positivity
  -- capacities at 95 °F
  obtain ⟨m, hm⟩ : ∃ m, m = v.q95s.min := ⟨_, rfl⟩
  have hm' : m = q95 / 0.934 * v.ratio := by rw [hm, ← vq]; rfl
  have hm0 : 0 < m := by rw [hm']; positivity
  have hm1 : m ≤ 0.9101 * q95 := by
    rw [hm', div_mul_eq_mul_div, div_le_iff₀ (by norm_num)]; nlinarith
  have hmax : v.q95s.max = q95 / 0.934 := by rw [← vq]; rfl
  have hfull : v.q95s.full = q95 := vq
  -- powers
  obtain ⟨p, hp⟩ : ∃ p, p = q95 / (eer2 * u.btuh) := ⟨_, rfl⟩
  have hp95 : v.p95s.full = p := by rw [hp, ← vp]; rfl
  have hpmax : v.p95s.max = p / (0.934 * 0.928) := by rw [hp, ← vp]; rfl
  have hp0 : 0 < p := by rw [hp]; positivity
  have hE : eer2 * u.btuh ≤ 4.69 := by nlinarith [hu.btuh]
  have hpq : 0.2131 * q95 ≤ p := by rw [hp, le_div_iff₀ hE0]; nlinarith
  obtain ⟨l, hl⟩ : ∃ l, l = v.p82s.min := ⟨_, rfl⟩
  have hl' : l = m / 0.948 / v.cop82 := by rw [hl, hm]; rfl
  have hl0 : 0 < l := by rw [hl']; positivity
  have hlmin : v.p95s.min = l * (0.948 * 1.315) := by rw [hl', hm]; rfl
  have hlc : l * v.cop82 = m / 0.948 := by rw [hl']; field_simp
  have hl1 : 0.209 * m ≤ l * (0.948 * 1.315) := by
    have : l * v.cop82 ≤ l * 6.27 := mul_le_mul_of_nonneg_left hc1 hl0.le
    rw [hlc] at this
    declin
  have hl2 : l * (0.948 * 1.315) ≤ p := by rw [← hlmin, ← hp95]; exact hl2'
  have hp82max : v.p82s.max = p / (0.934 * 0.928) / (0.940 * 1.326) := by rw [← hpmax]; rfl
  have hlmax : p < p / (0.934 * 0.928) := by rw [lt_div_iff₀ (by norm_num)]; declin
  have hp82 : v.p82s.full = between l (p / (0.934 * 0.928) / (0.940 * 1.326)) (l * (0.948 * 1.315)) p (p / (0.934 * 0.928)) := by
    rw [← hlmin, ← hpmax, hl]; conv_rhs => rw [← hp95]
    rfl
  obtain ⟨b1, b2⟩ := between_ratio (s := 0.948 * 1.315) (t := 0.940 * 1.326) (by order : l * (0.948 * 1.315) < p / (0.934 * 0.928)) hl2 hlmax.le (by ring)
    (by rw [mul_div_cancel₀ _ (by norm_num)] : p / (0.934 * 0.928) = 0.940 * 1.326 * (p / (0.934 * 0.928) / (0.940 * 1.326))) (by norm_num) hl0.le (by positivity)
  rw [← hp82] at b1 b2
  have hq82 : v.q82s.full = between (m / 0.948) (q95 / 0.934 / 0.940) m q95 (q95 / 0.934) := by
    rw [hm, ← hmax]; conv_rhs => rw [← hfull]
    rfl
  have hqm : q95 < q95 / 0.934 := by rw [lt_div_iff₀ (by norm_num)]; declin
  obtain ⟨c1, c2⟩ := between_ratio (s := 0.948) (t := 0.940) (by declin : m < q95 / 0.934) (by declin) hqm.le (by rw [mul_div_cancel₀ _ (by norm_num)] : m = 0.948 * (m / 0.948))
    (by rw [mul_div_cancel₀ _ (by norm_num)] : q95 / 0.934 = 0.940 * (q95 / 0.934 / 0.940)) (by norm_num) (by positivity) (by positivity)
  rw [← hq82] at c1 c2
  have hq82min : v.q82s.min = m / 0.948 := by rw [hm]; rfl
  have hq82max : v.q82s.max = q95 / 0.934 / 0.940 := by rw [← hmax]; rfl
  refine speeds_cases ⟨?_, ?_⟩ ⟨?_, ?_⟩ ⟨?_, ?_⟩ <;> simp only [three_at]
  · rw [hq82min, ← hm]; exact capacity_margin hm0 hmx (by declin) (by declin)
  · rw [← hm, ← hl, hlmin]; exact power_margin hw hm0 hmx hl1 (by declin) (by declin)
  · rw [hfull]; exact capacity_margin hq hmx (by declin) (by declin)
  · rw [hfull, hp95]; exact power_margin hw hq hmx (by declin) (by declin) (by declin)
  · rw [hq82max, hmax]
    have : 0 < q95 / 0.934 := by positivity
    exact capacity_margin this hmx (by declin) (by declin)
  · rw [hp82max, hmax, hpmax]
    have : 0 < q95 / 0.934 := by positivity
    have : 0 < p / (0.934 * 0.928) := by positivity
    exact power_margin hw (by positivity) hmx (by declin) (by declin) (by declin)

/-- C90, variable speed with given or default ratios whose curves leave room for the fan power. -/
theorem variable_made {q95 eer2 : ℝ} (H : UsualVariableAny u a q95 eer2)
    (hm : ∀ s : Int, 1 ≤ s → s ≤ 3 → Margins (337.2 / u.ton) (lowestTemperature a .varSpeed) a.coolingOff (curvesOf u a q95 eer2 s))
    (h : Surroundings u E T brentq a .varSpeed (sizesOf u a q95 eer2)) :
    ∃ B net, build u E T brentq a = .ok B ∧ Made u E a .varSpeed net (sizesOf u a q95 eer2)
        (let q47 := ratedHeating u a .varSpeed q95; [q47 / 0.908, q47, (q47 / 0.908 * 0.272 + q47) / 2, q47 / 0.908 * 0.272]) B ∧
      StandardTables 3 (lowestTemperature a .varSpeed) a.coolingOff net ∧ ∀ s : Int, 1 ≤ s → s ≤ 3 → Follows net s (curvesOf u a q95 eer2 s) := by
  have h95 := H.size
  have h47 := H.heating.rated
  have heer := H.eer_pos
  have hsize := H.comparable
  obtain ⟨hc0, -, hp1, hp2⟩ := range_power h95 heer H.range
  have hlow : toF (lowestTemperature a .varSpeed) ≠ 5 - 250 / 3 := by
    intro hc
    have := toF_le.2 H.heating.above
    rw [toF_frF, hc] at this; norm_num at this
  have h5 : toF (frF (5 : ℝ)) = 5 := by unfold toF frF; ring
  have hq17 : ∀ q : ℝ, varHeating17 q (some (a.heating17.getD (0.689 * q))) = varHeating17 q a.heating17 := fun q => rfl
  obtain ⟨d, hd, hS, hF⟩ := C95_variable u q95 (a.seer.getD 0) eer2 (ratedHeating u a .varSpeed q95) (some (a.heating17.getD (0.689 * ratedHeating u a .varSpeed q95))) (a.hspf.getD 0) a.coolingOff
    (lowestTemperature a .varSpeed) a.ratio95 a.cop82 a.netHeatingCop h95.ne' heer.ne' h47.ne' (show varHeating17 (ratedHeating u a .varSpeed q95) a.heating17 ≠ 0 by have := H.heating.cold; linarith) H.heating.cop_pos.ne'
    (by
      rintro c hc rfl
      have : (coolingOf u a q95 eer2).cop82 = 0 := by unfold coolingOf varCooling; rw [hc]; simp
      linarith)
    H.hottest.1 H.heating.below (by rw [h5]; intro hc; apply hlow; linarith) (by have := H.ratio_le; unfold coolingOf at this; intro hc; rw [hc] at this; norm_num at this)
    (by have := hp1.trans_lt hp2; unfold coolingOf at this; exact this.ne')
  have hF : ∀ s : Int, 1 ≤ s → s ≤ 3 → Follows d s (curvesOf u a q95 eer2 s) := hF
  have hr1 : (coolingOf u a q95 eer2).ratio ≤ 0.934 := H.ratio_le.trans (by norm_num)
  have hr0 : 0 < (coolingOf u a q95 eer2).ratio := H.ratio_pos
  have e1 : (speedsOf .varSpeed fun s => (curvesOf u a q95 eer2 s).coolingCapacity (frF 95)) =
      sizesOf u a q95 eer2 := by
    simp [speedsOf, curvesOf, sizesOf, coolingOf, varCurves, ends_cooling, VarCooling.q95s, Three.speed, varCooling]
  have cold47 : ∀ {v : Cold ℝ} {mn : ℝ}, v.heating mn (frF 47) = v.at47 := by
    intro v mn
    have h1 := f17_47 (K := ℝ)
    have h2 := f5_17 (K := ℝ)
    rw [Cold.heating, if_neg (by order), if_neg (by order), if_pos le_rfl]
    unfold lineAt; field_simp [sub_ne_zero.2 h1.ne']; ring
  have e2 : (speedsOf .varSpeed fun s => (curvesOf u a q95 eer2 s).heatingCapacity (frF 47)) =
      (let q47 := ratedHeating u a .varSpeed q95; [q47 / 0.908, q47, (q47 / 0.908 * 0.272 + q47) / 2, q47 / 0.908 * 0.272]) := by
    simp [speedsOf, curvesOf, varCurves, cold47, VarHeating.speed, VarHeating.at47, Three.speed, varHeatingCapacity]
  have sound := sound_of_curves (u := u) (st := .varSpeed) hS (c := curvesOf u a q95 eer2) hF hm (by
    rw [e1, e2]
    unfold sizesOf
    generalize (coolingOf u a q95 eer2).ratio = r at *
    generalize ratedHeating u a .varSpeed q95 = q47 at *
    clear hd hS hF hm h e1 e2
    have k1 : q95 / 0.934 * r ≤ q95 := by
      rw [div_mul_eq_mul_div, div_le_iff₀ (by norm_num)]; nlinarith
    have k2 : 0 < q95 / 0.934 * r := by positivity
    have k3 : q95 ≤ q95 / 0.934 := by rw [le_div_iff₀ (by norm_num)]; linarith
    have k4 : q95 / 0.934 ≤ 1.2 * q95 := by rw [div_le_iff₀ (by norm_num)]; linarith
    have k5 : q47 / 0.908 * 0.272 ≤ q47 := by rw [div_mul_eq_mul_div, div_le_iff₀ (by norm_num)]; linarith
    have k6 : 0 < q47 / 0.908 * 0.272 := by positivity
    have k7 : q47 ≤ q47 / 0.908 := by rw [le_div_iff₀ (by norm_num)]; linarith
    have k8 : q47 / 0.908 ≤ 1.2 * q47 := by rw [div_le_iff₀ (by norm_num)]; linarith
    refine ⟨q95, q47, rfl, rfl, ratedSizes_of h95 (le_max_left _ _) ?_ ?_ ?_, ratedSizes_of h47 (le_max_right _ _) ?_ ?_ ?_⟩
    · intro x hx; simp only [List.mem_cons, List.not_mem_nil, or_false] at hx; rcases hx with rfl | rfl | rfl | rfl <;> constructor <;> linarith
    · simp only [List.pairwise_cons, List.mem_cons, List.not_mem_nil, or_false, forall_eq_or_imp, forall_eq, List.Pairwise.nil, and_true, IsEmpty.forall_iff, implies_true]
      refine ⟨⟨?_, ?_, ?_⟩, ⟨?_, ?_⟩, ?_⟩ <;> linarith
    · rintro x hx; cases hx; exact sizes_max h95 h47 hsize k3
    · intro x hx; simp only [List.mem_cons, List.not_mem_nil, or_false] at hx; rcases hx with rfl | rfl | rfl | rfl <;> constructor <;> linarith
    · simp only [List.pairwise_cons, List.mem_cons, List.not_mem_nil, or_false, forall_eq_or_imp, forall_eq, List.Pairwise.nil, and_true, IsEmpty.forall_iff, implies_true]
      refine ⟨⟨?_, ?_, ?_⟩, ⟨?_, ?_⟩, ?_⟩ <;> linarith
    · rintro x hx; cases hx; exact sizes_max' h95 h47 hsize k7)
  rw [e1, e2] at sound
  obtain ⟨B, hB, hM⟩ := C90_ratings H.tables H.staging (heating47_eq H.cooling) (by
    rw [offTemperature_eq]; simp only [netTables, H.tables, H.cooling, H.eer, hspfFor_eq H.hspf, seerFor_eq H.seer, number, pyNum, bind_ok]; exact hd) sound h
  exact ⟨B, d, hB, hM, hS, hF⟩

/-- C90: every variable-speed unit in these ranges can be made, whether its ratio of capacities at 95 °F and its COP at 82 °F are given or not, and its tables follow the curves of its ratings. -/
theorem C90_variable_any {q95 eer2 : ℝ} (H : UsualVariableAny u a q95 eer2) (h : Surroundings u E T brentq a .varSpeed (sizesOf u a q95 eer2)) :
    ∃ B net, build u E T brentq a = .ok B ∧ Made u E a .varSpeed net (sizesOf u a q95 eer2)
        (let q47 := ratedHeating u a .varSpeed q95; [q47 / 0.908, q47, (q47 / 0.908 * 0.272 + q47) / 2, q47 / 0.908 * 0.272]) B ∧
      StandardTables 3 (lowestTemperature a .varSpeed) a.coolingOff net ∧ ∀ s : Int, 1 ≤ s → s ≤ 3 → Follows net s (curvesOf u a q95 eer2 s) := by
  have cool := usual_range H.usual H.size H.eer_pos H.eer_le H.range H.hottest (usual_fan H.usual)
  have heat := usual_cold H.heating (usual_fan H.usual)
  have cold47 : ∀ {v : Cold ℝ} {mn : ℝ}, v.heating mn (frF 47) = v.at47 := by
    intro v mn
    have h1 := f17_47 (K := ℝ)
    have h2 := f5_17 (K := ℝ)
    rw [Cold.heating, if_neg (by order), if_neg (by order), if_pos le_rfl]
    unfold lineAt; field_simp [sub_ne_zero.2 h1.ne']; ring
  refine variable_made H (fun s h1 h2 => ⟨(cool s h1 h2).1, ?_, ?_, ?_⟩) h
  · rw [show (curvesOf u a q95 eer2 s).coolingCapacity (frF 95) = (coolingOf u a q95 eer2).q95s.speed s from ends_cooling.2]
    exact (cool s h1 h2).2
  · rw [show (curvesOf u a q95 eer2 s).heatingCapacity (frF 47) =
      (varHeatingCapacity (ratedHeating u a .varSpeed q95) (varHeating17 (ratedHeating u a .varSpeed q95) a.heating17) (lowestTemperature a .varSpeed)).at47.speed s from cold47]
    exact (heat s h1 h2).1
  · rw [show (curvesOf u a q95 eer2 s).heatingCapacity (frF 47) =
      (varHeatingCapacity (ratedHeating u a .varSpeed q95) (varHeating17 (ratedHeating u a .varSpeed q95) a.heating17) (lowestTemperature a .varSpeed)).at47.speed s from cold47]
    exact (heat s h1 h2).2

/-- C96, from the ratings to the HSPF2 of a variable-speed unit in these ranges, with given or default ratio and COP: it is the one of the specification, in which neither has a part. -/
theorem C96_variable_any {q95 eer2 : ℝ} (H : UsualVariableAny u a q95 eer2) (hS : VariableSeason u E a q95) (h : Surroundings u E T brentq a .varSpeed (sizesOf u a q95 eer2)) :
    ∃ B, build u E T brentq a = .ok B ∧ B.core.st = .varSpeed ∧ ∀ {r : Nat} {design z cx cv : ℝ} {hours : List ℝ} {f : ℝ}, regionData .ahri2023 r = some (design, hours, some (cx, cv, z)) →
      a.defrost.demandCredit u = .ok f →
      B.hspf u E T brentq r = .ok (variableHspf (a.motorPSC.getD false) a.ducted u.ton q95 (ratedHeating u a .varSpeed q95) (varHeating17 (ratedHeating u a .varSpeed q95) a.heating17)
        (heatingCop (a.hspf.getD 0) a.netHeatingCop) (a.defrost.inDefrost (frF 35)) (cd a.cdHeating) (toF (lowestTemperature a .varSpeed))
        (heatBuildingLoad z design (cv * variableCooling (a.motorPSC.getD false) a.ducted u.ton q95 (ratedHeating u a .varSpeed q95))) (seasonTemperatures.zip hours) * f / u.btuh) := by
  obtain ⟨B, net, hB, hM, hST, hF⟩ := C90_variable_any H h
  rw [← hM.tables] at hST
  refine ⟨B, hB, hM.staging, fun {r design z cx cv hours f} hr hf => ?_⟩
  have hpos := H.heating.rated
  have h95 := H.size
  have c1 := hS.cold
  have c2 := hS.cold_le
  have c3 := hS.warm
  have hmn := H.heating.below
  have hoff : B.heatingOff = lowestTemperature a .varSpeed := by
    obtain ⟨st0, _, _, _, _, _, b1, -, -, -, b5, -⟩ := build_ok hB
    rw [H.staging] at b1
    cases b1
    rw [b5, offTemperature_eq]
  obtain ⟨f1, f2, f3, f4, f5, f6⟩ := variable_fans h95 hpos H.tables (fun e => h.root e) hS.standard hB ⟨_, _, rfl⟩ hM
  obtain ⟨g1, g2, g3, g4, g5⟩ := variable_fan_bounds (a.motorPSC.getD false) a.ducted H.usual h95 hpos H.comparable
  obtain ⟨x, hQ, hx0, hx1⟩ := hM.grossHeat 2 ((ratedHeating u a .varSpeed q95 / 0.908 * 0.272 + ratedHeating u a .varSpeed q95) / 2) rfl
  have hfan := usual_fan H.usual
  have hQ0 : (ratedHeating u a .varSpeed q95 / 0.908 * 0.272 + ratedHeating u a .varSpeed q95) / 2 - x ≠ 0 := by
    have : 0 < (ratedHeating u a .varSpeed q95 / 0.908 * 0.272 + ratedHeating u a .varSpeed q95) / 2 := by positivity
    nlinarith
  have key := C96_variable_hspf hB hM.staging (fun d hd => by rw [H.tables] at hd; cases hd) h.charge hS.standard hS.cutIn hS.cd.1 hS.cd.2 f2 f6 hQ hQ0 hST (by norm_num) h.outdoor hS.outdoor.1 hS.outdoor.2.1
    hS.outdoor.2.2.1 hS.outdoor.2.2.2.1 hS.outdoor.2.2.2.2 (by rw [hM.tables]; exact hF 1 (by norm_num) (by norm_num)) (by rw [hM.tables]; exact hF 2 (by norm_num) (by norm_num)) f1 f3 f4 f5 hr hf
  have e95 : (curvesOf u a q95 eer2 2).coolingCapacity (frF 95) = q95 := ends_cooling.2
  simp only at key
  rw [e95, show (curvesOf u a q95 eer2 1).variableTests (curvesOf u a q95 eer2 2) = _ from funext fun _ => funext fun _ => funext fun _ => funext fun _ => funext fun _ => variable_tests _ _ _ _ _ _ _ hmn _ _ _ _ _ _ _ _, hoff] at key
  have TB : TestBounds (ratedHeating u a .varSpeed q95) (varHeating17 (ratedHeating u a .varSpeed q95) a.heating17) (heatingCop (a.hspf.getD 0) a.netHeatingCop) _ _ _ _ :=
    ⟨hpos, c1, c2, hS.cop, H.heating.cop_le, g1, g2, g3, g4.1, g4.2⟩
  have hx : 0 < ratedHeating u a .varSpeed q95 / heatingCop (a.hspf.getD 0) a.netHeatingCop := div_pos hpos H.heating.cop_pos
  obtain ⟨l1, l2⟩ := region_load_variable hr (q := variableCooling (a.motorPSC.getD false) a.ducted u.ton q95 (ratedHeating u a .varSpeed q95)) (by unfold variableCooling; linarith)
  have hVC : 0.9785 * q95 ≤ variableCooling (a.motorPSC.getD false) a.ducted u.ton q95 (ratedHeating u a .varSpeed q95) := by unfold variableCooling; linarith
  obtain ⟨r1, -, r2, r3, ⟨n, r4, r5⟩, r6, -⟩ := region_2023 hr
  have hfull : 0 < cv * variableCooling (a.motorPSC.getD false) a.ducted u.ton q95 (ratedHeating u a .varSpeed q95) := mul_pos r2 (by linarith)
  have hpos' := fun t ht => variable_pos (b := a.defrost.inDefrost (frF 35)) TB (off := toF (lowestTemperature a .varSpeed)) hS.cd.1 hS.cd.2 l1 (fun t h12 => by have := l2 t h12; linarith) (t := t) ht
    (heatBuildingLoad_nonneg r1 hfull.le)
  obtain ⟨k1, -, -, k4⟩ := full_35 (b := a.defrost.inDefrost (frF 35)) TB
  refine key (by unfold variableCooling at hVC; linarith) ?_ ?_ (fun t ht => ?_) ?_
  · rw [(low_const TB 35).1]; intro hc; rw [hc] at k1; linarith
  · rw [(low_const TB 35).2]; intro hc; rw [hc] at k4; linarith
  · obtain ⟨s1, s2⟩ := season_range t ht
    refine ⟨?_, ?_, (mid_pos TB s1 s2).2.ne', (full_pos TB t ht).ne', fun i1 i2 => (cop_pos TB ht i1 i2).ne'⟩
    · rw [(low_const TB t).1]; positivity
    · rw [(low_const TB t).2]; positivity
  · rw [← total_add]
    refine (total_pos (fun b hb => ⟨(hpos' b.1 (List.of_mem_zip hb).1).1, r3 _ (List.of_mem_zip hb).2⟩) r4 ?_ r5).ne'
    exact (hpos' 52 (List.of_mem_zip r4).1).2 (by norm_num) (heatBuildingLoad_pos r1 hfull r6)

set_option maxHeartbeats 1000000 in
/-- The shape of the cooling of such a unit whose lowest speed has between 10 % and 39.8 % of the highest capacity. -/
theorem range_shape {q95 eer2 : ℝ} {v : VarCooling ℝ} (hu : UsualUnits u) (hq : 0 < q95) (heer : 0 < eer2) (heer' : eer2 ≤ 16) (hv : CoolRange u.btuh q95 eer2 v) (r0' : 0.1 ≤ v.ratio) (r1 : v.ratio ≤ 0.398) :
    CoolShape q95 v.p95 v.q82s.min v.q82s.full v.p82s.min v.p82s.full ∧ v.q95s.min = 0.948 * v.q82s.min ∧ v.p95s.min = 0.948 * 1.315 * v.p82s.min := by
  obtain ⟨hc0, -, -, -⟩ := range_power hq heer hv
  obtain ⟨vq, vp, r0, -, hcg, -⟩ := hv
  have hbt := u.btuh_pos
  have hE0 : 0 < eer2 * u.btuh := by positivity
  obtain ⟨e, he⟩ : ∃ e, e = 0.928 * 1.326 * (eer2 * u.btuh) / v.cop82 := ⟨_, rfl⟩
  have e1 : e ≤ 1 := by rw [he, div_le_one hc0]; linarith
  have e0 : 0 < e := by rw [he]; positivity
  obtain ⟨r, vr⟩ : ∃ r, v.ratio = r := ⟨_, rfl⟩
  rw [vr] at r0 r0' r1
  obtain ⟨p, hp⟩ : ∃ p, p = v.p95 := ⟨_, rfl⟩
  have hp' : p = q95 / (eer2 * u.btuh) := hp.trans vp
  have hp0 : 0 < p := by rw [hp']; positivity
  have hp1 : 0.2132 * q95 ≤ p := by
    rw [hp', le_div_iff₀ hE0]
    have : eer2 * u.btuh ≤ 16 * 0.2931 := mul_le_mul heer' hu.btuh hbt.le (by norm_num)
    nlinarith
  have vc : v.cop82 = q95 / p * 0.928 * 1.326 / e := by rw [hp', he]; field_simp
  have hl : v.q82s.min = 1 / (0.934 * 0.948) * (r * q95) := by
    show v.q95 / 0.934 * v.ratio / 0.948 = _
    rw [vq, vr]; ring
  have hm : v.p82s.min = 1 / (0.934 * 0.948 * 0.928 * 1.326) * (e * r * p) := by
    show v.q82s.min / v.cop82 = _
    rw [hl, vc]; field_simp
  have hF : v.q82s.full = v.q82s.min + (0.934 - r) / (1 - r) * (1 / (0.934 * 0.94) * q95 - v.q82s.min) := by
    show between v.q82s.min (v.q95 / 0.934 / 0.940) (v.q95 / 0.934 * v.ratio) v.q95 (v.q95 / 0.934) = _
    rw [vq, vr]; unfold between
    have h1 : 1 - r ≠ 0 := by linarith
    have h2 : q95 / 0.934 - q95 / 0.934 * r ≠ 0 := by
      rw [show q95 / 0.934 - q95 / 0.934 * r = q95 / 0.934 * (1 - r) by ring]
      exact mul_ne_zero (by positivity) h1
    have : (q95 - q95 / 0.934 * r) / (q95 / 0.934 - q95 / 0.934 * r) = (0.934 - r) / (1 - r) := by
      rw [div_eq_div_iff h2 h1]; ring
    rw [this]; ring
  have hpm : v.p95s.min = 0.948 * 1.315 * v.p82s.min := by
    show v.q82s.min / v.cop82 * (0.948 * 1.315) = 0.948 * 1.315 * (v.q82s.min / v.cop82); ring
  obtain ⟨m, hm'⟩ : ∃ m, m = v.p82s.min := ⟨_, rfl⟩
  have x1 : e * r ≤ 0.398 := by nlinarith
  have x0 : 0 < e * r := by positivity
  have m0 : 0 < m := by rw [hm', hm]; positivity
  have m1 : m ≤ 0.3654 * p := by rw [hm', hm]; norm_num; nlinarith
  have hd : 0 < p / (0.934 * 0.928) - 0.948 * 1.315 * m := by
    rw [sub_pos, lt_div_iff₀ (by norm_num)]; nlinarith
  have hG : v.p82s.full = m + (p - 0.948 * 1.315 * m) / (p / (0.934 * 0.928) - 0.948 * 1.315 * m) * (1 / (0.934 * 0.928 * 0.94 * 1.326) * p - m) := by
    show between v.p82s.min (v.p95s.max / (0.940 * 1.326)) v.p95s.min v.p95s.full v.p95s.max = _
    rw [hpm, ← hm']
    show between m (v.p95 / (0.934 * 0.928) / (0.940 * 1.326)) (0.948 * 1.315 * m) v.p95 (v.p95 / (0.934 * 0.928)) = _
    rw [← hp]; unfold between; ring
  refine ⟨?_, ?_, hpm⟩
  · rw [← hp, ← hm', hG, hF, hl]
    have w1 : 0.89 ≤ (0.934 - r) / (1 - r) := by rw [le_div_iff₀ (by linarith)]; linarith
    have w2 : (0.934 - r) / (1 - r) ≤ 0.928 := by rw [div_le_iff₀ (by linarith)]; linarith
    have y1 : 0.779 ≤ (p - 0.948 * 1.315 * m) / (p / (0.934 * 0.928) - 0.948 * 1.315 * m) := by
      rw [le_div_iff₀ hd]
      have : p / (0.934 * 0.928) ≤ 1.15374 * p := by rw [div_le_iff₀ (by norm_num)]; linarith
      linarith
    have y2 : (p - 0.948 * 1.315 * m) / (p / (0.934 * 0.928) - 0.948 * 1.315 * m) ≤ 0.8669 := by
      rw [div_le_iff₀ hd]
      have : 1.1537 * p ≤ p / (0.934 * 0.928) := by rw [le_div_iff₀ (by norm_num)]; linarith
      linarith
    have l1 : 1 / (0.934 * 0.948) * (r * q95) ≤ 0.4496 * q95 := by norm_num; nlinarith
    have k1 : 1.139 * q95 ≤ 1 / (0.934 * 0.94) * q95 := by norm_num; linarith
    have k2 : 1 / (0.934 * 0.94) * q95 ≤ 1.13902 * q95 := by norm_num; linarith
    have k3 : 0.9255 * p ≤ 1 / (0.934 * 0.928 * 0.94 * 1.326) * p := by norm_num; linarith
    have k4 : 1 / (0.934 * 0.928 * 0.94 * 1.326) * p ≤ 0.92563 * p := by norm_num; linarith
    have l0 : 0 < 1 / (0.934 * 0.948) * (r * q95) := by positivity
    clear hG hF hl hm hpm vc hp hm' hd hp' he hcg vq vp hc0 r0'
    generalize (0.934 - r) / (1 - r) = ω at *
    generalize (p - 0.948 * 1.315 * m) / (p / (0.934 * 0.928) - 0.948 * 1.315 * m) = ω' at *
    generalize 1 / (0.934 * 0.948) * (r * q95) = l at *
    generalize 1 / (0.934 * 0.94) * q95 = h1 at *
    generalize 1 / (0.934 * 0.928 * 0.94 * 1.326) * p = h2 at *
    refine ⟨hq, hp1, l0, l1, ⟨?_, ?_⟩, m0, m1, ?_, ?_⟩
    all_goals
      rw [add_sub_cancel_left]
      refine mul_le_mul (by assumption) (by linarith) (by linarith) (by linarith)
  · show v.q95 / 0.934 * v.ratio = 0.948 * (v.q95 / 0.934 * v.ratio / 0.948)
    ring

theorem range_tests {q95 eer2 : ℝ} (H : UsualVariableAny u a q95 eer2) (hr0 : 0.1 ≤ (coolingOf u a q95 eer2).ratio) (hr : (coolingOf u a q95 eer2).ratio ≤ 0.398) (w1 w w3 v : ℝ) :
    let V := coolingOf u a q95 eer2
    let curve := curvesOf u a q95 eer2
    (curve 1).variableCoolTests (curve 2) w1 w w3 v = shapeTests q95 V.p95 V.q82s.min V.q82s.full V.p82s.min V.p82s.full w1 w w3 v := by
  intro V curve
  obtain ⟨S, s1, s2⟩ := range_shape H.usual H.size H.eer_pos H.eer_le H.range hr0 hr
  obtain ⟨a1, a2⟩ := ends_values (e := ⟨V.q82s.min, V.q95s.min⟩) (by simp only [V, s1]; linarith [S.low])
  obtain ⟨b1, b2⟩ := ends_values (e := ⟨V.p82s.min, V.p95s.min⟩) (by simp only [V, s2]; linarith [S.lowPower])
  have q1 : (curve 1).coolingCapacity = Ends.cooling ⟨V.q82s.min, V.q95s.min⟩ := rfl
  have p1 : (curve 1).coolingPower = Ends.cooling ⟨V.p82s.min, V.p95s.min⟩ := rfl
  have q2 : (curve 2).coolingCapacity = Ends.cooling ⟨V.q82s.full, q95⟩ := rfl
  have p2 : (curve 2).coolingPower = Ends.cooling ⟨V.p82s.full, V.p95⟩ := rfl
  have t1 : V.q95s.min = 0.948 * V.q82s.min := s1
  have t2 : V.p95s.min = 0.948 * 1.315 * V.p82s.min := s2
  simp only [Curves.variableCoolTests, Curves.coolTests, Curves.withFan, q1, p1, q2, p2, a1, a2, b1, b2, ends_cooling.1, ends_cooling.2, ends_87, shapeTests]
  rw [t1, t2]
  congr 1 <;> ring

/-- C97, from the ratings to the SEER2 of such a variable-speed unit whose lowest speed has between 10 % and 39.8 % of the highest capacity. -/
theorem C97_variable_any {q95 eer2 : ℝ} (H : UsualVariableAny u a q95 eer2) (hratio0 : 0.1 ≤ (coolingOf u a q95 eer2).ratio) (hratio : (coolingOf u a q95 eer2).ratio ≤ 0.398) (hstd : a.standard = .ahri2023) (hcd : 0 ≤ cd a.cdCooling) (hcd1 : cd a.cdCooling < 1)
    (o87 : Outdoor E (frF 87)) (o82 : Outdoor E (frF 82)) (o67 : Outdoor E (frF 67)) (h : Surroundings u E T brentq a .varSpeed (sizesOf u a q95 eer2)) :
    let q47 := ratedHeating u a .varSpeed q95
    let curve := curvesOf u a q95 eer2
    ∃ B, build u E T brentq a = .ok B ∧ B.core.st = .varSpeed ∧
      B.seer u E T brentq = .ok (variableSeer (a.motorPSC.getD false) a.ducted u.ton q95 q47 (coolingOf u a q95 eer2).ratio (curve 1) (curve 2) (cd a.cdCooling) / u.btuh) := by
  intro q47 curve
  obtain ⟨B, net, hB, hM, hST, hF⟩ := C90_variable_any H h
  rw [← hM.tables] at hST
  refine ⟨B, hB, hM.staging, ?_⟩
  have hpos := H.heating.rated
  have h95 := H.size
  have hcold := H.heating.cold
  have hmn := H.heating.below
  have r0 := H.ratio_pos
  have r1 := hratio
  unfold sizesOf at hM
  have eT := range_tests H hratio0 hratio
  have hsh := (range_shape H.usual h95 H.eer_pos H.eer_le H.range hratio0 hratio).1
  generalize hr : (coolingOf u a q95 eer2).ratio = r at *
  obtain ⟨f1, f2, f3, f4⟩ := variable_cool_fans h95 (by linarith) (by linarith) H.tables (fun e => h.root e) hstd hB ⟨_, _, _, rfl⟩ hM
  obtain ⟨g1, g2, g3, g4, g5⟩ := variable_cool_bounds (r := r) (a.motorPSC.getD false) a.ducted H.usual h95 (by linarith) r1 H.comparable
  obtain ⟨x, hQ, hx0, hx1⟩ := hM.grossCool 2 ((q95 / 0.934 * r + q95) / 2) rfl
  have k1 : Follows B.core.net 1 (curve 1) := by rw [hM.tables]; exact hF 1 (by norm_num) (by norm_num)
  have k2 : Follows B.core.net 2 (curve 2) := by rw [hM.tables]; exact hF 2 (by norm_num) (by norm_num)
  have nb : ∀ (s : Int) {t : ℝ}, 60 ≤ t → t ≤ 95 → NotBelow B.core.net (curve s) (frF t) := by
    intro s t g1 g2
    have mem : ∀ x ∈ [frF 60, frF 82, frF 95], x ∈ B.core.net.coolingCapacities.temperatures ∧ x ∈ B.core.net.coolingPowers.temperatures := fun x hx => by
      rw [hST.cooling.1, hST.cooling.2]
      have : x ∈ [frF 60, frF 82, frF 95, a.coolingOff] := by simp only [List.mem_cons, List.not_mem_nil, or_false] at hx ⊢; tauto
      exact ⟨this, this⟩
    obtain ⟨x, m1, l1⟩ := ends_notBelow (e := ⟨(coolingOf u a q95 eer2).q82s.speed s, (coolingOf u a q95 eer2).q95s.speed s⟩) (frF_le.2 g1) (frF_le.2 g2)
    obtain ⟨y, m2, l2⟩ := ends_notBelow (e := ⟨(coolingOf u a q95 eer2).p82s.speed s, (coolingOf u a q95 eer2).p95s.speed s⟩) (frF_le.2 g1) (frF_le.2 g2)
    exact ⟨⟨x, (mem x m1).1, l1⟩, y, (mem y m2).2, l2⟩
  have key := C97_variable_seer hB hM.staging (fun d hd => by rw [H.tables] at hd; cases hd) h.charge hcd hcd1 hQ (by positivity) hST (by norm_num) h.outdoor o87 o82 o67 k1 k2
    (nb 2 (by norm_num) (by norm_num)) (nb 2 (by norm_num) (by norm_num)) (nb 2 (by norm_num) (by norm_num)) (nb 1 (by norm_num) (by norm_num)) (nb 1 (by norm_num) (by norm_num)) (nb 1 (by norm_num) (by norm_num))
    f4 f1 f2 f3
  have eT := eT
    (unitFan (a.motorPSC.getD false) u.ton (max q95 q47) q95 (if a.ducted then 1 else 0))
    (unitFan (a.motorPSC.getD false) u.ton (max q95 q47) ((q95 / 0.934 * r + q95) / 2) (if a.ducted then (max q95 q47 / (q95 / 0.934)) ^ 2 else 0))
    (unitFan (a.motorPSC.getD false) u.ton (max q95 q47) (q95 / 0.934 * r) (if a.ducted then (max q95 q47 / (q95 / 0.934)) ^ 2 else 0))
    (unitFan (a.motorPSC.getD false) u.ton (max q95 q47) q95 (if a.ducted then (max q95 q47 / (q95 / 0.934)) ^ 2 else 0))
  obtain ⟨o1, o2, o3, o4⟩ := shape_order hsh g1 g2 g3 g5
  simp only at eT o1 o2 o3 o4
  rw [← eT] at o1 o2 o3 o4
  simp only at key
  refine key o1.le o2 o3 o4 (ne_of_gt ?_)
  refine total_pos (b := ((67 : ℝ), 0.214)) (fun b hb => ?_) (by simp [coolingSeason]) ?_ (by norm_num)
  · refine ⟨(varSpeedRate_pos hcd hcd1 (o2 b.1 (List.mem_map_of_mem hb)) (coolBuildingLoad_nonneg o1.le _)).1, ?_⟩
    revert hb b
    simp only [coolingSeason, List.forall_mem_cons, List.not_mem_nil, false_imp_iff, implies_true, and_true]
    norm_num
  · refine (varSpeedRate_pos hcd hcd1 (o2 67 (by simp [coolingSeason])) (coolBuildingLoad_nonneg o1.le _)).2 ?_
    show 0 < coolBuildingLoad _ 67
    unfold coolBuildingLoad
    rw [if_neg (by norm_num)]
    exact mul_pos (div_pos o1 (by norm_num)) (by norm_num)

end Resdx.Build

namespace Resdx.Sample

open Spec Tabular BaseModel Props ResnetFan Fan Table Build DX

/-- A variable-speed unit of any capacity with a given ratio of capacities and a given COP at 82 °F. -/
noncomputable def varGiven (q κ r c : ℝ) : Args := { varSizes q κ with ratio95 := some r, cop82 := some c }

theorem varGiven_cop {q κ r c : ℝ} (hq : 0 < q) (hc : 0 < c) : (coolingOf units (varGiven q κ r c) q 12).cop82 = c := by
  have hb : 0 < units.btuh := units.btuh_pos
  show maxCop82 q (q / (12 * units.btuh)) / (maxCop82 q (q / (12 * units.btuh)) / c) = c
  have : maxCop82 q (q / (12 * units.btuh)) ≠ 0 := by unfold maxCop82; positivity
  rw [div_div_cancel₀ this]

theorem varGiven_usual {q κ r c : ℝ} (hq : 0 < q) (h1 : 2.1 ≤ κ) (h2 : κ ≤ 5) (r0 : 0 < r) (r1 : r ≤ 0.85) (c1 : 4.4 ≤ c) (c2 : c ≤ 6.2) : UsualVariableAny units (varGiven q κ r c) q 12 where
  usual := usualUnits
  tables := rfl
  staging := rfl
  cooling := rfl
  size := hq
  seer := .inl rfl
  eer := rfl
  eer_pos := by norm_num
  eer_le := by norm_num
  ratio_pos := r0
  ratio_le := r1
  cop_ge := by rw [varGiven_cop hq (by linarith), show units.btuh = (0.29307 : ℝ) from rfl]; norm_num at c1 ⊢; linarith
  cop_le := by rw [varGiven_cop hq (by linarith)]; norm_num at c2 ⊢; linarith
  hspf := .inl rfl
  comparable := (varSizes_usual hq h1 h2).comparable
  hottest := off125
  heating := (varSizes_usual hq h1 h2).heating

theorem varGiven_surroundings {brentq : Brentq} (hbr : BrentqSpec brentq) {q κ r c : ℝ} (hq : 0 < q) (r0 : 0 < r) :
    Surroundings units env tools brentq (varGiven q κ r c) .varSpeed (sizesOf units (varGiven q κ r c) q 12) :=
  surroundings hbr rfl rfl rfl rfl rfl (by
    intro x hx
    simp only [sizesOf, List.mem_cons, List.not_mem_nil, or_false] at hx
    have hr : (coolingOf units (varGiven q κ r c) q 12).ratio = r := rfl
    rw [hr] at hx
    rcases hx with rfl | rfl | rfl | rfl <;> positivity)

/-- The hypotheses of `C90_variable_any`, `C96_variable_any` and `C97_variable_any` hold for units of any size. -/
example {brentq : Brentq} (hbr : BrentqSpec brentq) {q κ r c : ℝ} (hq : 0 < q) (h1 : 2.1 ≤ κ) (h2 : κ ≤ 5) (r0 : 0 < r) (r1 : r ≤ 0.85) (c1 : 4.4 ≤ c) (c2 : c ≤ 6.2) :=
  C90_variable_any (varGiven_usual hq h1 h2 r0 r1 c1 c2) (varGiven_surroundings (κ := κ) hbr hq r0)

example {brentq : Brentq} (hbr : BrentqSpec brentq) {q κ r c : ℝ} (hq : 0 < q) (h1 : 2.1 ≤ κ) (h2 : κ ≤ 5) (r0 : 0 < r) (r1 : r ≤ 0.85) (c1 : 4.4 ≤ c) (c2 : c ≤ 6.2) :=
  C96_variable_any (varGiven_usual hq h1 h2 r0 r1 c1 c2) { varSizes_season hq h1 with } (varGiven_surroundings (κ := κ) hbr hq r0)

example {brentq : Brentq} (hbr : BrentqSpec brentq) {q κ r c : ℝ} (hq : 0 < q) (h1 : 2.1 ≤ κ) (h2 : κ ≤ 5) (r0 : 0.1 ≤ r) (r1 : r ≤ 0.398) (c1 : 4.4 ≤ c) (c2 : c ≤ 6.2) :=
  C97_variable_any (varGiven_usual hq h1 h2 (by linarith) (r1.trans (by norm_num)) c1 c2) r0 r1 rfl (by norm_num [cd, varGiven, varSizes, varArgs]) (by norm_num [cd, varGiven, varSizes, varArgs]) (outdoorAir _) (outdoorAir _) (outdoorAir _)
    (varGiven_surroundings (κ := κ) hbr hq (by linarith))

end Resdx.Sample
