import Verif.Props.PlotResnet
import Verif.Props.RepResnet
import Verif.Props.VariableGiven

/-!
# C109, C114, C119: plots, EnergyPlus files and ASHRAE 205 representations of units, from their ratings

Within the ranges of ratings for which a unit can be made, its plot can be made, its EnergyPlus file can be written and its ASHRAE 205 representation can be generated.
-/

set_option linter.unusedSectionVars false
set_option linter.unusedSimpArgs false

namespace Resdx.Build

open Spec Spec.Idf Tabular BaseModel Props ResnetFan Fan Table Reports Idf Rep205

variable {u : Units ℝ} {E : Env ℝ} {T : Coil.Tools} {brentq : Brentq} {a : Args} {B : Built} {sat : ℝ → ℝ} {X : FileContext} {fmt : ℝ → Nat → String} {st : Staging} {net : Perf ℝ} {c : Int → Curves ℝ}

/-! ## Lookups at every speed, from the curves -/

theorem speedsOf_lt {f g : Int → ℝ} {w x y : ℝ} {i : Nat} (h : ∀ s : Int, 1 ≤ s → s ≤ tableSpeeds st → w * f s < g s) (hx : (speedsOf st f)[i]? = some x) (hy : (speedsOf st g)[i]? = some y) :
    w * x < y := by
  cases st with
  | single =>
    have h1 := h 1 le_rfl le_rfl
    rcases i with _ | i
    · cases hx; cases hy; exact h1
    · simp [speedsOf] at hx
  | two =>
    have h1 := h 1 le_rfl (by decide)
    have h2 := h 2 (by norm_num) (by decide)
    rcases i with _ | _ | i
    · cases hx; cases hy; exact h2
    · cases hx; cases hy; exact h1
    · simp [speedsOf] at hx
  | varSpeed =>
    have h1 := h 1 le_rfl (by decide)
    have h2 := h 2 (by norm_num) (by decide)
    have h3 := h 3 (by norm_num) (by decide)
    rcases i with _ | _ | _ | _ | i
    · cases hx; cases hy; exact h3
    · cases hx; cases hy; exact h2
    · cases hx; cases hy; linarith
    · cases hx; cases hy; exact h1
    · simp [speedsOf] at hx

theorem speedsOf_le {f g : Int → ℝ} {w x y : ℝ} {i : Nat} (h : ∀ s : Int, 1 ≤ s → s ≤ tableSpeeds st → g s ≤ w * f s) (hx : (speedsOf st f)[i]? = some x) (hy : (speedsOf st g)[i]? = some y) :
    y ≤ w * x := by
  cases st with
  | single =>
    have h1 := h 1 le_rfl le_rfl
    rcases i with _ | i
    · cases hx; cases hy; exact h1
    · simp [speedsOf] at hx
  | two =>
    have h1 := h 1 le_rfl (by decide)
    have h2 := h 2 (by norm_num) (by decide)
    rcases i with _ | _ | i
    · cases hx; cases hy; exact h2
    · cases hx; cases hy; exact h1
    · simp [speedsOf] at hx
  | varSpeed =>
    have h1 := h 1 le_rfl (by decide)
    have h2 := h 2 (by norm_num) (by decide)
    have h3 := h 3 (by norm_num) (by decide)
    rcases i with _ | _ | _ | _ | i
    · cases hx; cases hy; exact h3
    · cases hx; cases hy; exact h2
    · cases hx; cases hy; linarith
    · cases hx; cases hy; exact h1
    · simp [speedsOf] at hx

/-- The rated capacities of the curves. -/
noncomputable def coolSizes (st : Staging) (c : Int → Curves ℝ) : List ℝ := speedsOf st fun s => (c s).coolingCapacity (frF 95)
noncomputable def heatSizes (st : Staging) (c : Int → Curves ℝ) : List ℝ := speedsOf st fun s => (c s).heatingCapacity (frF 47)

/-- Cooling lookups at a temperature at which the curves have a margin for the fan power, for the intermediate speed too. -/
theorem cool_at {w x : ℝ} (R : RatedTables (tableSpeeds st) net) (hF : ∀ s : Int, 1 ≤ s → s ≤ tableSpeeds st → Follows net s (c s))
    (h : ∀ s : Int, 1 ≤ s → s ≤ tableSpeeds st → 0 < (c s).coolingCapacity x ∧ w * (c s).coolingCapacity (frF 95) < (c s).coolingPower x) {i : Nat} {σ : ℝ} (hσ : TableSpeed st i σ) :
    ∃ Q P, net.coolingCapacity σ x = .ok Q ∧ 0 < Q ∧ net.coolingPower σ x = .ok P ∧ ∀ q, (coolSizes st c)[i]? = some q → w * q < P := by
  obtain ⟨Q, g1, g2⟩ := (ratedAt_of_lookups R.qc R.speeds.1 fun s h1 h2 => (hF s h1 h2 x).1).1 i σ hσ
  obtain ⟨P, p1, p2⟩ := (ratedAt_of_lookups R.pc R.speeds.2.1 fun s h1 h2 => (hF s h1 h2 x).2.1).1 i σ hσ
  refine ⟨Q, P, g2, ?_, p2, fun q hq => speedsOf_lt (fun s h1 h2 => (h s h1 h2).2) hq p1⟩
  have := speedsOf_lt (st := st) (w := 0) (f := fun s => (c s).coolingCapacity x) (fun s h1 h2 => by rw [zero_mul]; exact (h s h1 h2).1) g1 g1
  linarith

/-- Heating lookups. -/
theorem heat_at {w x : ℝ} (R : RatedTables (tableSpeeds st) net) (hF : ∀ s : Int, 1 ≤ s → s ≤ tableSpeeds st → Follows net s (c s))
    (h : ∀ s : Int, 1 ≤ s → s ≤ tableSpeeds st → w * (c s).heatingCapacity (frF 47) < (c s).heatingCapacity x ∧ w * (c s).heatingCapacity (frF 47) < (c s).heatingPower x) {i : Nat} {σ : ℝ}
    (hσ : TableSpeed st i σ) :
    ∃ Q P, net.heatingCapacity σ x = .ok Q ∧ net.heatingPower σ x = .ok P ∧ ∀ q, (heatSizes st c)[i]? = some q → w * q < Q ∧ w * q < P := by
  obtain ⟨Q, g1, g2⟩ := (ratedAt_of_lookups R.qh R.speeds.2.2.1 fun s h1 h2 => (hF s h1 h2 x).2.2.1).1 i σ hσ
  obtain ⟨P, p1, p2⟩ := (ratedAt_of_lookups R.ph R.speeds.2.2.2 fun s h1 h2 => (hF s h1 h2 x).2.2.2).1 i σ hσ
  exact ⟨Q, P, g2, p2, fun q hq => ⟨speedsOf_lt (fun s h1 h2 => (h s h1 h2).1) hq g1, speedsOf_lt (fun s h1 h2 => (h s h1 h2).2) hq p1⟩⟩

/-- A bound of the cooling capacity at a temperature. -/
theorem cool_le {k x : ℝ} (R : RatedTables (tableSpeeds st) net) (hF : ∀ s : Int, 1 ≤ s → s ≤ tableSpeeds st → Follows net s (c s))
    (h : ∀ s : Int, 1 ≤ s → s ≤ tableSpeeds st → (c s).coolingCapacity x ≤ k * (c s).coolingCapacity (frF 95)) {i : Nat} {σ q Q : ℝ} (hσ : TableSpeed st i σ) (hq : (coolSizes st c)[i]? = some q)
    (hQ : net.coolingCapacity σ x = .ok Q) : Q ≤ k * q := by
  obtain ⟨Q', g1, g2⟩ := (ratedAt_of_lookups R.qc R.speeds.1 fun s h1 h2 => (hF s h1 h2 x).1).1 i σ hσ
  have : Q = Q' := Except.ok.inj (hQ.symm.trans g2)
  rw [this]
  exact speedsOf_le h hq g1

/-! ## What the curves have in common -/

/-- Curves of a speed as the ratings give them: between 17 and 47 °F heating is a straight line; the cooling capacity at 82 °F is at least that at 95 °F and at most 7 % more, and follows the
specified lines. -/
structure Lines (c : Curves ℝ) : Prop where
  capacity35 : c.heatingCapacity (frF 35) = 0.6 * c.heatingCapacity (frF 47) + 0.4 * c.heatingCapacity (frF 17)
  power35 : c.heatingPower (frF 35) = 0.6 * c.heatingPower (frF 47) + 0.4 * c.heatingPower (frF 17)
  cooling : ∃ e : Ends ℝ, c.coolingCapacity = e.cooling ∧ 0 < e.high ∧ e.high ≤ e.low ∧ e.low ≤ 1.07 * e.high
  power : ∃ e : Ends ℝ, c.coolingPower = e.cooling

theorem cold_35 (v : Cold ℝ) (mn : ℝ) : v.heating mn (frF 35) = 0.6 * v.heating mn (frF 47) + 0.4 * v.heating mn (frF 17) := by
  have n1 : ¬ frF (35 : ℝ) ≤ frF 5 := by unfold frF; norm_num
  have n2 : ¬ frF (35 : ℝ) ≤ frF 17 := by unfold frF; norm_num
  have n3 : frF (35 : ℝ) ≤ frF 47 := by unfold frF; norm_num
  have m1 : ¬ frF (47 : ℝ) ≤ frF 5 := by unfold frF; norm_num
  have m2 : ¬ frF (47 : ℝ) ≤ frF 17 := by unfold frF; norm_num
  have k1 : ¬ frF (17 : ℝ) ≤ frF 5 := by unfold frF; norm_num
  simp only [Cold.heating, if_neg n1, if_neg n2, if_pos n3, if_neg m1, if_neg m2, if_pos (le_refl (frF (47 : ℝ))), if_neg k1, if_pos (le_refl (frF (17 : ℝ)))]
  unfold lineAt frF; ring

theorem heating_35 (e : Ends ℝ) : e.heating (frF 35) = 0.6 * e.heating (frF 47) + 0.4 * e.heating (frF 17) := by
  rw [ends_heating.1, ends_heating.2.1, Ends.heating, if_pos (by unfold frF; norm_num), line_heating, toF_frF]; ring

/-- The value below 82 °F. -/
theorem ends_below {e : Ends ℝ} {t : ℝ} (ht : t < 82) : ∃ m, m = max (e.low - 22 / 13 * (e.high - e.low)) (e.low / 2) ∧ e.cooling (frF t) = m + (e.low - m) * ((t - 60) / 22) := by
  refine ⟨_, rfl, ?_⟩
  have h0 : ¬ frF (82 : ℝ) ≤ frF t := by unfold frF; intro h; linarith
  rw [Ends.cooling, if_neg h0, line_cooling, toF_frF]
  have : e.low + (60 - 82) / 13 * (e.high - e.low) = e.low - 22 / 13 * (e.high - e.low) := by ring
  rw [this]
  generalize max (e.low - 22 / 13 * (e.high - e.low)) (e.low / 2) = m
  unfold lineAt frF; ring

/-- No more than 1.3 times the rated capacity from 55 °F up. -/
theorem ends_upper {e : Ends ℝ} (h0 : 0 < e.high) (h1 : e.high ≤ e.low) (h2 : e.low ≤ 1.07 * e.high) {x : ℝ} (hx : frF 55 ≤ x) : e.cooling x ≤ 1.3 * e.high := by
  have hx' : 55 ≤ toF x := by have := toF_le.2 hx; rwa [toF_frF] at this
  rw [← frF_toF x]
  generalize toF x = t at hx'
  rcases lt_or_ge t 82 with h | h
  · obtain ⟨m, hm, e1⟩ := ends_below (e := e) h
    rw [e1]
    have m1 : e.low ≤ m := by rw [hm]; exact le_max_of_le_left (by linarith)
    have m2 : m ≤ e.low + 22 / 13 * (0.07 * e.high) := by rw [hm]; exact max_le (by linarith) (by linarith)
    have : (e.low - m) * ((t - 60) / 22) ≤ (m - e.low) * (5 / 22) := by nlinarith
    linarith
  · rw [Ends.cooling, if_pos (by unfold frF; linarith), line_cooling, toF_frF]
    have : (t - 82) / 13 * (e.high - e.low) ≤ 0 := mul_nonpos_of_nonneg_of_nonpos (by linarith) (by linarith)
    linarith

/-- Positive at 55 °F. -/
theorem ends_positive {e : Ends ℝ} (h0 : 0 < e.high) (h1 : e.high ≤ e.low) : 0 < e.cooling (frF 55) := by
  obtain ⟨m, hm, e1⟩ := ends_below (e := e) (t := 55) (by norm_num)
  rw [e1]
  have m1 : e.low ≤ m := by rw [hm]; exact le_max_of_le_left (by linarith)
  linarith

/-! ## C109 -/

/-- The net performance map of a unit whose tables follow such curves, for the plot. -/
theorem plot_map {mn mx : ℝ} (R : RatedTables (tableSpeeds st) net) (hF : ∀ s : Int, 1 ≤ s → s ≤ tableSpeeds st → Follows net s (c s))
    (hm : ∀ s : Int, 1 ≤ s → s ≤ tableSpeeds st → Margins (337.2 / u.ton) mn mx (c s)) (hl : ∀ s : Int, 1 ≤ s → s ≤ tableSpeeds st → Lines (c s)) :
    PlotMap u st net (coolSizes st c) (heatSizes st c) mn mx where
  cool i σ hσ t ht := by
    refine cool_at R hF (fun s h1 h2 => ?_) hσ
    have ht' : t ∈ [frF 60, frF 82, frF 95, mx] := by simpa [plotSpan] using ht
    exact ⟨(hm s h1 h2).coolingCapacity t ht', (hm s h1 h2).coolingPower t ht'⟩
  heat i σ hσ t ht := by
    refine heat_at R hF (fun s h1 h2 => ?_) hσ
    have m1 := (hm s h1 h2).heatingCapacity
    have m2 := (hm s h1 h2).heatingPower
    have ht' : t = mn ∨ t = frF 5 ∨ t = frF 17 ∨ t = frF 35 ∨ t = frF 47 ∨ t = frF 60 := by simpa [plotSpan] using ht
    by_cases h35 : t = frF 35
    · rw [h35, (hl s h1 h2).capacity35, (hl s h1 h2).power35]
      have a1 := m1 (frF 47) (by simp)
      have a2 := m1 (frF 17) (by simp)
      have b1 := m2 (frF 47) (by simp)
      have b2 := m2 (frF 17) (by simp)
      constructor <;> linarith
    · have : t ∈ [mn, frF 5, frF 17, frF 47, frF 60] := by simp only [List.mem_cons, List.not_mem_nil, or_false]; tauto
      exact ⟨m1 t this, m2 t this⟩

/-- C109: the plot of a unit whose tables follow such curves can be made. -/
theorem plot_returns {mn mx : ℝ} (hP : Published u E T sat) (hbr : BrentqSpec brentq) (h : build u E T brentq a = .ok B) (ht : a.tables = none) (hd : a.chargeDeviation = 0)
    (hM : Made u E a st net (coolSizes st c) (heatSizes st c) B) (hF : ∀ s : Int, 1 ≤ s → s ≤ tableSpeeds st → Follows net s (c s))
    (hm : ∀ s : Int, 1 ≤ s → s ≤ tableSpeeds st → Margins (337.2 / u.ton) mn mx (c s)) (hl : ∀ s : Int, 1 ≤ s → s ≤ tableSpeeds st → Lines (c s)) (hpos : ∀ q ∈ heatSizes st c, 0 < q)
    (hmn : B.heatingOff = mn) (hmx : B.coolingOff = mx) (hA : ∀ t ∈ [mn, frF 5, frF 17], ∃ o, Psych.init E.lib t E.atm [("rel_hum", 0.4)] = .ok o) (hmx' : UsualCooling mx) :
    ∃ cs, plot (B.report u E T brentq) = .ok cs := by
  have ht' : ∀ d, a.tables = some d → RatedTables (tableSpeeds B.core.st) d := fun d hd => by rw [ht] at hd; cases hd
  have R := built_rated h ht'
  rw [hM.tables, hM.staging] at R
  have hM' : Made u E a B.core.st B.core.net (coolSizes st c) (heatSizes st c) B := by rw [hM.tables, hM.staging]; exact hM
  obtain ⟨c1, c2⟩ := usual_cooling hmx'
  refine C109_resnet_published hP h ht' hbr hd hM' hpos (by rw [hmn]; exact hA) ?_ (by rw [hmx]; constructor <;> linarith) ?_
  · rw [hM.tables, hM.staging, hmn, hmx]; exact plot_map R hF hm hl
  · rw [hM.tables, hM.staging, hmx]
    intro i σ q hσ hq t htm Q hQ
    refine cool_le R hF (fun s h1 h2 => ?_) hσ hq hQ
    obtain ⟨e, e1, e2, e3, e4⟩ := (hl s h1 h2).cooling
    rw [e1, ends_cooling.2]
    refine ends_upper e2 e3 e4 ?_
    have htm : t = frF 60 ∨ t = frF 82 ∨ t = frF 95 ∨ t = mx := by simpa [plotSpan] using htm
    rcases htm with rfl | rfl | rfl | rfl
    · unfold frF; norm_num
    · unfold frF; norm_num
    · unfold frF; norm_num
    · rw [← toF_le, toF_frF]; linarith

/-! ## C114 -/

/-- The net performance map of a unit whose tables follow such curves, for the EnergyPlus file. -/
theorem file_map {mn : ℝ} (R : RatedTables (tableSpeeds st) net) (hF : ∀ s : Int, 1 ≤ s → s ≤ tableSpeeds st → Follows net s (c s))
    (hm : ∀ s : Int, 1 ≤ s → s ≤ tableSpeeds st → Margins (337.2 / u.ton) mn (frF 125) (c s)) (hl : ∀ s : Int, 1 ≤ s → s ≤ tableSpeeds st → Lines (c s))
    (h55 : ∀ s : Int, 1 ≤ s → s ≤ tableSpeeds st → 337.2 / u.ton * (c s).coolingCapacity (frF 95) < (c s).coolingPower (frF 55)) :
    FileMap u st net (coolSizes st c) (heatSizes st c) mn where
  cool i σ hσ t ht := by
    refine cool_at R hF (fun s h1 h2 => ?_) hσ
    by_cases h5 : t = 55
    · obtain ⟨e, e1, e2, e3, -⟩ := (hl s h1 h2).cooling
      rw [h5]
      exact ⟨by rw [e1]; exact ends_positive e2 e3, h55 s h1 h2⟩
    · have ht' : frF t ∈ [frF 60, frF 82, frF 95, frF (125 : ℝ)] := by
        simp only [List.mem_cons, List.not_mem_nil, or_false] at ht ⊢
        rcases ht with rfl | rfl | rfl | rfl | rfl
        · exact absurd rfl h5
        all_goals tauto
      exact ⟨(hm s h1 h2).coolingCapacity _ ht', (hm s h1 h2).coolingPower _ ht'⟩
  heat i σ hσ t ht := by
    refine heat_at R hF (fun s h1 h2 => ?_) hσ
    have ht' : frF t ∈ [mn, frF 5, frF 17, frF 47, frF 60] := by
      simp only [List.mem_cons, List.not_mem_nil, or_false] at ht ⊢
      rcases ht with rfl | rfl | rfl | rfl | rfl
      · exact .inl (frF_toF _)
      all_goals tauto
    exact ⟨(hm s h1 h2).heatingCapacity _ ht', (hm s h1 h2).heatingPower _ ht'⟩

/-- C114: the EnergyPlus file of a unit whose tables follow such curves can be written. -/
theorem file_returns {mn : ℝ} (hP : Published u E T sat) (hbr : BrentqSpec brentq) (harg : ∀ l, IsArgsort l (X.argsort l)) (h : build u E T brentq a = .ok B) (ht : a.tables = none)
    (ha1 : a.coolingPerCap = none) (ha2 : a.heatingPerCap = none) (hd : a.chargeDeviation = 0) (hon : a.heatingOn = none)
    (hM : Made u E a st net (coolSizes st c) (heatSizes st c) B)
    (hs : ∃ x y, (coolSizes st c)[fullIndex st]? = some x ∧ (heatSizes st c)[fullIndex st]? = some y ∧ RatedSizes (max x y) (coolSizes st c) ∧ RatedSizes (max x y) (heatSizes st c))
    (hF : ∀ s : Int, 1 ≤ s → s ≤ tableSpeeds st → Follows net s (c s)) (hm : ∀ s : Int, 1 ≤ s → s ≤ tableSpeeds st → Margins (337.2 / u.ton) mn (frF 125) (c s))
    (hl : ∀ s : Int, 1 ≤ s → s ≤ tableSpeeds st → Lines (c s))
    (h55 : ∀ s : Int, 1 ≤ s → s ≤ tableSpeeds st → 337.2 / u.ton * (c s).coolingCapacity (frF 95) < (c s).coolingPower (frF 55))
    (hmn : B.heatingOff = mn) (hA : FileAir E mn) (htf : ∀ p, ∃ x, X.timeFraction p = .ok x) (calls : List FileCall) (o : FileOptions) :
    ∃ s, (B.writeIdf u E T brentq X fmt o (after u E T brentq B calls)).1 = .ok s := by
  have ht' : ∀ d, a.tables = some d → RatedTables (tableSpeeds B.core.st) d := fun d hd => by rw [ht] at hd; cases hd
  have R := built_rated h ht'
  rw [hM.tables, hM.staging] at R
  have hM' : Made u E a B.core.st B.core.net (coolSizes st c) (heatSizes st c) B := by rw [hM.tables, hM.staging]; exact hM
  refine C114_published hP hbr harg h ht' ha1 ha2 hd hon hM' (by rw [hM.staging]; exact hs) (by rw [hmn]; exact hA) ?_ (fun _ => htf _) calls o
  rw [hM.tables, hM.staging, hmn]
  exact file_map R hF hm hl h55

/-- The air of the file, with air as published: what remains is the cold outdoor air and the air of the heating tables. -/
theorem file_air {mn : ℝ} (hP : Published u E T sat) (hA : ∀ t ∈ [mn, frF 5, frF 17], ∃ o, Psych.init E.lib t E.atm [("rel_hum", 0.4)] = .ok o)
    (hdry : ∀ t ∈ [(60 : ℝ), 70, 80], ∃ s rho, humid E t = .ok s ∧ rho ≠ 0 ∧ (Psych.getRho E.lib s).1 = .ok rho) : FileAir E mn where
  outdoor t ht := by
    have warm : ∀ f : ℝ, 32 ≤ f → f ≤ 140 → ∃ o, Psych.init E.lib (frF f) E.atm [("rel_hum", 0.4)] = .ok o := fun f h1 h2 => hP.outdoor h1 h2
    show ∃ s, Psych.init E.lib (frF t) E.atm [("rel_hum", 0.4)] = .ok s
    simp only [List.mem_cons, List.not_mem_nil, or_false] at ht
    rcases ht with rfl | rfl | rfl | rfl | rfl | rfl | rfl | rfl | rfl
    · exact warm _ (by norm_num) (by norm_num)
    · exact warm _ (by norm_num) (by norm_num)
    · exact warm _ (by norm_num) (by norm_num)
    · exact warm _ (by norm_num) (by norm_num)
    · exact warm _ (by norm_num) (by norm_num)
    · rw [frF_toF]; exact hA _ (by simp)
    · exact hA _ (by simp)
    · exact hA _ (by simp)
    · exact warm _ (by norm_num) (by norm_num)
  wet w hw := by
    have e80 := indoor80
    have hw' : 50 ≤ w ∧ w ≤ 80 := by
      simp only [List.mem_cons, List.not_mem_nil, or_false] at hw
      rcases hw with rfl | rfl | rfl <;> norm_num
    have ew : toC (frF w) = (w - 32) * 5 / 9 := by unfold toC frF; ring
    obtain ⟨x, hx⟩ := hP.air.humid (toC (frF 80)) (toC (frF w)) (by rw [ew]; linarith [hw'.1]) (by rw [ew, e80]; linarith [hw'.2]) (by rw [e80]; norm_num)
    obtain ⟨r, hr, hr'⟩ := hP.air.density (toC (frF 80)) x (by rw [e80]; norm_num) (by rw [e80]; norm_num)
    exact ⟨r, hr.ne', by rw [hP.lib]; exact wet_rho hx hr'⟩
  dry := hdry

/-! ## C119 -/

/-- Values at the outdoor temperatures of the map are no less than a value at 55, 60, 82, 95 or 125 °F, or between two of them. -/
theorem ends_map {e : Ends ℝ} {y t : ℝ} (h : ∀ x ∈ [frF 60, frF 82, frF 95, frF (125 : ℝ)], y < e.cooling x) (h55 : y < e.cooling (frF 55)) (ht : t ∈ 95 :: linspace4 (55 : ℝ) 125) : y < e.cooling (frF t) := by
  have cases : t = 95 ∨ t = 55 ∨ t = 235 / 3 ∨ t = 305 / 3 ∨ t = 125 := by
    rcases List.mem_cons.1 ht with rfl | ht
    · exact .inl rfl
    · obtain ⟨k, hk, rfl⟩ := linspace4_mem ht
      rcases (by omega : k = 0 ∨ k = 1 ∨ k = 2 ∨ k = 3) with rfl | rfl | rfl | rfl <;> norm_num
  rcases cases with rfl | rfl | rfl | rfl | rfl
  · exact h _ (by simp)
  · exact h55
  · obtain ⟨x, hx, hle⟩ := ends_notBelow (e := e) (t := frF (235 / 3)) (by unfold frF; norm_num) (by unfold frF; norm_num)
    refine lt_of_lt_of_le (h x ?_) hle
    simp only [List.mem_cons, List.not_mem_nil, or_false] at hx ⊢
    tauto
  · have a1 := h (frF 95) (by simp)
    have a2 := h (frF 125) (by simp)
    rw [Ends.cooling, if_pos (by unfold frF; norm_num), line_cooling, toF_frF] at a1 a2 ⊢
    linarith
  · exact h _ (by simp)

/-- The net performance map of a unit whose tables follow such curves, for the representation. -/
theorem map_net {mn : ℝ} (R : RatedTables (tableSpeeds st) net) (hF : ∀ s : Int, 1 ≤ s → s ≤ tableSpeeds st → Follows net s (c s))
    (hm : ∀ s : Int, 1 ≤ s → s ≤ tableSpeeds st → Margins (337.2 / u.ton) mn (frF 125) (c s)) (hl : ∀ s : Int, 1 ≤ s → s ≤ tableSpeeds st → Lines (c s))
    (h55 : ∀ s : Int, 1 ≤ s → s ≤ tableSpeeds st → 337.2 / u.ton * (c s).coolingCapacity (frF 95) < (c s).coolingPower (frF 55)) : MapNet u st net (coolSizes st c) := by
  intro i σ hσ t ht
  obtain ⟨Q, P, g1, g2, g3, g4⟩ := cool_at (x := frF t) (w := 337.2 / u.ton) R hF (fun s h1 h2 => by
    have m := hm s h1 h2
    obtain ⟨e, e1, e2, e3, -⟩ := (hl s h1 h2).cooling
    obtain ⟨e', e1'⟩ := (hl s h1 h2).power
    have mc := m.coolingCapacity
    have mp := m.coolingPower
    have m55 := h55 s h1 h2
    rw [e1'] at mp m55
    rw [e1] at mc
    refine ⟨?_, ?_⟩
    · rw [e1]; exact ends_map mc (ends_positive e2 e3) ht
    · rw [e1']; exact ends_map mp m55 ht) hσ
  exact ⟨Q, P, g1, g2.le, g3, g4⟩

/-- C119: the representation of a unit whose tables follow such curves can be generated. -/
theorem map_returns {mn : ℝ} {argsort : List ℝ → List Nat} {A : Attributes ℝ} (hP : Published u E T sat) (hbr : BrentqSpec brentq) (harg : ∀ l, IsArgsort l (argsort l))
    (h : build u E T brentq a = .ok B) (ht : a.tables = none) (ha1 : a.coolingPerCap = none) (ha2 : a.heatingPerCap = none) (hM : Made u E a st net (coolSizes st c) (heatSizes st c) B)
    (hs : ∃ x y, (coolSizes st c)[fullIndex st]? = some x ∧ (heatSizes st c)[fullIndex st]? = some y ∧ RatedSizes (max x y) (coolSizes st c) ∧ RatedSizes (max x y) (heatSizes st c))
    (hF : ∀ s : Int, 1 ≤ s → s ≤ tableSpeeds st → Follows net s (c s)) (hm : ∀ s : Int, 1 ≤ s → s ≤ tableSpeeds st → Margins (337.2 / u.ton) mn (frF 125) (c s))
    (hl : ∀ s : Int, 1 ≤ s → s ≤ tableSpeeds st → Lines (c s))
    (h55 : ∀ s : Int, 1 ≤ s → s ≤ tableSpeeds st → 337.2 / u.ton * (c s).coolingCapacity (frF 95) < (c s).coolingPower (frF 55)) (hrho : 0 < E.rhoStd) (hn : A.nCooling = speedCount st)
    {q0 qn : ℝ} (h0 : (coolSizes st c)[0]? = some q0) (hlast : (coolSizes st c).getLast? = some qn) (hq0 : qn ≤ q0) (hqn : ∀ q ∈ coolSizes st c, q ≤ 2.99 * qn) (hA : MapAir E)
    (hsens : ∀ tOut ∈ linspace4 (55 : ℝ) 125, ∀ rh ∈ linspace4 (0 : ℝ) 1, ∀ tIn ∈ linspace4 (65 : ℝ) 90, ∀ p ∈ linspace4 (57226.508 : ℝ) 106868.78, ∀ m i c, 0 < m → i < speedCount st →
      gridCondition E B.sys (frF tOut) rh (frF tIn) m i p = .ok c → (∃ q, (B.unit u E T brentq).grossTotalCoolingCapacity (some c) = .ok q ∧ 0 < q) →
      ∃ x, (B.unit u E T brentq).grossSensibleCoolingCapacity (some c) = .ok x) :
    ∃ r, representation u E B.sys (B.unit u E T brentq) A (ResnetFan.fanRepresentation u brentq argsort B.core.psc B.core.fan) = .ok r := by
  have ht' : ∀ d, a.tables = some d → RatedTables (tableSpeeds B.core.st) d := fun d hd => by rw [ht] at hd; cases hd
  have R := built_rated h ht'
  rw [hM.tables, hM.staging] at R
  have hM' : Made u E a B.core.st B.core.net (coolSizes st c) (heatSizes st c) B := by rw [hM.tables, hM.staging]; exact hM
  refine C119_with_fan hbr harg h ht' ha1 ha2 hM' (by rw [hM.staging]; exact hs) hrho (by rw [hn, hM.staging]) h0 hlast hq0 hqn hA ?_ (by rw [hM.staging]; exact hsens) ?_
  · rw [hM.tables, hM.staging]; exact map_net R hF hm hl h55
  · obtain ⟨x, y, hx, -⟩ := hs
    obtain ⟨-, c', z, hc', hz, -⟩ := C102_published (brentq := brentq) hP h hM hx (full_lt _)
    obtain ⟨_, _, _, _, rc, _, -, -, -, -, -, -, -, hcore, -, hpts, -⟩ := build_ok h
    have est : B.core.rc = rc := by
      unfold core at hcore
      simp only [bind_eq_ok, pure_eq_ok, Except.ok.injEq] at hcore
      obtain ⟨_, -, _, -, _, -, ⟨_, _, _⟩, -, _, -, _, -, _, -, _, -, _, -, _, -, _, -, h12⟩ := hcore
      rw [← h12]
    have pA := (full_points hpts).1
    rw [← est, hM.full.1] at pA
    have pA' : B.sys.makeCondition E false (fullIndex st) = .ok B.points.aFull := pA
    rw [hc'] at pA'; cases pA'
    exact ⟨z, hz⟩

/-- With air as published the stored size of the coil is positive at every speed. -/
theorem ntu_published {qc qh : List ℝ} (hP : Published u E T sat) (h : build u E T brentq a = .ok B) (hM : Made u E a st net qc qh B) {i : Nat} {q : ℝ} (hi : qc[i]? = some q) (hn : i < speedCount st) :
    ∃ n, 0 < n ∧ B.coil.ntu[i]? = some (some n) := by
  obtain ⟨q0, c, t, hc, hg, t1, t2⟩ := hM.grossRated i q hi
  obtain ⟨c', s, t', bf, n, h1, h2, h3, h4, -, h6, wb, v, r1, r2, r3⟩ := coil_stored h (by rw [hM.staging]; exact hn)
  have hmade : B.sys.makeCondition E false i = .ok c := hc.made
  rw [hmade] at h1; cases h1
  have hgt : (B.unit u E T brentq).grossTotalCoolingCapacity (some c) = .ok t := grossTotal_returns hM.charge hg (by linarith)
  simp only [hgt] at h2
  cases h2
  have t0 : 0 < t := q0.trans t1
  have hcf := u.cfm_pos
  have hto := u.ton_pos
  have hrho := hP.rho
  have hwb : wb = frF 67 := by
    have : (Psych.getWb c.indoor).1 = .ok (frF (67 : ℝ)) := by rw [hc.indoor]; rfl
    rw [this] at r1; exact (Except.ok.inj r1).symm
  have hv : v * u.ton / u.cfm = 400 := by
    rw [hc.perCap] at r2; cases r2
    field_simp
  have hs : s = ratedShr := by
    have e1 : c.outdoor.db = frF 95 := by rw [hc.outdoor]; rfl
    have e2 : c.indoor.db = frF 80 := by rw [hc.indoor]; rfl
    rw [hwb, hv, e1, e2, shrAt_rated] at r3
    exact (Except.ok.inj r3).symm
  subst hs
  have hle : t ≤ 1.2 * q := by
    refine t2.trans (mul_le_mul_of_nonneg_right ?_ q0.le)
    have : 337.2 / u.ton ≤ 0.2 := by rw [div_le_iff₀ hto]; have := hP.ton; linarith
    linarith
  obtain ⟨w, sl, tA, bf', ntu, F⟩ := coil_found hP.air hP.newton hP.flow q0 t0 hle hc.indoor hc.mass
  have hF := F.stored
  rw [h3] at hF
  obtain ⟨rfl, rfl⟩ := Prod.mk.inj (Except.ok.inj hF)
  refine ⟨n, ?_, h6⟩
  have hm0 : 0 < q * (400 * u.cfm / u.ton) * E.rhoStd := by positivity
  have hb := F.bypass
  have hf := F.flow
  have hd := F.drop
  generalize q * (400 * u.cfm / u.ton) * E.rhoStd = m at *
  simp only [DX.bypassFactor, pdiv_ok hm0.ne', bind_ok, pure_eq_ok, Except.ok.injEq] at hb
  have hdrop : 0 < t / (m * (1 - bf)) := by
    rw [hd, F.line]
    unfold airEnthalpy
    obtain ⟨d1, d2⟩ := F.dew
    obtain ⟨w1, w2⟩ := F.humid
    obtain ⟨s1, s2⟩ := F.slope
    have k0 : 0 ≤ sl * (26 + 2 / 3 - tA) := mul_nonneg (by linarith) (by linarith)
    have k1 : (w - sl * (26 + 2 / 3 - tA)) * (2501000 + 1860 * tA) ≤ w * (2501000 + 1860 * tA) := mul_le_mul_of_nonneg_right (by linarith) (by linarith)
    have k2 : w * (2501000 + 1860 * tA) ≤ w * (2501000 + 1860 * (26 + 2 / 3)) := mul_le_mul_of_nonneg_left (by linarith) (by linarith)
    linarith
  have hpos : 0 < m * (1 - bf) := (div_pos_iff_of_pos_left t0).1 hdrop
  have hb1 : bf < 1 := by have := pos_of_mul_pos_right hpos hm0.le; linarith
  rw [← hb, Real.exp_lt_one_iff] at hb1
  by_contra hneg
  have : 0 ≤ -n / m := div_nonneg (by linarith) hm0.le
  linarith

/-- The coil calculation returns at a point of the map, if the root finder and the library return for the indoor air and every lower enthalpy. -/
theorem sens_returns {n m p rh tOut tIn q : ℝ} {i : Nat} {c : Conditions ℝ} (hn0 : 0 < n) (hn : B.coil.ntu[i]? = some (some n)) (m0 : 0 < m)
    (hc : gridCondition E B.sys tOut rh tIn m i p = .ok c) (hq : (B.unit u E T brentq).grossTotalCoolingCapacity (some c) = .ok q) (hq0 : 0 < q)
    (hair : ∀ si, Psych.init E.lib tIn p [("rel_hum", rh)] = .ok si → ∃ hIn, (Psych.getH T.lib si).1 = .ok hIn ∧ ∀ y < hIn, ∃ t w h,
      T.newton (fun t => do return (← T.coil.satAirEnthalpy t si.p) - y) si.dbC = .ok t ∧ T.coil.satHumRatio t si.p = .ok w ∧ T.lib.moistAirEnthalpy si.dbC w = .ok h ∧ y ≤ h) :
    ∃ x, (B.unit u E T brentq).grossSensibleCoolingCapacity (some c) = .ok x := by
  simp only [gridCondition, bind_eq_ok, pure_eq_ok, Except.ok.injEq] at hc
  obtain ⟨so, -, si, hsi, c0, hc0, f, hf, rfl⟩ := hc
  obtain ⟨rho, pr, v, cap, fs, k1, k2, k3, k4, -, -, -, ⟨full, -, -, rfl⟩, -, rfl⟩ := Sys.makeCondition_spec E B.sys false _ _ _ _ hc0
  have hf' := C10_setMassAirflow_effect (ratedFlow rho E.rhoStd i fs (B.sys.fullESP * (v / full) ^ 2) v cap) m (v * E.rhoStd) cap 1 (B.sys.fullESP * (v / full) ^ 2) rfl rfl rfl rfl rfl m0.ne' k1 k2 k4
  simp only [PyM.exec, hf'] at hf
  have hm : f.mass = some m := by rw [← Except.ok.inj hf]
  have hsp : f.compressorSpeed = i := by rw [← Except.ok.inj hf]; rfl
  obtain ⟨hIn, hind, hfind⟩ := hair si hsi
  set bf : ℝ := Real.exp (-n / m) with hbf
  have hb1 : bf < 1 := by
    rw [hbf, Real.exp_lt_one_iff]
    exact div_neg_of_neg_of_pos (by linarith) m0
  generalize hcc : (⟨false, (some si).getD (defaultIndoor E false), (some so).getD (defaultOutdoor E false), f⟩ : Conditions ℝ) = c at hq
  have hin : c.indoor = si := by rw [← hcc]; rfl
  have hfl : c.flow = f := by rw [← hcc]
  have e2 : Coil.bypass B.coil.ntu c = .ok bf := by
    simp only [Coil.bypass, Sys.at_, hfl, hsp, pyGet, hn, bind_ok, pyNum, hm, pyAttr, DX.bypassFactor, pdiv_ok m0.ne', pure_eq_ok]
    rfl
  have z1 : 0 < m * (1 - bf) := mul_pos m0 (by linarith)
  have z2 : 0 < q / (m * (1 - bf)) := div_pos hq0 z1
  obtain ⟨t, w, h, g1, g2, g3, g4⟩ := hfind (hIn - q / (m * (1 - bf))) (by linarith)
  refine ⟨q * (h - (hIn - q / (m * (1 - bf)))) / (hIn - (hIn - q / (m * (1 - bf)))), DX.Performance.grossSensible_eq_ok.2 ⟨?_, ?_⟩⟩
  · show (B.unit u E T brentq).sensible c = _
    have e3 : (B.unit u E T brentq).sensible c = Coil.sensibleFrom T c ((B.unit u E T brentq).grossTotalCoolingCapacity (some c)) (Coil.bypass B.coil.ntu c) := rfl
    rw [e3, hq, e2]
    simp only [Coil.sensibleFrom, bind_ok, hin, hind, hfl, hm, pyAttr, pdiv_ok z1.ne', g1, g2, g3]
    exact pdiv_ok (by rw [sub_sub_cancel]; exact z2.ne')
  · rw [sub_sub_cancel]
    exact div_nonneg (mul_nonneg hq0.le (by linarith)) z2.le

/-! ## Units from their ratings -/

/-- Default airflows, nameplate charge, and a COP for each mode among the arguments. -/
structure UsualArgs (a : Args) : Prop where
  tables : a.tables = none
  coolingFlow : a.coolingPerCap = none
  heatingFlow : a.heatingPerCap = none
  charge : a.chargeDeviation = 0
  coolingCop : a.hasNetCoolingCop = true ∨ a.hasGrossCoolingCop = true
  heatingCop : a.netHeatingCop.isSome ∨ a.hasGrossHeatingCop = true

theorem UsualArgs.surroundings {qc : List ℝ} (D : UsualArgs a) (hP : Published u E T sat) (hbr : BrentqSpec brentq) (hq : ∀ q ∈ qc, 0 < q) : Surroundings u E T brentq a st qc :=
  C90_published hP hbr D.coolingFlow D.heatingFlow D.charge D.coolingCop D.heatingCop hq

/-- The off temperatures of a unit. -/
theorem built_off (h : build u E T brentq a = .ok B) (hst : a.staging = some st) : B.heatingOff = lowestTemperature a st ∧ B.coolingOff = a.coolingOff := by
  obtain ⟨_, _, _, _, _, _, h1, -, -, -, h2, -, -, -, -, -, -, -, h3, -⟩ := build_ok h
  rw [hst] at h1
  cases h1
  exact ⟨h2.trans (offTemperature_eq _), h3⟩

/-- The power at 55 °F is at least that on the line through 82 and 95 °F, and at least 38 % of that at 82 °F. -/
theorem ends_55 (e : Ends ℝ) : e.low - 27 / 13 * (e.high - e.low) ≤ e.cooling (frF 55) ∧ 8.5 / 22 * e.low ≤ e.cooling (frF 55) := by
  obtain ⟨m, hm, e1⟩ := ends_below (e := e) (t := 55) (by norm_num)
  rw [e1]
  have m1 : e.low - 22 / 13 * (e.high - e.low) ≤ m := by rw [hm]; exact le_max_left _ _
  have m2 : e.low / 2 ≤ m := by rw [hm]; exact le_max_right _ _
  constructor <;> linarith

/-! ### Single stage -/

/-- Ranges of the ratings of a single-stage unit: those of `C90_single_range`. -/
structure UsualSingle (u : Units ℝ) (a : Args) (q95 seer2 eer2 : ℝ) : Prop where
  usual : UsualUnits u
  staging : a.staging = some .single
  cooling : a.cooling = .num q95
  size : 0 < q95
  seer : a.seer = some seer2
  eer : inputEer a = some eer2
  eer_pos : 0 < eer2
  seer_ge : eer2 ≤ seer2
  seer_le : seer2 ≤ 16.5
  cycling : 0 ≤ cd a.cdCooling ∧ cd a.cdCooling ≤ 0.25
  hspf : a.netHeatingCop.isSome ∨ a.hspf.isSome
  comparable : Comparable q95 (ratedHeating u a .single q95)
  hottest : UsualCooling a.coolingOff
  heating : UsualHeating 5 0 (ratedHeating u a .single q95) (heating17 (ratedHeating u a .single q95) a.heating17) (heatingCop (a.hspf.getD 0) a.netHeatingCop) (lowestTemperature a .single)

/-- The curves of its tables. -/
noncomputable def singleOf (u : Units ℝ) (a : Args) (q95 seer2 eer2 : ℝ) : Curves ℝ :=
  singleCurves u.btuh q95 seer2 eer2 (ratedHeating u a .single q95) a.heating17 (a.hspf.getD 0) a.netHeatingCop (cd a.cdCooling)

theorem single_lines {q95 seer2 eer2 : ℝ} (h : 0 < q95) : Lines (singleOf u a q95 seer2 eer2) :=
  ⟨heating_35 _, heating_35 _, ⟨_, rfl, h, by unfold capacity82; linarith, by unfold capacity82; linarith⟩, ⟨_, rfl⟩⟩

theorem one_speed {P : Int → Prop} (h : P 1) : ∀ s : Int, 1 ≤ s → s ≤ (tableSpeeds .single : Int) → P s := by
  intro s h1 h2
  obtain rfl : s = 1 := le_antisymm h2 h1
  exact h

theorem single_sizes {q95 seer2 eer2 : ℝ} (H : UsualSingle u a q95 seer2 eer2) : coolSizes .single (fun _ => singleOf u a q95 seer2 eer2) = [q95] ∧
    heatSizes .single (fun _ => singleOf u a q95 seer2 eer2) = [ratedHeating u a .single q95] ∧
    ∃ x y, (coolSizes .single (fun _ => singleOf u a q95 seer2 eer2))[fullIndex .single]? = some x ∧ (heatSizes .single (fun _ => singleOf u a q95 seer2 eer2))[fullIndex .single]? = some y ∧ RatedSizes (max x y) (coolSizes .single (fun _ => singleOf u a q95 seer2 eer2)) ∧ RatedSizes (max x y) (heatSizes .single (fun _ => singleOf u a q95 seer2 eer2)) := by
  have e1 : coolSizes .single (fun _ => singleOf u a q95 seer2 eer2) = [q95] := by simp [coolSizes, speedsOf, singleOf, singleCurves, ends_cooling]
  have e2 : heatSizes .single (fun _ => singleOf u a q95 seer2 eer2) = [ratedHeating u a .single q95] := by simp [heatSizes, speedsOf, singleOf, singleCurves, ends_heating, fullHeatingCapacity]
  have h95 := H.size
  have h47 := H.heating.rated
  refine ⟨e1, e2, ?_⟩
  rw [e1, e2]
  refine ⟨q95, _, rfl, rfl, ratedSizes_of h95 (le_max_left _ _) ?_ (by simp) ?_, ratedSizes_of h47 (le_max_right _ _) ?_ (by simp) ?_⟩
  · intro x hx; simp only [List.mem_cons, List.not_mem_nil, or_false] at hx; subst hx; constructor <;> linarith
  · rintro x hx; cases hx; exact sizes_max h95 h47 H.comparable le_rfl
  · intro x hx; simp only [List.mem_cons, List.not_mem_nil, or_false] at hx; subst hx; constructor <;> linarith
  · rintro x hx; cases hx; exact sizes_max' h95 h47 H.comparable le_rfl

/-- The power at 55 °F leaves room for the fan power if SEER2 is at most 14.6 times one less half of the cycling coefficient. -/
theorem single_mild {q95 seer2 eer2 : ℝ} (H : UsualSingle u a q95 seer2 eer2) (hmild : seer2 ≤ 14.6 * (1 - cd a.cdCooling / 2)) :
    337.2 / u.ton * (singleOf u a q95 seer2 eer2).coolingCapacity (frF 95) < (singleOf u a q95 seer2 eer2).coolingPower (frF 55) := by
  have h95 := H.size
  have hbt := u.btuh_pos
  have hs0 : 0 < seer2 := H.eer_pos.trans_le H.seer_ge
  have hw := usual_fan H.usual
  show 337.2 / u.ton * Ends.cooling ⟨q95 * capacity82, q95⟩ (frF 95) < Ends.cooling ⟨q95 * capacity82 / (seer2 * u.btuh) * (1 - cd a.cdCooling / 2), q95 / (eer2 * u.btuh)⟩ (frF 55)
  rw [ends_cooling.2]
  refine lt_of_lt_of_le ?_ (ends_55 _).2
  show _ < 8.5 / 22 * (q95 * capacity82 / (seer2 * u.btuh) * (1 - cd a.cdCooling / 2))
  refine (mul_lt_mul_of_pos_right hw h95).trans ?_
  generalize 1 - cd a.cdCooling / 2 = k at *
  rw [show 8.5 / 22 * (q95 * capacity82 / (seer2 * u.btuh) * k) = 8.5 / 22 * (q95 * capacity82 * k) / (seer2 * u.btuh) by ring, lt_div_iff₀ (by positivity)]
  have k1 : seer2 * u.btuh ≤ 14.6 * k * 0.2931 := mul_le_mul hmild H.usual.btuh hbt.le (by linarith)
  have k0 : 0 < k := by linarith
  have k2 : 0.096 * q95 * (seer2 * u.btuh) ≤ 0.096 * q95 * (14.6 * k * 0.2931) := mul_le_mul_of_nonneg_left k1 (by positivity)
  have k3 : 0 < q95 * k := by positivity
  unfold capacity82
  linarith

theorem single_made {q95 seer2 eer2 : ℝ} (H : UsualSingle u a q95 seer2 eer2) (D : UsualArgs a) (hP : Published u E T sat) (hbr : BrentqSpec brentq) :
    ∃ B net, build u E T brentq a = .ok B ∧ Made u E a .single net (coolSizes .single fun _ => singleOf u a q95 seer2 eer2) (heatSizes .single fun _ => singleOf u a q95 seer2 eer2) B ∧
      Follows net 1 (singleOf u a q95 seer2 eer2) := by
  obtain ⟨B, net, h, hM, hF⟩ := C90_single_range H.usual D.tables H.staging H.cooling H.seer H.eer H.hspf H.eer_pos H.seer_ge H.seer_le H.cycling H.size H.comparable H.hottest H.heating
    (D.surroundings (brentq := brentq) hP hbr (by simpa using H.size))
  obtain ⟨e1, e2, -⟩ := single_sizes H
  exact ⟨B, net, h, by rw [e1, e2]; exact hM, hF⟩

/-- C109, from the ratings of a single-stage unit to its plot: within the ranges of `C90_single_range` and with air as published, the unit can be made and its plot too, if the library evaluates the
cold outdoor air of the plot. -/
theorem C109_single_ratings {q95 seer2 eer2 : ℝ} (H : UsualSingle u a q95 seer2 eer2) (D : UsualArgs a) (hP : Published u E T sat) (hbr : BrentqSpec brentq)
    (hA : ∀ t ∈ [lowestTemperature a .single, frF 5, frF 17], ∃ o, Psych.init E.lib t E.atm [("rel_hum", 0.4)] = .ok o) :
    ∃ B, build u E T brentq a = .ok B ∧ ∃ cs, plot (B.report u E T brentq) = .ok cs := by
  obtain ⟨B, net, h, hM, hF⟩ := single_made H D hP hbr
  obtain ⟨e1, e2, -⟩ := single_sizes H
  obtain ⟨o1, o2⟩ := built_off h H.staging
  exact ⟨B, h, plot_returns hP hbr h D.tables D.charge hM (one_speed hF) (one_speed (single_margins H.usual H.eer_pos H.seer_ge H.seer_le H.cycling H.size H.hottest H.heating))
    (one_speed (single_lines H.size)) (by rw [e2]; simpa using H.heating.rated) o1 o2 hA H.hottest⟩

theorem hottest125 : UsualCooling (frF 125) := ⟨by rw [frF_lt]; norm_num, le_refl _⟩

/-- C114, from the ratings of a single-stage unit to its EnergyPlus file: within the ranges of `C90_single_range`, with air as published and a SEER2 of at most 14.6 times one less half of the cycling
coefficient, which leaves room for the fan power at 55 °F, the unit can be made and its file can be written with every option and after every history. -/
theorem C114_single_ratings {q95 seer2 eer2 : ℝ} (H : UsualSingle u a q95 seer2 eer2) (D : UsualArgs a) (hon : a.heatingOn = none) (hmild : seer2 ≤ 14.6 * (1 - cd a.cdCooling / 2))
    (hP : Published u E T sat) (hbr : BrentqSpec brentq) (harg : ∀ l, IsArgsort l (X.argsort l)) (htf : ∀ p, ∃ x, X.timeFraction p = .ok x) (hA : FileAir E (lowestTemperature a .single)) :
    ∃ B, build u E T brentq a = .ok B ∧ ∀ (fmt : ℝ → Nat → String) calls o, ∃ s, (B.writeIdf u E T brentq X fmt o (after u E T brentq B calls)).1 = .ok s := by
  obtain ⟨B, net, h, hM, hF⟩ := single_made H D hP hbr
  obtain ⟨o1, o2⟩ := built_off h H.staging
  exact ⟨B, h, fun fmt calls o => file_returns hP hbr harg h D.tables D.coolingFlow D.heatingFlow D.charge hon hM (single_sizes H).2.2 (one_speed hF)
    (one_speed (single_margins H.usual H.eer_pos H.seer_ge H.seer_le H.cycling H.size hottest125 H.heating)) (one_speed (single_lines H.size)) (one_speed (single_mild H hmild)) o1 hA htf calls o⟩

/-- C119, from the ratings of a single-stage unit to its ASHRAE 205 representation: within the ranges of `C114_single_ratings`, the unit can be made and its representation can be generated, if the air
of the map can be evaluated and the coil calculation returns at the points of the map. -/
theorem C119_single_ratings {q95 seer2 eer2 : ℝ} (H : UsualSingle u a q95 seer2 eer2) (D : UsualArgs a) (hmild : seer2 ≤ 14.6 * (1 - cd a.cdCooling / 2))
    (hP : Published u E T sat) (hbr : BrentqSpec brentq) {argsort : List ℝ → List Nat} (harg : ∀ l, IsArgsort l (argsort l)) (hrho : 0 < E.rhoStd) (hA : MapAir E)
    (hsens : ∀ B, build u E T brentq a = .ok B → ∀ tOut ∈ linspace4 (55 : ℝ) 125, ∀ rh ∈ linspace4 (0 : ℝ) 1, ∀ tIn ∈ linspace4 (65 : ℝ) 90, ∀ p ∈ linspace4 (57226.508 : ℝ) 106868.78, ∀ m i c,
      0 < m → i < speedCount .single → gridCondition E B.sys (frF tOut) rh (frF tIn) m i p = .ok c → (∃ q, (B.unit u E T brentq).grossTotalCoolingCapacity (some c) = .ok q ∧ 0 < q) →
      ∃ x, (B.unit u E T brentq).grossSensibleCoolingCapacity (some c) = .ok x) :
    ∃ B, build u E T brentq a = .ok B ∧ ∀ A : Attributes ℝ, A.nCooling = speedCount .single →
      ∃ r, representation u E B.sys (B.unit u E T brentq) A (ResnetFan.fanRepresentation u brentq argsort B.core.psc B.core.fan) = .ok r := by
  obtain ⟨B, net, h, hM, hF⟩ := single_made H D hP hbr
  obtain ⟨e1, -⟩ := single_sizes H
  have h95 := H.size
  exact ⟨B, h, fun A hn => map_returns hP hbr harg h D.tables D.coolingFlow D.heatingFlow hM (single_sizes H).2.2 (one_speed hF)
    (one_speed (single_margins H.usual H.eer_pos H.seer_ge H.seer_le H.cycling H.size hottest125 H.heating)) (one_speed (single_lines H.size)) (one_speed (single_mild H hmild)) hrho hn
    (q0 := q95) (qn := q95) (by rw [e1]; rfl) (by rw [e1]; rfl) le_rfl (by rw [e1]; simp; linarith) hA (hsens B h)⟩

/-! ### Two stages -/

/-- Ranges of the ratings of a two-stage unit: those of `C90_two_range`. -/
structure UsualTwo (u : Units ℝ) (a : Args) (q95 eer2 : ℝ) : Prop where
  usual : UsualUnits u
  staging : a.staging = some .two
  cooling : a.cooling = .num q95
  size : 0 < q95
  seer : a.cop82.isSome ∨ a.seer.isSome
  eer : inputEer a = some eer2
  eer_pos : 0 < eer2
  eer_le : eer2 ≤ 22
  low : 0 < a.cop82.getD (a.seer.getD 0 / 2)
  low_le : a.cop82.getD (a.seer.getD 0 / 2) ≤ 8
  hspf : a.netHeatingCop.isSome ∨ a.hspf.isSome
  comparable : Comparable q95 (ratedHeating u a .two q95)
  hottest : UsualCooling a.coolingOff
  heating : UsualHeating 4.3 0 (ratedHeating u a .two q95) (heating17 (ratedHeating u a .two q95) a.heating17) (heatingCop (a.hspf.getD 0) a.netHeatingCop) (lowestTemperature a .two)

/-- The curves of its tables. -/
noncomputable def twoOf (u : Units ℝ) (a : Args) (q95 eer2 : ℝ) (s : Int) : Curves ℝ :=
  if s = 1 then lowCurves q95 (a.seer.getD 0) (ratedHeating u a .two q95) a.heating17 (a.hspf.getD 0) a.cop82 a.netHeatingCop
  else highCurves u.btuh q95 eer2 (ratedHeating u a .two q95) a.heating17 (a.hspf.getD 0) a.netHeatingCop

theorem two_speeds {q95 eer2 : ℝ} {P : Int → Curves ℝ → Prop} (h1 : P 1 (lowCurves q95 (a.seer.getD 0) (ratedHeating u a .two q95) a.heating17 (a.hspf.getD 0) a.cop82 a.netHeatingCop))
    (h2 : P 2 (highCurves u.btuh q95 eer2 (ratedHeating u a .two q95) a.heating17 (a.hspf.getD 0) a.netHeatingCop)) :
    ∀ s : Int, 1 ≤ s → s ≤ (tableSpeeds .two : Int) → P s (twoOf u a q95 eer2 s) := by
  intro s g1 g2
  have g3 : (tableSpeeds .two : Int) = 2 := rfl
  obtain rfl | rfl : s = 1 ∨ s = 2 := by omega
  · exact h1
  · exact h2

theorem two_lines {q95 eer2 : ℝ} (h : 0 < q95) : ∀ s : Int, 1 ≤ s → s ≤ (tableSpeeds .two : Int) → Lines (twoOf u a q95 eer2 s) :=
  two_speeds (P := fun _ c => Lines c)
    ⟨heating_35 _, heating_35 _, ⟨_, rfl, by show 0 < q95 * 0.728; linarith, by show q95 * 0.728 ≤ q95 * capacity82 * 0.728; unfold capacity82; linarith,
      by show q95 * capacity82 * 0.728 ≤ 1.07 * (q95 * 0.728); unfold capacity82; linarith⟩, ⟨_, rfl⟩⟩
    ⟨heating_35 _, heating_35 _, ⟨_, rfl, h, by unfold capacity82; linarith, by unfold capacity82; linarith⟩, ⟨_, rfl⟩⟩

theorem two_sizes {q95 eer2 : ℝ} (H : UsualTwo u a q95 eer2) : coolSizes .two (twoOf u a q95 eer2) = [q95, q95 * 0.728] ∧
    heatSizes .two (twoOf u a q95 eer2) = [ratedHeating u a .two q95, ratedHeating u a .two q95 * 0.712] ∧
    ∃ x y, (coolSizes .two (twoOf u a q95 eer2))[fullIndex .two]? = some x ∧ (heatSizes .two (twoOf u a q95 eer2))[fullIndex .two]? = some y ∧ RatedSizes (max x y) (coolSizes .two (twoOf u a q95 eer2)) ∧ RatedSizes (max x y) (heatSizes .two (twoOf u a q95 eer2)) := by
  have e1 : coolSizes .two (twoOf u a q95 eer2) = [q95, q95 * 0.728] := by simp [coolSizes, speedsOf, twoOf, highCurves, lowCurves, ends_cooling]
  have e2 : heatSizes .two (twoOf u a q95 eer2) = [ratedHeating u a .two q95, ratedHeating u a .two q95 * 0.712] := by
    simp [heatSizes, speedsOf, twoOf, highCurves, lowCurves, ends_heating, fullHeatingCapacity, Ends.times]
  have h95 := H.size
  have h47 := H.heating.rated
  have hsize := H.comparable
  refine ⟨e1, e2, ?_⟩
  rw [e1, e2]
  generalize ratedHeating u a .two q95 = q47 at *
  refine ⟨q95, q47, rfl, rfl, ratedSizes_of h95 (le_max_left _ _) ?_ ?_ ?_, ratedSizes_of h47 (le_max_right _ _) ?_ ?_ ?_⟩
  · intro x hx; simp only [List.mem_cons, List.not_mem_nil, or_false] at hx; rcases hx with rfl | rfl <;> constructor <;> linarith
  · simp; linarith
  · rintro x hx; cases hx; exact sizes_max h95 h47 hsize le_rfl
  · intro x hx; simp only [List.mem_cons, List.not_mem_nil, or_false] at hx; rcases hx with rfl | rfl <;> constructor <;> linarith
  · simp; linarith
  · rintro x hx; cases hx; exact sizes_max' h95 h47 hsize le_rfl

/-- The powers at 55 °F leave room for the fan power if EER2 is at most 20 and the low-stage COP at 82 °F at most 7.3. -/
theorem two_mild {q95 eer2 : ℝ} (H : UsualTwo u a q95 eer2) (hmild : eer2 ≤ 20) (hmild' : a.cop82.getD (a.seer.getD 0 / 2) ≤ 7.3) : ∀ s : Int, 1 ≤ s → s ≤ (tableSpeeds .two : Int) →
    337.2 / u.ton * (twoOf u a q95 eer2 s).coolingCapacity (frF 95) < (twoOf u a q95 eer2 s).coolingPower (frF 55) := by
  have h95 := H.size
  have hbt := u.btuh_pos
  have heer := H.eer_pos
  have hc0 := H.low
  have hw := usual_fan H.usual
  refine two_speeds (P := fun _ c => 337.2 / u.ton * c.coolingCapacity (frF 95) < c.coolingPower (frF 55)) ?_ ?_
  · simp only [lowCurves, ends_cooling.2]
    refine lt_of_lt_of_le ?_ (ends_55 _).1
    generalize a.cop82.getD (a.seer.getD 0 / 2) = k at *
    refine (mul_lt_mul_of_pos_right hw (by linarith)).trans ?_
    show 0.096 * (q95 * 0.728) < q95 * capacity82 * 0.728 / k - 27 / 13 * (q95 * capacity82 * 0.728 / k / (capacity82 * input82) - q95 * capacity82 * 0.728 / k)
    have e : q95 * capacity82 * 0.728 / k - 27 / 13 * (q95 * capacity82 * 0.728 / k / (capacity82 * input82) - q95 * capacity82 * 0.728 / k) =
        q95 * 0.728 / k * (capacity82 - 27 / 13 * (1 / input82 - capacity82)) := by unfold capacity82 input82; ring
    have n : 0.7048 ≤ (capacity82 - 27 / 13 * (1 / input82 - capacity82) : ℝ) := by unfold capacity82 input82; norm_num
    rw [e]
    have d : q95 * 0.728 / 7.3 ≤ q95 * 0.728 / k := div_le_div_of_nonneg_left (by positivity) hc0 hmild'
    have d0 : 0 < q95 * 0.728 / k := by positivity
    have : q95 * 0.728 / k * 0.7048 ≤ q95 * 0.728 / k * (capacity82 - 27 / 13 * (1 / input82 - capacity82)) := mul_le_mul_of_nonneg_left n d0.le
    have d1 : q95 * 0.728 / 7.3 * 0.7048 ≤ q95 * 0.728 / k * 0.7048 := mul_le_mul_of_nonneg_right d (by norm_num)
    refine lt_of_lt_of_le ?_ (d1.trans this)
    norm_num
    linarith
  · simp only [highCurves, ends_cooling.2]
    refine lt_of_lt_of_le ?_ (ends_55 _).1
    refine (mul_lt_mul_of_pos_right hw h95).trans ?_
    show 0.096 * q95 < q95 / (eer2 * u.btuh) * capacity82 * input82 - 27 / 13 * (q95 / (eer2 * u.btuh) - q95 / (eer2 * u.btuh) * capacity82 * input82)
    have k1 : eer2 * u.btuh ≤ 20 * 0.2931 := mul_le_mul hmild H.usual.btuh hbt.le (by norm_num)
    have d : q95 / (20 * 0.2931) ≤ q95 / (eer2 * u.btuh) := div_le_div_of_nonneg_left h95.le (by positivity) k1
    generalize q95 / (eer2 * u.btuh) = p at *
    unfold capacity82 input82
    norm_num at d ⊢
    linarith

theorem two_made {q95 eer2 : ℝ} (H : UsualTwo u a q95 eer2) (D : UsualArgs a) (hP : Published u E T sat) (hbr : BrentqSpec brentq) :
    ∃ B net, build u E T brentq a = .ok B ∧ Made u E a .two net (coolSizes .two (twoOf u a q95 eer2)) (heatSizes .two (twoOf u a q95 eer2)) B ∧
      (∀ s : Int, 1 ≤ s → s ≤ (tableSpeeds .two : Int) → Follows net s (twoOf u a q95 eer2 s)) ∧ coolSizes .two (twoOf u a q95 eer2) = [q95, q95 * 0.728] ∧
      heatSizes .two (twoOf u a q95 eer2) = [ratedHeating u a .two q95, ratedHeating u a .two q95 * 0.712] := by
  have h95 := H.size
  obtain ⟨B, net, h, hM, hF2, hF1⟩ := C90_two_range H.usual D.tables H.staging H.cooling H.seer H.eer H.hspf H.eer_pos H.eer_le H.low H.low_le H.size H.comparable H.hottest H.heating
    (D.surroundings (brentq := brentq) hP hbr (by simp only [List.mem_cons, List.not_mem_nil, or_false, forall_eq_or_imp, forall_eq]; constructor <;> linarith))
  obtain ⟨e1, e2, -⟩ := two_sizes H
  exact ⟨B, net, h, by rw [e1, e2]; exact hM, two_speeds (P := fun s c => Follows net s c) hF1 hF2, e1, e2⟩

/-- C109, from the ratings of a two-stage unit to its plot. -/
theorem C109_two_ratings {q95 eer2 : ℝ} (H : UsualTwo u a q95 eer2) (D : UsualArgs a) (hP : Published u E T sat) (hbr : BrentqSpec brentq)
    (hA : ∀ t ∈ [lowestTemperature a .two, frF 5, frF 17], ∃ o, Psych.init E.lib t E.atm [("rel_hum", 0.4)] = .ok o) :
    ∃ B, build u E T brentq a = .ok B ∧ ∃ cs, plot (B.report u E T brentq) = .ok cs := by
  obtain ⟨B, net, h, hM, hF, e1, e2⟩ := two_made H D hP hbr
  obtain ⟨o1, o2⟩ := built_off h H.staging
  have h47 := H.heating.rated
  obtain ⟨m2, m1⟩ := two_margins (a := a) H.usual H.eer_pos H.eer_le H.low H.low_le H.size H.hottest H.heating
  exact ⟨B, h, plot_returns hP hbr h D.tables D.charge hM hF (two_speeds (P := fun _ c => Margins _ _ _ c) m1 m2) (two_lines H.size)
    (by rw [e2]; simp only [List.mem_cons, List.not_mem_nil, or_false, forall_eq_or_imp, forall_eq]; constructor <;> linarith) o1 o2 hA H.hottest⟩

/-- C114, from the ratings of a two-stage unit to its EnergyPlus file: with EER2 up to 20 and a low-stage COP up to 7.3 at 82 °F, which leave room for the fan power at 55 °F. -/
theorem C114_two_ratings {q95 eer2 : ℝ} (H : UsualTwo u a q95 eer2) (D : UsualArgs a) (hon : a.heatingOn = none) (hmild : eer2 ≤ 20) (hmild' : a.cop82.getD (a.seer.getD 0 / 2) ≤ 7.3)
    (hP : Published u E T sat) (hbr : BrentqSpec brentq) (harg : ∀ l, IsArgsort l (X.argsort l)) (htf : ∀ p, ∃ x, X.timeFraction p = .ok x) (hA : FileAir E (lowestTemperature a .two)) :
    ∃ B, build u E T brentq a = .ok B ∧ ∀ (fmt : ℝ → Nat → String) calls o, ∃ s, (B.writeIdf u E T brentq X fmt o (after u E T brentq B calls)).1 = .ok s := by
  obtain ⟨B, net, h, hM, hF, e1, e2⟩ := two_made H D hP hbr
  obtain ⟨o1, o2⟩ := built_off h H.staging
  obtain ⟨m2, m1⟩ := two_margins (a := a) H.usual H.eer_pos H.eer_le H.low H.low_le H.size hottest125 H.heating
  exact ⟨B, h, fun fmt calls o => file_returns hP hbr harg h D.tables D.coolingFlow D.heatingFlow D.charge hon hM (two_sizes H).2.2 hF (two_speeds (P := fun _ c => Margins _ _ _ c) m1 m2) (two_lines H.size)
    (two_mild H hmild hmild') o1 hA htf calls o⟩

/-- C119, from the ratings of a two-stage unit to its ASHRAE 205 representation. -/
theorem C119_two_ratings {q95 eer2 : ℝ} (H : UsualTwo u a q95 eer2) (D : UsualArgs a) (hmild : eer2 ≤ 20) (hmild' : a.cop82.getD (a.seer.getD 0 / 2) ≤ 7.3)
    (hP : Published u E T sat) (hbr : BrentqSpec brentq) {argsort : List ℝ → List Nat} (harg : ∀ l, IsArgsort l (argsort l)) (hrho : 0 < E.rhoStd) (hA : MapAir E)
    (hsens : ∀ B, build u E T brentq a = .ok B → ∀ tOut ∈ linspace4 (55 : ℝ) 125, ∀ rh ∈ linspace4 (0 : ℝ) 1, ∀ tIn ∈ linspace4 (65 : ℝ) 90, ∀ p ∈ linspace4 (57226.508 : ℝ) 106868.78, ∀ m i c,
      0 < m → i < speedCount .two → gridCondition E B.sys (frF tOut) rh (frF tIn) m i p = .ok c → (∃ q, (B.unit u E T brentq).grossTotalCoolingCapacity (some c) = .ok q ∧ 0 < q) →
      ∃ x, (B.unit u E T brentq).grossSensibleCoolingCapacity (some c) = .ok x) :
    ∃ B, build u E T brentq a = .ok B ∧ ∀ A : Attributes ℝ, A.nCooling = speedCount .two →
      ∃ r, representation u E B.sys (B.unit u E T brentq) A (ResnetFan.fanRepresentation u brentq argsort B.core.psc B.core.fan) = .ok r := by
  obtain ⟨B, net, h, hM, hF, e1, e2⟩ := two_made H D hP hbr
  obtain ⟨m2, m1⟩ := two_margins (a := a) H.usual H.eer_pos H.eer_le H.low H.low_le H.size hottest125 H.heating
  have h95 := H.size
  exact ⟨B, h, fun A hn => map_returns hP hbr harg h D.tables D.coolingFlow D.heatingFlow hM (two_sizes H).2.2 hF (two_speeds (P := fun _ c => Margins _ _ _ c) m1 m2) (two_lines H.size)
    (two_mild H hmild hmild') hrho hn (q0 := q95) (qn := q95 * 0.728) (by rw [e1]; rfl) (by rw [e1]; rfl) (by linarith)
    (by rw [e1]; simp only [List.mem_cons, List.not_mem_nil, or_false, forall_eq_or_imp, forall_eq]; constructor <;> linarith) hA (hsens B h)⟩

/-! ### Variable speed -/

/-- Capacities at 82 °F per capacities at 95 °F, and the same for powers. -/
theorem range_ratios {q95 eer2 : ℝ} {v : VarCooling ℝ} (hq : 0 < q95) (heer : 0 < eer2) (hv : CoolRange u.btuh q95 eer2 v) : ∀ s : Int, 1 ≤ s → s ≤ 3 →
    0 < v.q95s.speed s ∧ v.q95s.speed s ≤ v.q82s.speed s ∧ v.q82s.speed s ≤ 1.07 * v.q95s.speed s ∧ 0 < v.p82s.speed s ∧ v.p95s.speed s ≤ 1.24662 * v.p82s.speed s := by
  obtain ⟨hc0, hl0', hl2', hl3'⟩ := range_power hq heer hv
  obtain ⟨vq, vp, r0, r1, -, -⟩ := hv
  have hbt := u.btuh_pos
  obtain ⟨m, hm⟩ : ∃ m, m = v.q95s.min := ⟨_, rfl⟩
  have hm' : m = q95 / 0.934 * v.ratio := by rw [hm, ← vq]; rfl
  have hm0 : 0 < m := by rw [hm']; positivity
  have hm1 : m ≤ 0.9101 * q95 := by
    rw [hm', div_mul_eq_mul_div, div_le_iff₀ (by norm_num)]; nlinarith
  have hmax : v.q95s.max = q95 / 0.934 := by rw [← vq]; rfl
  have hfull : v.q95s.full = q95 := vq
  have hq82 : v.q82s.full = between (m / 0.948) (q95 / 0.934 / 0.940) m q95 (q95 / 0.934) := by
    rw [hm, ← hmax]; conv_rhs => rw [← hfull]
    rfl
  have hqm : q95 < q95 / 0.934 := by rw [lt_div_iff₀ (by norm_num)]; linarith
  obtain ⟨c1, c2⟩ := between_ratio (s := 0.948) (t := 0.940) (by linarith : m < q95 / 0.934) (by linarith) hqm.le (by rw [mul_div_cancel₀ _ (by norm_num)] : m = 0.948 * (m / 0.948))
    (by rw [mul_div_cancel₀ _ (by norm_num)] : q95 / 0.934 = 0.940 * (q95 / 0.934 / 0.940)) (by norm_num) (by positivity) (by positivity)
  rw [← hq82] at c1 c2
  have hq82min : v.q82s.min = m / 0.948 := by rw [hm]; rfl
  have hq82max : v.q82s.max = q95 / 0.934 / 0.940 := by rw [← hmax]; rfl
  obtain ⟨p, hp⟩ : ∃ p, p = v.p95s.full := ⟨_, rfl⟩
  have hp0 : 0 < p := by rw [hp]; show 0 < v.p95; rw [vp]; positivity
  obtain ⟨l, hl⟩ : ∃ l, l = v.p82s.min := ⟨_, rfl⟩
  have hlmin : v.p95s.min = l * (0.948 * 1.315) := by rw [hl]; rfl
  have hpmax : v.p95s.max = p / (0.934 * 0.928) := by rw [hp]; rfl
  have hl0 : 0 < l := by rw [hl]; exact hl0'
  have hp82max : v.p82s.max = p / (0.934 * 0.928) / (0.940 * 1.326) := by rw [← hpmax]; rfl
  have hl2 : l * (0.948 * 1.315) ≤ p := by rw [← hlmin, hp]; exact hl2'
  have hlmax : p < p / (0.934 * 0.928) := by rw [← hpmax, hp]; exact hl3'
  have hp82 : v.p82s.full = between l (p / (0.934 * 0.928) / (0.940 * 1.326)) (l * (0.948 * 1.315)) p (p / (0.934 * 0.928)) := by
    rw [← hlmin, ← hpmax, hl, hp]; rfl
  obtain ⟨b1, b2⟩ := between_ratio (s := 0.948 * 1.315) (t := 0.940 * 1.326) (by order : l * (0.948 * 1.315) < p / (0.934 * 0.928)) hl2 hlmax.le (by ring)
    (by rw [mul_div_cancel₀ _ (by norm_num)] : p / (0.934 * 0.928) = 0.940 * 1.326 * (p / (0.934 * 0.928) / (0.940 * 1.326))) (by norm_num) hl0.le (by positivity)
  rw [← hp82] at b1 b2
  refine speeds_cases ?_ ?_ ?_ <;> simp only [three_at]
  · rw [hq82min, ← hm, ← hl, hlmin]
    refine ⟨hm0, ?_, ?_, hl0, by linarith⟩
    · rw [le_div_iff₀ (by norm_num)]; linarith
    · rw [div_le_iff₀ (by norm_num)]; linarith
  · rw [hfull, ← hp]
    refine ⟨hq, by linarith, by linarith, by linarith, by linarith⟩
  · rw [hq82max, hmax, hp82max, hpmax]
    have x0 : 0 < q95 / 0.934 := by positivity
    have y0 : 0 < p / (0.934 * 0.928) := by positivity
    generalize q95 / 0.934 = x at *
    generalize p / (0.934 * 0.928) = y at *
    refine ⟨x0, ?_, ?_, by positivity, ?_⟩
    · rw [le_div_iff₀ (by norm_num)]; linarith
    · rw [div_le_iff₀ (by norm_num)]; linarith
    · rw [← mul_div_assoc, le_div_iff₀ (by norm_num)]; linarith

theorem variable_lines {q95 eer2 : ℝ} (H : UsualVariableAny u a q95 eer2) : ∀ s : Int, 1 ≤ s → s ≤ (tableSpeeds .varSpeed : Int) → Lines (curvesOf u a q95 eer2 s) := by
  intro s h1 h2
  obtain ⟨r1, r2, r3, -⟩ := range_ratios H.size H.eer_pos H.range s h1 h2
  exact ⟨cold_35 _ _, cold_35 _ _, ⟨_, rfl, r1, r2, r3⟩, ⟨_, rfl⟩⟩

theorem cold_47 {v : Cold ℝ} {mn : ℝ} : v.heating mn (frF 47) = v.at47 := by
  have h1 := f17_47 (K := ℝ)
  have h2 := f5_17 (K := ℝ)
  rw [Cold.heating, if_neg (by order), if_neg (by order), if_pos le_rfl]
  unfold lineAt; field_simp [sub_ne_zero.2 h1.ne']; ring

theorem variable_margins {q95 eer2 mx : ℝ} (H : UsualVariableAny u a q95 eer2) (hmx : UsualCooling mx) : ∀ s : Int, 1 ≤ s → s ≤ (tableSpeeds .varSpeed : Int) →
    Margins (337.2 / u.ton) (lowestTemperature a .varSpeed) mx (curvesOf u a q95 eer2 s) := by
  intro s h1 h2
  have cool := usual_range H.usual H.size H.eer_pos H.eer_le H.range hmx (usual_fan H.usual) s h1 h2
  have heat := usual_cold H.heating (usual_fan H.usual) s h1 h2
  refine ⟨cool.1, ?_, ?_, ?_⟩
  · rw [show (curvesOf u a q95 eer2 s).coolingCapacity (frF 95) = (coolingOf u a q95 eer2).q95s.speed s from ends_cooling.2]
    exact cool.2
  · rw [show (curvesOf u a q95 eer2 s).heatingCapacity (frF 47) =
      (varHeatingCapacity (ratedHeating u a .varSpeed q95) (varHeating17 (ratedHeating u a .varSpeed q95) a.heating17) (lowestTemperature a .varSpeed)).at47.speed s from cold_47]
    exact heat.1
  · rw [show (curvesOf u a q95 eer2 s).heatingCapacity (frF 47) =
      (varHeatingCapacity (ratedHeating u a .varSpeed q95) (varHeating17 (ratedHeating u a .varSpeed q95) a.heating17) (lowestTemperature a .varSpeed)).at47.speed s from cold_47]
    exact heat.2

theorem sizesOf_pos {q95 eer2 : ℝ} (H : UsualVariableAny u a q95 eer2) : ∀ q ∈ sizesOf u a q95 eer2, 0 < q := by
  have h95 := H.size
  have r0 := H.ratio_pos
  intro q hq
  simp only [sizesOf, List.mem_cons, List.not_mem_nil, or_false] at hq
  rcases hq with rfl | rfl | rfl | rfl <;> positivity

theorem variable_sizes {q95 eer2 : ℝ} : coolSizes .varSpeed (curvesOf u a q95 eer2) = sizesOf u a q95 eer2 ∧
    heatSizes .varSpeed (curvesOf u a q95 eer2) = (let q47 := ratedHeating u a .varSpeed q95; [q47 / 0.908, q47, (q47 / 0.908 * 0.272 + q47) / 2, q47 / 0.908 * 0.272]) := by
  constructor
  · simp [coolSizes, speedsOf, curvesOf, sizesOf, coolingOf, varCurves, ends_cooling, VarCooling.q95s, Three.speed, varCooling]
  · simp [heatSizes, speedsOf, curvesOf, varCurves, cold_47, VarHeating.speed, VarHeating.at47, Three.speed, varHeatingCapacity]

/-- C109, from the ratings of a variable-speed unit to its plot. -/
theorem C109_variable_ratings {q95 eer2 : ℝ} (H : UsualVariableAny u a q95 eer2) (D : UsualArgs a) (hP : Published u E T sat) (hbr : BrentqSpec brentq)
    (hA : ∀ t ∈ [lowestTemperature a .varSpeed, frF 5, frF 17], ∃ o, Psych.init E.lib t E.atm [("rel_hum", 0.4)] = .ok o) :
    ∃ B, build u E T brentq a = .ok B ∧ ∃ cs, plot (B.report u E T brentq) = .ok cs := by
  obtain ⟨B, net, h, hM, -, hF⟩ := C90_variable_any (brentq := brentq) H (D.surroundings hP hbr (sizesOf_pos H))
  obtain ⟨o1, o2⟩ := built_off h H.staging
  obtain ⟨e1, e2⟩ := variable_sizes (u := u) (a := a) (q95 := q95) (eer2 := eer2)
  have h47 := H.heating.rated
  refine ⟨B, h, plot_returns (st := .varSpeed) (c := curvesOf u a q95 eer2) hP hbr h D.tables D.charge (by rw [e1, e2]; exact hM) hF (variable_margins H H.hottest) (variable_lines H) ?_ o1 o2 hA H.hottest⟩
  rw [e2]
  intro q hq
  simp only [List.mem_cons, List.not_mem_nil, or_false] at hq
  rcases hq with rfl | rfl | rfl | rfl <;> positivity

theorem variable_rated_sizes {q95 eer2 : ℝ} (H : UsualVariableAny u a q95 eer2) :
    ∃ x y, (coolSizes .varSpeed (curvesOf u a q95 eer2))[fullIndex .varSpeed]? = some x ∧ (heatSizes .varSpeed (curvesOf u a q95 eer2))[fullIndex .varSpeed]? = some y ∧ RatedSizes (max x y) (coolSizes .varSpeed (curvesOf u a q95 eer2)) ∧ RatedSizes (max x y) (heatSizes .varSpeed (curvesOf u a q95 eer2)) := by
  obtain ⟨e1, e2⟩ := variable_sizes (u := u) (a := a) (q95 := q95) (eer2 := eer2)
  have h95 := H.size
  have h47 := H.heating.rated
  rw [e1, e2]
  unfold sizesOf
  have hr1 : (coolingOf u a q95 eer2).ratio ≤ 0.934 := H.ratio_le.trans (by norm_num)
  have hr0 : 0 < (coolingOf u a q95 eer2).ratio := H.ratio_pos
  have hsize := H.comparable
  generalize (coolingOf u a q95 eer2).ratio = r at *
  generalize ratedHeating u a .varSpeed q95 = q47 at *
  have k1 : q95 / 0.934 * r ≤ q95 := by
    rw [div_mul_eq_mul_div, div_le_iff₀ (by norm_num)]; nlinarith
  have k2 : 0 < q95 / 0.934 * r := by positivity
  have k3 : q95 ≤ q95 / 0.934 := by rw [le_div_iff₀ (by norm_num)]; linarith
  have k4 : q95 / 0.934 ≤ 1.2 * q95 := by rw [div_le_iff₀ (by norm_num)]; linarith
  have k5 : q47 / 0.908 * 0.272 ≤ q47 := by rw [div_mul_eq_mul_div, div_le_iff₀ (by norm_num)]; linarith
  have k6 : 0 < q47 / 0.908 * 0.272 := by positivity
  have k7 : q47 ≤ q47 / 0.908 := by rw [le_div_iff₀ (by norm_num)]; linarith
  have k8 : q47 / 0.908 ≤ 1.2 * q47 := by rw [div_le_iff₀ (by norm_num)]; linarith
  refine ⟨q95, q47, rfl, rfl, ratedSizes_of h95 (le_max_left _ _) ?_ ?_ ?_, ratedSizes_of h47 (le_max_right _ _) ?_ ?_ ?_⟩
  · intro x hx; simp only [List.mem_cons, List.not_mem_nil, or_false] at hx; rcases hx with rfl | rfl | rfl | rfl <;> constructor <;> linarith
  · simp only [List.pairwise_cons, List.mem_cons, List.not_mem_nil, or_false, forall_eq_or_imp, forall_eq, List.Pairwise.nil, and_true, IsEmpty.forall_iff, implies_true]
    refine ⟨⟨?_, ?_, ?_⟩, ⟨?_, ?_⟩, ?_⟩ <;> linarith
  · rintro x hx; cases hx; exact sizes_max h95 h47 hsize k3
  · intro x hx; simp only [List.mem_cons, List.not_mem_nil, or_false] at hx; rcases hx with rfl | rfl | rfl | rfl <;> constructor <;> linarith
  · simp only [List.pairwise_cons, List.mem_cons, List.not_mem_nil, or_false, forall_eq_or_imp, forall_eq, List.Pairwise.nil, and_true, IsEmpty.forall_iff, implies_true]
    refine ⟨⟨?_, ?_, ?_⟩, ⟨?_, ?_⟩, ?_⟩ <;> linarith
  · rintro x hx; cases hx; exact sizes_max' h95 h47 hsize k7

/-- The powers at 55 °F leave room for the fan power if EER2 is at most 13.8 and the COP of the lowest speed at 82 °F at most 5.3. -/
theorem variable_mild {q95 eer2 : ℝ} (H : UsualVariableAny u a q95 eer2) (hmild : eer2 ≤ 13.8) (hmild' : (coolingOf u a q95 eer2).cop82 ≤ 5.3) :
    ∀ s : Int, 1 ≤ s → s ≤ (tableSpeeds .varSpeed : Int) → 337.2 / u.ton * (curvesOf u a q95 eer2 s).coolingCapacity (frF 95) < (curvesOf u a q95 eer2 s).coolingPower (frF 55) := by
  have h95 := H.size
  have hw := usual_fan H.usual
  have hbt := u.btuh_pos
  have heer := H.eer_pos
  intro s h1 h2
  obtain ⟨r1, r2, r3, r4, r5⟩ := range_ratios H.size H.eer_pos H.range s h1 h2
  rw [show (curvesOf u a q95 eer2 s).coolingCapacity (frF 95) = (coolingOf u a q95 eer2).q95s.speed s from ends_cooling.2]
  show _ < Ends.cooling ⟨(coolingOf u a q95 eer2).p82s.speed s, (coolingOf u a q95 eer2).p95s.speed s⟩ (frF 55)
  refine lt_of_lt_of_le ?_ (ends_55 _).1
  show _ < (coolingOf u a q95 eer2).p82s.speed s - 27 / 13 * ((coolingOf u a q95 eer2).p95s.speed s - (coolingOf u a q95 eer2).p82s.speed s)
  refine (mul_lt_mul_of_pos_right hw r1).trans ?_
  have key : 0.197 * (coolingOf u a q95 eer2).q95s.speed s ≤ (coolingOf u a q95 eer2).p82s.speed s := by
    obtain ⟨hc0, -, hl2', -⟩ := range_power h95 heer H.range
    have g : ∀ s : Int, 1 ≤ s → s ≤ 3 → 0.197 * (coolingOf u a q95 eer2).q95s.speed s ≤ (coolingOf u a q95 eer2).p82s.speed s := by
      have k1 : eer2 * u.btuh ≤ 13.8 * 0.2931 := mul_le_mul hmild H.usual.btuh hbt.le (by norm_num)
      have hp : 0.2472 * q95 ≤ (coolingOf u a q95 eer2).p95 := by
        rw [H.range.power, le_div_iff₀ (by positivity)]
        have := mul_le_mul_of_nonneg_left k1 h95.le
        linarith
      refine speeds_cases ?_ ?_ ?_
      · simp only [three_at]
        show _ ≤ (coolingOf u a q95 eer2).q95s.min / 0.948 / (coolingOf u a q95 eer2).cop82
        have r0 : 0 < (coolingOf u a q95 eer2).q95s.min := (range_ratios H.size H.eer_pos H.range 1 (by norm_num) (by norm_num)).1
        rw [le_div_iff₀ hc0, le_div_iff₀ (by norm_num)]
        have := mul_le_mul_of_nonneg_left hmild' r0.le
        linarith
      · have b := (range_ratios H.size H.eer_pos H.range 2 (by norm_num) (by norm_num)).2.2.2.2
        simp only [three_at] at b ⊢
        rw [show (coolingOf u a q95 eer2).q95s.full = q95 from H.range.capacity]
        have : (coolingOf u a q95 eer2).p95s.full = (coolingOf u a q95 eer2).p95 := rfl
        linarith
      · have b := (range_ratios H.size H.eer_pos H.range 3 (by norm_num) (by norm_num)).2.2.2.2
        simp only [three_at] at b ⊢
        rw [show (coolingOf u a q95 eer2).q95s.max = q95 / 0.934 from by rw [← H.range.capacity]; rfl]
        have e : (coolingOf u a q95 eer2).p95s.max = (coolingOf u a q95 eer2).p95 / (0.934 * 0.928) := rfl
        rw [e] at b
        norm_num at b ⊢
        linarith
    exact g s h1 h2
  linarith

/-- C114, from the ratings of a variable-speed unit to its EnergyPlus file: with EER2 up to 13.8 and a COP of the lowest speed at 82 °F up to 5.3, which leave room for the fan power at 55 °F. -/
theorem C114_variable_ratings {q95 eer2 : ℝ} (H : UsualVariableAny u a q95 eer2) (D : UsualArgs a) (hon : a.heatingOn = none) (hmild : eer2 ≤ 13.8) (hmild' : (coolingOf u a q95 eer2).cop82 ≤ 5.3)
    (hP : Published u E T sat) (hbr : BrentqSpec brentq) (harg : ∀ l, IsArgsort l (X.argsort l)) (htf : ∀ p, ∃ x, X.timeFraction p = .ok x) (hA : FileAir E (lowestTemperature a .varSpeed)) :
    ∃ B, build u E T brentq a = .ok B ∧ ∀ (fmt : ℝ → Nat → String) calls o, ∃ s, (B.writeIdf u E T brentq X fmt o (after u E T brentq B calls)).1 = .ok s := by
  obtain ⟨B, net, h, hM, -, hF⟩ := C90_variable_any (brentq := brentq) H (D.surroundings hP hbr (sizesOf_pos H))
  obtain ⟨o1, o2⟩ := built_off h H.staging
  obtain ⟨e1, e2⟩ := variable_sizes (u := u) (a := a) (q95 := q95) (eer2 := eer2)
  exact ⟨B, h, fun fmt calls o => file_returns (st := .varSpeed) (c := curvesOf u a q95 eer2) hP hbr harg h D.tables D.coolingFlow D.heatingFlow D.charge hon (by rw [e1, e2]; exact hM) (variable_rated_sizes H) hF
    (variable_margins H hottest125) (variable_lines H) (variable_mild H hmild hmild') o1 hA htf calls o⟩

/-- C119, from the ratings of a variable-speed unit to its ASHRAE 205 representation: with the lowest speed at 0.3345 or more of the highest one, within which the airflows of the map stay where the
correction for airflow is positive (`C119_never` shows that no representation is generated below about a third). -/
theorem C119_variable_ratings {q95 eer2 : ℝ} (H : UsualVariableAny u a q95 eer2) (D : UsualArgs a) (hmild : eer2 ≤ 13.8) (hmild' : (coolingOf u a q95 eer2).cop82 ≤ 5.3)
    (hratio : 0.3345 ≤ (coolingOf u a q95 eer2).ratio)
    (hP : Published u E T sat) (hbr : BrentqSpec brentq) {argsort : List ℝ → List Nat} (harg : ∀ l, IsArgsort l (argsort l)) (hrho : 0 < E.rhoStd) (hA : MapAir E)
    (hsens : ∀ B, build u E T brentq a = .ok B → ∀ tOut ∈ linspace4 (55 : ℝ) 125, ∀ rh ∈ linspace4 (0 : ℝ) 1, ∀ tIn ∈ linspace4 (65 : ℝ) 90, ∀ p ∈ linspace4 (57226.508 : ℝ) 106868.78, ∀ m i c,
      0 < m → i < speedCount .varSpeed → gridCondition E B.sys (frF tOut) rh (frF tIn) m i p = .ok c → (∃ q, (B.unit u E T brentq).grossTotalCoolingCapacity (some c) = .ok q ∧ 0 < q) →
      ∃ x, (B.unit u E T brentq).grossSensibleCoolingCapacity (some c) = .ok x) :
    ∃ B, build u E T brentq a = .ok B ∧ ∀ A : Attributes ℝ, A.nCooling = speedCount .varSpeed →
      ∃ r, representation u E B.sys (B.unit u E T brentq) A (ResnetFan.fanRepresentation u brentq argsort B.core.psc B.core.fan) = .ok r := by
  obtain ⟨B, net, h, hM, -, hF⟩ := C90_variable_any (brentq := brentq) H (D.surroundings hP hbr (sizesOf_pos H))
  obtain ⟨e1, e2⟩ := variable_sizes (u := u) (a := a) (q95 := q95) (eer2 := eer2)
  have h95 := H.size
  have r1 := H.ratio_le
  have hmax : q95 / 0.934 * 0.3345 ≤ q95 / 0.934 * (coolingOf u a q95 eer2).ratio := mul_le_mul_of_nonneg_left hratio (by positivity)
  have hmax' : q95 / 0.934 * (coolingOf u a q95 eer2).ratio ≤ q95 / 0.934 * 0.85 := mul_le_mul_of_nonneg_left r1 (by positivity)
  have hfull : q95 = q95 / 0.934 * 0.934 := by rw [div_mul_cancel₀ _ (by norm_num)]
  have hx0 : 0 < q95 / 0.934 := by positivity
  refine ⟨B, h, fun A hn => map_returns (st := .varSpeed) (c := curvesOf u a q95 eer2) hP hbr harg h D.tables D.coolingFlow D.heatingFlow (by rw [e1, e2]; exact hM) (variable_rated_sizes H) hF
    (variable_margins H hottest125) (variable_lines H) (variable_mild H hmild hmild') hrho hn (q0 := q95 / 0.934) (qn := q95 / 0.934 * (coolingOf u a q95 eer2).ratio) (by rw [e1]; rfl) (by rw [e1]; rfl)
    (by linarith) ?_ hA (hsens B h)⟩
  rw [e1]
  intro q hq
  simp only [sizesOf, List.mem_cons, List.not_mem_nil, or_false] at hq
  rcases hq with rfl | rfl | rfl | rfl <;> linarith

end Resdx.Build

/-! ## Examples -/

namespace Resdx.Sample

open Spec Spec.Idf Tabular BaseModel Props ResnetFan Fan Table Build Reports Idf Rep205 Transfer Set

/-- A single-stage unit of any capacity and of a COP in the range, with a SEER2 of 13. -/
noncomputable def oneSizes (q κ : ℝ) : Args := { oneArgs with cooling := .num q, heating := some q, heating17 := none, netHeatingCop := some κ, seer := some 13 }

theorem oneSizes_usual {q κ : ℝ} (hq : 0 < q) (h1 : 2.1 ≤ κ) (h2 : κ ≤ 5) : UsualSingle units (oneSizes q κ) q 13 12 where
  usual := usualUnits
  staging := rfl
  cooling := rfl
  size := hq
  seer := rfl
  eer := rfl
  eer_pos := by norm_num
  seer_ge := by norm_num
  seer_le := by norm_num
  cycling := by norm_num [cd, oneSizes, oneArgs]
  hspf := .inl rfl
  comparable := by norm_num [Comparable, ratedHeating, oneSizes]; nlinarith
  hottest := off125
  heating := ⟨hq, by norm_num [heating17, ratedHeating, oneSizes]; linarith, by simp only [heatingCop, oneSizes, Option.getD]; linarith, h2, by simp [lowestTemperature, oneSizes, oneArgs],
    by simp [lowestTemperature, oneSizes, oneArgs, frF_lt]⟩

/-- A two-stage unit of any capacity and of a COP in the range. -/
noncomputable def twoSizes (q κ : ℝ) : Args := { twoArgs with cooling := .num q, heating := some q, heating17 := none, netHeatingCop := some κ }

theorem twoSizes_usual {q κ : ℝ} (hq : 0 < q) (h1 : 2.1 ≤ κ) (h2 : κ ≤ 4.3) : UsualTwo units (twoSizes q κ) q 12 where
  usual := usualUnits
  staging := rfl
  cooling := rfl
  size := hq
  seer := .inl rfl
  eer := rfl
  eer_pos := by norm_num
  eer_le := by norm_num
  low := by norm_num [twoSizes, twoArgs]
  low_le := by norm_num [twoSizes, twoArgs]
  hspf := .inl rfl
  comparable := by norm_num [Comparable, ratedHeating, twoSizes]; nlinarith
  hottest := off125
  heating := ⟨hq, by norm_num [heating17, ratedHeating, twoSizes]; linarith, by simp only [heatingCop, twoSizes, Option.getD]; linarith, h2, by simp [lowestTemperature, twoSizes, twoArgs],
    by simp [lowestTemperature, twoSizes, twoArgs, frF_lt]⟩

theorem moist_file (mn : ℝ) : FileAir moistEnv mn := file_air moist_published (fun t _ => moist_outdoor t) fun _ _ => ⟨_, 1.2, rfl, by norm_num, rfl⟩

/-- C109: the plots of units of any capacity, in air as published. -/
example {brentq : Brentq} (hbr : BrentqSpec brentq) {q κ : ℝ} (hq : 0 < q) (h1 : 2.1 ≤ κ) (h2 : κ ≤ 5) :=
  C109_single_ratings (oneSizes_usual hq h1 h2) ⟨rfl, rfl, rfl, rfl, .inr rfl, .inr rfl⟩ moist_published hbr fun t _ => moist_outdoor t

example {brentq : Brentq} (hbr : BrentqSpec brentq) {q κ : ℝ} (hq : 0 < q) (h1 : 2.1 ≤ κ) (h2 : κ ≤ 4.3) :=
  C109_two_ratings (twoSizes_usual hq h1 h2) ⟨rfl, rfl, rfl, rfl, .inr rfl, .inr rfl⟩ moist_published hbr fun t _ => moist_outdoor t

example {brentq : Brentq} (hbr : BrentqSpec brentq) {q κ r c : ℝ} (hq : 0 < q) (h1 : 2.1 ≤ κ) (h2 : κ ≤ 5) (r0 : 0 < r) (r1 : r ≤ 0.85) (c1 : 4.4 ≤ c) (c2 : c ≤ 6.2) :=
  C109_variable_ratings (varGiven_usual hq h1 h2 r0 r1 c1 c2) ⟨rfl, rfl, rfl, rfl, .inr rfl, .inr rfl⟩ moist_published hbr fun t _ => moist_outdoor t

/-- C114: their EnergyPlus files. -/
example {brentq : Brentq} (hbr : BrentqSpec brentq) {q κ : ℝ} (hq : 0 < q) (h1 : 2.1 ≤ κ) (h2 : κ ≤ 5) :
    ∃ X : FileContext, ∃ B, build units moistEnv moistTools brentq (oneSizes q κ) = .ok B ∧
      ∀ (fmt : ℝ → Nat → String) calls o, ∃ s, (B.writeIdf units moistEnv moistTools brentq X fmt o (after units moistEnv moistTools brentq B calls)).1 = .ok s := by
  obtain ⟨X, hX, hX'⟩ := context
  exact ⟨X, C114_single_ratings (oneSizes_usual hq h1 h2) ⟨rfl, rfl, rfl, rfl, .inr rfl, .inr rfl⟩ rfl (by norm_num [cd, oneSizes, oneArgs]) moist_published hbr hX hX' (moist_file _)⟩

example {brentq : Brentq} (hbr : BrentqSpec brentq) {q κ : ℝ} (hq : 0 < q) (h1 : 2.1 ≤ κ) (h2 : κ ≤ 4.3) :
    ∃ X : FileContext, ∃ B, build units moistEnv moistTools brentq (twoSizes q κ) = .ok B ∧
      ∀ (fmt : ℝ → Nat → String) calls o, ∃ s, (B.writeIdf units moistEnv moistTools brentq X fmt o (after units moistEnv moistTools brentq B calls)).1 = .ok s := by
  obtain ⟨X, hX, hX'⟩ := context
  exact ⟨X, C114_two_ratings (twoSizes_usual hq h1 h2) ⟨rfl, rfl, rfl, rfl, .inr rfl, .inr rfl⟩ rfl (by norm_num) (by norm_num [twoSizes, twoArgs]) moist_published hbr hX hX' (moist_file _)⟩

example {brentq : Brentq} (hbr : BrentqSpec brentq) {q κ r c : ℝ} (hq : 0 < q) (h1 : 2.1 ≤ κ) (h2 : κ ≤ 5) (r0 : 0 < r) (r1 : r ≤ 0.85) (c1 : 4.4 ≤ c) (c2 : c ≤ 5.3) :
    ∃ X : FileContext, ∃ B, build units moistEnv moistTools brentq (varGiven q κ r c) = .ok B ∧
      ∀ (fmt : ℝ → Nat → String) calls o, ∃ s, (B.writeIdf units moistEnv moistTools brentq X fmt o (after units moistEnv moistTools brentq B calls)).1 = .ok s := by
  obtain ⟨X, hX, hX'⟩ := context
  exact ⟨X, C114_variable_ratings (varGiven_usual hq h1 h2 r0 r1 c1 (c2.trans (by norm_num))) ⟨rfl, rfl, rfl, rfl, .inr rfl, .inr rfl⟩ rfl (by norm_num)
    (by rw [varGiven_cop hq (by linarith)]; exact c2) moist_published hbr hX hX' (moist_file _)⟩

/-! ### Tools whose coil calculation returns for every air of the map -/

/-- The root finder above; it reports its start if there is no zero. -/
noncomputable def mapNewton : Coil.Newton := fun f x => match moistNewton f x with
  | .ok t => .ok t
  | .error _ => .ok x

/-- The tools above, with saturated air at every temperature. -/
noncomputable def mapTools : Coil.Tools :=
  { lib := moistLib
    coil := { humRatioFromRelHum := fun t r _ => .ok (r * moistSat t), satHumRatio := fun t _ => .ok (moistSat t), satAirEnthalpy := fun t _ => .ok (airEnthalpy t (moistSat t)) }
    newton := mapNewton }

theorem map_published : Published units moistEnv mapTools moistSat := by
  obtain ⟨-, A, -, h4, h5, h6⟩ := moist_published
  refine ⟨rfl, ?_, ?_, h4, h5, h6⟩
  · exact { A with
      saturated := fun t _ _ => by simp [mapTools]
      satHumRatio := fun t _ _ => rfl
      satEnthalpy := fun t _ _ => rfl }
  · intro f F a x hax hf hc hv ha hx
    obtain ⟨t, h, h'⟩ := moistNewton_finds f F a x hax hf hc hv ha hx
    exact ⟨t, by show mapNewton f x = _; simp only [mapNewton, h], h'⟩

theorem moistSat_pos (t : ℝ) : 0 < moistSat t := by unfold moistSat; nlinarith [sq_nonneg (t + 2.5)]

theorem moist_mapAir : MapAir moistEnv := ⟨fun _ _ => ⟨_, rfl⟩, fun _ _ _ _ => ⟨_, rfl⟩, fun _ _ _ _ _ _ => ⟨_, 1.2, rfl, by norm_num, rfl⟩⟩

/-- The coil calculation returns at the points of the map. -/
theorem map_sens {brentq : Brentq} {a : Args} {B : Built} {st : Staging} {net : Perf ℝ} {qc qh : List ℝ} (h : build units moistEnv mapTools brentq a = .ok B) (hM : Made units moistEnv a st net qc qh B) :
    ∀ tOut ∈ linspace4 (55 : ℝ) 125, ∀ rh ∈ linspace4 (0 : ℝ) 1, ∀ tIn ∈ linspace4 (65 : ℝ) 90, ∀ p ∈ linspace4 (57226.508 : ℝ) 106868.78, ∀ m i c, 0 < m → i < speedCount st →
      gridCondition moistEnv B.sys (frF tOut) rh (frF tIn) m i p = .ok c → (∃ q, (B.unit units moistEnv mapTools brentq).grossTotalCoolingCapacity (some c) = .ok q ∧ 0 < q) →
      ∃ x, (B.unit units moistEnv mapTools brentq).grossSensibleCoolingCapacity (some c) = .ok x := by
  intro tOut _ rh _ tIn hIn p _ m i c m0 hi hc ⟨q, hq, hq0⟩
  obtain ⟨_, _, _, _, _, _, -, -, -, -, -, -, -, -, hS, -⟩ := build_ok h
  have hM' : Made units moistEnv a B.core.st B.core.net qc qh B := by rw [hM.tables, hM.staging]; exact hM
  obtain ⟨q', hq'⟩ := made_capacity hM' hS (i := i) (by rw [hM.staging]; exact hi)
  obtain ⟨n, hn0, hn⟩ := ntu_published map_published h hM hq' hi
  refine sens_returns hn0 hn m0 hc hq hq0 fun si hsi => ?_
  have h65 : 65 ≤ tIn := by
    obtain ⟨k, hk, rfl⟩ := linspace4_mem hIn
    have : (0 : ℝ) ≤ k := Nat.cast_nonneg k
    linarith
  have hdb : si.dbC = toC (frF tIn) := by cases hsi; rfl
  have hdb' : 18 ≤ si.dbC := by rw [hdb]; unfold toC frF; linarith
  refine ⟨airEnthalpy si.dbC 0.01117, by cases hsi; rfl, fun y hy => ?_⟩
  have grow : ∀ {t t' w : ℝ}, 0 < w → t ≤ t' → airEnthalpy t w ≤ airEnthalpy t' w := by
    intro t t' w hw ht
    unfold airEnthalpy
    nlinarith
  show ∃ t w h, mapNewton (fun t => do return (← mapTools.coil.satAirEnthalpy t si.p) - y) si.dbC = .ok t ∧ (.ok (moistSat t) : Py ℝ) = .ok w ∧ (.ok (airEnthalpy si.dbC w) : Py ℝ) = .ok h ∧ y ≤ h
  unfold mapNewton
  split
  · next t ht =>
    refine ⟨t, _, _, rfl, rfl, rfl, ?_⟩
    obtain ⟨z1, z2, -⟩ := moistNewton_zero ht
    have z3 : (.ok (airEnthalpy t (moistSat t) - y) : Py ℝ) = .ok 0 := z2
    have z4 := Except.ok.inj z3
    have := grow (moistSat_pos t) z1
    linarith
  · refine ⟨si.dbC, _, _, rfl, rfl, rfl, hy.le.trans ?_⟩
    have : 0.01117 ≤ moistSat si.dbC := by unfold moistSat; nlinarith
    unfold airEnthalpy
    nlinarith

/-- C119: the representations of units of any capacity. -/
example {brentq : Brentq} (hbr : BrentqSpec brentq) {q κ : ℝ} (hq : 0 < q) (h1 : 2.1 ≤ κ) (h2 : κ ≤ 5) :
    ∃ argsort B, build units moistEnv mapTools brentq (oneSizes q κ) = .ok B ∧ ∀ A : Attributes ℝ, A.nCooling = speedCount .single →
      ∃ r, representation units moistEnv B.sys (B.unit units moistEnv mapTools brentq) A (ResnetFan.fanRepresentation units brentq argsort B.core.psc B.core.fan) = .ok r := by
  obtain ⟨argsort, harg⟩ := isArgsort_satisfiable
  refine ⟨argsort, C119_single_ratings (oneSizes_usual hq h1 h2) ⟨rfl, rfl, rfl, rfl, .inr rfl, .inr rfl⟩ (by norm_num [cd, oneSizes, oneArgs]) map_published hbr harg (by norm_num [moistEnv]) moist_mapAir ?_⟩
  obtain ⟨B, net, h, hM, -⟩ := Build.single_made (oneSizes_usual hq h1 h2) ⟨rfl, rfl, rfl, rfl, .inr rfl, .inr rfl⟩ map_published hbr
  intro B' h'
  rw [h] at h'; cases h'
  exact map_sens h hM

example {brentq : Brentq} (hbr : BrentqSpec brentq) {q κ : ℝ} (hq : 0 < q) (h1 : 2.1 ≤ κ) (h2 : κ ≤ 4.3) :
    ∃ argsort B, build units moistEnv mapTools brentq (twoSizes q κ) = .ok B ∧ ∀ A : Attributes ℝ, A.nCooling = speedCount .two →
      ∃ r, representation units moistEnv B.sys (B.unit units moistEnv mapTools brentq) A (ResnetFan.fanRepresentation units brentq argsort B.core.psc B.core.fan) = .ok r := by
  obtain ⟨argsort, harg⟩ := isArgsort_satisfiable
  refine ⟨argsort, C119_two_ratings (twoSizes_usual hq h1 h2) ⟨rfl, rfl, rfl, rfl, .inr rfl, .inr rfl⟩ (by norm_num) (by norm_num [twoSizes, twoArgs]) map_published hbr harg (by norm_num [moistEnv]) moist_mapAir ?_⟩
  obtain ⟨B, net, h, hM, -⟩ := Build.two_made (twoSizes_usual hq h1 h2) ⟨rfl, rfl, rfl, rfl, .inr rfl, .inr rfl⟩ map_published hbr
  intro B' h'
  rw [h] at h'; cases h'
  exact map_sens h hM

example {brentq : Brentq} (hbr : BrentqSpec brentq) {q κ r c : ℝ} (hq : 0 < q) (h1 : 2.1 ≤ κ) (h2 : κ ≤ 5) (r0 : 0.3345 ≤ r) (r1 : r ≤ 0.85) (c1 : 4.4 ≤ c) (c2 : c ≤ 5.3) :
    ∃ argsort B, build units moistEnv mapTools brentq (varGiven q κ r c) = .ok B ∧ ∀ A : Attributes ℝ, A.nCooling = speedCount .varSpeed →
      ∃ x, representation units moistEnv B.sys (B.unit units moistEnv mapTools brentq) A (ResnetFan.fanRepresentation units brentq argsort B.core.psc B.core.fan) = .ok x := by
  obtain ⟨argsort, harg⟩ := isArgsort_satisfiable
  have H := varGiven_usual (κ := κ) hq h1 h2 (show 0 < r by linarith) r1 c1 (c2.trans (by norm_num))
  have D : UsualArgs (varGiven q κ r c) := ⟨rfl, rfl, rfl, rfl, .inr rfl, .inr rfl⟩
  refine ⟨argsort, C119_variable_ratings H D (by norm_num) (by rw [varGiven_cop hq (by linarith)]; exact c2) r0 map_published hbr harg (by norm_num [moistEnv]) moist_mapAir ?_⟩
  obtain ⟨B, net, h, hM, -⟩ := C90_variable_any H (D.surroundings map_published hbr (sizesOf_pos H))
  intro B' h'
  rw [h] at h'; cases h'
  exact map_sens h hM

end Resdx.Sample
