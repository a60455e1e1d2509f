import Verif.Props.RepResnet
import Verif.Props.VariableCop

/-!
# C119 for variable-speed units, from their ratings
-/

set_option linter.unusedSectionVars false
set_option linter.unusedSimpArgs false

namespace Resdx.Build

open Spec BaseModel Fan ResnetFan Tabular Props Rep205

variable {u : Units ℝ} {E : Env ℝ} {T : Coil.Tools} {brentq : Brentq} {a : Args}

/-- A capacity that is positive at 82 °F is not negative at 78 °F. -/
theorem ends_mild {e : Ends ℝ} (h : 0 < e.low) : 0 ≤ e.cooling (frF (235 / 3)) := by
  have h0 : ¬ frF (82 : ℝ) ≤ frF (235 / 3) := by unfold frF; norm_num
  rw [Ends.cooling, if_neg h0]
  have h1 : e.low / 2 ≤ max (lineAt (frF 82) e.low (frF 95) e.high (frF 60)) (e.low / 2) := le_max_right _ _
  generalize max (lineAt (frF 82) e.low (frF 95) e.high (frF 60)) (e.low / 2) = m at *
  have e1 : lineAt (frF 60) m (frF 82) e.low (frF (235 / 3)) = m + (e.low - m) * (5 / 6) := by
    unfold lineAt frF; norm_num
  rw [e1]
  linarith

theorem variable_never {B : Built} {net : Perf ℝ} {q95 x r : ℝ} {qh : List ℝ} {c : Curves ℝ} {e : Ends ℝ} (ht : a.tables = none) (hB : build u E T brentq a = .ok B)
    (hM : Made u E a .varSpeed net [q95 / 0.934, q95, x, q95 / 0.934 * r] qh B) (hF : Follows net 3 c) (hc : c.coolingCapacity = e.cooling) (he : 0 < e.low) (h95 : 0 < q95) (hr : r < 0.333)
    (hrho : 0 < E.rhoStd) {F : Type} {fan : Py F} {A : Attributes ℝ} (hn : A.nCooling = 4) : ∀ v, representation u E B.sys (B.unit u E T brentq) A fan ≠ .ok v := by
  have hst := hM.staging
  have htb := hM.tables
  refine C119_never (qc := [q95 / 0.934, q95, x, q95 / 0.934 * r]) (qh := qh) (q0 := q95 / 0.934) (qn := q95 / 0.934 * r) (σ := 3) (t := 235 / 3) (Q := c.coolingCapacity (frF (235 / 3))) hB
    (by rw [ht]; simp) (by rw [hst, htb]; exact hM) hrho (by rw [hst, hn]; rfl) rfl rfl ?_ (by rw [hst]; exact .inl ⟨rfl, rfl⟩) ?_ ?_ (by rw [hc]; exact ends_mild he)
  · have : 0 < q95 / 0.934 := by positivity
    nlinarith
  · exact List.mem_map.2 ⟨1, by simp, by norm_num⟩
  · rw [htb]
    have := (hF (frF (235 / 3))).1
    simpa using this

/-- C119 (the claim is false of the code), from the ratings: a variable-speed unit within the ranges of `UsualVariable` whose SEER2 is at least 1.49 times its EER2 can be made, and no representation of it
can be generated. -/
theorem C119_variable_never {q95 eer2 : ℝ} (H : UsualVariable u a q95 eer2) (hs : 1.49 * eer2 ≤ a.seer.getD 0) (h : Surroundings u E T brentq a .varSpeed (variableSizes u a q95 eer2)) (hrho : 0 < E.rhoStd) :
    ∃ B, build u E T brentq a = .ok B ∧ ∀ (F : Type) (fan : Py F) (A : Attributes ℝ), A.nCooling = 4 → ∀ v, representation u E B.sys (B.unit u E T brentq) A fan ≠ .ok v := by
  obtain ⟨B, net, hB, hM, hF⟩ := C90_variable_range H.usual H.tables H.staging H.cooling H.seer H.eer H.hspf H.defaults H.eer_pos H.eer_le H.ratio H.size H.comparable H.hottest H.heating h
  refine ⟨B, hB, fun F fan A hn => variable_never H.tables hB hM (hF 3 (by norm_num) le_rfl) rfl ?_ H.size ?_ hrho hn⟩
  · have := H.size
    simp only [Three.speed, VarCooling.q82s, VarCooling.q95s, varCooling]
    norm_num
    positivity
  · have e0 := H.eer_pos
    simp only [varCooling, Option.getD_none, inputRatio82, capacityRatio95]
    have h1 : 1.49 ≤ a.seer.getD 0 / eer2 := (le_div_iff₀ e0).2 hs
    have h2 : 0.324 * a.seer.getD 0 / eer2 = 0.324 * (a.seer.getD 0 / eer2) := by ring
    rw [h2]
    generalize a.seer.getD 0 / eer2 = y at *
    have h3 : max 0.2 (min 1 (1.305 - 0.324 * y)) ≤ 0.823 := max_le (by norm_num) ((min_le_right _ _).trans (by linarith))
    generalize max 0.2 (min 1 (1.305 - 0.324 * y)) = z at *
    refine max_lt (by norm_num) ((min_le_right _ _).trans_lt ?_)
    have : 0.510 - 0.119 * (z - 1.305) / (-0.324) = 0.510 + 0.119 / 0.324 * (z - 1.305) := by ring
    rw [this]
    norm_num at *
    linarith

/-- C119 (the claim is false of the code), from the ratings and a COP `c` at 82 °F: likewise when the COP at lowest speed is at least 1.5 times the EER2. -/
theorem C119_variable_cop_never {q95 eer2 c : ℝ} (H : UsualVariableCop u a q95 eer2 c) (hs : 1.5 * eer2 * u.btuh ≤ c) (h : Surroundings u E T brentq a .varSpeed (variableSizesCop u q95 eer2 c)) (hrho : 0 < E.rhoStd) :
    ∃ B, build u E T brentq a = .ok B ∧ ∀ (F : Type) (fan : Py F) (A : Attributes ℝ), A.nCooling = 4 → ∀ v, representation u E B.sys (B.unit u E T brentq) A fan ≠ .ok v := by
  obtain ⟨B, net, hB, hM, hF⟩ := C90_variable_cop H h
  refine ⟨B, hB, fun F fan A hn => variable_never H.tables hB hM (hF 3 (by norm_num) le_rfl) rfl ?_ H.size ?_ hrho hn⟩
  · have := H.size
    simp only [Three.speed, VarCooling.q82s, VarCooling.q95s, varCooling]
    norm_num
    positivity
  · have e0 := H.eer_pos
    have b0 := u.btuh_pos
    have c0 : 0 < c := lt_of_lt_of_le (by positivity) hs
    simp only [capacityRatio95, copRatio]
    have h1 : 0.928 * 1.326 * eer2 * u.btuh / c ≤ 0.8204 := by
      rw [div_le_iff₀ c0]
      nlinarith
    generalize 0.928 * 1.326 * eer2 * u.btuh / c = z at *
    refine max_lt (by norm_num) ((min_le_right _ _).trans_lt ?_)
    have : 0.510 - 0.119 * (z - 1.305) / (-0.324) = 0.510 + 0.119 / 0.324 * (z - 1.305) := by ring
    rw [this]
    norm_num at *
    linarith

end Resdx.Build

namespace Resdx.Sample

open Spec Tabular BaseModel Props ResnetFan Fan Table Build Rep205

/-- Units of any capacity with SEER2 18 and EER2 12. -/
example {brentq : Brentq} (hbr : BrentqSpec brentq) {q κ : ℝ} (hq : 0 < q) (h1 : 2.1 ≤ κ) (h2 : κ ≤ 5) :=
  C119_variable_never (varSizes_usual hq h1 h2) (by norm_num [varSizes, varArgs]) (varSizes_surroundings hbr hq) (by norm_num [env])

/-- Units of any capacity with EER2 12 and a COP of 5.3 to 6.2 at 82 °F. -/
example {brentq : Brentq} (hbr : BrentqSpec brentq) {q κ c : ℝ} (hq : 0 < q) (h1 : 2.1 ≤ κ) (h2 : κ ≤ 5) (c1 : 5.3 ≤ c) (c2 : c ≤ 6.2) :=
  C119_variable_cop_never (varCops_usual hq h1 h2 (by norm_num at c1 ⊢; linarith) c2) (by rw [show units.btuh = (0.29307 : ℝ) from rfl]; norm_num at c1 ⊢; linarith)
    (varCops_surroundings (κ := κ) hbr hq) (by norm_num [env])

end Resdx.Sample
