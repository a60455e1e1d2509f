import Verif.Lemmas.TabularHolds
import Verif.Spec.DerivedTables

/-!
# The contents of the derived tables

The three builders are followed cell by cell; the lookup of the finished tables is brought into closed form.
-/

set_option linter.unusedSectionVars false
set_option linter.unusedSimpArgs false

namespace Resdx.Tabular

open Spec Util Table Props

variable {K : Type} [Field K] [LinearOrder K] [IsStrictOrderedRing K]

/-! ## Lookup -/

/-- The value looked up on the line through two neighbouring rows; the outermost lines are continued. -/
theorem Rows.line {n : Nat} {l : List (K × (Int → K))} {t : Table K} (h : Rows n l t) (hf : Fresh t) {x0 x1 x : K} {f g : Int → K} (m0 : (x0, f) ∈ l) (m1 : (x1, g) ∈ l)
    (hn : Neighbours (l.map (·.1)) x0 x1) (hx0 : x0 ≤ x ∨ ∀ y ∈ l.map (·.1), x0 ≤ y) (hx1 : x ≤ x1 ∨ ∀ y ∈ l.map (·.1), y ≤ x1) {s : Int} (h1 : 1 ≤ s) (h2 : s ≤ n) :
    t.calculate s x = .ok (lineAt x0 (f s) x1 (g s) x) := by
  obtain ⟨ya, yb, y, e1, e2, e3, e4⟩ := C30_linear_in_temperature t hf s x0 x1 x (by rw [h.temps]; exact hn) (by rw [h.temps]; exact hx0) (by rw [h.temps]; exact hx1)
  rw [h.node hf m0 h1 h2] at e1; cases e1
  rw [h.node hf m1 h1 h2] at e2; cases e2
  rw [e3, onLine_value e4 hn.2.2.1]

theorem lineAt_up {x0 y0 x1 y1 x z : K} (h : x0 < x1) (hx : x1 < x) : lineAt x1 y1 x (lineAt x0 y0 x1 y1 x) z = lineAt x0 y0 x1 y1 z := by
  unfold lineAt
  have h1 : x1 - x0 ≠ 0 := sub_ne_zero.2 h.ne'
  have h2 : x - x1 ≠ 0 := sub_ne_zero.2 hx.ne'
  field_simp
  ring

theorem lineAt_const {x0 x1 y z : K} : lineAt x0 y x1 y z = y := by unfold lineAt; simp

theorem neighbours4 {a b c d : K} (h1 : a < b) (h2 : b < c) (h3 : c < d) : Neighbours [a, b, c, d] a b ∧ Neighbours [a, b, c, d] b c ∧ Neighbours [a, b, c, d] c d := by
  refine ⟨⟨by simp, by simp, h1, ?_⟩, ⟨by simp, by simp, h2, ?_⟩, ⟨by simp, by simp, h3, ?_⟩⟩ <;>
  · intro x hx
    simp only [List.mem_cons, List.not_mem_nil, or_false] at hx
    rcases hx with rfl | rfl | rfl | rfl <;> first | (left; order) | (right; order)

theorem neighbours5 {a b c d e : K} (h1 : a < b) (h2 : b < c) (h3 : c < d) (h4 : d < e) :
    Neighbours [a, b, c, d, e] a b ∧ Neighbours [a, b, c, d, e] b c ∧ Neighbours [a, b, c, d, e] c d ∧ Neighbours [a, b, c, d, e] d e := by
  refine ⟨⟨by simp, by simp, h1, ?_⟩, ⟨by simp, by simp, h2, ?_⟩, ⟨by simp, by simp, h3, ?_⟩, ⟨by simp, by simp, h4, ?_⟩⟩ <;>
  · intro x hx
    simp only [List.mem_cons, List.not_mem_nil, or_false] at hx
    rcases hx with rfl | rfl | rfl | rfl | rfl <;> first | (left; order) | (right; order)

theorem f82_95 : frF (82 : K) < frF 95 := by rw [frF_lt]; norm_num
theorem f60_82 : frF (60 : K) < frF 82 := by rw [frF_lt]; norm_num
theorem f17_47 : frF (17 : K) < frF 47 := by rw [frF_lt]; norm_num
theorem f5_17 : frF (5 : K) < frF 17 := by rw [frF_lt]; norm_num
theorem f47_60 : frF (47 : K) < frF 60 := by rw [frF_lt]; norm_num

theorem cooling_lookup {n : Nat} {t : Table K} {mx : K} {f g : Int → K} (h : Rows n (coolingRows mx f g) t) (hf : Fresh t) (hmx : frF 95 < mx) {s : Int} (h1 : 1 ≤ s) (h2 : s ≤ n) (x : K) :
    t.calculate s x = .ok (Ends.cooling ⟨f s, g s⟩ x) := by
  obtain ⟨n1, n2, n3⟩ := neighbours4 (f60_82 (K := K)) f82_95 hmx
  have a60 := f60_82 (K := K)
  have a82 := f82_95 (K := K)
  unfold Ends.cooling
  by_cases hx : frF 82 ≤ x
  · rw [if_pos hx]
    rcases le_total x (frF 95) with hx' | hx'
    · exact h.line hf (by simp [coolingRows]) (by simp [coolingRows]) n2 (.inl hx) (.inl hx') h1 h2
    · rw [h.line hf (x0 := frF 95) (x1 := mx) (f := g) (g := fun s => lineAt (frF 82) (f s) (frF 95) (g s) mx) (by simp [coolingRows]) (by simp [coolingRows]) n3 (.inl hx') (.inr ?_) h1 h2,
        lineAt_up f82_95 hmx]
      intro y hy
      simp only [coolingRows, List.map_cons, List.map_nil, List.mem_cons, List.not_mem_nil, or_false] at hy
      rcases hy with rfl | rfl | rfl | rfl <;> order
  · rw [if_neg hx, h.line hf (x0 := frF 60) (x1 := frF 82) (f := fun s => max (lineAt (frF 82) (f s) (frF 95) (g s) (frF 60)) (f s * 0.5)) (g := f) (by simp [coolingRows]) (by simp [coolingRows]) n1 (.inr ?_)
      (.inl (not_le.1 hx).le) h1 h2]
    · rw [show f s * 0.5 = f s / 2 by ring]
    · intro y hy
      simp only [coolingRows, List.map_cons, List.map_nil, List.mem_cons, List.not_mem_nil, or_false] at hy
      rcases hy with rfl | rfl | rfl | rfl <;> order

/-- The rows of the heating tables of variable-speed units. -/
def coldRows (mn : K) (v : Int → Cold K) : List (K × (Int → K)) :=
  [(mn, fun s => (v s).lowest), (frF 5, fun s => (v s).at5), (frF 17, fun s => (v s).at17), (frF 47, fun s => (v s).at47), (frF 60, fun s => (v s).at47)]

theorem cold_lookup {n : Nat} {t : Table K} {mn : K} {v : Int → Cold K} (h : Rows n (coldRows mn v) t) (hf : Fresh t) (hmn : mn < frF 5) {s : Int} (h1 : 1 ≤ s) (h2 : s ≤ n) (x : K) :
    t.calculate s x = .ok ((v s).heating mn x) := by
  have a5 := f5_17 (K := K)
  have a17 := f17_47 (K := K)
  have a47 := f47_60 (K := K)
  obtain ⟨n1, n2, n3, n4⟩ := neighbours5 hmn a5 a17 a47
  unfold Cold.heating
  by_cases c5 : x ≤ frF 5
  · rw [if_pos c5, h.line hf (x0 := mn) (x1 := frF 5) (f := fun s => (v s).lowest) (g := fun s => (v s).at5) (by simp [coldRows]) (by simp [coldRows]) n1 (.inr ?_) (.inl c5) h1 h2]
    intro y hy
    simp only [coldRows, List.map_cons, List.map_nil, List.mem_cons, List.not_mem_nil, or_false] at hy
    rcases hy with rfl | rfl | rfl | rfl | rfl <;> order
  rw [if_neg c5]
  by_cases c17 : x ≤ frF 17
  · rw [if_pos c17, h.line hf (x0 := frF 5) (x1 := frF 17) (f := fun s => (v s).at5) (g := fun s => (v s).at17) (by simp [coldRows]) (by simp [coldRows]) n2 (.inl (not_le.1 c5).le) (.inl c17) h1 h2]
  rw [if_neg c17]
  by_cases c47 : x ≤ frF 47
  · rw [if_pos c47, h.line hf (x0 := frF 17) (x1 := frF 47) (f := fun s => (v s).at17) (g := fun s => (v s).at47) (by simp [coldRows]) (by simp [coldRows]) n3 (.inl (not_le.1 c17).le) (.inl c47) h1 h2]
  rw [if_neg c47, h.line hf (x0 := frF 47) (x1 := frF 60) (f := fun s => (v s).at47) (g := fun s => (v s).at47) (by simp [coldRows]) (by simp [coldRows]) n4 (.inl (not_le.1 c47).le) (.inr ?_) h1 h2,
    lineAt_const]
  intro y hy
  simp only [coldRows, List.map_cons, List.map_nil, List.mem_cons, List.not_mem_nil, or_false] at hy
  rcases hy with rfl | rfl | rfl | rfl | rfl <;> order

theorem heating_lookup {n : Nat} {t : Table K} {mn : K} {f g : Int → K} (h : Rows n (heatingRows mn f g) t) (hf : Fresh t) (hmn : mn < frF 5) {s : Int} (h1 : 1 ≤ s) (h2 : s ≤ n) (x : K) :
    t.calculate s x = .ok (Ends.heating ⟨f s, g s⟩ x) := by
  have h' : Rows n (coldRows mn fun s => ⟨lineAt (frF 17) (f s) (frF 47) (g s) mn, lineAt (frF 17) (f s) (frF 47) (g s) (frF 5), f s, g s⟩) t := h
  have a5 := f5_17 (K := K)
  have a17 := f17_47 (K := K)
  have on17 : lineAt (frF 17) (f s) (frF 47) (g s) (frF 17) = f s := by unfold lineAt; simp
  rw [cold_lookup h' hf hmn h1 h2 x]
  simp only [Cold.heating, Ends.heating]
  by_cases c5 : x ≤ frF 5
  · rw [if_pos c5, if_pos (by order)]
    congr 1
    have e : lineAt (frF 17) (f s) (frF 47) (g s) mn = lineAt (frF 5) (lineAt (frF 17) (f s) (frF 47) (g s) (frF 5)) (frF 17) (f s) mn := (lineAt_trans a17 a5).symm
    conv_lhs => rw [e]
    rw [lineAt_trans a5 hmn, lineAt_trans a17 a5]
  · rw [if_neg c5]
    by_cases c17 : x ≤ frF 17
    · rw [if_pos c17, if_pos (by order), lineAt_trans a17 a5]
    · rw [if_neg c17]

/-! ## From cells to rows -/

theorem Holds.rows {n : Nat} {cs : List (Int × K × K)} {t : Table K} {l : List (K × (Int → K))} (h : Holds n (l.map (·.1)) cs t)
    (hc : ∀ r ∈ l, ∀ s : Int, 1 ≤ s → s ≤ n → (s, r.1, r.2 s) ∈ cs) : Rows n l t :=
  ⟨h.wf, h.speeds, h.temps, fun r hr s s1 s2 => (h.cell (hc r hr s s1 s2)).val⟩

theorem qm17_ok {d q47 : K} {q17 : Option K} (h : q47 ≠ 0) : ∃ m, qm17 d q47 q17 = .ok m ∧ q47 * m = q17.getD (d * q47) := by
  cases q17 with
  | none => exact ⟨_, rfl, by simp [mul_comm]⟩
  | some q => exact ⟨_, pdiv_ok h, mul_div_cancel₀ _ h⟩

theorem finish_rows {n m : Nat} {lqc lpc lqh lph : List (K × (Int → K))} {qc pc qh ph : Table K} (h1 : Rows n lqc qc) (h2 : Rows n lpc pc) (h3 : Rows m lqh qh) (h4 : Rows m lph ph)
    (ec : lpc.map (·.1) = lqc.map (·.1)) (eh : lph.map (·.1) = lqh.map (·.1)) (hc : lqc ≠ []) (hh : lqh ≠ []) (hn : n ≠ 0) (hm : m ≠ 0) :
    ∃ d, finish qc pc qh ph = .ok d ∧ (Rows n lqc d.coolingCapacities ∧ Fresh d.coolingCapacities) ∧ (Rows n lpc d.coolingPowers ∧ Fresh d.coolingPowers) ∧
      (Rows m lqh d.heatingCapacities ∧ Fresh d.heatingCapacities) ∧ (Rows m lph d.heatingPowers ∧ Fresh d.heatingPowers) := by
  obtain ⟨d, hd⟩ := full2_finish h1.full (ec ▸ h2.full) h3.full (eh ▸ h4.full) (by simpa using hc) (by simpa using hh) hn hm
  obtain ⟨e1, e2, e3, e4⟩ := finish_ok hd
  exact ⟨d, hd, h1.interpolator e1, h2.interpolator e2, h3.interpolator e3, h4.interpolator e4⟩

/-- The tables made by `finish` from standard rows. -/
theorem standard {n : Nat} {mn mx : K} {d : Perf K} {lqc lpc lqh lph : List (K × (Int → K))} (h1 : Rows n lqc d.coolingCapacities ∧ Fresh d.coolingCapacities)
    (h2 : Rows n lpc d.coolingPowers ∧ Fresh d.coolingPowers) (h3 : Rows n lqh d.heatingCapacities ∧ Fresh d.heatingCapacities) (h4 : Rows n lph d.heatingPowers ∧ Fresh d.heatingPowers)
    (e1 : lqc.map (·.1) = [frF 60, frF 82, frF 95, mx]) (e2 : lpc.map (·.1) = [frF 60, frF 82, frF 95, mx]) (e3 : lqh.map (·.1) = [mn, frF 5, frF 17, frF 47, frF 60])
    (e4 : lph.map (·.1) = [mn, frF 5, frF 17, frF 47, frF 60]) : StandardTables n mn mx d :=
  ⟨h1.2, h2.2, h3.2, h4.2, ⟨h1.1.speeds, h2.1.speeds, h3.1.speeds, h4.1.speeds⟩, ⟨h1.1.temps.trans e1, h2.1.temps.trans e2⟩, h3.1.temps.trans e3, h4.1.temps.trans e4⟩

theorem cooling_extremes {n : Nat} {qc pc : Table K} {mx : K} {f g f' g' : Int → K} (h : Rows n [(frF 82, f), (frF 95, g)] qc) (h' : Rows n [(frF 82, f'), (frF 95, g')] pc) (hmx : frF 95 < mx) :
    ∃ qc' pc', coolingExtremes mx qc pc = .ok (qc', pc') ∧ Rows n (coolingRows mx f g) qc' ∧ Rows n (coolingRows mx f' g') pc' := by
  obtain ⟨q, p, e, -⟩ := full2_coolingExtremes h.full h'.full hmx
  exact ⟨q, p, e, rows_coolingExtremes h h' hmx e⟩

theorem heating_extremes {n : Nat} {t : Table K} {mn : K} {f g : Int → K} (h : Rows n [(frF 17, f), (frF 47, g)] t) (hmn : mn < frF 5) :
    ∃ t', heatingExtremes mn t = .ok t' ∧ Rows n (heatingRows mn f g) t' := by
  obtain ⟨q, e, -⟩ := full2_heatingExtremes h.full hmn
  exact ⟨q, e, rows_heatingExtremes h hmn e⟩

theorem biquad_cap_value : calcBiquad (K := K) Nrel.coolingCapFT 67 82 = .ok capacity82 := by
  simp only [calcBiquad, Nrel.coolingCapFT, pyGet, List.getElem?_cons_zero, List.getElem?_cons_succ, bind_ok, pure_eq_ok, capacity82]
  norm_num

theorem biquad_eir_value : calcBiquad (K := K) Nrel.coolingEirFT 67 82 = .ok input82 := by
  simp only [calcBiquad, Nrel.coolingEirFT, pyGet, List.getElem?_cons_zero, List.getElem?_cons_succ, bind_ok, pure_eq_ok, input82]
  norm_num

theorem biquad_heat_value : calcBiquad (K := K) Nrel.heatingEirFT 70 17 = .ok input17 := by
  simp only [calcBiquad, Nrel.heatingEirFT, pyGet, List.getElem?_cons_zero, List.getElem?_cons_succ, bind_ok, pure_eq_ok, input17]
  norm_num

theorem capacity82_pos : (0 : K) < capacity82 := by unfold capacity82; norm_num
theorem input82_pos : (0 : K) < input82 := by unfold input82; norm_num
theorem input17_pos : (0 : K) < input17 := by unfold input17; norm_num

/-! ## One speed -/

theorem single_cooling (u : Units K) {q95 seer2 eer2 mx cd : K} (heer : eer2 ≠ 0) (hseer : seer2 ≠ 0) (hcd : cd ≠ 2) (hmx : frF 95 < mx) :
    ∃ qc pc, singleCooling u q95 seer2 eer2 mx cd = .ok (qc, pc) ∧ Rows 1 (coolingRows mx (fun _ => q95 * capacity82) (fun _ => q95)) qc ∧
      Rows 1 (coolingRows mx (fun _ => q95 * capacity82 / (seer2 * u.btuh) * (1 - cd / 2)) (fun _ => q95 / (eer2 * u.btuh))) pc := by
  have hb0 := capacity82_pos (K := K)
  have hm0 : (1 : K) / capacity82 ≠ 0 := div_ne_zero one_ne_zero hb0.ne'
  have hbt := u.btuh_pos.ne'
  have hcd' : 1 - 0.5 * cd ≠ 0 := by intro h; apply hcd; linarith
  have hs : (1 : Int) ≤ 1 ∧ (1 : Int) ≤ ((1 : Nat) : Int) := by norm_num
  obtain ⟨q1, e1, H1⟩ := (Holds.init 1 (sorted_82_95 (K := K))).set 1 (frF 95) q95 hs (by simp) (by apart)
  obtain ⟨q2, e2, H2⟩ := H1.coolDown 1 (frF 82) (frF 95) (1 / capacity82) (by here) (by simp) f82_95 hm0 (by apart)
  obtain ⟨p1, e3, G1⟩ := (Holds.init 1 (sorted_82_95 (K := K))).set 1 (frF 95) (q95 / (eer2 * u.btuh)) hs (by simp) (by apart)
  obtain ⟨p2, e4, G2⟩ := G1.set 1 (frF 82) (q95 / (1 / capacity82) / (seer2 / (1 - 0.5 * cd) * u.btuh)) hs (by simp) (by apart)
  have R1 : Rows 1 [(frF 82, fun _ => q95 * capacity82), (frF 95, fun _ => q95)] q2 := by
    refine Holds.rows (l := [(frF 82, fun _ => q95 * capacity82), (frF 95, fun _ => q95)]) H2 ?_
    intro r hr s s1 s2
    obtain rfl : s = 1 := by simp at s2; omega
    simp only [List.mem_cons, List.not_mem_nil, or_false] at hr
    rcases hr with rfl | rfl
    · rw [show q95 * capacity82 = q95 / (1 / capacity82) by simp]; here
    · here
  have R2 : Rows 1 [(frF 82, fun _ => q95 * capacity82 / (seer2 * u.btuh) * (1 - cd / 2)), (frF 95, fun _ => q95 / (eer2 * u.btuh))] p2 := by
    refine Holds.rows (l := [(frF 82, fun _ => q95 * capacity82 / (seer2 * u.btuh) * (1 - cd / 2)), (frF 95, fun _ => q95 / (eer2 * u.btuh))]) G2 ?_
    intro r hr s s1 s2
    obtain rfl : s = 1 := by simp at s2; omega
    simp only [List.mem_cons, List.not_mem_nil, or_false] at hr
    rcases hr with rfl | rfl
    · rw [show q95 * capacity82 / (seer2 * u.btuh) * (1 - cd / 2) = q95 / (1 / capacity82) / (seer2 / (1 - 0.5 * cd) * u.btuh) by
        have : (1 : K) - 0.5 * cd = 1 - cd / 2 := by ring
        rw [this] at hcd' ⊢
        field_simp]
      here
    · here
  obtain ⟨qc, pc, e5, r1, r2⟩ := cooling_extremes R1 R2 hmx
  refine ⟨qc, pc, ?_, r1, r2⟩
  simp only [singleCooling, biquad_cap_value, bind_ok, pdiv_ok hb0.ne', e1, e2, H2.over (show ((1 : Int), frF 95, q95) ∈ _ by here) (mul_ne_zero heer hbt), e3, pdiv_ok hcd',
    H2.over (show ((1 : Int), frF 82, q95 / (1 / capacity82)) ∈ _ by here) (mul_ne_zero (div_ne_zero hseer hcd') hbt), e4, e5]

theorem single_heating {q47 : K} {q17 : Option K} {hspf2 mn : K} {cop : Option K} (hq47 : q47 ≠ 0) (hcop : heatingCop hspf2 cop ≠ 0) (hmn : mn < frF 5) :
    ∃ qh ph, singleHeating q47 q17 hspf2 mn cop = .ok (qh, ph) ∧ Rows 1 (heatingRows mn (fun _ => heating17 q47 q17) (fun _ => q47)) qh ∧
      Rows 1 (heatingRows mn (fun _ => heating17 q47 q17 / heatingCop hspf2 cop * input17) (fun _ => q47 / heatingCop hspf2 cop)) ph := by
  have hs : (1 : Int) ≤ 1 ∧ (1 : Int) ≤ ((1 : Nat) : Int) := by norm_num
  obtain ⟨m, hm, hm'⟩ := qm17_ok (d := (0.626 : K)) (q17 := q17) hq47
  obtain ⟨q1, e1, H1⟩ := (Holds.init 1 (sorted_17_47 (K := K))).set 1 (frF 47) q47 hs (by simp) (by apart)
  obtain ⟨q2, e2, H2⟩ := H1.heatDown 1 (frF 17) (frF 47) m (by here) (by simp) f17_47 (by apart)
  obtain ⟨p1, e3, G1⟩ := (Holds.init 1 (sorted_17_47 (K := K))).set 1 (frF 47) (q47 / heatingCop hspf2 cop) hs (by simp) (by apart)
  obtain ⟨p2, e4, G2⟩ := G1.heatDown 1 (frF 17) (frF 47) (m * input17) (by here) (by simp) f17_47 (by apart)
  have R1 : Rows 1 [(frF 17, fun _ => heating17 q47 q17), (frF 47, fun _ => q47)] q2 := by
    refine Holds.rows (l := [(frF 17, fun _ => heating17 q47 q17), (frF 47, fun _ => q47)]) H2 ?_
    intro r hr s s1 s2
    obtain rfl : s = 1 := by simp at s2; omega
    simp only [List.mem_cons, List.not_mem_nil, or_false] at hr
    rcases hr with rfl | rfl
    · rw [heating17, ← hm']; here
    · here
  have R2 : Rows 1 [(frF 17, fun _ => heating17 q47 q17 / heatingCop hspf2 cop * input17), (frF 47, fun _ => q47 / heatingCop hspf2 cop)] p2 := by
    refine Holds.rows (l := [(frF 17, fun _ => heating17 q47 q17 / heatingCop hspf2 cop * input17), (frF 47, fun _ => q47 / heatingCop hspf2 cop)]) G2 ?_
    intro r hr s s1 s2
    obtain rfl : s = 1 := by simp at s2; omega
    simp only [List.mem_cons, List.not_mem_nil, or_false] at hr
    rcases hr with rfl | rfl
    · rw [heating17, ← hm', show q47 * m / heatingCop hspf2 cop * input17 = q47 / heatingCop hspf2 cop * (m * input17) by ring]; here
    · here
  obtain ⟨qh, e5, r1⟩ := heating_extremes R1 hmn
  obtain ⟨ph, e6, r2⟩ := heating_extremes R2 hmn
  refine ⟨qh, ph, ?_, r1, r2⟩
  have c := r1.cell (x := frF 47) (f := fun _ => q47) (by simp [heatingRows]) hs.1 hs.2
  simp only [singleHeating, biquad_heat_value, hm, bind_ok, e1, e2, e5, getOver_ok c (show cop47 hspf2 cop ≠ 0 from hcop), show q47 / cop47 hspf2 cop = q47 / heatingCop hspf2 cop from rfl, e3, e4, e6,
    pure_eq_ok]

/-! ## Two speeds -/

/-- A value for each of two speeds. -/
def stages (low high : K) (s : Int) : K := if s = 1 then low else high

theorem stages_rows {cs : List (Int × K × K)} {t : Table K} {x y l1 h1 l2 h2 : K} (h : Holds 2 [x, y] cs t) (m1 : ((1 : Int), x, l1) ∈ cs) (m2 : ((2 : Int), x, h1) ∈ cs)
    (m3 : ((1 : Int), y, l2) ∈ cs) (m4 : ((2 : Int), y, h2) ∈ cs) : Rows 2 [(x, stages l1 h1), (y, stages l2 h2)] t := by
  refine Holds.rows (l := [(x, stages l1 h1), (y, stages l2 h2)]) h ?_
  intro r hr s s1 s2
  have hs : s = 1 ∨ s = 2 := by simp at s2; omega
  simp only [List.mem_cons, List.not_mem_nil, or_false] at hr
  rcases hr with rfl | rfl <;> rcases hs with rfl | rfl <;> simpa [stages]

theorem two_cooling (u : Units K) {q95 seer2 eer2 mx : K} {cop82 : Option K} (heer : eer2 ≠ 0) (hcop : cop82.getD (seer2 / 2) ≠ 0) (hmx : frF 95 < mx) :
    ∃ qc pc, twoCooling u q95 seer2 eer2 mx cop82 = .ok (qc, pc) ∧ Rows 2 (coolingRows mx (stages (q95 * capacity82 * 0.728) (q95 * capacity82)) (stages (q95 * 0.728) q95)) qc ∧
      Rows 2 (coolingRows mx (stages (q95 * capacity82 * 0.728 / cop82.getD (seer2 / 2)) (q95 / (eer2 * u.btuh) * capacity82 * input82))
        (stages (q95 * capacity82 * 0.728 / cop82.getD (seer2 / 2) / (capacity82 * input82)) (q95 / (eer2 * u.btuh)))) pc := by
  have hb0 := capacity82_pos (K := K)
  have hb1 := input82_pos (K := K)
  have hm0 : (1 : K) / capacity82 ≠ 0 := div_ne_zero one_ne_zero hb0.ne'
  have hm1 : (1 : K) / capacity82 * (1 / input82) ≠ 0 := mul_ne_zero hm0 (div_ne_zero one_ne_zero hb1.ne')
  have hbt := u.btuh_pos.ne'
  have s1 : (1 : Int) ≤ 1 ∧ (1 : Int) < ((2 : Nat) : Int) := by norm_num
  have s1' : (1 : Int) ≤ 1 ∧ (1 : Int) ≤ ((2 : Nat) : Int) := by norm_num
  have s2 : (1 : Int) ≤ 2 ∧ (2 : Int) ≤ ((2 : Nat) : Int) := by norm_num
  obtain ⟨q1, e1, H1⟩ := (Holds.init 2 (sorted_82_95 (K := K))).set 2 (frF 95) q95 s2 (by simp) (by apart)
  obtain ⟨q2, e2, H2⟩ := H1.ratio 1 (frF 95) 0.728 (by here) s1 (by apart)
  obtain ⟨q3, e3, H3⟩ := H2.coolDown 2 (frF 82) (frF 95) (1 / capacity82) (by here) (by simp) f82_95 hm0 (by apart)
  obtain ⟨q4, e4, H4⟩ := H3.ratio 1 (frF 82) 0.728 (by here) s1 (by apart)
  obtain ⟨p1, e5, G1⟩ := (Holds.init 2 (sorted_82_95 (K := K))).set 2 (frF 95) (q95 / (eer2 * u.btuh)) s2 (by simp) (by apart)
  obtain ⟨p2, e6, G2⟩ := G1.coolDown 2 (frF 82) (frF 95) (1 / capacity82 * (1 / input82)) (by here) (by simp) f82_95 hm1 (by apart)
  obtain ⟨p3, e7, G3⟩ := G2.set 1 (frF 82) (q95 / (1 / capacity82) * 0.728 / cop82.getD (seer2 / 2)) s1' (by simp) (by apart)
  obtain ⟨p4, e8, G4⟩ := G3.coolUp 1 (frF 95) (frF 82) (1 / capacity82 * (1 / input82)) (by here) (by simp) f82_95 hm1 (by apart)
  have R1 := stages_rows H4 (x := frF 82) (y := frF 95) (by here) (by here) (by here) (by here)
  have R2 := stages_rows G4 (x := frF 82) (y := frF 95) (by here) (by here) (by here) (by here)
  obtain ⟨qc, pc, e9, r1, r2⟩ := cooling_extremes R1 R2 hmx
  refine ⟨qc, pc, ?_, ?_, ?_⟩
  · simp only [twoCooling, biquad_cap_value, biquad_eir_value, bind_ok, pdiv_ok hb0.ne', pdiv_ok hb1.ne', e1, e2, e3, e4,
      H4.over (show ((2 : Int), frF 95, q95) ∈ _ by here) (mul_ne_zero heer hbt), e5, e6, H4.over (show ((1 : Int), frF 82, q95 / (1 / capacity82) * 0.728) ∈ _ by here) hcop, e7, e8, e9]
  · simpa only [show q95 / (1 / capacity82) = q95 * capacity82 by simp] using r1
  · have a : q95 / (1 / capacity82) = q95 * capacity82 := by simp
    have b : q95 / (eer2 * u.btuh) / (1 / capacity82 * (1 / input82)) = q95 / (eer2 * u.btuh) * capacity82 * input82 := by field_simp
    have c : ∀ y : K, y * (1 / capacity82 * (1 / input82)) = y / (capacity82 * input82) := by intro y; field_simp
    simpa only [a, b, c] using r2

theorem two_heating {q47 : K} {q17 : Option K} {hspf2 mn : K} {cop : Option K} (hq47 : q47 ≠ 0) (hcop : heatingCop hspf2 cop ≠ 0) (hmn : mn < frF 5) :
    ∃ qh ph, twoHeating q47 q17 hspf2 mn cop = .ok (qh, ph) ∧ Rows 2 (heatingRows mn (stages (heating17 q47 q17 * 0.712) (heating17 q47 q17)) (stages (q47 * 0.712) q47)) qh ∧
      Rows 2 (heatingRows mn (stages (heating17 q47 q17 / heatingCop hspf2 cop * input17 * (0.712 * 0.850)) (heating17 q47 q17 / heatingCop hspf2 cop * input17))
        (stages (q47 / heatingCop hspf2 cop * (0.712 * 0.850)) (q47 / heatingCop hspf2 cop))) ph := by
  have s1 : (1 : Int) ≤ 1 ∧ (1 : Int) < ((2 : Nat) : Int) := by norm_num
  have s2 : (1 : Int) ≤ 2 ∧ (2 : Int) ≤ ((2 : Nat) : Int) := by norm_num
  obtain ⟨m, hm, hm'⟩ := qm17_ok (d := (0.626 : K)) (q17 := q17) hq47
  obtain ⟨q1, e1, H1⟩ := (Holds.init 2 (sorted_17_47 (K := K))).set 2 (frF 47) q47 s2 (by simp) (by apart)
  obtain ⟨q2, e2, H2⟩ := H1.ratio 1 (frF 47) 0.712 (by here) s1 (by apart)
  obtain ⟨q3, e3, H3⟩ := H2.heatDown 2 (frF 17) (frF 47) m (by here) (by simp) f17_47 (by apart)
  obtain ⟨q4, e4, H4⟩ := H3.ratio 1 (frF 17) 0.712 (by here) s1 (by apart)
  obtain ⟨p1, e6, G1⟩ := (Holds.init 2 (sorted_17_47 (K := K))).set 2 (frF 47) (q47 / heatingCop hspf2 cop) s2 (by simp) (by apart)
  obtain ⟨p2, e7, G2⟩ := G1.ratio 1 (frF 47) (0.712 * 0.850) (by here) s1 (by apart)
  obtain ⟨p3, e8, G3⟩ := G2.heatDown 2 (frF 17) (frF 47) (m * input17) (by here) (by simp) f17_47 (by apart)
  obtain ⟨p4, e9, G4⟩ := G3.ratio 1 (frF 17) (0.712 * 0.850) (by here) s1 (by apart)
  have R1 := stages_rows H4 (x := frF 17) (y := frF 47) (by here) (by here) (by here) (by here)
  have R2 := stages_rows G4 (x := frF 17) (y := frF 47) (by here) (by here) (by here) (by here)
  obtain ⟨qh, e5, r1⟩ := heating_extremes R1 hmn
  obtain ⟨ph, e10, r2⟩ := heating_extremes R2 hmn
  refine ⟨qh, ph, ?_, ?_, ?_⟩
  · have c := r1.cell (x := frF 47) (f := stages (q47 * 0.712) q47) (by simp [heatingRows]) s2.1 s2.2
    have c' : Cell 2 qh 2 (frF 47) q47 := by simpa [stages] using c
    simp only [twoHeating, biquad_heat_value, hm, bind_ok, e1, e2, e3, e4, e5, getOver_ok c' (show cop47 hspf2 cop ≠ 0 from hcop), show q47 / cop47 hspf2 cop = q47 / heatingCop hspf2 cop from rfl,
      e6, e7, e8, e9, e10, pure_eq_ok]
  · simpa only [hm', heating17] using r1
  · have b : q47 / heatingCop hspf2 cop * (m * input17) = heating17 q47 q17 / heatingCop hspf2 cop * input17 := by rw [heating17, ← hm']; ring
    simpa only [b] using r2

end Resdx.Tabular
