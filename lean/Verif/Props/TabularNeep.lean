import Verif.Lemmas.TabularNeep
import Mathlib.Algebra.Order.Ring.Rat

/-! # Properties C33 and C70: tables built from measured data -/

set_option linter.unusedSectionVars false
set_option linter.unusedSimpArgs false

namespace Resdx.Props

open Tabular Tabular.Table Spec Util

variable {K : Type} [Field K] [LinearOrder K] [IsStrictOrderedRing K]

/-- Measured data of a unit in Btu/h and kW (rows are temperatures, columns minimum, rated and maximum speed). -/
def exNeep : Neep ℚ :=
  { coolingCapacities := [[some 10000, none, some 30000], [some 9000, some 20000, some 28000]]
    coolingPowers := [[some 1, none, some 3], [some 1, some 2, some 4]]
    heatingCapacities := [[some 7000, none, some 20000], [some 8000, some 15000, some 22000], [some 9000, some 20000, some 28000]]
    heatingPowers := [[some 1, none, some 3], [some 1, some 2, some 3], [some 1, some 2, some 4]] }

/-- C33 does not hold: after one call that returns, the caller's lists are different and a second call with the same lists raises. -/
theorem C33_refuted :
    ∃ (u : Units ℚ) (d : Neep ℚ), (∃ p, (makeNeep u none (frF 125) (frF 0) d).1 = .ok p) ∧ (makeNeep u none (frF 125) (frF 0) d).2 ≠ d ∧
      (makeNeep u none (frF 125) (frF 0) (makeNeep u none (frF 125) (frF 0) d).2).1 = .error .value := by
  have h : ((makeNeep (Units.ofOnes ℚ) none (frF 125) (frF 0) exNeep).1.isOk = true ∧
      (makeNeep (Units.ofOnes ℚ) none (frF 125) (frF 0) exNeep).2 ≠ exNeep) ∧
      (makeNeep (Units.ofOnes ℚ) none (frF 125) (frF 0) (makeNeep (Units.ofOnes ℚ) none (frF 125) (frF 0) exNeep).2).1 = .error .value := by
    decide +kernel
  refine ⟨Units.ofOnes ℚ, exNeep, ?_, h.1.2, h.2⟩
  have h1 := h.1.1
  cases hm : (makeNeep (Units.ofOnes ℚ) none (frF 125) (frF 0) exNeep).1 with
  | ok p => exact ⟨p, rfl⟩
  | error e => rw [hm] at h1; simp [Except.isOk, Except.toBool] at h1

/-- C33, the general failure: whenever a call returns, the lists it was given have grown by two rows per cooling table, and calling it again with
the same lists raises, whatever the unit, cut-out and range arguments of the second call. -/
theorem C33_second_call_raises (u u' : Units K) (lct lct' : Option K) (mx mn mx' mn' : K) (d d' : Neep K) (p : Perf K)
    (h : makeNeep u lct mx mn d = (.ok p, d')) :
    d.coolingCapacities.length = 2 ∧ d'.coolingCapacities.length = 4 ∧ ∃ e, (makeNeep u' lct' mx' mn' d').1 = .error e := by
  have key : ∀ {u : Units K} {lct : Option K} {mx mn : K} {d d' : Neep K} {p : Perf K}, makeNeep u lct mx mn d = (.ok p, d') →
      d.coolingCapacities.length = 2 ∧ d'.coolingCapacities.length = 4 := by
    intro u lct mx mn d d' p h
    unfold makeNeep at h
    cases hb : neepBody lct mx mn (neepTables lct (d.convert u)) with
    | mk r tables =>
      rw [hb] at h
      cases r with
      | error e => simp [bind_error] at h
      | ok w =>
        obtain ⟨hq, -⟩ := neepBody_ok hb
        simp only [Prod.mk.injEq] at h
        obtain ⟨g1, g2⟩ := gap_coolChain hq
        rw [← h.2]
        refine ⟨?_, g2⟩
        have : ((d.coolingCapacities.length : Int)) = 2 := by
          simpa [gap, neepTables, Table.init, Neep.convert, convertCells, sub_eq_zero] using g1
        omega
  obtain ⟨k1, k2⟩ := key h
  refine ⟨k1, k2, ?_⟩
  cases h2 : makeNeep u' lct' mx' mn' d' with
  | mk r d2 => cases r with
    | error e => exact ⟨e, rfl⟩
    | ok p2 =>
      have := (key h2).1
      omega

/-- The value of row `i` and speed `s` in a list of measured rows. -/
def measured (data : List (List (Option K))) (i s : Nat) : Option K := (data[i]?.bind fun row => row[s - 1]?).join

theorem measured_cell {temps : List K} {data : List (List (Option K))} (f : K) (hs : temps.Pairwise (· < ·)) (hrows : data.length = temps.length)
    (hcols : ∀ row ∈ data, row.length = 3) {i s : Nat} (h1 : 1 ≤ s) (h3 : s ≤ 3) {v x : K} (hx : temps[i]? = some x)
    (hv : measured data i s = some v) : Cell 3 (Table.init temps 3 (some (convertCells f data))) (s : Int) x (v * f) := by
  have hw : TableWF (Table.init temps 3 (some (convertCells f data))) := by
    refine ⟨hs, by simp [Table.init, convertCells, hrows], ?_⟩
    intro row hr
    simp only [Table.init, convertCells, Option.getD_some, List.mem_map] at hr
    obtain ⟨row', hr', rfl⟩ := hr
    simp [hcols row' hr', Table.init]
  refine ⟨hw, rfl, ⟨by omega, by omega⟩, ?_⟩
  rw [get_at hw (s := s - 1) (i := i) (by omega) hx]
  simp only [measured] at hv
  cases hd : data[i]? with
  | none => rw [hd] at hv; simp at hv
  | some row =>
    rw [hd] at hv
    simp only [Option.bind_some] at hv
    cases hc : row[s - 1]? with
    | none => rw [hc] at hv; simp at hv
    | some c =>
      rw [hc] at hv
      simp only [Option.join_some] at hv
      subst hv
      simp [Table.init, convertCells, at?, hd, hc]

/-- The shape of measured data: two rows of three cells for cooling, one per heating temperature for heating. -/
structure MeasuredShape (lct : Option K) (d : Neep K) : Prop where
  qc : d.coolingCapacities.length = 2 ∧ ∀ row ∈ d.coolingCapacities, row.length = 3
  pc : d.coolingPowers.length = 2 ∧ ∀ row ∈ d.coolingPowers, row.length = 3
  qh : d.heatingCapacities.length = (if lct.isSome then 4 else 3) ∧ ∀ row ∈ d.heatingCapacities, row.length = 3
  ph : d.heatingPowers.length = (if lct.isSome then 4 else 3) ∧ ∀ row ∈ d.heatingPowers, row.length = 3

/-- The temperature (F) of a row of measured cooling data. -/
def coolingRow : Nat → Option K
  | 0 => some 82
  | 1 => some 95
  | _ => none

/-- The temperature (F) of a row of measured heating data. -/
def heatingRow (lct : Option K) (i : Nat) : Option K :=
  match lct with
  | none => ([5, 17, 47] : List K)[i]?
  | some l => ([l, 5, 17, 47] : List K)[i]?

/-- C70: a table built from measured data returns every measured value, in SI units, at its temperature and speed. The two rated-speed rows
the builder always fills itself (82 F cooling and the cut-out row) are excepted. -/
theorem C70_measured_reproduced (u : Units K) (lct : Option K) (mx mn : K) (d d' : Neep K) (p : Perf K) (hshape : MeasuredShape lct d)
    (h : makeNeep u lct mx mn d = (.ok p, d')) (s : Nat) (h1 : 1 ≤ s) (h3 : s ≤ 3) (i : Nat) (t v : K) :
    (coolingRow i = some t → (s ≠ 2 ∨ i ≠ 0) → measured d.coolingCapacities i s = some v →
      p.coolingCapacity s (frF t) = .ok (v * u.btuh)) ∧
    (coolingRow i = some t → (s ≠ 2 ∨ i ≠ 0) → measured d.coolingPowers i s = some v →
      p.coolingPower s (frF t) = .ok (v * 1000)) ∧
    (heatingRow lct i = some t → (s ≠ 2 ∨ lct ≠ some t) → measured d.heatingCapacities i s = some v →
      p.heatingCapacity s (frF t) = .ok (v * u.btuh)) ∧
    (heatingRow lct i = some t → (s ≠ 2 ∨ lct ≠ some t) → measured d.heatingPowers i s = some v →
      p.heatingPower s (frF t) = .ok (v * 1000)) := by
  unfold makeNeep at h
  cases hb : neepBody lct mx mn (neepTables lct (d.convert u)) with
  | mk r tables =>
    rw [hb] at h
    cases r with
    | error e => simp [bind_error] at h
    | ok w =>
      obtain ⟨c1, c2, c3, c4⟩ := neepBody_ok hb
      simp only [Prod.mk.injEq, bind_ok] at h
      have hp : p = tables := by
        have := h.1
        unfold Perf.init at this
        split at this
        · simp at this
        · split at this
          · simp at this
          · split at this
            · simp at this
            · split at this
              · simp at this
              · simp only [Except.ok.injEq] at this; rw [← this]
      subst hp
      have crow : coolingRow i = some t → ([frF 82, frF 95] : List K)[i]? = some (frF t) ∧ (i ≠ 0 → frF t ≠ frF 82) := by
        intro ht
        match i, ht with
        | 0, ht => simp only [coolingRow, Option.some.injEq] at ht; simp [← ht]
        | 1, ht =>
          simp only [coolingRow, Option.some.injEq] at ht
          refine ⟨by simp [← ht], fun _ => ?_⟩
          rw [← ht, ne_eq, frF_inj]; norm_num
      have hsort : (neepHeatingTemps lct).Pairwise (· < ·) := by
        obtain ⟨s1, s2⟩ := sublist_heatChain c3
        exact s2.sublist s1
      have hlen : (neepHeatingTemps lct).length = if lct.isSome then 4 else 3 := by
        cases lct <;> simp [neepHeatingTemps]
      have hrow : heatingRow lct i = some t → (neepHeatingTemps lct)[i]? = some (frF t) := by
        intro ht
        have : neepHeatingTemps lct = (match lct with | none => ([5, 17, 47] : List K) | some l => [l, 5, 17, 47]).map frF := by
          cases lct <;> simp [neepHeatingTemps]
        rw [this, List.getElem?_map]
        cases lct <;> · simp only [heatingRow] at ht; rw [ht]; rfl
      have hnl : lct ≠ some t → ∀ l, lct = some l → frF t ≠ frF l := by
        intro hne l hl hcon
        rw [frF_inj] at hcon
        exact hne (by rw [hl, hcon])
      have hcast : ((s : Int) : K) = (s : K) := by push_cast; rfl
      refine ⟨fun ht hne hv => ?_, fun ht hne hv => ?_, fun ht hne hv => ?_, fun ht hne hv => ?_⟩
      · have := coolChain_cell c1 (measured_cell u.btuh sorted_82_95 (by simp [hshape.qc.1]) hshape.qc.2 h1 h3 (crow ht).1 hv)
          (by rcases hne with h | h; exact .inl (by omega); exact .inr ((crow ht).2 h))
        rwa [hcast] at this
      · have := coolChain_cell c2 (measured_cell 1000 sorted_82_95 (by simp [hshape.pc.1]) hshape.pc.2 h1 h3 (crow ht).1 hv)
          (by rcases hne with h | h; exact .inl (by omega); exact .inr ((crow ht).2 h))
        rwa [hcast] at this
      · have := heatChain_cell c3 (measured_cell u.btuh hsort (by rw [hshape.qh.1, hlen]) hshape.qh.2 h1 h3 (hrow ht) hv)
          (by rcases hne with h | h; exact .inl (by omega); exact .inr (hnl h))
        rwa [hcast] at this
      · have := heatChain_cell c4 (measured_cell 1000 hsort (by rw [hshape.ph.1, hlen]) hshape.ph.2 h1 h3 (hrow ht) hv)
          (by rcases hne with h | h; exact .inl (by omega); exact .inr (hnl h))
        rwa [hcast] at this

/-! ## A concrete data set -/

example : MeasuredShape none exNeep :=
  ⟨by decide +kernel, by decide +kernel, by decide +kernel, by decide +kernel⟩

example : (makeNeep (Units.ofOnes ℚ) none (frF 125) (frF 0) exNeep).1.map (fun p => (p.coolingCapacity 3 (frF 95), p.heatingPower 1 (frF 5))) =
    .ok (.ok 28000, .ok 1000) := by decide +kernel

example : coolingRow 1 = some (95 : ℚ) ∧ measured exNeep.coolingCapacities 1 3 = some 28000 ∧ heatingRow none 0 = some (5 : ℚ) ∧
    measured exNeep.heatingPowers 0 1 = some 1 := by decide +kernel

end Resdx.Props
