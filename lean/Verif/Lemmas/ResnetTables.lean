import Verif.Model.ResnetBuild
import Verif.Spec.ResnetBuild
import Verif.Lemmas.TabularCells
import Verif.Lemmas.BaseModel
import Verif.Props.TabularGross
import Verif.Props.TabularInterp

/-! # The gross tables of a constructed RESNET unit -/

set_option linter.unusedSectionVars false
set_option linter.unusedSimpArgs false

namespace Resdx.Build

open Spec Tabular BaseModel Props

variable {K : Type} [Field K] [LinearOrder K] [IsStrictOrderedRing K]

theorem fresh_full {t : Table K} (h : Fresh t) {k : Nat} (hk : k < t.nSpeeds) {x : K} (hx : x ∈ t.temperatures) : ∃ v, t.get ((k : Int) + 1) x = .ok (some v) := by
  obtain ⟨vs, hvs, hlen, hrows, -⟩ := Table.fresh_data h
  obtain ⟨i, hi⟩ := List.mem_iff_getElem?.1 hx
  have hi' : i < vs.length := by rw [hlen]; exact (List.getElem?_eq_some_iff.1 hi).1
  have hk' : k < vs[i].length := by rw [hrows _ (List.getElem_mem hi')]; exact hk
  exact ⟨vs[i][k], (Table.fresh_cell h hvs (s := k) (by omega) hi).2 ⟨vs[i], List.getElem?_eq_getElem hi', List.getElem?_eq_getElem hk'⟩⟩

/-- After a correction every tabulated value is positive. -/
theorem corrected_pos {t t' : Table K} (h : Fresh t) {p : List K} (hrun : Table.applyFanPowerCorrection p t = (.ok (), t')) {k : Nat} (hk : k < t.nSpeeds) {x : K}
    (hx : x ∈ t.temperatures) : ∃ y, t'.calculate ((k : K) + 1) x = .ok y ∧ 0 < y := by
  have hp : p.length = t.nSpeeds ∧ Exceeds t p := by
    by_contra hc
    have := (C31_correction_returns t h p).2 hc
    rw [hrun] at this; simp at this
  obtain ⟨-, -, -, f, hf, hcalc⟩ := C31_correction t h p t' hrun
  obtain ⟨v, hv⟩ := fresh_full h hk hx
  have hs : IsSpeed t ((k : Int) + 1) := ⟨by omega, by omega⟩
  have hkp : k < p.length := by omega
  have h1 := C30_node t h _ x v hs hv
  push_cast at h1
  obtain ⟨y, h2, h3⟩ := hcalc ((k : K) + 1) x
  rw [h1] at h2
  simp only [Except.ok.injEq] at h2
  subst h2
  rw [hf.node k p[k] (List.getElem?_eq_getElem hkp)] at h3
  exact ⟨_, h3, sub_pos.2 (hp.2 k x v _ hv (List.getElem?_eq_getElem hkp))⟩

/-- Also halfway between two speeds. -/
theorem corrected_pos_half {t t' : Table K} (h : Fresh t) {p : List K} (hrun : Table.applyFanPowerCorrection p t = (.ok (), t')) (hn : 2 ≤ t.nSpeeds) {x : K}
    (hx : x ∈ t.temperatures) : ∃ y, t'.calculate (3 / 2) x = .ok y ∧ 0 < y := by
  obtain ⟨y0, e0, p0⟩ := corrected_pos h hrun (k := 0) (by omega) hx
  obtain ⟨y1, e1, p1⟩ := corrected_pos h hrun (k := 1) (by omega) hx
  obtain ⟨hf, -, hn', -⟩ := C31_correction t h p t' hrun
  obtain ⟨z0, z1, y, g0, g1, g, hline⟩ := C30_linear_in_speed t' hf 1 (3 / 2) x ⟨by norm_num, by rw [hn']; omega⟩ ⟨by norm_num, by rw [hn']; omega⟩ (.inr rfl)
    (.inl (by norm_num))
  norm_num at e0 e1 g0 g1
  rw [e0] at g0; rw [e1] at g1
  cases g0; cases g1
  refine ⟨y, g, ?_⟩
  unfold OnLine at hline
  push_cast at hline
  norm_num at hline
  linarith

/-- `make_gross` corrects the four tables. -/
theorem makeGross_tables {d d' : Perf K} {cp hp : List K} (hrun : Perf.makeGross cp hp d = (.ok (), d')) :
    Table.applyFanPowerCorrection (cp.map (- ·)) d.coolingCapacities = (.ok (), d'.coolingCapacities) ∧
    Table.applyFanPowerCorrection cp d.coolingPowers = (.ok (), d'.coolingPowers) ∧
    Table.applyFanPowerCorrection hp d.heatingCapacities = (.ok (), d'.heatingCapacities) ∧
    Table.applyFanPowerCorrection hp d.heatingPowers = (.ok (), d'.heatingPowers) := by
  simp only [Perf.makeGross, PyM.bind_run, Perf.onQc, Perf.onPc, Perf.onQh, Perf.onPh, PyM.zoom_run] at hrun
  obtain ⟨qc, pc, qh, ph⟩ := d
  simp only at hrun
  rcases h1 : Table.applyFanPowerCorrection (cp.map (- ·)) qc with ⟨r1, qc'⟩
  rw [h1] at hrun
  rcases r1 with e | u1
  · simp at hrun
  simp only at hrun
  rcases h2 : Table.applyFanPowerCorrection cp pc with ⟨r2, pc'⟩
  rw [h2] at hrun
  rcases r2 with e | u2
  · simp at hrun
  simp only at hrun
  rcases h3 : Table.applyFanPowerCorrection hp qh with ⟨r3, qh'⟩
  rw [h3] at hrun
  rcases r3 with e | u3
  · simp at hrun
  simp only at hrun
  rcases h4 : Table.applyFanPowerCorrection hp ph with ⟨r4, ph'⟩
  rw [h4] at hrun
  rcases r4 with e | u4
  · simp at hrun
  simp only [Prod.mk.injEq, true_and] at hrun
  subst hrun
  exact ⟨rfl, rfl, rfl, rfl⟩

/-! ## Speeds -/

theorem speedMap_get {st : Staging} {i : Nat} {σ : ℝ} : (speedMap st)[i]? = some σ ↔ TableSpeed st i σ := by
  have h : (1.5 : ℝ) = 3 / 2 := by norm_num
  cases st <;> simp only [speedMap, TableSpeed]
  · rcases i with _ | i <;> simp [eq_comm]
  · rcases i with _ | _ | i <;> simp [eq_comm]
  · rcases i with _ | _ | _ | _ | i <;> simp [eq_comm, h]

theorem speedMap_length (st : Staging) : (speedMap st).length = speedCount st := by
  cases st <;> simp [speedMap, speedCount, Staging.value]

/-- The fan powers handed to `make_gross`: that of the compressor speed of each table speed. -/
theorem tableFanPowers_ok {st : Staging} {power : List (Option ℝ)} {l : List ℝ} (h : tableFanPowers (speedMap st) (tableSpeeds st) power = .ok l) :
    l.length = tableSpeeds st ∧ ∀ i σ, TableSpeed st i σ → σ ≠ 3 / 2 → ∃ (k : Nat) (w : ℝ), σ = (k : ℝ) + 1 ∧ power[i]? = some (some w) ∧ l[k]? = some w := by
  unfold tableFanPowers at h
  rw [mapM_range_ok_iff] at h
  obtain ⟨hl, h⟩ := h
  refine ⟨hl, ?_⟩
  have key : ∀ k i : Nat, k < tableSpeeds st → inverseGet (speedMap st) k = .ok i → ∃ w, power[i]? = some (some w) ∧ l[k]? = some w := by
    intro k i hk hi
    obtain ⟨w, h1, h2⟩ := h k hk
    rw [hi, bind_ok, numAt_eq_ok] at h2
    exact ⟨w, h2, h1⟩
  intro i σ hσ h32
  cases st with
  | single =>
    obtain ⟨rfl, rfl⟩ := hσ
    obtain ⟨w, h1, h2⟩ := key 0 0 (by simp [tableSpeeds]) (by simp [inverseGet, speedMap, List.findIdx?_cons])
    exact ⟨0, w, by norm_num, h1, h2⟩
  | two =>
    rcases hσ with ⟨rfl, rfl⟩ | ⟨rfl, rfl⟩
    · obtain ⟨w, h1, h2⟩ := key 1 0 (by simp [tableSpeeds]) (by simp [inverseGet, speedMap, List.findIdx?_cons]; norm_num)
      exact ⟨1, w, by norm_num, h1, h2⟩
    · obtain ⟨w, h1, h2⟩ := key 0 1 (by simp [tableSpeeds]) (by simp [inverseGet, speedMap, List.findIdx?_cons])
      exact ⟨0, w, by norm_num, h1, h2⟩
  | varSpeed =>
    rcases hσ with ⟨rfl, rfl⟩ | ⟨rfl, rfl⟩ | ⟨rfl, rfl⟩ | ⟨rfl, rfl⟩
    · obtain ⟨w, h1, h2⟩ := key 2 0 (by simp [tableSpeeds]) (by simp [inverseGet, speedMap, List.findIdx?_cons]; norm_num)
      exact ⟨2, w, by norm_num, h1, h2⟩
    · obtain ⟨w, h1, h2⟩ := key 1 1 (by simp [tableSpeeds]) (by simp [inverseGet, speedMap, List.findIdx?_cons]; norm_num)
      exact ⟨1, w, by norm_num, h1, h2⟩
    · simp at h32
    · obtain ⟨w, h1, h2⟩ := key 0 3 (by simp [tableSpeeds]) (by simp [inverseGet, speedMap, List.findIdx?_cons]; norm_num)
      exact ⟨0, w, by norm_num, h1, h2⟩

end Resdx.Build
