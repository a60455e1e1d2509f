import Verif.Lemmas.TabularGross
import Mathlib.Algebra.Order.Ring.Rat

/-! # Property C31: gross tables -/

set_option linter.unusedSectionVars false
set_option linter.unusedSimpArgs false

namespace Resdx.Props

open Tabular Tabular.Table Spec

variable {K : Type} [Field K] [LinearOrder K] [IsStrictOrderedRing K]

/-- C31 for one table: the correction returns exactly when there is one fan power per speed and every cell exceeds the fan power of its
speed; otherwise it raises `AssertionError`. -/
theorem C31_correction_returns (t : Table K) (h : Fresh t) (p : List K) :
    (p.length = t.nSpeeds ∧ Exceeds t p → (applyFanPowerCorrection p t).1 = .ok ()) ∧
    (¬ (p.length = t.nSpeeds ∧ Exceeds t p) → (applyFanPowerCorrection p t).1 = .error .assertion) := by
  refine ⟨?_, correction_fail h⟩
  rintro ⟨h1, h2⟩
  obtain ⟨t', e, -⟩ := correction_ok h h1 h2
  rw [e]

/-- C31 for one table: afterwards every lookup, at any speed and temperature, is lower by the fan power interpolated over speed. -/
theorem C31_correction (t : Table K) (h : Fresh t) (p : List K) (t' : Table K) (hrun : applyFanPowerCorrection p t = (.ok (), t')) :
    Fresh t' ∧ t'.temperatures = t.temperatures ∧ t'.nSpeeds = t.nSpeeds ∧
    ∃ f, SpeedInterpolant p f ∧ ∀ σ x, ∃ y, t.calculate σ x = .ok y ∧ t'.calculate σ x = .ok (y - f σ) := by
  by_cases hp : p.length = t.nSpeeds ∧ Exceeds t p
  · obtain ⟨t1, e1, e2, e3, e4, e5⟩ := correction_ok h hp.1 hp.2
    rw [hrun] at e1
    simp only [Prod.mk.injEq, true_and] at e1
    subst e1
    refine ⟨e2, e3, e4, _, interp1_speedInterpolant _ hp.1, fun σ x => ?_⟩
    obtain ⟨vs, -, -, -, -, -, -, hcalc⟩ := fresh_data h
    exact ⟨_, hcalc σ x, e5 σ x _ (hcalc σ x)⟩
  · have := correction_fail h hp
    rw [hrun] at this; simp at this

/-- An example table of net powers. -/
def exPower : Table ℚ :=
  { temperatures := [10, 20], nSpeeds := 2, data := [[some 10, some 30], [some 20, some 40]]
    interpolator := some ⟨[10, 20], 2, [[10, 30], [20, 40]]⟩ }

theorem exPower_fresh : Fresh exPower :=
  ⟨{ temperatures := [10, 20], nSpeeds := 2, data := [[some 10, some 30], [some 20, some 40]] }, by decide +kernel⟩

example : Fresh exPower ∧ (applyFanPowerCorrection [1, 3] exPower).1 = .ok () ∧ exPower.calculate (3 / 2) 15 = .ok 25 ∧
    (applyFanPowerCorrection [1, 3] exPower).2.calculate (3 / 2) 15 = .ok 23 ∧
    (applyFanPowerCorrection [10, 3] exPower).1 = .error .assertion ∧ (applyFanPowerCorrection [1] exPower).1 = .error .assertion :=
  ⟨exPower_fresh, by decide +kernel, by decide +kernel, by decide +kernel, by decide +kernel, by decide +kernel⟩

/-- C31: `make_gross` adds the fan power to the cooling capacity and takes it from the heating capacity and both powers, at every speed and
temperature, tabulated or not. -/
theorem C31_make_gross (d d' : Perf K) (cp hp : List K) (hqc : Fresh d.coolingCapacities) (hpc : Fresh d.coolingPowers)
    (hqh : Fresh d.heatingCapacities) (hph : Fresh d.heatingPowers) (hrun : Perf.makeGross cp hp d = (.ok (), d')) :
    ∃ fc fh, SpeedInterpolant cp fc ∧ SpeedInterpolant hp fh ∧ ∀ σ x, ∃ qc pc qh ph,
      d.coolingCapacity σ x = .ok qc ∧ d'.coolingCapacity σ x = .ok (qc + fc σ) ∧
      d.coolingPower σ x = .ok pc ∧ d'.coolingPower σ x = .ok (pc - fc σ) ∧
      d.heatingCapacity σ x = .ok qh ∧ d'.heatingCapacity σ x = .ok (qh - fh σ) ∧
      d.heatingPower σ x = .ok ph ∧ d'.heatingPower σ x = .ok (ph - fh σ) := by
  simp only [Perf.makeGross, PyM.bind_run, Perf.onQc, Perf.onPc, Perf.onQh, Perf.onPh, PyM.zoom_run] at hrun
  obtain ⟨qc, pc, qh, ph⟩ := d
  simp only at hqc hpc hqh hph hrun
  cases h1 : applyFanPowerCorrection (cp.map (- ·)) qc with
  | mk r1 qc' =>
  rw [h1] at hrun
  cases r1 with
  | error e => simp at hrun
  | ok u1 =>
  simp only at hrun
  cases h2 : applyFanPowerCorrection cp pc with
  | mk r2 pc' =>
  rw [h2] at hrun
  cases r2 with
  | error e => simp at hrun
  | ok u2 =>
  simp only at hrun
  cases h3 : applyFanPowerCorrection hp qh with
  | mk r3 qh' =>
  rw [h3] at hrun
  cases r3 with
  | error e => simp at hrun
  | ok u3 =>
  simp only at hrun
  cases h4 : applyFanPowerCorrection hp ph with
  | mk r4 ph' =>
  rw [h4] at hrun
  simp only [Prod.mk.injEq] at hrun
  obtain ⟨rfl, rfl⟩ := hrun
  have key : ∀ {t t' : Table K} {p : List K}, Fresh t → applyFanPowerCorrection p t = (.ok (), t') → p.length = t.nSpeeds ∧
      ∀ σ x, ∃ y, t.calculate σ x = .ok y ∧ t'.calculate σ x = .ok (y - interp1 (speedGrid t.nSpeeds) p σ) := by
    intro t t' p hf hr
    by_cases hc : p.length = t.nSpeeds ∧ Exceeds t p
    · obtain ⟨t1, e1, -, -, -, e5⟩ := correction_ok hf hc.1 hc.2
      rw [hr] at e1
      simp only [Prod.mk.injEq, true_and] at e1
      subst e1
      obtain ⟨vs, -, -, -, -, -, -, hcalc⟩ := fresh_data hf
      exact ⟨hc.1, fun σ x => ⟨_, hcalc σ x, e5 σ x _ (hcalc σ x)⟩⟩
    · have := correction_fail hf hc
      rw [hr] at this; simp at this
  obtain ⟨l1, k1⟩ := key hqc h1
  obtain ⟨l2, k2⟩ := key hpc h2
  obtain ⟨l3, k3⟩ := key hqh h3
  obtain ⟨l4, k4⟩ := key hph h4
  rw [List.length_map] at l1
  have hneg : ∀ σ, interp1 (speedGrid cp.length) (cp.map (- ·)) σ = - interp1 (speedGrid cp.length) cp σ := by
    intro σ
    have h0 := interp1_sub (grid := speedGrid cp.length) (v := List.replicate cp.length (0 : K)) (w := cp)
      (by rw [speedGrid_length, List.length_replicate]) (by rw [speedGrid_length]) σ
    have hz : interp1 (speedGrid cp.length) (List.replicate cp.length (0 : K)) σ = 0 := by
      have hg : ∀ i, (List.replicate cp.length (0 : K)).getD i 0 = 0 := by
        intro i; rw [List.getD_eq_getElem?_getD, List.getElem?_replicate]; split <;> rfl
      simp only [interp1, hg, lerp]; simp
    rw [hz, zero_sub] at h0
    rw [← h0]; congr 1
    refine List.ext_getElem (by simp) ?_
    intro i g1 g2; simp
  refine ⟨interp1 (speedGrid cp.length) cp, interp1 (speedGrid hp.length) hp, interp1_speedInterpolant _ rfl, interp1_speedInterpolant _ rfl,
    fun σ x => ?_⟩
  obtain ⟨y1, a1, b1⟩ := k1 σ x
  obtain ⟨y2, a2, b2⟩ := k2 σ x
  obtain ⟨y3, a3, b3⟩ := k3 σ x
  obtain ⟨y4, a4, b4⟩ := k4 σ x
  rw [← l1, hneg, sub_neg_eq_add] at b1
  rw [← l2] at b2
  rw [← l3] at b3
  rw [← l4] at b4
  exact ⟨y1, y2, y3, y4, a1, b1, a2, b2, a3, b3, a4, b4⟩

/-- C31: `make_gross` returns exactly when there is one fan power per speed and every cell stays positive, otherwise `AssertionError` is raised. -/
theorem C31_make_gross_returns (d : Perf K) (cp hp : List K) (hqc : Fresh d.coolingCapacities) (hpc : Fresh d.coolingPowers)
    (hqh : Fresh d.heatingCapacities) (hph : Fresh d.heatingPowers) :
    let ok := cp.length = d.coolingCapacities.nSpeeds ∧ Exceeds d.coolingCapacities (cp.map (- ·)) ∧
      cp.length = d.coolingPowers.nSpeeds ∧ Exceeds d.coolingPowers cp ∧
      hp.length = d.heatingCapacities.nSpeeds ∧ Exceeds d.heatingCapacities hp ∧
      hp.length = d.heatingPowers.nSpeeds ∧ Exceeds d.heatingPowers hp
    (ok → (Perf.makeGross cp hp d).1 = .ok ()) ∧ (¬ ok → (Perf.makeGross cp hp d).1 = .error .assertion) := by
  obtain ⟨qc, pc, qh, ph⟩ := d
  simp only at hqc hpc hqh hph
  simp only [Perf.makeGross, PyM.bind_run, Perf.onQc, Perf.onPc, Perf.onQh, Perf.onPh, PyM.zoom_run]
  have cases1 : ∀ {t : Table K} (p : List K), Fresh t → (p.length = t.nSpeeds ∧ Exceeds t p ∧ (applyFanPowerCorrection p t).1 = .ok ()) ∨
      (¬ (p.length = t.nSpeeds ∧ Exceeds t p) ∧ (applyFanPowerCorrection p t).1 = .error .assertion) := by
    intro t p hf
    obtain ⟨h1, h2⟩ := C31_correction_returns t hf p
    by_cases hc : p.length = t.nSpeeds ∧ Exceeds t p
    · exact .inl ⟨hc.1, hc.2, h1 hc⟩
    · exact .inr ⟨hc, h2 hc⟩
  rcases cases1 (cp.map (- ·)) hqc with ⟨l1, x1, h1⟩ | ⟨n1, h1⟩
  · rw [List.length_map] at l1
    rcases cases1 cp hpc with ⟨l2, x2, h2⟩ | ⟨n2, h2⟩
    · rcases cases1 hp hqh with ⟨l3, x3, h3⟩ | ⟨n3, h3⟩
      · rcases cases1 hp hph with ⟨l4, x4, h4⟩ | ⟨n4, h4⟩
        · simp only [h1, h2, h3, h4, true_implies]
          exact ⟨fun _ => trivial, fun hn => absurd ⟨l1, x1, l2, x2, l3, x3, l4, x4⟩ hn⟩
        · simp only [h1, h2, h3, h4]
          exact ⟨fun ⟨_, _, _, _, _, _, a, b⟩ => absurd ⟨a, b⟩ n4, fun _ => trivial⟩
      · simp only [h1, h2, h3]
        exact ⟨fun ⟨_, _, _, _, a, b, _, _⟩ => absurd ⟨a, b⟩ n3, fun _ => trivial⟩
    · simp only [h1, h2]
      exact ⟨fun ⟨_, _, a, b, _, _, _, _⟩ => absurd ⟨a, b⟩ n2, fun _ => trivial⟩
  · simp only [h1]
    exact ⟨fun ⟨a, b, _, _, _, _, _, _⟩ => absurd ⟨by rw [List.length_map]; exact a, b⟩ n1, fun _ => trivial⟩

example : (Perf.makeGross [1, 2] [1, 2] (⟨exPower, exPower, exPower, exPower⟩ : Perf ℚ)).1 = .ok () ∧
    (Perf.makeGross [1, 2] [1, 2] (⟨exPower, exPower, exPower, exPower⟩ : Perf ℚ)).2.coolingCapacity 2 20 = .ok 42 ∧
    (Perf.makeGross [1, 2] [1, 20 + 20] (⟨exPower, exPower, exPower, exPower⟩ : Perf ℚ)).1 = .error .assertion := by
  decide +kernel

end Resdx.Props
