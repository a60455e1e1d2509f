import Verif.Lemmas.ResnetSample

/-! # The sample coil calculation for any sensible heat ratio -/

set_option linter.unusedSectionVars false
set_option linter.unusedSimpArgs false

namespace Resdx.Sample

open Spec Tabular BaseModel Props ResnetFan Fan Table Build Transfer

theorem coil_ok {m t shr : ℝ} {c : Conditions ℝ} (hin : c.indoor = defaultIndoor env false) (hm : c.flow.mass = some m) (hm0 : 0 < m) (ht0 : 0 < t) (h2 : t ≤ 20000 * m) (s0 : 0 < shr) (s1 : shr ≤ 1) :
    ∃ r, Coil.ratedBypass tools c shr t = .ok r := by
  -- enthalpy and temperature drops
  obtain ⟨x, hx⟩ : ∃ x, x = t / m := ⟨_, rfl⟩
  have hx0 : 0 < x := by rw [hx]; positivity
  have hx1 : x ≤ 20000 := by
    rw [hx, div_le_iff₀ hm0]; exact h2
  have hd : shr * t / (m * Coil.cp) = shr / 1006 * x := by rw [hx]; unfold Coil.cp; field_simp
  have hmc : m * Coil.cp ≠ 0 := by unfold Coil.cp; positivity
  have e1 : (Psych.getH tools.lib c.indoor).1 = .ok (1000 * toC (frF 80) + 2500000 * 0.01) := by rw [hin]; rfl
  have e2 : (Psych.getHr tools.lib c.indoor).1 = .ok (0.01 : ℝ) := by rw [hin]; rfl
  have hp : c.indoor.p = env.atm := by rw [hin]; rfl
  have hdb : c.indoor.db = frF 80 := by rw [hin]; rfl
  have hdbC : c.indoor.dbC = toC (frF 80) := by rw [hin]; rfl
  set y := shr / 1006 * x with hy
  have hy0 : 0 < y := by rw [hy]; positivity
  have hy1 : y ≤ 20 := by rw [hy]; nlinarith
  have hxy : 1000 * y ≤ x := by rw [hy]; nlinarith
  set h0 : ℝ := 1000 * toC (frF 80) + 2500000 * 0.01 with hh0
  -- the outlet
  obtain ⟨w, hw⟩ : ∃ w, w = (h0 - x - 1000 * toC (frF 80 - y)) / 2500000 := ⟨_, rfl⟩
  have hw' : w = 0.01 - (x - 1000 * y) / 2500000 := by
    rw [hw, hh0]; unfold toC; ring
  let out : Psych.PsychState ℝ :=
    { db := frF 80 - y, dbC := toC (frF 80 - y), p := env.atm, wb := some (frC 15), wbC := some (toC (frC 15)), hr := some w, rh := none, h := some (h0 - x), rho := none }
  have eo : Coil.outletState tools c t (shr * t) = .ok out := by
    unfold Coil.outletState
    simp only [e1, bind_ok, hm, pyAttr, pdiv_ok hm0.ne', pdiv_ok hmc, hd, ← hx, hdb, hp, ← hy, out, hw]
    rfl
  have o1 : (Psych.getHr tools.lib out).1 = .ok w := rfl
  have o2 : (Psych.getH tools.lib out).1 = .ok (h0 - x) := rfl
  have tdiff : toC (frF 80) - toC (frF (80 : ℝ) - y) = y := by unfold toC; ring
  have hT : toC (frF (80 : ℝ)) = 26 + 2 / 3 := by unfold toC frF; norm_num
  have hline : Coil.lineHumRatio (toC (frF 80)) 0.01 (toC (frF 80 - y)) w (-1000) = .ok (0.01 - (0.01 - w) / y * (toC (frF 80) + 1000)) := by
    simp only [Coil.lineHumRatio, tdiff, pdiv_ok hy0.ne', bind_ok, pure_eq_ok]
    congr 1; ring
  set wA := 0.01 - (0.01 - w) / y * (toC (frF 80) + 1000) with hwA
  have n1 : ¬ (toC (frF (80 : ℝ) - y) < -1000 ∨ w < wA) := by
    rw [not_or, not_lt, not_lt]
    constructor
    · have : toC (frF (80 : ℝ) - y) = toC (frF 80) - y := by unfold toC; ring
      rw [this, hT]; linarith
    · have h3 : 0 ≤ (0.01 - w) / y := div_nonneg (by rw [hw']; linarith) hy0.le
      have h4 : (0.01 - w) / y * y = 0.01 - w := div_mul_cancel₀ _ hy0.ne'
      have h5 : (0.01 - w) / y * y ≤ (0.01 - w) / y * (toC (frF 80) + 1000) := mul_le_mul_of_nonneg_left (by rw [hT]; linarith) h3
      rw [hwA]; linarith
  let adp : Psych.PsychState ℝ :=
    { db := frC (-1000), dbC := toC (frC (-1000)), p := env.atm, wb := some (frC 15), wbC := some (toC (frC 15)), hr := some wA, rh := none, h := none, rho := none }
  have ea : Coil.adpState tools c.indoor out = .ok adp := by
    have hnew : ∀ f x, tools.newton f x = .ok (-1000) := fun _ _ => rfl
    unfold Coil.adpState
    simp only [e2, o1, bind_ok, hnew, hdbC, out, hline, if_neg n1, hp, adp]
    rfl
  have a1 : (Psych.getH tools.lib adp).1 = .ok (1000 * toC (frC (-1000)) + 2500000 * wA) := rfl
  set hA := 1000 * toC (frC (-1000)) + 2500000 * wA with hhA
  have k1 : hA = h0 - x / y * (toC (frF 80) + 1000) := by
    rw [hhA, hh0, hwA, toC_frC, hw']
    field_simp
    ring
  have k2 : 0 < x / y := by positivity
  have k3 : h0 - hA = x / y * (toC (frF 80) + 1000) := by rw [k1]; ring
  have k4 : h0 - x - hA = x / y * (toC (frF 80) + 1000 - y) := by
    rw [k1]; field_simp; ring
  have p1 : 0 < h0 - hA := by rw [k3, hT]; positivity
  have p2 : 0 < h0 - x - hA := by rw [k4, hT]; exact mul_pos k2 (by linarith)
  have p3 : 0 < (h0 - x - hA) / (h0 - hA) := div_pos p2 p1
  unfold Coil.ratedBypass
  simp only [eo, ea, bind_ok, e1, o2, a1, hm, pyAttr, DX.ratedBypassFactor, pdiv_ok p1.ne', plog, if_pos p3, pure_eq_ok]
  exact ⟨_, rfl⟩


end Resdx.Sample
