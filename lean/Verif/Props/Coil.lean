import Verif.Lemmas.Coil
import Verif.Lemmas.ResnetCoil
import Verif.Props.DXUnit

/-!
# C102–C104: the sensible capacity and the air states of the cooling coil
-/

set_option linter.unusedSectionVars false
set_option linter.unusedSimpArgs false

namespace Resdx.Coil

open Psych Spec

variable {T : Tools}

/-! ## C102: the sensible capacity at the rating point -/

/-- C102, what holds instead: the sensible capacity the unit reports at the condition it was rated at. With the rated outlet (`tO`, `wO`) and apparatus dew point (`tA`, `wA`) it is the rated sensible heat ratio times the
total capacity, multiplied by two factors of at least one: the heat capacity of the vapour, which the rated outlet temperature leaves out, and a correction for the curvature of the enthalpy. (An outlet as dry as
psychrolib's lower bound of the humidity ratio makes it larger still.) -/
theorem C102_rated_point (L : MoistAirLaws T) {c : Conditions ℝ} {m shr total bf ntu s tI wI : ℝ} (hin : Reports T c.indoor tI wI) (wI0 : 1e-7 ≤ wI) (hm : c.flow.mass = some m) (m0 : 0 < m) (q0 : 0 < total)
    (s0 : 0 < shr) (hb : ratedBypass T c shr total = .ok (bf, ntu)) (hs : sensibleFrom T c (.ok total) (DX.bypassFactor ntu m) = .ok s) :
    ∃ out adp tO wO tA wA, outletState T c total (shr * total) = .ok out ∧ adpState T c.indoor out = .ok adp ∧ out.dbC = tO ∧ (getHr T.lib out).1 = .ok wO ∧ Reports T adp tA wA ∧
      1e-7 ≤ wA ∧ tA < tO ∧ tO < tI ∧ wA ≤ wO ∧ wO ≤ wI ∧
      shr * total * (1 + 1860 / 1006 * wA) * (1 + 1860 * (tO - tA) * (wI - wA) / (airEnthalpy tI wI - airEnthalpy tA wA)) ≤ s ∧
      (1e-7 < wO → s = shr * total * (1 + 1860 / 1006 * wA) * (1 + 1860 * (tO - tA) * (wI - wA) / (airEnthalpy tI wI - airEnthalpy tA wA))) := by
  obtain ⟨out, adp, tO, wO, tA, wA, r1, r2, r3, r4, r5, r6, r7, r8, r9, r10, r11, r12, r13, r14, r15, r16, r17, r18, r19⟩ := rated_coil L hin wI0 hm m0 q0 s0 hb
  have hbp : DX.bypassFactor ntu m = .ok bf := by
    have : -ntu / m = Real.log bf := by rw [r19]; field_simp
    simp only [DX.bypassFactor, pdiv_ok m0.ne', bind_ok, pure_eq_ok, this, Real.exp_log r17]
  rw [hbp] at hs
  obtain ⟨t, w, g1, g2, g3, -, g5⟩ := sensible_spec L hin hm hs
  have hD : 0 < airEnthalpy tI wI - airEnthalpy tA wA := by
    unfold airEnthalpy
    nlinarith [mul_nonneg (sub_nonneg.2 (r11.trans r12)) (by linarith : (0:ℝ) ≤ 2501000 + 1860 * tI), mul_pos (by linarith : (0:ℝ) < wA) (by linarith : 0 < tI - tA)]
  set D := airEnthalpy tI wI - airEnthalpy tA wA with hDdef
  have h1bf : (1 - bf) * D = total / m := by linarith
  have hback : total / (m * (1 - bf)) = D := by
    have h1 : (1 - bf) ≠ 0 := by intro h; apply g2; rw [h, mul_zero]
    rw [div_eq_iff g2]
    rw [eq_div_iff m0.ne'] at h1bf
    linarith
  have hsame : airEnthalpy t w = airEnthalpy tA wA := by rw [g3, hback, hDdef]; ring
  obtain ⟨rfl, rfl⟩ := sat_unique L g1 r6 hsame
  rw [← hDdef] at g5
  have hs' : s * D = total * ((1006 + 1860 * w) * (tI - t)) := by
    rw [g5]; unfold airEnthalpy; field_simp; ring
  have hshr : shr * total = m * 1006 * (tI - tO) := by rw [r16]; field_simp
  -- the enthalpy drop along the line
  have hid : (airEnthalpy tI wI - airEnthalpy tO wO) * (tI - t) = (tI - tO) * (D + 1860 * (tO - t) * (wI - w)) := by
    rw [hDdef]; unfold airEnthalpy
    linear_combination (-(2501000 : ℝ) - 1860 * tO) * r13
  have hE : total = m * (total / m) := by field_simp
  have hpos : 0 < (1006 + 1860 * w) * m := by positivity
  have key : shr * total * (1 + 1860 / 1006 * w) * (1 + 1860 * (tO - t) * (wI - w) / D) * D = (1006 + 1860 * w) * m * ((airEnthalpy tI wI - airEnthalpy tO wO) * (tI - t)) := by
    rw [hshr, hid]; field_simp
  have key2 : s * D = (1006 + 1860 * w) * m * ((total / m) * (tI - t)) := by
    rw [hs']; nth_rewrite 1 [hE]; ring
  refine ⟨out, adp, tO, wO, t, w, r1, r2, r3, r4, r5, r8, r9, r10, r11, r12, ?_, fun hw => ?_⟩
  · refine le_of_mul_le_mul_right ?_ hD
    rw [key, key2]
    refine mul_le_mul_of_nonneg_left (mul_le_mul_of_nonneg_right ?_ (by linarith)) hpos.le
    linarith
  · refine mul_right_cancel₀ hD.ne' ?_
    rw [key, key2]
    congr 2
    linarith [r15 hw]

/-- C102: so whenever the calculations return, the sensible capacity at the rating condition is larger than the rated sensible heat ratio times the total capacity. -/
theorem C102_overstated (L : MoistAirLaws T) {c : Conditions ℝ} {m shr total bf ntu s tI wI : ℝ} (hin : Reports T c.indoor tI wI) (wI0 : 1e-7 ≤ wI) (hm : c.flow.mass = some m) (m0 : 0 < m) (q0 : 0 < total)
    (s0 : 0 < shr) (hb : ratedBypass T c shr total = .ok (bf, ntu)) (hs : sensibleFrom T c (.ok total) (DX.bypassFactor ntu m) = .ok s) : shr * total < s := by
  obtain ⟨out, adp, tO, wO, tA, wA, -, -, -, -, -, h1, h2, h3, h4, h5, h6, -⟩ := C102_rated_point L hin wI0 hm m0 q0 s0 hb hs
  have hD : 0 < airEnthalpy tI wI - airEnthalpy tA wA ∨ airEnthalpy tI wI - airEnthalpy tA wA ≤ 0 := lt_or_ge _ _
  have hp : 0 < shr * total := by positivity
  have hw : 0 < wA := by linarith
  have hT : -100 ≤ tI := by
    obtain ⟨_, _, tO', _, tA', _, g1, g2, g3, -, g5, -, g7, -, g9, g10, -⟩ := rated_coil L hin wI0 hm m0 q0 s0 hb
    linarith
  have hD : 0 < airEnthalpy tI wI - airEnthalpy tA wA := by
    unfold airEnthalpy
    nlinarith [mul_nonneg (sub_nonneg.2 (h4.trans h5)) (by linarith : (0:ℝ) ≤ 2501000 + 1860 * tI), mul_pos hw (by linarith : 0 < tI - tA)]
  have f2 : 1 ≤ 1 + 1860 * (tO - tA) * (wI - wA) / (airEnthalpy tI wI - airEnthalpy tA wA) := by
    have : 0 ≤ 1860 * (tO - tA) * (wI - wA) / (airEnthalpy tI wI - airEnthalpy tA wA) := div_nonneg (mul_nonneg (by linarith) (by linarith)) hD.le
    linarith
  have f1 : shr * total < shr * total * (1 + 1860 / 1006 * wA) := by nlinarith
  have f3 : 0 < shr * total * (1 + 1860 / 1006 * wA) := by positivity
  nlinarith

/-- C102 for RESNET units: the gross sensible heat ratio a unit reports at the rating condition of any of its speeds is larger than the rated one of that speed. -/
theorem C102_resnet (L : MoistAirLaws T) {u : Units ℝ} {E : Env ℝ} {brentq : Fan.Brentq} {a : Build.Args} {B : Build.Built} (h : Build.build u E T brentq a = .ok B) {i : Nat}
    (hi : i < Build.speedCount B.core.st) {c : Conditions ℝ} (hc : B.sys.makeCondition E false i = .ok c) {tI wI m shr x : ℝ} (hin : Reports T c.indoor tI wI) (wI0 : 1e-7 ≤ wI)
    (hm : c.flow.mass = some m) (m0 : 0 < m) (hshr : B.coil.shr[i]? = some (some shr)) (s0 : 0 < shr) (hx : (B.unit u E T brentq).grossSHR (some c) = .ok x) : shr < x := by
  obtain ⟨c', s, t, bf, n, h1, h2, h3, h4, -, h6, -⟩ := Build.coil_stored h hi
  rw [hc] at h1; cases h1
  rw [hshr] at h4; cases h4
  simp only [DX.Performance.grossSHR, bind_eq_ok, pdiv_eq_ok, DX.Performance.limitCheck_both_eq_ok] at hx
  obtain ⟨sv, hS, tv, hT, q, ⟨hT0, rfl⟩, x0, x1, rfl⟩ := hx
  simp only at h2
  rw [h2] at hT; cases hT
  have htot0 : 0 < t := by
    obtain ⟨_, _, _, _, h0, rfl⟩ := DX.Performance.grossTotal_eq_ok.1 h2
    exact lt_of_le_of_ne h0 (Ne.symm hT0)
  have hS' := (DX.Performance.grossSensible_eq_ok.1 hS).1
  have hsens : sensibleFrom T c (.ok t) (DX.bypassFactor n m) = .ok sv := by
    have e1 : (B.unit u E T brentq).sensible c = sensibleFrom T c ((B.unit u E T brentq).grossTotalCoolingCapacity (some c)) (bypass B.coil.ntu c) := rfl
    have e2 : bypass B.coil.ntu c = DX.bypassFactor n m := by simp [bypass, Sys.at_, Build.made_speed hc, pyGet, h6, bind_ok, pyNum, hm, pyAttr]
    rw [← e2, ← h2, ← e1]
    exact hS'
  have := C102_overstated L hin wI0 hm m0 htot0 s0 h3 hsens
  rw [lt_div_iff₀ htot0]
  exact this

/-! ### A coil that meets the hypotheses -/

open Classical in
/-- An exact root finder. -/
noncomputable def rootFinder : Newton := fun f _ => if h : ∃ t, f t = .ok 0 then .ok h.choose else .error .runtime

theorem rootFinder_ok {f : ℝ → Py ℝ} {x t : ℝ} (h : f t = .ok 0) (u : ∀ t', f t' = .ok 0 → t' = t) : rootFinder f x = .ok t := by
  have he : ∃ t, f t = .ok 0 := ⟨t, h⟩
  unfold rootFinder
  rw [dif_pos he, u _ he.choose_spec]

/-- Moist air with a linear saturation curve between −29 °C and 100 °C. -/
noncomputable def sampleTools : Tools :=
  { lib :=
      { humRatioFromTWetBulb := fun _ _ _ => .ok 0.0115, tWetBulbFromHumRatio := fun _ _ _ => .ok 15, tWetBulbFromRelHum := fun _ _ _ => .ok 15
        moistAirEnthalpy := fun t w => .ok (airEnthalpy t (max w 1e-7)), humRatioFromEnthalpyAndTDryBulb := fun h t => .ok (max ((h - 1006 * t) / (2501000 + 1860 * t)) 1e-7)
        moistAirDensity := fun _ _ _ => .ok 1.2, relHumFromTWetBulb := fun _ _ _ => .ok 0.5 }
    coil :=
      { humRatioFromRelHum := fun t _ _ => if -29 < t ∧ t < 100 then .ok (0.0002 * (t + 30)) else .error .value
        satHumRatio := fun t _ => if -29 < t ∧ t < 100 then .ok (0.0002 * (t + 30)) else .error .value
        satAirEnthalpy := fun t _ => if -29 < t ∧ t < 100 then .ok (airEnthalpy t (0.0002 * (t + 30))) else .error .value }
    newton := rootFinder }

theorem sampleTools_laws : MoistAirLaws sampleTools := by
  refine ⟨?_, ?_, ?_, ?_, ?_, ?_⟩
  · intro t w h hw e
    simp only [sampleTools, max_eq_left hw, Except.ok.injEq] at e
    exact e.symm
  · intro h t w _ e
    simp only [sampleTools, Except.ok.injEq] at e
    exact e.symm
  · intro t p w e; exact e
  · intro t p w e
    simp only [sampleTools] at e ⊢
    split at e
    · next h =>
      cases e
      refine ⟨by linarith [h.1], ?_, by rw [if_pos h]⟩
      have := h.1
      norm_num; linarith
    · cases e
  · intro t t' p h h' hl e e'
    simp only [sampleTools] at e e'
    split at e
    · next g =>
      split at e'
      · next g' =>
        cases e; cases e'
        unfold airEnthalpy
        have h1 := g.1
        have h2 := g'.1
        nlinarith
      · cases e'
    · cases e
  · intro f x t e
    simp only [sampleTools, rootFinder] at e
    split at e
    · next h => cases e; exact h.choose_spec
    · cases e

/-- Air at 30 °C with humidity ratio `w`, flowing at 1 kg/s. -/
noncomputable def sampleAir (w : ℝ) : Conditions ℝ :=
  { heating := false
    indoor := { db := frC 30, dbC := 30, p := 101325, wb := some (frC 19), wbC := some 19, hr := some w, rh := none, h := some (airEnthalpy 30 w), rho := none }
    outdoor := { db := frC 35, dbC := 35, p := 101325, wb := some (frC 19), wbC := some 19, hr := some w, rh := none, h := none, rho := none }
    flow := { Cond.init 1.2 1.2 0 none none with mass := some 1 } }

theorem sampleAir_reports (w : ℝ) : Reports sampleTools (sampleAir w).indoor 30 w := ⟨rfl, rfl, rfl, rfl⟩

/-- The total capacity for an outlet at 12 °C on the line to the apparatus dew point at 10 °C. -/
noncomputable def sampleTotal : ℝ := airEnthalpy 30 0.0115 - airEnthalpy 12 0.00835

theorem sampleTotal_pos : 0 < sampleTotal := by unfold sampleTotal airEnthalpy; norm_num

/-- The rated sensible heat ratio for that outlet. -/
noncomputable def sampleShr : ℝ := 18108 / sampleTotal

theorem sampleShr_pos : 0 < sampleShr := div_pos (by norm_num) sampleTotal_pos

theorem sample_rated : ∃ r, ratedBypass sampleTools (sampleAir 0.0115) sampleShr sampleTotal = .ok r := by
  have hin := sampleAir_reports 0.0115
  have hd : airEnthalpy 30 0.0115 - airEnthalpy 10 0.008 ≠ 0 := by unfold airEnthalpy; norm_num
  have hpos : 0 < (airEnthalpy 12 0.00835 - airEnthalpy 10 0.008) / (airEnthalpy 30 0.0115 - airEnthalpy 10 0.008) := by unfold airEnthalpy; norm_num
  have e0 : sampleShr * sampleTotal / (1 * cp) = 18 := by
    unfold sampleShr cp; rw [div_mul_cancel₀ _ sampleTotal_pos.ne']; norm_num
  have e1 : airEnthalpy 30 0.0115 - sampleTotal / 1 = airEnthalpy 12 0.00835 := by unfold sampleTotal; ring
  have ecp : (1 : ℝ) * cp ≠ 0 := by unfold cp; norm_num
  have ew : (airEnthalpy 12 0.00835 - 1006 * 12) / (2501000 + 1860 * 12) = 0.00835 := by unfold airEnthalpy; norm_num
  have et : toC (frC (30 : ℝ) - 18) = 12 := by unfold toC frC; norm_num
  obtain ⟨out, ho, o1, o2, o3⟩ : ∃ out, outletState sampleTools (sampleAir 0.0115) sampleTotal (sampleShr * sampleTotal) = .ok out ∧ out.dbC = 12 ∧ (getHr sampleTools.lib out).1 = .ok 0.00835 ∧
      (getH sampleTools.lib out).1 = .ok (airEnthalpy 12 0.00835) := by
    have hm : (sampleAir 0.0115).flow.mass = some 1 := rfl
    simp only [outletState, hin.h, hm, pyAttr, pdiv_ok one_ne_zero, pdiv_ok ecp, bind_ok, hin.db, e0, e1, init_enthalpy, et]
    have hw : sampleTools.lib.humRatioFromEnthalpyAndTDryBulb (airEnthalpy 12 0.00835) 12 = .ok 0.00835 := by
      simp only [sampleTools, ew]; norm_num
    have hb : sampleTools.lib.tWetBulbFromHumRatio 12 0.00835 (sampleAir 0.0115).indoor.p = .ok 15 := rfl
    rw [hw, bind_ok, hb, bind_ok]
    exact ⟨_, rfl, et, rfl, rfl⟩
  obtain ⟨adp, ha, a1⟩ : ∃ adp, adpState sampleTools (sampleAir 0.0115).indoor out = .ok adp ∧ (getH sampleTools.lib adp).1 = .ok (airEnthalpy 10 0.008) := by
    have hne : (30 : ℝ) - 12 ≠ 0 := by norm_num
    have hl : ∀ t, lineHumRatio 30 0.0115 12 0.00835 t = .ok (0.0115 - (0.0115 - 0.00835) / (30 - 12) * (30 - t)) := by
      intro t; simp only [lineHumRatio, pdiv_ok hne, bind_ok, pure_eq_ok]
    have hroot : sampleTools.newton (adpResidual sampleTools 30 0.0115 12 0.00835 (sampleAir 0.0115).indoor.p) 30 = .ok 10 := by
      refine rootFinder_ok (x := 30) ?_ ?_
      · have : (-29 : ℝ) < 10 ∧ (10 : ℝ) < 100 := by norm_num
        simp only [adpResidual, sampleTools, if_pos this, hl, bind_ok, pure_eq_ok, Except.ok.injEq]
        norm_num
      · intro t ht
        simp only [adpResidual, sampleTools, hl] at ht
        split at ht
        · simp only [bind_ok, pure_eq_ok, Except.ok.injEq] at ht
          norm_num at ht
          linarith
        · simp [bind_error] at ht
    have hline10 : lineHumRatio 30 0.0115 12 0.00835 10 = .ok 0.008 := by rw [hl]; norm_num
    have hc : ¬ ((12 : ℝ) < 10 ∨ (0.00835 : ℝ) < 0.008) := by norm_num
    have t10 : toC (frC (10 : ℝ)) = 10 := by unfold toC frC; ring
    have hb : sampleTools.lib.tWetBulbFromHumRatio 10 0.008 (sampleAir 0.0115).indoor.p = .ok 15 := rfl
    obtain ⟨adp, hi⟩ : ∃ adp, Psych.init sampleTools.lib (frC 10) (sampleAir 0.0115).indoor.p [("hum_rat", 0.008)] = .ok adp := by
      rw [init_humRat, t10, hb]; exact ⟨_, rfl⟩
    refine ⟨adp, ?_, ?_⟩
    · simp only [adpState, hin.dbC, hin.hr, o1, o2, bind_ok, hroot, hline10, if_neg hc, hi]
    · rw [(read_humRat hi).2.2.2.2.1, t10]
      simp only [sampleTools]
      norm_num
  have hm : (sampleAir 0.0115).flow.mass = some 1 := rfl
  simp only [ratedBypass, ho, ha, hin.h, o3, a1, hm, pyAttr, bind_ok, DX.ratedBypassFactor, pdiv_ok hd, plog, if_pos hpos, pure_eq_ok]
  exact ⟨_, rfl⟩

theorem sample_sensible {wI bf t : ℝ} (h1 : -29 < t) (h2 : t < 100) (hb : bf ≠ 1) (hd : airEnthalpy 30 wI ≠ airEnthalpy t (0.0002 * (t + 30))) :
    ∃ s, sensibleFrom sampleTools (sampleAir wI) (.ok ((1 - bf) * (airEnthalpy 30 wI - airEnthalpy t (0.0002 * (t + 30))))) (.ok bf) = .ok s := by
  have hin := sampleAir_reports wI
  have hm : (sampleAir wI).flow.mass = some 1 := rfl
  have hb' : 1 * (1 - bf) ≠ 0 := by rw [one_mul]; intro h; apply hb; linarith
  have hb1 : 1 - bf ≠ 0 := by rwa [one_mul] at hb'
  set hA := airEnthalpy t (0.0002 * (t + 30)) with hhA
  have e : (1 - bf) * (airEnthalpy 30 wI - hA) / (1 * (1 - bf)) = airEnthalpy 30 wI - hA := by field_simp
  have hsat : ∀ p, sampleTools.coil.satAirEnthalpy t p = .ok hA := by
    intro p; simp only [sampleTools, if_pos (And.intro h1 h2), hhA]
  have hroot : sampleTools.newton (fun t => do return (← sampleTools.coil.satAirEnthalpy t (sampleAir wI).indoor.p) - hA) 30 = .ok t := by
    refine rootFinder_ok (x := 30) ?_ ?_
    · simp only [hsat, bind_ok, pure_eq_ok, sub_self]
    · intro t' ht'
      simp only [bind_eq_ok, pure_eq_ok, Except.ok.injEq] at ht'
      obtain ⟨v, hv, hv0⟩ := ht'
      have hvA : v = hA := by linarith
      subst hvA
      rcases lt_trichotomy t' t with hl | rfl | hl
      · exact absurd (sampleTools_laws.increasing _ _ _ _ _ hl hv (hsat _)) (lt_irrefl _)
      · rfl
      · exact absurd (sampleTools_laws.increasing _ _ _ _ _ hl (hsat _) hv) (lt_irrefl _)
  have hw : ∀ p, sampleTools.coil.satHumRatio t p = .ok (0.0002 * (t + 30)) := by
    intro p; simp only [sampleTools, if_pos (And.intro h1 h2)]
  have hh : sampleTools.lib.moistAirEnthalpy 30 (0.0002 * (t + 30)) = .ok (airEnthalpy 30 (0.0002 * (t + 30))) := by
    have : (1e-7 : ℝ) ≤ 0.0002 * (t + 30) := by norm_num; linarith
    simp only [sampleTools, max_eq_left this]
  have hsub : airEnthalpy 30 wI - (airEnthalpy 30 wI - hA) = hA := by ring
  have hd' : airEnthalpy 30 wI - hA ≠ 0 := sub_ne_zero.2 hd
  simp only [sensibleFrom, bind_ok, hin.h, hin.dbC, hm, pyAttr, pdiv_ok hb', e, hsub, hroot, hw, hh, pdiv_ok hd']
  exact ⟨_, rfl⟩

/-- C102: a coil with the air properties of psychrolib's documentation, for which all calculations return, whose sensible capacity at the rating condition is not the rated one. -/
theorem C102_refuted : ¬ ∀ (T : Tools), MoistAirLaws T → ∀ (c : Conditions ℝ) (m shr total bf ntu s tI wI : ℝ), Reports T c.indoor tI wI → 1e-7 ≤ wI → c.flow.mass = some m → 0 < m → 0 < total → 0 < shr → shr < 1 →
    ratedBypass T c shr total = .ok (bf, ntu) → sensibleFrom T c (.ok total) (DX.bypassFactor ntu m) = .ok s → s = shr * total := by
  intro h
  obtain ⟨⟨bf, ntu⟩, hr⟩ := sample_rated
  have w0 : (1e-7 : ℝ) ≤ 0.0115 := by norm_num
  obtain ⟨out, adp, tO, wO, tA, wA, r1, r2, r3, r4, r5, r6, r7, r8, r9, r10, r11, r12, r13, r14, r15, r16, r17, r18, r19⟩ :=
    rated_coil sampleTools_laws (sampleAir_reports 0.0115) w0 rfl one_pos sampleTotal_pos sampleShr_pos hr
  have hbp : DX.bypassFactor ntu 1 = .ok bf := by
    have : -ntu / 1 = Real.log bf := by rw [r19]; ring
    simp only [DX.bypassFactor, pdiv_ok one_ne_zero, bind_ok, pure_eq_ok, this, Real.exp_log r17]
  obtain ⟨hrange, hwA⟩ : (-29 < tA ∧ tA < 100) ∧ wA = 0.0002 * (tA + 30) := by
    simp only [sampleTools] at r6
    split at r6
    · next h => cases r6; exact ⟨h, rfl⟩
    · cases r6
  rw [hwA] at r18 r11 r8 r13
  have hD : 0 < airEnthalpy 30 0.0115 - airEnthalpy tA (0.0002 * (tA + 30)) := by
    have h1 : (0.0002 * (tA + 30) : ℝ) ≤ 0.0115 := r11.trans r12
    unfold airEnthalpy
    nlinarith
  have htot : sampleTotal = (1 - bf) * (airEnthalpy 30 0.0115 - airEnthalpy tA (0.0002 * (tA + 30))) := by
    rw [div_one] at r18; linarith
  have hb1 : bf ≠ 1 := by
    rintro rfl
    have := sampleTotal_pos
    rw [htot] at this
    simp at this
  obtain ⟨s, hs⟩ := sample_sensible hrange.1 hrange.2 hb1 (by intro e; rw [e, sub_self] at hD; exact lt_irrefl _ hD)
  rw [← htot] at hs
  have hs' : sensibleFrom sampleTools (sampleAir 0.0115) (.ok sampleTotal) (DX.bypassFactor ntu 1) = .ok s := by rw [hbp]; exact hs
  have := C102_overstated sampleTools_laws (sampleAir_reports 0.0115) w0 rfl one_pos sampleTotal_pos sampleShr_pos hr hs'
  have h1 : sampleShr < 1 := by
    unfold sampleShr; rw [div_lt_one sampleTotal_pos]; unfold sampleTotal airEnthalpy; norm_num
  exact this.ne' (h sampleTools sampleTools_laws _ 1 _ _ bf ntu s 30 0.0115 (sampleAir_reports _) w0 rfl one_pos sampleTotal_pos sampleShr_pos h1 hr hs')

/-! ## C103: sensible and total capacity -/

/-- C103: at any condition, the sensible capacity is what cools the air that touches the coil – the part `1 - bf` of the flow – from the indoor temperature to that of the apparatus dew point at its humidity, and the rest of the total
capacity is what condenses the difference of the humidity ratios at the indoor temperature. -/
theorem C103_split (L : MoistAirLaws T) {c : Conditions ℝ} {total bf m s tI wI : ℝ} (hin : Reports T c.indoor tI wI) (hm : c.flow.mass = some m) (hs : sensibleFrom T c (.ok total) (.ok bf) = .ok s) :
    ∃ t w, T.coil.satHumRatio t c.indoor.p = .ok w ∧ total = m * (1 - bf) * (airEnthalpy tI wI - airEnthalpy t w) ∧ s = m * (1 - bf) * ((1006 + 1860 * w) * (tI - t)) ∧
      total - s = m * (1 - bf) * ((2501000 + 1860 * tI) * (wI - w)) := by
  obtain ⟨t, w, g1, g2, g3, g4, g5⟩ := sensible_spec L hin hm hs
  have hD : airEnthalpy tI wI - airEnthalpy t w = total / (m * (1 - bf)) := by rw [g3]; ring
  have h1 : total = m * (1 - bf) * (airEnthalpy tI wI - airEnthalpy t w) := by rw [hD, mul_div_cancel₀ _ g2]
  have hD0 : airEnthalpy tI wI - airEnthalpy t w ≠ 0 := by rw [hD]; exact div_ne_zero g4 g2
  have h2 : s = m * (1 - bf) * (airEnthalpy tI w - airEnthalpy t w) := by
    rw [g5, div_eq_iff hD0]; nth_rewrite 1 [h1]; ring
  refine ⟨t, w, g1, h1, by rw [h2]; unfold airEnthalpy; ring, ?_⟩
  nth_rewrite 1 [h1]
  rw [h2]; unfold airEnthalpy; ring

/-- C103: hence the sensible capacity exceeds the total capacity exactly if the apparatus dew point is more humid than the indoor air, and it is negative exactly if it is warmer. -/
theorem C103_order (L : MoistAirLaws T) {c : Conditions ℝ} {total bf m s tI wI : ℝ} (hin : Reports T c.indoor tI wI) (hm : c.flow.mass = some m) (m0 : 0 < m) (b1 : bf < 1) (t0 : -1000 < tI)
    (hs : sensibleFrom T c (.ok total) (.ok bf) = .ok s) : ∃ t w, T.coil.satHumRatio t c.indoor.p = .ok w ∧ total = m * (1 - bf) * (airEnthalpy tI wI - airEnthalpy t w) ∧ (s ≤ total ↔ w ≤ wI) ∧ (0 ≤ s ↔ t ≤ tI) := by
  obtain ⟨t, w, g1, g2, g3, g4⟩ := C103_split L hin hm hs
  have hk : 0 < m * (1 - bf) := mul_pos m0 (by linarith)
  have hw := (L.satEnthalpy _ _ _ g1).2.1
  have c1 : 0 < 2501000 + 1860 * tI := by linarith
  have c2 : 0 < 1006 + 1860 * w := by linarith
  refine ⟨t, w, g1, g2, ?_, ?_⟩
  · rw [← sub_nonneg, g4, mul_nonneg_iff_of_pos_left hk, mul_nonneg_iff_of_pos_left c1, sub_nonneg]
  · rw [g3, mul_nonneg_iff_of_pos_left hk, mul_nonneg_iff_of_pos_left c2, sub_nonneg]

/-- C103: the sensible capacity is not bounded by the total capacity. For dry indoor air the coil is treated as wet, and the sensible capacity comes out larger than the total. -/
theorem C103_dry_refuted : ∃ (T : Tools) (c : Conditions ℝ) (total bf s : ℝ), MoistAirLaws T ∧ Reports T c.indoor 30 0.001 ∧ 0 < total ∧ 0 < bf ∧ bf < 1 ∧ sensibleFrom T c (.ok total) (.ok bf) = .ok s ∧ total < s := by
  have hd : airEnthalpy 30 0.001 ≠ airEnthalpy 5 (0.0002 * (5 + 30)) := by unfold airEnthalpy; norm_num
  obtain ⟨s, hs⟩ := sample_sensible (wI := 0.001) (bf := 0.1) (t := 5) (by norm_num) (by norm_num) (by norm_num) hd
  refine ⟨sampleTools, sampleAir 0.001, _, 0.1, s, sampleTools_laws, sampleAir_reports _, by unfold airEnthalpy; norm_num, by norm_num, by norm_num, hs, ?_⟩
  obtain ⟨t, w, g1, g2, g3, -⟩ := C103_order sampleTools_laws (sampleAir_reports 0.001) rfl one_pos (by norm_num) (by norm_num) hs
  have g2' : airEnthalpy t w = airEnthalpy 5 (0.0002 * (5 + 30)) := by
    have : (1 - (0.1 : ℝ)) ≠ 0 := by norm_num
    rw [one_mul] at g2
    have := mul_left_cancel₀ this g2
    linarith
  have hsat : sampleTools.coil.satHumRatio 5 (sampleAir 0.001).indoor.p = .ok (0.0002 * (5 + 30)) := by
    have : (-29 : ℝ) < 5 ∧ (5 : ℝ) < 100 := by norm_num
    simp only [sampleTools, if_pos this]
  obtain ⟨rfl, rfl⟩ := sat_unique sampleTools_laws g1 hsat g2'
  by_contra hc
  have := g3.1 (not_lt.1 hc)
  norm_num at this

/-- C103: then the sensible heat ratio is not reported; the call raises. -/
theorem C103_shr_raises {U : DX.Performance (Conditions ℝ) ℝ} (L : MoistAirLaws T) {c : Conditions ℝ} {total bf m s t w tI wI : ℝ} (hin : Reports T c.indoor tI wI) (hm : c.flow.mass = some m) (m0 : 0 < m) (b1 : bf < 1)
    (t0 : -1000 < tI) (ht : U.grossTotalCoolingCapacity (some c) = .ok total) (h0 : 0 < total) (hU : U.sensible c = sensibleFrom T c (.ok total) (.ok bf)) (hs : sensibleFrom T c (.ok total) (.ok bf) = .ok s)
    (hsat : T.coil.satHumRatio t c.indoor.p = .ok w) (hA : total = m * (1 - bf) * (airEnthalpy tI wI - airEnthalpy t w)) (hw : wI < w) : U.grossSHR (some c) = .error .exception := by
  obtain ⟨t', w', g1, g2, g3, -⟩ := C103_order L hin hm m0 b1 t0 hs
  have hk : m * (1 - bf) ≠ 0 := (mul_pos m0 (by linarith)).ne'
  have e : airEnthalpy t' w' = airEnthalpy t w := by
    have := mul_left_cancel₀ hk (g2.symm.trans hA)
    linarith
  obtain ⟨rfl, rfl⟩ := sat_unique L g1 hsat e
  exact DX.Performance.C39_shr_rejects U (some c) s total (by rw [Option.getD_some, hU, hs]) ht h0 (.inr (not_le.1 fun h => absurd (g3.1 h) (not_le.2 hw)))

/-! ## C104: outlet and apparatus-dew-point states -/

section
variable {U : DX.Performance (Conditions ℝ) ℝ}

/-- C104, cooling: the state reported at the coil outlet carries off exactly the total capacity as enthalpy and the sensible capacity (given, or the unit's own) as the temperature drop of dry air. -/
theorem C104_cooling {c : Conditions ℝ} {m tI wI : ℝ} {g : Option ℝ} {out : PsychState ℝ} (hin : Reports T c.indoor tI wI) (hm : c.flow.mass = some m) (m0 : 0 < m) (h : coolingOutlet T U (some c) g = .ok out) :
    ∃ total sens tO hO, U.grossTotalCoolingCapacity (some c) = .ok total ∧ (g = some sens ∨ g = none ∧ U.grossSensibleCoolingCapacity (some c) = .ok sens) ∧ out.p = c.indoor.p ∧ out.db = frC tO ∧ out.dbC = tO ∧
      (getH T.lib out).1 = .ok hO ∧ m * (airEnthalpy tI wI - hO) = total ∧ m * 1006 * (tI - tO) = sens := by
  have hmc : m * cp ≠ 0 := by unfold cp; positivity
  simp only [coolingOutlet, Option.getD_some, hin.h, hm, pyAttr, bind_ok, bind_eq_ok, hin.db] at h
  obtain ⟨sens, hsens, total, htot, x, hx, y, hy, h⟩ := h
  rw [pdiv_ok m0.ne'] at hx
  rw [pdiv_ok hmc] at hy
  cases hx
  cases hy
  obtain ⟨h1, h2, h3, h4, -⟩ := read_enthalpy h
  refine ⟨total, sens, tI - sens / (m * 1006), _, htot, ?_, h3, ?_, ?_, h4, ?_, ?_⟩
  · cases g with
    | none => exact .inr ⟨rfl, hsens⟩
    | some v => cases hsens; exact .inl rfl
  · rw [h1]; unfold frC cp; ring
  · rw [h2]; unfold toC frC cp; ring
  · field_simp; ring
  · field_simp; ring

/-- C104: without conditions the state is that of the full-speed rating condition. -/
theorem C104_cooling_default (g : Option ℝ) : coolingOutlet T U none g = coolingOutlet T U (some U.aFull) g ∧ heatingOutput T U none = heatingOutput T U (some U.h1Full) := ⟨rfl, rfl⟩

/-- C104: the apparatus dew point is saturated air on the straight line from the indoor air through the outlet state, at or beyond the outlet. -/
theorem C104_adp (L : MoistAirLaws T) {c : Conditions ℝ} {m tI wI : ℝ} {adp : PsychState ℝ} (hin : Reports T c.indoor tI wI) (hm : c.flow.mass = some m) (m0 : 0 < m) (h : adpOf T U (some c) = .ok adp)
    (hsens : U.grossSensibleCoolingCapacity (some c) ≠ .ok 0) :
    ∃ out tO wO tA wA, coolingOutlet T U (some c) none = .ok out ∧ out.dbC = tO ∧ (getHr T.lib out).1 = .ok wO ∧ adp.dbC = tA ∧ (getHr T.lib adp).1 = .ok wA ∧ T.coil.satHumRatio tA c.indoor.p = .ok wA ∧
      tA ≤ tO ∧ wA ≤ wO ∧ (wI - wA) * (tI - tO) = (wI - wO) * (tI - tA) := by
  simp only [adpOf, bind_eq_ok] at h
  obtain ⟨out, ho, ha⟩ := h
  obtain ⟨total, sens, tO, hO, -, hg, -, -, o1, -, -, o2⟩ := C104_cooling hin hm m0 ho
  have hne : tI ≠ tO := by
    rintro rfl
    rw [sub_self, mul_zero] at o2
    rcases hg with hg | ⟨-, hg⟩
    · cases hg
    · rw [← o2] at hg; exact hsens hg
  obtain ⟨wO, o3⟩ : ∃ w, (getHr T.lib out).1 = .ok w := by
    simp only [coolingOutlet, bind_eq_ok] at ho
    obtain ⟨_, _, _, _, _, _, _, _, _, _, _, _, ho⟩ := ho
    obtain ⟨-, -, -, -, w, -, hw, -⟩ := read_enthalpy ho
    exact ⟨w, hw⟩
  obtain ⟨t, w, -, a2, -, a4, -, a6, a7, a8, a9⟩ := adp_spec L hin.dbC hin.hr o1 o3 hne ha
  refine ⟨out, tO, wO, t, w, ho, o1, o3, a2, a4, a6, a7, a8, ?_⟩
  have : tI - tO ≠ 0 := sub_ne_zero.2 hne
  rw [a9]; field_simp; ring

/-- C104: without conditions, as its signature allows, it is never reported: if the outlet state can be computed, the call raises `AttributeError`. -/
theorem C104_adp_default_refuted : (∀ s, adpOf T U none ≠ .ok s) ∧ ∀ out, coolingOutlet T U none none = .ok out → adpOf T U none = .error .attribute := by
  refine ⟨fun s h => ?_, fun out ho => by simp only [adpOf, ho, bind_ok]⟩
  simp only [adpOf, bind_eq_ok] at h
  obtain ⟨_, _, h⟩ := h
  cases h

/-- C104, heating: the outlet air keeps the humidity ratio, and its temperature rise times the heat capacity of dry air is the heating capacity. The enthalpy it takes up exceeds the capacity by the heat that warms the vapour. -/
theorem C104_heating (L : MoistAirLaws T) {c : Conditions ℝ} {m tI wI : ℝ} {out : PsychState ℝ} (hin : Reports T c.indoor tI wI) (wI0 : 1e-7 ≤ wI) (hm : c.flow.mass = some m) (m0 : 0 < m)
    (h : heatingOutput T U (some c) = .ok out) (hO : ℝ) (hh : (getH T.lib out).1 = .ok hO) :
    ∃ q tO, U.grossSteadyHeatingCapacity (some c) = .ok q ∧ out.p = c.indoor.p ∧ Reports T out tO wI ∧ m * 1006 * (tO - tI) = q ∧ m * (hO - airEnthalpy tI wI) = q * (1 + 1860 / 1006 * wI) := by
  have hmc : m * cp ≠ 0 := by unfold cp; positivity
  simp only [heatingOutput, Option.getD_some, hin.hr, hm, pyAttr, bind_ok, bind_eq_ok, hin.db] at h
  obtain ⟨q, hq, x, hx, h⟩ := h
  rw [pdiv_ok hmc] at hx
  cases hx
  obtain ⟨h1, h2, h3, h4, h5, -⟩ := read_humRat h
  have e : toC (frC tI + q / (m * cp)) = tI + q / (m * 1006) := by unfold toC frC cp; ring
  rw [e] at h2 h5
  rw [h5] at hh
  have := L.enthalpy _ _ _ wI0 hh
  subst this
  refine ⟨q, tI + q / (m * 1006), hq, h3, ⟨?_, h2, h4, by rw [h5]; exact hh⟩, ?_, ?_⟩
  · rw [h1]; unfold frC cp; ring
  · field_simp; ring
  · unfold airEnthalpy; field_simp; ring

/-- C104, heating: so the energy balance between capacity and air is not exact; for a positive capacity and humid air the reported state always carries more than the capacity. -/
theorem C104_heating_refuted (L : MoistAirLaws T) {c : Conditions ℝ} {m tI wI q : ℝ} {out : PsychState ℝ} (hin : Reports T c.indoor tI wI) (wI0 : 1e-7 ≤ wI) (hm : c.flow.mass = some m) (m0 : 0 < m)
    (hq : U.grossSteadyHeatingCapacity (some c) = .ok q) (q0 : 0 < q) (h : heatingOutput T U (some c) = .ok out) (hO : ℝ) (hh : (getH T.lib out).1 = .ok hO) : q < m * (hO - airEnthalpy tI wI) := by
  obtain ⟨q', tO, hq', -, -, -, e⟩ := C104_heating L hin wI0 hm m0 h hO hh
  rw [hq] at hq'
  cases hq'
  rw [e]
  have : 0 < wI := by linarith
  nlinarith [mul_pos q0 this]

end

/-- A unit with fixed capacities. -/
noncomputable def sampleUnit : DX.Performance (Conditions ℝ) ℝ :=
  { coolCap := fun _ => .ok sampleTotal, coolCapCharge := fun _ => .ok 1, coolPow := fun _ => .ok 5000, coolPowCharge := fun _ => .ok 1, sensible := fun _ => .ok 18108
    heatCap := fun _ => .ok 20120, heatCapCharge := fun _ => .ok 1, heatPow := fun _ => .ok 5000, heatPowCharge := fun _ => .ok 1, intCap := fun _ => .ok 20000, intPow := fun _ => .ok 5000
    fanPower := fun _ => .ok 300, db := fun c => c.outdoor.db, aFull := sampleAir 0.0115, h1Full := sampleAir 0.0115 }

example : ∃ out, coolingOutlet sampleTools sampleUnit (some (sampleAir 0.0115)) none = .ok out := by
  have e0 : 1 * cp ≠ 0 := by unfold cp; norm_num
  have h1 : sampleUnit.grossTotalCoolingCapacity (some (sampleAir 0.0115)) = .ok sampleTotal :=
    DX.Performance.grossTotal_eq_ok.2 ⟨sampleTotal, 1, rfl, rfl, by rw [mul_one]; exact sampleTotal_pos.le, by rw [mul_one]⟩
  have h2 : sampleUnit.grossSensibleCoolingCapacity (some (sampleAir 0.0115)) = .ok 18108 := DX.Performance.grossSensible_eq_ok.2 ⟨rfl, by norm_num⟩
  have hm : (sampleAir 0.0115).flow.mass = some 1 := rfl
  simp only [coolingOutlet, givenOr, Option.getD_some, h1, h2, (sampleAir_reports 0.0115).h, hm, pyAttr, bind_ok, pdiv_ok one_ne_zero, pdiv_ok e0, init_enthalpy]
  exact ⟨_, rfl⟩

example : ∃ out hO, heatingOutput sampleTools sampleUnit (some (sampleAir 0.0115)) = .ok out ∧ (getH sampleTools.lib out).1 = .ok hO := by
  have e0 : 1 * cp ≠ 0 := by unfold cp; norm_num
  have h1 : sampleUnit.grossSteadyHeatingCapacity (some (sampleAir 0.0115)) = .ok (20120 * 1) := rfl
  have hm : (sampleAir 0.0115).flow.mass = some 1 := rfl
  obtain ⟨out, ho⟩ : ∃ out, heatingOutput sampleTools sampleUnit (some (sampleAir 0.0115)) = .ok out := by
    simp only [heatingOutput, Option.getD_some, h1, (sampleAir_reports 0.0115).hr, hm, pyAttr, bind_ok, pdiv_ok e0, init_humRat]
    exact ⟨_, rfl⟩
  have ho' := ho
  simp only [heatingOutput, Option.getD_some, h1, (sampleAir_reports 0.0115).hr, hm, pyAttr, bind_ok, pdiv_ok e0] at ho'
  exact ⟨out, _, ho, by rw [(read_humRat ho').2.2.2.2.1]; rfl⟩

end Resdx.Coil
