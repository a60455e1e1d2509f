import Verif.Props.VariableCop
import Mathlib.Topology.Order.IntermediateValue
import Mathlib.Analysis.SpecialFunctions.Pow.Continuity

/-!
# C67: variable-speed units with a requested SEER2

The SEER2 is a continuous function of the COP at 82 °F, so that every SEER2 between those at two COPs is that of a COP between them.
-/

set_option linter.unusedSectionVars false
set_option linter.unusedSimpArgs false

namespace Resdx.Build

open Spec Tabular BaseModel Props ResnetFan Fan Table DX Set

variable {u : Units ℝ} {E : Env ℝ} {T : Coil.Tools} {brentq : Brentq} {a : Args} {B : Built}

/-! ## Continuity of the power at a load -/

/-- How far `l` is on the way from `x` to `y`. -/
noncomputable def progress (x y l : ℝ) : ℝ := max 0 (min 1 ((l - x) / (y - x)))

theorem progress_low {x y l : ℝ} (h : x < y) (hl : l ≤ x) : progress x y l = 0 :=
  max_eq_left ((min_le_right _ _).trans (div_nonpos_of_nonpos_of_nonneg (by linarith) (by linarith)))

theorem progress_mid {x y l : ℝ} (h : x < y) (h1 : x ≤ l) (h2 : l ≤ y) : progress x y l = (l - x) / (y - x) := by
  unfold progress
  rw [min_eq_right ((div_le_one (by linarith)).2 (by linarith)), max_eq_right (div_nonneg (by linarith) (by linarith))]

theorem progress_high {x y l : ℝ} (h : x < y) (hl : y ≤ l) : progress x y l = 1 := by
  unfold progress
  rw [min_eq_left ((one_le_div (by linarith)).2 (by linarith)), max_eq_right (by norm_num)]

/-- The COP of a variable-speed unit at a load. -/
noncomputable def loadCop (qL pL qI pI qF pF l : ℝ) : ℝ := qL / pL + (qI / pI - qL / pL) * progress qL qI l + (qF / pF - qI / pI) * progress qI qF l

theorem loadCop_pos {qL pL qI pI qF pF l : ℝ} (h1 : 0 < qL) (h2 : qL < qI) (h3 : qI < qF) (h4 : 0 < pL) (h5 : 0 < pI) (h6 : 0 < pF) : 0 < loadCop qL pL qI pI qF pF l := by
  unfold loadCop
  have c1 : 0 < qL / pL := by positivity
  have c2 : 0 < qI / pI := div_pos (h1.trans h2) h5
  have c3 : 0 < qF / pF := div_pos ((h1.trans h2).trans h3) h6
  generalize qL / pL = x at *
  generalize qI / pI = y at *
  generalize qF / pF = z at *
  rcases le_total l qI with hl | hl
  · rw [progress_low h3 hl, mul_zero, add_zero]
    have p0 : 0 ≤ progress qL qI l := le_max_left _ _
    have p1 : progress qL qI l ≤ 1 := max_le (by norm_num) (min_le_left _ _)
    generalize progress qL qI l = p at *
    nlinarith [mul_nonneg p0 c2.le, mul_nonneg (sub_nonneg.2 p1) c1.le]
  · rw [progress_high h2 hl, mul_one]
    have p0 : 0 ≤ progress qI qF l := le_max_left _ _
    have p1 : progress qI qF l ≤ 1 := max_le (by norm_num) (min_le_left _ _)
    generalize progress qI qF l = p at *
    nlinarith [mul_nonneg p0 c3.le, mul_nonneg (sub_nonneg.2 p1) c2.le]

/-- The power of a variable-speed unit at a load, without cases. -/
theorem rate_closed {cd qL pL qI pI qF pF l : ℝ} (h1 : 0 < qL) (h2 : qL < qI) (h3 : qI < qF) (h4 : 0 < pL) (h5 : 0 < pI) (h6 : 0 < pF) :
    varSpeedRate cd qL pL qI pI qF pF l = min l qF / loadCop qL pL qI pI qF pF l / (1 - cd * (1 - min 1 (l / qL))) := by
  have hI := h1.trans h2
  have hF := hI.trans h3
  unfold varSpeedRate loadCop
  split
  · rename_i h
    rw [progress_low h2 h, progress_low h3 (h.trans h2.le), min_eq_left (h.trans (h2.trans h3).le), min_eq_right ((div_le_one h1).2 h)]
    simp only [mul_zero, add_zero]
    unfold cyclingRate
    congr 1
    field_simp
  · rename_i h
    rw [not_le] at h
    rw [min_eq_left ((one_le_div h1).2 h.le), sub_self, mul_zero, sub_zero, div_one]
    split
    · rename_i g
      rw [progress_mid h2 h.le g.le, progress_low h3 g.le, min_eq_left (g.le.trans h3.le), mul_zero, add_zero]
      rfl
    · rename_i g
      rw [not_lt] at g
      rw [progress_high h2 g, mul_one, add_sub_cancel]
      split
      · rename_i k
        rw [progress_mid h3 g k, min_eq_left k]
        rfl
      · rename_i k
        rw [not_le] at k
        rw [progress_high h3 k.le, mul_one, add_sub_cancel, min_eq_right k.le, div_div_cancel₀ hF.ne']

theorem progress_continuous {s : Set ℝ} {x y l : ℝ → ℝ} (hx : ContinuousOn x s) (hy : ContinuousOn y s) (hl : ContinuousOn l s) (h : ∀ e ∈ s, x e < y e) : ContinuousOn (fun e => progress (x e) (y e) (l e)) s := by
  unfold progress
  exact continuousOn_const.sup (continuousOn_const.inf ((hl.sub hx).div (hy.sub hx) fun e he => (sub_pos.2 (h e he)).ne'))

/-- The power at a load is a continuous function of the capacities and powers. -/
theorem rate_continuous {s : Set ℝ} {cd : ℝ} {qL pL qI pI qF pF l : ℝ → ℝ} (hcd : 0 ≤ cd) (hcd1 : cd < 1) (c1 : ContinuousOn qL s) (c2 : ContinuousOn pL s) (c3 : ContinuousOn qI s) (c4 : ContinuousOn pI s)
    (c5 : ContinuousOn qF s) (c6 : ContinuousOn pF s) (c7 : ContinuousOn l s) (h : ∀ e ∈ s, 0 < qL e ∧ qL e < qI e ∧ qI e < qF e ∧ 0 < pL e ∧ 0 < pI e ∧ 0 < pF e ∧ 0 ≤ l e) :
    ContinuousOn (fun e => varSpeedRate cd (qL e) (pL e) (qI e) (pI e) (qF e) (pF e) (l e)) s := by
  have key : ContinuousOn (fun e => min (l e) (qF e) / loadCop (qL e) (pL e) (qI e) (pI e) (qF e) (pF e) (l e) / (1 - cd * (1 - min 1 (l e / qL e)))) s := by
    refine ContinuousOn.div (ContinuousOn.div (c7.inf c5) ?_ fun e he => ?_) ?_ fun e he => ?_
    · unfold loadCop
      have d1 : ContinuousOn (fun e => qL e / pL e) s := c1.div c2 fun e he => (h e he).2.2.2.1.ne'
      have d2 : ContinuousOn (fun e => qI e / pI e) s := c3.div c4 fun e he => (h e he).2.2.2.2.1.ne'
      have d3 : ContinuousOn (fun e => qF e / pF e) s := c5.div c6 fun e he => (h e he).2.2.2.2.2.1.ne'
      exact (d1.add ((d2.sub d1).mul (progress_continuous c1 c3 c7 fun e he => (h e he).2.1))).add ((d3.sub d2).mul (progress_continuous c3 c5 c7 fun e he => (h e he).2.2.1))
    · obtain ⟨h1, h2, h3, h4, h5, h6, -⟩ := h e he
      exact (loadCop_pos h1 h2 h3 h4 h5 h6).ne'
    · exact continuousOn_const.sub (continuousOn_const.mul (continuousOn_const.sub (continuousOn_const.inf (c7.div c1 fun e he => (h e he).1.ne'))))
    · obtain ⟨h1, -, -, -, -, -, h7⟩ := h e he
      have g0 : 0 ≤ min 1 (l e / qL e) := le_min (by norm_num) (div_nonneg h7 h1.le)
      have g1 : min 1 (l e / qL e) ≤ 1 := min_le_left _ _
      generalize min 1 (l e / qL e) = g at *
      have : 0 < 1 - cd * (1 - g) := by nlinarith
      exact this.ne'
  refine key.congr fun e he => ?_
  obtain ⟨h1, h2, h3, h4, h5, h6, -⟩ := h e he
  exact rate_closed h1 h2 h3 h4 h5 h6

/-- Seasonal sums of continuous functions are continuous. -/
theorem total_continuous {s : Set ℝ} {f : ℝ → ℝ → ℝ} : ∀ {bins : List (ℝ × ℝ)}, (∀ b ∈ bins, ContinuousOn (fun e => f e b.1 * b.2) s) → ContinuousOn (fun e => CoolTests.total (f e) bins) s
  | [], _ => by simpa only [CoolTests.total, List.map_nil, List.sum_nil] using continuousOn_const
  | b :: bins, h => by
    have ih := total_continuous (bins := bins) fun x hx => h x (List.mem_cons_of_mem _ hx)
    simp only [CoolTests.total, List.map_cons, List.sum_cons] at ih ⊢
    exact (h b List.mem_cons_self).add ih

/-! ## The SEER2 as a function of the ratio of energy inputs -/

/-- Capacity of the lowest speed at 82 °F. -/
noncomputable def lowCap (q e : ℝ) : ℝ := 1 / (0.934 * 0.948) * (capacityRatio95 e * q)
/-- Its power. -/
noncomputable def lowPow (p e : ℝ) : ℝ := 1 / (0.934 * 0.948 * 0.928 * 1.326) * (e * capacityRatio95 e * p)
/-- Capacity of full speed at 82 °F. -/
noncomputable def fullCap (q e : ℝ) : ℝ := lowCap q e + (0.934 - capacityRatio95 e) / (1 - capacityRatio95 e) * (1 / (0.934 * 0.94) * q - lowCap q e)
/-- Its power. -/
noncomputable def fullPow (p e : ℝ) : ℝ :=
  lowPow p e + (p - 0.948 * 1.315 * lowPow p e) / (p / (0.934 * 0.928) - 0.948 * 1.315 * lowPow p e) * (1 / (0.934 * 0.928 * 0.94 * 1.326) * p - lowPow p e)

theorem cool_values {btuh q95 seer2 eer2 : ℝ} (hb : 0 < btuh) (hq : 0 < q95) (heer : 0 < eer2) : let v := varCooling btuh q95 seer2 eer2 none none
    let e := inputRatio82 seer2 eer2
    v.p95 = q95 / (eer2 * btuh) ∧ v.q82s.min = lowCap q95 e ∧ v.p82s.min = lowPow (q95 / (eer2 * btuh)) e ∧ v.q82s.full = fullCap q95 e ∧ v.p82s.full = fullPow (q95 / (eer2 * btuh)) e := by
  intro v e
  obtain ⟨-, -, r0, r1⟩ := default_ratio seer2 eer2
  obtain ⟨r, hr⟩ : ∃ r, r = capacityRatio95 e := ⟨_, rfl⟩
  have e0 : 0 < e := inputRatio82_pos _ _
  have vq : v.q95 = q95 := rfl
  have vr : v.ratio = r := by rw [hr]; rfl
  change 0.1 ≤ capacityRatio95 e at r0
  change capacityRatio95 e ≤ 0.398 at r1
  unfold fullPow fullCap lowPow lowCap
  rw [← hr] at r0 r1 ⊢
  obtain ⟨p, hp⟩ : ∃ p, p = v.p95 := ⟨_, rfl⟩
  have hp' : p = q95 / (eer2 * btuh) := hp
  have hp0 : 0 < p := by rw [hp']; positivity
  have vc : v.cop82 = q95 / p * 0.928 * 1.326 / e := by rw [hp']; rfl
  have hl : v.q82s.min = 1 / (0.934 * 0.948) * (r * q95) := by
    show v.q95 / 0.934 * v.ratio / 0.948 = _
    rw [vq, vr]; ring
  have hm : v.p82s.min = 1 / (0.934 * 0.948 * 0.928 * 1.326) * (e * r * p) := by
    show v.q82s.min / v.cop82 = _
    rw [hl, vc]; field_simp
  have hF : v.q82s.full = v.q82s.min + (0.934 - r) / (1 - r) * (1 / (0.934 * 0.94) * q95 - v.q82s.min) := by
    show between v.q82s.min (v.q95 / 0.934 / 0.940) (v.q95 / 0.934 * v.ratio) v.q95 (v.q95 / 0.934) = _
    rw [vq, vr]; unfold between
    have h1 : 1 - r ≠ 0 := by linarith
    have h2 : q95 / 0.934 - q95 / 0.934 * r ≠ 0 := by
      rw [show q95 / 0.934 - q95 / 0.934 * r = q95 / 0.934 * (1 - r) by ring]
      exact mul_ne_zero (by positivity) h1
    have : (q95 - q95 / 0.934 * r) / (q95 / 0.934 - q95 / 0.934 * r) = (0.934 - r) / (1 - r) := by
      rw [div_eq_div_iff h2 h1]; ring
    rw [this]; ring
  have hpm : v.p95s.min = 0.948 * 1.315 * v.p82s.min := by
    show v.q82s.min / v.cop82 * (0.948 * 1.315) = 0.948 * 1.315 * (v.q82s.min / v.cop82); ring
  have hG : v.p82s.full = v.p82s.min + (p - 0.948 * 1.315 * v.p82s.min) / (p / (0.934 * 0.928) - 0.948 * 1.315 * v.p82s.min) * (1 / (0.934 * 0.928 * 0.94 * 1.326) * p - v.p82s.min) := by
    show between v.p82s.min (v.p95s.max / (0.940 * 1.326)) v.p95s.min v.p95s.full v.p95s.max = _
    rw [hpm]
    show between v.p82s.min (v.p95 / (0.934 * 0.928) / (0.940 * 1.326)) (0.948 * 1.315 * v.p82s.min) v.p95 (v.p95 / (0.934 * 0.928)) = _
    rw [← hp]; unfold between; ring
  rw [← hp', ← hm, ← hl]
  exact ⟨hp.symm, rfl, rfl, hF, hG⟩

theorem ratio_continuous : Continuous (fun e : ℝ => capacityRatio95 e) := by
  unfold capacityRatio95
  fun_prop

theorem ratio_bounds {e : ℝ} (h1 : e ≤ 1) : 0.1 ≤ capacityRatio95 e ∧ capacityRatio95 e ≤ 0.398 := by
  refine ⟨le_max_left _ _, max_le (by norm_num) ((min_le_right _ _).trans ?_)⟩
  rw [show 0.510 - 0.119 * (e - 1.305) / (-0.324) = 0.510 + 0.119 / 0.324 * (e - 1.305) by ring]
  linarith

theorem unitFan_continuous (psc : Bool) (ton L s : ℝ) : Continuous (fun q => unitFan psc ton L q s) := by
  unfold unitFan fanWatts
  cases psc
  · simp only [Bool.false_eq_true, if_false]
    have : Continuous fun q : ℝ => (q / L) ^ (1.75 : ℝ) := (continuous_id.div_const L).rpow_const fun _ => .inr (by norm_num)
    fun_prop
  · simp only [if_true]
    fun_prop

/-- The cooling tests of a unit with the ratio `e` of energy inputs. -/
noncomputable def ratioTests (u : Units ℝ) (psc ducted : Bool) (q95 q47 eer2 e : ℝ) : CoolTests ℝ :=
  let fan := unitFan psc u.ton (max q95 q47)
  let s := if ducted then (max q95 q47 / (q95 / 0.934)) ^ 2 else 0
  let r := capacityRatio95 e
  shapeTests q95 (q95 / (eer2 * u.btuh)) (lowCap q95 e) (fullCap q95 e) (lowPow (q95 / (eer2 * u.btuh)) e) (fullPow (q95 / (eer2 * u.btuh)) e) (fan q95 (if ducted then 1 else 0))
    (fan ((q95 / 0.934 * r + q95) / 2) s) (fan (q95 / 0.934 * r) s) (fan q95 s)

/-- The test at 87 °F lies strictly between the lowest and full speed. -/
theorem shape_strict {q p l F m G w1 w w3 v : ℝ} (S : CoolShape q p l F m G) (h1 : 0 < w1 ∧ w1 ≤ 0.048 * q) (h2 : 0 < w ∧ w ≤ 0.0685 * q) (h3 : 0 < w3 ∧ w3 ≤ 0.041 * q)
    (h4 : -0.0024 * q ≤ v - w1 ∧ v - w1 ≤ 0.0215 * q) : let T := shapeTests q p l F m G w1 w w3 v
    ∀ t ∈ (coolingSeason : List (ℝ × ℝ)).map Prod.fst, T.qLow t < T.qInt t := by
  intro T t ht
  obtain ⟨c1, c2, c3, c4, c5, c6, c7, c8⟩ := id S
  obtain ⟨-, -, n1, -⟩ := shape_order S h1 h2 h3 h4
  obtain ⟨-, o2, -, -⟩ := shape_order_at (w := w) (w3 := w3) S (h4 := h4) (t := t) ht
  have L87 : T.qLow 87 = 0.98 * l := by simp only [T, CoolTests.qLow, shapeTests, lineAt]; ring
  have nq0 : 0 < T.nQ := by
    refine div_pos ?_ (sub_pos.2 n1)
    rw [L87, show T.qE = (0.98 * l + (F + 5 / 13 * (q - F))) / 2 + ((w1 + w3) / 2 - w) from rfl]; linarith
  unfold CoolTests.qInt
  change T.qLow t < T.qFull t at o2
  generalize T.nQ = n at *
  nlinarith [mul_pos nq0 (sub_pos.2 o2)]

theorem ratio_shape {q47 eer2 q95 e : ℝ} (psc ducted : Bool) (hu : UsualUnits u) (hq : 0 < q95) (heer : 0 < eer2) (heer' : eer2 ≤ 16) (hc : Comparable q95 q47) (he0 : 0.2 ≤ e) (he1 : e ≤ 1) :
    let T := ratioTests u psc ducted q95 q47 eer2 e
    0 < T.qA ∧ (∀ t ∈ (coolingSeason : List (ℝ × ℝ)).map Prod.fst, 0 < T.qLow t ∧ T.qLow t < T.qInt t ∧ T.qInt t < T.qFull t ∧ 0 < T.pLow t ∧ 0 < T.pInt t ∧ 0 < T.pFull t) ∧
      T.qLow 87 < T.qFull 87 ∧ T.pFull 87 ≠ T.pLow 87 := by
  intro T
  obtain ⟨s, hs⟩ : ∃ s, inputRatio82 s eer2 = e := by
    refine ⟨(1.305 - e) / 0.324 * eer2, ?_⟩
    unfold inputRatio82
    rw [show 1.305 - 0.324 * ((1.305 - e) / 0.324 * eer2) / eer2 = e by field_simp; ring, min_eq_right he1, max_eq_right he0]
  have S := (cool_shape (u := u) (seer2 := s) hu hq heer heer').1
  obtain ⟨v1, v2, v3, v4, v5⟩ := cool_values (seer2 := s) u.btuh_pos hq heer
  rw [v1, v2, v3, v4, v5, hs] at S
  obtain ⟨r0, r1⟩ := ratio_bounds he1
  obtain ⟨g1, g2, g3, g4, g5⟩ := variable_cool_bounds (u := u) (r := capacityRatio95 e) psc ducted hu hq (by linarith) r1 hc
  obtain ⟨o1, o2, o3, o4⟩ := shape_order S g1 g2 g3 g5
  refine ⟨o1, fun t ht => ?_, o3, o4⟩
  obtain ⟨k1, -, k3, k4, k5, k6⟩ := o2 t ht
  exact ⟨k1, shape_strict S g1 g2 g3 g5 t ht, k3, k4, k5, k6⟩

/-- The energy of the season is positive. -/
theorem season_energy_pos {T : CoolTests ℝ} {cd : ℝ} (hcd : 0 ≤ cd) (hcd1 : cd < 1) (o1 : 0 < T.qA)
    (o2 : ∀ t ∈ (coolingSeason : List (ℝ × ℝ)).map Prod.fst, 0 < T.qLow t ∧ T.qLow t ≤ T.qInt t ∧ T.qInt t < T.qFull t ∧ 0 < T.pLow t ∧ 0 < T.pInt t ∧ 0 < T.pFull t) :
    0 < CoolTests.total (fun t => varSpeedRate cd (T.qLow t) (T.pLow t) (T.qInt t) (T.pInt t) (T.qFull t) (T.pFull t) (T.load t)) coolingSeason := by
  refine total_pos (b := ((67 : ℝ), 0.214)) (fun b hb => ?_) (by simp [coolingSeason]) ?_ (by norm_num)
  · refine ⟨(varSpeedRate_pos hcd hcd1 (o2 b.1 (List.mem_map_of_mem hb)) (coolBuildingLoad_nonneg o1.le _)).1, ?_⟩
    revert hb b
    simp only [coolingSeason, List.forall_mem_cons, List.not_mem_nil, false_imp_iff, implies_true, and_true]
    norm_num
  · refine (varSpeedRate_pos hcd hcd1 (o2 67 (by simp [coolingSeason])) (coolBuildingLoad_nonneg o1.le _)).2 ?_
    show 0 < coolBuildingLoad _ 67
    unfold coolBuildingLoad
    rw [if_neg (by norm_num)]
    exact mul_pos (div_pos o1 (by norm_num)) (by norm_num)

/-- The seasonal cooling performance is a continuous function of the ratio of energy inputs. -/
theorem season_continuous {q47 eer2 q95 cd : ℝ} (psc ducted : Bool) (hu : UsualUnits u) (hq : 0 < q95) (heer : 0 < eer2) (heer' : eer2 ≤ 16) (hc : Comparable q95 q47) (hcd : 0 ≤ cd) (hcd1 : cd < 1) :
    ContinuousOn (fun e => (ratioTests u psc ducted q95 q47 eer2 e).variableSeason cd) (Icc 0.2 1) := by
  have hb := u.btuh_pos
  have hp : 0 < q95 / (eer2 * u.btuh) := by positivity
  have R : ContinuousOn (fun e : ℝ => capacityRatio95 e) (Icc 0.2 1) := ratio_continuous.continuousOn
  have cl : ContinuousOn (fun e => lowCap q95 e) (Icc 0.2 1) := by unfold lowCap; exact continuousOn_const.mul (R.mul continuousOn_const)
  have cm : ContinuousOn (fun e => lowPow (q95 / (eer2 * u.btuh)) e) (Icc 0.2 1) := by unfold lowPow; exact continuousOn_const.mul ((continuousOn_id.mul R).mul continuousOn_const)
  have cF : ContinuousOn (fun e => fullCap q95 e) (Icc 0.2 1) := by
    unfold fullCap
    refine cl.add (((continuousOn_const.sub R).div (continuousOn_const.sub R) fun e he => ?_).mul (continuousOn_const.sub cl))
    have := (ratio_bounds he.2).2
    have : 0 < 1 - capacityRatio95 e := by linarith
    exact this.ne'
  have cG : ContinuousOn (fun e => fullPow (q95 / (eer2 * u.btuh)) e) (Icc 0.2 1) := by
    unfold fullPow
    refine cm.add (((continuousOn_const.sub (continuousOn_const.mul cm)).div (continuousOn_const.sub (continuousOn_const.mul cm)) fun e he => ?_).mul (continuousOn_const.sub cm))
    obtain ⟨r0, r1⟩ := ratio_bounds he.2
    have x1 : e * capacityRatio95 e ≤ 0.398 := by nlinarith [he.1, he.2]
    have m1 : lowPow (q95 / (eer2 * u.btuh)) e ≤ 0.3654 * (q95 / (eer2 * u.btuh)) := by
      unfold lowPow
      generalize q95 / (eer2 * u.btuh) = p at *
      have := mul_le_mul_of_nonneg_right x1 hp.le
      norm_num; linarith
    have : 0 < q95 / (eer2 * u.btuh) / (0.934 * 0.928) - 0.948 * 1.315 * lowPow (q95 / (eer2 * u.btuh)) e := by
      rw [sub_pos, lt_div_iff₀ (by norm_num)]; linarith
    exact this.ne'
  have cw : ∀ (s : ℝ), ContinuousOn (fun e => unitFan psc u.ton (max q95 q47) ((q95 / 0.934 * capacityRatio95 e + q95) / 2) s) (Icc 0.2 1) := fun s =>
    (unitFan_continuous psc u.ton _ s).comp_continuousOn (((continuousOn_const.mul R).add continuousOn_const).div_const 2)
  have cw3 : ∀ (s : ℝ), ContinuousOn (fun e => unitFan psc u.ton (max q95 q47) (q95 / 0.934 * capacityRatio95 e) s) (Icc 0.2 1) := fun s =>
    (unitFan_continuous psc u.ton _ s).comp_continuousOn (continuousOn_const.mul R)
  have S := fun e (he : e ∈ Icc (0.2 : ℝ) 1) => ratio_shape (u := u) (e := e) psc ducted hu hq heer heer' hc he.1 he.2
  generalize hT : ratioTests u psc ducted q95 q47 eer2 = Te at *
  have tq : ∀ t, ContinuousOn (fun e => (Te e).qLow t) (Icc 0.2 1) ∧ ContinuousOn (fun e => (Te e).pLow t) (Icc 0.2 1) ∧ ContinuousOn (fun e => (Te e).qFull t) (Icc 0.2 1) ∧
      ContinuousOn (fun e => (Te e).pFull t) (Icc 0.2 1) := by
    intro t
    subst hT
    simp only [CoolTests.qLow, CoolTests.pLow, CoolTests.qFull, CoolTests.pFull, ratioTests, shapeTests, lineAt]
    refine ⟨?_, ?_, ?_, ?_⟩ <;> fun_prop
  have cE : ContinuousOn (fun e => (Te e).qE) (Icc 0.2 1) ∧ ContinuousOn (fun e => (Te e).pE) (Icc 0.2 1) := by
    subst hT
    simp only [ratioTests, shapeTests]
    have := cw (if ducted then (max q95 q47 / (q95 / 0.934)) ^ 2 else 0)
    have := cw3 (if ducted then (max q95 q47 / (q95 / 0.934)) ^ 2 else 0)
    refine ⟨?_, ?_⟩ <;> fun_prop
  have cA : ∀ t, ContinuousOn (fun e => (Te e).load t) (Icc 0.2 1) := by
    intro t
    subst hT
    simp only [CoolTests.load, ratioTests, shapeTests]
    exact continuousOn_const
  have cnQ : ContinuousOn (fun e => (Te e).nQ) (Icc 0.2 1) :=
    (cE.1.sub (tq 87).1).div ((tq 87).2.2.1.sub (tq 87).1) fun e he => (sub_pos.2 (S e he).2.2.1).ne'
  have cnP : ContinuousOn (fun e => (Te e).nP) (Icc 0.2 1) :=
    (cE.2.sub (tq 87).2.1).div ((tq 87).2.2.2.sub (tq 87).2.1) fun e he => sub_ne_zero.2 (S e he).2.2.2
  have cI : ∀ t, ContinuousOn (fun e => (Te e).qInt t) (Icc 0.2 1) ∧ ContinuousOn (fun e => (Te e).pInt t) (Icc 0.2 1) := fun t =>
    ⟨((continuousOn_const.sub cnQ).mul (tq t).1).add (cnQ.mul (tq t).2.2.1), ((continuousOn_const.sub cnP).mul (tq t).2.1).add (cnP.mul (tq t).2.2.2)⟩
  unfold CoolTests.variableSeason
  refine ContinuousOn.div (total_continuous (f := fun e => (Te e).delivered) fun b hb => ?_)
    (total_continuous (f := fun e t => varSpeedRate cd ((Te e).qLow t) ((Te e).pLow t) ((Te e).qInt t) ((Te e).pInt t) ((Te e).qFull t) ((Te e).pFull t) ((Te e).load t)) fun b hb => ?_) fun e he => ?_
  · exact ((cA b.1).inf (tq b.1).2.2.1).mul continuousOn_const
  · refine (rate_continuous hcd hcd1 (tq b.1).1 (tq b.1).2.1 (cI b.1).1 (cI b.1).2 (tq b.1).2.2.1 (tq b.1).2.2.2 (cA b.1) fun e he => ?_).mul continuousOn_const
    obtain ⟨o1, o2, -⟩ := S e he
    obtain ⟨k1, k2, k3, k4, k5, k6⟩ := o2 b.1 (List.mem_map_of_mem hb)
    exact ⟨k1, k2, k3, k4, k5, k6, coolBuildingLoad_nonneg o1.le _⟩
  · obtain ⟨o1, o2, -⟩ := S e he
    exact (season_energy_pos hcd hcd1 o1 fun t ht => ⟨(o2 t ht).1, (o2 t ht).2.1.le, (o2 t ht).2.2⟩).ne'

end Resdx.Build
