import Verif.Props.SeasonVariable

/-!
# C97: the SEER2 of variable-speed units from their ratings
-/

set_option linter.unusedSectionVars false
set_option linter.unusedSimpArgs false

namespace Resdx.Build

open Spec Tabular BaseModel Props ResnetFan Fan Table DX

variable {u : Units ℝ} {E : Env ℝ} {T : Coil.Tools} {brentq : Brentq} {a : Args} {B : Built}

/-- The fans of a variable-speed unit in cooling: rated at full, intermediate and low speed, and at full speed in the conditions of the tests. -/
theorem variable_cool_fans {q95 q47 r : ℝ} (h95 : 0 < q95) (r0 : 0 < r) (r1 : r ≤ 0.934) (ht : a.tables = none) (hroot : a.motorPSC.getD false = false → BrentqSpec brentq) (hs : a.standard = .ahri2023)
    (hB : build u E T brentq a = .ok B) {net : Perf ℝ} {qh : List ℝ} (hc : ∃ x y z, qh = [x, q47, y, z])
    (hM : Made u E a .varSpeed net [q95 / 0.934, q95, (q95 / 0.934 * r + q95) / 2, q95 / 0.934 * r] qh B) :
    let fan := unitFan (a.motorPSC.getD false) u.ton (max q95 q47)
    let s (x : ℝ) : ℝ := if a.ducted then x else 0
    let z := s ((max q95 q47 / (q95 / 0.934)) ^ 2)
    B.core.cool.power[1]? = some (some (fan q95 (s 1))) ∧ B.core.cool.power[2]? = some (some (fan ((q95 / 0.934 * r + q95) / 2) z)) ∧ B.core.cool.power[3]? = some (some (fan (q95 / 0.934 * r) z)) ∧
      (B.unit u E T brentq).fanPower B.points.aFull = .ok (fan q95 z) := by
  intro fan s z
  obtain ⟨x, y, zz, rfl⟩ := hc
  have hpsc : B.core.psc = a.motorPSC.getD false := hM.motor
  have ht' : ∀ d, a.tables = some d → RatedTables (tableSpeeds B.core.st) d := fun d hd => by rw [ht] at hd; cases hd
  have hbr : B.core.psc = false → BrentqSpec brentq := fun e => hroot (hpsc.symm.trans e)
  have he := esp_2023 hB hs
  obtain ⟨st0, q, nC, nH, b2, b3, b4, b6, b7, b8, b9, b10⟩ := build_steps hB
  obtain ⟨g1, -, g3, -⟩ := full_points b10
  have fc : B.core.rc.full = 1 := hM.full.1
  rw [fc] at g1
  have hL : 0 < max q95 q47 := lt_max_of_lt_left h95
  have sq : ∀ {x : ℝ}, 0 < x → x ≤ max q95 q47 → (x / max q95 q47) ^ 2 ≤ 3 := by
    intro x h0 h1
    have : x / max q95 q47 ≤ 1 := (div_le_one hL).2 h1
    have : 0 < x / max q95 q47 := div_pos h0 hL
    nlinarith
  have lo2 : q95 / 0.934 * r ≤ q95 := by rw [div_mul_eq_mul_div, div_le_iff₀ (by norm_num)]; nlinarith
  have lo1 : (q95 / 0.934 * r + q95) / 2 ≤ q95 := by linarith
  have l95 : q95 ≤ max q95 q47 := le_max_left _ _
  obtain ⟨c1, c2⟩ := C88_fan_power hB ht' hM hbr (x := q95) (y := q47) rfl rfl hL false (i := 1) (q := q95) (q0 := q95 / 0.934) rfl rfl h95 (by positivity) (sq h95 l95)
  obtain ⟨e1, -⟩ := C88_fan_power hB ht' hM hbr (x := q95) (y := q47) rfl rfl hL false (i := 2) (q := (q95 / 0.934 * r + q95) / 2) (q0 := q95 / 0.934) rfl rfl (by positivity) (by positivity)
    (sq (by positivity) (lo1.trans l95))
  obtain ⟨f1, -⟩ := C88_fan_power hB ht' hM hbr (x := q95) (y := q47) rfl rfl hL false (i := 3) (q := q95 / 0.934 * r) (q0 := q95 / 0.934) rfl rfl (by positivity) (by positivity)
    (sq (by positivity) (lo2.trans l95))
  have c3 := c2 g1
  rw [he, hpsc] at c1 e1 f1 c3
  rw [if_pos (show (1 : Nat) = fullIndex .varSpeed from rfl), mul_one] at c1
  rw [if_neg (show ¬ (2 : Nat) = fullIndex .varSpeed by decide)] at e1
  rw [if_neg (show ¬ (3 : Nat) = fullIndex .varSpeed by decide)] at f1
  have ite : ∀ z : ℝ, ((if a.ducted = true then 1 else 0 : ℝ)) * z = if a.ducted = true then z else 0 := by intro z; split <;> simp
  rw [ite] at e1 f1 c3
  exact ⟨c1, e1, f1, c3⟩

/-- Bounds of these fans. -/
theorem variable_cool_bounds {q95 q47 r : ℝ} (psc ducted : Bool) (hu : UsualUnits u) (h95 : 0 < q95) (r0 : 0 < r) (r1 : r ≤ 0.398) (hc : Comparable q95 q47) :
    let fan := unitFan psc u.ton (max q95 q47)
    let s (x : ℝ) : ℝ := if ducted then x else 0
    let z := s ((max q95 q47 / (q95 / 0.934)) ^ 2)
    (0 < fan q95 (s 1) ∧ fan q95 (s 1) ≤ 0.048 * q95) ∧ (0 < fan ((q95 / 0.934 * r + q95) / 2) z ∧ fan ((q95 / 0.934 * r + q95) / 2) z ≤ 0.0685 * q95) ∧
      (0 < fan (q95 / 0.934 * r) z ∧ fan (q95 / 0.934 * r) z ≤ 0.041 * q95) ∧ 0 < fan q95 z ∧ -0.0024 * q95 ≤ fan q95 z - fan q95 (s 1) ∧ fan q95 z - fan q95 (s 1) ≤ 0.0215 * q95 := by
  intro fan s z
  have l95 : q95 ≤ max q95 q47 := le_max_left _ _
  have hm : max q95 q47 ^ 2 ≤ 3 * q95 ^ 2 := by
    rcases max_choice q95 q47 with e | e <;> rw [e]
    · nlinarith [sq_nonneg q95]
    · exact hc.1
  obtain ⟨⟨z0, z3⟩, a1, a2, a3⟩ := fan_shift psc ducted hu h95 l95 hm (f := 0.934) (by norm_num) le_rfl
  have lo2 : q95 / 0.934 * r ≤ 0.42613 * q95 := by rw [div_mul_eq_mul_div, div_le_iff₀ (by norm_num)]; nlinarith
  have g1 := unitFan_bounds (psc := psc) hu (show 0 < (q95 / 0.934 * r + q95) / 2 by positivity) (show (q95 / 0.934 * r + q95) / 2 ≤ max q95 q47 by linarith) z0 z3
  have g2 := unitFan_bounds (psc := psc) hu (show 0 < q95 / 0.934 * r by positivity) (show q95 / 0.934 * r ≤ max q95 q47 by linarith) z0 z3
  exact ⟨a1, ⟨g1.1, g1.2.le.trans (by linarith)⟩, ⟨g2.1, g2.2.le.trans (by linarith)⟩, a2, a3⟩

/-- The shape of the cooling of a variable-speed unit with default ratios: capacity `l` and power `m` of the lowest speed at 82 °F, capacity `F` and power `G` of full speed at 82 °F. -/
structure CoolShape (q p l F m G : ℝ) : Prop where
  rated : 0 < q
  power : 0.2132 * q ≤ p
  low : 0 < l
  low_le : l ≤ 0.4496 * q
  full : 0.89 * (1.139 * q - l) ≤ F - l ∧ F - l ≤ 0.928 * (1.13902 * q - l)
  lowPower : 0 < m
  lowPower_le : m ≤ 0.3654 * p
  fullPower : 0.779 * (0.9255 * p - m) ≤ G - m ∧ G - m ≤ 0.8669 * (0.92563 * p - m)

theorem default_ratio (seer2 eer2 : ℝ) : let e := inputRatio82 seer2 eer2
    0.2 ≤ e ∧ e ≤ 1 ∧ 0.1 ≤ capacityRatio95 e ∧ capacityRatio95 e ≤ 0.398 := by
  intro e
  have e1 : e ≤ 1 := max_le (by norm_num) (min_le_left _ _)
  refine ⟨le_max_left _ _, e1, le_max_left _ _, max_le (by norm_num) ((min_le_right _ _).trans ?_)⟩
  rw [show 0.510 - 0.119 * (e - 1.305) / (-0.324) = 0.510 + 0.119 / 0.324 * (e - 1.305) by ring]
  linarith

theorem cool_shape {q95 seer2 eer2 : ℝ} (hu : UsualUnits u) (hq : 0 < q95) (heer : 0 < eer2) (heer' : eer2 ≤ 16) :
    let v := varCooling u.btuh q95 seer2 eer2 none none
    CoolShape q95 v.p95 v.q82s.min v.q82s.full v.p82s.min v.p82s.full ∧ v.q95s.min = 0.948 * v.q82s.min ∧ v.p95s.min = 0.948 * 1.315 * v.p82s.min := by
  intro v
  obtain ⟨e0, e1, r0, r1⟩ := default_ratio seer2 eer2
  obtain ⟨e, he⟩ : ∃ e, e = inputRatio82 seer2 eer2 := ⟨_, rfl⟩
  rw [← he] at e0 e1 r0 r1
  obtain ⟨r, hr⟩ : ∃ r, r = capacityRatio95 e := ⟨_, rfl⟩
  rw [← hr] at r0 r1
  have hbt := u.btuh_pos
  have hE0 : 0 < eer2 * u.btuh := by positivity
  have vq : v.q95 = q95 := rfl
  have vr : v.ratio = r := by rw [hr, he]; rfl
  obtain ⟨p, hp⟩ : ∃ p, p = v.p95 := ⟨_, rfl⟩
  have hp' : p = q95 / (eer2 * u.btuh) := hp
  have hp0 : 0 < p := by rw [hp']; positivity
  have hp1 : 0.2132 * q95 ≤ p := by
    rw [hp', le_div_iff₀ hE0]
    have : eer2 * u.btuh ≤ 16 * 0.2931 := mul_le_mul heer' hu.btuh hbt.le (by norm_num)
    nlinarith
  have vc : v.cop82 = q95 / p * 0.928 * 1.326 / e := by rw [hp', he]; rfl
  have hl : v.q82s.min = 1 / (0.934 * 0.948) * (r * q95) := by
    show v.q95 / 0.934 * v.ratio / 0.948 = _
    rw [vq, vr]; ring
  have hm : v.p82s.min = 1 / (0.934 * 0.948 * 0.928 * 1.326) * (e * r * p) := by
    show v.q82s.min / v.cop82 = _
    rw [hl, vc]; field_simp
  have hF : v.q82s.full = v.q82s.min + (0.934 - r) / (1 - r) * (1 / (0.934 * 0.94) * q95 - v.q82s.min) := by
    show between v.q82s.min (v.q95 / 0.934 / 0.940) (v.q95 / 0.934 * v.ratio) v.q95 (v.q95 / 0.934) = _
    rw [vq, vr]; unfold between
    have h1 : 1 - r ≠ 0 := by linarith
    have h2 : q95 / 0.934 - q95 / 0.934 * r ≠ 0 := by
      rw [show q95 / 0.934 - q95 / 0.934 * r = q95 / 0.934 * (1 - r) by ring]
      exact mul_ne_zero (by positivity) h1
    have : (q95 - q95 / 0.934 * r) / (q95 / 0.934 - q95 / 0.934 * r) = (0.934 - r) / (1 - r) := by
      rw [div_eq_div_iff h2 h1]; ring
    rw [this]; ring
  have hpm : v.p95s.min = 0.948 * 1.315 * v.p82s.min := by
    show v.q82s.min / v.cop82 * (0.948 * 1.315) = 0.948 * 1.315 * (v.q82s.min / v.cop82); ring
  obtain ⟨m, hm'⟩ : ∃ m, m = v.p82s.min := ⟨_, rfl⟩
  have x1 : e * r ≤ 0.398 := by nlinarith
  have x0 : 0 < e * r := by positivity
  have m0 : 0 < m := by rw [hm', hm]; positivity
  have m1 : m ≤ 0.3654 * p := by rw [hm', hm]; norm_num; nlinarith
  have hd : 0 < p / (0.934 * 0.928) - 0.948 * 1.315 * m := by
    rw [sub_pos, lt_div_iff₀ (by norm_num)]; nlinarith
  have hG : v.p82s.full = m + (p - 0.948 * 1.315 * m) / (p / (0.934 * 0.928) - 0.948 * 1.315 * m) * (1 / (0.934 * 0.928 * 0.94 * 1.326) * p - m) := by
    show between v.p82s.min (v.p95s.max / (0.940 * 1.326)) v.p95s.min v.p95s.full v.p95s.max = _
    rw [hpm, ← hm']
    show between m (v.p95 / (0.934 * 0.928) / (0.940 * 1.326)) (0.948 * 1.315 * m) v.p95 (v.p95 / (0.934 * 0.928)) = _
    rw [← hp]; unfold between; ring
  refine ⟨?_, ?_, hpm⟩
  · rw [← hp, ← hm', hG, hF, hl]
    have w1 : 0.89 ≤ (0.934 - r) / (1 - r) := by rw [le_div_iff₀ (by linarith)]; linarith
    have w2 : (0.934 - r) / (1 - r) ≤ 0.928 := by rw [div_le_iff₀ (by linarith)]; linarith
    have y1 : 0.779 ≤ (p - 0.948 * 1.315 * m) / (p / (0.934 * 0.928) - 0.948 * 1.315 * m) := by
      rw [le_div_iff₀ hd]
      have : p / (0.934 * 0.928) ≤ 1.15374 * p := by rw [div_le_iff₀ (by norm_num)]; linarith
      linarith
    have y2 : (p - 0.948 * 1.315 * m) / (p / (0.934 * 0.928) - 0.948 * 1.315 * m) ≤ 0.8669 := by
      rw [div_le_iff₀ hd]
      have : 1.1537 * p ≤ p / (0.934 * 0.928) := by rw [le_div_iff₀ (by norm_num)]; linarith
      linarith
    have l1 : 1 / (0.934 * 0.948) * (r * q95) ≤ 0.4496 * q95 := by norm_num; nlinarith
    have k1 : 1.139 * q95 ≤ 1 / (0.934 * 0.94) * q95 := by norm_num; linarith
    have k2 : 1 / (0.934 * 0.94) * q95 ≤ 1.13902 * q95 := by norm_num; linarith
    have k3 : 0.9255 * p ≤ 1 / (0.934 * 0.928 * 0.94 * 1.326) * p := by norm_num; linarith
    have k4 : 1 / (0.934 * 0.928 * 0.94 * 1.326) * p ≤ 0.92563 * p := by norm_num; linarith
    have l0 : 0 < 1 / (0.934 * 0.948) * (r * q95) := by positivity
    clear hG hF hl hm hpm vc hp hm' hd hp'
    generalize (0.934 - r) / (1 - r) = ω at *
    generalize (p - 0.948 * 1.315 * m) / (p / (0.934 * 0.928) - 0.948 * 1.315 * m) = ω' at *
    generalize 1 / (0.934 * 0.948) * (r * q95) = l at *
    generalize 1 / (0.934 * 0.94) * q95 = h1 at *
    generalize 1 / (0.934 * 0.928 * 0.94 * 1.326) * p = h2 at *
    refine ⟨hq, hp1, l0, l1, ⟨?_, ?_⟩, m0, m1, ?_, ?_⟩
    all_goals
      rw [add_sub_cancel_left]
      refine mul_le_mul (by assumption) (by linarith) (by linarith) (by linarith)
  · show v.q95 / 0.934 * v.ratio = 0.948 * (v.q95 / 0.934 * v.ratio / 0.948)
    ring

/-- Values of the cooling curves. -/
theorem ends_values {e : Ends ℝ} (h : e.low / 2 ≤ e.low - 22 / 13 * (e.high - e.low)) : e.cooling (frF 67) = e.low - 15 / 13 * (e.high - e.low) ∧ e.cooling (frF 87) = e.low + 5 / 13 * (e.high - e.low) := by
  have e60 : lineAt (frF 82) e.low (frF 95) e.high (frF 60) = e.low - 22 / 13 * (e.high - e.low) := by unfold lineAt frF; field_simp; ring
  constructor
  · rw [Ends.cooling, if_neg (by rw [not_le, frF_lt]; norm_num), e60, max_eq_left h]
    unfold lineAt frF; field_simp; ring
  · rw [Ends.cooling, if_pos (by rw [frF_le]; norm_num)]
    unfold lineAt frF; field_simp; ring

theorem ends_87 (e : Ends ℝ) : e.cooling (frF 87) = e.low + 5 / 13 * (e.high - e.low) := by
  rw [Ends.cooling, if_pos (by rw [frF_le]; norm_num)]
  unfold lineAt frF; field_simp; ring

/-- The cooling tests of that shape, with the rated fan powers `w1`, `w`, `w3` and the fan power `v` of full speed in the tests. -/
noncomputable def shapeTests (q p l F m G w1 w w3 v : ℝ) : CoolTests ℝ where
  qA := q - (v - w1)
  pA := p + (v - w1)
  qB := F - (v - w1)
  pB := G + (v - w1)
  qBl := l
  pBl := m
  qFl := 1.06 * l
  pFl := (1 - 0.24662 * (15 / 13)) * m
  qE := (0.98 * l + (F + 5 / 13 * (q - F))) / 2 + ((w1 + w3) / 2 - w)
  pE := ((1 + 0.24662 * (5 / 13)) * m + (G + 5 / 13 * (p - G))) / 2 - ((w1 + w3) / 2 - w)

theorem shape_tests {q95 seer2 eer2 q47 : ℝ} (hu : UsualUnits u) (hq : 0 < q95) (heer : 0 < eer2) (heer' : eer2 ≤ 16) (q17 : Option ℝ) (hspf2 mn : ℝ) (cop : Option ℝ) (w1 w w3 v : ℝ) :
    let V := varCooling u.btuh q95 seer2 eer2 none none
    let curve := varCurves u.btuh q95 seer2 eer2 q47 q17 hspf2 mn none none cop
    (curve 1).variableCoolTests (curve 2) w1 w w3 v = shapeTests q95 V.p95 V.q82s.min V.q82s.full V.p82s.min V.p82s.full w1 w w3 v := by
  intro V curve
  obtain ⟨S, s1, s2⟩ := cool_shape (seer2 := seer2) hu hq heer heer'
  obtain ⟨a1, a2⟩ := ends_values (e := ⟨V.q82s.min, V.q95s.min⟩) (by simp only [V, s1]; linarith [S.low])
  obtain ⟨b1, b2⟩ := ends_values (e := ⟨V.p82s.min, V.p95s.min⟩) (by simp only [V, s2]; linarith [S.lowPower])
  have q1 : (curve 1).coolingCapacity = Ends.cooling ⟨V.q82s.min, V.q95s.min⟩ := rfl
  have p1 : (curve 1).coolingPower = Ends.cooling ⟨V.p82s.min, V.p95s.min⟩ := rfl
  have q2 : (curve 2).coolingCapacity = Ends.cooling ⟨V.q82s.full, q95⟩ := rfl
  have p2 : (curve 2).coolingPower = Ends.cooling ⟨V.p82s.full, V.p95⟩ := rfl
  have t1 : V.q95s.min = 0.948 * V.q82s.min := s1
  have t2 : V.p95s.min = 0.948 * 1.315 * V.p82s.min := s2
  simp only [Curves.variableCoolTests, Curves.coolTests, Curves.withFan, q1, p1, q2, p2, a1, a2, b1, b2, ends_cooling.1, ends_cooling.2, ends_87, shapeTests]
  rw [t1, t2]
  congr 1 <;> ring

theorem cooling_range : ∀ t ∈ (coolingSeason : List (ℝ × ℝ)).map Prod.fst, 67 ≤ t ∧ t ≤ 102 := by
  simp only [coolingSeason, List.map_cons, List.map_nil, List.forall_mem_cons, List.not_mem_nil, false_imp_iff, implies_true, and_true]
  norm_num

theorem shape_order_at {q p l F m G w1 w w3 v : ℝ} (S : CoolShape q p l F m G) (h4 : -0.0024 * q ≤ v - w1 ∧ v - w1 ≤ 0.0215 * q) {t : ℝ} (ht : t ∈ (coolingSeason : List (ℝ × ℝ)).map Prod.fst) :
    let T := shapeTests q p l F m G w1 w w3 v
    0 < T.qLow t ∧ T.qLow t < T.qFull t ∧ 0 < T.pLow t ∧ T.pLow t ≤ T.pFull t := by
  intro T
  obtain ⟨c1, c2, c3, c4, c5, c6, c7, c8⟩ := S
  obtain ⟨t1, t2⟩ := cooling_range t ht
  have hp : 0 < p := by linarith
  have e1 : T.qLow t = l - 0.004 * l * (t - 82) := by simp only [T, CoolTests.qLow, shapeTests, lineAt]; ring
  have e2 : T.qFull t = F - (F - q) / 13 * (t - 82) - (v - w1) := by simp only [T, CoolTests.qFull, shapeTests, lineAt]; ring
  have e3 : T.pLow t = m + 0.24662 / 13 * m * (t - 82) := by simp only [T, CoolTests.pLow, shapeTests, lineAt]; ring
  have e4 : T.pFull t = G + (p - G) / 13 * (t - 82) + (v - w1) := by simp only [T, CoolTests.pFull, shapeTests, lineAt]; ring
  rw [e1, e2, e3, e4]
  -- linear in the temperature: the ends suffice
  have ends : ∀ {x y : ℝ}, 0 < x - 15 * y → 0 < x + 20 * y → 0 < x + y * (t - 82) := by
    intro x y g1 g2
    rcases le_total 0 y with h | h
    · nlinarith [mul_nonneg h (sub_nonneg.2 t1)]
    · nlinarith [mul_nonneg (neg_nonneg.2 h) (sub_nonneg.2 t2)]
  refine ⟨?_, ?_, ?_, ?_⟩
  · have := ends (x := l) (y := -0.004 * l) (by linarith) (by linarith); linarith
  · have := ends (x := F - (v - w1) - l) (y := 0.004 * l - (F - q) / 13) (by linarith) (by linarith); linarith
  · have := ends (x := m) (y := 0.24662 / 13 * m) (by norm_num; linarith) (by positivity); linarith
  · have := ends (x := G + (v - w1) - m) (y := (p - G) / 13 - 0.24662 / 13 * m) (by norm_num; linarith) (by norm_num; linarith); linarith

/-- The order of these tests: at every temperature of the season the capacities and powers of low, intermediate and full speed are positive, and the capacities are in this order. -/
theorem shape_order {q p l F m G w1 w w3 v : ℝ} (S : CoolShape q p l F m G) (h1 : 0 < w1 ∧ w1 ≤ 0.048 * q) (h2 : 0 < w ∧ w ≤ 0.0685 * q) (h3 : 0 < w3 ∧ w3 ≤ 0.041 * q)
    (h4 : -0.0024 * q ≤ v - w1 ∧ v - w1 ≤ 0.0215 * q) : let T := shapeTests q p l F m G w1 w w3 v
    0 < T.qA ∧ (∀ t ∈ (coolingSeason : List (ℝ × ℝ)).map Prod.fst, 0 < T.qLow t ∧ T.qLow t ≤ T.qInt t ∧ T.qInt t < T.qFull t ∧ 0 < T.pLow t ∧ 0 < T.pInt t ∧ 0 < T.pFull t) ∧
      T.qLow 87 < T.qFull 87 ∧ T.pFull 87 ≠ T.pLow 87 := by
  intro T
  obtain ⟨c1, c2, c3, c4, c5, c6, c7, c8⟩ := id S
  have hp : 0 < p := by linarith
  have L87 : T.qLow 87 = 0.98 * l := by simp only [T, CoolTests.qLow, shapeTests, lineAt]; ring
  have F87 : T.qFull 87 = F + 5 / 13 * (q - F) - (v - w1) := by simp only [T, CoolTests.qFull, shapeTests, lineAt]; ring
  have P87 : T.pLow 87 = (1 + 0.24662 * (5 / 13)) * m := by simp only [T, CoolTests.pLow, shapeTests, lineAt]; ring
  have G87 : T.pFull 87 = G + 5 / 13 * (p - G) + (v - w1) := by simp only [T, CoolTests.pFull, shapeTests, lineAt]; ring
  have n1 : T.qLow 87 < T.qFull 87 := by rw [L87, F87]; linarith
  have n2 : T.pLow 87 < T.pFull 87 := by rw [P87, G87]; linarith
  have nq0 : 0 ≤ T.nQ := by
    refine div_nonneg ?_ (by linarith)
    rw [L87, show T.qE = (0.98 * l + (F + 5 / 13 * (q - F))) / 2 + ((w1 + w3) / 2 - w) from rfl]; linarith
  have nq1 : T.nQ < 1 := by
    refine (div_lt_one (by linarith)).2 ?_
    rw [L87, F87, show T.qE = (0.98 * l + (F + 5 / 13 * (q - F))) / 2 + ((w1 + w3) / 2 - w) from rfl]; linarith
  have np0 : 0 ≤ T.nP := by
    refine div_nonneg ?_ (by linarith)
    rw [P87, show T.pE = ((1 + 0.24662 * (5 / 13)) * m + (G + 5 / 13 * (p - G))) / 2 - ((w1 + w3) / 2 - w) from rfl]; linarith
  have order := fun t ht => shape_order_at (w := w) (w3 := w3) S (h4 := h4) (t := t) ht
  refine ⟨by simp only [T, shapeTests]; linarith, fun t ht => ?_, n1, n2.ne'⟩
  obtain ⟨o1, o2, o3, o4⟩ := order t ht
  refine ⟨o1, ?_, ?_, o3, ?_, by linarith⟩
  · unfold CoolTests.qInt
    generalize T.nQ = n at *
    nlinarith [mul_nonneg nq0 (sub_pos.2 o2).le]
  · unfold CoolTests.qInt
    generalize T.nQ = n at *
    nlinarith [mul_pos (sub_pos.2 nq1) (sub_pos.2 o2)]
  · unfold CoolTests.pInt
    generalize T.nP = n at *
    nlinarith [mul_nonneg np0 (sub_nonneg.2 o4)]

theorem coolBuildingLoad_nonneg {q : ℝ} (hq : 0 ≤ q) (t : ℝ) : 0 ≤ coolBuildingLoad q t := by
  unfold coolBuildingLoad
  split
  · exact le_rfl
  · rename_i h
    exact mul_nonneg (by positivity) (div_nonneg (by linarith [not_le.1 h]) (by norm_num))

/-- A variable-speed unit draws power whenever there is a load. -/
theorem varSpeedRate_pos {cd qL pL qI pI qF pF l : ℝ} (hcd : 0 ≤ cd) (hcd1 : cd < 1) (h : 0 < qL ∧ qL ≤ qI ∧ qI < qF ∧ 0 < pL ∧ 0 < pI ∧ 0 < pF) (hl : 0 ≤ l) :
    0 ≤ varSpeedRate cd qL pL qI pI qF pF l ∧ (0 < l → 0 < varSpeedRate cd qL pL qI pI qF pF l) := by
  obtain ⟨h1, h2, h3, h4, h5, h6⟩ := h
  have hI : 0 < qI := h1.trans_le h2
  have hF : 0 < qF := hI.trans h3
  obtain ⟨b1, -, b3⟩ := varSpeedRate_bounds (l := l) (m := 0) (M := qL / pL + qI / pI + qF / pF) hcd hcd1 h1 h2 h3 h4 h5 h6 hl le_rfl (by positivity) (by positivity) (by positivity)
    (by have : 0 < qI / pI + qF / pF := by positivity
        linarith) (by have : 0 < qL / pL + qF / pF := by positivity
                      linarith) (by have : 0 < qL / pL + qI / pI := by positivity
                                    linarith)
  refine ⟨b1, fun h0 => lt_of_le_of_ne b1 fun e => ?_⟩
  rw [← e, mul_zero] at b3
  exact absurd (lt_min h0 hF) (not_lt.2 b3)

/-- The seasonal cooling performance of a variable-speed unit made from its ratings: full speed is rated with the pressure at the larger airflow of both modes; the other speeds and, in the tests, full speed run at the pressure that has
0.5 inH2O at the airflow of the highest cooling speed. The curves are those of the ratings. -/
noncomputable def variableSeer (psc ducted : Bool) (ton q95 q47 r : ℝ) (low full : Curves ℝ) (cd : ℝ) : ℝ :=
  let fan := unitFan psc ton (max q95 q47)
  let s := if ducted then (max q95 q47 / (q95 / 0.934)) ^ 2 else 0
  (low.variableCoolTests full (fan q95 (if ducted then 1 else 0)) (fan ((q95 / 0.934 * r + q95) / 2) s) (fan (q95 / 0.934 * r) s) (fan q95 s)).variableSeason cd

/-- C97, from the ratings to the SEER2 of a variable-speed unit, for both motors, ducted or not: within the ranges of `UsualVariable` the unit can be made and its SEER2 is the one of the specification. -/
theorem C97_variable_ratings {q95 eer2 : ℝ} (H : UsualVariable u a q95 eer2) (hstd : a.standard = .ahri2023) (hcd : 0 ≤ cd a.cdCooling) (hcd1 : cd a.cdCooling < 1)
    (o87 : Outdoor E (frF 87)) (o82 : Outdoor E (frF 82)) (o67 : Outdoor E (frF 67)) (h : Surroundings u E T brentq a .varSpeed (variableSizes u a q95 eer2)) :
    let q47 := ratedHeating u a .varSpeed q95
    let curve := varCurves u.btuh q95 (a.seer.getD 0) eer2 q47 a.heating17 (a.hspf.getD 0) (lowestTemperature a .varSpeed) none none a.netHeatingCop
    ∃ B, build u E T brentq a = .ok B ∧ B.core.st = .varSpeed ∧
      B.seer u E T brentq = .ok (variableSeer (a.motorPSC.getD false) a.ducted u.ton q95 q47 (capacityRatio95 (inputRatio82 (a.seer.getD 0) eer2)) (curve 1) (curve 2) (cd a.cdCooling) / u.btuh) := by
  intro q47 curve
  obtain ⟨B, net, hB, hM, hF⟩ := C90_variable_range H.usual H.tables H.staging H.cooling H.seer H.eer H.hspf H.defaults H.eer_pos H.eer_le H.ratio H.size H.comparable H.hottest H.heating h
  refine ⟨B, hB, hM.staging, ?_⟩
  have hpos := H.heating.rated
  have h95 := H.size
  have hcold := H.heating.cold
  have hmn := H.heating.below
  have hl : -20 ≤ toF (lowestTemperature a .varSpeed) := by have := toF_le.2 H.heating.above; rwa [toF_frF] at this
  obtain ⟨-, hST, -⟩ := variable_tables hB H.tables H.staging H.cooling H.seer H.eer H.hspf h95.ne' H.eer_pos.ne' hpos.ne' (by linarith) H.heating.cop_pos.ne' (by rw [H.defaults.2]; simp) H.hottest.1 hmn
    (by intro hc; rw [hc] at hl; norm_num at hl) (by rw [H.defaults.1, H.defaults.2]; exact (default_ratios u h95.ne' H.eer_pos.ne').1) (by rw [H.defaults.1, H.defaults.2]; exact (default_ratios u h95.ne' H.eer_pos.ne').2)
  obtain ⟨-, -, r0, r1⟩ := default_ratio (a.seer.getD 0) eer2
  have er : (varCooling u.btuh q95 (a.seer.getD 0) eer2 none none).ratio = capacityRatio95 (inputRatio82 (a.seer.getD 0) eer2) := rfl
  simp only [er] at hM
  generalize hr : capacityRatio95 (inputRatio82 (a.seer.getD 0) eer2) = r at *
  obtain ⟨f1, f2, f3, f4⟩ := variable_cool_fans h95 (by linarith) (by linarith) H.tables (fun e => h.root e) hstd hB ⟨_, _, _, rfl⟩ hM
  obtain ⟨g1, g2, g3, g4, g5⟩ := variable_cool_bounds (r := r) (a.motorPSC.getD false) a.ducted H.usual h95 (by linarith) r1 H.comparable
  obtain ⟨x, hQ, hx0, hx1⟩ := hM.grossCool 2 ((q95 / 0.934 * r + q95) / 2) rfl
  have k1 : Follows B.core.net 1 (curve 1) := by rw [hM.tables]; exact hF 1 (by norm_num) (by norm_num)
  have k2 : Follows B.core.net 2 (curve 2) := by rw [hM.tables]; exact hF 2 (by norm_num) (by norm_num)
  have nb : ∀ (s : Int) {t : ℝ}, 60 ≤ t → t ≤ 95 → NotBelow B.core.net (curve s) (frF t) := by
    intro s t g1 g2
    have mem : ∀ x ∈ [frF 60, frF 82, frF 95], x ∈ B.core.net.coolingCapacities.temperatures ∧ x ∈ B.core.net.coolingPowers.temperatures := fun x hx => by
      rw [hST.cooling.1, hST.cooling.2]
      have : x ∈ [frF 60, frF 82, frF 95, a.coolingOff] := by simp only [List.mem_cons, List.not_mem_nil, or_false] at hx ⊢; tauto
      exact ⟨this, this⟩
    obtain ⟨x, m1, l1⟩ := ends_notBelow (e := ⟨(varCooling u.btuh q95 (a.seer.getD 0) eer2 none none).q82s.speed s, (varCooling u.btuh q95 (a.seer.getD 0) eer2 none none).q95s.speed s⟩) (frF_le.2 g1) (frF_le.2 g2)
    obtain ⟨y, m2, l2⟩ := ends_notBelow (e := ⟨(varCooling u.btuh q95 (a.seer.getD 0) eer2 none none).p82s.speed s, (varCooling u.btuh q95 (a.seer.getD 0) eer2 none none).p95s.speed s⟩) (frF_le.2 g1) (frF_le.2 g2)
    exact ⟨⟨x, (mem x m1).1, l1⟩, y, (mem y m2).2, l2⟩
  have key := C97_variable_seer hB hM.staging (fun d hd => by rw [H.tables] at hd; cases hd) h.charge hcd hcd1 hQ (by positivity) hST (by norm_num) h.outdoor o87 o82 o67 k1 k2
    (nb 2 (by norm_num) (by norm_num)) (nb 2 (by norm_num) (by norm_num)) (nb 2 (by norm_num) (by norm_num)) (nb 1 (by norm_num) (by norm_num)) (nb 1 (by norm_num) (by norm_num)) (nb 1 (by norm_num) (by norm_num))
    f4 f1 f2 f3
  have eT := shape_tests (seer2 := a.seer.getD 0) (q47 := q47) H.usual h95 H.eer_pos H.eer_le a.heating17 (a.hspf.getD 0) (lowestTemperature a .varSpeed) a.netHeatingCop
    (unitFan (a.motorPSC.getD false) u.ton (max q95 q47) q95 (if a.ducted then 1 else 0))
    (unitFan (a.motorPSC.getD false) u.ton (max q95 q47) ((q95 / 0.934 * r + q95) / 2) (if a.ducted then (max q95 q47 / (q95 / 0.934)) ^ 2 else 0))
    (unitFan (a.motorPSC.getD false) u.ton (max q95 q47) (q95 / 0.934 * r) (if a.ducted then (max q95 q47 / (q95 / 0.934)) ^ 2 else 0))
    (unitFan (a.motorPSC.getD false) u.ton (max q95 q47) q95 (if a.ducted then (max q95 q47 / (q95 / 0.934)) ^ 2 else 0))
  obtain ⟨o1, o2, o3, o4⟩ := shape_order (cool_shape (seer2 := a.seer.getD 0) H.usual h95 H.eer_pos H.eer_le).1 g1 g2 g3 g5
  simp only at eT o1 o2 o3 o4
  rw [← eT] at o1 o2 o3 o4
  simp only at key
  refine key o1.le o2 o3 o4 (ne_of_gt ?_)
  refine total_pos (b := ((67 : ℝ), 0.214)) (fun b hb => ?_) (by simp [coolingSeason]) ?_ (by norm_num)
  · refine ⟨(varSpeedRate_pos hcd hcd1 (o2 b.1 (List.mem_map_of_mem hb)) (coolBuildingLoad_nonneg o1.le _)).1, ?_⟩
    revert hb b
    simp only [coolingSeason, List.forall_mem_cons, List.not_mem_nil, false_imp_iff, implies_true, and_true]
    norm_num
  · refine (varSpeedRate_pos hcd hcd1 (o2 67 (by simp [coolingSeason])) (coolBuildingLoad_nonneg o1.le _)).2 ?_
    show 0 < coolBuildingLoad _ 67
    unfold coolBuildingLoad
    rw [if_neg (by norm_num)]
    exact mul_pos (div_pos o1 (by norm_num)) (by norm_num)

end Resdx.Build

namespace Resdx.Sample

open Spec Tabular BaseModel Props ResnetFan Fan Table Build DX

/-- The hypotheses of `C97_variable_ratings` hold for a variable-speed unit of any size. -/
example {brentq : Brentq} (hbr : BrentqSpec brentq) {q κ : ℝ} (hq : 0 < q) (h1 : 2.1 ≤ κ) (h2 : κ ≤ 5) : ∃ B v, build units env tools brentq (varSizes q κ) = .ok B ∧ B.seer units env tools brentq = .ok v := by
  obtain ⟨B, hB, -, h⟩ := C97_variable_ratings (varSizes_usual hq h1 h2) rfl (by norm_num [cd, varSizes, varArgs]) (by norm_num [cd, varSizes, varArgs]) (outdoorAir _) (outdoorAir _) (outdoorAir _) (varSizes_surroundings hbr hq)
  exact ⟨B, _, hB, h⟩

end Resdx.Sample
