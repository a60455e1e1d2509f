import Verif.Lemmas.DerivedTables

/-! # The contents of the derived tables of variable-speed units -/

set_option linter.unusedSectionVars false
set_option linter.unusedSimpArgs false

namespace Resdx.Tabular

open Spec Util Table Props

variable {K : Type} [Field K] [LinearOrder K] [IsStrictOrderedRing K]

theorem three_rows2 {cs : List (Int × K × K)} {t : Table K} {x y : K} {v w : Three K} (h : Holds 3 [x, y] cs t) (m1 : ((1 : Int), x, v.min) ∈ cs) (m2 : ((2 : Int), x, v.full) ∈ cs)
    (m3 : ((3 : Int), x, v.max) ∈ cs) (m4 : ((1 : Int), y, w.min) ∈ cs) (m5 : ((2 : Int), y, w.full) ∈ cs) (m6 : ((3 : Int), y, w.max) ∈ cs) :
    Rows 3 [(x, v.speed), (y, w.speed)] t := by
  refine Holds.rows (l := [(x, v.speed), (y, w.speed)]) h ?_
  intro r hr s s1 s2
  have hs : s = 1 ∨ s = 2 ∨ s = 3 := by simp at s2; omega
  simp only [List.mem_cons, List.not_mem_nil, or_false] at hr
  rcases hr with rfl | rfl <;> rcases hs with rfl | rfl | rfl <;> simpa [Three.speed]

/-- COP at highest speed and 82 °F as the builder computes it. -/
theorem max_cop {q95 p95 : K} (hp : p95 ≠ 0) : q95 / 0.934 / 0.940 / (p95 / (0.934 * 0.928) / (0.940 * 1.326)) = maxCop82 q95 p95 := by
  unfold maxCop82
  field_simp

theorem bracket_eq (v a b : K) (hab : a ≤ b) : bracket v (some a) (some b) = max a (min b v) := by
  simp only [bracket]
  split_ifs with h1 h2
  · rw [max_eq_left]; exact (min_le_right _ _).trans h1.le
  · rw [min_eq_left h2.le, max_eq_right hab]
  · rw [min_eq_right (not_lt.1 h2), max_eq_right (not_lt.1 h1)]

theorem inputRatio82_pos (seer2 eer2 : K) : 0 < inputRatio82 seer2 eer2 := lt_of_lt_of_le (by norm_num) (le_max_left _ _)

theorem eirr82_ok (u : Units K) {n : Nat} {ts : List K} {cs cs' : List (Int × K × K)} {qc pc : Table K} {q95 seer2 eer2 : K} {ratio cop82 : Option K} (hq : q95 ≠ 0) (heer : eer2 ≠ 0)
    (hcop : ∀ c, cop82 = some c → c ≠ 0) (h : Holds n ts cs qc) (h' : Holds n ts cs' pc) (hc : ((3 : Int), frF 82, q95 / 0.934 / 0.940) ∈ cs)
    (hc' : ((3 : Int), frF 82, q95 / (eer2 * u.btuh) / (0.934 * 0.928) / (0.940 * 1.326)) ∈ cs') :
    ∃ e, eirr82 seer2 eer2 cop82 qc pc = .ok (e, (varCooling u.btuh q95 seer2 eer2 ratio cop82).cop82) ∧
      (varCooling u.btuh q95 seer2 eer2 ratio cop82).ratio = qr95min ratio e ∧ (varCooling u.btuh q95 seer2 eer2 ratio cop82).cop82 ≠ 0 := by
  have hp : q95 / (eer2 * u.btuh) ≠ 0 := div_ne_zero hq (mul_ne_zero heer u.btuh_pos.ne')
  have hp3 : q95 / (eer2 * u.btuh) / (0.934 * 0.928) / (0.940 * 1.326) ≠ 0 := div_ne_zero (div_ne_zero hp (by norm_num)) (by norm_num)
  have hm0 : maxCop82 q95 (q95 / (eer2 * u.btuh)) ≠ 0 := by
    unfold maxCop82
    exact mul_ne_zero (mul_ne_zero (div_ne_zero hq hp) (by norm_num)) (by norm_num)
  have hr : ∀ e : K, ratio.getD (capacityRatio95 e) = qr95min ratio e := by
    intro e
    simp only [qr95min, capacityRatio95, bracket_eq _ (0.1 : K) 0.934 (by norm_num)]
  cases cop82 with
  | none =>
    refine ⟨inputRatio82 seer2 eer2, ?_, hr _, div_ne_zero hm0 (inputRatio82_pos _ _).ne'⟩
    simp only [eirr82, pdiv_ok heer, bind_ok, h.cop h' hc hc' hp3, max_cop hp, bracket_eq _ (0.2 : K) 1 (by norm_num)]
    have : max (0.2 : K) (min 1 (1.305 - 0.324 * seer2 / eer2)) = inputRatio82 seer2 eer2 := rfl
    simp only [this, pdiv_ok (inputRatio82_pos seer2 eer2).ne', bind_ok, pure_eq_ok]
    rfl
  | some c =>
    have hc0 := hcop c rfl
    have e : (varCooling u.btuh q95 seer2 eer2 ratio (some c)).cop82 = c := by
      simp only [varCooling]
      exact div_div_cancel₀ hm0
    refine ⟨maxCop82 q95 (q95 / (eer2 * u.btuh)) / c, ?_, hr _, by rw [e]; exact hc0⟩
    simp only [eirr82, h.cop h' hc hc' hp3, max_cop hp, pdiv_ok hc0, bind_ok, pure_eq_ok, e]

theorem var_cooling (u : Units K) {q95 seer2 eer2 mx : K} {ratio cop82 : Option K} (hq : q95 ≠ 0) (heer : eer2 ≠ 0) (hcop : ∀ c, cop82 = some c → c ≠ 0) (hmx : frF 95 < mx)
    (hr : (varCooling u.btuh q95 seer2 eer2 ratio cop82).ratio ≠ 1)
    (hp : (varCooling u.btuh q95 seer2 eer2 ratio cop82).p95s.max ≠ (varCooling u.btuh q95 seer2 eer2 ratio cop82).p95s.min) :
    ∃ qc pc, neepStatCooling u q95 seer2 eer2 mx ratio cop82 = .ok (qc, pc) ∧
      Rows 3 (coolingRows mx (varCooling u.btuh q95 seer2 eer2 ratio cop82).q82s.speed (varCooling u.btuh q95 seer2 eer2 ratio cop82).q95s.speed) qc ∧
      Rows 3 (coolingRows mx (varCooling u.btuh q95 seer2 eer2 ratio cop82).p82s.speed (varCooling u.btuh q95 seer2 eer2 ratio cop82).p95s.speed) pc := by
  have hbt := u.btuh_pos.ne'
  have s1 : (1 : Int) ≤ 1 ∧ (1 : Int) < ((3 : Nat) : Int) := by norm_num
  have s1' : (1 : Int) ≤ 1 ∧ (1 : Int) ≤ ((3 : Nat) : Int) := by norm_num
  have s2 : (1 : Int) ≤ 2 ∧ (2 : Int) ≤ ((3 : Nat) : Int) := by norm_num
  have nb : Neighbours [frF (82 : K), frF 95] (frF 82) (frF 95) := by
    refine ⟨by simp, by simp, f82_95, ?_⟩
    intro c hc
    simp only [List.mem_cons, List.not_mem_nil, or_false] at hc
    rcases hc with rfl | rfl
    · exact .inl le_rfl
    · exact .inr le_rfl
  obtain ⟨q1, e1, H1⟩ := (Holds.init 3 (sorted_82_95 (K := K))).set 2 (frF 95) q95 s2 (by simp) (by apart)
  obtain ⟨q2, e2, H2⟩ := H1.ratioMax (frF 95) 0.934 (q := q95) (by here) (by norm_num) (by apart)
  obtain ⟨q3, e3, H3⟩ := H2.coolDown 3 (frF 82) (frF 95) 0.940 (by here) (by simp) f82_95 (by norm_num) (by apart)
  obtain ⟨p1, f1, G1⟩ := (Holds.init 3 (sorted_82_95 (K := K))).set 2 (frF 95) (q95 / (eer2 * u.btuh)) s2 (by simp) (by apart)
  obtain ⟨p2, f2, G2⟩ := G1.ratioMax (frF 95) (0.934 * 0.928) (q := q95 / (eer2 * u.btuh)) (by here) (by norm_num) (by apart)
  obtain ⟨p3, f3, G3⟩ := G2.coolDown 3 (frF 82) (frF 95) (0.940 * 1.326) (by here) (by simp) f82_95 (by norm_num) (by apart)
  obtain ⟨e, he, her, hc0⟩ := eirr82_ok (ratio := ratio) u hq heer hcop H3 G3 (by here) (by here)
  generalize hv : varCooling u.btuh q95 seer2 eer2 ratio cop82 = v at *
  have hvq : v.q95 = q95 := by rw [← hv]; rfl
  have hvp : v.p95 = q95 / (eer2 * u.btuh) := by rw [← hv]; rfl
  obtain ⟨q4, e4, H4⟩ := H3.ratio 1 (frF 95) v.ratio (by here) s1 (by apart)
  obtain ⟨q5, e5, H5⟩ := H4.coolDown 1 (frF 82) (frF 95) 0.948 (by here) (by simp) f82_95 (by norm_num) (by apart)
  have hne : q95 / 0.934 ≠ q95 / 0.934 * v.ratio := by
    intro hcon
    apply hr
    have h0 : q95 / 0.934 ≠ 0 := div_ne_zero hq (by norm_num)
    have : q95 / 0.934 * (v.ratio - 1) = 0 := by linear_combination -hcon
    rcases mul_eq_zero.1 this with h | h
    · exact absurd h h0
    · linarith
  obtain ⟨q6, e6, H6⟩ := H5.interpolate (frF 82) (frF 95) (by norm_num) nb (by here) (by here) (by here) (by here) (by here) hne (by apart)
  obtain ⟨p4, f4, G4⟩ := G3.set 1 (frF 82) (q95 / 0.934 * v.ratio / 0.948 / v.cop82) s1' (by simp) (by apart)
  obtain ⟨p5, f5, G5⟩ := G4.coolUp 1 (frF 95) (frF 82) (0.948 * 1.315) (by here) (by simp) f82_95 (by norm_num) (by apart)
  have hne' : q95 / (eer2 * u.btuh) / (0.934 * 0.928) ≠ q95 / 0.934 * v.ratio / 0.948 / v.cop82 * (0.948 * 1.315) := by
    simpa only [VarCooling.p95s, VarCooling.q82s, VarCooling.q95s, hvq, hvp] using hp
  obtain ⟨p6, f6, G6⟩ := G5.interpolate (frF 82) (frF 95) (by norm_num) nb (by here) (by here) (by here) (by here) (by here) hne' (by apart)
  have R1 : Rows 3 [(frF 82, v.q82s.speed), (frF 95, v.q95s.speed)] q6 := by
    refine three_rows2 H6 ?_ ?_ ?_ ?_ ?_ ?_ <;> simp only [VarCooling.q82s, VarCooling.q95s, between, hvq] <;> here
  have R2 : Rows 3 [(frF 82, v.p82s.speed), (frF 95, v.p95s.speed)] p6 := by
    refine three_rows2 G6 ?_ ?_ ?_ ?_ ?_ ?_ <;> simp only [VarCooling.p82s, VarCooling.p95s, VarCooling.q82s, VarCooling.q95s, between, hvq, hvp] <;> here
  obtain ⟨qc, pc, e9, r1, r2⟩ := cooling_extremes R1 R2 hmx
  refine ⟨qc, pc, ?_, r1, r2⟩
  have c2 : ((3 : Nat) : Int) = 3 := rfl
  rw [c2] at e2 f2
  simp only [neepStatCooling, bind_ok, e1, e2, e3, H3.over (show ((2 : Int), frF 95, q95) ∈ _ by here) (mul_ne_zero heer hbt), f1, f2, f3, he, ← her, e4, e5, e6,
    H6.over (show ((1 : Int), frF 82, q95 / 0.934 * v.ratio / 0.948) ∈ _ by here) hc0, f4, f5, f6, e9]

/-! ## Heating -/

theorem lowest_ok {slope mn : K} (h : 1 - slope * (toF (frF 5) - toF mn) ≠ 0) : lctFactor slope mn = .ok (lowestFactor slope mn) := by
  have e : 1 - slope * 9 / 5 * (frF 5 - mn) = 1 - slope * (toF (frF 5) - toF mn) := by unfold toF; ring
  simp only [lctFactor, e, pdiv_ok h, lowestFactor]

theorem below5 {mn : K} (h : mn < frF 5) : 0 < toF (frF 5) - toF mn := by unfold toF; linarith

theorem three_rows4 {cs : List (Int × K × K)} {t : Table K} {mn : K} {v : VarHeating K} (h : Holds 3 [mn, frF 5, frF 17, frF 47] cs t)
    (hc : ∀ s, s = 1 ∨ s = 2 ∨ s = 3 → (s, mn, v.lowest.speed s) ∈ cs ∧ (s, frF 5, v.at5.speed s) ∈ cs ∧ (s, frF 17, v.at17.speed s) ∈ cs ∧ (s, frF 47, v.at47.speed s) ∈ cs) :
    Rows 3 ([(mn, fun s => (v.speed s).lowest), (frF 5, fun s => (v.speed s).at5)] ++ [(frF 17, fun s => (v.speed s).at17), (frF 47, fun s => (v.speed s).at47)]) t := by
  refine Holds.rows (l := [(mn, fun s => (v.speed s).lowest), (frF 5, fun s => (v.speed s).at5)] ++ [(frF 17, fun s => (v.speed s).at17), (frF 47, fun s => (v.speed s).at47)]) h ?_
  intro r hr s s1 s2
  have hs : s = 1 ∨ s = 2 ∨ s = 3 := by simp at s2; omega
  obtain ⟨a, b, c, d⟩ := hc s hs
  simp only [List.cons_append, List.nil_append, List.mem_cons, List.not_mem_nil, or_false] at hr
  rcases hr with rfl | rfl | rfl | rfl
  · exact a
  · exact b
  · exact c
  · exact d

theorem sorted_cold {mn : K} (h : mn < frF 5) : [mn, frF 5, frF 17, frF 47].Pairwise (· < ·) := by
  have a5 := f5_17 (K := K)
  have a17 := f17_47 (K := K)
  simp only [List.pairwise_cons, List.mem_cons, List.not_mem_nil, or_false, forall_eq_or_imp, forall_eq, List.Pairwise.nil, and_true]
  refine ⟨⟨h, by order, by order⟩, ⟨a5, by order⟩, a17, ?_⟩
  simp

theorem neighbours_cold {mn : K} (h : mn < frF 5) : Neighbours [mn, frF 5, frF 17, frF 47] mn (frF 5) := by
  exact (neighbours4 h f5_17 f17_47).1

/-- The cells that both heating tables hold before the lowest temperature is filled. -/
theorem cold_cells {mn : K} (hmn : mn < frF 5) {t : Table K} {v : VarHeating K} {cs : List (Int × K × K)} (h : Holds 3 [mn, frF 5, frF 17, frF 47] cs t)
    (hc : cs = [(1, frF 5, v.at5.min), (2, frF 5, v.at5.full), (3, frF 5, v.at5.max), (1, frF 17, v.at17.min), (3, frF 17, v.at17.max), (2, frF 17, v.at17.full),
      (1, frF 47, v.at47.min), (3, frF 47, v.at47.max), (2, frF 47, v.at47.full)]) (hne : v.at5.max ≠ v.at5.min) :
    ∃ t1 t2 t3 t4, PyM.exec (setByMaintenance .heating 3 mn (frF 5) v.maxLowest) t = .ok t1 ∧ PyM.exec (setByMaintenance .heating 1 mn (frF 5) v.minLowest) t1 = .ok t2 ∧
      PyM.exec (setByInterpolation 2 mn) t2 = .ok t3 ∧ PyM.exec (addTemperature (frF 60) false none) t3 = .ok t4 ∧ Rows 3 (coldRows mn v.speed) t4 := by
  have n5 : frF 5 ≠ mn := hmn.ne'
  have n17 : frF 17 ≠ mn := (hmn.trans f5_17).ne'
  have n47 : frF 47 ≠ mn := (hmn.trans (f5_17.trans f17_47)).ne'
  subst hc
  obtain ⟨t1, e1, H1⟩ := h.heatDown 3 mn (frF 5) v.maxLowest (by here) (by simp) hmn (by apart)
  obtain ⟨t2, e2, H2⟩ := H1.heatDown 1 mn (frF 5) v.minLowest (by here) (by simp) hmn (by apart)
  obtain ⟨t3, e3, H3⟩ := H2.interpolate mn (frF 5) (by norm_num) (neighbours_cold hmn) (by here) (by here) (by here) (by here) (by here) hne (by apart)
  have R := three_rows4 (v := v) H3 (by
    intro s hs
    rcases hs with rfl | rfl | rfl <;> refine ⟨?_, ?_, ?_, ?_⟩ <;> simp [Three.speed, VarHeating.lowest, between])
  obtain ⟨t4, e4, r⟩ := Rows.above_copy _ R f47_60 none
  exact ⟨t1, t2, t3, t4, e1, e2, e3, e4, r⟩

theorem var_heatingQ {q47 m mn : K} (hq : q47 ≠ 0) (hm : m ≠ 0) (hmn : mn < frF 5) :
    ∃ t, neepStatHeatingQ q47 m mn = .ok t ∧ Rows 3 (coldRows mn (varHeatingCapacity q47 (q47 * m) mn).speed) t := by
  have s1 : (1 : Int) ≤ 1 ∧ (1 : Int) < ((3 : Nat) : Int) := by norm_num
  have s2 : (1 : Int) ≤ 2 ∧ (2 : Int) ≤ ((3 : Nat) : Int) := by norm_num
  have s2' : (1 : Int) ≤ 2 ∧ (2 : Int) < ((3 : Nat) : Int) := by norm_num
  have c3 : ((3 : Nat) : Int) = 3 := rfl
  have hd := below5 hmn
  obtain ⟨t1, e1, H1⟩ := (Holds.init 3 (sorted_cold hmn)).set 2 (frF 47) q47 s2 (by simp) (by apart)
  obtain ⟨t2, e2, H2⟩ := H1.ratioMax (frF 47) 0.908 (q := q47) (by here) (by norm_num) (by apart)
  obtain ⟨t3, e3, H3⟩ := H2.ratio 1 (frF 47) 0.272 (by here) s1 (by apart)
  obtain ⟨t4, e4, H4⟩ := H3.heatDown 2 (frF 17) (frF 47) m (by here) (by simp) f17_47 (by apart)
  obtain ⟨t5, e5, H5⟩ := H4.ratioMax (frF 17) 0.817 (q := q47 * m) (by here) (by norm_num) (by apart)
  obtain ⟨t6, e6, H6⟩ := H5.ratio 1 (frF 17) 0.341 (by here) s1 (by apart)
  obtain ⟨t7, e7, H7⟩ := H6.heatDown 3 (frF 5) (frF 17) 0.866 (by here) (by simp) f5_17 (by apart)
  obtain ⟨t8, e8, H8⟩ := H7.ratio 2 (frF 5) 0.988 (by here) s2' (by apart)
  obtain ⟨t9, e9, H9⟩ := H8.ratio 1 (frF 5) 0.321 (by here) s1 (by apart)
  have hx : q47 * m / 0.817 * 0.866 ≠ 0 := mul_ne_zero (div_ne_zero (mul_ne_zero hq hm) (by norm_num)) (by norm_num)
  obtain ⟨t10, t11, t12, t13, e10, e11, e12, e13, r⟩ := cold_cells (v := varHeatingCapacity q47 (q47 * m) mn) hmn H9 (by
      simp only [varHeatingCapacity, VarHeating.at5, VarHeating.at17, VarHeating.at47, c3]) (by
      simp only [varHeatingCapacity, VarHeating.at5, VarHeating.at17]
      intro hcon
      apply hx
      generalize q47 * m / 0.817 * 0.866 = y at *
      linarith)
  refine ⟨t13, ?_, r⟩
  have l1 : lctFactor (-0.025) mn = .ok (varHeatingCapacity q47 (q47 * m) mn).maxLowest := lowest_ok (by
    have : 0 < 1 - (-0.025) * (toF (frF 5) - toF mn) := by
      have := mul_pos (show (0 : K) < 0.025 by norm_num) hd
      linarith
    exact this.ne')
  have l2 : lctFactor (-0.024) mn = .ok (varHeatingCapacity q47 (q47 * m) mn).minLowest := lowest_ok (by
    have : 0 < 1 - (-0.024) * (toF (frF 5) - toF mn) := by
      have := mul_pos (show (0 : K) < 0.024 by norm_num) hd
      linarith
    exact this.ne')
  rw [c3] at e2 e5
  simp only [neepStatHeatingQ, bind_ok, e1, e2, e3, e4, e5, e6, e7, e8, e9, l1, l2, e10, e11, e12, e13]

theorem var_heatingP {q47 m mn hspf2 : K} {cop : Option K} {qh : Table K} (hq : q47 ≠ 0) (hm : m ≠ 0) (hmn : mn < frF 5) (hcop : heatingCop hspf2 cop ≠ 0)
    (hlow : 1 - 0.012 * (toF (frF 5) - toF mn) ≠ 0) (hqh : Rows 3 (coldRows mn (varHeatingCapacity q47 (q47 * m) mn).speed) qh) :
    ∃ t, neepStatHeatingP m hspf2 mn cop qh = .ok t ∧ Rows 3 (coldRows mn (varHeatingPower q47 (q47 * m) (heatingCop hspf2 cop) mn).speed) t := by
  have s1 : (1 : Int) ≤ 1 ∧ (1 : Int) < ((3 : Nat) : Int) := by norm_num
  have s1' : (1 : Int) ≤ 1 ∧ (1 : Int) ≤ ((3 : Nat) : Int) := by norm_num
  have s2 : (1 : Int) ≤ 2 ∧ (2 : Int) ≤ ((3 : Nat) : Int) := by norm_num
  have s2' : (1 : Int) ≤ 2 ∧ (2 : Int) < ((3 : Nat) : Int) := by norm_num
  have s3' : (1 : Int) ≤ 3 ∧ (3 : Int) ≤ ((3 : Nat) : Int) := by norm_num
  have c3 : ((3 : Nat) : Int) = 3 := rfl
  obtain ⟨t1, e1, H1⟩ := (Holds.init 3 (sorted_cold hmn)).set 2 (frF 47) (q47 / heatingCop hspf2 cop) s2 (by simp) (by apart)
  obtain ⟨t2, e2, H2⟩ := H1.ratioMax (frF 47) (0.908 * 0.939) (q := q47 / heatingCop hspf2 cop) (by here) (by norm_num) (by apart)
  obtain ⟨t3, e3, H3⟩ := H2.ratio 1 (frF 47) (0.272 * 0.730) (by here) s1 (by apart)
  obtain ⟨t4, e4, H4⟩ := H3.heatDown 2 (frF 17) (frF 47) (m * 1.351) (by here) (by simp) f17_47 (by apart)
  rw [show q47 / heatingCop hspf2 cop * (m * 1.351) = q47 * m / heatingCop hspf2 cop * 1.351 by ring] at H4
  obtain ⟨t5, e5, H5⟩ := H4.ratioMax (frF 17) (0.817 * 0.902) (q := q47 * m / heatingCop hspf2 cop * 1.351) (by here) (by norm_num) (by apart)
  obtain ⟨t6, e6, H6⟩ := H5.ratio 1 (frF 17) (0.341 * 0.798) (by here) s1 (by apart)
  obtain ⟨t7, e7, H7⟩ := H6.heatDown 3 (frF 5) (frF 17) (0.866 * 1.164) (by here) (by simp) f5_17 (by apart)
  obtain ⟨t8, e8, H8⟩ := H7.ratio 2 (frF 5) (0.988 * 1.000) (by here) s2' (by apart)
  obtain ⟨t9, e9, H9⟩ := H8.ratio 1 (frF 5) (0.321 * 0.866) (by here) s1 (by apart)
  have hx : q47 * m / heatingCop hspf2 cop * 1.351 / (0.817 * 0.902) * (0.866 * 1.164) ≠ 0 :=
    mul_ne_zero (div_ne_zero (mul_ne_zero (div_ne_zero (mul_ne_zero hq hm) hcop) (by norm_num)) (by norm_num)) (by norm_num)
  have one : (0.988 * 1.000 : K) = 0.988 := by norm_num
  obtain ⟨t10, t11, t12, t13, e10, e11, e12, e13, r⟩ := cold_cells (v := varHeatingPower q47 (q47 * m) (heatingCop hspf2 cop) mn) hmn H9 (by
      simp only [varHeatingPower, VarHeating.at5, VarHeating.at17, VarHeating.at47, c3, one]) (by
      simp only [varHeatingPower, VarHeating.at5, VarHeating.at17]
      intro hcon
      apply hx
      generalize q47 * m / heatingCop hspf2 cop * 1.351 / (0.817 * 0.902) * (0.866 * 1.164) = y at *
      linarith)
  refine ⟨t13, ?_, r⟩
  have l1 : lctFactor 0.012 mn = .ok (lowestFactor 0.012 mn) := lowest_ok hlow
  have hx5 : q47 * m / 0.817 * 0.866 ≠ 0 := mul_ne_zero (div_ne_zero (mul_ne_zero hq hm) (by norm_num)) (by norm_num)
  have mainten : ∀ s : Int, 1 ≤ s → s ≤ ((3 : Nat) : Int) → ∀ a b : K, ((varHeatingCapacity q47 (q47 * m) mn).speed s).lowest = b * a → ((varHeatingCapacity q47 (q47 * m) mn).speed s).at5 = b → b ≠ 0 →
      qh.getMaintenance s mn (frF 5) = .ok a := by
    intro s h1 h2 a b ha hb hb0
    have v1 := hqh.val (mn, fun s => ((varHeatingCapacity q47 (q47 * m) mn).speed s).lowest) (by simp [coldRows]) s h1 h2
    have v2 := hqh.val (frF 5, fun s => ((varHeatingCapacity q47 (q47 * m) mn).speed s).at5) (by simp [coldRows]) s h1 h2
    obtain ⟨k, hk, -⟩ := isSpeed_nat (t := qh) (speed := s) ⟨h1, by rw [hqh.speeds]; exact h2⟩
    have i1 : qh.temperatures[0]? = some mn := by rw [hqh.temps]; rfl
    have i2 : qh.temperatures[1]? = some (frF 5) := by rw [hqh.temps]; rfl
    have w1 := cell_of_get hqh.wf hk i1 v1
    have w2 := cell_of_get hqh.wf hk i2 v2
    simp only [ha, hb] at w1 w2
    have w1' : cell qh.data 0 (k : Int) = .ok (some (b * a)) := w1
    have w2' : cell qh.data 1 (k : Int) = .ok (some b) := w2
    simp only [getMaintenance, pyIndex_sorted hqh.wf.sorted i1, pyIndex_sorted hqh.wf.sorted i2, bind_ok, hk, Nat.cast_zero, Nat.cast_one, w1', w2', pyNum, pdiv_ok hb0,
      mul_div_cancel_left₀ a hb0]
  have m3 := mainten 3 s3'.1 s3'.2 (lowestFactor (-0.025) mn) (q47 * m / 0.817 * 0.866) rfl rfl hx5
  have m1 := mainten 1 s1'.1 s1'.2 (lowestFactor (-0.024) mn) (q47 * m / 0.817 * 0.866 * 0.321) rfl rfl (mul_ne_zero hx5 (by norm_num))
  have g : getOver qh 2 (frF 47) (cop47 hspf2 cop) = .ok (q47 / heatingCop hspf2 cop) := by
    have c := hqh.cell (x := frF 47) (f := fun s => ((varHeatingCapacity q47 (q47 * m) mn).speed s).at47) (by simp [coldRows]) s2.1 s2.2
    exact getOver_ok c hcop
  rw [c3] at e2 e5
  simp only [neepStatHeatingP, bind_ok, g, e1, e2, e3, e4, e5, e6, e7, e8, e9, l1, m3, m1]
  have x10 : PyM.exec (setByMaintenance .heating 3 mn (frF 5) (lowestFactor 0.012 mn * lowestFactor (-0.025) mn)) t9 = .ok t10 := e10
  have x11 : PyM.exec (setByMaintenance .heating 1 mn (frF 5) (lowestFactor 0.012 mn * lowestFactor (-0.024) mn)) t10 = .ok t11 := e11
  simp only [x10, x11, e12, e13, bind_ok]

/-- Without the power factor of the lowest temperature the builder divides by zero. -/
theorem var_heatingP_error {q47 m mn hspf2 : K} {cop : Option K} {qh : Table K} (hmn : mn < frF 5) (hcop : heatingCop hspf2 cop ≠ 0)
    (hlow : 1 - 0.012 * (toF (frF 5) - toF mn) = 0) (hqh : Rows 3 (coldRows mn (varHeatingCapacity q47 (q47 * m) mn).speed) qh) :
    neepStatHeatingP m hspf2 mn cop qh = .error .zeroDivision := by
  have s1 : (1 : Int) ≤ 1 ∧ (1 : Int) < ((3 : Nat) : Int) := by norm_num
  have s2 : (1 : Int) ≤ 2 ∧ (2 : Int) ≤ ((3 : Nat) : Int) := by norm_num
  have s2' : (1 : Int) ≤ 2 ∧ (2 : Int) < ((3 : Nat) : Int) := by norm_num
  have c3 : ((3 : Nat) : Int) = 3 := rfl
  obtain ⟨t1, e1, H1⟩ := (Holds.init 3 (sorted_cold hmn)).set 2 (frF 47) (q47 / heatingCop hspf2 cop) s2 (by simp) (by apart)
  obtain ⟨t2, e2, H2⟩ := H1.ratioMax (frF 47) (0.908 * 0.939) (q := q47 / heatingCop hspf2 cop) (by here) (by norm_num) (by apart)
  obtain ⟨t3, e3, H3⟩ := H2.ratio 1 (frF 47) (0.272 * 0.730) (by here) s1 (by apart)
  obtain ⟨t4, e4, H4⟩ := H3.heatDown 2 (frF 17) (frF 47) (m * 1.351) (by here) (by simp) f17_47 (by apart)
  rw [show q47 / heatingCop hspf2 cop * (m * 1.351) = q47 * m / heatingCop hspf2 cop * 1.351 by ring] at H4
  obtain ⟨t5, e5, H5⟩ := H4.ratioMax (frF 17) (0.817 * 0.902) (q := q47 * m / heatingCop hspf2 cop * 1.351) (by here) (by norm_num) (by apart)
  obtain ⟨t6, e6, H6⟩ := H5.ratio 1 (frF 17) (0.341 * 0.798) (by here) s1 (by apart)
  obtain ⟨t7, e7, H7⟩ := H6.heatDown 3 (frF 5) (frF 17) (0.866 * 1.164) (by here) (by simp) f5_17 (by apart)
  obtain ⟨t8, e8, H8⟩ := H7.ratio 2 (frF 5) (0.988 * 1.000) (by here) s2' (by apart)
  obtain ⟨t9, e9, H9⟩ := H8.ratio 1 (frF 5) (0.321 * 0.866) (by here) s1 (by apart)
  have l1 : lctFactor 0.012 mn = .error .zeroDivision := by
    have e : 1 - 0.012 * 9 / 5 * (frF 5 - mn) = 1 - 0.012 * (toF (frF 5) - toF mn) := by unfold toF; ring
    simp only [lctFactor, e, hlow, pdiv_zero]
  have g : getOver qh 2 (frF 47) (cop47 hspf2 cop) = .ok (q47 / heatingCop hspf2 cop) := by
    have c := hqh.cell (x := frF 47) (f := fun s => ((varHeatingCapacity q47 (q47 * m) mn).speed s).at47) (by simp [coldRows]) s2.1 s2.2
    exact getOver_ok c hcop
  rw [c3] at e2 e5
  simp only [neepStatHeatingP, bind_ok, bind_error, g, e1, e2, e3, e4, e5, e6, e7, e8, e9, l1]

end Resdx.Tabular
