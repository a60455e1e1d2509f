import Verif.Lemmas.TabularBuild

set_option linter.unusedSectionVars false
set_option linter.unusedSimpArgs false

/-! # What the builders leave in their tables -/

namespace Resdx.Tabular

open Spec Util Table

variable {K : Type} [Field K] [LinearOrder K] [IsStrictOrderedRing K]

/-- Closes `Misses` goals with literal speeds and temperatures. -/
macro "misses" : tactic => `(tactic| (simp only [Misses, ne_eq, frF_inj]; norm_num))

theorem sorted_82_95 : [frF 82, frF (95 : K)].Pairwise (· < ·) := by simp [frF_lt]; norm_num
theorem sorted_17_47 : [frF 17, frF (47 : K)].Pairwise (· < ·) := by simp [frF_lt]; norm_num

theorem coolingExtremes_cells {m : K} {qc pc qc' pc' : Table K} (h : coolingExtremes m qc pc = .ok (qc', pc')) :
    (∀ n s x v, Cell n qc s x v → Cell n qc' s x v) ∧ ∀ n s x v, Cell n pc s x v → Cell n pc' s x v := by
  simp only [coolingExtremes, bind_eq_ok, pure_eq_ok, Except.ok.injEq, Prod.mk.injEq] at h
  obtain ⟨q1, h1, p1, h2, q2, h3, p2, h4, rfl, rfl⟩ := h
  exact ⟨fun n s x v hc => (hc.op (op := .add _ _ _) h1 trivial).op (op := .add _ _ _) h3 trivial,
    fun n s x v hc => (hc.op (op := .add _ _ _) h2 trivial).op (op := .add _ _ _) h4 trivial⟩

theorem heatingExtremes_cells {m : K} {t t' : Table K} (h : heatingExtremes m t = .ok t') :
    ∀ n s x v, Cell n t s x v → Cell n t' s x v := by
  simp only [heatingExtremes, bind_eq_ok] at h
  obtain ⟨q1, h1, q2, h2, h3⟩ := h
  exact fun n s x v hc => ((hc.op (op := .add _ _ _) h1 trivial).op (op := .add _ _ _) h2 trivial).op (op := .add _ _ _) h3 trivial

theorem finish_ok {qc pc qh ph : Table K} {d : Perf K} (h : finish qc pc qh ph = .ok d) :
    PyM.exec setInterpolator qc = .ok d.coolingCapacities ∧ PyM.exec setInterpolator pc = .ok d.coolingPowers ∧
    PyM.exec setInterpolator qh = .ok d.heatingCapacities ∧ PyM.exec setInterpolator ph = .ok d.heatingPowers := by
  simp only [finish, bind_eq_ok] at h
  obtain ⟨q1, h1, p1, h2, q2, h3, p2, h4, h5⟩ := h
  simp only [Perf.init] at h5
  split at h5; · simp at h5
  split at h5; · simp at h5
  split at h5; · simp at h5
  split at h5; · simp at h5
  simp only [Except.ok.injEq] at h5
  subst h5
  exact ⟨h1, h2, h3, h4⟩

/-- The factor relating the capacities at 82 F and 95 F is not zero. -/
theorem qm95_ne {b r : K} (h : pdiv 1 b = .ok r) : r ≠ 0 := by
  rw [pdiv_eq_ok] at h
  rw [← h.2]
  exact div_ne_zero one_ne_zero h.1

theorem singleCooling_cells {u : Units K} {q95 seer2 eer2 mx cd : K} {qc pc : Table K}
    (h : singleCooling u q95 seer2 eer2 mx cd = .ok (qc, pc)) :
    ∃ m : K, m ≠ 0 ∧ eer2 * u.btuh ≠ 0 ∧ 1 - 0.5 * cd ≠ 0 ∧ seer2 / (1 - 0.5 * cd) * u.btuh ≠ 0 ∧
      Cell 1 qc 1 (frF 95) q95 ∧ Cell 1 qc 1 (frF 82) (q95 / m) ∧ Cell 1 pc 1 (frF 95) (q95 / (eer2 * u.btuh)) ∧
      Cell 1 pc 1 (frF 82) (q95 / m / (seer2 / (1 - 0.5 * cd) * u.btuh)) := by
  simp only [singleCooling, bind_eq_ok] at h
  obtain ⟨b, -, m, hm, q1, h1, q2, h2, p95, h3, p1, h4, e, h5, p82, h6, p2, h7, h8⟩ := h
  have hm0 := qm95_ne hm
  obtain ⟨f1, f2⟩ := coolingExtremes_cells h8
  have hs : (1 : Int) ≤ 1 ∧ (1 : Int) ≤ ((1 : Nat) : Int) := by norm_num
  have a1 := cell_set (n := 1) (init_wf 1 sorted_82_95) rfl hs h1
  have a2 := a1.op (op := .maintenance _ _ _ _ _) h2 (by misses)
  have a3 := cell_maintenance_cooling a1 (by rw [frF_lt]; norm_num) hm0 h2
  obtain ⟨n1, rfl⟩ := a2.getOver h3
  obtain ⟨n2, rfl⟩ := pdiv_eq_ok.1 h5
  obtain ⟨n3, rfl⟩ := a3.getOver h6
  have b1 := cell_set (n := 1) (init_wf 1 sorted_82_95) rfl hs h4
  have b2 := b1.op (op := .set _ _ _) h7 (by misses)
  have b3 := cell_set b1.wf b1.speeds hs h7
  exact ⟨m, hm0, n1, n2, n3, f1 _ _ _ _ a2, f1 _ _ _ _ a3, f2 _ _ _ _ b2, f2 _ _ _ _ b3⟩

theorem qm17_value {d q47 r : K} {q17 : Option K} (h : qm17 d q47 q17 = .ok r) : ∀ q, q17 = some q → q47 * r = q := by
  rintro q rfl
  simp only [qm17, pdiv_eq_ok] at h
  rw [← h.2]; exact mul_div_cancel₀ _ h.1

theorem singleHeating_cells {q47 hspf2 mn : K} {q17 cop : Option K} {qh ph : Table K}
    (h : singleHeating q47 q17 hspf2 mn cop = .ok (qh, ph)) :
    cop47 hspf2 cop ≠ 0 ∧ Cell 1 qh 1 (frF 47) q47 ∧ Cell 1 ph 1 (frF 47) (q47 / cop47 hspf2 cop) ∧
      ∀ q, q17 = some q → Cell 1 qh 1 (frF 17) q := by
  simp only [singleHeating, bind_eq_ok, pure_eq_ok, Except.ok.injEq, Prod.mk.injEq] at h
  obtain ⟨e, -, m, hm, q1, h1, q2, h2, q3, h3, p47, h4, p1, h5, p2, h6, p3, h7, rfl, rfl⟩ := h
  have hs : (1 : Int) ≤ 1 ∧ (1 : Int) ≤ ((1 : Nat) : Int) := by norm_num
  have a1 := cell_set (n := 1) (init_wf 1 sorted_17_47) rfl hs h1
  have a2 := a1.op (op := .maintenance _ _ _ _ _) h2 (by misses)
  have a3 := cell_maintenance_heating a1 (by rw [frF_lt]; norm_num) h2
  have a4 := heatingExtremes_cells h3 _ _ _ _ a2
  have a5 := heatingExtremes_cells h3 _ _ _ _ a3
  obtain ⟨n1, rfl⟩ := a4.getOver h4
  have b1 := cell_set (n := 1) (init_wf 1 sorted_17_47) rfl hs h5
  have b2 := b1.op (op := .maintenance _ _ _ _ _) h6 (by misses)
  refine ⟨n1, a4, heatingExtremes_cells h7 _ _ _ _ b2, ?_⟩
  intro q hq
  rw [← qm17_value hm q hq]; exact a5

theorem twoCooling_cells {u : Units K} {q95 seer2 eer2 mx : K} {cop : Option K} {qc pc : Table K}
    (h : twoCooling u q95 seer2 eer2 mx cop = .ok (qc, pc)) :
    ∃ m : K, m ≠ 0 ∧ eer2 * u.btuh ≠ 0 ∧ cop.getD (seer2 / 2) ≠ 0 ∧ Cell 2 qc 2 (frF 95) q95 ∧ Cell 2 qc 1 (frF 95) (q95 * 0.728) ∧
      Cell 2 qc 1 (frF 82) (q95 / m * 0.728) ∧ Cell 2 pc 2 (frF 95) (q95 / (eer2 * u.btuh)) ∧
      Cell 2 pc 1 (frF 82) (q95 / m * 0.728 / cop.getD (seer2 / 2)) := by
  simp only [twoCooling, bind_eq_ok] at h
  obtain ⟨b, -, m, hm, b', -, e, he, q1, h1, q2, h2, q3, h3, q4, h4, p95, h5, p1, h6, p2, h7, p82, h8, p3, h9, p4, h10, h11⟩ := h
  have hm0 := qm95_ne hm
  obtain ⟨f1, f2⟩ := coolingExtremes_cells h11
  have hs2 : (1 : Int) ≤ 2 ∧ (2 : Int) ≤ ((2 : Nat) : Int) := by norm_num
  have hs1 : (1 : Int) ≤ 1 ∧ (1 : Int) ≤ ((2 : Nat) : Int) := by norm_num
  have hs1' : (1 : Int) ≤ 1 ∧ (1 : Int) < ((2 : Nat) : Int) := by norm_num
  have a1 := cell_set (n := 2) (init_wf 2 sorted_82_95) rfl hs2 h1
  have a2 := a1.op (op := .ratio _ _ _) h2 (by misses)
  have l2 := cell_ratio (n := 2) a1 hs1' h2
  have a3 := a2.op (op := .maintenance _ _ _ _ _) h3 (by misses)
  have l3 := l2.op (op := .maintenance _ _ _ _ _) h3 (by misses)
  have m3 := cell_maintenance_cooling a2 (by rw [frF_lt]; norm_num) hm0 h3
  have a4 := a3.op (op := .ratio _ _ _) h4 (by misses)
  have l4 := l3.op (op := .ratio _ _ _) h4 (by misses)
  have n4 := cell_ratio (n := 2) m3 hs1' h4
  obtain ⟨g1, rfl⟩ := a4.getOver h5
  obtain ⟨g2, rfl⟩ := n4.getOver h8
  have b1 := cell_set (n := 2) (init_wf 2 sorted_82_95) rfl hs2 h6
  have b2 := b1.op (op := .maintenance _ _ _ _ _) h7 (by misses)
  have b3 := b2.op (op := .set _ _ _) h9 (by misses)
  have c3 := cell_set b2.wf b2.speeds hs1 h9
  have b4 := b3.op (op := .maintenance _ _ _ _ _) h10 (by misses)
  have c4 := c3.op (op := .maintenance _ _ _ _ _) h10 (by misses)
  exact ⟨m, hm0, g1, g2, f1 _ _ _ _ a4, f1 _ _ _ _ l4, f1 _ _ _ _ n4, f2 _ _ _ _ b4, f2 _ _ _ _ c4⟩

theorem twoHeating_cells {q47 hspf2 mn : K} {q17 cop : Option K} {qh ph : Table K}
    (h : twoHeating q47 q17 hspf2 mn cop = .ok (qh, ph)) :
    cop47 hspf2 cop ≠ 0 ∧ Cell 2 qh 2 (frF 47) q47 ∧ Cell 2 ph 2 (frF 47) (q47 / cop47 hspf2 cop) ∧
      (∀ q, q17 = some q → Cell 2 qh 2 (frF 17) q) ∧ Cell 2 qh 1 (frF 47) (q47 * 0.712) := by
  simp only [twoHeating, bind_eq_ok, pure_eq_ok, Except.ok.injEq, Prod.mk.injEq] at h
  obtain ⟨e, -, m, hm, q1, h1, q2, h2, q3, h3, q4, h4, q5, h5, p47, h6, p1, h7, p2, h8, p3, h9, p4, h10, p5, h11, rfl, rfl⟩ := h
  have hs2 : (1 : Int) ≤ 2 ∧ (2 : Int) ≤ ((2 : Nat) : Int) := by norm_num
  have hs1' : (1 : Int) ≤ 1 ∧ (1 : Int) < ((2 : Nat) : Int) := by norm_num
  have a1 := cell_set (n := 2) (init_wf 2 sorted_17_47) rfl hs2 h1
  have a2 := a1.op (op := .ratio _ _ _) h2 (by misses)
  have l2 := cell_ratio (n := 2) a1 hs1' h2
  have a3 := a2.op (op := .maintenance _ _ _ _ _) h3 (by misses)
  have l3 := l2.op (op := .maintenance _ _ _ _ _) h3 (by misses)
  have m3 := cell_maintenance_heating a2 (by rw [frF_lt]; norm_num) h3
  have a4 := a3.op (op := .ratio _ _ _) h4 (by misses)
  have l4 := l3.op (op := .ratio _ _ _) h4 (by misses)
  have m4 := m3.op (op := .ratio _ _ _) h4 (by misses)
  have a5 := heatingExtremes_cells h5 _ _ _ _ a4
  have l5 := heatingExtremes_cells h5 _ _ _ _ l4
  have m5 := heatingExtremes_cells h5 _ _ _ _ m4
  obtain ⟨n1, rfl⟩ := a5.getOver h6
  have b1 := cell_set (n := 2) (init_wf 2 sorted_17_47) rfl hs2 h7
  have b2 := b1.op (op := .ratio _ _ _) h8 (by misses)
  have b3 := b2.op (op := .maintenance _ _ _ _ _) h9 (by misses)
  have b4 := b3.op (op := .ratio _ _ _) h10 (by misses)
  refine ⟨n1, a5, heatingExtremes_cells h11 _ _ _ _ b4, ?_, l5⟩
  intro q hq
  rw [← qm17_value hm q hq]; exact m5

/-- The minimum-speed COP at 82 F used by the builder: the given one, or one derived from the ratings. -/
theorem eirr82_value {seer2 eer2 e c : K} {given : Option K} {qc pc : Table K} (h : eirr82 seer2 eer2 given qc pc = .ok (e, c)) :
    ∀ g, given = some g → c = g := by
  rintro g rfl
  simp only [eirr82, bind_eq_ok, pure_eq_ok, Except.ok.injEq, Prod.mk.injEq] at h
  obtain ⟨_, _, _, _, -, rfl⟩ := h
  rfl

theorem neepStatCooling_cells {u : Units K} {q95 seer2 eer2 mx : K} {ratio cop : Option K} {qc pc : Table K}
    (h : neepStatCooling u q95 seer2 eer2 mx ratio cop = .ok (qc, pc)) :
    ∃ r c : K, (∀ g, ratio = some g → r = g) ∧ (ratio = none → r ≠ 0) ∧ (∀ g, cop = some g → c = g) ∧ eer2 * u.btuh ≠ 0 ∧ c ≠ 0 ∧
      Cell 3 qc 2 (frF 95) q95 ∧ Cell 3 qc 3 (frF 95) (q95 / 0.934) ∧ Cell 3 qc 1 (frF 95) (q95 / 0.934 * r) ∧
      Cell 3 qc 1 (frF 82) (q95 / 0.934 * r / 0.948) ∧
      Cell 3 pc 2 (frF 95) (q95 / (eer2 * u.btuh)) ∧ Cell 3 pc 1 (frF 82) (q95 / 0.934 * r / 0.948 / c) := by
  simp only [neepStatCooling, bind_eq_ok] at h
  obtain ⟨q1, h1, q2, h2, q3, h3, p95, h4, p1, h5, p2, h6, p3, h7, ⟨e, c⟩, h8, q4, h9, q5, h10, q6, h11, p82, h12, p4, h13, p5, h14,
    p6, h15, h16⟩ := h
  obtain ⟨f1, f2⟩ := coolingExtremes_cells h16
  have hs2 : (1 : Int) ≤ 2 ∧ (2 : Int) ≤ ((3 : Nat) : Int) := by norm_num
  have hs1 : (1 : Int) ≤ 1 ∧ (1 : Int) ≤ ((3 : Nat) : Int) := by norm_num
  have hs1' : (1 : Int) ≤ 1 ∧ (1 : Int) < ((3 : Nat) : Int) := by norm_num
  have a1 := cell_set (n := 3) (init_wf 3 sorted_82_95) rfl hs2 h1
  have a2 := a1.op (op := .ratio _ _ _) h2 (by misses)
  have m2 := cell_ratio_max (n := 3) a1 (by norm_num) (by norm_num) h2
  have a3 := a2.op (op := .maintenance _ _ _ _ _) h3 (by misses)
  have m3 := m2.op (op := .maintenance _ _ _ _ _) h3 (by misses)
  obtain ⟨g1, rfl⟩ := a3.getOver h4
  have a4 := a3.op (op := .ratio _ _ _) h9 (by misses)
  have m4 := m3.op (op := .ratio _ _ _) h9 (by misses)
  have l4 := cell_ratio (n := 3) m3 hs1' h9
  have a5 := a4.op (op := .maintenance _ _ _ _ _) h10 (by misses)
  have m5 := m4.op (op := .maintenance _ _ _ _ _) h10 (by misses)
  have l5 := l4.op (op := .maintenance _ _ _ _ _) h10 (by misses)
  have k5 := cell_maintenance_cooling l4 (by rw [frF_lt]; norm_num) (by norm_num) h10
  have a6 := a5.op (op := .interpolation _ _) h11 (by misses)
  have m6 := m5.op (op := .interpolation _ _) h11 (by misses)
  have l6 := l5.op (op := .interpolation _ _) h11 (by misses)
  have k6 := k5.op (op := .interpolation _ _) h11 (by misses)
  obtain ⟨g2, rfl⟩ := k6.getOver h12
  have b1 := cell_set (n := 3) (init_wf 3 sorted_82_95) rfl hs2 h5
  have b2 := b1.op (op := .ratio _ _ _) h6 (by misses)
  have b3 := b2.op (op := .maintenance _ _ _ _ _) h7 (by misses)
  have b4 := b3.op (op := .set _ _ _) h13 (by misses)
  have c4 := cell_set b3.wf b3.speeds hs1 h13
  have b5 := b4.op (op := .maintenance _ _ _ _ _) h14 (by misses)
  have c5 := c4.op (op := .maintenance _ _ _ _ _) h14 (by misses)
  have b6 := b5.op (op := .interpolation _ _) h15 (by misses)
  have c6 := c5.op (op := .interpolation _ _) h15 (by misses)
  refine ⟨qr95min ratio e, c, ?_, ?_, eirr82_value h8, g1, g2, f1 _ _ _ _ a6, f1 _ _ _ _ m6, f1 _ _ _ _ l6, f1 _ _ _ _ k6,
    f2 _ _ _ _ b6, f2 _ _ _ _ c6⟩
  · rintro g rfl; rfl
  · rintro rfl
    have : (0.1 : K) ≤ qr95min none e := by
      simp only [qr95min, Option.getD_none, bracket]
      split
      · exact le_rfl
      · rename_i hlt
        split
        · norm_num
        · exact not_lt.1 hlt
    have h0 : (0 : K) < 0.1 := by norm_num
    exact (lt_of_lt_of_le h0 this).ne'

theorem neepStatHeatingQ_sub {q47 m mn : K} {qh : Table K} (h : neepStatHeatingQ q47 m mn = .ok qh) :
    [mn, frF 5, frF 17, frF 47].Sublist qh.temperatures := by
  simp only [neepStatHeatingQ, bind_eq_ok] at h
  obtain ⟨q1, h1, q2, h2, q3, h3, q4, h4, q5, h5, q6, h6, q7, h7, q8, h8, q9, h9, _, -, _, -, q10, h10, q11, h11, q12, h12, h13⟩ := h
  exact (op_sublist (op := .set _ _ _) h1 (by simp)).trans <| (op_sublist (op := .ratio _ _ _) h2 (by simp)).trans <|
    (op_sublist (op := .ratio _ _ _) h3 (by simp)).trans <| (op_sublist (op := .maintenance _ _ _ _ _) h4 (by simp)).trans <|
    (op_sublist (op := .ratio _ _ _) h5 (by simp)).trans <| (op_sublist (op := .ratio _ _ _) h6 (by simp)).trans <|
    (op_sublist (op := .maintenance _ _ _ _ _) h7 (by simp)).trans <| (op_sublist (op := .ratio _ _ _) h8 (by simp)).trans <|
    (op_sublist (op := .ratio _ _ _) h9 (by simp)).trans <| (op_sublist (op := .maintenance _ _ _ _ _) h10 (by simp)).trans <|
    (op_sublist (op := .maintenance _ _ _ _ _) h11 (by simp)).trans <| (op_sublist (op := .interpolation _ _) h12 (by simp)).trans <|
    (op_sublist (op := .add _ _ _) h13 (by simp))

theorem neepStatHeatingQ_cells {q47 m mn : K} {qh : Table K} (hmn : mn < frF 5) (h : neepStatHeatingQ q47 m mn = .ok qh) :
    Cell 3 qh 2 (frF 47) q47 ∧ Cell 3 qh 2 (frF 17) (q47 * m) := by
  have hsorted : [mn, frF 5, frF 17, frF (47 : K)].Pairwise (· < ·) := by
    have h5 : frF (5 : K) < frF 17 := by rw [frF_lt]; norm_num
    have h17 : frF (17 : K) < frF 47 := by rw [frF_lt]; norm_num
    simp only [List.pairwise_cons, List.mem_cons, List.not_mem_nil, or_false, forall_eq_or_imp, forall_eq, List.Pairwise.nil, and_true]
    refine ⟨⟨hmn, hmn.trans h5, (hmn.trans h5).trans h17⟩, ⟨h5, h5.trans h17⟩, h17, ?_⟩
    simp
  have e47 : mn ≠ frF 47 := (hmn.trans (by rw [frF_lt]; norm_num)).ne
  have e17 : mn ≠ frF 17 := (hmn.trans (by rw [frF_lt]; norm_num)).ne
  simp only [neepStatHeatingQ, bind_eq_ok] at h
  obtain ⟨q1, h1, q2, h2, q3, h3, q4, h4, q5, h5, q6, h6, q7, h7, q8, h8, q9, h9, _, -, _, -, q10, h10, q11, h11, q12, h12, h13⟩ := h
  have hs2 : (1 : Int) ≤ 2 ∧ (2 : Int) ≤ ((3 : Nat) : Int) := by norm_num
  have a1 := cell_set (n := 3) (init_wf 3 hsorted) rfl hs2 h1
  have a2 := a1.op (op := .ratio _ _ _) h2 (by misses)
  have a3 := a2.op (op := .ratio _ _ _) h3 (by misses)
  have a4 := a3.op (op := .maintenance _ _ _ _ _) h4 (by misses)
  have b4 := cell_maintenance_heating a3 (by rw [frF_lt]; norm_num) h4
  have tail : ∀ x : K, mn ≠ x → frF 5 ≠ x → Cell 3 q4 2 x (if x = frF 47 then q47 else q47 * m) →
      Cell 3 qh 2 x (if x = frF 47 then q47 else q47 * m) := by
    intro x hx hx5 c
    have c5 := c.op (op := .ratio _ _ _) h5 ⟨by norm_num, .inl (by norm_num)⟩
    have c6 := c5.op (op := .ratio _ _ _) h6 ⟨by norm_num, .inl (by norm_num)⟩
    have c7 := c6.op (op := .maintenance _ _ _ _ _) h7 ⟨by norm_num, .inl (by norm_num)⟩
    have c8 := c7.op (op := .ratio _ _ _) h8 ⟨by norm_num, .inr hx5⟩
    have c9 := c8.op (op := .ratio _ _ _) h9 ⟨by norm_num, .inl (by norm_num)⟩
    have c10 := c9.op (op := .maintenance _ _ _ _ _) h10 ⟨by norm_num, .inl (by norm_num)⟩
    have c11 := c10.op (op := .maintenance _ _ _ _ _) h11 ⟨by norm_num, .inl (by norm_num)⟩
    have c12 := c11.op (op := .interpolation _ _) h12 ⟨by norm_num, .inr hx⟩
    exact c12.op (op := .add _ _ _) h13 trivial
  have ne1747 : frF (17 : K) ≠ frF 47 := by rw [ne_eq, frF_inj]; norm_num
  constructor
  · have := tail (frF 47) e47 (by rw [ne_eq, frF_inj]; norm_num) (by rw [if_pos rfl]; exact a4)
    rwa [if_pos rfl] at this
  · have := tail (frF 17) e17 (by rw [ne_eq, frF_inj]; norm_num) (by rw [if_neg ne1747]; exact b4)
    rwa [if_neg ne1747] at this

theorem neepStatHeatingP_cells {q47 m hspf2 mn : K} {cop : Option K} {qh ph : Table K} (hmn : mn < frF 5)
    (hq : Cell 3 qh 2 (frF 47) q47) (h : neepStatHeatingP m hspf2 mn cop qh = .ok ph) :
    cop47 hspf2 cop ≠ 0 ∧ Cell 3 ph 2 (frF 47) (q47 / cop47 hspf2 cop) := by
  have hsorted : [mn, frF 5, frF 17, frF (47 : K)].Pairwise (· < ·) := by
    have h5 : frF (5 : K) < frF 17 := by rw [frF_lt]; norm_num
    have h17 : frF (17 : K) < frF 47 := by rw [frF_lt]; norm_num
    simp only [List.pairwise_cons, List.mem_cons, List.not_mem_nil, or_false, forall_eq_or_imp, forall_eq, List.Pairwise.nil, and_true]
    refine ⟨⟨hmn, hmn.trans h5, (hmn.trans h5).trans h17⟩, ⟨h5, h5.trans h17⟩, h17, ?_⟩
    simp
  have e47 : mn ≠ frF 47 := (hmn.trans (by rw [frF_lt]; norm_num)).ne
  simp only [neepStatHeatingP, bind_eq_ok] at h
  obtain ⟨p47, h0, q1, h1, q2, h2, q3, h3, q4, h4, q5, h5, q6, h6, q7, h7, q8, h8, q9, h9, _, -, _, -, _, -, _, -, q10, h10, q11, h11,
    q12, h12, h13⟩ := h
  obtain ⟨g1, rfl⟩ := hq.getOver h0
  have hs2 : (1 : Int) ≤ 2 ∧ (2 : Int) ≤ ((3 : Nat) : Int) := by norm_num
  have a1 := cell_set (n := 3) (init_wf 3 hsorted) rfl hs2 h1
  have a2 := a1.op (op := .ratio _ _ _) h2 (by misses)
  have a3 := a2.op (op := .ratio _ _ _) h3 (by misses)
  have a4 := a3.op (op := .maintenance _ _ _ _ _) h4 (by misses)
  have a5 := a4.op (op := .ratio _ _ _) h5 (by misses)
  have a6 := a5.op (op := .ratio _ _ _) h6 (by misses)
  have a7 := a6.op (op := .maintenance _ _ _ _ _) h7 (by misses)
  have a8 := a7.op (op := .ratio _ _ _) h8 (by misses)
  have a9 := a8.op (op := .ratio _ _ _) h9 (by misses)
  have a10 := a9.op (op := .maintenance _ _ _ _ _) h10 ⟨by norm_num, .inl (by norm_num)⟩
  have a11 := a10.op (op := .maintenance _ _ _ _ _) h11 ⟨by norm_num, .inl (by norm_num)⟩
  have a12 := a11.op (op := .interpolation _ _) h12 ⟨by norm_num, .inr e47⟩
  exact ⟨g1, a12.op (op := .add _ _ _) h13 trivial⟩

end Resdx.Tabular
