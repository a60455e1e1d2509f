import Verif.Spec.Fan

set_option linter.unusedSectionVars false
set_option linter.unusedSimpArgs false

/-! # Helper lemmas for `fan.py` -/

namespace Resdx.Fan

open Spec Util

section lists
variable {α : Type}

theorem pyGetI_last (l : List α) (a : α) : pyGetI (l ++ [a]) (-1) = .ok a := by
  have : pyIdx (l ++ [a]).length (-1) = .ok l.length := by
    rw [pyIdx_eq_ok]; simp
  rw [pyGetI, this, bind_ok, pyGet_eq_ok]
  simp

theorem pyGetI_zero_snoc (l : List α) (a : α) : pyGetI (l ++ [a]) 0 = .ok (l.headD a) := by
  have : pyIdx (l ++ [a]).length 0 = .ok 0 := by rw [pyIdx_eq_ok]; simp
  rw [pyGetI, this, bind_ok, pyGet_eq_ok]
  cases l <;> simp

theorem pyGetI_eq_ok {l : List α} {i : Int} {a : α} :
    pyGetI l i = .ok a ↔ ∃ k, pyIdx l.length i = .ok k ∧ l[k]? = some a := by
  simp only [pyGetI, bind_eq_ok, pyGet_eq_ok]

theorem pyIdx_cases (n : Nat) (i : Int) : (∃ k, pyIdx n i = .ok k ∧ k < n) ∨ pyIdx n i = .error .index := by
  cases h : pyIdx n i with
  | ok k => exact .inl ⟨k, rfl, pyIdx_lt h⟩
  | error e =>
    right
    unfold pyIdx at h
    split at h
    · split at h <;> simp_all
    · split at h <;> simp_all

theorem pyPopI_ok {l : List α} {i : Int} {k : Nat} (h : pyIdx l.length i = .ok k) :
    pyPopI l i = .ok (l.eraseIdx k) := by
  simp [pyPopI, h, bind_ok, pure_eq_ok]

theorem pyPopI_error {l : List α} {i : Int} {e : PyErr} (h : pyIdx l.length i = .error e) :
    pyPopI l i = .error e := by
  simp [pyPopI, h, bind_error]

theorem pyGetI_of_idx {l : List α} {i : Int} {k : Nat} (h : pyIdx l.length i = .ok k) :
    pyGetI l i = .ok (l[k]'(pyIdx_lt h)) := by
  simp [pyGetI, h, bind_ok, pyGet_lt (pyIdx_lt h)]

/-- An in-range non-negative setting. -/
theorem pyIdx_range {n : Nat} {i : Int} (h0 : 0 ≤ i) (h1 : i < n) : pyIdx n i = .ok i.toNat := by
  simp [pyIdx, h0, h1]

theorem eraseIdx_snoc (l : List α) (a : α) : (l ++ [a]).eraseIdx l.length = l := by
  rw [List.eraseIdx_append_of_length_le (le_refl _)]; simp

end lists

/-! ## Base class -/

theorem Base.addSpeed_run (b : Base) (a : ℝ) :
    Base.addSpeed a b =
      if b.airflow.headD a = 0 then
        (.error .zeroDivision, { b with airflow := b.airflow ++ [a], n := b.n + 1 })
      else (.ok (), { b with airflow := b.airflow ++ [a], n := b.n + 1
                             ratio := b.ratio ++ [a / b.airflow.headD a] }) := by
  simp only [Base.addSpeed, PyM.bind_run, PyM.modify_run, PyM.get_run, PyM.liftM_run, pyGetI_last,
    pyGetI_zero_snoc, pdiv]
  by_cases h : b.airflow.headD a = 0
  · simp only [if_pos h]
  · simp only [if_neg h]

theorem Base.addSpeed_ok {b b' : Base} {a : ℝ} (h : Base.addSpeed a b = (.ok (), b')) :
    b.airflow.headD a ≠ 0 ∧ b' = { b with airflow := b.airflow ++ [a], n := b.n + 1
                                          ratio := b.ratio ++ [a / b.airflow.headD a] } := by
  rw [Base.addSpeed_run] at h
  split at h
  · simp at h
  · rename_i h0
    exact ⟨h0, ((Prod.mk.inj h).2).symm⟩

theorem Base.removeSpeed_error {b : Base} {i : Int} {e : PyErr} (h : pyIdx b.airflow.length i = .error e) :
    Base.removeSpeed i b = (.error e, b) := by
  simp only [Base.removeSpeed, PyM.bind_run, PyM.modify_run, PyM.get_run, PyM.liftM_run, pyPopI_error h]

theorem Base.removeSpeed_ok {b : Base} {i : Int} {k : Nat} (h : pyIdx b.airflow.length i = .ok k)
    (hr : b.ratio.length = b.airflow.length) :
    Base.removeSpeed i b = (.ok (), { b with airflow := b.airflow.eraseIdx k, n := b.n - 1
                                             ratio := b.ratio.eraseIdx k }) := by
  simp only [Base.removeSpeed, PyM.bind_run, PyM.modify_run, PyM.get_run, PyM.liftM_run, pyPopI_ok h]
  rw [← hr] at h
  simp only [pyPopI_ok h]

theorem Base.add_aligned {b b' : Base} {a : ℝ} (hb : AlignedBase b) (h : Base.addSpeed a b = (.ok (), b')) :
    AlignedBase b' := by
  obtain ⟨-, rfl⟩ := Base.addSpeed_ok h
  obtain ⟨h1, h2⟩ := hb
  simp [AlignedBase, h1, h2]

theorem Base.remove_aligned {b : Base} {i : Int} (hb : AlignedBase b) : AlignedBase (Base.removeSpeed i b).2 := by
  rcases pyIdx_cases b.airflow.length i with ⟨k, hk, hlt⟩ | hk
  · rw [Base.removeSpeed_ok hk hb.2]
    obtain ⟨h1, h2⟩ := hb
    simp only [AlignedBase, List.length_eraseIdx, h1, h2, hlt, if_true, and_true]
    omega
  · rw [Base.removeSpeed_error hk]; exact hb

theorem Base.add_remove {b b' : Base} {a : ℝ} (hb : AlignedBase b) (h : Base.addSpeed a b = (.ok (), b')) :
    Base.removeSpeed (b'.n - 1) b' = (.ok (), b) := by
  obtain ⟨-, rfl⟩ := Base.addSpeed_ok h
  obtain ⟨h1, h2⟩ := hb
  have hi : pyIdx (b.airflow ++ [a]).length (b.n + 1 - 1) = .ok b.airflow.length := by
    rw [pyIdx_eq_ok]; simp [h1]
  rw [Base.removeSpeed_ok hi (by simp [h2])]
  simp only [eraseIdx_snoc]
  rw [← h2, eraseIdx_snoc]
  simp

/-! ## PSC -/

namespace PSC
variable (u : Units ℝ)

theorem coef_pos : 0 < coef u := by have := u.cfm_pos; unfold coef; positivity
theorem expCoef_pos : 0 < expCoef u := by have := u.inH2O_pos; unfold expCoef; positivity

theorem reduction_mono {p q : ℝ} (h : p ≤ q) : reduction u p ≤ reduction u q := by
  unfold reduction
  have h1 : Real.exp (p * expCoef u) ≤ Real.exp (q * expCoef u) :=
    Real.exp_le_exp.2 (mul_le_mul_of_nonneg_right h (expCoef_pos u).le)
  exact mul_le_mul_of_nonneg_left (by linarith) (coef_pos u).le

theorem reduction_zero : reduction u 0 = 0 := by simp [reduction]

theorem reduction_nonneg {p : ℝ} (h : 0 ≤ p) : 0 ≤ reduction u p := by
  rw [← reduction_zero u]; exact reduction_mono u h

theorem addSpeed_ok {s s' : PSC} {a : ℝ} {p : Option ℝ} (h : addSpeed u a p s = (.ok (), s')) :
    ∃ b', Base.addSpeed (storedAirflow u s a p) s.base = (.ok (), b') ∧
      let f := storedAirflow u s a p + s.designReduction
      let r := f / s.freeAirflow.headD f
      s.freeAirflow.headD f ≠ 0 ∧ 0 < f / coef u + 1 ∧
      s' = { s with
        base := b', freeAirflow := s.freeAirflow ++ [f], freeRatio := s.freeRatio ++ [r]
        speedEfficacy := s.speedEfficacy ++ [s.designEfficacy * (1 + slope * (r - 1))]
        blockPressure := s.blockPressure ++ [Real.log (f / coef u + 1) / expCoef u]
        freeSpeed := s.freeSpeed ++ [1040 * u.rpm * r] } := by
  simp only [addSpeed, PyM.bind_run, PyM.get_run, sup, PyM.zoom_run] at h
  cases hb : Base.addSpeed (storedAirflow u s a p) s.base with
  | mk r b' =>
    rw [hb] at h
    cases r with
    | error e => simp at h
    | ok _ =>
      obtain ⟨h0, rfl⟩ := Base.addSpeed_ok hb
      refine ⟨_, rfl, ?_⟩
      by_cases hf : s.freeAirflow.headD (storedAirflow u s a p + s.designReduction) = 0
      · simp only [PyM.modify_run, PyM.liftM_run, PyM.get_run, pyGetI_last, pyGetI_zero_snoc, PyM.bind_run, hf,
          pdiv_zero, Prod.mk.injEq, reduceCtorEq, false_and] at h
      · by_cases hl : 0 < (storedAirflow u s a p + s.designReduction) / coef u + 1
        · simp only [PyM.modify_run, PyM.liftM_run, PyM.get_run, pyGetI_last, pyGetI_zero_snoc, PyM.bind_run,
            pdiv_ok hf, pdiv_ok (coef_pos u).ne', plog_ok hl, pdiv_ok (expCoef_pos u).ne', Prod.mk.injEq,
            true_and] at h
          exact ⟨hf, hl, h.symm⟩
        · simp only [PyM.modify_run, PyM.liftM_run, PyM.get_run, pyGetI_last, pyGetI_zero_snoc, PyM.bind_run,
            pdiv_ok hf, pdiv_ok (coef_pos u).ne', plog, if_neg hl, Prod.mk.injEq, reduceCtorEq, false_and] at h

theorem addSpeed_of_ok {s : PSC} {a : ℝ} {p : Option ℝ}
    (h0 : s.base.airflow.headD (storedAirflow u s a p) ≠ 0)
    (h1 : s.freeAirflow.headD (storedAirflow u s a p + s.designReduction) ≠ 0)
    (h2 : 0 < (storedAirflow u s a p + s.designReduction) / coef u + 1) :
    ∃ s', addSpeed u a p s = (.ok (), s') := by
  simp only [addSpeed, PyM.bind_run, PyM.get_run, sup, PyM.zoom_run, Base.addSpeed_run, if_neg h0,
    PyM.modify_run, PyM.liftM_run, pyGetI_last, pyGetI_zero_snoc, pdiv_ok h1, pdiv_ok (coef_pos u).ne', plog_ok h2,
    pdiv_ok (expCoef_pos u).ne', Prod.mk.injEq, true_and, exists_eq']

theorem removeSpeed_error {s : PSC} {i : Int} {e : PyErr} (h : pyIdx s.base.airflow.length i = .error e) :
    removeSpeed i s = (.error e, s) := by
  simp only [removeSpeed, sup, PyM.bind_run, PyM.zoom_run, Base.removeSpeed_error h]

theorem removeSpeed_ok {s : PSC} {i : Int} {k : Nat} (hs : AlignedPSC s)
    (h : pyIdx s.base.airflow.length i = .ok k) :
    removeSpeed i s = (.ok (), { s with
      base := { s.base with airflow := s.base.airflow.eraseIdx k, n := s.base.n - 1
                            ratio := s.base.ratio.eraseIdx k }
      freeAirflow := s.freeAirflow.eraseIdx k, freeRatio := s.freeRatio.eraseIdx k
      speedEfficacy := s.speedEfficacy.eraseIdx k, blockPressure := s.blockPressure.eraseIdx k
      freeSpeed := s.freeSpeed.eraseIdx k }) := by
  obtain ⟨⟨h1, h2⟩, h3, h4, h5, h6, h7⟩ := hs
  simp only [removeSpeed, sup, PyM.bind_run, PyM.zoom_run, Base.removeSpeed_ok h h2, PyM.get_run, PyM.liftM_run,
    PyM.modify_run, pyPopI_ok (h3.symm ▸ h : pyIdx s.freeAirflow.length i = .ok k),
    pyPopI_ok (h4.symm ▸ h : pyIdx s.freeRatio.length i = .ok k),
    pyPopI_ok (h5.symm ▸ h : pyIdx s.speedEfficacy.length i = .ok k),
    pyPopI_ok (h6.symm ▸ h : pyIdx s.blockPressure.length i = .ok k),
    pyPopI_ok (h7.symm ▸ h : pyIdx s.freeSpeed.length i = .ok k)]

theorem add_aligned {s s' : PSC} {a : ℝ} {p : Option ℝ} (hs : AlignedPSC s)
    (h : addSpeed u a p s = (.ok (), s')) : AlignedPSC s' := by
  obtain ⟨b', hb, -, -, rfl⟩ := addSpeed_ok u h
  have hb' := Base.add_aligned hs.1 hb
  obtain ⟨-, rfl⟩ := Base.addSpeed_ok hb
  obtain ⟨⟨h1, h2⟩, h3, h4, h5, h6, h7⟩ := hs
  refine ⟨hb', ?_⟩
  simp [h3, h4, h5, h6, h7]

theorem remove_aligned {s : PSC} {i : Int} (hs : AlignedPSC s) : AlignedPSC (removeSpeed i s).2 := by
  rcases pyIdx_cases s.base.airflow.length i with ⟨k, hk, hlt⟩ | hk
  · rw [removeSpeed_ok hs hk]
    have := Base.remove_aligned (i := i) hs.1
    rw [Base.removeSpeed_ok hk hs.1.2] at this
    obtain ⟨⟨h1, h2⟩, h3, h4, h5, h6, h7⟩ := hs
    refine ⟨this, ?_⟩
    simp [List.length_eraseIdx, h3, h4, h5, h6, h7]
  · rw [removeSpeed_error hk]; exact hs

theorem add_remove {s s' : PSC} {a : ℝ} {p : Option ℝ} (hs : AlignedPSC s)
    (h : addSpeed u a p s = (.ok (), s')) : removeSpeed (s'.base.n - 1) s' = (.ok (), s) := by
  have hs' := add_aligned u hs h
  obtain ⟨b', hb, -, -, rfl⟩ := addSpeed_ok u h
  obtain ⟨-, rfl⟩ := Base.addSpeed_ok hb
  obtain ⟨⟨h1, h2⟩, h3, h4, h5, h6, h7⟩ := hs
  have hi : pyIdx (s.base.airflow ++ [storedAirflow u s a p]).length (s.base.n + 1 - 1) = .ok s.base.airflow.length := by
    rw [pyIdx_eq_ok]; simp [h1]
  rw [removeSpeed_ok hs' hi]
  simp only [eraseIdx_snoc]
  have e2 := eraseIdx_snoc s.base.ratio (storedAirflow u s a p / s.base.airflow.headD (storedAirflow u s a p))
  rw [h2] at e2
  have key : ∀ (l : List ℝ) (x : ℝ), l.length = s.base.airflow.length → (l ++ [x]).eraseIdx s.base.airflow.length = l := by
    intro l x hl; rw [← hl, eraseIdx_snoc]
  rw [key _ _ h2, key _ _ h3, key _ _ h4, key _ _ h5, key _ _ h6, key _ _ h7]
  simp

end PSC

/-! ## ECM -/

namespace ECM

theorem addSpeed_ok {s s' : ECM} {a : ℝ} {p : Option ℝ} (h : addSpeed a p s = (.ok (), s')) :
    ∃ b', Base.addSpeed a s.base = (.ok (), b') ∧
      let r := a / s.base.airflow.headD a
      s' = { s with base := b', freeEfficacy := s.freeEfficacy ++ [s.designFreeEfficacy * r * r] } := by
  simp only [addSpeed, PyM.bind_run, PyM.get_run, sup, PyM.zoom_run] at h
  cases hb : Base.addSpeed a s.base with
  | mk r b' =>
    rw [hb] at h
    cases r with
    | error e => simp at h
    | ok _ =>
      obtain ⟨h0, rfl⟩ := Base.addSpeed_ok hb
      refine ⟨_, rfl, ?_⟩
      simp only [PyM.modify_run, PyM.liftM_run, pyGetI_last, Prod.mk.injEq, true_and] at h
      exact h.symm

theorem addSpeed_of_ok {s : ECM} {a : ℝ} {p : Option ℝ} (h0 : s.base.airflow.headD a ≠ 0) :
    ∃ s', addSpeed a p s = (.ok (), s') := by
  simp only [addSpeed, PyM.bind_run, PyM.get_run, sup, PyM.zoom_run, Base.addSpeed_run, if_neg h0,
    PyM.modify_run, PyM.liftM_run, pyGetI_last, Prod.mk.injEq, true_and, exists_eq']

theorem removeSpeed_error {s : ECM} {i : Int} {e : PyErr} (h : pyIdx s.base.airflow.length i = .error e) :
    removeSpeed i s = (.error e, s) := by
  simp only [removeSpeed, sup, PyM.bind_run, PyM.zoom_run, Base.removeSpeed_error h]

theorem removeSpeed_ok {s : ECM} {i : Int} {k : Nat} (hs : AlignedECM s)
    (h : pyIdx s.base.airflow.length i = .ok k) :
    removeSpeed i s = (.ok (), { s with
      base := { s.base with airflow := s.base.airflow.eraseIdx k, n := s.base.n - 1
                            ratio := s.base.ratio.eraseIdx k }
      freeEfficacy := s.freeEfficacy.eraseIdx k }) := by
  obtain ⟨⟨h1, h2⟩, h3⟩ := hs
  simp only [removeSpeed, sup, PyM.bind_run, PyM.zoom_run, Base.removeSpeed_ok h h2, PyM.get_run, PyM.liftM_run,
    PyM.modify_run, pyPopI_ok (h3.symm ▸ h : pyIdx s.freeEfficacy.length i = .ok k)]

theorem add_aligned {s s' : ECM} {a : ℝ} {p : Option ℝ} (hs : AlignedECM s)
    (h : addSpeed a p s = (.ok (), s')) : AlignedECM s' := by
  obtain ⟨b', hb, rfl⟩ := addSpeed_ok h
  have hb' := Base.add_aligned hs.1 hb
  obtain ⟨-, rfl⟩ := Base.addSpeed_ok hb
  refine ⟨hb', ?_⟩
  simp [hs.2]

theorem remove_aligned {s : ECM} {i : Int} (hs : AlignedECM s) : AlignedECM (removeSpeed i s).2 := by
  rcases pyIdx_cases s.base.airflow.length i with ⟨k, hk, hlt⟩ | hk
  · rw [removeSpeed_ok hs hk]
    have := Base.remove_aligned (i := i) hs.1
    rw [Base.removeSpeed_ok hk hs.1.2] at this
    refine ⟨this, ?_⟩
    simp [List.length_eraseIdx, hs.2]
  · rw [removeSpeed_error hk]; exact hs

theorem add_remove {s s' : ECM} {a : ℝ} {p : Option ℝ} (hs : AlignedECM s)
    (h : addSpeed a p s = (.ok (), s')) : removeSpeed (s'.base.n - 1) s' = (.ok (), s) := by
  have hs' := add_aligned hs h
  obtain ⟨b', hb, rfl⟩ := addSpeed_ok h
  obtain ⟨-, rfl⟩ := Base.addSpeed_ok hb
  obtain ⟨⟨h1, h2⟩, h3⟩ := hs
  have hi : pyIdx (s.base.airflow ++ [a]).length (s.base.n + 1 - 1) = .ok s.base.airflow.length := by
    rw [pyIdx_eq_ok]; simp [h1]
  rw [removeSpeed_ok hs' hi]
  have key : ∀ (l : List ℝ) (x : ℝ), l.length = s.base.airflow.length → (l ++ [x]).eraseIdx s.base.airflow.length = l := by
    intro l x hl; rw [← hl, eraseIdx_snoc]
  rw [key _ _ rfl, key _ _ h2, key _ _ h3]
  simp

end ECM

/-! ## EERE -/

namespace EERE
variable (u : Units ℝ) (kind : EEREKind)

theorem addSpeed_ok {s s' : EERE} {a : ℝ} {p : Option ℝ} (h : addSpeed u kind a p s = (.ok (), s')) :
    ∃ b', Base.addSpeed a s.base = (.ok (), b') ∧
      s' = { s with base := b', freeAirflow := s.freeAirflow ++ [a - offset u kind (s.addPressure a p)] } := by
  simp only [addSpeed, PyM.bind_run, PyM.get_run, sup, PyM.zoom_run] at h
  cases hb : Base.addSpeed a s.base with
  | mk r b' =>
    rw [hb] at h
    cases r with
    | error e => simp at h
    | ok _ =>
      refine ⟨_, rfl, ?_⟩
      simp only [PyM.modify_run, Prod.mk.injEq, true_and] at h
      exact h.symm

theorem addSpeed_of_ok {s : EERE} {a : ℝ} {p : Option ℝ} (h0 : s.base.airflow.headD a ≠ 0) :
    ∃ s', addSpeed u kind a p s = (.ok (), s') := by
  simp only [addSpeed, PyM.bind_run, PyM.get_run, sup, PyM.zoom_run, Base.addSpeed_run, if_neg h0,
    PyM.modify_run, Prod.mk.injEq, true_and, exists_eq']

theorem removeSpeed_error {s : EERE} {i : Int} {e : PyErr} (h : pyIdx s.base.airflow.length i = .error e) :
    removeSpeed i s = (.error e, s) := by
  simp only [removeSpeed, sup, PyM.bind_run, PyM.zoom_run, Base.removeSpeed_error h]

theorem removeSpeed_ok {s : EERE} {i : Int} {k : Nat} (hs : AlignedEERE s)
    (h : pyIdx s.base.airflow.length i = .ok k) :
    removeSpeed i s = (.ok (), { s with
      base := { s.base with airflow := s.base.airflow.eraseIdx k, n := s.base.n - 1
                            ratio := s.base.ratio.eraseIdx k }
      freeAirflow := s.freeAirflow.eraseIdx k }) := by
  obtain ⟨⟨h1, h2⟩, h3⟩ := hs
  simp only [removeSpeed, sup, PyM.bind_run, PyM.zoom_run, Base.removeSpeed_ok h h2, PyM.get_run, PyM.liftM_run,
    PyM.modify_run, pyPopI_ok (h3.symm ▸ h : pyIdx s.freeAirflow.length i = .ok k)]

theorem add_aligned {s s' : EERE} {a : ℝ} {p : Option ℝ} (hs : AlignedEERE s)
    (h : addSpeed u kind a p s = (.ok (), s')) : AlignedEERE s' := by
  obtain ⟨b', hb, rfl⟩ := addSpeed_ok u kind h
  have hb' := Base.add_aligned hs.1 hb
  obtain ⟨-, rfl⟩ := Base.addSpeed_ok hb
  refine ⟨hb', ?_⟩
  simp [hs.2]

theorem remove_aligned {s : EERE} {i : Int} (hs : AlignedEERE s) : AlignedEERE (removeSpeed i s).2 := by
  rcases pyIdx_cases s.base.airflow.length i with ⟨k, hk, hlt⟩ | hk
  · rw [removeSpeed_ok hs hk]
    have := Base.remove_aligned (i := i) hs.1
    rw [Base.removeSpeed_ok hk hs.1.2] at this
    refine ⟨this, ?_⟩
    simp [List.length_eraseIdx, hs.2]
  · rw [removeSpeed_error hk]; exact hs

theorem add_remove {s s' : EERE} {a : ℝ} {p : Option ℝ} (hs : AlignedEERE s)
    (h : addSpeed u kind a p s = (.ok (), s')) : removeSpeed (s'.base.n - 1) s' = (.ok (), s) := by
  have hs' := add_aligned u kind hs h
  obtain ⟨b', hb, rfl⟩ := addSpeed_ok u kind h
  obtain ⟨-, rfl⟩ := Base.addSpeed_ok hb
  obtain ⟨⟨h1, h2⟩, h3⟩ := hs
  have hi : pyIdx (s.base.airflow ++ [a]).length (s.base.n + 1 - 1) = .ok s.base.airflow.length := by
    rw [pyIdx_eq_ok]; simp [h1]
  rw [removeSpeed_ok hs' hi]
  have key : ∀ (l : List ℝ) (x : ℝ), l.length = s.base.airflow.length → (l ++ [x]).eraseIdx s.base.airflow.length = l := by
    intro l x hl; rw [← hl, eraseIdx_snoc]
  rw [key _ _ rfl, key _ _ h2, key _ _ h3]
  simp

end EERE

/-! ## Constructor loops and histories -/

theorem exec_eq_ok {σ : Type} {m : PyM σ Unit} {s s' : σ} (h : m.exec s = .ok s') : m s = (.ok (), s') := by
  unfold PyM.exec at h
  split at h
  · rename_i u s'' heq
    cases h; rw [heq]
  · cases h

/-- A predicate preserved by returning `add` calls holds after the constructor loop. -/
theorem addAll_inv {σ : Type} {add : ℝ → PyM σ Unit} {P : σ → Prop}
    (hadd : ∀ s s' a, P s → add a s = (.ok (), s') → P s') :
    ∀ (l : List ℝ) (s s' : σ), P s → addAll add l s = (.ok (), s') → P s' := by
  intro l
  induction l with
  | nil => intro s s' hs h; simp only [addAll, PyM.pure_run, Prod.mk.injEq, true_and] at h; exact h ▸ hs
  | cons a l ih =>
    intro s s' hs h
    simp only [addAll, PyM.bind_run] at h
    cases h1 : add a s with
    | mk r s1 =>
      rw [h1] at h
      cases r with
      | error e => simp at h
      | ok _ => exact ih s1 s' (hadd s s1 a hs h1) h

/-- A predicate preserved by returning `add` calls and by all allowed `remove` calls holds after any history. -/
theorem reach_inv {σ ι : Type} {add : ι → PyM σ Unit} {remove : Int → PyM σ Unit}
    {allowed : σ → Int → Prop} {P : σ → Prop} {s0 s : σ} (h0 : P s0)
    (hadd : ∀ s s' a, P s → add a s = (.ok (), s') → P s')
    (hrem : ∀ s i, P s → allowed s i → P (remove i s).2)
    (h : FanReach add remove allowed s0 s) : P s := by
  induction h with
  | start => exact h0
  | add a _ hret ih => exact hadd _ _ a ih hret
  | remove i _ ha hrun ih => exact hrun ▸ hrem _ i ih ha

theorem start_eq_ok {p : ℝ} {l : List ℝ} {b : Base} (h : Base.start p l = .ok b) :
    ∃ a0, l[0]? = some a0 ∧ a0 ≠ 0 ∧ 0 ≤ p ∧
      b = { designESP := p, n := 0, airflow := [], ratio := [], sysConst := Real.sqrt p / a0 } := by
  simp only [Base.start, systemCurveConstant, bind_eq_ok, pyGet_eq_ok, pdiv_eq_ok, pure_eq_ok,
    Except.ok.injEq, ppow_half_eq_ok] at h
  obtain ⟨a0, h1, k, ⟨x, ⟨h2, rfl⟩, h3, rfl⟩, rfl⟩ := h
  exact ⟨a0, h1, h3, h2, rfl⟩

end Resdx.Fan
