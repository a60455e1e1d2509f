import Verif.Lemmas.Fan

/-! # Properties C13–C15: per-speed fan records -/

set_option linter.unusedSectionVars false
set_option linter.unusedSimpArgs false

namespace Resdx.Props

open Fan Spec

/-! ## C13 -/

/-- `add_speed` of each class as one argument. -/
noncomputable def addPSC (u : Units ℝ) (x : ℝ × Option ℝ) : PyM PSC Unit := PSC.addSpeed u x.1 x.2
noncomputable def addECM (x : ℝ × Option ℝ) : PyM ECM Unit := ECM.addSpeed x.1 x.2
noncomputable def addEERE (u : Units ℝ) (k : EEREKind) (x : ℝ × Option ℝ) : PyM EERE Unit := EERE.addSpeed u k x.1 x.2
/-- `add_speed` of a constant-efficacy fan, always with an efficacy. -/
noncomputable def addConstEff (x : ℝ × ℝ) : PyM ConstEff Unit := ConstEff.addSpeed x.1 (some x.2)

theorem resnetInit_aligned {u : Units ℝ} {airflows : List ℝ} {s : Base} (h : resnetInit u airflows = .ok s) :
    AlignedBase s := by
  simp only [resnetInit, bind_eq_ok] at h
  obtain ⟨b, hb, h⟩ := h
  obtain ⟨a0, -, -, -, rfl⟩ := start_eq_ok hb
  exact addAll_inv (P := AlignedBase) (fun _ _ _ => Base.add_aligned) airflows _ _
    (by simp [AlignedBase]) (exec_eq_ok h)

theorem pscInit_aligned {u : Units ℝ} {airflows : List ℝ} {p e : ℝ} {s : PSC} (h : PSC.init u airflows p e = .ok s) :
    AlignedPSC s := by
  simp only [PSC.init, bind_eq_ok] at h
  obtain ⟨b, hb, h⟩ := h
  obtain ⟨a0, -, -, -, rfl⟩ := start_eq_ok hb
  exact addAll_inv (P := AlignedPSC) (fun _ _ _ => PSC.add_aligned u) airflows _ _
    (by simp [AlignedPSC, AlignedBase]) (exec_eq_ok h)

theorem ecmInit_eq {u : Units ℝ} {airflows : List ℝ} {p e : ℝ} {m : Option ℝ} {s : ECM}
    (h : ECM.init u airflows p e m = .ok s) :
    ∃ a0, airflows[0]? = some a0 ∧ a0 ≠ 0 ∧ 0 ≤ p ∧ (∀ x, m = some x → a0 * e ≤ x) ∧
      addAll (fun a => ECM.addSpeed a) airflows
        { base := { designESP := p, n := 0, airflow := [], ratio := [], sysConst := Real.sqrt p / a0 }
          designEfficacy := e, maxPower := m, designFreeEfficacy := e - ECM.slopeESP u * p, freeEfficacy := [] }
        = (.ok (), s) := by
  unfold ECM.init at h
  rw [bind_eq_ok] at h
  obtain ⟨a0, h0, h⟩ := h
  rw [pyGet_eq_ok] at h0
  have key : (Base.start p airflows >>= fun b => (addAll (fun a => ECM.addSpeed a) airflows).exec
      { base := b, designEfficacy := e, maxPower := m, designFreeEfficacy := e - ECM.slopeESP u * p
        freeEfficacy := [] }) = .ok s ∧ ∀ x, m = some x → a0 * e ≤ x := by
    cases m with
    | none => exact ⟨h, by simp⟩
    | some x =>
      by_cases hx : x < a0 * e
      · simp only [if_pos hx, throw_eq_error, bind_error] at h
        cases h
      · simp only [if_neg hx, pure_eq_ok, bind_ok] at h
        exact ⟨h, by rintro _ ⟨⟩; exact not_lt.1 hx⟩
  obtain ⟨h, hm⟩ := key
  rw [bind_eq_ok] at h
  obtain ⟨b, hb, h⟩ := h
  obtain ⟨a0', e1, e2, e3, rfl⟩ := start_eq_ok hb
  rw [h0] at e1; cases e1
  exact ⟨a0, h0, e2, e3, hm, exec_eq_ok h⟩

theorem ecmInit_aligned {u : Units ℝ} {airflows : List ℝ} {p e : ℝ} {m : Option ℝ} {s : ECM}
    (h : ECM.init u airflows p e m = .ok s) : AlignedECM s := by
  obtain ⟨a0, -, -, -, -, h⟩ := ecmInit_eq h
  exact addAll_inv (P := AlignedECM) (fun _ _ _ => ECM.add_aligned) airflows _ _
    (by simp [AlignedECM, AlignedBase]) h

theorem eereInit_aligned {u : Units ℝ} {k : EEREKind} {airflows : List ℝ} {p : ℝ} {s : EERE}
    (h : EERE.init u k airflows p = .ok s) :
    AlignedEERE s ∧ ∃ lo hi, s.lowerIndex = some lo ∧ s.upperIndex = some hi := by
  simp only [EERE.init, bind_eq_ok] at h
  obtain ⟨b, hb, s1, h1, a0, h0, nom, hnom, ⟨lo, hi, w⟩, hw, h⟩ := h
  simp only [pure_eq_ok, Except.ok.injEq] at h
  subst h
  obtain ⟨a0, -, -, -, rfl⟩ := start_eq_ok hb
  have h2 := addAll_inv (P := AlignedEERE) (fun _ _ _ => EERE.add_aligned u k) airflows _ _
    (by simp [AlignedEERE, AlignedBase]) (exec_eq_ok h1)
  exact ⟨h2, lo, hi, rfl, rfl⟩

/-- C13 for RESNET fans (PSC and BPM): after construction and any history the records are aligned and every setting below
`number_of_speeds` has an airflow. -/
theorem C13_resnet_aligned (u : Units ℝ) (airflows : List ℝ) (s0 s : Base) (h0 : resnetInit u airflows = .ok s0)
    (h : FanReach Base.addSpeed Base.removeSpeed anySetting s0 s) :
    AlignedBase s ∧ ∀ i p, 0 ≤ i → i < s.n → ∃ a, resnetAirflow s i p = .ok a := by
  have hs : AlignedBase s := reach_inv (resnetInit_aligned h0) (fun _ _ _ => Base.add_aligned)
    (fun _ _ hs _ => Base.remove_aligned hs) h
  refine ⟨hs, fun i p h0 h1 => ⟨_, pyGetI_of_idx (pyIdx_range h0 (hs.1 ▸ h1))⟩⟩

/-- C13 for PSC fans: records aligned; airflow at every pressure, efficacy and block pressure of every setting exist. -/
theorem C13_psc_aligned (u : Units ℝ) (airflows : List ℝ) (p e : ℝ) (s0 s : PSC)
    (h0 : PSC.init u airflows p e = .ok s0) (h : FanReach (addPSC u) PSC.removeSpeed anySetting s0 s) :
    AlignedPSC s ∧ ∀ i, 0 ≤ i → i < s.base.n →
      (∀ q, ∃ a, s.airflowAt u i q = .ok a) ∧ (∀ q, ∃ x, s.efficacy i q = .ok x) := by
  have hs : AlignedPSC s := reach_inv (pscInit_aligned h0) (fun _ _ _ => PSC.add_aligned u)
    (fun _ _ hs _ => PSC.remove_aligned hs) h
  refine ⟨hs, fun i h0 h1 => ⟨fun q => ?_, fun q => ?_⟩⟩
  · have := pyGetI_of_idx (l := s.freeAirflow) (pyIdx_range h0 (by rw [hs.2.1, ← hs.1.1]; exact h1))
    simp [PSC.airflowAt, this, bind_ok, pure_eq_ok]
  · exact ⟨_, pyGetI_of_idx (l := s.speedEfficacy) (pyIdx_range h0 (by rw [hs.2.2.2.1, ← hs.1.1]; exact h1))⟩

/-- C13 for ECM fans: records aligned; power at every pressure exists for every setting. -/
theorem C13_ecm_aligned (u : Units ℝ) (airflows : List ℝ) (p e : ℝ) (m : Option ℝ) (s0 s : ECM)
    (h0 : ECM.init u airflows p e m = .ok s0) (h : FanReach addECM ECM.removeSpeed anySetting s0 s) :
    AlignedECM s ∧ ∀ i q, 0 ≤ i → i < s.base.n → ∃ w, s.powerAt u i q = .ok w := by
  have hs : AlignedECM s := reach_inv (ecmInit_aligned h0) (fun _ _ _ => ECM.add_aligned)
    (fun _ _ hs _ => ECM.remove_aligned hs) h
  refine ⟨hs, fun i q h0 h1 => ?_⟩
  have e1 := pyGetI_of_idx (l := s.base.airflow) (pyIdx_range h0 (by rw [← hs.1.1]; exact h1))
  have e2 := pyGetI_of_idx (l := s.freeEfficacy) (pyIdx_range h0 (by rw [hs.2, ← hs.1.1]; exact h1))
  cases hm : s.maxPower <;>
    simp [ECM.powerAt, ECM.unconstrainedPower, ECM.unconstrainedEfficacy, e1, e2, bind_ok, pure_eq_ok, hm]

/-- C13 for EERE fans: records aligned; airflow and efficacy at every pressure exist for every setting. -/
theorem C13_eere_aligned (u : Units ℝ) (k : EEREKind) (airflows : List ℝ) (p : ℝ) (s0 s : EERE)
    (h0 : EERE.init u k airflows p = .ok s0) (h : FanReach (addEERE u k) EERE.removeSpeed anySetting s0 s) :
    AlignedEERE s ∧ ∀ i q, 0 ≤ i → i < s.base.n → ∃ a, s.airflow u k i (some q) = .ok a := by
  have hs : AlignedEERE s := reach_inv (eereInit_aligned h0).1 (fun _ _ _ => EERE.add_aligned u k)
    (fun _ _ hs _ => EERE.remove_aligned hs) h
  refine ⟨hs, fun i q h0 h1 => ?_⟩
  have e1 := pyGetI_of_idx (l := s.freeAirflow) (pyIdx_range h0 (by rw [hs.2, ← hs.1.1]; exact h1))
  simp [EERE.airflow, e1, bind_ok, pure_eq_ok, pyNum, Util.calcQuad, pyGet]

/-- C13: a call of `remove_speed` that raises changes nothing, for every fan class. -/
theorem C13_failed_remove_changes_nothing :
    (∀ (s : Base) i e, AlignedBase s → (Base.removeSpeed i s).1 = .error e → (Base.removeSpeed i s).2 = s) ∧
    (∀ (s : PSC) i e, AlignedPSC s → (PSC.removeSpeed i s).1 = .error e → (PSC.removeSpeed i s).2 = s) ∧
    (∀ (s : ECM) i e, AlignedECM s → (ECM.removeSpeed i s).1 = .error e → (ECM.removeSpeed i s).2 = s) ∧
    (∀ (s : EERE) i e, AlignedEERE s → (EERE.removeSpeed i s).1 = .error e → (EERE.removeSpeed i s).2 = s) := by
  refine ⟨fun s i e hs h => ?_, fun s i e hs h => ?_, fun s i e hs h => ?_, fun s i e hs h => ?_⟩
  · rcases pyIdx_cases s.airflow.length i with ⟨k, hk, -⟩ | hk
    · rw [Base.removeSpeed_ok hk hs.2] at h; simp at h
    · rw [Base.removeSpeed_error hk]
  · rcases pyIdx_cases s.base.airflow.length i with ⟨k, hk, -⟩ | hk
    · rw [PSC.removeSpeed_ok hs hk] at h; simp at h
    · rw [PSC.removeSpeed_error hk]
  · rcases pyIdx_cases s.base.airflow.length i with ⟨k, hk, -⟩ | hk
    · rw [ECM.removeSpeed_ok hs hk] at h; simp at h
    · rw [ECM.removeSpeed_error hk]
  · rcases pyIdx_cases s.base.airflow.length i with ⟨k, hk, -⟩ | hk
    · rw [EERE.removeSpeed_ok hs hk] at h; simp at h
    · rw [EERE.removeSpeed_error hk]

theorem resnetAddAll_ok : ∀ (l : List ℝ) (b : Base), (∀ a ∈ l, 0 < a) → (∀ a ∈ b.airflow, 0 < a) →
    ∃ s, addAll Base.addSpeed l b = (.ok (), s) ∧ s.airflow = b.airflow ++ l ∧ s.designESP = b.designESP ∧
      s.sysConst = b.sysConst := by
  intro l
  induction l with
  | nil => intro b _ _; exact ⟨b, rfl, by simp, rfl, rfl⟩
  | cons a l ih =>
    intro b hl hb
    have ha : 0 < a := hl a List.mem_cons_self
    have h0 : b.airflow.headD a ≠ 0 := by
      cases hb' : b.airflow with
      | nil => simpa using ha.ne'
      | cons c cs => simpa using (hb c (by simp [hb'])).ne'
    simp only [addAll, PyM.bind_run, Base.addSpeed_run, if_neg h0]
    obtain ⟨s, h1, h2, h3, h4⟩ := ih { b with airflow := b.airflow ++ [a], n := b.n + 1
                                              ratio := b.ratio ++ [a / b.airflow.headD a] }
      (fun x hx => hl x (List.mem_cons_of_mem _ hx))
      (by simp only [List.mem_append, List.mem_singleton]; rintro x (hx | rfl)
          · exact hb x hx
          · exact ha)
    exact ⟨s, h1, by simp [h2], h3, h4⟩

/-- C13: a RESNET fan can be built from every non-empty list of positive airflows, and stores exactly these. -/
theorem C13_resnet_constructs (u : Units ℝ) (airflows : List ℝ) (hne : airflows ≠ []) (hpos : ∀ a ∈ airflows, 0 < a) :
    ∃ s, resnetInit u airflows = .ok s ∧ s.airflow = airflows ∧ s.n = airflows.length ∧
      s.designESP = 0.5 * u.inH2O ∧ ∃ a0, airflows[0]? = some a0 ∧ s.sysConst = Real.sqrt (0.5 * u.inH2O) / a0 := by
  have hu := u.inH2O_pos
  cases airflows with
  | nil => exact absurd rfl hne
  | cons a l =>
    have ha : a ≠ 0 := (hpos a List.mem_cons_self).ne'
    have hst : Base.start (0.5 * u.inH2O) (a :: l) = .ok
        { designESP := 0.5 * u.inH2O, n := 0, airflow := [], ratio := [], sysConst := Real.sqrt (0.5 * u.inH2O) / a } := by
      simp [Base.start, systemCurveConstant, pyGet, bind_ok, ppow_half (by positivity : (0 : ℝ) ≤ 0.5 * u.inH2O),
        pdiv_ok ha, pure_eq_ok]
    obtain ⟨s, h1, h2, h3, h4⟩ := resnetAddAll_ok (a :: l)
      { designESP := 0.5 * u.inH2O, n := 0, airflow := [], ratio := [], sysConst := Real.sqrt (0.5 * u.inH2O) / a }
      hpos (by simp)
    have hi : resnetInit u (a :: l) = .ok s := by
      rw [resnetInit, hst, bind_ok, PyM.exec, h1]
    have := (resnetInit_aligned hi).1
    refine ⟨s, hi, by simpa using h2, ?_, h3, a, rfl, h4⟩
    rw [this, h2]; simp

/-- The hypotheses of the C13 theorems are met: every RESNET fan built from positive airflows, e.g. `[2, 1]`, with a history that
removes one speed and fails to remove another. -/
example (u : Units ℝ) : ∃ s0 s, resnetInit u [2, 1] = .ok s0 ∧
    FanReach Base.addSpeed Base.removeSpeed anySetting s0 s ∧ s.airflow = [2] := by
  obtain ⟨s0, h0, h1, h2, -⟩ := C13_resnet_constructs u [2, 1] (by simp) (by simp)
  refine ⟨s0, _, h0, .remove 5 (.remove 1 .start trivial rfl) trivial rfl, ?_⟩
  have hs := resnetInit_aligned h0
  have hi : pyIdx s0.airflow.length 1 = .ok 1 := by rw [pyIdx_eq_ok, h1]; simp
  rw [Base.removeSpeed_ok hi hs.2]
  have hi' : pyIdx ([2, 1].eraseIdx 1 : List ℝ).length 5 = .error .index := by simp [pyIdx]
  rw [h1, Base.removeSpeed_error (by exact hi')]
  simp

/-! ### The constant-efficacy fan -/

theorem constEff_add_none (s : ConstEff) (a : ℝ) (h0 : s.base.airflow.headD a ≠ 0) :
    ConstEff.addSpeed a none s = (.ok (), { s with base := { s.base with
      airflow := s.base.airflow ++ [a], n := s.base.n + 1
      ratio := s.base.ratio ++ [a / s.base.airflow.headD a] } }) := by
  simp only [ConstEff.addSpeed, ConstEff.sup, PyM.bind_run, PyM.zoom_run, Base.addSpeed_run, if_neg h0, PyM.pure_run]

/-- C13 (false of the constant-efficacy fan, the default fan of a unit): adding a speed without an efficacy – the only form the base
class itself uses – always leaves the records misaligned, and querying the power of the new setting raises `IndexError`. -/
theorem C13_constEff_misaligned (s : ConstEff) (a : ℝ) (q : Option ℝ) (hs : AlignedConstEff s)
    (h0 : s.base.airflow.headD a ≠ 0) :
    (ConstEff.addSpeed a none s).1 = .ok () ∧
    ¬ AlignedConstEff (ConstEff.addSpeed a none s).2 ∧
    (ConstEff.addSpeed a none s).2.base.n = s.base.n + 1 ∧
    (ConstEff.addSpeed a none s).2.power s.base.n q = .error .index := by
  rw [constEff_add_none s a h0]
  obtain ⟨⟨h1, h2⟩, l, h3, h4⟩ := hs
  refine ⟨rfl, ?_, rfl, ?_⟩
  · rintro ⟨-, l', h5, h6⟩
    simp only at h5 h6
    rw [h3] at h5
    cases h5
    simp at h6
    omega
  · have hi : pyIdx (s.base.airflow ++ [a]).length s.base.n = .ok s.base.airflow.length := by
      rw [pyIdx_eq_ok]; simp [h1]
    have hl : pyIdx l.length s.base.n = .error .index := by
      simp [pyIdx, h1, h4]
    simp only [ConstEff.power, ConstEff.airflow, ConstEff.efficacy, h3, pyGetI_of_idx hi, bind_ok]
    simp only [pyGetI, hl, bind_error]

theorem constEff_init_ok (p e a0 : ℝ) (hp : 0 ≤ p) (ha : a0 ≠ 0) :
    ConstEff.init [a0] p (.scalar e) = .ok
      { base := { designESP := p, n := 1, airflow := [a0], ratio := [1], sysConst := Real.sqrt p / a0 }
        designEfficacy := .list [e] } := by
  have hst : Base.start p [a0] = .ok
      { designESP := p, n := 0, airflow := [], ratio := [], sysConst := Real.sqrt p / a0 } := by
    simp [Base.start, systemCurveConstant, pyGet, bind_ok, ppow_half hp, pdiv_ok ha, pure_eq_ok]
  simp [ConstEff.init, hst, bind_ok, addAll, PyM.exec, PyM.bind_run, PyM.pure_run, constEff_add_none, ha, pure_eq_ok,
    div_self ha]

/-- C13 refuted for the constant-efficacy fan, from construction. -/
theorem C13_refuted : ¬ ∀ (airflows : List ℝ) (p : ℝ) (e : Efficacies) (s0 s : ConstEff),
    ConstEff.init airflows p e = .ok s0 →
    FanReach (fun x : ℝ × Option ℝ => ConstEff.addSpeed x.1 x.2) ConstEff.removeSpeed anySetting s0 s →
    AlignedConstEff s := by
  intro h
  have h0 := constEff_init_ok 1 3 2 one_pos.le two_ne_zero
  generalize hs : (⟨⟨1, 1, [2], [1], Real.sqrt 1 / 2⟩, .list [3]⟩ : ConstEff) = s0 at h0
  have ha : AlignedConstEff s0 := by subst hs; exact ⟨by simp [AlignedBase], [3], rfl, rfl⟩
  have hm := C13_constEff_misaligned s0 5 none ha (by subst hs; simp)
  exact hm.2.1 (h _ _ _ s0 _ h0 (.add (5, none) .start (Prod.ext hm.1 rfl)))

theorem constEff_remove_ok {s : ConstEff} {i : Int} {k : Nat} {l : List ℝ} (hs : AlignedBase s.base)
    (hl : s.designEfficacy = .list l) (hll : l.length = s.base.airflow.length)
    (h : pyIdx s.base.airflow.length i = .ok k) :
    ConstEff.removeSpeed i s = (.ok (), { s with
      base := { s.base with airflow := s.base.airflow.eraseIdx k, n := s.base.n - 1
                            ratio := s.base.ratio.eraseIdx k }
      designEfficacy := .list (l.eraseIdx k) }) := by
  simp only [ConstEff.removeSpeed, ConstEff.sup, PyM.bind_run, PyM.zoom_run, Base.removeSpeed_ok h hs.2, PyM.get_run,
    hl, PyM.liftM_run, pyPopI_ok (hll.symm ▸ h : pyIdx l.length i = .ok k), PyM.modify_run]

/-- C13 (the part that holds for the constant-efficacy fan): starting from aligned records, histories that always pass an efficacy keep
them aligned and every setting has a power. Missing: calls of `add_speed` without an efficacy. -/
theorem C13_constEff_partial (s0 s : ConstEff) (h0 : AlignedConstEff s0)
    (h : FanReach addConstEff ConstEff.removeSpeed anySetting s0 s) :
    AlignedConstEff s ∧ ∀ i q, 0 ≤ i → i < s.base.n → ∃ w, s.power i q = .ok w := by
  have hs : AlignedConstEff s := by
    refine reach_inv h0 ?_ ?_ h
    · rintro s s' ⟨a, e⟩ ⟨hb, l, hl, hll⟩ hadd
      simp only [addConstEff, ConstEff.addSpeed, ConstEff.sup, PyM.bind_run, PyM.zoom_run, Base.addSpeed_run] at hadd
      by_cases h0 : s.base.airflow.headD a = 0
      · simp only [if_pos h0, Prod.mk.injEq, reduceCtorEq, false_and] at hadd
      · simp only [if_neg h0, PyM.get_run, hl, PyM.modify_run, Prod.mk.injEq, true_and] at hadd
        subst hadd
        refine ⟨?_, l ++ [e], rfl, by simp [hll]⟩
        obtain ⟨h1, h2⟩ := hb
        simp [AlignedBase, h1, h2]
    · rintro s i ⟨hb, l, hl, hll⟩ -
      rcases pyIdx_cases s.base.airflow.length i with ⟨k, hk, hlt⟩ | hk
      · rw [constEff_remove_ok hb hl hll hk]
        have := Base.remove_aligned (i := i) hb
        rw [Base.removeSpeed_ok hk hb.2] at this
        exact ⟨this, _, rfl, by simp [List.length_eraseIdx, hll]⟩
      · simp only [ConstEff.removeSpeed, ConstEff.sup, PyM.bind_run, PyM.zoom_run, Base.removeSpeed_error hk]
        exact ⟨hb, l, hl, hll⟩
  refine ⟨hs, fun i q h0 h1 => ?_⟩
  obtain ⟨hb, l, hl, hll⟩ := hs
  rw [hb.1] at h1
  have e1 := pyGetI_of_idx (l := s.base.airflow) (pyIdx_range h0 h1)
  have e2 := pyGetI_of_idx (l := l) (pyIdx_range h0 (by rw [hll]; exact h1))
  simp [ConstEff.power, ConstEff.airflow, ConstEff.efficacy, hl, e1, e2, bind_ok, pure_eq_ok]

/-- C13: a list of efficacies of the wrong length is accepted by the constructor and gives misaligned records. -/
theorem C13_constEff_init_unchecked : ∃ s, ConstEff.init [1] 1 (.list []) = .ok s ∧ ¬ AlignedConstEff s := by
  have hst : Base.start 1 [1] = .ok
      { designESP := 1, n := 0, airflow := [], ratio := [], sysConst := Real.sqrt 1 / 1 } := by
    simp [Base.start, systemCurveConstant, pyGet, bind_ok, ppow_half, pdiv_ok, pure_eq_ok]
  refine ⟨_, by simp [ConstEff.init, hst, bind_ok, addAll, PyM.exec, PyM.bind_run, PyM.pure_run, constEff_add_none,
    pure_eq_ok]; rfl, ?_⟩
  rintro ⟨-, l, h1, h2⟩
  simp at h1
  subst h1
  simp at h2

/-! ## C14 -/

theorem ratios_add {b b' : Base} {a : ℝ} (hb : RatiosRelativeToFirst b) (h : Base.addSpeed a b = (.ok (), b')) :
    RatiosRelativeToFirst b' := by
  obtain ⟨-, rfl⟩ := Base.addSpeed_ok h
  obtain ⟨h1, h2⟩ := hb
  refine ⟨by simp [h1], ?_⟩
  intro i a0 x e0 ei
  simp only at e0 ei ⊢
  have hhead : b.airflow.headD a = a0 := by
    cases hl : b.airflow with
    | nil => simp [hl] at e0; simpa using e0
    | cons c cs => simp [hl] at e0; simpa using e0
  rw [hhead]
  rcases lt_trichotomy i b.airflow.length with hlt | heq | hgt
  · rw [List.getElem?_append_left hlt] at ei
    rw [List.getElem?_append_left (by omega)]
    refine h2 i a0 x ?_ ei
    rwa [List.getElem?_append_left (by omega)] at e0
  · subst heq
    rw [List.getElem?_append_right (le_refl _)] at ei
    simp at ei
    subst ei
    rw [← h1, List.getElem?_append_right (le_refl _)]
    simp
  · rw [List.getElem?_eq_none (by simp; omega)] at ei
    cases ei

theorem ratios_remove {b : Base} {i : Int} {k : Nat} (hb : RatiosRelativeToFirst b)
    (hi : pyIdx b.airflow.length i = .ok k) (hk : k ≠ 0) :
    RatiosRelativeToFirst (Base.removeSpeed i b).2 := by
  rw [Base.removeSpeed_ok hi hb.1]
  obtain ⟨h1, h2⟩ := hb
  refine ⟨by simp [List.length_eraseIdx, h1], ?_⟩
  intro j a0 x e0 ej
  simp only [List.getElem?_eraseIdx] at e0 ej ⊢
  rw [if_pos (by omega)] at e0
  split at ej <;> rename_i hj
  · rw [if_pos hj]; exact h2 j a0 x e0 ej
  · rw [if_neg hj]; exact h2 (j + 1) a0 x e0 ej

theorem idx_notFirst {n : Nat} {i : Int} {k : Nat} (hi : pyIdx n i = .ok k) (h0 : i ≠ 0) (h1 : i ≠ -(n : Int)) : k ≠ 0 := by
  rw [pyIdx_eq_ok] at hi
  rintro rfl
  omega

/-- C14 for RESNET fans. -/
theorem C14_resnet (u : Units ℝ) (airflows : List ℝ) (s0 s : Base) (h0 : resnetInit u airflows = .ok s0)
    (h : FanReach Base.addSpeed Base.removeSpeed (notFirst id) s0 s) : RatiosRelativeToFirst s := by
  refine reach_inv ?_ (fun _ _ _ => ratios_add) ?_ h
  · simp only [resnetInit, bind_eq_ok] at h0
    obtain ⟨b, hb, h0⟩ := h0
    obtain ⟨a0, -, -, -, rfl⟩ := start_eq_ok hb
    exact addAll_inv (P := RatiosRelativeToFirst) (fun _ _ _ => ratios_add) airflows _ _
      (by simp [RatiosRelativeToFirst]) (exec_eq_ok h0)
  · intro b i hb ha
    rcases pyIdx_cases b.airflow.length i with ⟨k, hk, -⟩ | hk
    · exact ratios_remove hb hk (idx_notFirst hk ha.1 ha.2)
    · rw [Base.removeSpeed_error hk]; exact hb

/-- C14 for PSC fans. -/
theorem C14_psc (u : Units ℝ) (airflows : List ℝ) (p e : ℝ) (s0 s : PSC) (h0 : PSC.init u airflows p e = .ok s0)
    (h : FanReach (addPSC u) PSC.removeSpeed (notFirst PSC.base) s0 s) : RatiosRelativeToFirst s.base := by
  have hadd : ∀ (s s' : PSC) a q, (AlignedPSC s ∧ RatiosRelativeToFirst s.base) → PSC.addSpeed u a q s = (.ok (), s') →
      AlignedPSC s' ∧ RatiosRelativeToFirst s'.base := by
    rintro s s' a q ⟨hs, hr⟩ h
    refine ⟨PSC.add_aligned u hs h, ?_⟩
    obtain ⟨b', hb, -, -, rfl⟩ := PSC.addSpeed_ok u h
    exact ratios_add hr hb
  refine (reach_inv (P := fun s => AlignedPSC s ∧ RatiosRelativeToFirst s.base) ?_ (fun s s' x => hadd s s' x.1 x.2)
    ?_ h).2
  · simp only [PSC.init, bind_eq_ok] at h0
    obtain ⟨b, hb, h0⟩ := h0
    obtain ⟨a0, -, -, -, rfl⟩ := start_eq_ok hb
    exact addAll_inv (P := fun s => AlignedPSC s ∧ RatiosRelativeToFirst s.base) (fun s s' a => hadd s s' a none)
      airflows _ _ (by simp [RatiosRelativeToFirst, AlignedPSC, AlignedBase]) (exec_eq_ok h0)
  · rintro s i ⟨hs, hr⟩ ha
    refine ⟨PSC.remove_aligned hs, ?_⟩
    rcases pyIdx_cases s.base.airflow.length i with ⟨k, hk, -⟩ | hk
    · have := ratios_remove hr hk (idx_notFirst hk ha.1 ha.2)
      rw [Base.removeSpeed_ok hk hr.1] at this
      rw [PSC.removeSpeed_ok hs hk]; exact this
    · rw [PSC.removeSpeed_error hk]; exact hr

/-- C14 for ECM fans. -/
theorem C14_ecm (u : Units ℝ) (airflows : List ℝ) (p e : ℝ) (m : Option ℝ) (s0 s : ECM)
    (h0 : ECM.init u airflows p e m = .ok s0)
    (h : FanReach addECM ECM.removeSpeed (notFirst ECM.base) s0 s) : RatiosRelativeToFirst s.base := by
  have hadd : ∀ (s s' : ECM) a q, (AlignedECM s ∧ RatiosRelativeToFirst s.base) → ECM.addSpeed a q s = (.ok (), s') →
      AlignedECM s' ∧ RatiosRelativeToFirst s'.base := by
    rintro s s' a q ⟨hs, hr⟩ h
    refine ⟨ECM.add_aligned hs h, ?_⟩
    obtain ⟨b', hb, rfl⟩ := ECM.addSpeed_ok h
    exact ratios_add hr hb
  refine (reach_inv (P := fun s => AlignedECM s ∧ RatiosRelativeToFirst s.base) ?_ (fun s s' x => hadd s s' x.1 x.2)
    ?_ h).2
  · obtain ⟨a0, -, -, -, -, h0⟩ := ecmInit_eq h0
    exact addAll_inv (P := fun s => AlignedECM s ∧ RatiosRelativeToFirst s.base) (fun s s' a => hadd s s' a none)
      airflows _ _ (by simp [RatiosRelativeToFirst, AlignedECM, AlignedBase]) h0
  · rintro s i ⟨hs, hr⟩ ha
    refine ⟨ECM.remove_aligned hs, ?_⟩
    rcases pyIdx_cases s.base.airflow.length i with ⟨k, hk, -⟩ | hk
    · have := ratios_remove hr hk (idx_notFirst hk ha.1 ha.2)
      rw [Base.removeSpeed_ok hk hr.1] at this
      rw [ECM.removeSpeed_ok hs hk]; exact this
    · rw [ECM.removeSpeed_error hk]; exact hr

/-- C14 for EERE fans. -/
theorem C14_eere (u : Units ℝ) (kind : EEREKind) (airflows : List ℝ) (p : ℝ) (s0 s : EERE)
    (h0 : EERE.init u kind airflows p = .ok s0)
    (h : FanReach (addEERE u kind) EERE.removeSpeed (notFirst EERE.base) s0 s) : RatiosRelativeToFirst s.base := by
  have hadd : ∀ (s s' : EERE) a q, (AlignedEERE s ∧ RatiosRelativeToFirst s.base) →
      EERE.addSpeed u kind a q s = (.ok (), s') → AlignedEERE s' ∧ RatiosRelativeToFirst s'.base := by
    rintro s s' a q ⟨hs, hr⟩ h
    refine ⟨EERE.add_aligned u kind hs h, ?_⟩
    obtain ⟨b', hb, rfl⟩ := EERE.addSpeed_ok u kind h
    exact ratios_add hr hb
  refine (reach_inv (P := fun s => AlignedEERE s ∧ RatiosRelativeToFirst s.base) ?_ (fun s s' x => hadd s s' x.1 x.2)
    ?_ h).2
  · simp only [EERE.init, bind_eq_ok] at h0
    obtain ⟨b, hb, s1, h1, a0, e0, nom, hnom, ⟨lo, hi, w⟩, hw, h0⟩ := h0
    simp only [pure_eq_ok, Except.ok.injEq] at h0
    subst h0
    obtain ⟨a0, -, -, -, rfl⟩ := start_eq_ok hb
    have := addAll_inv (P := fun s => AlignedEERE s ∧ RatiosRelativeToFirst s.base) (fun s s' a => hadd s s' a none)
      airflows _ _ (by simp [RatiosRelativeToFirst, AlignedEERE, AlignedBase]) (exec_eq_ok h1)
    exact this
  · rintro s i ⟨hs, hr⟩ ha
    refine ⟨EERE.remove_aligned hs, ?_⟩
    rcases pyIdx_cases s.base.airflow.length i with ⟨k, hk, -⟩ | hk
    · have := ratios_remove hr hk (idx_notFirst hk ha.1 ha.2)
      rw [Base.removeSpeed_ok hk hr.1] at this
      rw [EERE.removeSpeed_ok hs hk]; exact this
    · rw [EERE.removeSpeed_error hk]; exact hr

/-- C14 (why the first speed is excluded): removing the first setting leaves every remaining ratio relative to the removed one; the
ratio of the new first setting is `a1 / a0`, not 1. -/
theorem C14_first_removed_stale (b : Base) (a0 a1 : ℝ) (hb : RatiosRelativeToFirst b) (e0 : b.airflow[0]? = some a0)
    (e1 : b.airflow[1]? = some a1) (hne : a1 ≠ a0) (ha : a0 ≠ 0) (ha1 : a1 ≠ 0) :
    ¬ RatiosRelativeToFirst (Base.removeSpeed 0 b).2 := by
  have hlen : 1 < b.airflow.length := by
    by_contra hcon
    rw [List.getElem?_eq_none (by omega)] at e1
    cases e1
  have hi : pyIdx b.airflow.length 0 = .ok 0 := by rw [pyIdx_eq_ok]; simp; omega
  rw [Base.removeSpeed_ok hi hb.1]
  rintro ⟨-, h⟩
  have hnew : (b.airflow.eraseIdx 0)[0]? = some a1 := by simp [List.getElem?_eraseIdx, e1]
  have h2 := h 0 a1 a1 hnew hnew
  simp only [List.getElem?_eraseIdx, Nat.not_lt_zero, if_false, Nat.zero_add, hb.2 1 a0 a1 e0 e1, Option.some.injEq] at h2
  rw [div_self ha1, div_eq_one_iff_eq ha] at h2
  exact hne h2

example : ∃ b : Base, RatiosRelativeToFirst b ∧ b.airflow[0]? = some 2 ∧ b.airflow[1]? = some 1 ∧ (1 : ℝ) ≠ 2 := by
  refine ⟨⟨1, 2, [2, 1], [1, 1 / 2], 1⟩, ⟨rfl, ?_⟩, rfl, rfl, by norm_num⟩
  intro i a0 a h0 hi
  simp at h0
  subst h0
  rcases i with _ | _ | i <;> simp at hi ⊢ <;> subst hi <;> norm_num

/-! ## C15 -/

theorem checkPower_ok {σ : Type} {add : ℝ → PyM σ Unit} {remove : Int → PyM σ Unit}
    {power : σ → Int → Option ℝ → Py ℝ} {n : σ → Int} {s s' : σ} {a w : ℝ} {p : Option ℝ}
    (hrem : ∀ s1, add a s = (.ok (), s1) → remove (n s1 - 1) s1 = (.ok (), s))
    (h : checkPower add remove power n a p s = (.ok w, s')) :
    s' = s ∧ ∃ s1, add a s = (.ok (), s1) ∧ power s1 (n s1 - 1) p = .ok w := by
  simp only [checkPower, PyM.bind_run, PyM.get_run, PyM.liftM_run] at h
  cases h1 : add a s with
  | mk r s1 =>
    rw [h1] at h
    cases r with
    | error e => simp at h
    | ok _ =>
      simp only at h
      cases h2 : power s1 (n s1 - 1) p with
      | error e => rw [h2] at h; simp at h
      | ok w' =>
        rw [h2] at h
        simp only [hrem s1 h1, PyM.pure_run, Prod.mk.injEq, Except.ok.injEq] at h
        obtain ⟨rfl, rfl⟩ := h
        exact ⟨rfl, s1, rfl, h2⟩

/-- C15: for the RESNET, PSC, ECM and EERE fans a `check_power` that returns gives the power of the newly added speed and leaves
the fan exactly as it was. -/
theorem C15_check_power_returns (u : Units ℝ) (brentq : Brentq) (kind : EEREKind) (a w : ℝ) (p : Option ℝ) :
    (∀ (power : Base → Int → Option ℝ → Py ℝ) (s s' : Base), AlignedBase s →
      resnetCheckPower power a p s = (.ok w, s') →
      s' = s ∧ ∃ s1, Base.addSpeed a s = (.ok (), s1) ∧ power s1 s.n p = .ok w) ∧
    (∀ (s s' : PSC), AlignedPSC s → PSC.checkPower u brentq a p s = (.ok w, s') →
      s' = s ∧ ∃ s1, PSC.addSpeed u a none s = (.ok (), s1) ∧ s1.power u brentq s.base.n p = .ok w) ∧
    (∀ (s s' : ECM), AlignedECM s → ECM.checkPower u brentq a p s = (.ok w, s') →
      s' = s ∧ ∃ s1, ECM.addSpeed a none s = (.ok (), s1) ∧ s1.power u brentq s.base.n p = .ok w) ∧
    (∀ (s s' : EERE), AlignedEERE s → EERE.checkPower u kind a p s = (.ok w, s') →
      s' = s ∧ ∃ s1, EERE.addSpeed u kind a none s = (.ok (), s1) ∧ s1.power u kind s.base.n p = .ok w) := by
  refine ⟨fun power s s' hs h => ?_, fun s s' hs h => ?_, fun s s' hs h => ?_, fun s s' hs h => ?_⟩
  · obtain ⟨h1, s1, h2, h3⟩ := checkPower_ok (fun s1 => Base.add_remove hs) h
    refine ⟨h1, s1, h2, ?_⟩
    obtain ⟨-, rfl⟩ := Base.addSpeed_ok h2
    simpa using h3
  · obtain ⟨h1, s1, h2, h3⟩ := checkPower_ok (fun s1 => PSC.add_remove u hs) h
    refine ⟨h1, s1, h2, ?_⟩
    obtain ⟨b', hb, -, -, rfl⟩ := PSC.addSpeed_ok u h2
    obtain ⟨-, rfl⟩ := Base.addSpeed_ok hb
    simpa using h3
  · obtain ⟨h1, s1, h2, h3⟩ := checkPower_ok (fun s1 => ECM.add_remove hs) h
    refine ⟨h1, s1, h2, ?_⟩
    obtain ⟨b', hb, rfl⟩ := ECM.addSpeed_ok h2
    obtain ⟨-, rfl⟩ := Base.addSpeed_ok hb
    simpa using h3
  · obtain ⟨h1, s1, h2, h3⟩ := checkPower_ok (fun s1 => EERE.add_remove u kind hs) h
    refine ⟨h1, s1, h2, ?_⟩
    obtain ⟨b', hb, rfl⟩ := EERE.addSpeed_ok u kind h2
    obtain ⟨-, rfl⟩ := Base.addSpeed_ok hb
    simpa using h3

/-- C15 (a failing query is not undone): the default form `check_power(airflow)` of an EERE fan always raises `TypeError` and leaves
the trial speed in the fan. -/
theorem C15_eere_default_pressure_fails (u : Units ℝ) (kind : EEREKind) (a : ℝ) (s : EERE) (hs : AlignedEERE s)
    (h0 : s.base.airflow.headD a ≠ 0) :
    (EERE.checkPower u kind a none s).1 = .error .type ∧
    (EERE.checkPower u kind a none s).2.base.n = s.base.n + 1 := by
  obtain ⟨s1, h1⟩ := EERE.addSpeed_of_ok u kind (s := s) (a := a) (p := none) h0
  obtain ⟨b', hb, e1⟩ := EERE.addSpeed_ok u kind h1
  obtain ⟨-, rfl⟩ := Base.addSpeed_ok hb
  have hn : s1.base.n = s.base.n + 1 := by rw [e1]
  have hp : s1.power u kind (s1.base.n - 1) none = .error .type := by
    have hi : pyIdx s1.freeAirflow.length (s1.base.n - 1) = .ok s.freeAirflow.length := by
      rw [pyIdx_eq_ok, hn, e1]; simp [hs.1.1, hs.2]
    simp [EERE.power, EERE.airflow, pyGetI_of_idx hi, bind_ok, pyNum, bind_error]
  simp only [EERE.checkPower, Fan.checkPower, PyM.bind_run, h1, PyM.get_run, PyM.liftM_run, hp]
  exact ⟨trivial, hn⟩

/-- C15 (false of the constant-efficacy fan): `check_power` never returns and leaves the trial speed in the fan. -/
theorem C15_constEff_always_fails (a : ℝ) (p : Option ℝ) (s : ConstEff) (hs : AlignedConstEff s)
    (h0 : s.base.airflow.headD a ≠ 0) :
    (ConstEff.checkPower a p s).1 = .error .index ∧
    (ConstEff.checkPower a p s).2.base.n = s.base.n + 1 := by
  have hm := C13_constEff_misaligned s a p hs h0
  have hadd := constEff_add_none s a h0
  rw [hadd] at hm
  obtain ⟨-, -, -, hp⟩ := hm
  simp only at hp
  simp only [ConstEff.checkPower, Fan.checkPower, PyM.bind_run, hadd, PyM.get_run, PyM.liftM_run, add_sub_cancel_right, hp]
  exact ⟨trivial, trivial⟩

/-- C15 refuted: purity fails when the query fails. -/
theorem C15_refuted : ¬ ∀ (a : ℝ) (p : Option ℝ) (s : ConstEff), AlignedConstEff s →
    (ConstEff.checkPower a p s).2.base.n = s.base.n := by
  intro h
  let s : ConstEff := { base := ⟨1, 1, [2], [1], 1⟩, designEfficacy := .list [3] }
  have hs : AlignedConstEff s := ⟨by simp [AlignedBase, s], [3], rfl, rfl⟩
  have h1 := (C15_constEff_always_fails 5 none s hs (by simp [s])).2
  rw [h 5 none s hs] at h1
  omega

/-- C15: for a RESNET PSC fan with positive airflows the query always returns, with the advertised power. -/
theorem C15_resnetPSC_partial (u : Units ℝ) (s : Base) (a a0 : ℝ) (p : Option ℝ) (hs : AlignedBase s)
    (h0 : s.airflow[0]? = some a0) (ha0 : a0 ≠ 0) :
    resnetCheckPower (resnetPSCPower u) a p s =
      (.ok (a * (0.414 / u.cfm * (0.3 * (a / a0) + (1 - 0.3)))), s) := by
  have hhead : s.airflow.headD a = a0 := by
    cases hl : s.airflow with
    | nil => simp [hl] at h0
    | cons c cs => simpa [hl] using h0
  have hadd := Base.addSpeed_run s a
  rw [hhead, if_neg ha0] at hadd
  have hrem := Base.add_remove hs hadd
  have hi : pyIdx (s.airflow ++ [a]).length s.n = .ok s.airflow.length := by
    rw [pyIdx_eq_ok]; simp [hs.1]
  have hi0 : pyGetI (s.airflow ++ [a]) 0 = .ok a0 := by rw [pyGetI_zero_snoc, hhead]
  simp only [add_sub_cancel_right] at hrem
  simp only [resnetCheckPower, Fan.checkPower, PyM.bind_run, hadd, PyM.get_run, PyM.liftM_run, add_sub_cancel_right, hrem,
    resnetPSCPower, resnetAirflow, resnetPSCEfficacy, resnetAirflowRatio, pyGetI_of_idx hi, hi0, bind_ok, pdiv_ok ha0,
    PyM.pure_run, PSC.slope, pure_eq_ok]
  simp

end Resdx.Props
