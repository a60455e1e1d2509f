import Verif.Lemmas.Conditions
import Mathlib.Algebra.Order.Ring.Rat

/-! # Properties C09–C10: airflow bookkeeping of operating conditions -/

set_option linter.unusedSectionVars false
set_option linter.unusedSimpArgs false

namespace Resdx.Props

open Cond Spec

variable {K : Type} [Field K] [LinearOrder K] [IsStrictOrderedRing K]

/-! ## C09 -/

/-- C09: start from any fresh condition, perform any history of airflow calls (some of which may have raised); if the
next call returns and a rated airflow has been set, all airflow attributes exist and satisfy the physical relations. -/
theorem C09_consistent_after_any_history (rhoIn rhoStd : K) (cs : Nat) (fs : Option Nat) (resp : Option K)
    (history : List (Op K)) (op : Op K)
    (hok : (op.run (afterAll history (init rhoIn rhoStd cs fs resp))).1 = .ok ())
    (hset : (op.run (afterAll history (init rhoIn rhoStd cs fs resp))).2.ratedAirflowSet = true) :
    Consistent (op.run (afterAll history (init rhoIn rhoStd cs fs resp))).2 := by
  have hI := afterAll_inv history _ (init_inv rhoIn rhoStd cs fs resp)
  generalize afterAll history (init rhoIn rhoStd cs fs resp) = s at *
  cases op with
  | rated a c =>
    simp only [Op.run, setRated_run] at *
    split at hok
    · cases hok
    · rename_i h
      rw [if_neg h] at *
      exact setVolumetric_consistent _ _ (ratedState_ok s a c h).1 rfl hok
  | volumetric v =>
    simp only [Op.run] at *
    exact setVolumetric_consistent s v hI.1 (by rw [← (setVolumetric_run s v).1.2.2.2.1]; exact hset) hok
  | standard v =>
    simp only [Op.run] at *
    exact setStandard_consistent s v hI.1 (by rw [← (setStandard_run s v).1.2.2.2.1]; exact hset) hok
  | ratio r =>
    simp only [Op.run] at *
    exact setRatio_consistent s r hI.1 (by rw [← (setRatio_run s r).1.2.2.2.1]; exact hset) hok
  | newFanSpeed f a =>
    simp only [Op.run, newFanSpeed_run] at *
    have hI' : RatedOK { s with fanSpeed := some f } := hI.1
    exact setStandard_consistent _ a hI'
      (by rw [← (setStandard_run { s with fanSpeed := some f } a).1.2.2.2.1]; exact hset) hok

/-- What a call asks for. -/
def Requested (op : Op K) (s s' : OpCond K) : Prop :=
  match op with
  | .rated a c => s'.stdVol = some a ∧ s'.ratedStdVol = some a ∧ s'.ratedNetCapacity = some c ∧
      s'.ratio = some 1 ∧ s'.stdVolPerCap = some (a / c) ∧ (∀ p, s.ratedESP = some p → s'.esp = some p) ∧
      s'.fanSpeed = s.fanSpeed
  | .volumetric v => s'.vol = some v ∧ s'.ratedMass = s.ratedMass ∧ s'.fanSpeed = s.fanSpeed
  | .standard v => s'.stdVol = some v ∧ s'.ratedMass = s.ratedMass ∧ s'.fanSpeed = s.fanSpeed
  | .ratio r => s'.ratio = some r ∧ s'.ratedMass = s.ratedMass ∧ s'.fanSpeed = s.fanSpeed
  | .newFanSpeed f a => s'.stdVol = some a ∧ s'.ratedMass = s.ratedMass ∧ s'.fanSpeed = some f

/-- C09: a call that returns on a rated condition has set exactly the quantity it was asked to set, and only a rating call
changes the rated values. -/
theorem C09_sets_what_was_asked (s : OpCond K) (op : Op K) (hok : (op.run s).1 = .ok ())
    (hset : (op.run s).2.ratedAirflowSet = true) : Requested op s (op.run s).2 := by
  cases op with
  | rated a c =>
    simp only [Op.run, setRated_run] at *
    split at hok
    · cases hok
    · rename_i h
      rw [if_neg h] at *
      obtain ⟨rm, cap, h1, h2, h3, h4, h5, h6⟩ := (setVolumetric_run (ratedState s a c) _).2.2.1 hok rfl
      simp only [ratedState, Option.some.injEq] at h1 h2 h4 h6
      subst h1 h2
      rw [h3]
      refine ⟨?_, rfl, rfl, ?_, ?_, ?_, rfl⟩
      · simp only [ratedState, Option.some.injEq]; field_simp
      · simp only [ratedState, Option.some.injEq]; exact div_self h4
      · simp only [ratedState, Option.some.injEq]; field_simp
      · intro p hp
        simp only [ratedState, hp, Option.some.injEq]
        rw [div_self h4]; ring
  | volumetric v =>
    simp only [Op.run] at *
    obtain ⟨rm, cap, h1, h2, h3, -⟩ := (setVolumetric_run s v).2.2.1 hok
      (by rw [← (setVolumetric_run s v).1.2.2.2.1]; exact hset)
    rw [h3]; exact ⟨rfl, rfl, rfl⟩
  | standard v =>
    simp only [Op.run] at *
    obtain ⟨rm, cap, h1, h2, h3, -⟩ := (setStandard_run s v).2.2.1 hok
      (by rw [← (setStandard_run s v).1.2.2.2.1]; exact hset)
    rw [h3]; exact ⟨rfl, rfl, rfl⟩
  | ratio r =>
    simp only [Op.run] at *
    obtain ⟨rm, cap, h1, h2, h3, -⟩ := (setRatio_run s r).2.2.1 hok
      (by rw [← (setRatio_run s r).1.2.2.2.1]; exact hset)
    rw [h3]; exact ⟨rfl, rfl, rfl⟩
  | newFanSpeed f a =>
    simp only [Op.run, newFanSpeed_run] at *
    obtain ⟨rm, cap, h1, h2, h3, -⟩ := (setStandard_run { s with fanSpeed := some f } a).2.2.1 hok
      (by rw [← (setStandard_run { s with fanSpeed := some f } a).1.2.2.2.1]; exact hset)
    rw [h3]; exact ⟨rfl, rfl, rfl⟩

/-- A call with usable arguments: rating calls need a non-zero airflow and capacity. -/
def Usable : Op K → Prop
  | .rated a c => a ≠ 0 ∧ c ≠ 0
  | _ => True

/-- C09: with non-zero densities, after an initial rating call, every further usable call returns: no history of usable calls
raises. -/
theorem C09_no_exceptions (rhoIn rhoStd a c : K) (cs : Nat) (fs : Option Nat) (resp : Option K)
    (h1 : rhoIn ≠ 0) (h2 : rhoStd ≠ 0) (ha : a ≠ 0) (hc : c ≠ 0)
    (history : List (Op K)) (hh : ∀ op ∈ history, Usable op) (op : Op K) (hop : Usable op) :
    let s := afterAll (.rated a c :: history) (init rhoIn rhoStd cs fs resp)
    (op.run s).1 = .ok () ∧ (op.run s).2.ratedAirflowSet = true := by
  -- invariant: rated values exist and are non-zero
  let Good : OpCond K → Prop := fun s => s.rhoIn ≠ 0 ∧ s.rhoStd ≠ 0 ∧ s.ratedAirflowSet = true ∧
    (∃ rm, s.ratedMass = some rm ∧ rm ≠ 0) ∧ (∃ cap, s.ratedNetCapacity = some cap ∧ cap ≠ 0)
  have same : ∀ s t : OpCond K, Same s t → Good s → Good t := by
    rintro s t ⟨e1, e2, e3, e4, e5, e6, e7, e8, _⟩ ⟨g1, g2, g3, g4, g5⟩
    exact ⟨e1 ▸ g1, e2 ▸ g2, e4 ▸ g3, e8 ▸ g4, e5 ▸ g5⟩
  have rated : ∀ (s : OpCond K) (a c : K), s.rhoIn ≠ 0 → s.rhoStd ≠ 0 → a ≠ 0 → c ≠ 0 →
      Good (ratedState s a c) := by
    intro s a c g1 g2 g3 g4
    refine ⟨g1, g2, rfl, ⟨_, rfl, ?_⟩, ⟨c, rfl, g4⟩⟩
    exact mul_ne_zero (div_ne_zero (mul_ne_zero g3 g2) g1) g1
  have step : ∀ (s : OpCond K) (op : Op K), Usable op → Good s → (op.run s).1 = .ok () ∧ Good (op.run s).2 := by
    intro s op hu hg
    obtain ⟨g1, g2, g3, ⟨rm, g4, g5⟩, ⟨cap, g6, g7⟩⟩ := id hg
    have r1 : ∀ rm, s.ratedMass = some rm → rm ≠ 0 := by intro x hx; rw [g4] at hx; cases hx; exact g5
    have r2 : ∀ c, s.ratedNetCapacity = some c → c ≠ 0 := by intro x hx; rw [g6] at hx; cases hx; exact g7
    cases op with
    | rated a c =>
      simp only [Op.run, setRated_run, if_neg g1]
      have hr := rated s a c g1 g2 hu.1 hu.2
      refine ⟨(setVolumetric_run (ratedState s a c) _).2.2.2 g1 g2 rfl ?_ ?_ rfl rfl,
        same _ _ (setVolumetric_run (ratedState s a c) _).1 hr⟩
      · intro x hx; obtain ⟨_, _, _, ⟨y, hy, hy'⟩, _⟩ := hr; rw [hy] at hx; cases hx; exact hy'
      · intro x hx; obtain ⟨_, _, _, _, ⟨y, hy, hy'⟩⟩ := hr; rw [hy] at hx; cases hx; exact hy'
    | volumetric v =>
      exact ⟨(setVolumetric_run s v).2.2.2 g1 g2 g3 r1 r2 (by simp [g4]) (by simp [g6]),
        same _ _ (setVolumetric_run s v).1 hg⟩
    | standard v =>
      exact ⟨(setStandard_run s v).2.2.2 g1 g2 g3 r1 r2 (by simp [g4]) (by simp [g6]),
        same _ _ (setStandard_run s v).1 hg⟩
    | ratio r =>
      exact ⟨(setRatio_run s r).2.2.2 g1 g2 g3 r1 r2 (by simp [g4]) (by simp [g6]),
        same _ _ (setRatio_run s r).1 hg⟩
    | newFanSpeed f a =>
      have hg' : Good { s with fanSpeed := some f } := hg
      exact ⟨(setStandard_run { s with fanSpeed := some f } a).2.2.2 g1 g2 g3 r1 r2 (by simp [g4]) (by simp [g6]),
        same _ _ (setStandard_run { s with fanSpeed := some f } a).1 hg'⟩
  have all : ∀ (ops : List (Op K)) (s : OpCond K), (∀ op ∈ ops, Usable op) → Good s → Good (afterAll ops s) := by
    intro ops
    induction ops with
    | nil => intro s _ hs; exact hs
    | cons o os ih =>
      intro s ho hs
      exact ih _ (fun x hx => ho x (List.mem_cons_of_mem _ hx)) (step s o (ho o List.mem_cons_self) hs).2
  have first : Good (after (.rated a c) (init rhoIn rhoStd cs fs resp)) := by
    have h1' : (init rhoIn rhoStd cs fs resp).rhoIn ≠ 0 := h1
    simp only [after, Op.run, setRated_run, if_neg h1']
    exact same _ _ (setVolumetric_run _ _).1 (rated _ a c h1 h2 ha hc)
  have := step _ op hop (all history _ hh first)
  exact ⟨this.1, this.2.2.2.1⟩

example : ∀ op ∈ [Op.volumetric (3 : ℚ), .newFanSpeed 1 2, .ratio (1 / 2), .rated 2 5], Usable op := by
  simp [Usable]

/-! ## C10 -/

/-- C10 (what the code does): after `set_mass_airflow m` on a rated condition the ratio is `rated / m` (inverted) and the
pressure is computed from the ratio that was in effect *before* the call; volumetric and standard flow are right. -/
theorem C10_setMassAirflow_effect (s : OpCond K) (m rm cap r0 pr : K)
    (h1 : s.ratedAirflowSet = true) (h2 : s.ratedMass = some rm) (h3 : s.ratedNetCapacity = some cap)
    (h4 : s.ratio = some r0) (h5 : s.ratedESP = some pr)
    (hm : m ≠ 0) (hin : s.rhoIn ≠ 0) (hstd : s.rhoStd ≠ 0) (hcap : cap ≠ 0) :
    setMassAirflow m s = (.ok (), { s with
      mass := some m, esp := some (pr * r0 ^ 2), ratio := some (rm / m), vol := some (m / s.rhoIn)
      stdVol := some (m / s.rhoStd), stdVolPerCap := some (m / s.rhoStd / cap) }) := by
  obtain ⟨rhoIn, rhoStd, cs, fs, resp, flag, cap', q, rv, rm', vol, mass, std, ratio, pc, esp⟩ := s
  simp only at h1 h2 h3 h4 h5 hin hstd
  subst h1 h2 h3 h4 h5
  cond_simp [setMassAirflow, hm, hin, hstd, hcap]

/-- C10 (the claim is false of the code): setting the mass flow and setting the corresponding volumetric flow give
different ratios and pressures. -/
theorem C10_refuted :
    ¬ ∀ (s : OpCond ℚ) (m : ℚ), Consistent s → s.ratedAirflowSet = true → s.rhoIn ≠ 0 → m ≠ 0 →
      setMassAirflow m s = setVolumetricAirflow (m / s.rhoIn) s := by
  intro h
  have hc : Consistent ((Op.rated (2 : ℚ) 5).run (afterAll [] (init 1 1 0 none (some 10)))).2 :=
    C09_consistent_after_any_history 1 1 0 none (some 10) [] (.rated 2 5) (by decide +kernel) (by decide +kernel)
  have := h _ 4 hc (by decide +kernel) (by decide +kernel) (by norm_num)
  revert this
  decide +kernel

/-- C10 (never right away from the rated flow): on a consistent rated condition with positive rated mass flow and positive
mass flow other than the rated one, the ratio left by `set_mass_airflow` is not `m / rated`. -/
theorem C10_wrong_everywhere_else (s : OpCond K) (m rm cap r0 pr : K)
    (h1 : s.ratedAirflowSet = true) (h2 : s.ratedMass = some rm) (h3 : s.ratedNetCapacity = some cap)
    (h4 : s.ratio = some r0) (h5 : s.ratedESP = some pr)
    (hm : 0 < m) (hrm : 0 < rm) (hne : m ≠ rm) (hin : s.rhoIn ≠ 0) (hstd : s.rhoStd ≠ 0) (hcap : cap ≠ 0) :
    (setMassAirflow m s).2.ratio ≠ some (m / rm) := by
  rw [C10_setMassAirflow_effect s m rm cap r0 pr h1 h2 h3 h4 h5 hm.ne' hin hstd hcap]
  simp only [ne_eq, Option.some.injEq]
  intro h
  rw [div_eq_div_iff hm.ne' hrm.ne'] at h
  rcases lt_or_gt_of_ne hne with hlt | hgt
  · nlinarith
  · nlinarith

/-- C10 (the part that holds): setting the rated mass flow on a condition that is at its rated flow agrees with setting the
volumetric flow. The missing part is every other mass flow. -/
theorem C10_setMassAirflow_partial (s : OpCond K) (rm cap pr : K)
    (h1 : s.ratedAirflowSet = true) (h2 : s.ratedMass = some rm) (h3 : s.ratedNetCapacity = some cap)
    (h4 : s.ratio = some 1) (h5 : s.ratedESP = some pr)
    (hm : rm ≠ 0) (hin : s.rhoIn ≠ 0) (hstd : s.rhoStd ≠ 0) (hcap : cap ≠ 0) :
    setMassAirflow rm s = setVolumetricAirflow (rm / s.rhoIn) s := by
  rw [C10_setMassAirflow_effect s rm rm cap 1 pr h1 h2 h3 h4 h5 hm hin hstd hcap]
  have hok := (setVolumetric_run s (rm / s.rhoIn)).2.2.2 hin hstd h1
    (by rw [h2]; rintro x ⟨⟩; exact hm) (by rw [h3]; rintro x ⟨⟩; exact hcap) (by simp [h2]) (by simp [h3])
  obtain ⟨rm', cap', e1, e2, e3, -⟩ := (setVolumetric_run s (rm / s.rhoIn)).2.2.1 hok h1
  rw [h2] at e1; rw [h3] at e2
  cases e1; cases e2
  refine Prod.ext hok.symm ?_
  simp only
  rw [e3]
  simp only [h5]
  congr 1 <;> simp <;> field_simp

/-- C10: with a rated pressure but no airflow set yet the call raises `AttributeError` after having stored the mass
flow. -/
theorem C10_setMassAirflow_unset (s : OpCond K) (m pr : K) (h4 : s.ratio = none) (h5 : s.ratedESP = some pr) :
    setMassAirflow m s = (.error .attribute, { s with mass := some m }) := by
  obtain ⟨rhoIn, rhoStd, cs, fs, resp, flag, cap', q, rv, rm', vol, mass, std, ratio, pc, esp⟩ := s
  simp only at h4 h5
  subst h4 h5
  cond_simp [setMassAirflow]

/-- C10: without a rated pressure and before rating, only the mass flow is stored. -/
theorem C10_setMassAirflow_unrated (s : OpCond K) (m : K) (h1 : s.ratedAirflowSet = false) (h5 : s.ratedESP = none) :
    setMassAirflow m s = (.ok (), { s with mass := some m }) := by
  obtain ⟨rhoIn, rhoStd, cs, fs, resp, flag, cap', q, rv, rm', vol, mass, std, ratio, pc, esp⟩ := s
  simp only at h1 h5
  subst h1 h5
  cond_simp [setMassAirflow]

/-- The hypotheses of the C10 theorems are met by a freshly rated condition. -/
example : let s := ((Op.rated (2 : ℚ) 5).run (init 1 1 0 none (some 10))).2
    s.ratedAirflowSet = true ∧ s.ratedMass = some 2 ∧ s.ratedNetCapacity = some 5 ∧ s.ratio = some 1 ∧
    s.ratedESP = some 10 ∧ s.rhoIn = 1 ∧ s.rhoStd = 1 := by decide +kernel

end Resdx.Props
