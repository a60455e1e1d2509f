import Verif.Spec.Conditions

set_option linter.unusedSectionVars false
set_option linter.unusedSimpArgs false

/-! # Helper lemmas for `conditions.py` -/

namespace Resdx.Cond

variable {K : Type} [Field K] [LinearOrder K] [IsStrictOrderedRing K]

/-- The state after a call, whether it returned or raised. -/
def after (op : Op K) (s : OpCond K) : OpCond K := (op.run s).2

/-- The state after a history of calls, exceptions caught by the caller. -/
def afterAll : List (Op K) → OpCond K → OpCond K
  | [], s => s
  | op :: ops, s => afterAll ops (after op s)

/-- The rated attributes are consistent once they exist. -/
def RatedOK (s : OpCond K) : Prop :=
  s.ratedAirflowSet = true → ∃ q rv rm cap, s.ratedStdVol = some q ∧ s.ratedVol = some rv ∧
    s.ratedMass = some rm ∧ s.ratedNetCapacity = some cap ∧
    rm = q * s.rhoStd ∧ rm = rv * s.rhoIn

/-- The rated attributes, densities and rated pressure: what the non-rating setters leave alone. -/
def Same (s t : OpCond K) : Prop :=
  t.rhoIn = s.rhoIn ∧ t.rhoStd = s.rhoStd ∧ t.ratedESP = s.ratedESP ∧
  t.ratedAirflowSet = s.ratedAirflowSet ∧ t.ratedNetCapacity = s.ratedNetCapacity ∧
  t.ratedStdVol = s.ratedStdVol ∧ t.ratedVol = s.ratedVol ∧ t.ratedMass = s.ratedMass ∧
  t.compressorSpeed = s.compressorSpeed

theorem Same.ratedOK {s t : OpCond K} (h : Same s t) (hs : RatedOK s) : RatedOK t := by
  obtain ⟨h1, h2, h3, h4, h5, h6, h7, h8, _⟩ := h
  intro ht
  rw [h4] at ht
  obtain ⟨q, rv, rm, cap, e⟩ := hs ht
  refine ⟨q, rv, rm, cap, ?_⟩
  rw [h1, h2, h5, h6, h7, h8]
  exact e

/-- Simplifier set running the setter methods. -/
macro "cond_simp" "[" ts:Lean.Parser.Tactic.simpLemma,* "]" : tactic =>
  `(tactic| simp [PyM.bind_run, PyM.modify_run, PyM.get_run, PyM.liftM_run, pyAttr, pdiv, Same, PyM.pure_run, $ts,*])

section
variable (s : OpCond K)

theorem setVolumetric_run (v : K) :
    Same s (setVolumetricAirflow v s).2 ∧ ((setVolumetricAirflow v s).2.fanSpeed = s.fanSpeed) ∧
    ((setVolumetricAirflow v s).1 = .ok () → s.ratedAirflowSet = true →
      ∃ rm cap, s.ratedMass = some rm ∧ s.ratedNetCapacity = some cap ∧
        (setVolumetricAirflow v s).2 = { s with
            vol := some v, mass := some (v * s.rhoIn), stdVol := some (v * s.rhoIn / s.rhoStd)
            ratio := some (v * s.rhoIn / rm), stdVolPerCap := some (v * s.rhoIn / s.rhoStd / cap)
            esp := match s.ratedESP with
              | some p => some (p * (v * s.rhoIn / rm) ^ 2)
              | none => s.esp } ∧ rm ≠ 0 ∧ cap ≠ 0 ∧ s.rhoStd ≠ 0) ∧
    (s.rhoIn ≠ 0 → s.rhoStd ≠ 0 → s.ratedAirflowSet = true →
      (∀ rm, s.ratedMass = some rm → rm ≠ 0) → (∀ c, s.ratedNetCapacity = some c → c ≠ 0) →
      s.ratedMass.isSome → s.ratedNetCapacity.isSome → (setVolumetricAirflow v s).1 = .ok ()) := by
  obtain ⟨rhoIn, rhoStd, cs, fs, resp, flag, cap, q, rv, rm, vol, mass, std, ratio, pc, esp⟩ := s
  by_cases hin : rhoIn = 0 <;> by_cases hstd : rhoStd = 0 <;> cases flag <;> cases resp <;>
    (first
      | (cond_simp [setVolumetricAirflow, hin, hstd]; done)
      | (cases rm with
        | none => cond_simp [setVolumetricAirflow, hin, hstd]
        | some rm =>
          by_cases hrm : rm = 0
          · cases cap with
            | none => cond_simp [setVolumetricAirflow, hin, hstd, hrm]
            | some cap => by_cases hc : cap = 0 <;> cond_simp [setVolumetricAirflow, hin, hstd, hrm, hc]
          · cases cap with
            | none => cond_simp [setVolumetricAirflow, hin, hstd, hrm]
            | some cap => by_cases hc : cap = 0 <;> cond_simp [setVolumetricAirflow, hin, hstd, hrm, hc]))

theorem setStandard_run (v : K) :
    Same s (setStandardVolumetricAirflow v s).2 ∧ ((setStandardVolumetricAirflow v s).2.fanSpeed = s.fanSpeed) ∧
    ((setStandardVolumetricAirflow v s).1 = .ok () → s.ratedAirflowSet = true →
      ∃ rm cap, s.ratedMass = some rm ∧ s.ratedNetCapacity = some cap ∧
        (setStandardVolumetricAirflow v s).2 = { s with
            stdVol := some v, vol := some (v * s.rhoStd / s.rhoIn)
            mass := some (v * s.rhoStd / s.rhoIn * s.rhoIn)
            ratio := some (v * s.rhoStd / s.rhoIn * s.rhoIn / rm), stdVolPerCap := some (v / cap)
            esp := match s.ratedESP with
              | some p => some (p * (v * s.rhoStd / s.rhoIn * s.rhoIn / rm) ^ 2)
              | none => s.esp } ∧ rm ≠ 0 ∧ cap ≠ 0 ∧ s.rhoIn ≠ 0) ∧
    (s.rhoIn ≠ 0 → s.rhoStd ≠ 0 → s.ratedAirflowSet = true →
      (∀ rm, s.ratedMass = some rm → rm ≠ 0) → (∀ c, s.ratedNetCapacity = some c → c ≠ 0) →
      s.ratedMass.isSome → s.ratedNetCapacity.isSome → (setStandardVolumetricAirflow v s).1 = .ok ()) := by
  obtain ⟨rhoIn, rhoStd, cs, fs, resp, flag, cap, q, rv, rm, vol, mass, std, ratio, pc, esp⟩ := s
  by_cases hin : rhoIn = 0 <;> by_cases hstd : rhoStd = 0 <;> cases flag <;> cases resp <;>
    (first
      | (cond_simp [setStandardVolumetricAirflow, hin, hstd]; done)
      | (cases rm with
        | none => cond_simp [setStandardVolumetricAirflow, hin, hstd]
        | some rm =>
          by_cases hrm : rm = 0
          · cases cap with
            | none => cond_simp [setStandardVolumetricAirflow, hin, hstd, hrm]
            | some cap => by_cases hc : cap = 0 <;> cond_simp [setStandardVolumetricAirflow, hin, hstd, hrm, hc]
          · cases cap with
            | none => cond_simp [setStandardVolumetricAirflow, hin, hstd, hrm]
            | some cap => by_cases hc : cap = 0 <;> cond_simp [setStandardVolumetricAirflow, hin, hstd, hrm, hc]))

set_option maxHeartbeats 1000000 in
theorem setRatio_run (r : K) :
    Same s (setMassAirflowRatio r s).2 ∧ ((setMassAirflowRatio r s).2.fanSpeed = s.fanSpeed) ∧
    ((setMassAirflowRatio r s).1 = .ok () → s.ratedAirflowSet = true →
      ∃ rm cap, s.ratedMass = some rm ∧ s.ratedNetCapacity = some cap ∧
        (setMassAirflowRatio r s).2 = { s with
            ratio := some r, mass := some (r * rm), vol := some (r * rm / s.rhoIn)
            stdVol := some (r * rm / s.rhoStd), stdVolPerCap := some (r * rm / s.rhoStd / cap)
            esp := match s.ratedESP with
              | some p => some (p * r ^ 2)
              | none => s.esp } ∧ cap ≠ 0 ∧ s.rhoIn ≠ 0 ∧ s.rhoStd ≠ 0) ∧
    (s.rhoIn ≠ 0 → s.rhoStd ≠ 0 → s.ratedAirflowSet = true →
      (∀ rm, s.ratedMass = some rm → rm ≠ 0) → (∀ c, s.ratedNetCapacity = some c → c ≠ 0) →
      s.ratedMass.isSome → s.ratedNetCapacity.isSome → (setMassAirflowRatio r s).1 = .ok ()) := by
  obtain ⟨rhoIn, rhoStd, cs, fs, resp, flag, cap, q, rv, rm, vol, mass, std, ratio, pc, esp⟩ := s
  by_cases hin : rhoIn = 0 <;> by_cases hstd : rhoStd = 0 <;> cases flag <;> cases resp <;>
    (first
      | (cond_simp [setMassAirflowRatio, hin, hstd]; done)
      | (cases rm with
        | none => cond_simp [setMassAirflowRatio, hin, hstd]
        | some rm =>
          by_cases hrm : rm = 0
          · cases cap with
            | none => cond_simp [setMassAirflowRatio, hin, hstd, hrm]
            | some cap => by_cases hc : cap = 0 <;> cond_simp [setMassAirflowRatio, hin, hstd, hrm, hc]
          · cases cap with
            | none => cond_simp [setMassAirflowRatio, hin, hstd, hrm]
            | some cap => by_cases hc : cap = 0 <;> cond_simp [setMassAirflowRatio, hin, hstd, hrm, hc]))

/-- The state on which `set_rated_volumetric_airflow` finally calls `set_volumetric_airflow`. -/
def ratedState (a c : K) : OpCond K :=
  { s with
    ratedNetCapacity := some c, ratedStdVol := some a, ratedVol := some (a * s.rhoStd / s.rhoIn)
    ratedMass := some (a * s.rhoStd / s.rhoIn * s.rhoIn), ratedAirflowSet := true }

theorem setRated_run (a c : K) :
    setRatedVolumetricAirflow a c s =
      if s.rhoIn = 0 then
        (.error .zeroDivision, { s with ratedNetCapacity := some c, ratedStdVol := some a })
      else setVolumetricAirflow (a * s.rhoStd / s.rhoIn) (ratedState s a c) := by
  by_cases h : s.rhoIn = 0 <;>
    simp [setRatedVolumetricAirflow, PyM.bind_run, PyM.modify_run, PyM.get_run, PyM.liftM_run, pdiv, h, ratedState]

theorem newFanSpeed_run (f : Nat) (a : K) :
    setNewFanSpeed f a s = setStandardVolumetricAirflow a { s with fanSpeed := some f } := rfl

end

/-- Reachable states: rated attributes are consistent, and without density they are never flagged as set. -/
def Inv (s : OpCond K) : Prop := RatedOK s ∧ (s.rhoIn = 0 → s.ratedAirflowSet = false)

theorem Same.inv {s t : OpCond K} (h : Same s t) (hs : Inv s) : Inv t :=
  ⟨h.ratedOK hs.1, fun ht => by rw [h.2.2.2.1]; exact hs.2 (h.1 ▸ ht)⟩

theorem ratedState_ok (s : OpCond K) (a c : K) (h : s.rhoIn ≠ 0) : Inv (ratedState s a c) := by
  refine ⟨fun _ => ⟨a, a * s.rhoStd / s.rhoIn, a * s.rhoStd / s.rhoIn * s.rhoIn, c, rfl, rfl, rfl, rfl, ?_, rfl⟩,
    fun h' => absurd h' h⟩
  show a * s.rhoStd / s.rhoIn * s.rhoIn = a * s.rhoStd
  field_simp

theorem after_inv (op : Op K) (s : OpCond K) (hs : Inv s) : Inv (after op s) := by
  cases op with
  | rated a c =>
    simp only [after, Op.run, setRated_run]
    split
    · rename_i h
      refine ⟨fun hf => ?_, fun _ => hs.2 h⟩
      have := hs.2 h
      simp only at hf
      rw [this] at hf
      cases hf
    · rename_i h
      exact (setVolumetric_run (ratedState s a c) _).1.inv (ratedState_ok s a c h)
  | volumetric v => exact (setVolumetric_run s v).1.inv hs
  | standard v => exact (setStandard_run s v).1.inv hs
  | ratio r => exact (setRatio_run s r).1.inv hs
  | newFanSpeed f a =>
    simp only [after, Op.run, newFanSpeed_run]
    exact (setStandard_run { s with fanSpeed := some f } a).1.inv hs

theorem afterAll_inv (ops : List (Op K)) (s : OpCond K) (hs : Inv s) : Inv (afterAll ops s) := by
  induction ops generalizing s with
  | nil => exact hs
  | cons op ops ih => exact ih _ (after_inv op s hs)

theorem init_inv (rhoIn rhoStd : K) (cs : Nat) (fs : Option Nat) (resp : Option K) :
    Inv (init rhoIn rhoStd cs fs resp) := ⟨fun h => (by cases h), fun _ => rfl⟩

/-- A successful `set_volumetric_airflow` on a rated condition is consistent. -/
theorem setVolumetric_consistent (s : OpCond K) (v : K) (hs : RatedOK s) (hf : s.ratedAirflowSet = true)
    (h : (setVolumetricAirflow v s).1 = .ok ()) : Spec.Consistent (setVolumetricAirflow v s).2 := by
  obtain ⟨rm, cap, h1, h2, h3, h4, h5, h6⟩ := (setVolumetric_run s v).2.2.1 h hf
  obtain ⟨q, rv, rm', cap', e1, e2, e3, e4, e5, e6⟩ := hs hf
  rw [h1] at e3; rw [h2] at e4
  cases e3; cases e4
  rw [h3]
  refine ⟨q, rv, rm, cap, _, _, _, _, _, e1, e2, h1, h2, rfl, rfl, rfl, rfl, rfl, e5, e6, rfl, ?_, ?_, ?_, ?_⟩
  · field_simp
  · field_simp
  · field_simp
  · intro p hp
    simp only at hp
    simp only [hp]
    congr 1
    ring

theorem setStandard_consistent (s : OpCond K) (v : K) (hs : RatedOK s) (hf : s.ratedAirflowSet = true)
    (h : (setStandardVolumetricAirflow v s).1 = .ok ()) :
    Spec.Consistent (setStandardVolumetricAirflow v s).2 := by
  obtain ⟨rm, cap, h1, h2, h3, h4, h5, h6⟩ := (setStandard_run s v).2.2.1 h hf
  obtain ⟨q, rv, rm', cap', e1, e2, e3, e4, e5, e6⟩ := hs hf
  rw [h1] at e3; rw [h2] at e4
  cases e3; cases e4
  rw [h3]
  refine ⟨q, rv, rm, cap, _, _, _, _, _, e1, e2, h1, h2, rfl, rfl, rfl, rfl, rfl, e5, e6, rfl, ?_, ?_, ?_, ?_⟩
  · field_simp
  · field_simp
  · field_simp
  · intro p hp
    simp only at hp
    simp only [hp]
    congr 1
    ring

theorem setRatio_consistent (s : OpCond K) (r : K) (hs : RatedOK s) (hf : s.ratedAirflowSet = true)
    (h : (setMassAirflowRatio r s).1 = .ok ()) :
    Spec.Consistent (setMassAirflowRatio r s).2 := by
  obtain ⟨rm, cap, h1, h2, h3, h4, h5, h6⟩ := (setRatio_run s r).2.2.1 h hf
  obtain ⟨q, rv, rm', cap', e1, e2, e3, e4, e5, e6⟩ := hs hf
  rw [h1] at e3; rw [h2] at e4
  cases e3; cases e4
  rw [h3]
  refine ⟨q, rv, rm, cap, _, _, _, _, _, e1, e2, h1, h2, rfl, rfl, rfl, rfl, rfl, e5, e6, ?_, ?_, ?_, ?_, ?_⟩
  · field_simp
  · field_simp
  · rfl
  · field_simp
  · intro p hp
    simp only at hp
    simp only [hp]
    congr 1
    ring

end Resdx.Cond
