import Verif.Model.Ratings
import Verif.Lemmas.System

/-! # Lemmas about rating conditions and resetting rated airflows -/

set_option linter.unusedSectionVars false
set_option linter.unusedSimpArgs false

namespace Resdx.Ratings

open BaseModel

variable {K : Type} [Field K] [LinearOrder K] [IsStrictOrderedRing K]

/-! ## The conditions made -/

/-- What a rating condition looks like: both air states, the compressor speed, and the rated airflow, fan speed and pressure of that speed. -/
structure IsTest (E : Env K) (S : Sys K) (heating : Bool) (speed : Nat) (db wb : K) (c : Conditions K) : Prop where
  mode : c.heating = heating
  indoor : c.indoor = if heating then wetState E.atm (frF 70) (frF 60) else wetState E.atm (frF 80) (frF 67)
  outdoor : c.outdoor = wetState E.atm (frF db) (frF wb)
  flow : ∃ rho a a0 cap fs, (Psych.getRho E.lib (defaultIndoor E heating)).1 = .ok rho ∧ rho ≠ 0 ∧ E.rhoStd ≠ 0 ∧ a ≠ 0 ∧ a0 ≠ 0 ∧ cap ≠ 0 ∧
    (if heating then S.heatingAirflow else S.coolingAirflow)[speed]? = some (some a) ∧
    (if heating then S.heatingAirflow else S.coolingAirflow)[0]? = some (some a0) ∧
    (if heating then S.netHeating else S.netCooling)[speed]? = some cap ∧
    (if heating then S.ratedHeatingFanSpeed else S.ratedCoolingFanSpeed)[speed]? = some fs ∧
    c.flow = ratedFlow rho E.rhoStd speed fs (S.fullESP * (a / a0) ^ 2) a cap

theorem isTest_of_make {E : Env K} {S : Sys K} {heating : Bool} {speed : Nat} {o : Option (Psych.PsychState K)} {c : Conditions K} {db wb : K}
    (ho : o.getD (defaultOutdoor E heating) = wetState E.atm (frF db) (frF wb)) (h : S.makeCondition E heating speed none o = .ok c) :
    IsTest E S heating speed db wb c := by
  obtain ⟨rho, pr, a, cap, fs, h1, h2, h3, h4, hr, h5, h6, ⟨a0, h7, h8, rfl⟩, h9, rfl⟩ := Sys.makeCondition_spec E S heating speed none o c h
  exact ⟨rfl, rfl, ho, rho, a, a0, cap, fs, hr, h1, h2, h3, h8, h4, h6, h7, h5, h9, rfl⟩

theorem isTest_testAt {E : Env K} {S : Sys K} {heating : Bool} {speed : Nat} {c : Conditions K} {db wb : K} (h : testAt E S heating speed db wb = .ok c) :
    IsTest E S heating speed db wb c := isTest_of_make rfl h

theorem isTest_a {E : Env K} {S : Sys K} {speed : Nat} {c : Conditions K} (h : S.makeCondition E false speed = .ok c) : IsTest E S false speed 95 75 c :=
  isTest_of_make rfl h

theorem isTest_h1 {E : Env K} {S : Sys K} {speed : Nat} {c : Conditions K} (h : S.makeCondition E true speed = .ok c) : IsTest E S true speed 47 43 c :=
  isTest_of_make rfl h

/-! ## Changing conditions -/

theorem get_put {C : Type} (P : DX.Points C) (c : C) (t t' : Test) : get (put P c t) t' = if t = t' then some c else get P t' := by
  cases t <;> cases t' <;> rfl

/-- A condition whose rated airflow is set: `set_new_fan_speed` works on it. -/
def Rated (c : Conditions K) : Prop :=
  c.flow.rhoIn ≠ 0 ∧ c.flow.rhoStd ≠ 0 ∧ c.flow.ratedAirflowSet = true ∧ (∃ m, c.flow.ratedMass = some m ∧ m ≠ 0) ∧ ∃ q, c.flow.ratedNetCapacity = some q ∧ q ≠ 0

/-- The condition after `set_new_fan_speed`. -/
def bump (f : Nat) (a : K) (c : Conditions K) : Conditions K := { c with flow := (Cond.setNewFanSpeed f a c.flow).2 }

theorem bump_rated {f : Nat} {a : K} {c : Conditions K} (h : Rated c) : Rated (bump f a c) := by
  obtain ⟨s1, s2, s3, s4, s5, s6, s7, s8, s9⟩ := (Cond.setStandard_run { c.flow with fanSpeed := some f } a).1
  unfold Rated bump
  rw [Cond.newFanSpeed_run]
  simp only [s1, s2, s4, s5, s8]
  exact h

theorem setNew_ok {f : Nat} {a : K} {c : Conditions K} (h : Rated c) : (Cond.setNewFanSpeed f a c.flow).1 = .ok () := by
  obtain ⟨h1, h2, h3, ⟨m, hm, hm0⟩, q, hq, hq0⟩ := h
  rw [Cond.newFanSpeed_run]
  refine (Cond.setStandard_run { c.flow with fanSpeed := some f } a).2.2.2 h1 h2 h3 ?_ ?_ ?_ ?_
  · intro rm hrm; rw [show c.flow.ratedMass = some rm from hrm] at hm; cases hm; exact hm0
  · intro x hx; rw [show c.flow.ratedNetCapacity = some x from hx] at hq; cases hq; exact hq0
  · show c.flow.ratedMass.isSome = true; rw [hm]; rfl
  · show c.flow.ratedNetCapacity.isSome = true; rw [hq]; rfl

theorem newFanSpeed_ok {σ : Type} {s : σ} {P : DX.Points (Conditions K)} {f : Nat} {a : K} {t : Test} {c : Conditions K} (hc : get P t = some c) (h : Rated c) :
    newFanSpeed f a t (s, P) = (.ok (), (s, put P (bump f a c) t)) := by
  unfold newFanSpeed
  simp only [hc, setNew_ok h]
  rfl

theorem newFanSpeed_missing {σ : Type} {s : σ} {P : DX.Points (Conditions K)} {f : Nat} {a : K} {t : Test} (hc : get P t = none) :
    newFanSpeed f a t (s, P) = (.error .attribute, (s, P)) := by
  unfold newFanSpeed
  simp only [hc]

theorem newFanSpeeds_ok {σ : Type} (s : σ) (f : Nat) (a : K) (ts : List Test) : ∀ P : DX.Points (Conditions K), ts.Nodup →
    (∀ t ∈ ts, ∃ c, get P t = some c ∧ Rated c) → ∃ P', newFanSpeeds f a ts (s, P) = (.ok (), (s, P')) ∧
      ∀ t, get P' t = if t ∈ ts then (get P t).map (bump f a) else get P t := by
  induction ts with
  | nil => intro P _ _; exact ⟨P, rfl, fun t => by simp⟩
  | cons t ts ih =>
    intro P hn h
    obtain ⟨ht, hn⟩ := List.nodup_cons.1 hn
    obtain ⟨c, hc, hr⟩ := h t (by simp)
    obtain ⟨P', h1, h2⟩ := ih (put P (bump f a c) t) hn (fun t' ht' => by
      have hne : t ≠ t' := fun e => ht (e ▸ ht')
      rw [get_put, if_neg hne]
      exact h t' (by simp [ht']))
    refine ⟨P', ?_, fun t' => ?_⟩
    · simp only [newFanSpeeds, PyM.bind_run, newFanSpeed_ok hc hr, h1]
    · rw [h2, get_put]
      by_cases e : t = t'
      · subst e; simp [ht, hc]
      · simp [e, Ne.symm e]

/-- What is needed of the fan: `I` holds throughout, and adding a speed with an airflow and a pressure admitted by `A` succeeds and adds one speed. -/
def FanOps.Ok {σ : Type} (F : FanOps σ K) (I : σ → Prop) (A : K → K → Prop) : Prop :=
  ∀ s a p, I s → A a p → ∃ s', F.add a p s = (.ok (), s') ∧ I s' ∧ F.count s' = F.count s + 1

/-- Adding several speeds (airflow, pressure) in turn. -/
def addMany {σ : Type} (F : FanOps σ K) : List (K × K) → PyM σ Unit
  | [] => pure ()
  | (a, p) :: l => do
    F.add a p
    addMany F l

theorem addMany_append {σ : Type} (F : FanOps σ K) {l l' : List (K × K)} : ∀ {s s1 s2 : σ}, addMany F l s = (.ok (), s1) → addMany F l' s1 = (.ok (), s2) →
    addMany F (l ++ l') s = (.ok (), s2) := by
  induction l with
  | nil => intro s s1 s2 h h'; cases h; exact h'
  | cons x l ih =>
    intro s s1 s2 h h'
    simp only [addMany, List.cons_append, PyM.bind_run] at h ⊢
    rcases hx : F.add x.1 x.2 s with ⟨r, t⟩
    rw [hx] at h
    cases r with
    | error e => simp at h
    | ok _ => exact ih h h'

/-- A loop of `reset_rated_flow_rates` succeeds if every condition it touches exists, no condition belongs to two speeds, and capacities and airflows are not zero. -/
theorem resetLoop_ok {σ : Type} {F : FanOps σ K} {I : σ → Prop} {A : K → K → Prop} (hF : F.Ok I A) (S : Sys K) (caps : List K) {full : K} (hfull : full ≠ 0) (tests : Nat → List Test)
    (hnd : ∀ i, (tests i).Nodup) (hdis : ∀ i j t, t ∈ tests i → t ∈ tests j → i = j) (l : List K) : ∀ (i : Nat) (s : σ) (P : DX.Points (Conditions K)), I s →
    (∀ j a, l[j]? = some a → ∃ q, caps[i + j]? = some q ∧ A (q * a) (S.fullESP * (q * a / full) ^ 2)) →
    (∀ j, j < l.length → ∀ t ∈ tests (i + j), ∃ c, get P t = some c ∧ Rated c) →
    ∃ s' P', resetLoop F S caps full tests l i (s, P) = (.ok (), (s', P')) ∧ I s' ∧ F.count s' = F.count s + l.length ∧
      (∃ qs : List K, qs.length = l.length ∧ (∀ j, j < l.length → caps[i + j]? = qs[j]?) ∧
        addMany F ((List.zipWith (· * ·) qs l).map fun a => (a, S.fullESP * (a / full) ^ 2)) s = (.ok (), s')) ∧
      (∀ j a q, l[j]? = some a → caps[i + j]? = some q → ∀ t ∈ tests (i + j), get P' t = (get P t).map (bump (F.count s + j) (q * a))) ∧
      ∀ t, (∀ j, j < l.length → t ∉ tests (i + j)) → get P' t = get P t := by
  induction l with
  | nil =>
    intro i s P hI _ _
    exact ⟨s, P, rfl, hI, rfl, ⟨[], rfl, fun j hj => absurd hj (by simp), rfl⟩, fun j a q h => by simp at h, fun t _ => rfl⟩
  | cons a l ih =>
    intro i s P hI hcaps hex
    obtain ⟨q, hq, hqa⟩ := hcaps 0 a rfl
    rw [Nat.add_zero] at hq
    obtain ⟨s1, hadd, hI1, hn1⟩ := hF s (q * a) (S.fullESP * (q * a / full) ^ 2) hI hqa
    obtain ⟨P1, hP1, hg1⟩ := newFanSpeeds_ok s1 (F.count s1 - 1) (q * a) (tests i) P (hnd i) (by simpa using hex 0 (by simp))
    have hcnt : F.count s1 - 1 = F.count s := by omega
    rw [hcnt] at hP1 hg1
    have hnot : ∀ j, 0 < j → ∀ t ∈ tests (i + j), t ∉ tests i := fun j hj t ht ht' => by have := hdis _ _ _ ht ht'; omega
    obtain ⟨s2, P2, hrun, hI2, hn2, ⟨qs, hqs1, hqs2, hqs3⟩, hset, hkeep⟩ := ih (i + 1) s1 P1 hI1
      (fun j b hb => by have := hcaps (j + 1) b (by simpa using hb); rwa [show i + (j + 1) = i + 1 + j by omega] at this)
      (fun j hj t ht => by
        have ht' : t ∈ tests (i + (j + 1)) := by rwa [show i + (j + 1) = i + 1 + j by omega]
        rw [hg1, if_neg (hnot (j + 1) (by omega) t ht')]
        exact hex (j + 1) (by simp; omega) t ht')
    have hp : S.ratedPressure (q * a) full = .ok (S.fullESP * (q * a / full) ^ 2) := by unfold Sys.ratedPressure; simp only [pdiv_ok hfull, bind_ok, pure_eq_ok]
    refine ⟨s2, P2, ?_, hI2, by rw [hn2, hn1, List.length_cons]; omega, ⟨q :: qs, by simp [hqs1], ?_, ?_⟩, ?_, ?_⟩
    · simp only [resetLoop, PyM.bind_run, PyM.lift_run, pyGet_eq_ok.2 hq, hp, PyM.zoom_run, hadd, PyM.get_run, hcnt, hP1, hrun]
    · intro j hj
      cases j with
      | zero => simpa using hq
      | succ j => rw [show i + (j + 1) = i + 1 + j by omega, hqs2 j (by simpa using hj)]; rfl
    · simp only [List.zipWith_cons_cons, List.map_cons, addMany, PyM.bind_run, hadd, hqs3]
    · intro j b r hb hr t ht
      cases j with
      | zero =>
        simp only [List.getElem?_cons_zero, Option.some.injEq] at hb
        subst hb
        rw [Nat.add_zero] at hr ht
        rw [hq] at hr
        obtain rfl := Option.some.inj hr
        rw [hkeep t (fun j hj ht' => by have := hdis _ _ _ ht ht'; omega), hg1, if_pos ht, Nat.add_zero]
      | succ j =>
        have e : i + (j + 1) = i + 1 + j := by omega
        rw [e] at hr
        have ht' := ht
        rw [e] at ht'
        rw [hset j b r (by simpa using hb) hr t ht', hg1, if_neg (hnot (j + 1) (by omega) t ht), hn1, show F.count s + 1 + j = F.count s + (j + 1) by omega]
    · intro t ht
      have h0 := ht 0 (by simp)
      rw [Nat.add_zero] at h0
      rw [hkeep t (fun j hj ht' => ht (j + 1) (by simp; omega) (by rwa [show i + (j + 1) = i + 1 + j by omega])), hg1, if_neg h0]

theorem coolingTests_nodup (r : Roles) (i : Nat) : (coolingTests r i).Nodup := by
  unfold coolingTests; split_ifs <;> decide

theorem heatingTests_nodup (r : Roles) (i : Nat) : (heatingTests r i).Nodup := by
  unfold heatingTests; split_ifs <;> decide

theorem mem_coolingTests {r : Roles} {i : Nat} {t : Test} : t ∈ coolingTests r i ↔
    (i = r.full ∧ (t = .aFull ∨ t = .bFull)) ∨ (i = r.intermediate ∧ (t = .aInt ∨ t = .eInt)) ∨ (some i = r.low ∧ (t = .aLow ∨ t = .bLow ∨ t = .fLow)) := by
  unfold coolingTests; split_ifs <;> simp only [List.mem_append, List.mem_cons, List.not_mem_nil] <;> tauto

theorem mem_heatingTests {r : Roles} {i : Nat} {t : Test} : t ∈ heatingTests r i ↔
    (i = r.full ∧ (t = .h1Full ∨ t = .h2Full ∨ t = .h3Full ∨ t = .h4Full)) ∨ (i = r.intermediate ∧ t = .h2Int) ∨
      (some i = r.low ∧ (t = .h0Low ∨ t = .h1Low ∨ t = .h2Low ∨ t = .h3Low)) := by
  unfold heatingTests; split_ifs <;> simp only [List.mem_append, List.mem_cons, List.not_mem_nil] <;> tauto

theorem coolingTests_disjoint (r : Roles) (i j : Nat) (t : Test) (hi : t ∈ coolingTests r i) (hj : t ∈ coolingTests r j) : i = j := by
  rw [mem_coolingTests] at hi hj
  rcases hi with ⟨e, h⟩ | ⟨e, h⟩ | ⟨e, h⟩ <;> rcases hj with ⟨e', h'⟩ | ⟨e', h'⟩ | ⟨e', h'⟩ <;> first
    | exact e.trans e'.symm
    | (rw [← e'] at e; exact Option.some.inj e)
    | (rcases h with rfl | rfl | rfl <;> simp at h')
    | (rcases h with rfl | rfl <;> simp at h')

theorem heatingTests_disjoint (r : Roles) (i j : Nat) (t : Test) (hi : t ∈ heatingTests r i) (hj : t ∈ heatingTests r j) : i = j := by
  rw [mem_heatingTests] at hi hj
  rcases hi with ⟨e, h⟩ | ⟨e, h⟩ | ⟨e, h⟩ <;> rcases hj with ⟨e', h'⟩ | ⟨e', h'⟩ | ⟨e', h'⟩ <;> first
    | exact e.trans e'.symm
    | (rw [← e'] at e; exact Option.some.inj e)
    | (rcases h with rfl | rfl | rfl | rfl <;> simp at h')
    | (subst h; simp at h')

end Resdx.Ratings
