import Mathlib.Algebra.Order.Ring.Rat
import Verif.Lemmas.Title24
import Verif.Lemmas.System
import Verif.Props.Hspf

/-!
# Properties of the Title-24 model: C57, C58, C59, C75 (consistent COPs), C76 (built-in HSPF), C77 (heating performance), C78 (sensible cooling),
C79 (cooling power), C80 (default fan)
-/

set_option linter.unusedSectionVars false
set_option linter.unusedSimpArgs false

namespace Resdx.Title24

open Spec

variable {K : Type} [Field K] [LinearOrder K] [IsStrictOrderedRing K]

/-! ## C57: default EER -/

/-- C57: the default EER is non-decreasing below SEER 16 and from SEER 16 on; across SEER 16 it falls by at most 0.01 and only from SEERs above 15.98. -/
theorem C57_partial {s t : K} (h : s ≤ t) :
    ((t < 16 ∨ 16 ≤ s ∨ s ≤ 1598 / 100) → eerRated s ≤ eerRated t) ∧ eerRated s ≤ eerRated t + 1 / 100 := by
  unfold eerRated
  refine ⟨fun h' => ?_, ?_⟩
  · split_ifs <;> norm_num at * <;> first | linarith | (rcases h' with h' | h' | h' <;> linarith)
  · split_ifs <;> norm_num at * <;> linarith

/-- C57: below 16 the default EER strictly increases. -/
theorem C57_strict {s t : K} (h : s < t) (ht : t < 16) : eerRated s < eerRated t := by
  unfold eerRated
  split_ifs <;> norm_num at * <;> linarith

/-- C57: it is the same law that the unit's constructor applies below SEER 16. -/
example : eerRated (12 : ℚ) = 1042 / 100 ∧ eerRated (14 : ℚ) = 1187 / 100 ∧ eerRated (20 : ℚ) = 13 := by
  refine ⟨?_, ?_, ?_⟩ <;> norm_num [eerRated]

/-- C57 is false as stated: SEER 15.99 gives a higher default EER than SEER 16. -/
theorem C57_refuted : ¬ ∀ s t : ℚ, s ≤ t → eerRated s ≤ eerRated t := by
  intro h
  have := h 15.99 16 (by norm_num)
  norm_num [eerRated] at this

/-! ## C58: default heating data -/

/-- C58: the default degradation coefficient lies in [0.05, 0.25]. -/
theorem C58_range (h : K) : 5 / 100 ≤ cdHeating h ∧ cdHeating h ≤ 25 / 100 := by
  unfold cdHeating
  refine ⟨le_trans (by norm_num) (le_max_right _ _), max_le (le_trans (min_le_right _ _) (by norm_num)) (by norm_num)⟩

/-- C58: it never increases with HSPF, is 0.25 up to HSPF 6.8, 0.05 from HSPF 10 on, and linear between. -/
theorem C58_degradation (h : K) : (h ≤ 68 / 10 → cdHeating h = 25 / 100) ∧ (10 ≤ h → cdHeating h = 5 / 100) ∧
    (68 / 10 ≤ h → h ≤ 10 → cdHeating h = lineAt (68 / 10) (25 / 100) 10 (5 / 100) h) ∧ ∀ h', h ≤ h' → cdHeating h' ≤ cdHeating h := by
  unfold cdHeating lineAt
  refine ⟨fun h1 => ?_, fun h1 => ?_, fun h1 h2 => ?_, fun h' h1 => ?_⟩
  · rw [min_eq_right (by norm_num at *; linarith), max_eq_left (by norm_num)]; norm_num
  · rw [min_eq_left (by norm_num at *; linarith), max_eq_right (by norm_num at *; linarith)]; norm_num
  · rw [min_eq_left (by norm_num at *; linarith), max_eq_left (by norm_num at *; linarith)]; norm_num; ring
  · exact max_le_max (min_le_min (by norm_num; linarith) le_rfl) le_rfl

/-- C58: the capacity ratio is non-decreasing below HSPF 7.5 and from HSPF 7.5 on; across 7.5 it falls by less than 0.0042. -/
theorem C58_ratio_partial {h h' : K} (hle : h ≤ h') :
    ((h' < 75 / 10 ∨ 75 / 10 ≤ h) → cap17Ratio h ≤ cap17Ratio h') ∧ cap17Ratio h < cap17Ratio h' + 42 / 10000 := by
  unfold cap17Ratio
  refine ⟨fun hc => ?_, ?_⟩
  · split_ifs <;> norm_num at * <;> first | linarith | (rcases hc with hc | hc <;> linarith)
  · split_ifs <;> norm_num at * <;> linarith

/-- C58: the ratio is a proper fraction for every HSPF between 2.01 and 22. -/
theorem C58_ratio_range {h : K} (h1 : 201 / 100 ≤ h) (h2 : h ≤ 22) : 0 < cap17Ratio h ∧ cap17Ratio h < 1 := by
  unfold cap17Ratio
  split_ifs <;> norm_num at * <;> constructor <;> linarith

/-- C58 is false as stated for the ratio: HSPF 7.49 gives a larger ratio than HSPF 7.5. -/
theorem C58_ratio_refuted : ¬ ∀ h h' : ℚ, h ≤ h' → cap17Ratio h ≤ cap17Ratio h' := by
  intro hm
  have := hm 7.49 7.5 (by norm_num)
  norm_num [cap17Ratio] at this

/-! ## C59: cached heating data over any history of queries -/

/-- The calls that read or fill the cache. -/
inductive Query (K : Type)
  | cap17 (speed : Nat)
  | cap35 (speed : Nat)
  | cop17 (speed : Nat)
  | cop35 (speed : Nat)
  | steadyCapacity (c : Conditions K)
  | integratedCapacity (c : Conditions K)
  | steadyPower (c : Conditions K)
  | integratedPower (c : Conditions K)

/-- The cache after a call, whether it returned or raised. -/
def Query.effect (newton : K → Search K) (U : Unit24 K) : Query K → Data K → Data K
  | .cap17 i, d => (getCap17 U i d).2
  | .cap35 i, d => (getCap35 U i d).2
  | .cop17 i, d => (getCop newton U .cop17 i d).2
  | .cop35 i, d => (getCop newton U .cop35 i d).2
  | .steadyCapacity c, d => (grossSteadyCapacity U c d).2
  | .integratedCapacity c, d => (grossIntegratedCapacity U c d).2
  | .steadyPower c, d => (grossSteadyPower newton U c d).2
  | .integratedPower c, d => (grossIntegratedPower newton U c d).2

/-- The cache after a history of calls. -/
def after (newton : K → Search K) (U : Unit24 K) (history : List (Query K)) (d : Data K) : Data K := history.foldl (fun d q => q.effect newton U d) d

/-- The cache of a new unit, resdx/dx_unit.py:230. -/
def fresh : Data K := fun _ => none

section C59
variable (newton : K → Search K) (U : Unit24 K)

theorem effect_grow (q : Query K) (d : Data K) : Grow U d (q.effect newton U d) := by
  cases q with
  | cap17 i => exact grow_getCap17 U i d
  | cap35 i => exact grow_getCap35 U i d
  | cop17 i => exact grow_getCop newton U _ (Or.inl rfl) i d
  | cop35 i => exact grow_getCop newton U _ (Or.inr rfl) i d
  | steadyCapacity c => exact grow_steadyCapacity U c d
  | integratedCapacity c => exact grow_integratedCapacity U c d
  | steadyPower c => exact grow_steadyPower newton U c d
  | integratedPower c => exact grow_integratedPower newton U c d

theorem after_grow (history : List (Query K)) : ∀ d, Grow U d (after newton U history d) := by
  induction history with
  | nil => exact fun d => Grow.refl U d
  | cons q l ih => exact fun d => Grow.trans U _ _ _ (effect_grow newton U q d) (ih _)

theorem fresh_ok : Inv U fresh ∧ Paired U.nHeating (fresh : Data K) := ⟨inv_empty U, Or.inl ⟨rfl, rfl⟩⟩

theorem after_ok (history : List (Query K)) : Inv U (after newton U history fresh) ∧ Paired U.nHeating (after newton U history fresh) :=
  let h := after_grow newton U history fresh (fresh_ok U).1 (fresh_ok U).2
  ⟨h.1, h.2.1⟩

theorem getCop_some {newton : K → Search K} {U : Unit24 K} {k : Slot} {i : Nat} {d : Data K} {l : List (Option K)} (h : d k = some l) :
    getCop newton U k i d = (pyGet l i, d) := by simp [getCop, h]

/-- C59: the capacities at 17 and 35 °F do not depend on the history: after any calls, at any speed the unit has, they are the keyword argument or the default
computed from the rated capacity (and the capacity at 17 °F). -/
theorem C59_capacities (history : List (Query K)) {i : Nat} (hi : i < U.nHeating) {cap47 : K} (h47 : U.sys.netHeating[i]? = some cap47) :
    (U.cap17 = none → ∀ h, U.inputHspf = some h → (getCap17 U i (after newton U history fresh)).1 = .ok (cap17Ratio h * cap47)) ∧
    (∀ l v, U.cap17 = some l → l[i]? = some v → (getCap17 U i (after newton U history fresh)).1 = .ok v) ∧
    (U.cap35 = none → ∀ v, (getCap17 U i (after newton U history fresh)).1 = .ok v → (getCap35 U i (after newton U history fresh)).1 =
      .ok ((if U.sys.defrost.strategy = .none then 1 else 9 / 10) * (lineAt 17 v 47 cap47 35))) ∧
    (∀ l v, U.cap35 = some l → l[i]? = some v → (getCap35 U i (after newton U history fresh)).1 = .ok v) := by
  obtain ⟨hinv, -⟩ := after_ok newton U history
  have h1 := (getCap17_run U i hinv.1).1
  have h2 := (getCap35_run U i hinv).1
  rw [atSpeed, if_pos hi] at h1 h2
  have h47' : pyGet U.sys.netHeating i = .ok cap47 := by simp [pyGet, h47]
  refine ⟨fun hn h hh => ?_, fun l v hl hv => ?_, fun hn v hv => ?_, fun l v hl hv => ?_⟩
  · rw [h1]; simp [cap17Value, hn, h47', hh, pyNum, bind_ok, pure_eq_ok]
  · rw [h1]; simp [cap17Value, hl, pyGet, hv]
  · rw [h2, cap35Value, hn]
    simp only [h47', atSpeed, if_pos hi, ← h1, hv, bind_ok, pure_eq_ok, cap35Default, lineAt]
    congr 1
    by_cases hs : U.sys.defrost.strategy = .none
    · simp only [hs, ne_eq, not_true_eq_false, if_false, if_true]; norm_num; ring
    · simp only [hs, ne_eq, not_false_eq_true, if_true, if_false]; norm_num; ring
  · rw [h2]; simp [cap35Value, hl, pyGet, hv]

/-- C59: a repeated query returns the same value: whatever `get_cop17` or `get_cop35` has returned once, it returns again after any further calls. -/
theorem C59_repeatable (before between : List (Query K)) (k : Slot) (hk : k = .cop17 ∨ k = .cop35) (i : Nat) (v : Option K)
    (h : (getCop newton U k i (after newton U before fresh)).1 = .ok v) :
    (getCop newton U k i (after newton U between (getCop newton U k i (after newton U before fresh)).2)).1 = .ok v := by
  obtain ⟨hinv, hp⟩ := after_ok newton U before
  set d := after newton U before fresh
  obtain ⟨g1, g2, g3, g4⟩ := grow_getCop newton U k hk i d hinv hp
  obtain ⟨m1, m2, m3, m4⟩ := after_grow newton U between _ g1 g2
  -- the entry after the first query is the value returned
  have he : entry k i (getCop newton U k i d).2 = .ok v := by
    unfold getCop at h ⊢
    cases hd : d k with
    | some l => simp only [hd] at h ⊢; simpa [entry, hd] using h
    | none =>
      simp only [hd] at h ⊢
      rcases hc : calculateCops newton U i d with ⟨x, d'⟩
      rw [hc] at h
      cases x <;> simpa using h
  unfold entry at he
  cases hl : (getCop newton U k i d).2 k with
  | none => rw [hl] at he; simp at he
  | some l =>
    rw [hl] at he
    have hl' : after newton U between (getCop newton U k i d).2 k = some l := by
      rcases hk with rfl | rfl
      · exact m3 l hl
      · exact m4 l hl
    rw [getCop_some hl']
    exact he

/-- C59: the first query decides. If the first query of a COP is for speed `s` and the search from the guess 3.0 succeeds, then after any further calls the COPs of speed `s`
are the root found and the COP at 35 °F of the last point the search looked at, and the COPs of every other speed are `None`. -/
theorem C59_first_query (before between : List (Query K)) (hb : after newton U before fresh .cop17 = none) {s : Nat} (hs : s < U.nHeating) {k : Slot}
    (hk : k = .cop17 ∨ k = .cop35) {root last v c : K} (hr : ((newton 3).outcome (objective U s)).2 = .ok root)
    (hlast : ((newton 3).outcome (objective U s)).1.getLast? = some last) (hc : hspfAt U s last = .ok (v, c)) (d : Data K)
    (hd : d = after newton U between (getCop newton U k s (after newton U before fresh)).2) :
    (getCop newton U .cop17 s d).1 = .ok (some root) ∧ (getCop newton U .cop35 s d).1 = .ok (some c) ∧
      ∀ j, j ≠ s → j < U.nHeating → (getCop newton U .cop17 j d).1 = .ok none ∧ (getCop newton U .cop35 j d).1 = .ok none := by
  obtain ⟨hinv, hp⟩ := after_ok newton U before
  set d0 := after newton U before fresh with hd0
  have hb' : d0 .cop35 = none := by
    rcases hp with hp | ⟨l, l', h1, -, -, -⟩
    · exact hp.2
    · rw [hb] at h1; simp at h1
  obtain ⟨g1, g2, -, -⟩ := grow_getCop newton U k hk s d0 hinv hp
  obtain ⟨-, -, m3, m4⟩ := after_grow newton U between _ g1 g2
  obtain ⟨-, l, l', t1, t2, t3, t4, t5, t6, t7⟩ := calculateCops_tables newton U s hinv hb hb'
  obtain ⟨d1, s1, s2, s3, -⟩ := search_ok hs (newton 3) (prepared U d0) (prepared_ready hinv hb') root hr
  obtain ⟨v', c', e1, e2⟩ := s3 last hlast
  rw [hc] at e1
  obtain ⟨rfl, rfl⟩ := Prod.mk.inj (Except.ok.inj e1)
  rw [s1] at t6 t7
  have hst : ∃ a, (calculateCops newton U s d0).1 = .ok a := by
    have h17 := (step_search U s (newton 3) (prepared U d0)).2.1
    rw [s1, prepared_cop17, hb] at h17
    rw [calculateCops_run, s1]
    simp only [Option.getD_none] at h17
    simp [store, h17, hs]
  obtain ⟨a, ha⟩ := hst
  obtain ⟨-, x, hx, hlx⟩ := t6 a ha
  have hx' : root = x := by simpa using hx
  subst hx'
  have hl's : l'[s]? = some (some c) := by
    simp only at t7
    unfold entry at e2
    rw [t7] at e2
    exact (pyGet_eq_ok).1 e2
  -- the state after the first query
  have hq : (getCop newton U k s d0).2 = (calculateCops newton U s d0).2 := by
    have hkn : d0 k = none := by rcases hk with rfl | rfl <;> assumption
    unfold getCop
    simp only [hkn]
    rcases calculateCops newton U s d0 with ⟨y, d'⟩
    cases y <;> rfl
  rw [hq] at m3 m4
  have f17 : d .cop17 = some l := by rw [hd, hq]; exact m3 l t1
  have f35 : d .cop35 = some l' := by rw [hd, hq]; exact m4 l' t2
  refine ⟨?_, ?_, fun j hj hjn => ⟨?_, ?_⟩⟩
  · simp [getCop, f17, pyGet, hlx]
  · simp [getCop, f35, pyGet, hl's]
  · simp [getCop, f17, pyGet, (t5 j hj hjn).1]
  · simp [getCop, f35, pyGet, (t5 j hj hjn).2]

/-- C59: on a unit with one heating speed every query of a COP returns a COP, whatever was asked before, provided the search succeeds. -/
theorem C59_single_speed_partial (h1 : U.nHeating = 1) (before between : List (Query K)) (hb : after newton U before fresh .cop17 = none) {k k' : Slot}
    (hk : k = .cop17 ∨ k = .cop35) (hk' : k' = .cop17 ∨ k' = .cop35) {root last v c : K} (hr : ((newton 3).outcome (objective U 0)).2 = .ok root)
    (hlast : ((newton 3).outcome (objective U 0)).1.getLast? = some last) (hc : hspfAt U 0 last = .ok (v, c)) :
    ∃ w, (getCop newton U k' 0 (after newton U between (getCop newton U k 0 (after newton U before fresh)).2)).1 = .ok (some w) := by
  obtain ⟨a, b, -⟩ := C59_first_query newton U before between hb (by omega) hk hr hlast hc _ rfl
  rcases hk' with rfl | rfl
  · exact ⟨_, a⟩
  · exact ⟨_, b⟩

/-- C59: with a second speed the heating power cannot be evaluated at a speed other than the first one asked for. -/
theorem C59_other_speed_power (before between : List (Query K)) (hb : after newton U before fresh .cop17 = none) {s : Nat} (hs : s < U.nHeating) {k : Slot}
    (hk : k = .cop17 ∨ k = .cop35) {root last v w : K} (hr : ((newton 3).outcome (objective U s)).2 = .ok root)
    (hlast : ((newton 3).outcome (objective U s)).1.getLast? = some last) (hc : hspfAt U s last = .ok (v, w)) (c : Conditions K)
    (hcs : c.flow.compressorSpeed ≠ s) (hcn : c.flow.compressorSpeed < U.nHeating) :
    ∃ e, (grossSteadyPower newton U c (after newton U between (getCop newton U k s (after newton U before fresh)).2)).1 = .error e := by
  set d := after newton U between (getCop newton U k s (after newton U before fresh)).2 with hd
  unfold grossSteadyPower
  simp only [PyM.bind_run, PyM.lift_run]
  cases pyGet U.sys.netHeating c.flow.compressorSpeed with
  | error e => exact ⟨e, rfl⟩
  | ok cap47 =>
    simp only
    rcases hg : getCap17 U c.flow.compressorSpeed d with ⟨x, d1⟩
    cases x with
    | error e => exact ⟨e, rfl⟩
    | ok cap17 =>
      simp only
      cases Sys.at_ U.netHeatingCop c.flow.compressorSpeed with
      | error e => exact ⟨e, rfl⟩
      | ok cop47 =>
        simp only
        have h1 := getCap17_other U c.flow.compressorSpeed d (k := .cop17) (by decide)
        rw [hg] at h1
        have h2 := (C59_first_query newton U before between hb hs hk hr hlast hc d hd).2.2 _ hcs hcn
        have h3 : getCop newton U .cop17 c.flow.compressorSpeed d1 = (.ok none, d1) := by
          have h4 := h2.1
          unfold getCop at h4 ⊢
          simp only at h1
          cases hdk : d .cop17 with
          | none =>
            exfalso
            have := (C59_first_query newton U before between hb hs hk hr hlast hc d hd).1
            obtain ⟨hinv, hp⟩ := after_ok newton U before
            obtain ⟨g1, g2, -, -⟩ := grow_getCop newton U k hk s _ hinv hp
            obtain ⟨-, -, m3, -⟩ := after_grow newton U between _ g1 g2
            have hb' : after newton U before fresh .cop35 = none := by
              rcases hp with hp | ⟨l, l', q1, -, -, -⟩
              · exact hp.2
              · rw [hb] at q1; simp at q1
            obtain ⟨-, l, l', t1, -⟩ := calculateCops_tables newton U s hinv hb hb'
            have hq : (getCop newton U k s (after newton U before fresh)).2 = (calculateCops newton U s (after newton U before fresh)).2 := by
              have hkn : after newton U before fresh k = none := by rcases hk with rfl | rfl <;> assumption
              conv_lhs => unfold getCop
              simp only [hkn]
              rcases calculateCops newton U s (after newton U before fresh) with ⟨y, d'⟩
              cases y <;> rfl
            rw [hq] at m3
            have := m3 l t1
            rw [← hq, ← hd, hdk] at this
            simp at this
          | some l =>
            rw [hdk] at h1 h4
            simp only [h1] at h4 ⊢
            rw [h4]
        simp only [h3]
        cases pdiv cap47 cop47 with
        | error e => exact ⟨e, rfl⟩
        | ok inp47 => exact ⟨.type, by simp [pyNum, bind_error]⟩

end C59

/-! ### A concrete unit -/

/-- Unit factors (rounded). -/
def units24 : Units ℚ :=
  { cfm := 0.000471947, inH2O := 249.089, ton := 3516.85, btuh := 0.29307107, minute := 60, rpm := 0.104719755
    cfm_pos := by norm_num, inH2O_pos := by norm_num, ton_pos := by norm_num
    btuh_pos := by norm_num, minute_pos := by norm_num, rpm_pos := by norm_num }

/-- A heat pump with `n` equal heating speeds and HSPF 8. -/
def unit24 (n : Nat) : Unit24 ℚ :=
  { sys := { netCooling := List.replicate n 10000, netHeating := List.replicate n 10000, coolingAirflow := List.replicate n (some 0.5)
             heatingAirflow := List.replicate n (some 0.5), ratedCoolingFanSpeed := List.replicate n (some 0), ratedHeatingFanSpeed := List.replicate n (some 0)
             fullESP := 50, grossCooling := List.replicate n (some 10400), grossCoolingCop := List.replicate n (some 4)
             grossHeating := List.replicate n (some 9600), grossHeatingCop := List.replicate n (some 4), chargeDeviation := 0
             defrost := Defrost.default units24 }
    u := units24, coolingFanPower := List.replicate n (some 400), heatingFanPower := List.replicate n (some 400)
    netCoolingCop := List.replicate n (some 3.5), netHeatingCop := List.replicate n (some 3.5), nHeating := n, cd := 0.2
    inputSeer := some 14, inputHspf := some 8, cap17 := none, cap35 := none, cop35 := none, multiplier := none }

/-- The secant iteration of `scipy.optimize.newton` without a derivative: stop when two successive points agree to `tol`. -/
def secantLoop (tol : K) : Nat → K → K → K → K → Search K
  | 0, _, _, _, _ => .fail .runtime
  | n + 1, p0, q0, p1, q1 =>
    if q1 = q0 then (if p1 = p0 then .ret ((p1 + p0) / 2) else .fail .runtime)
    else
      let p := if |q0| < |q1| then (-q0 / q1 * p1 + p0) / (1 - q0 / q1) else (-q1 / q0 * p0 + p1) / (1 - q1 / q0)
      if |p - p1| ≤ tol then .ret p else .eval p fun q => secantLoop tol n p1 q1 p q

/-- `scipy.optimize.newton(f, x0)` with its default step 1e-4 and 50 iterations. -/
def secant (tol x0 : K) : Search K :=
  .eval x0 fun q0 => .eval (x0 * (1 + 1 / 10000) + (if 0 ≤ x0 * (1 + 1 / 10000) then 1 / 10000 else -(1 / 10000))) fun q1 =>
    if |q1| < |q0| then secantLoop tol 50 (x0 * (1 + 1 / 10000) + (if 0 ≤ x0 * (1 + 1 / 10000) then 1 / 10000 else -(1 / 10000))) q1 x0 q0
    else secantLoop tol 50 x0 q0 (x0 * (1 + 1 / 10000) + (if 0 ≤ x0 * (1 + 1 / 10000) then 1 / 10000 else -(1 / 10000))) q1

/-- The search resdx performs, with scipy's default tolerance. -/
abbrev newton24 : ℚ → Search ℚ := secant 1.48e-8

theorem newton24_ok : Resdx.DX.okTest ((newton24 3).outcome (objective (unit24 2) 0)).2 (fun _ => true) = true ∧
    ((newton24 3).outcome (objective (unit24 2) 0)).1 ≠ [] := by decide +kernel

/-- What a successful search knows about the last point it evaluated. -/
theorem outcome_last {U : Unit24 K} {s : Nat} (hs : s < U.nHeating) {newton : K → Search K} {root last : K}
    (hr : ((newton 3).outcome (objective U s)).2 = .ok root) (hlast : ((newton 3).outcome (objective U s)).1.getLast? = some last) :
    ∃ v c, hspfAt U s last = .ok (v, c) := by
  obtain ⟨d1, -, -, s3, -⟩ := search_ok hs (newton 3) (prepared U fresh) (prepared_ready (inv_empty U) rfl) root hr
  obtain ⟨v, c, h, -⟩ := s3 last hlast
  exact ⟨v, c, h⟩

/-- C59 is false as stated: a two-speed unit, solved by the secant iteration of scipy. After asking for the COP of speed 0, the COP of speed 1 is `None`. -/
theorem C59_refuted : ¬ ∀ (U : Unit24 ℚ) (newton : ℚ → Search ℚ) (history : List (Query ℚ)) (i : Nat), i < U.nHeating →
    (∀ j, j < U.nHeating → ∃ r, ((newton 3).outcome (objective U j)).2 = .ok r) →
    ∃ w, (getCop newton U .cop17 i (after newton U history fresh)).1 = .ok (some w) := by
  intro h
  obtain ⟨h1, h2⟩ := newton24_ok
  obtain ⟨root, hr, -⟩ := Resdx.DX.okTest_iff.1 h1
  obtain ⟨last, hl⟩ : ∃ z, ((newton24 3).outcome (objective (unit24 2) 0)).1.getLast? = some z := by
    cases hx : ((newton24 3).outcome (objective (unit24 2) 0)).1 with
    | nil => exact absurd hx h2
    | cons a t => exact ⟨_, List.getLast?_eq_some_getLast (by simp)⟩
  obtain ⟨v, c, hv⟩ := outcome_last (U := unit24 2) (s := 0) (by decide) hr hl
  have hobj : objective (unit24 2) 1 = objective (unit24 2) 0 := rfl
  obtain ⟨w, hw⟩ := h (unit24 2) newton24 [.cop17 0] 1 (by decide) (fun j hj => by
    have hj' : j < 2 := hj
    have : j = 0 ∨ j = 1 := by omega
    rcases this with rfl | rfl
    · exact ⟨root, hr⟩
    · rw [hobj]; exact ⟨root, hr⟩)
  have := (C59_first_query newton24 (unit24 2) [] [] rfl (s := 0) (by decide) (k := .cop17) (Or.inl rfl) hr hl hv _ rfl).2.2 1 (by decide) (by decide)
  have h3 : (getCop newton24 (unit24 2) .cop17 1 (after newton24 (unit24 2) [.cop17 0] fresh)).1 = .ok none := this.1
  rw [h3] at hw
  simp at hw

/-! ## C75: the COPs at 17 and 35 °F describe one unit -/

/-- The COP at 35 °F that goes with a COP at 17 °F: the keyword argument, or the default capacity over an input 60% of the way from 17 to 47 °F (98.5% of it if the unit
defrosts). -/
def matchingCop35 (keyword : Option K) (defrosts : Bool) (cap47 cop47 cap35 cap17 cop17 : K) : K :=
  match keyword with
  | some c => c
  | none => cap35 / ((if defrosts then 985 / 1000 else 1) * lineAt 17 (cap17 / cop17) 47 (cap47 / cop47) 35)

theorem hspfAt_cop35 {U : Unit24 K} {i : Nat} {x v c : K} (h : hspfAt U i x = .ok (v, c)) :
    ∃ cap47 cop47 cap35 cap17, U.sys.netHeating[i]? = some cap47 ∧ U.netHeatingCop[i]? = some (some cop47) ∧ cap35Value U i = .ok cap35 ∧
      cap17Value U i = .ok cap17 ∧ ∃ kw, (∀ l, U.cop35 = some l → kw = l[i]?) ∧ (U.cop35 = none → kw = none) ∧
      c = matchingCop35 kw (decide (U.sys.defrost.strategy ≠ .none)) cap47 cop47 cap35 cap17 x := by
  unfold hspfAt at h
  simp only [bind_eq_ok] at h
  obtain ⟨cap47, h1, cop47, h2, inp47, h3, cap35, h4, cap17, h5, inp17, h6, hx⟩ := h
  have e3 : inp47 = cap47 / cop47 := ((pdiv_eq_ok).1 h3).2.symm
  have e6 : inp17 = cap17 / x := ((pdiv_eq_ok).1 h6).2.symm
  have h2' : U.netHeatingCop[i]? = some (some cop47) := by
    unfold Sys.at_ at h2
    simp only [bind_eq_ok] at h2
    obtain ⟨o, ho, ho'⟩ := h2
    cases o with
    | none => simp [pyNum] at ho'
    | some y => simp [pyNum] at ho'; rw [pyGet_eq_ok.1 ho, ho']
  refine ⟨cap47, cop47, cap35, cap17, pyGet_eq_ok.1 h1, h2', h4, h5, ?_⟩
  cases hc : U.cop35 with
  | some m =>
    rw [hc] at hx
    simp only [bind_eq_ok, pure_eq_ok] at hx
    obtain ⟨cop35, g1, inp35, g2, r, g3, g4⟩ := hx
    obtain ⟨rfl, rfl⟩ := Prod.mk.inj (Except.ok.inj g4)
    refine ⟨some cop35, fun l hl => ?_, fun hn => by simp at hn, rfl⟩
    rw [← Option.some.inj hl]
    exact (pyGet_eq_ok.1 g1).symm
  | none =>
    rw [hc] at hx
    simp only [bind_eq_ok, pure_eq_ok] at hx
    obtain ⟨cop35, g1, r, g3, g4⟩ := hx
    obtain ⟨rfl, rfl⟩ := Prod.mk.inj (Except.ok.inj g4)
    refine ⟨none, fun l hl => by simp at hl, fun _ => rfl, ?_⟩
    rw [((pdiv_eq_ok).1 g1).2.symm]
    unfold matchingCop35 inp35Default lineAt
    subst e3 e6
    by_cases hs : U.sys.defrost.strategy = .none
    · simp only [hs, ne_eq, not_true_eq_false, if_false, decide_false, Bool.false_eq_true]; congr 1; norm_num; ring
    · simp only [hs, ne_eq, not_false_eq_true, if_true, decide_true]; congr 1; norm_num; ring

/-- C75: the reported COP at 35 °F goes with the last point the search evaluated; it goes with the reported COP at 17 °F if the search ends by evaluating the point it returns,
or if the COP at 35 °F is a keyword argument. Holds after any further calls. -/
theorem C75_partial (newton : K → Search K) (U : Unit24 K) (before between : List (Query K)) (hb : after newton U before fresh .cop17 = none) {s : Nat}
    (hs : s < U.nHeating) {k : Slot} (hk : k = .cop17 ∨ k = .cop35) {root last : K} (hr : ((newton 3).outcome (objective U s)).2 = .ok root)
    (hlast : ((newton 3).outcome (objective U s)).1.getLast? = some last) (d : Data K)
    (hd : d = after newton U between (getCop newton U k s (after newton U before fresh)).2) :
    ∃ cap47 cop47 cap35 cap17 kw c, U.sys.netHeating[s]? = some cap47 ∧ U.netHeatingCop[s]? = some (some cop47) ∧ (getCap35 U s d).1 = .ok cap35 ∧
      (getCap17 U s d).1 = .ok cap17 ∧ (∀ l, U.cop35 = some l → kw = l[s]?) ∧ (U.cop35 = none → kw = none) ∧
      (getCop newton U .cop17 s d).1 = .ok (some root) ∧ (getCop newton U .cop35 s d).1 = .ok (some c) ∧
      c = matchingCop35 kw (decide (U.sys.defrost.strategy ≠ .none)) cap47 cop47 cap35 cap17 last ∧
      (last = root ∨ kw ≠ none → c = matchingCop35 kw (decide (U.sys.defrost.strategy ≠ .none)) cap47 cop47 cap35 cap17 root) := by
  obtain ⟨v, c, hc⟩ := outcome_last hs hr hlast
  obtain ⟨a, b, -⟩ := C59_first_query newton U before between hb hs hk hr hlast hc d hd
  obtain ⟨cap47, cop47, cap35, cap17, h1, h2, h3, h4, kw, h5, h6, h7⟩ := hspfAt_cop35 hc
  have hinv : Inv U d := by
    obtain ⟨hinv, hp⟩ := after_ok newton U before
    obtain ⟨g1, g2, -, -⟩ := grow_getCop newton U k hk s _ hinv hp
    rw [hd]; exact (after_grow newton U between _ g1 g2).1
  refine ⟨cap47, cop47, cap35, cap17, kw, c, h1, h2, ?_, ?_, h5, h6, a, b, h7, fun h => ?_⟩
  · rw [(getCap35_run U s hinv).1, atSpeed, if_pos hs, h3]
  · rw [(getCap17_run U s hinv.1).1, atSpeed, if_pos hs, h4]
  · rcases h with h | h
    · rw [← h]; exact h7
    · cases kw with
      | none => exact absurd rfl h
      | some w => exact h7

/-- The COP at 35 °F that goes with the root found is not the one the last evaluation stored (one-speed unit, secant iteration). -/
theorem newton24_stale :
    Resdx.DX.okTest (do
      let o := (newton24 3).outcome (objective (unit24 1) 0)
      let root ← o.2
      let last ← pyNum o.1.getLast?
      let a ← hspfAt (unit24 1) 0 root
      let b ← hspfAt (unit24 1) 0 last
      return (a.2, b.2)) (fun p => decide (p.1 < p.2) || decide (p.2 < p.1)) = true := by decide +kernel

/-- C75 is false as stated: with scipy's secant iteration the two reported COPs do not belong together, because the iteration returns a point it has not evaluated. -/
theorem C75_refuted : ¬ ∀ (U : Unit24 ℚ) (newton : ℚ → Search ℚ) (history : List (Query ℚ)) (x c : ℚ),
    (getCop newton U .cop17 0 (after newton U history fresh)).1 = .ok (some x) → (getCop newton U .cop35 0 (after newton U history fresh)).1 = .ok (some c) → ∃ v, hspfAt U 0 x = .ok (v, c) := by
  intro h
  have h0 := newton24_stale
  obtain ⟨p, hp, hp'⟩ := Resdx.DX.okTest_iff.1 h0
  simp only [bind_eq_ok, pure_eq_ok] at hp
  obtain ⟨root, hr, last, hl, a, ha, b, hb, hab⟩ := hp
  have hl' : ((newton24 3).outcome (objective (unit24 1) 0)).1.getLast? = some last := by
    cases hx : ((newton24 3).outcome (objective (unit24 1) 0)).1.getLast? with
    | none => rw [hx] at hl; simp [pyNum] at hl
    | some z => rw [hx] at hl; simp [pyNum] at hl; rw [hl]
  obtain ⟨k1, k2, -⟩ := C59_first_query newton24 (unit24 1) [] [] rfl (s := 0) (by decide) (k := .cop17) (Or.inl rfl) hr hl' (v := b.1) (c := b.2) hb _ rfl
  obtain ⟨w, hw⟩ := h (unit24 1) newton24 [.cop17 0] root b.2 k1 k2
  rw [ha] at hw
  rw [← Except.ok.inj hab, Except.ok.inj hw] at hp'
  simp at hp'

/-! ## C76: the built-in HSPF -/

section C76
variable {U : Unit24 K} {P : Points K}

/-- The test results behind the built-in rating. -/
def testsOf (P : Points K) : HeatTests K := { q1 := P.cap47, p1 := P.inp47, q2 := P.cap35, p2 := P.inp35, q3 := P.cap17, p3 := P.inp17 }

theorem frostLine_q (P : Points K) (t : K) : frostLine P.cap47 P.cap35 P.cap17 t = (testsOf P).q t := by
  unfold frostLine HeatTests.q testsOf lineAt
  by_cases h : 17 < t ∧ t < 45
  · rw [if_pos h, if_neg (by rintro (h' | h') <;> [linarith [h.2]; linarith [h.1]])]; ring
  · rw [if_neg h, if_pos (by by_contra hn; push Not at hn; exact h ⟨hn.2, hn.1⟩)]; ring

theorem frostLine_p (P : Points K) (t : K) : frostLine P.inp47 P.inp35 P.inp17 t = (testsOf P).p t := by
  unfold frostLine HeatTests.p testsOf lineAt
  by_cases h : 17 < t ∧ t < 45
  · rw [if_pos h, if_neg (by rintro (h' | h') <;> [linarith [h.2]; linarith [h.1]])]; ring
  · rw [if_neg h, if_pos (by by_contra hn; push Not at hn; exact h ⟨hn.2, hn.1⟩)]; ring

/-- The heating load: 77% of the rated capacity at the design temperature 5 °F, zero at 65 °F. -/
def load24 (cap47 tF : K) : K := heatBuildingLoad 65 5 (77 / 100 * cap47) tF

/-- Energy used at a temperature: the heat pump with cut-out at 0 °F and cut-in at 5 °F, and resistance heat for the rest. -/
def energy24 (cd : K) (T : HeatTests K) (tF : K) : K :=
  runFraction 0 5 tF (T.q tF / T.p tF) * oneStageRate cd (T.q tF) (T.p tF) (load24 T.q1 tF) +
    (load24 T.q1 tF - runFraction 0 5 tF (T.q tF / T.p tF) * min (load24 T.q1 tF) (T.q tF))

theorem sigma_ok {t q p : K} (hp : p ≠ 0) : sigma t q p = .ok (runFraction 0 5 t (q / p)) := by
  unfold sigma runFraction
  by_cases h : t ≤ 0
  · simp [h]
  · rw [if_neg h]
    simp only [pdiv_ok hp, bind_ok, pure_eq_ok]
    by_cases h2 : q / p < 1
    · simp [h2]
    · simp only [h2, h, or_self, if_false]
      by_cases h3 : t ≤ 5
      · rw [if_pos h3, if_neg (not_lt.2 h3)]; norm_num
      · rw [if_neg h3, if_pos (not_le.1 h3)]

theorem hspfBin_ok {cd t n : K} (hcd : 0 ≤ cd) (hcd1 : cd < 1) (hc : 0 < P.cap47) (ht : t < 65) (hq : 0 < (testsOf P).q t) (hp : 0 < (testsOf P).p t) :
    hspfBin cd P t n = .ok (energy24 cd (testsOf P) t * n, load24 P.cap47 t * n) ∧ 0 < energy24 cd (testsOf P) t := by
  have hbl : (65 - t) / (65 - 5) * 0.77 * P.cap47 = load24 P.cap47 t := by
    unfold load24 heatBuildingLoad
    rw [if_neg (not_le.2 ht)]; norm_num; ring
  have hblp : 0 < load24 P.cap47 t := by
    rw [← hbl]
    have : 0 < 65 - t := by linarith
    positivity
  have e1 : (testsOf P).q1 = P.cap47 := rfl
  unfold hspfBin
  simp only [frostLine_q, frostLine_p, hbl, pdiv_ok hq.ne', bind_ok, sigma_ok hp.ne', pure_eq_ok]
  unfold energy24
  rw [e1]
  generalize hB : load24 P.cap47 t = B at *
  generalize hQ : (testsOf P).q t = q at *
  generalize hPp : (testsOf P).p t = p at *
  generalize hR : runFraction 0 5 t (q / p) = r
  have hr0 : 0 ≤ r ∧ r ≤ 1 := by
    rw [← hR]; unfold runFraction
    split_ifs <;> norm_num
  by_cases hb : B < q
  · have h2 : B / q < 1 := (div_lt_one hq).2 hb
    have h1 : 0 < B / q := by positivity
    have hplf : 0 < 1 - cd * (1 - B / q) := by nlinarith
    rw [min_eq_left h2.le, min_eq_left hb.le]
    simp only [oneStageRate, if_pos hb, cyclingRate, pdiv_ok hplf.ne', bind_ok]
    have hxq : B / q * q = B := div_mul_cancel₀ B hq.ne'
    refine ⟨?_, ?_⟩
    · congr 2
      rw [show B / q * q * r = r * B by rw [hxq]; ring]
      field_simp
    · have hpos : 0 < B / q * p / (1 - cd * (1 - B / q)) := by positivity
      rcases hr0.1.eq_or_lt with h0 | h0
      · rw [← h0]; simpa using hblp
      · have := mul_pos h0 hpos
        nlinarith [mul_nonneg (sub_nonneg.2 hr0.2) hblp.le]
  · have h2 : 1 ≤ B / q := (one_le_div hq).2 (not_lt.1 hb)
    rw [min_eq_right h2, min_eq_right (not_lt.1 hb)]
    simp only [oneStageRate, if_neg hb, sub_self, mul_zero, sub_zero, pdiv_ok one_ne_zero, bind_ok, div_one, one_mul]
    refine ⟨by congr 2; ring, ?_⟩
    rcases hr0.1.eq_or_lt with h0 | h0
    · rw [← h0]; simpa using hblp
    · have := mul_pos h0 hp
      nlinarith [mul_nonneg (sub_nonneg.2 hr0.2) hq.le, not_lt.1 hb]

theorem hspfLoop_ok {cd : K} (hcd : 0 ≤ cd) (hcd1 : cd < 1) (hc : 0 < P.cap47) (bins : List (K × K))
    (hb : ∀ b ∈ bins, b.1 < 65 ∧ 0 < (testsOf P).q b.1 ∧ 0 < (testsOf P).p b.1) (acc : K × K) :
    hspfLoop cd P bins acc = .ok (acc.1 + CoolTests.total (energy24 cd (testsOf P)) bins, acc.2 + CoolTests.total (load24 P.cap47) bins) := by
  induction bins generalizing acc with
  | nil => simp [hspfLoop, CoolTests.total]
  | cons b l ih =>
    obtain ⟨h1, h2, h3⟩ := hb b (by simp)
    obtain ⟨h4, -⟩ := hspfBin_ok (P := P) (n := b.2) hcd hcd1 hc h1 h2 h3
    simp only [hspfLoop, h4, bind_ok]
    rw [ih (fun x hx => hb x (by simp [hx]))]
    simp only [CoolTests.total, List.map_cons, List.sum_cons]
    congr 2 <;> ring

theorem total_pos {f : K → K} {bins : List (K × K)} (hne : bins ≠ []) (h : ∀ b ∈ bins, 0 < f b.1 ∧ 0 < b.2) : 0 < CoolTests.total f bins := by
  induction bins with
  | nil => exact absurd rfl hne
  | cons b l ih =>
    have hb := h b (by simp)
    simp only [CoolTests.total, List.map_cons, List.sum_cons]
    have h1 : 0 < f b.1 * b.2 := mul_pos hb.1 hb.2
    rcases l.eq_nil_or_concat with rfl | ⟨l', x, rfl⟩
    · simpa using h1
    · have := ih (by simp) (fun c hc => h c (List.mem_cons_of_mem _ hc))
      simp only [CoolTests.total] at this
      linarith

theorem hspfBins_pos : ∀ b ∈ (hspfBins : List (K × K)), b.1 < 65 ∧ 0 < b.2 := by
  simp only [hspfBins, List.forall_mem_cons, List.not_mem_nil, false_implies, implies_true, and_true]
  norm_num

/-- C76: the built-in rating is the seasonal load over the seasonal energy of the region IV season of the 2017 standard, from the six test results, with cut-out at 0 °F and
cut-in at 5 °F; it is always defined and positive for positive capacities and inputs. -/
theorem C76_closed_form (hcd : 0 ≤ U.cd) (hcd1 : U.cd < 1) (hc : 0 < P.cap47) (hq : ∀ b ∈ (hspfBins : List (K × K)), 0 < (testsOf P).q b.1)
    (hp : ∀ b ∈ (hspfBins : List (K × K)), 0 < (testsOf P).p b.1) :
    hspfOf U P = .ok (CoolTests.total (load24 P.cap47) hspfBins / CoolTests.total (energy24 U.cd (testsOf P)) hspfBins / U.u.btuh) ∧
      0 < CoolTests.total (load24 P.cap47) hspfBins ∧ 0 < CoolTests.total (energy24 U.cd (testsOf P)) hspfBins := by
  have hb : ∀ b ∈ (hspfBins : List (K × K)), b.1 < 65 ∧ 0 < (testsOf P).q b.1 ∧ 0 < (testsOf P).p b.1 :=
    fun b hb => ⟨(hspfBins_pos b hb).1, hq b hb, hp b hb⟩
  have hE : 0 < CoolTests.total (energy24 U.cd (testsOf P)) (hspfBins : List (K × K)) := total_pos (by simp [hspfBins]) fun b hb' =>
    ⟨(hspfBin_ok (n := b.2) hcd hcd1 hc (hb b hb').1 (hb b hb').2.1 (hb b hb').2.2).2, (hspfBins_pos b hb').2⟩
  have hL : 0 < CoolTests.total (load24 P.cap47) (hspfBins : List (K × K)) := total_pos (by simp [hspfBins]) fun b hb' => by
    refine ⟨?_, (hspfBins_pos b hb').2⟩
    unfold load24 heatBuildingLoad
    rw [if_neg (not_le.2 (hb b hb').1)]
    have : 0 < 65 - b.1 := by linarith [(hb b hb').1]
    have h5 : (0 : K) < 65 - 5 := by norm_num
    positivity
  refine ⟨?_, hL, hE⟩
  have hloop := hspfLoop_ok hcd hcd1 hc hspfBins hb (0, 0)
  simp only [zero_add] at hloop
  simp only [hspfOf, hloop, bind_ok, pdiv_ok hE.ne', pure_eq_ok]

theorem region4 : (DX.regional .ahri2017 4 : Py (DX.HeatDist K)) =
    .ok ⟨frF 5, [0.132, 0.111, 0.103, 0.093, 0.100, 0.109, 0.126, 0.087, 0.055, 0.036, 0.026, 0.013, 0.006, 0.002, 0.001, 0, 0, 0], none, none, none⟩ := by
  have h1 : ¬ ((0.132 + (0.111 + (0.103 + (0.093 + (0.100 + (0.109 + (0.126 + (0.087 + (0.055 + (0.036 + (0.026 + (0.013 + (0.006 + (0.002 + 0.001)))))))))))))) < (0.98 : K) ∨
      (1.02 : K) < 0.132 + (0.111 + (0.103 + (0.093 + (0.100 + (0.109 + (0.126 + (0.087 + (0.055 + (0.036 + (0.026 + (0.013 + (0.006 + (0.002 + 0.001)))))))))))))) := by
    norm_num
  simp only [DX.regional, DX.regionData, DX.HeatDist.make, DX.renormalise, List.sum_cons, List.sum_nil, add_zero, if_neg h1, bind_ok, List.length_cons, List.length_nil,
    ne_eq, not_true_eq_false, if_false, pure_eq_ok]

theorem total_region4 (f : K → K) {d : DX.HeatDist K} (hd : DX.regional .ahri2017 4 = .ok d) :
    CoolTests.total f (DX.heatingTemperatures.zip d.hours) = CoolTests.total (fun t => f (frF t)) hspfBins := by
  rw [region4] at hd
  obtain rfl := Except.ok.inj hd
  simp only [DX.heatingTemperatures, show List.range 18 = [0, 1, 2, 3, 4, 5, 6, 7, 8, 9, 10, 11, 12, 13, 14, 15, 16, 17] from rfl, List.map_cons, List.map_nil,
    List.zip_cons_cons, List.zip_nil_right, CoolTests.total, hspfBins, List.sum_cons, List.sum_nil, mul_zero, add_zero, Nat.cast_ofNat, Nat.cast_zero, Nat.cast_one, zero_mul,
    one_mul, sub_zero]
  norm_num

/-- C76: the built-in rating is the rating of the unit itself (`DXUnit.hspf`, single stage, 2017 standard, region IV, no demand-defrost credit) whenever the unit has these test
results and degradation coefficient, a cut-out of 0 °F and a cut-in of 5 °F, and its rated capacity is its own standard design heating requirement. -/
theorem C76_agrees {C : Type} {V : DX.Performance C K} {Q : DX.Points C} (hm : DX.HeatMatch V Q (testsOf P)) {s : DX.HeatSettings K} {d : DX.HeatDist K}
    (hs : s.st = .single) (hoff : s.off = frF 0) (hon : s.on = some (frF 5)) (hscd : s.cd = U.cd) (hd : DX.regional .ahri2017 4 = .ok d)
    (hn : Util.findNearest (DX.designRequirements U.u) P.cap47 = .ok P.cap47) (hcd : 0 ≤ U.cd) (hcd1 : U.cd < 1) (hc : 0 < P.cap47)
    (hq : ∀ b ∈ (hspfBins : List (K × K)), 0 < (testsOf P).q b.1) (hp : ∀ b ∈ (hspfBins : List (K × K)), 0 < (testsOf P).p b.1)
    (hp' : ∀ t ∈ (DX.heatingTemperatures : List K), (testsOf P).p (toF t) ≠ 0) :
    DX.hspfWith V Q U.u .ahri2017 s d (.ok 1) = hspfOf U P := by
  obtain ⟨h1, hL, hE⟩ := C76_closed_form (U := U) (P := P) hcd hcd1 hc hq hp
  have hdes : d.design = frF 5 := by rw [region4] at hd; obtain rfl := Except.ok.inj hd; rfl
  obtain ⟨L, hl1, hl2⟩ := DX.C50_load_2017 (U := V) (P := Q) (u := U.u) (st := s.st) (design := 5) (q := P.cap47) (dhr := P.cap47) (d := d) hm.q1 hdes (by norm_num)
    (by rw [show P.cap47 * (65 - 5) / 60 = P.cap47 by ring]; exact hn) hc.le
  have hrun : ∀ t c : K, runFraction s.off (frF 5) (frF t) c = runFraction 0 5 t c := fun t c => by
    unfold runFraction
    rw [hoff]
    simp only [frF_le, frF_lt]
  have hEl : ∀ f g : K → K, CoolTests.total f (DX.heatingTemperatures.zip d.hours) + CoolTests.total g (DX.heatingTemperatures.zip d.hours) =
      CoolTests.total (fun t => f (frF t) + g (frF t)) hspfBins := fun f g => by
    rw [total_region4 f hd, total_region4 g hd]
    simp only [CoolTests.total, ← List.sum_map_add]
    congr 1
    exact List.map_congr_left fun b _ => by ring
  have hen : CoolTests.total (fun t => runFraction s.off (frF 5) t ((testsOf P).q (toF t) / (testsOf P).p (toF t)) *
        oneStageRate s.cd ((testsOf P).q (toF t)) ((testsOf P).p (toF t)) (heatBuildingLoad 65 5 (77 / 100 * P.cap47) (toF t))) (DX.heatingTemperatures.zip d.hours) +
      CoolTests.total (fun t => heatBuildingLoad 65 5 (77 / 100 * P.cap47) (toF t) - runFraction s.off (frF 5) t ((testsOf P).q (toF t) / (testsOf P).p (toF t)) *
        min (heatBuildingLoad 65 5 (77 / 100 * P.cap47) (toF t)) ((testsOf P).q (toF t))) (DX.heatingTemperatures.zip d.hours) =
      CoolTests.total (energy24 U.cd (testsOf P)) hspfBins := by
    rw [hEl]
    simp only [toF_frF, hrun, hscd]
    rfl
  have hmain := DX.C50_single_hspf hm (u := U.u) (std := .ahri2017) (s := s) (d := d) (f := 1) (on := frF 5) hs hon (by rw [hscd]; exact hcd) (by rw [hscd]; exact hcd1) hp'
    (fun t => heatBuildingLoad 65 5 (77 / 100 * P.cap47) (toF t)) _ _ _ hl1 (fun t => by conv_lhs => rw [← frF_toF t, hl2]) (fun t => rfl) (fun t => rfl) (fun t => rfl)
    (by rw [hen]; exact hE.ne')
  rw [hmain, h1, hen, total_region4 _ hd, mul_one]
  simp only [toF_frF]
  rfl

/-- The hypotheses are met by a heat pump whose capacity and input fall linearly. -/
example : ∀ b ∈ (hspfBins : List (ℚ × ℚ)), 0 < (testsOf ⟨10000, 7000, 6000, 3000, 2800, 2400⟩).q b.1 ∧ 0 < (testsOf ⟨10000, 7000, 6000, 3000, 2800, 2400⟩ : HeatTests ℚ).p b.1 := by
  decide +kernel
example : Resdx.DX.okTest (hspfOf (unit24 1) ⟨10000, 7000, 6000, 3000, 2800, 2400⟩) (fun h => decide (7 < h) && decide (h < 9)) = true := by decide +kernel

end C76

/-! ## C77: heating performance passes through the rated points -/

section C77
variable (newton : K → Search K) (U : Unit24 K)

/-- C77: gross steady-state capacity plus fan power is the line through the capacities at 17 and 47 °F; gross integrated capacity plus fan power follows the line through 17 and
35 °F while the unit defrosts between 17 and 45 °F and the steady-state line otherwise. Holds after any history of calls. -/
theorem C77_capacity (history : List (Query K)) (c : Conditions K) {cap47 cap35 cap17 fan : K} (h47 : U.sys.netHeating[c.flow.compressorSpeed]? = some cap47)
    (h17 : (getCap17 U c.flow.compressorSpeed (after newton U history fresh)).1 = .ok cap17)
    (h35 : (getCap35 U c.flow.compressorSpeed (after newton U history fresh)).1 = .ok cap35)
    (hf : U.heatingFanPower[c.flow.compressorSpeed]? = some (some fan)) :
    ∃ q r, (grossSteadyCapacity U c (after newton U history fresh)).1 = .ok q ∧ (grossIntegratedCapacity U c (after newton U history fresh)).1 = .ok r ∧
      q + fan = lineAt 17 cap17 47 cap47 (toF c.outdoor.db) ∧
      r + fan = (if U.sys.defrost.inDefrost c.outdoor.db = true ∧ 17 < toF c.outdoor.db ∧ toF c.outdoor.db < 45 then lineAt 17 cap17 35 cap35 (toF c.outdoor.db)
        else lineAt 17 cap17 47 cap47 (toF c.outdoor.db)) := by
  obtain ⟨hinv, -⟩ := after_ok newton U history
  set d := after newton U history fresh
  have e47 : pyGet U.sys.netHeating c.flow.compressorSpeed = .ok cap47 := by simp [pyGet, h47]
  have ef : Sys.at_ U.heatingFanPower c.flow.compressorSpeed = .ok fan := by simp [Sys.at_, pyGet, hf, bind_ok, pyNum]
  rcases h1 : getCap17 U c.flow.compressorSpeed d with ⟨x, d1⟩
  rw [h1] at h17
  simp only at h17
  subst h17
  have hinv1 : Inv U d1 := by have := getCap17_inv U c.flow.compressorSpeed hinv; rwa [h1] at this
  have h2 := (getCap35_run U c.flow.compressorSpeed hinv1).1
  rw [← (getCap35_run U c.flow.compressorSpeed hinv).1, h35] at h2
  rcases h3 : getCap35 U c.flow.compressorSpeed d1 with ⟨y, d2⟩
  rw [h3] at h2
  simp only at h2
  subst h2
  refine ⟨_, _, by simp only [grossSteadyCapacity, PyM.bind_run, PyM.lift_run, e47, h1, ef, PyM.pure_run]; rfl,
    by simp only [grossIntegratedCapacity, PyM.bind_run, PyM.lift_run, e47, h1, h3, ef, PyM.pure_run]; rfl, ?_, ?_⟩
  · unfold lineAt; ring
  · unfold frostSlope lineAt
    split_ifs <;> ring

/-- C77: at 47 °F the net capacity is the rated one, at 17 °F the capacity at 17 °F (steady-state and integrated), and at 35 °F while defrosting the capacity at 35 °F. -/
theorem C77_rated_points (history : List (Query K)) (c : Conditions K) {cap47 cap35 cap17 fan q r : K}
    (h47 : U.sys.netHeating[c.flow.compressorSpeed]? = some cap47) (h17 : (getCap17 U c.flow.compressorSpeed (after newton U history fresh)).1 = .ok cap17)
    (h35 : (getCap35 U c.flow.compressorSpeed (after newton U history fresh)).1 = .ok cap35) (hf : U.heatingFanPower[c.flow.compressorSpeed]? = some (some fan))
    (hq : (grossSteadyCapacity U c (after newton U history fresh)).1 = .ok q) (hr : (grossIntegratedCapacity U c (after newton U history fresh)).1 = .ok r) :
    (c.outdoor.db = frF 47 → q + fan = cap47 ∧ r + fan = cap47) ∧ (c.outdoor.db = frF 17 → q + fan = cap17 ∧ r + fan = cap17) ∧
      (c.outdoor.db = frF 35 → U.sys.defrost.inDefrost (frF 35) = true → r + fan = cap35) := by
  obtain ⟨q', r', e1, e2, e3, e4⟩ := C77_capacity newton U history c h47 h17 h35 hf
  rw [hq] at e1
  rw [hr] at e2
  obtain rfl := Except.ok.inj e1
  obtain rfl := Except.ok.inj e2
  refine ⟨fun h => ?_, fun h => ?_, fun h hd => ?_⟩
  · rw [h, toF_frF] at e3 e4
    rw [if_neg (by rintro ⟨-, -, h'⟩; norm_num at h')] at e4
    rw [e3, e4]; unfold lineAt; norm_num
  · rw [h, toF_frF] at e3 e4
    rw [if_neg (by rintro ⟨-, h', -⟩; norm_num at h')] at e4
    rw [e3, e4]; unfold lineAt; norm_num
  · rw [h, toF_frF, if_pos ⟨hd, by norm_num, by norm_num⟩] at e4
    rw [e4]; unfold lineAt; norm_num

/-- C77: with the default capacity at 35 °F the integrated capacity never exceeds the steady-state capacity, for a unit whose capacity at 17 °F is not negative and not above
the rated one: frost costs capacity at every temperature. -/
theorem C77_frost_costs (history : List (Query K)) (c : Conditions K) (hi : c.flow.compressorSpeed < U.nHeating) {cap47 cap17 fan q r : K} (hk : U.cap35 = none)
    (h47 : U.sys.netHeating[c.flow.compressorSpeed]? = some cap47) (h17 : (getCap17 U c.flow.compressorSpeed (after newton U history fresh)).1 = .ok cap17)
    (h0 : 0 ≤ cap17) (hle : cap17 ≤ cap47) (hf : U.heatingFanPower[c.flow.compressorSpeed]? = some (some fan))
    (hq : (grossSteadyCapacity U c (after newton U history fresh)).1 = .ok q) (hr : (grossIntegratedCapacity U c (after newton U history fresh)).1 = .ok r) : r ≤ q := by
  have h35 := (C59_capacities newton U history hi h47).2.2.1 hk cap17 h17
  obtain ⟨q', r', e1, e2, e3, e4⟩ := C77_capacity newton U history c h47 h17 h35 hf
  rw [hq] at e1
  rw [hr] at e2
  obtain rfl := Except.ok.inj e1
  obtain rfl := Except.ok.inj e2
  have : r + fan ≤ q + fan := by
    rw [e3, e4]
    split_ifs with hc hs
    · unfold lineAt; norm_num; apply le_of_eq; ring
    · unfold lineAt
      have h1 : 0 ≤ toF c.outdoor.db - 17 := by linarith [hc.2.1]
      have h2 : 9 / 10 * (cap17 + (cap47 - cap17) * ((35 - 17) / (47 - 17))) - cap17 ≤ (cap47 - cap17) * ((35 - 17) / (47 - 17)) := by
        norm_num; linarith
      have h3 := mul_le_mul_of_nonneg_right h2 (div_nonneg h1 (by norm_num : (0 : K) ≤ 35 - 17))
      have h4 : (cap47 - cap17) * ((35 - 17) / (47 - 17)) * ((toF c.outdoor.db - 17) / (35 - 17)) = (cap47 - cap17) * ((toF c.outdoor.db - 17) / (47 - 17)) := by
        norm_num; ring
      linarith
    · exact le_rfl
  linarith

/-- C77: gross steady-state power plus fan power is the line through the inputs at 17 and 47 °F, once the COP at 17 °F of that speed is known. -/
theorem C77_power (history : List (Query K)) (c : Conditions K) {cap47 cop47 cap17 cop17 fan : K} (h47 : U.sys.netHeating[c.flow.compressorSpeed]? = some cap47)
    (hc47 : U.netHeatingCop[c.flow.compressorSpeed]? = some (some cop47)) (hn47 : cop47 ≠ 0)
    (h17 : (getCap17 U c.flow.compressorSpeed (after newton U history fresh)).1 = .ok cap17)
    (hknown : ∃ l, after newton U history fresh .cop17 = some l ∧ l[c.flow.compressorSpeed]? = some (some cop17)) (hn17 : cop17 ≠ 0)
    (hf : U.heatingFanPower[c.flow.compressorSpeed]? = some (some fan)) :
    ∃ p, (grossSteadyPower newton U c (after newton U history fresh)).1 = .ok p ∧ p + fan = lineAt 17 (cap17 / cop17) 47 (cap47 / cop47) (toF c.outdoor.db) := by
  set d := after newton U history fresh
  have e47 : pyGet U.sys.netHeating c.flow.compressorSpeed = .ok cap47 := by simp [pyGet, h47]
  have ec : Sys.at_ U.netHeatingCop c.flow.compressorSpeed = .ok cop47 := by simp [Sys.at_, pyGet, hc47, bind_ok, pyNum]
  have ef : Sys.at_ U.heatingFanPower c.flow.compressorSpeed = .ok fan := by simp [Sys.at_, pyGet, hf, bind_ok, pyNum]
  have ho := getCap17_other U c.flow.compressorSpeed d (k := .cop17) (by decide)
  rcases h1 : getCap17 U c.flow.compressorSpeed d with ⟨x, d1⟩
  rw [h1] at h17 ho
  simp only at h17 ho
  subst h17
  obtain ⟨l, hl, hlx⟩ := hknown
  have hg : getCop newton U .cop17 c.flow.compressorSpeed d1 = (.ok (some cop17), d1) := by
    rw [getCop_some (ho.trans hl)]; simp [pyGet, hlx]
  refine ⟨_, by simp only [grossSteadyPower, PyM.bind_run, PyM.lift_run, e47, h1, ec, hg, pdiv_ok hn47, pyNum, bind_ok, pdiv_ok hn17, ef, PyM.pure_run]; rfl, ?_⟩
  unfold lineAt; ring

/-- C77: gross integrated power plus fan power follows the line through the inputs at 17 and 35 °F while the unit defrosts between 17 and 45 °F and the line through 17 and
47 °F otherwise, once the COPs of that speed are known. -/
theorem C77_integrated_power (history : List (Query K)) (c : Conditions K) {cap47 cop47 cap35 cop35 cap17 cop17 fan : K}
    (h47 : U.sys.netHeating[c.flow.compressorSpeed]? = some cap47) (hc47 : U.netHeatingCop[c.flow.compressorSpeed]? = some (some cop47)) (hn47 : cop47 ≠ 0)
    (h17 : (getCap17 U c.flow.compressorSpeed (after newton U history fresh)).1 = .ok cap17)
    (h35 : (getCap35 U c.flow.compressorSpeed (after newton U history fresh)).1 = .ok cap35)
    (hk17 : ∃ l, after newton U history fresh .cop17 = some l ∧ l[c.flow.compressorSpeed]? = some (some cop17)) (hn17 : cop17 ≠ 0)
    (hk35 : ∃ l, after newton U history fresh .cop35 = some l ∧ l[c.flow.compressorSpeed]? = some (some cop35)) (hn35 : cop35 ≠ 0)
    (hf : U.heatingFanPower[c.flow.compressorSpeed]? = some (some fan)) :
    ∃ p, (grossIntegratedPower newton U c (after newton U history fresh)).1 = .ok p ∧
      p + fan = (if U.sys.defrost.inDefrost c.outdoor.db = true ∧ 17 < toF c.outdoor.db ∧ toF c.outdoor.db < 45 then
          lineAt 17 (cap17 / cop17) 35 (cap35 / cop35) (toF c.outdoor.db)
        else lineAt 17 (cap17 / cop17) 47 (cap47 / cop47) (toF c.outdoor.db)) := by
  obtain ⟨hinv, -⟩ := after_ok newton U history
  set d := after newton U history fresh
  have e47 : pyGet U.sys.netHeating c.flow.compressorSpeed = .ok cap47 := by simp [pyGet, h47]
  have ec : Sys.at_ U.netHeatingCop c.flow.compressorSpeed = .ok cop47 := by simp [Sys.at_, pyGet, hc47, bind_ok, pyNum]
  have ef : Sys.at_ U.heatingFanPower c.flow.compressorSpeed = .ok fan := by simp [Sys.at_, pyGet, hf, bind_ok, pyNum]
  have o1 := getCap35_other U c.flow.compressorSpeed d (k := .cop17) (by decide) (by decide)
  have o2 := getCap35_other U c.flow.compressorSpeed d (k := .cop35) (by decide) (by decide)
  have hinv1 := (getCap35_run U c.flow.compressorSpeed hinv).2
  rcases h1 : getCap35 U c.flow.compressorSpeed d with ⟨x, d1⟩
  rw [h1] at h35 o1 o2 hinv1
  simp only at h35 o1 o2 hinv1
  subst h35
  have h2 := (getCap17_run U c.flow.compressorSpeed hinv1.1).1
  rw [← (getCap17_run U c.flow.compressorSpeed hinv.1).1, h17] at h2
  have o3 := getCap17_other U c.flow.compressorSpeed d1 (k := .cop17) (by decide)
  have o4 := getCap17_other U c.flow.compressorSpeed d1 (k := .cop35) (by decide)
  rcases h3 : getCap17 U c.flow.compressorSpeed d1 with ⟨y, d2⟩
  rw [h3] at h2 o3 o4
  simp only at h2 o3 o4
  subst h2
  obtain ⟨l, hl, hlx⟩ := hk17
  obtain ⟨l', hl', hlx'⟩ := hk35
  have g17 : getCop newton U .cop17 c.flow.compressorSpeed d2 = (.ok (some cop17), d2) := by
    rw [getCop_some (o3.trans (o1.trans hl))]; simp [pyGet, hlx]
  have g35 : getCop newton U .cop35 c.flow.compressorSpeed d2 = (.ok (some cop35), d2) := by
    rw [getCop_some (o4.trans (o2.trans hl'))]; simp [pyGet, hlx']
  refine ⟨_, by simp only [grossIntegratedPower, PyM.bind_run, PyM.lift_run, e47, h1, h3, ec, g35, g17, pdiv_ok hn47, pyNum, bind_ok, pdiv_ok hn35, pdiv_ok hn17, ef, PyM.pure_run]; rfl, ?_⟩
  unfold frostSlope lineAt
  split_ifs <;> ring

/-- A unit meeting the hypotheses: rated 10 kW at 47 °F, 6164 W at 17 °F. -/
example : (getCap17 (unit24 2) 1 fresh).1 = .ok 6164 ∧ (unit24 2).sys.netHeating[1]? = some 10000 ∧ (unit24 2).heatingFanPower[1]? = some (some 400) := by
  refine ⟨?_, rfl, rfl⟩
  decide +kernel

end C77

/-! ## C78: sensible cooling -/

section C78
variable (U : Unit24 K) (c : Conditions K)

/-- C78: the sensible heat ratio never exceeds one, and the sensible capacity never exceeds the total capacity. -/
theorem C78_sensible {s q t : K} (hs : grossShr U c = .ok s) (hq : grossSensible U c = .ok q) (ht : systemTotal U c = .ok t) :
    s ≤ 1 ∧ q = s * t ∧ 0 ≤ t ∧ q ≤ t := by
  have h1 : s ≤ 1 := by
    unfold grossShr shrAt at hs
    simp only [bind_eq_ok, pure_eq_ok] at hs
    obtain ⟨p, -, x, -, hx⟩ := hs
    rw [← Except.ok.inj hx]; exact min_le_left _ _
  have h2 : 0 ≤ t := by
    unfold systemTotal Util.limitCheck at ht
    simp only [bind_eq_ok] at ht
    obtain ⟨x, -, hx⟩ := ht
    split at hx
    · simp at hx
    · rename_i hn
      rw [← Except.ok.inj hx]; exact not_lt.1 hn
  have h3 : q = s * t := by
    unfold grossSensible at hq
    simp only [hs, ht, bind_ok, pure_eq_ok] at hq
    exact (Except.ok.inj hq).symm
  exact ⟨h1, h3, h2, by rw [h3]; nlinarith⟩

/-- C78: the sensible heat ratio is positive in ordinary operation: indoor wet bulb not above the dry bulb and at most 99 °F, outdoor air at 7 °F or more, positive airflow. -/
theorem C78_positive {p : Point K} {s : K} (hs : shrAt p = .ok s) (hw : p.ewb ≤ p.edb) (hw99 : p.ewb ≤ 99) (ho : 7 ≤ p.odb) (hv : 0 < p.v) : 0 < s := by
  unfold shrAt Point.regress caRegression shrCoeffs at hs
  simp only [pdiv_ok hv.ne', bind_ok, pure_eq_ok, zero_div, zero_mul, add_zero] at hs
  rw [← Except.ok.inj hs]
  refine lt_min one_pos ?_
  have h1 : 0 ≤ p.v * (99 - p.ewb) := mul_nonneg hv.le (by linarith)
  have h2 : 0 ≤ (p.ewb - 866 / 10) ^ 2 := sq_nonneg _
  norm_num
  nlinarith

/-- Rated indoor and outdoor conditions at 400 cfm/ton. -/
example : shrAt (⟨67, 95, 80, 400⟩ : Point ℚ) = .ok (min 1 (0.0242020 * 80 - 0.0592153 * 67 + 0.0012651 * 95 + 0.0016375 * 400 - 0.0000165 * 67 * 400 + 0.0002021 * 67 * 67 + 1.5085285)) := by
  decide +kernel

end C78

/-! ## C79: cooling power -/

section C79

/-- Capacity relative to the rated one: a wet and a dry coil. -/
def capRatio24 (p : Point K) (wet : Prop) [Decidable wet] : K :=
  if wet then 0.0096459 * p.ewb + 0.0025369 * p.odb + 0.0001715 * p.v - 0.0000959 * (p.ewb * p.odb) + 0.00000818 * (p.ewb * p.v) - 0.00000755 * (p.odb * p.v)
    + 0.0001057 * p.ewb ^ 2 - 53.5423 / p.v + 0.38156715
  else 0.0094831 * p.edb - 0.0006006 * p.odb - 0.0001489 * p.v - 0.0000326 * (p.edb * p.odb) + 0.0000119 * (p.edb * p.v) - 0.00000505 * (p.odb * p.v)
    - 52.56174 / p.v + 0.4307516

/-- Input per unit of capacity relative to the rated one, up to the constant: a wet and a dry coil. -/
def inputRatio24 (p : Point K) (wet : Prop) [Decidable wet] (cWet cDry : K) : K :=
  if wet then -0.0202256 * p.ewb + 0.0236703 * p.odb - 0.0006638 * p.v - 0.0001841 * (p.ewb * p.odb) + 0.0000214 * (p.ewb * p.v) - 0.00000812 * (p.odb * p.v)
    + 0.0002971 * p.ewb ^ 2 - 27.95672 / p.v + cWet
  else 0.0046103 * p.edb + 0.0125598 * p.odb - 0.000512 * p.v - 0.0000357 * (p.edb * p.odb) + 0.0000105 * (p.edb * p.v) + cDry

theorem capFactor_ok {p : Point K} {shr : K} (hv : p.v ≠ 0) : capFactor p shr = .ok (capRatio24 p (shr < 1)) := by
  unfold capFactor Point.regress capRatio24
  split_ifs
  · simp only [wetCap, caRegression, pdiv_ok hv, bind_ok, pure_eq_ok]
    congr 1; ring
  · simp only [dryCap, caRegression, pdiv_ok hv, bind_ok, pure_eq_ok]
    congr 1; ring

theorem seerRegress_ok {p : Point K} {shr : K} (hv : p.v ≠ 0) :
    p.regress (if shr < 1 then wetSeer else drySeer) = .ok (inputRatio24 p (shr < 1) 0.209951063 (-0.316172311)) := by
  unfold Point.regress inputRatio24
  split_ifs
  · simp only [wetSeer, caRegression, pdiv_ok hv, bind_ok, pure_eq_ok]
    congr 1; ring
  · simp only [drySeer, caRegression, pdiv_ok hv, bind_ok, pure_eq_ok]
    congr 1; ring

theorem eerRegress_ok {p : Point K} {shr : K} (hv : p.v ≠ 0) :
    p.regress (if shr < 1 then wetEer else dryEer) = .ok (inputRatio24 p (shr < 1) 0.0150031 (-0.4753065)) := by
  unfold Point.regress inputRatio24
  split_ifs
  · simp only [wetEer, caRegression, pdiv_ok hv, bind_ok, pure_eq_ok]
    congr 1; ring
  · simp only [dryEer, caRegression, pdiv_ok hv, bind_ok, pure_eq_ok]
    congr 1; ring

variable (U : Unit24 K) (c : Conditions K)

/-- Gross efficiency in mild weather, from the seasonal rating. -/
def mild24 (p : Point K) (shr cap95 fan seer : K) : K :=
  capRatio24 p (shr < 1) / inputRatio24 p (shr < 1) 0.209951063 (-0.316172311) * (1.09 * cap95 + fan) / (1.09 * cap95 / seer - fan)
/-- Gross efficiency in hot weather, from the rated COP. -/
def hot24 (p : Point K) (shr cap95 fan cop gross : K) : K :=
  gross / (inputRatio24 p (shr < 1) 0.0150031 (-0.4753065) * (cap95 / cop - fan / 3.413))

/-- C79: gross cooling power is the gross capacity over the efficiency: the one derived from the seasonal rating up to 82 °F, the one derived from the rated COP from 95 °F, and
the line between them in between (so no jump at either end); an efficiency multiplier divides the power. -/
theorem C79_power {p : Point K} {shr cap95 fan seer cop gross total : K} (hp : pointOf U c = .ok p) (hs : shrAt p = .ok shr)
    (h95 : U.sys.netCooling[c.flow.compressorSpeed]? = some cap95) (hfan : U.coolingFanPower[c.flow.compressorSpeed]? = some (some fan))
    (hseer : U.inputSeer = some seer) (hcop : U.netCoolingCop[c.flow.compressorSpeed]? = some (some cop))
    (hg : U.sys.grossCooling[c.flow.compressorSpeed]? = some (some gross)) (ht : systemTotal U c = .ok total)
    (hv : p.v ≠ 0) (n1 : inputRatio24 p (shr < 1) 0.209951063 (-0.316172311) ≠ 0) (n2 : seer * U.u.btuh ≠ 0)
    (n3 : 1.09 * cap95 / (seer * U.u.btuh) - fan ≠ 0) (n4 : cop ≠ 0) (n5 : inputRatio24 p (shr < 1) 0.0150031 (-0.4753065) * (cap95 / cop - fan / 3.413) ≠ 0)
    {e : K} (he : e = if p.odb ≤ 82 then mild24 p shr cap95 fan (seer * U.u.btuh) else if p.odb < 95 then
      lineAt 82 (mild24 p shr cap95 fan (seer * U.u.btuh)) 95 (hot24 p shr cap95 fan cop gross) p.odb else hot24 p shr cap95 fan cop gross)
    (ne : e * U.multiplier.getD 1 ≠ 0) : grossCoolingPower U c = .ok (total / (e * U.multiplier.getD 1)) := by
  have e95 : pyGet U.sys.netCooling c.flow.compressorSpeed = .ok cap95 := by simp [pyGet, h95]
  have efan : Sys.at_ U.coolingFanPower c.flow.compressorSpeed = .ok fan := by simp [Sys.at_, pyGet, hfan, bind_ok, pyNum]
  have ecop : Sys.at_ U.netCoolingCop c.flow.compressorSpeed = .ok cop := by simp [Sys.at_, pyGet, hcop, bind_ok, pyNum]
  have eg : Sys.at_ U.sys.grossCooling c.flow.compressorSpeed = .ok gross := by simp [Sys.at_, pyGet, hg, bind_ok, pyNum]
  have es : seerNf U p shr cap95 fan = .ok (mild24 p shr cap95 fan (seer * U.u.btuh)) := by
    unfold seerNf mild24
    simp only [hseer, pyNum, bind_ok, capFactor_ok hv, seerRegress_ok hv, pdiv_ok n1, pdiv_ok n2, pdiv_ok n3]
  have ee : eerNf U p shr cap95 fan c.flow.compressorSpeed = .ok (hot24 p shr cap95 fan cop gross) := by
    unfold eerNf hot24
    simp only [ecop, eg, bind_ok, eerRegress_ok hv, pdiv_ok n4, pdiv_ok n5]
  have ea : eerAt U p shr cap95 fan c.flow.compressorSpeed = .ok e := by
    unfold eerAt
    rw [es, ee, he]
    by_cases h1 : p.odb ≤ 82
    · have h2 : p.odb < 95 := by linarith
      simp only [h1, h2, not_lt.2 h1, if_true, if_false, bind_ok, pure_eq_ok]
    · by_cases h2 : p.odb < 95
      · simp only [h1, h2, not_le.1 h1, if_true, if_false, bind_ok, pure_eq_ok]
        congr 1; unfold lineAt; norm_num; ring
      · simp only [h1, h2, not_le.1 h1, if_true, if_false, bind_ok, pure_eq_ok]
  unfold grossCoolingPower
  simp only [hp, hs, e95, efan, ea, ht, bind_ok, pdiv_ok ne]

/-- The conditions hold for a 10 kW unit of SEER 14 and COP 3.5 with a 400 W fan on an 88 °F day. -/
example : let p : Point ℚ := ⟨67, 88, 80, 400⟩
    inputRatio24 p True 0.209951063 (-0.316172311) ≠ 0 ∧ 1.09 * 10000 / (14 * 0.29307107) - 400 ≠ (0 : ℚ) ∧
      inputRatio24 p True 0.0150031 (-0.4753065) * (10000 / 3.5 - 400 / 3.413) ≠ 0 ∧
      0 < lineAt 82 (mild24 p (7 / 10) 10000 400 (14 * 0.29307107)) 95 (hot24 p (7 / 10) 10000 400 3.5 10400) p.odb := by decide +kernel

/-- C79 (what holds of "the rated COP is reproduced"): from 95 °F the power is the capacity ratio times the input ratio times the rated input, from which only
1/3.413 of the fan power has been taken. -/
theorem C79_rated_partial {p : Point K} {shr cap95 fan seer cop gross : K} (hp : pointOf U c = .ok p) (hs : shrAt p = .ok shr)
    (h95 : U.sys.netCooling[c.flow.compressorSpeed]? = some cap95) (hfan : U.coolingFanPower[c.flow.compressorSpeed]? = some (some fan))
    (hcop : U.netCoolingCop[c.flow.compressorSpeed]? = some (some cop)) (hg : U.sys.grossCooling[c.flow.compressorSpeed]? = some (some gross))
    (hv : p.v ≠ 0) (hm : U.multiplier = none) (ho : 95 ≤ p.odb) (hpos : 0 ≤ capRatio24 p (shr < 1) * gross) (hgross : gross ≠ 0) (n4 : cop ≠ 0)
    (n5 : inputRatio24 p (shr < 1) 0.0150031 (-0.4753065) * (cap95 / cop - fan / 3.413) ≠ 0) :
    grossCoolingPower U c = .ok (capRatio24 p (shr < 1) * (inputRatio24 p (shr < 1) 0.0150031 (-0.4753065) * (cap95 / cop - fan / 3.413))) := by
  have e95 : pyGet U.sys.netCooling c.flow.compressorSpeed = .ok cap95 := by simp [pyGet, h95]
  have efan : Sys.at_ U.coolingFanPower c.flow.compressorSpeed = .ok fan := by simp [Sys.at_, pyGet, hfan, bind_ok, pyNum]
  have ecop : Sys.at_ U.netCoolingCop c.flow.compressorSpeed = .ok cop := by simp [Sys.at_, pyGet, hcop, bind_ok, pyNum]
  have eg : Sys.at_ U.sys.grossCooling c.flow.compressorSpeed = .ok gross := by simp [Sys.at_, pyGet, hg, bind_ok, pyNum]
  have ht : systemTotal U c = .ok (capRatio24 p (shr < 1) * gross) := by
    unfold systemTotal grossTotal Util.limitCheck
    simp only [hp, hs, capFactor_ok hv, eg, bind_ok, pure_eq_ok, mul_one, not_lt.2 hpos, if_false]
  have ee : eerNf U p shr cap95 fan c.flow.compressorSpeed = .ok (hot24 p shr cap95 fan cop gross) := by
    unfold eerNf hot24
    simp only [ecop, eg, bind_ok, eerRegress_ok hv, pdiv_ok n4, pdiv_ok n5]
  have ea : eerAt U p shr cap95 fan c.flow.compressorSpeed = .ok (hot24 p shr cap95 fan cop gross) := by
    unfold eerAt
    have h1 : ¬ p.odb ≤ 82 := by linarith
    have h2 : 82 < p.odb := by linarith
    simp only [ee, h1, h2, not_lt.2 ho, if_true, if_false, bind_ok, pure_eq_ok]
  unfold grossCoolingPower
  simp only [hp, hs, e95, efan, ea, ht, bind_ok, hm, Option.getD_none, mul_one]
  unfold hot24
  generalize inputRatio24 p (shr < 1) 0.0150031 (-0.4753065) * (cap95 / cop - fan / 3.413) = x at *
  rw [pdiv_ok (div_ne_zero hgross n5)]
  congr 1
  field_simp

/-- C79: so even where both regressions are exactly one, the net input exceeds the rated one by the rest of the fan power. -/
theorem C79_excess {p : Point K} {shr cap95 fan cop gross w : K} (hp : pointOf U c = .ok p) (hs : shrAt p = .ok shr)
    (h95 : U.sys.netCooling[c.flow.compressorSpeed]? = some cap95) (hfan : U.coolingFanPower[c.flow.compressorSpeed]? = some (some fan))
    (hcop : U.netCoolingCop[c.flow.compressorSpeed]? = some (some cop)) (hg : U.sys.grossCooling[c.flow.compressorSpeed]? = some (some gross))
    (hv : p.v ≠ 0) (hm : U.multiplier = none) (ho : 95 ≤ p.odb) (hgross : 0 < gross) (n4 : cop ≠ 0) (n5 : cap95 / cop - fan / 3.413 ≠ 0)
    (h1 : capRatio24 p (shr < 1) = 1) (h2 : inputRatio24 p (shr < 1) 0.0150031 (-0.4753065) = 1) (hw : grossCoolingPower U c = .ok w) :
    w + fan = cap95 / cop + fan * (1 - 1 / 3.413) := by
  have h := C79_rated_partial U c (seer := 0) hp hs h95 hfan hcop hg hv hm ho (by rw [h1, one_mul]; exact hgross.le) hgross.ne' n4 (by rw [h2, one_mul]; exact n5)
  rw [hw, h1, h2] at h
  rw [Except.ok.inj h]
  ring

/-- The rating condition A for `unit24`. -/
def cond24 : Conditions ℚ :=
  { heating := false, indoor := wetState 101325 (frF 80) (frF 67), outdoor := wetState 101325 (frF 95) (frF 75), flow := ratedFlow 1.2 1.2 0 (some 0) 125 0.5 10000 }

/-- C79 fails as stated: at the rating condition the net input of a unit rated 10 kW at COP 3.5 (2857 W) comes out more than 8% too high. -/
theorem C79_refuted : ¬ ∀ (U : Unit24 ℚ) (c : Conditions ℚ) (cap95 fan cop w : ℚ), c.indoor.wb = some (frF 67) → c.indoor.db = frF 80 → c.outdoor.db = frF 95 →
    U.sys.netCooling[c.flow.compressorSpeed]? = some cap95 → U.coolingFanPower[c.flow.compressorSpeed]? = some (some fan) →
    U.netCoolingCop[c.flow.compressorSpeed]? = some (some cop) → grossCoolingPower U c = .ok w → |w + fan - cap95 / cop| ≤ 8 / 100 * (cap95 / cop) := by
  intro h
  have hw : Resdx.DX.okTest (grossCoolingPower (unit24 1) cond24) (fun w => decide (8 / 100 * (10000 / 3.5) < |w + 400 - 10000 / 3.5|)) = true := by decide +kernel
  obtain ⟨w, hw, hlt⟩ := Resdx.DX.okTest_iff.1 hw
  exact absurd (h (unit24 1) cond24 10000 400 3.5 w rfl rfl rfl rfl rfl rfl hw) (not_le.2 (of_decide_eq_true hlt))

end C79

/-! ## C80: the default fan -/

section C80
variable (u : Units K)

/-- C80: the default fan of a single-speed unit moves 350 cfm per ton of net cooling capacity in both modes and uses 500 Btu/h per
ton; fan speed 0 serves cooling and speed 1 heating. -/
theorem C80_single_speed_partial (cap : K) (nH : Nat) (hn : 0 < nH) :
    setFan u 1 nH [cap] false false = .ok
      { airflows := [cap * (350 * u.cfm / u.ton), cap * (350 * u.cfm / u.ton)]
        efficacies := [500 * u.btuh / (350 * u.cfm), 500 * u.btuh / (350 * u.cfm)]
        coolingAirflow := [some (cap * (350 * u.cfm / u.ton))], heatingAirflow := some (cap * (350 * u.cfm / u.ton)) :: List.replicate (nH - 1) none
        coolingFanPower := [some (cap * (500 * u.btuh / u.ton))], heatingFanPower := some (cap * (500 * u.btuh / u.ton)) :: List.replicate (nH - 1) none
        coolingFanSpeed := [0], heatingFanSpeed := [1] } := by
  obtain ⟨n, rfl⟩ : ∃ n, nH = n + 1 := ⟨nH - 1, by omega⟩
  have hc := u.cfm_pos.ne'
  have ht := u.ton_pos.ne'
  have h0 : (350 * u.cfm / u.ton : K) ≠ 0 := div_ne_zero (mul_ne_zero (by norm_num) hc) ht
  have e1 : 500 * u.btuh / u.ton / (350 * u.cfm / u.ton) = 500 * u.btuh / (350 * u.cfm) := by field_simp
  have e2 : cap * (350 * u.cfm / u.ton) * (500 * u.btuh / (350 * u.cfm)) = cap * (500 * u.btuh / u.ton) := by field_simp
  simp only [setFan, fanEfficacyRated, if_true, pdiv_ok h0, bind_ok, fanLoop, pyGet, BaseModel.pySet, e1, e2, List.replicate, pure_eq_ok]
  simp [bind_ok, pure_eq_ok, List.replicate_succ]
  exact e2

/-- C80 fails for more than one speed: the default airflow table has a single entry. -/
theorem C80_multi_speed_refuted (nC nH : Nat) (hC : 0 < nC) (a b : K) (caps : List K) : setFan u nC nH (a :: b :: caps) false false = .error .index := by
  obtain ⟨n, rfl⟩ : ∃ n, nC = n + 1 := ⟨nC - 1, by omega⟩
  have h0 : (350 * u.cfm / u.ton : K) ≠ 0 := div_ne_zero (mul_ne_zero (by norm_num) u.cfm_pos.ne') u.ton_pos.ne'
  simp [setFan, fanEfficacyRated, pdiv_ok h0, bind_ok, bind_error, fanLoop, pyGet, BaseModel.pySet, List.replicate_succ]

/-- C80 fails if the fan speeds of a mode are supplied without a fan. -/
theorem C80_supplied_refuted (nC nH : Nat) (hC : 0 < nC) (cap : K) (sH : Bool) : setFan u nC nH [cap] true sH = .error .unboundLocal := by
  obtain ⟨n, rfl⟩ : ∃ n, nC = n + 1 := ⟨nC - 1, by omega⟩
  have h0 : (350 * u.cfm / u.ton : K) ≠ 0 := div_ne_zero (mul_ne_zero (by norm_num) u.cfm_pos.ne') u.ton_pos.ne'
  simp [setFan, fanEfficacyRated, pdiv_ok h0, bind_ok, bind_error, fanLoop, pyGet, BaseModel.pySet, List.replicate_succ]

end C80

end Resdx.Title24
