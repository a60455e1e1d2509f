import Verif.Props.Validation

/-!
# C108: the printed information, C109: the plot
-/

set_option linter.unusedSectionVars false
set_option linter.unusedSimpArgs false

namespace Resdx.Props

open Spec DX DX.Performance BaseModel Reports Ratings

variable {K : Type} [Field K] [LinearOrder K]

/-! ## C108: printed information -/

/-- Label and stage of a line still to be printed. -/
def pendingKey (p : Pending K) : String × Option Nat := (p.1, p.2.1)

theorem say_ok {p : Pending K} {x : K} (h : p.2.2.1 = .ok x) (out : List (Line K)) : say p out = (.ok (), out ++ [.value p.1 p.2.1 x p.2.2.2.1 p.2.2.2.2]) := by
  simp only [say, PyM.bind_run, PyM.liftM_run, PyM.lift, h, PyM.modify_run]

theorem say_error {p : Pending K} {e : PyErr} (h : p.2.2.1 = .error e) (out : List (Line K)) : say p out = (.error e, out) := by
  simp only [say, PyM.bind_run, PyM.liftM_run, PyM.lift, h, PyM.modify_run]

theorem sayAll_append (l m : List (Pending K)) (out : List (Line K)) :
    sayAll (l ++ m) out = match sayAll l out with
      | (.ok (), o) => sayAll m o
      | (.error e, o) => (.error e, o) := by
  induction l generalizing out with
  | nil => rfl
  | cons p l ih =>
    simp only [List.cons_append, sayAll, PyM.bind_run]
    cases h : p.2.2.1 with
    | error e => rw [say_error h]
    | ok x => rw [say_ok h]; simp only [ih]

/-- What printing a list of lines does: it prints the lines up to the first whose value raises. -/
theorem sayAll_run (l : List (Pending K)) (value : String × Option Nat → Py K) (hv : ∀ p ∈ l, p.2.2.1 = value (pendingKey p)) (out : List (Line K)) :
    ∃ new, (sayAll l out).2 = out ++ new ∧ (∀ x ∈ new, ∀ lab st v d un, x = .value lab st v d un → value (lab, st) = .ok v) ∧ (∀ x ∈ new, x ≠ .blank) ∧
      (((sayAll l out).1 = .ok () ∧ new.map lineKey = l.map pendingKey) ∨
        ∃ e k, (sayAll l out).1 = .error e ∧ value k = .error e ∧ new.map lineKey ++ [k] <+: l.map pendingKey) := by
  induction l generalizing out with
  | nil => exact ⟨[], by simp [sayAll, PyM.pure_run]⟩
  | cons p l ih =>
    have hp := hv p (by simp)
    cases h : p.2.2.1 with
    | error e =>
      refine ⟨[], by simp only [sayAll, PyM.bind_run, say_error h, List.append_nil], by simp, by simp, Or.inr ⟨e, pendingKey p, by simp only [sayAll, PyM.bind_run, say_error h], by rw [← hp, h], ?_⟩⟩
      simp
    | ok x =>
      obtain ⟨new, e1, e2, e3, e4⟩ := ih (fun q hq => hv q (by simp [hq])) (out ++ [.value p.1 p.2.1 x p.2.2.2.1 p.2.2.2.2])
      have hrun : sayAll (p :: l) out = sayAll l (out ++ [.value p.1 p.2.1 x p.2.2.2.1 p.2.2.2.2]) := by simp only [sayAll, PyM.bind_run, say_ok h]
      refine ⟨.value p.1 p.2.1 x p.2.2.2.1 p.2.2.2.2 :: new, by rw [hrun, e1]; simp, ?_, ?_, ?_⟩
      · intro y hy lab st v d un hl
        rcases List.mem_cons.1 hy with rfl | hy
        · cases hl
          rw [← h, hp]
          rfl
        · exact e2 y hy lab st v d un hl
      · intro y hy
        rcases List.mem_cons.1 hy with rfl | hy
        · simp
        · exact e3 y hy
      · rw [hrun]
        rcases e4 with ⟨a, b⟩ | ⟨e, k, a, b, c⟩
        · exact Or.inl ⟨a, by rw [List.map_cons, List.map_cons, b]; rfl⟩
        · refine Or.inr ⟨e, k, a, b, ?_⟩
          rw [List.map_cons, List.map_cons, List.cons_append]
          exact List.cons_prefix_cons.2 ⟨rfl, c⟩

/-- The lines of a stage with the conditions made anew for each. -/
def staged (X : Subject K) (heating : Bool) (lines : Nat → Conditions K → List (Pending K)) (s : Nat) (k : Nat) (key : String × Option Nat) (d : Nat) (un : String) : Pending K :=
  (key.1, key.2, do
    let c ← X.S.makeCondition X.E heating s
    match (lines s c)[k]? with
    | some p => p.2.2.1
    | none => .error .index, d, un)

theorem sayStages_eq {X : Subject K} {heating : Bool} {lines : Nat → Conditions K → List (Pending K)} {flat : Nat → List (Pending K)}
    (h1 : ∀ s c, X.S.makeCondition X.E heating s = .ok c → lines s c = flat s) (h2 : ∀ s e, X.S.makeCondition X.E heating s = .error e → ∃ p l, flat s = p :: l ∧ p.2.2.1 = .error e)
    (stages : List Nat) (out : List (Line K)) : sayStages X heating lines stages out = sayAll (stages.flatMap flat) out := by
  induction stages generalizing out with
  | nil => rfl
  | cons s l ih =>
    rw [List.flatMap_cons, sayAll_append]
    simp only [sayStages, PyM.bind_run, PyM.liftM_run, PyM.lift]
    cases hc : X.S.makeCondition X.E heating s with
    | error e =>
      obtain ⟨p, m, e1, e2⟩ := h2 s e hc
      rw [e1]
      simp only [sayAll, PyM.bind_run, say_error e2]
    | ok c =>
      simp only [h1 s c hc]
      cases hr : sayAll (flat s) out with
      | mk r o => cases r <;> simp only [ih]

section
variable (toU : K → String → Py K) (X : Subject K) (powerUnits capacityUnits : String)

/-- The cooling lines of a stage, with the conditions made in each value. -/
def flatCooling (s : Nat) : List (Pending K) :=
  [("Net cooling power", some (s + 1), (do toU (← X.U.netCoolingPower (some (← X.S.makeCondition X.E false s))) powerUnits), 2, powerUnits),
   ("Net cooling capacity", some (s + 1), (do toU (← X.U.netTotalCoolingCapacity (some (← X.S.makeCondition X.E false s))) capacityUnits), 2, capacityUnits),
   ("Net cooling EER", some (s + 1), (do X.U.eer X.u (some (← X.S.makeCondition X.E false s))), 2, ""),
   ("Gross cooling COP", some (s + 1), (do X.U.grossTotalCoolingCOP (some (← X.S.makeCondition X.E false s))), 3, ""),
   ("Net SHR", some (s + 1), (do X.U.netSHR (some (← X.S.makeCondition X.E false s))), 3, "")]

/-- The heating lines of a stage, with the conditions made in each value. -/
def flatHeating (s : Nat) : List (Pending K) :=
  [("Net heating power", some (s + 1), (do toU (← X.U.netIntegratedHeatingPower (some (← X.S.makeCondition X.E true s))) powerUnits), 2, powerUnits),
   ("Net heating capacity", some (s + 1), (do toU (← X.U.netIntegratedHeatingCapacity (some (← X.S.makeCondition X.E true s))) capacityUnits), 2, capacityUnits),
   ("Gross heating COP", some (s + 1), (do X.U.grossIntegratedHeatingCOP (some (← X.S.makeCondition X.E true s))), 3, "")]

theorem printed_of (header : Pending K) (heating : Bool) (lines : Nat → Conditions K → List (Pending K)) (flat : Nat → List (Pending K)) (n : Nat) (keys : List (String × Option Nat))
    (value : String × Option Nat → Py K)
    (h1 : ∀ s c, X.S.makeCondition X.E heating s = .ok c → lines s c = flat s) (h2 : ∀ s e, X.S.makeCondition X.E heating s = .error e → ∃ p l, flat s = p :: l ∧ p.2.2.1 = .error e)
    (hk : (header :: (List.range n).flatMap flat).map pendingKey = keys) (hv : ∀ p ∈ header :: (List.range n).flatMap flat, p.2.2.1 = value (pendingKey p)) (out : List (Line K)) :
    let print : PyM (List (Line K)) Unit := do
      say header
      sayStages X heating lines (List.range n)
      PyM.modify fun out => out ++ [.blank]
    ∃ new, (∀ x ∈ new, ∀ lab st v d un, x = .value lab st v d un → value (lab, st) = .ok v) ∧ (∀ x ∈ new, x ≠ .blank) ∧
      ((print out = (.ok (), out ++ new ++ [.blank]) ∧ new.map lineKey = keys) ∨
        ∃ e k, print out = (.error e, out ++ new) ∧ value k = .error e ∧ new.map lineKey ++ [k] <+: keys) := by
  intro print
  have hp : print out = match sayAll (header :: (List.range n).flatMap flat) out with
      | (.ok (), o) => (.ok (), o ++ [.blank])
      | (.error e, o) => (.error e, o) := by
    simp only [print, sayAll, PyM.bind_run]
    rcases say header out with ⟨r, o⟩
    cases r with
    | error e => rfl
    | ok _ =>
      simp only [sayStages_eq h1 h2]
      rcases sayAll ((List.range n).flatMap flat) o with ⟨r, o'⟩
      cases r <;> rfl
  obtain ⟨new, e1, e2, e3, e4⟩ := sayAll_run (header :: (List.range n).flatMap flat) value hv out
  refine ⟨new, e2, e3, ?_⟩
  rw [hp]
  generalize sayAll (header :: (List.range n).flatMap flat) out = r at *
  obtain ⟨r, o⟩ := r
  simp only at e1 e4
  rcases e4 with ⟨a, b⟩ | ⟨e, k, a, b, c⟩
  · left; subst a; subst e1; exact ⟨rfl, by rw [b, hk]⟩
  · right; subst a; subst e1; exact ⟨e, k, rfl, b, by rw [← hk]; exact c⟩

/-- **C108, cooling.** `print_cooling_info` prints, in order, SEER and five lines for every stage, each with the value of its quantity at the standard conditions of that stage. If a value raises, exactly the lines before
it have been printed, and the exception is the one of that value. -/
theorem C108_cooling (out : List (Line K)) : ∃ new, (∀ x ∈ new, ∀ lab st v d un, x = .value lab st v d un → coolingValue toU X powerUnits capacityUnits (lab, st) = .ok v) ∧ (∀ x ∈ new, x ≠ .blank) ∧
    ((printCooling toU X powerUnits capacityUnits out = (.ok (), out ++ new ++ [.blank]) ∧ new.map lineKey = coolingKeys X.rc.n) ∨
      ∃ e k, printCooling toU X powerUnits capacityUnits out = (.error e, out ++ new) ∧ coolingValue toU X powerUnits capacityUnits k = .error e ∧ new.map lineKey ++ [k] <+: coolingKeys X.rc.n) := by
  refine printed_of X _ false _ (flatCooling toU X powerUnits capacityUnits) X.rc.n (coolingKeys X.rc.n) (coolingValue toU X powerUnits capacityUnits) ?_ ?_ ?_ ?_ out
  · intro s c hc
    simp only [Reports.coolingLines, flatCooling, hc, bind_ok]
  · intro s e he
    exact ⟨_, _, rfl, by simp only [he, bind_error]⟩
  · simp [coolingKeys, pendingKey, flatCooling, List.map_flatMap]
  · intro p hp
    simp only [List.mem_cons, List.mem_flatMap, flatCooling, List.not_mem_nil, or_false] at hp
    rcases hp with rfl | ⟨s, -, rfl | rfl | rfl | rfl | rfl⟩ <;> rfl

/-- **C108, heating.** The same for `print_heating_info`: HSPF and three lines for every stage. -/
theorem C108_heating (region : Nat) (out : List (Line K)) :
    ∃ new, (∀ x ∈ new, ∀ lab st v d un, x = .value lab st v d un → heatingValue toU X powerUnits capacityUnits region (lab, st) = .ok v) ∧ (∀ x ∈ new, x ≠ .blank) ∧
    ((printHeating toU X powerUnits capacityUnits region out = (.ok (), out ++ new ++ [.blank]) ∧ new.map lineKey = heatingKeys X.rh.n region) ∨
      ∃ e k, printHeating toU X powerUnits capacityUnits region out = (.error e, out ++ new) ∧ heatingValue toU X powerUnits capacityUnits region k = .error e ∧
        new.map lineKey ++ [k] <+: heatingKeys X.rh.n region) := by
  refine printed_of X _ true _ (flatHeating toU X powerUnits capacityUnits) X.rh.n (heatingKeys X.rh.n region) (heatingValue toU X powerUnits capacityUnits region) ?_ ?_ ?_ ?_ out
  · intro s c hc
    simp only [Reports.heatingLines, flatHeating, hc, bind_ok]
  · intro s e he
    exact ⟨_, _, rfl, by simp only [he, bind_error]⟩
  · simp [heatingKeys, pendingKey, flatHeating, List.map_flatMap]
  · intro p hp
    simp only [List.mem_cons, List.mem_flatMap, flatHeating, List.not_mem_nil, or_false] at hp
    rcases hp with rfl | ⟨s, -, rfl | rfl | rfl⟩ <;> rfl

/-- **C108.** The printed figures of a stage agree with each other: with powers in W and capacities in Btu/h, EER times power is the capacity. -/
theorem C108_eer (hb : X.u.btuh ≠ 0) (hW : ∀ x, toU x "W" = .ok x) (hB : ∀ x, toU x "Btu/h" = .ok (x / X.u.btuh)) {s : Nat} {p q e : K}
    (hp : coolingValue toU X "W" "Btu/h" ("Net cooling power", some (s + 1)) = .ok p) (hq : coolingValue toU X "W" "Btu/h" ("Net cooling capacity", some (s + 1)) = .ok q)
    (he : coolingValue toU X "W" "Btu/h" ("Net cooling EER", some (s + 1)) = .ok e) : e * p = q := by
  simp only [coolingValue, bind_eq_ok, hW, hB, Except.ok.injEq] at hp hq he
  obtain ⟨c, hc, p', hp, rfl⟩ := hp
  obtain ⟨c', hc', q', hq, rfl⟩ := hq
  obtain ⟨c'', hc'', he⟩ := he
  rw [hc] at hc' hc''
  cases hc'; cases hc''
  simp only [eer, netTotalCoolingCOP, bind_eq_ok] at he
  obtain ⟨cop, ⟨q2, hq2, p2, hp2, hcop⟩, he⟩ := he
  rw [hq] at hq2; cases hq2
  rw [hp] at hp2; cases hp2
  have h0 : p' ≠ 0 := fun h => by rw [h, pdiv_zero] at hcop; cases hcop
  rw [pdiv_ok h0] at hcop
  rw [pdiv_ok hb] at he
  cases hcop; cases he
  field_simp

end

/-! ## C109: the plot -/

theorem filter_group {ds : List (DisplaySpec K)} {css : List (List (Curve K))} {R : DisplaySpec K → List (Curve K) → Prop} (h : List.Forall₂ R ds css)
    (hR : ∀ d l, R d l → ∀ c ∈ l, c.group = groupName d) (hnd : (ds.map groupName).Nodup) {d : DisplaySpec K} (hd : d ∈ ds) :
    R d (css.flatten.filter (fun c => c.group = groupName d)) := by
  induction h with
  | nil => simp at hd
  | @cons d' l ds css hdl hrest ih =>
    rw [List.map_cons, List.nodup_cons] at hnd
    rw [List.flatten_cons, List.filter_append]
    rcases List.mem_cons.1 hd with rfl | hd
    · have h1 : l.filter (fun c => c.group = groupName d) = l := by
        rw [List.filter_eq_self]
        intro c hc
        simp [hR _ _ hdl c hc]
      have h2 : css.flatten.filter (fun c => c.group = groupName d) = [] := by
        rw [List.filter_eq_nil_iff]
        intro c hc
        obtain ⟨m, hm, hcm⟩ := List.mem_flatten.1 hc
        obtain ⟨i, hi, rfl⟩ := List.mem_iff_getElem.1 hm
        have hlen := hrest.length_eq
        have := hrest.get (i := i) (by omega) hi
        have hg := hR _ _ this c hcm
        simp only [decide_eq_true_eq]
        intro heq
        apply hnd.1
        rw [← heq, hg]
        exact List.mem_map_of_mem (by simp)
      rw [h1, h2, List.append_nil]
      exact hdl
    · have h1 : l.filter (fun c => c.group = groupName d) = [] := by
        rw [List.filter_eq_nil_iff]
        intro c hc
        simp only [decide_eq_true_eq]
        rw [hR _ _ hdl c hc]
        intro heq
        apply hnd.1
        rw [heq]
        exact List.mem_map_of_mem hd
      rw [h1, List.nil_append]
      exact ih hnd.2 hd

theorem groups_nodup (U : Performance (Conditions K) K) : ((displaySpecs U).map groupName).Nodup := by
  simp only [displaySpecs, List.map_cons, List.map_nil, groupName]
  decide +kernel

theorem groups_plotted (U : Performance (Conditions K) K) : ∀ d ∈ displaySpecs U, ∃ f, plotted U (groupName d) = some f ∧ (∀ c, d.function c = f (some c)) ∧ groupName d ∈ plotGroups d.heating := by
  intro d hd
  simp only [displaySpecs, List.mem_cons, List.not_mem_nil, or_false] at hd
  rcases hd with rfl | rfl | rfl | rfl | rfl | rfl | rfl | rfl | rfl | rfl | rfl | rfl | rfl | rfl | rfl | rfl | rfl | rfl | rfl | rfl | rfl | rfl <;>
    exact ⟨_, rfl, fun _ => rfl, by simp only [groupName]; decide +kernel⟩

theorem groups_complete (U : Performance (Conditions K) K) (heating : Bool) : ∀ g ∈ plotGroups heating, ∃ d ∈ displaySpecs U, groupName d = g ∧ d.heating = heating := by
  intro g hg
  have key : ∀ i : Nat, ∀ d, (displaySpecs U)[i]? = some d → g = groupName d → d.heating = heating → ∃ d ∈ displaySpecs U, groupName d = g ∧ d.heating = heating :=
    fun i d h1 h2 h3 => ⟨d, List.mem_of_getElem? h1, h2.symm, h3⟩
  cases heating
  · simp only [plotGroups, List.flatMap_cons, List.flatMap_nil, List.map_cons, List.map_nil, List.cons_append, List.nil_append, List.append_nil, List.mem_cons, List.not_mem_nil, or_false,
      Bool.false_eq_true, if_false] at hg
    rcases hg with h | h | h | h | h | h | h | h | h | h
    · exact key 6 _ rfl (by rw [h]; simp only [groupName]; decide +kernel) rfl
    · exact key 7 _ rfl (by rw [h]; simp only [groupName]; decide +kernel) rfl
    · exact key 8 _ rfl (by rw [h]; simp only [groupName]; decide +kernel) rfl
    · exact key 9 _ rfl (by rw [h]; simp only [groupName]; decide +kernel) rfl
    · exact key 10 _ rfl (by rw [h]; simp only [groupName]; decide +kernel) rfl
    · exact key 17 _ rfl (by rw [h]; simp only [groupName]; decide +kernel) rfl
    · exact key 18 _ rfl (by rw [h]; simp only [groupName]; decide +kernel) rfl
    · exact key 19 _ rfl (by rw [h]; simp only [groupName]; decide +kernel) rfl
    · exact key 20 _ rfl (by rw [h]; simp only [groupName]; decide +kernel) rfl
    · exact key 21 _ rfl (by rw [h]; simp only [groupName]; decide +kernel) rfl
  · simp only [plotGroups, List.flatMap_cons, List.flatMap_nil, List.map_cons, List.map_nil, List.cons_append, List.nil_append, List.append_nil, List.mem_cons, List.not_mem_nil, or_false,
      if_true] at hg
    rcases hg with h | h | h | h | h | h | h | h | h | h | h | h
    · exact key 0 _ rfl (by rw [h]; simp only [groupName]; decide +kernel) rfl
    · exact key 2 _ rfl (by rw [h]; simp only [groupName]; decide +kernel) rfl
    · exact key 4 _ rfl (by rw [h]; simp only [groupName]; decide +kernel) rfl
    · exact key 1 _ rfl (by rw [h]; simp only [groupName]; decide +kernel) rfl
    · exact key 3 _ rfl (by rw [h]; simp only [groupName]; decide +kernel) rfl
    · exact key 5 _ rfl (by rw [h]; simp only [groupName]; decide +kernel) rfl
    · exact key 11 _ rfl (by rw [h]; simp only [groupName]; decide +kernel) rfl
    · exact key 13 _ rfl (by rw [h]; simp only [groupName]; decide +kernel) rfl
    · exact key 15 _ rfl (by rw [h]; simp only [groupName]; decide +kernel) rfl
    · exact key 12 _ rfl (by rw [h]; simp only [groupName]; decide +kernel) rfl
    · exact key 14 _ rfl (by rw [h]; simp only [groupName]; decide +kernel) rfl
    · exact key 16 _ rfl (by rw [h]; simp only [groupName]; decide +kernel) rfl

theorem speedName_ok {r : Roles} {s : Nat} {n : String} (h : speedName r s = .ok n) : IsSpeedName r s (n ++ " Speed") := by
  unfold speedName at h
  split_ifs at h with h1 h2 h3 h4
  · cases h; exact h1
  · cases h; exact h2
  · cases h; exact h3
  · cases h; exact h4

/-- What `curve` returns. -/
def IsCurve (X : Subject K) (d : DisplaySpec K) (s : Nat) (conditions : List (Conditions K)) (c : Curve K) : Prop :=
  c.group = groupName d ∧ IsSpeedName (if d.heating then X.rh else X.rc) s c.name ∧ c.xs = plotTemperatures X d.heating ∧ List.Forall₂ (fun cond y => d.function cond = .ok y) conditions c.ys

theorem curve_ok {X : Subject K} {d : DisplaySpec K} {s : Nat} {conditions : List (Conditions K)} {c : Curve K} (h : curve X d s conditions = .ok c) : IsCurve X d s conditions c := by
  simp only [curve, bind_eq_ok, pure_eq_ok, Except.ok.injEq, mapM_ok_iff] at h
  obtain ⟨ys, hys, name, hn, rfl⟩ := h
  exact ⟨rfl, speedName_ok hn, rfl, hys⟩

theorem plotConditions_get {X : Subject K} {heating : Bool} {css : List (List (Conditions K))} (h : plotConditions X heating = .ok css) {s : Nat} {cs : List (Conditions K)} (hs : css[s]? = some cs) :
    List.Forall₂ (fun t c => plotCondition X heating s t = .ok c) (plotTemperatures X heating) cs := by
  unfold plotConditions at h
  rw [mapM_ok_iff] at h
  obtain ⟨hi, rfl⟩ := List.getElem?_eq_some_iff.1 hs
  have hl := h.length_eq
  have := h.get (i := s) (by omega) hi
  simp only [List.get_eq_getElem, List.getElem_range] at this
  rwa [mapM_ok_iff] at this

theorem forall₂_comp {α β γ : Type} {R : α → β → Prop} {S : β → γ → Prop} {l : List α} {m : List β} {n : List γ} (h1 : List.Forall₂ R l m) (h2 : List.Forall₂ S m n) :
    List.Forall₂ (fun a c => ∃ b, R a b ∧ S b c) l n := by
  induction h1 generalizing n with
  | nil => cases h2; exact .nil
  | cons a _ ih => cases h2 with
    | cons b t => exact .cons ⟨_, a, b⟩ (ih t)

theorem span_eq (X : Subject K) (heating : Bool) : plotTemperatures X heating = plotSpan heating (if heating then X.heatingOff else X.coolingOff) := by
  cases heating <;> simp [plotTemperatures, plotSpan]

theorem plot_shows {X : Subject K} {cs : List (Curve K)} (h : plot X = .ok cs) {d : DisplaySpec K} (hd : d ∈ displaySpecs X.U) {f : Option (Conditions K) → Py K} (hf : ∀ c, d.function c = f (some c)) :
    List.Forall₂ (fun s c => IsSpeedName (if d.heating then X.rh else X.rc) s c.name ∧ Shows X d.heating s f c) (List.range (if d.heating then X.rh else X.rc).n)
      (cs.filter fun c => c.group = groupName d) := by
  simp only [plot, bind_eq_ok, pure_eq_ok, Except.ok.injEq] at h
  obtain ⟨hc, hhc, cc, hcc, css, hcss, rfl⟩ := h
  rw [mapM_ok_iff] at hcss
  have h0 := filter_group (R := fun d l => curvesOf X (if d.heating then hc else cc) d = .ok l) hcss (fun d l hl c hcl => by
    simp only [curvesOf, mapM_ok_iff] at hl
    obtain ⟨i, hi, rfl⟩ := List.mem_iff_getElem.1 hcl
    have hlen := hl.length_eq
    have := hl.get (i := i) (by omega) hi
    simp only [bind_eq_ok] at this
    obtain ⟨_, _, this⟩ := this
    exact (curve_ok this).1) (groups_nodup X.U) hd
  simp only [curvesOf, mapM_ok_iff] at h0
  refine h0.imp ?_
  intro s c hsc
  simp only [bind_eq_ok] at hsc
  obtain ⟨conds, hconds, hcurve⟩ := hsc
  obtain ⟨-, hn, hx, hy⟩ := curve_ok hcurve
  refine ⟨hn, by rw [hx, span_eq], ?_⟩
  have hget : (if d.heating then hc else cc)[s]? = some conds := by
    simp only [pyGet] at hconds
    split at hconds
    · rename_i v hv; cases hconds; exact hv
    · cases hconds
  have hplot : plotConditions X d.heating = .ok (if d.heating then hc else cc) := by
    cases d.heating
    · simpa using hcc
    · simpa using hhc
  have := forall₂_comp (plotConditions_get hplot hget) hy
  rw [hx]
  refine this.imp ?_
  rintro t y ⟨cond, h1, h2⟩
  simp only [plotCondition, bind_eq_ok] at h1
  obtain ⟨o, ho, hm⟩ := h1
  exact ⟨o, cond, ho, hm, by rw [← hf, h2]⟩

/-- **C109.** If the plot is made, every legend group has exactly one curve for each speed, in the order of the speeds; the curve carries the name of the speed and shows the quantity its group is named after, at every
temperature. -/
theorem C109_curves {X : Subject K} {cs : List (Curve K)} (h : plot X = .ok cs) (heating : Bool) {g : String} (hg : g ∈ plotGroups heating) :
    ∃ f, plotted X.U g = some f ∧ List.Forall₂ (fun s c => IsSpeedName (if heating then X.rh else X.rc) s c.name ∧ Shows X heating s f c) (List.range (if heating then X.rh else X.rc).n)
      (cs.filter fun c => c.group = g) := by
  obtain ⟨d, hd, rfl, rfl⟩ := groups_complete X.U heating g hg
  obtain ⟨f, hf, hfun, -⟩ := groups_plotted X.U d hd
  exact ⟨f, hf, plot_shows h hd hfun⟩

/-- **C109.** The plot has no other curves. -/
theorem C109_groups {X : Subject K} {cs : List (Curve K)} (h : plot X = .ok cs) {c : Curve K} (hc : c ∈ cs) : ∃ heating, c.group ∈ plotGroups heating := by
  simp only [plot, bind_eq_ok, pure_eq_ok, Except.ok.injEq] at h
  obtain ⟨hc', hhc, cc, hcc, css, hcss, rfl⟩ := h
  rw [mapM_ok_iff] at hcss
  obtain ⟨l, hl, hcl⟩ := List.mem_flatten.1 hc
  obtain ⟨i, hi, rfl⟩ := List.mem_iff_getElem.1 hl
  have hlen := hcss.length_eq
  have := hcss.get (i := i) (by omega) hi
  simp only [curvesOf, mapM_ok_iff] at this
  obtain ⟨j, hj, rfl⟩ := List.mem_iff_getElem.1 hcl
  have hlen' := this.length_eq
  have := this.get (i := j) (by simp only [List.get_eq_getElem] at hlen' ⊢; omega) hj
  simp only [bind_eq_ok] at this
  obtain ⟨_, _, this⟩ := this
  simp only [List.get_eq_getElem] at this
  have hg := (curve_ok this).1
  rw [hg]
  obtain ⟨_, -, -, hm⟩ := groups_plotted X.U (displaySpecs X.U)[i] (by simp)
  exact ⟨_, hm⟩

/-- **C109.** Names tell the speeds apart: two speeds never carry the same name. -/
theorem C109_distinct {r : Roles} {s s' : Nat} {n : String} (h : IsSpeedName r s n) (h' : IsSpeedName r s' n) : s = s' := by
  unfold IsSpeedName at h h'
  split at h <;> simp_all

/-- **C109.** A plot is made only if every speed has a name. -/
theorem C109_named {X : Subject K} {cs : List (Curve K)} (h : plot X = .ok cs) (heating : Bool) {s : Nat} (hs : s < (if heating then X.rh else X.rc).n) :
    ∃ n, IsSpeedName (if heating then X.rh else X.rc) s n := by
  have hg : (if heating then "Net Steady State Heating Capacity" else "Net Total Cooling Capacity") ∈ plotGroups heating := by cases heating <;> decide +kernel
  obtain ⟨f, -, hF⟩ := C109_curves h heating hg
  have hlen := hF.length_eq
  rw [List.length_range] at hlen
  have := hF.get (i := s) (by simpa using hs) (by omega)
  simp only [List.get_eq_getElem, List.getElem_range] at this
  exact ⟨_, this.1⟩

/-- **C109.** With the speed indices the constructor derives, every speed has a name exactly for units with at most three speeds from the full-load speed on and at most one boost speed. -/
theorem C109_names_iff {n full : Nat} (hf : full < n) : (∀ s < n, ∃ m, IsSpeedName (roles n full none) s m) ↔ full ≤ 1 ∧ n ≤ full + 3 := by
  have main : ∀ s, (∃ m, IsSpeedName (roles n full none) s m) ↔ (roles n full none).low = some s ∨ (roles n full none).intermediate = s ∨ (roles n full none).full = s ∨ (roles n full none).boost = some s := by
    intro s
    constructor
    · rintro ⟨m, hm⟩
      unfold IsSpeedName at hm
      split at hm <;> simp_all
    · rintro (h | h | h | h)
      · exact ⟨"Min Speed", h⟩
      · exact ⟨"Int. Speed", h⟩
      · exact ⟨"Rated Speed", h⟩
      · exact ⟨"Max Speed", h⟩
  have low : ∀ s, (roles n full none).low = some s ↔ 1 < n ∧ n - 1 = s := by
    intro s
    simp only [roles]
    split_ifs with h <;> simp [h]
  have boost : ∀ s, (roles n full none).boost = some s ↔ 0 < full ∧ 0 = s := by
    intro s
    simp only [roles]
    split_ifs with h <;> simp [h]
  have inter : (roles n full none).intermediate = full + 1 := rfl
  have hfull : (roles n full none).full = full := rfl
  simp only [main, low, boost, inter, hfull]
  constructor
  · intro h
    constructor
    · by_contra hlt
      have := h 1 (by omega)
      omega
    · by_contra hlt
      have := h (full + 2) (by omega)
      omega
  · rintro ⟨h1, h2⟩ s hs
    omega

/-- **C109 fails** for units with four or more speeds and no boost speed: with the speed indices of the constructor no plot is ever made. -/
theorem C109_refuted {X : Subject K} {n : Nat} (hn : 4 ≤ n) (h : X.rc = roles n 0 none ∨ X.rh = roles n 0 none) (cs : List (Curve K)) : plot X ≠ .ok cs := by
  intro hp
  have hbad : ¬ ∀ s < n, ∃ m, IsSpeedName (roles n 0 none) s m := fun hall => by
    have := (C109_names_iff (n := n) (full := 0) (by omega)).1 hall
    omega
  rcases h with h | h
  · exact hbad fun s hs => by simpa [h] using C109_named hp false (s := s) (by simpa [h, roles] using hs)
  · exact hbad fun s hs => by simpa [h] using C109_named hp true (s := s) (by simpa [h, roles] using hs)

theorem speedName_returns {r : Roles} {s : Nat} {n : String} (h : IsSpeedName r s n) : ∃ m, speedName r s = .ok m := by
  unfold speedName
  unfold IsSpeedName at h
  split_ifs with h1 h2 h3 h4
  · exact ⟨_, rfl⟩
  · exact ⟨_, rfl⟩
  · exact ⟨_, rfl⟩
  · exact ⟨_, rfl⟩
  · split at h <;> simp_all

theorem plot_returns {X : Subject K} (hn : ∀ (heating : Bool) (s : Nat), s < (if heating then X.rh else X.rc).n → ∃ n, IsSpeedName (if heating then X.rh else X.rc) s n)
    (hv : ∀ (heating : Bool) (s : Nat), s < (if heating then X.rh else X.rc).n → ∀ t ∈ plotSpan heating (if heating then X.heatingOff else X.coolingOff), ∃ o c,
      Psych.init X.E.lib t X.E.atm [("rel_hum", 0.4)] = .ok o ∧ X.S.makeCondition X.E heating s none (some o) = .ok c ∧
      ∀ g ∈ plotGroups heating, ∀ f, plotted X.U g = some f → ∃ y, f (some c) = .ok y) : ∃ cs, plot X = .ok cs := by
  have conds : ∀ heating : Bool, ∃ css, plotConditions X heating = .ok css := by
    intro heating
    refine mapM_isOk _ _ fun s hs => mapM_isOk _ _ fun t ht => ?_
    rw [span_eq] at ht
    obtain ⟨o, c, h1, h2, -⟩ := hv heating s (List.mem_range.1 hs) t ht
    exact ⟨c, by simp only [plotCondition, h1, bind_ok, h2]⟩
  obtain ⟨hc, hhc⟩ := conds true
  obtain ⟨cc, hcc⟩ := conds false
  have hcur : ∀ d ∈ displaySpecs X.U, ∃ l, curvesOf X (if d.heating then hc else cc) d = .ok l := by
    intro d hd
    obtain ⟨f, hf, hfun, hg⟩ := groups_plotted X.U d hd
    have hcs : plotConditions X d.heating = .ok (if d.heating then hc else cc) := by cases d.heating <;> assumption
    have hlen : (if d.heating then hc else cc).length = (if d.heating then X.rh else X.rc).n := by
      have := hcs
      rw [plotConditions, mapM_ok_iff] at this
      rw [← this.length_eq, List.length_range]
    refine mapM_isOk _ _ fun s hs => ?_
    have hs := List.mem_range.1 hs
    obtain ⟨l, hl⟩ : ∃ l, (if d.heating then hc else cc)[s]? = some l := ⟨_, List.getElem?_eq_getElem (hlen ▸ hs)⟩
    obtain ⟨m, hm⟩ := hn d.heating s hs
    obtain ⟨m', hm'⟩ := speedName_returns hm
    have hF := plotConditions_get hcs hl
    obtain ⟨ys, hys⟩ := mapM_isOk d.function l (fun c hcl => by
      obtain ⟨i, hi, rfl⟩ := List.mem_iff_getElem.1 hcl
      have hl' := hF.length_eq
      have := hF.get (i := i) (by omega) hi
      simp only [List.get_eq_getElem] at this
      obtain ⟨o, c, h1, h2, h3⟩ := hv d.heating s hs ((plotTemperatures X d.heating)[i]'(by omega)) (by rw [← span_eq]; exact List.getElem_mem _)
      rw [plotCondition, h1, bind_ok, h2] at this
      rw [← Except.ok.inj this, hfun]
      exact h3 _ hg f hf)
    simp only [pyGet, hl, bind_ok, curve, hys, hm', pure_eq_ok]
    exact ⟨_, rfl⟩
  obtain ⟨css, hcss⟩ := mapM_isOk _ _ hcur
  exact ⟨_, by simp only [plot, hhc, hcc, hcss, bind_ok, pure_eq_ok]; rfl⟩

/-- **C109.** The plot is made exactly when every speed of either mode has a name, and at every temperature of the mode's span the conditions can be made and every quantity of the mode has a
value. -/
theorem C109_returns_iff {X : Subject K} : (∃ cs, plot X = .ok cs) ↔
    (∀ (heating : Bool) (s : Nat), s < (if heating then X.rh else X.rc).n → ∃ n, IsSpeedName (if heating then X.rh else X.rc) s n) ∧
    (∀ (heating : Bool) (s : Nat), s < (if heating then X.rh else X.rc).n → ∀ t ∈ plotSpan heating (if heating then X.heatingOff else X.coolingOff), ∃ o c,
      Psych.init X.E.lib t X.E.atm [("rel_hum", 0.4)] = .ok o ∧ X.S.makeCondition X.E heating s none (some o) = .ok c ∧
      ∀ g ∈ plotGroups heating, ∀ f, plotted X.U g = some f → ∃ y, f (some c) = .ok y) := by
  constructor
  · rintro ⟨cs, h⟩
    refine ⟨fun heating s hs => C109_named h heating hs, fun heating s hs t ht => ?_⟩
    have one : ∀ g ∈ plotGroups heating, ∃ f o c y, plotted X.U g = some f ∧ Psych.init X.E.lib t X.E.atm [("rel_hum", 0.4)] = .ok o ∧
        X.S.makeCondition X.E heating s none (some o) = .ok c ∧ f (some c) = .ok y := by
      intro g hg
      obtain ⟨f, hf, hF⟩ := C109_curves h heating hg
      have hlen := hF.length_eq
      rw [List.length_range] at hlen
      have := hF.get (i := s) (by simpa using hs) (by omega)
      simp only [List.get_eq_getElem, List.getElem_range] at this
      obtain ⟨-, hx, hy⟩ := this
      rw [hx] at hy
      obtain ⟨i, hi, rfl⟩ := List.mem_iff_getElem.1 ht
      have hl := hy.length_eq
      obtain ⟨o, c, h1, h2, h3⟩ := hy.get (i := i) hi (by omega)
      exact ⟨f, o, c, _, hf, h1, h2, h3⟩
    have hg : (if heating then "Net Steady State Heating Capacity" else "Net Total Cooling Capacity") ∈ plotGroups heating := by cases heating <;> decide +kernel
    obtain ⟨-, o, c, -, -, h1, h2, -⟩ := one _ hg
    refine ⟨o, c, h1, h2, fun g hg f hf => ?_⟩
    obtain ⟨f', o', c', y, hf', h1', h2', h3'⟩ := one g hg
    rw [hf] at hf'; cases hf'
    rw [h1] at h1'; cases h1'
    rw [h2] at h2'; cases h2'
    exact ⟨y, h3'⟩
  · rintro ⟨hn, hv⟩
    exact plot_returns hn hv

/-- **C109.** The temperature axis is increasing exactly when the unit stops heating below 5 °F and stops cooling above 95 °F. -/
theorem C109_axis [IsStrictOrderedRing K] (X : Subject K) : (plotAxis X).Pairwise (· < ·) ↔ X.heatingOff < frF 5 ∧ frF 95 < X.coolingOff := by
  have e : ∀ a b : K, frF a < frF b ↔ a < b := fun a b => by unfold frF; constructor <;> intro h <;> linarith
  have t : ∀ {a b : K}, a < b → frF a < frF b := fun h => (e _ _).2 h
  simp only [plotAxis, plotTemperatures, if_true, Bool.false_eq_true, if_false, List.drop_succ_cons, List.drop_zero, List.cons_append, List.nil_append, List.pairwise_cons, List.mem_cons,
    List.not_mem_nil, or_false, forall_eq_or_imp, forall_eq, e]
  constructor
  · intro h
    exact ⟨h.1.1, by tauto⟩
  · rintro ⟨h1, h2⟩
    have g1 : ∀ {x : K}, 5 ≤ x → X.heatingOff < frF x := fun {x} hx => lt_of_lt_of_le h1 (by unfold frF; linarith)
    have g2 : ∀ {x : K}, x ≤ 95 → frF x < X.coolingOff := fun {x} hx => lt_of_le_of_lt (by unfold frF; linarith) h2
    have g3 : X.heatingOff < X.coolingOff := lt_trans (g1 le_rfl) (g2 (by norm_num))
    refine ⟨⟨h1, g1 (by norm_num), g1 (by norm_num), g1 (by norm_num), g1 (by norm_num), g1 (by norm_num), g1 (by norm_num), g3⟩, ?_⟩
    refine ⟨⟨by norm_num, by norm_num, by norm_num, by norm_num, by norm_num, by norm_num, g2 (by norm_num)⟩, ?_⟩
    refine ⟨⟨by norm_num, by norm_num, by norm_num, by norm_num, by norm_num, g2 (by norm_num)⟩, ?_⟩
    refine ⟨⟨by norm_num, by norm_num, by norm_num, by norm_num, g2 (by norm_num)⟩, ?_⟩
    refine ⟨⟨by norm_num, by norm_num, by norm_num, g2 (by norm_num)⟩, ?_⟩
    refine ⟨⟨by norm_num, by norm_num, g2 (by norm_num)⟩, ?_⟩
    refine ⟨⟨by norm_num, g2 (by norm_num)⟩, ?_⟩
    exact ⟨h2, by simp⟩

/-! ## Non-vacuity -/

/-- The plot of the sample unit is made. -/
example : ∃ P cs, reportPoints = .ok P ∧ plot (reportSubject P) = .ok cs ∧ cs.length = 88 := by
  have h : DX.okTest reportPoints (fun P => DX.okTest (plot (reportSubject P)) (fun cs => cs.length == 88)) = true := by decide +kernel
  obtain ⟨P, hP, h⟩ := okTest_iff.1 h
  obtain ⟨cs, hc, h⟩ := okTest_iff.1 h
  exact ⟨P, cs, hP, hc, by simpa using h⟩

/-- The information of the sample unit is printed: 1 + 4·5 + 1 lines. -/
example : ∃ P, reportPoints = .ok P ∧ ((printCooling (fun x _ => .ok x) (reportSubject P) "W" "W" []).1.isOk ∧ (printCooling (fun x _ => .ok x) (reportSubject P) "W" "W" []).2.length = 22) := by
  have h : DX.okTest reportPoints (fun P => decide ((printCooling (fun x _ => .ok x) (reportSubject P) "W" "W" []).1.isOk = true ∧ (printCooling (fun x _ => .ok x) (reportSubject P) "W" "W" []).2.length = 22)) = true := by
    decide +kernel
  obtain ⟨P, hP, h⟩ := okTest_iff.1 h
  exact ⟨P, hP, by simpa using h⟩

/-- A printout that ends early: a unit without a SEER prints nothing. -/
example (P : Points (Conditions ℚ)) : printCooling (fun x _ => .ok x) { reportSubject P with seer := .error .zeroDivision } "W" "W" [] = (.error .zeroDivision, []) := rfl

end Resdx.Props
