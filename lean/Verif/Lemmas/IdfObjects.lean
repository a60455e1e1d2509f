import Verif.Lemmas.Idf
import Verif.Spec.IdfFile

/-! # Lemmas about the objects written for a unit -/

set_option linter.unusedSectionVars false
set_option linter.unusedSimpArgs false

namespace Resdx.Idf

open Spec.Idf

variable {C K : Type} [Field K] [LinearOrder K] {fmt : K → Nat → String}

theorem insertIdx_append_length {α : Type} (pre l : List α) (x : α) : (pre ++ l).insertIdx pre.length x = pre ++ x :: l := by
  induction pre with
  | nil => simp
  | cons a pre ih => simp [ih]

/-- The parts of the file. -/
theorem idfObjects_ok {name : Option String} {st : SystemType} {autosize normalize : Bool} {U : IdfUnit C K} {objs : List IObj}
    (h : idfObjects fmt name st autosize normalize U = .ok objs) :
    ∃ system fan ccap cs hcap on tf eir hs, systemObjects fmt (prefixOf name) st U = .ok system ∧ fanObject fmt (prefixOf name) st autosize U = .ok fan ∧
      autoM fmt autosize (U.coolCap none) = .ok ccap ∧ (List.range U.nCool).reverse.mapM (coolSpeed fmt (prefixOf name) normalize U) = .ok cs ∧
      autoM fmt autosize (U.heatCap none) = .ok hcap ∧ U.on = some on ∧ timeFractionField fmt U = .ok tf ∧ (∃ cop60, U.cop60 = .ok cop60 ∧ cop60 ≠ 0 ∧ eir = 1 / cop60) ∧
      (List.range U.nHeat).reverse.mapM (heatSpeed fmt (prefixOf name) normalize U) = .ok hs ∧
      objs = system ++ (schedules (prefixOf name) ++ (fan :: (axes fmt (prefixOf name) U ++
        (⟨"Coil:Cooling:DX:VariableSpeed", coolHeader fmt (prefixOf name) autosize U ccap ++ (cs.map Prod.fst).flatten⟩ :: coolCurve fmt (prefixOf name) U ::
          ((cs.map Prod.snd).flatten ++
        (⟨"Coil:Heating:DX:VariableSpeed", heatHeader fmt (prefixOf name) autosize U hcap on tf ++ (hs.map Prod.fst).flatten⟩ ::
          (heatCurves fmt (prefixOf name) U eir ++ (hs.map Prod.snd).flatten))))))) := by
  simp only [idfObjects, addCooling, addHeating, bind_eq_ok, pure_eq_ok, Except.ok.injEq] at h
  obtain ⟨system, h1, fan, h2, o1, ⟨ccap, h3, cs, h4, rfl⟩, hcap, h5, on, h6, tf, h7, cop60, h8, eir, h9, hs, h10, rfl⟩ := h
  refine ⟨system, fan, ccap, cs, hcap, on, tf, eir, hs, h1, h2, h3, h4, h5, ?_, h7, ⟨cop60, h8, ?_⟩, h10, ?_⟩
  · cases hu : U.on with
    | none => rw [hu] at h6; simp [pyAttr] at h6
    | some x => rw [hu] at h6; simp only [pyAttr, Except.ok.injEq] at h6; rw [h6]
  · rw [pdiv_eq_ok] at h9
    exact ⟨h9.1, h9.2.symm⟩
  · rw [List.append_assoc (system ++ schedules _ ++ [fan] ++ axes fmt _ U), insertIdx_append_length, List.append_assoc _ (heatCurves fmt _ U eir), insertIdx_append_length]
    simp

/-- The entries of a loop over the speeds, counted up in the file and down in the unit. -/
theorem reverse_loop {α : Type} {f : Nat → Py α} {n : Nat} {r : List α} (h : (List.range n).reverse.mapM f = .ok r) :
    r.length = n ∧ ∀ i < n, ∃ b, r[i]? = some b ∧ f (n - 1 - i) = .ok b := by
  rw [mapM_ok_iff, List.forall₂_iff_get] at h
  obtain ⟨hl, h⟩ := h
  simp only [List.length_reverse, List.length_range] at hl
  refine ⟨hl.symm, fun i hi => ?_⟩
  have := h i (by simpa using hi) (by omega)
  refine ⟨r[i]'(by omega), by simp, ?_⟩
  simpa using this

/-- The values written in a table. -/
def scaled (values : List K) : Option K → List K
  | none => values
  | some r => values.map (· / r)

/-- A lookup table as written. -/
def tableObj (fmt : K → Nat → String) (name listName unitType : String) (values : List K) (precision : Nat) (rated : Option K) : IObj :=
  ⟨"Table:Lookup", [⟨name, "Name"⟩, ⟨listName, "Independent Variable List Name"⟩,
     ⟨if rated.isSome then "None" else "AutomaticWithDivisor", "Normalization Method"⟩, ⟨fmt 1 2, "Normalization Divisor"⟩, ⟨"", "Minimum Output"⟩,
     ⟨"", "Maximum Output"⟩, ⟨unitType, "Output Unit Type"⟩, ⟨"", "External File Name"⟩, ⟨"", "External File Column Number"⟩,
     ⟨"", "External File Starting Row Number"⟩] ++ numbered "Output Value " ((scaled values rated).map fun v => fmt v precision)⟩

theorem mapM_pdiv_ok {values vs : List K} {r : K} (h : values.mapM (fun v => pdiv v r) = .ok vs) : vs = values.map (· / r) := by
  rw [mapM_ok_iff] at h
  induction h with
  | nil => rfl
  | cons ha _ ih => rw [List.map_cons, ih]; rw [pdiv_eq_ok] at ha; rw [ha.2]

theorem lookupTable_ok {name listName unitType : String} {values : List K} {precision : Nat} {rated : Option K} {t : IObj}
    (h : lookupTable fmt name listName unitType values precision rated = .ok t) : t = tableObj fmt name listName unitType values precision rated := by
  cases rated with
  | none =>
    simp only [lookupTable, bind_ok, pure_eq_ok, Except.ok.injEq] at h
    rw [← h]; rfl
  | some r =>
    simp only [lookupTable, bind_eq_ok, pure_eq_ok, Except.ok.injEq] at h
    obtain ⟨vs, h1, rfl⟩ := h
    rw [mapM_pdiv_ok h1]; rfl

theorem numbered_values (label : String) (l : List String) : (numbered label l).map IField.value = l := by
  simp only [numbered, List.map_map]
  have : (IField.value ∘ fun x : String × Nat => (⟨x.1, label ++ toString (x.2 + 1)⟩ : IField)) = Prod.fst := by funext x; rfl
  rw [show (fun x : String × Nat => match x with | (v, i) => (⟨v, label ++ toString (i + 1)⟩ : IField)) = fun x : String × Nat => (⟨x.1, label ++ toString (x.2 + 1)⟩ : IField) by
    funext x; rfl, this]
  exact List.zipIdx_map_fst 0 l

theorem numbered_names {label : String} {l : List String} {f : IField} (h : f ∈ numbered label l) : ∃ k : Nat, f.name = label ++ toString k := by
  simp only [numbered, List.mem_map] at h
  obtain ⟨x, _, rfl⟩ := h
  exact ⟨x.2 + 1, rfl⟩

/-- The fan as written. -/
theorem fanObject_ok {sys : String} {st : SystemType} {autosize : Bool} {U : IdfUnit C K} {fan : IObj} (h : fanObject fmt sys st autosize U = .ok fan) :
    ∃ order top bottom pressure flow minRatio power eff speeds, U.order = .ok order ∧ pyGetI order (-1) = .ok top ∧ pyGet order 0 = .ok bottom ∧
      U.pressure top = .ok pressure ∧ autoM fmt autosize (U.airflow top) = .ok flow ∧ U.airflowRatio bottom top = .ok minRatio ∧
      autoM fmt autosize (U.power top) = .ok power ∧ U.efficiency top = .ok eff ∧
      List.Forall₂ (fun (x : Nat × Nat) (fs : List IField) => ∃ f p, U.airflowRatio x.1 top = .ok f ∧ U.powerRatio x.1 top = .ok p ∧ fs = fanSpeedFields fmt (x.2 + 1) f p)
        order.zipIdx speeds ∧
      fan = ⟨"Fan:SystemModel", fanHeader fmt sys st U flow minRatio pressure power eff ++ speeds.flatten⟩ := by
  unfold fanObject at h
  rw [bind_eq_ok] at h
  obtain ⟨order, h1, h⟩ := h
  rw [bind_eq_ok] at h
  obtain ⟨top, h2, h⟩ := h
  rw [bind_eq_ok] at h
  obtain ⟨bottom, h3, h⟩ := h
  rw [bind_eq_ok] at h
  obtain ⟨pressure, h4, h⟩ := h
  rw [bind_eq_ok] at h
  obtain ⟨flow, h5, h⟩ := h
  rw [bind_eq_ok] at h
  obtain ⟨minRatio, h6, h⟩ := h
  rw [bind_eq_ok] at h
  obtain ⟨power, h7, h⟩ := h
  rw [bind_eq_ok] at h
  obtain ⟨eff, h8, h⟩ := h
  rw [bind_eq_ok] at h
  obtain ⟨speeds, h9, h⟩ := h
  rw [pure_eq_ok, Except.ok.injEq] at h
  refine ⟨order, top, bottom, pressure, flow, minRatio, power, eff, speeds, h1, h2, h3, h4, h5, h6, h7, h8, ?_, h.symm⟩
  rw [mapM_ok_iff] at h9
  refine h9.imp ?_
  rintro ⟨s, i⟩ fs hx
  simp only [bind_eq_ok, pure_eq_ok, Except.ok.injEq] at hx
  obtain ⟨f, hf, p, hp, rfl⟩ := hx
  exact ⟨f, p, hf, hp, rfl⟩

/-- Capacity and input ratio at a condition. -/
def MeasuredAt (cap cop : C → Py K) (c : C) (x : K × K) : Prop := ∃ q e, cap c = .ok q ∧ cop c = .ok e ∧ e ≠ 0 ∧ x = (q, 1 / e)

/-- The tables of a speed. -/
theorem speedTables_ok {sys mode : String} {normalize : Bool} {setRatio : C → K → C} {make : Option (K × K) → Py C} {cap cop : C → Py K} {indoor outdoor : List K}
    {c0 : C} {q0 cop0 : K} {k : Nat} {ts : List IObj}
    (h : speedTables fmt sys mode normalize setRatio make cap cop indoor outdoor c0 q0 cop0 k = .ok ts) :
    ∃ ff ft, List.Forall₂ (fun r x => MeasuredAt cap cop (setRatio c0 r) x) (flowFractions : List K) ff ∧
      List.Forall₂ (fun p x => ∃ c, make (some p) = .ok c ∧ MeasuredAt cap cop c x) (indoor.flatMap fun (i : K) => outdoor.map fun (o : K) => (i, o)) ft ∧
      ts = [tableObj fmt (sys ++ mode ++ " CapfFF " ++ toString k) (sys ++ "fFF List") "Dimensionless" (ff.map Prod.fst) 2 (if normalize then some q0 else none),
        tableObj fmt (sys ++ mode ++ " EIRfFF " ++ toString k) (sys ++ "fFF List") "Dimensionless" (ff.map Prod.snd) 4 (if normalize then some (1 / cop0) else none),
        tableObj fmt (sys ++ mode ++ " CapfT " ++ toString k) (sys ++ mode ++ " fT List") "Dimensionless" (ft.map Prod.fst) 2 (if normalize then some q0 else none),
        tableObj fmt (sys ++ mode ++ " EIRfT " ++ toString k) (sys ++ mode ++ " fT List") "Dimensionless" (ft.map Prod.snd) 4 (if normalize then some (1 / cop0) else none)] := by
  have hff : ∀ ff : List (K × K), ((flowFractions : List K).mapM fun (r : K) => (do
      let c := setRatio c0 r
      let q ← cap c
      let e ← cop c
      let eir ← pdiv 1 e
      return (q, eir) : Py (K × K))) = .ok ff → List.Forall₂ (fun r x => MeasuredAt cap cop (setRatio c0 r) x) (flowFractions : List K) ff := by
    intro ff h1
    rw [mapM_ok_iff] at h1
    refine h1.imp ?_
    intro r x hx
    simp only [bind_eq_ok, pure_eq_ok, Except.ok.injEq] at hx
    obtain ⟨q, hq, e, he, i, hi, rfl⟩ := hx
    rw [pdiv_eq_ok] at hi
    exact ⟨q, e, hq, he, hi.1, by rw [hi.2]⟩
  have hft : ∀ (l ft : List (K × K)), (l.mapM fun (x : K × K) => (do
      let c ← make (some x)
      let q ← cap c
      let e ← cop c
      let eir ← pdiv 1 e
      return (q, eir) : Py (K × K))) = .ok ft → List.Forall₂ (fun p x => ∃ c, make (some p) = .ok c ∧ MeasuredAt cap cop c x) l ft := by
    intro l ft h5
    rw [mapM_ok_iff] at h5
    refine h5.imp ?_
    intro r x hx
    simp only [bind_eq_ok, pure_eq_ok, Except.ok.injEq] at hx
    obtain ⟨c, hc, q, hq, e, he, i, hi, rfl⟩ := hx
    rw [pdiv_eq_ok] at hi
    exact ⟨c, hc, q, e, hq, he, hi.1, by rw [hi.2]⟩
  cases normalize with
  | true =>
    simp only [speedTables, if_true] at h
    rw [bind_eq_ok] at h
    obtain ⟨ff, h1, h⟩ := h
    rw [bind_eq_ok] at h
    obtain ⟨t1, h2, h⟩ := h
    simp only [bind_eq_ok, pure_eq_ok, Except.ok.injEq] at h
    obtain ⟨r0, ⟨x, hx, rfl⟩, t2, h4, ft, h5, t3, h6, t4, h7, rfl⟩ := h
    rw [pdiv_eq_ok] at hx
    refine ⟨ff, ft, hff ff h1, hft _ ft h5, ?_⟩
    rw [lookupTable_ok h2, lookupTable_ok h4, lookupTable_ok h6, lookupTable_ok h7, ← hx.2]
    rfl
  | false =>
    simp only [speedTables, Bool.false_eq_true, if_false] at h
    rw [bind_eq_ok] at h
    obtain ⟨ff, h1, h⟩ := h
    rw [bind_eq_ok] at h
    obtain ⟨t1, h2, h⟩ := h
    simp only [bind_eq_ok, pure_eq_ok, Except.ok.injEq] at h
    obtain ⟨r0, rfl, t2, h4, ft, h5, t3, h6, t4, h7, rfl⟩ := h
    refine ⟨ff, ft, hff ff h1, hft _ ft h5, ?_⟩
    rw [lookupTable_ok h2, lookupTable_ok h4, lookupTable_ok h6, lookupTable_ok h7]
    rfl

/-- What is written for a cooling speed. -/
theorem coolSpeed_ok {sys : String} {normalize : Bool} {U : IdfUnit C K} {speed : Nat} {x : List IField × List IObj} (h : coolSpeed fmt sys normalize U speed = .ok x) :
    ∃ c cap cop shr, U.coolCondition speed none = .ok c ∧ U.coolCap (some c) = .ok cap ∧ U.coolCop c = .ok cop ∧ U.shr c = .ok shr ∧
      x.1 = coolSpeedFields fmt sys (U.nCool - speed) cap shr cop (U.ratedFlow c) ∧
      speedTables fmt sys "Cooling" normalize U.setRatio (U.coolCondition speed) (fun c => U.coolCap (some c)) U.coolCop coolIndoor coolOutdoor c cap cop (U.nCool - speed) =
        .ok x.2 := by
  simp only [coolSpeed, bind_eq_ok, pure_eq_ok, Except.ok.injEq] at h
  obtain ⟨c, h1, cap, h2, cop, h3, shr, h4, ts, h5, rfl⟩ := h
  exact ⟨c, cap, cop, shr, h1, h2, h3, h4, rfl, h5⟩

/-- What is written for a heating speed. -/
theorem heatSpeed_ok {sys : String} {normalize : Bool} {U : IdfUnit C K} {speed : Nat} {x : List IField × List IObj} (h : heatSpeed fmt sys normalize U speed = .ok x) :
    ∃ c cap cop, U.heatCondition speed none = .ok c ∧ U.heatCap (some c) = .ok cap ∧ U.heatCop c = .ok cop ∧
      x.1 = heatSpeedFields fmt sys (U.nHeat - speed) cap cop (U.ratedFlow c) ∧
      speedTables fmt sys "Heating" normalize U.setRatio (U.heatCondition speed) (fun c => U.heatCap (some c)) U.heatCop heatIndoor (heatOutdoor U) c cap cop (U.nHeat - speed) =
        .ok x.2 := by
  simp only [heatSpeed, bind_eq_ok, pure_eq_ok, Except.ok.injEq] at h
  obtain ⟨c, h1, cap, h2, cop, h3, ts, h5, rfl⟩ := h
  exact ⟨c, cap, cop, h1, h2, h3, rfl, h5⟩

end Resdx.Idf
