import Verif.Lemmas.IdfRefs
import Verif.Lemmas.IdfTables
import Verif.Lemmas.IdfPlain
import Verif.Model.Hspf
import Mathlib.Algebra.Order.Ring.Rat

/-! # EnergyPlus input (C61–C64, C84–C87) -/

set_option linter.unusedSectionVars false
set_option linter.unusedSimpArgs false

namespace Resdx.Idf

open Spec.Idf

variable {C K : Type} [Field K] [LinearOrder K] {fmt : K → Nat → String}

/-! ## C61: the text reads back -/

/-- C61: whatever the objects, if their texts hold no separators, the file is written, and an EnergyPlus reader finds the same classes, values and field names in the same
order. -/
theorem C61_round_trip (objs : List IObj) (hne : ∀ o ∈ objs, o.fields ≠ []) (hcls : ∀ o ∈ objs, Plain o.cls.toList)
    (hf : ∀ o ∈ objs, ∀ f ∈ o.fields, Plain f.value.toList ∧ ∀ c ∈ f.name.toList, c ≠ '\n') :
    ∃ s, writeObjects objs = .ok s ∧
      readText s.toList = objs.map fun o => (o.cls.toList, []) :: o.fields.map fun f => (f.value.toList, f.name.toList) := by
  have hw : ∃ ss, objs.mapM writeObject = .ok ss := by
    refine mapM_isOk _ _ fun o ho => ?_
    have := hne o ho
    cases hfs : o.fields with
    | nil => exact absurd hfs this
    | cons f l => exact ⟨_, by simp only [writeObject, hfs, spacing, bind_ok, pure_eq_ok]; rfl⟩
  obtain ⟨ss, hss⟩ := hw
  refine ⟨ss.foldl (· ++ ·) "", by simp only [writeObjects, hss, bind_ok, pure_eq_ok], ?_⟩
  have hs := scan_objects hss (fun o ho => ⟨hcls o ho, hf o ho⟩) [] (by simp) []
  simp only [List.reverse_nil, List.nil_append] at hs
  unfold readText
  rw [hs, group_objects objs hne, List.map_map]
  refine List.map_congr_left fun o _ => ?_
  simp only [Function.comp_apply, objTokens, List.map_cons, tokensOf_read]
  rfl

/-- C61: an object without fields cannot be written: `ValueError`. -/
theorem C61_no_fields (pre post : List IObj) (cls : String) (hne : ∀ o ∈ pre, o.fields ≠ []) : writeObjects (pre ++ ⟨cls, []⟩ :: post) = .error .value := by
  have hw : ∃ ss, pre.mapM writeObject = .ok ss := by
    refine mapM_isOk _ _ fun o ho => ?_
    have := hne o ho
    cases hfs : o.fields with
    | nil => exact absurd hfs this
    | cons f l => exact ⟨_, by simp only [writeObject, hfs, spacing, bind_ok, pure_eq_ok]; rfl⟩
  obtain ⟨ss, hss⟩ := hw
  simp only [writeObjects, List.mapM_append, hss, List.mapM_cons, writeObject, spacing, bind_ok, bind_error]

/-- C61: a comma in a value (a system name, say) changes what is read. -/
example : ∃ s, writeObjects [⟨"Fan", [⟨"a,b", "Name"⟩]⟩] = .ok s ∧
    readText s.toList ≠ [("Fan".toList, []), ("a,b".toList, "Name".toList)] :: [] := ⟨_, rfl, by decide +kernel⟩

example : ∃ s, writeObjects [⟨"Fan", [⟨"My fan", "Name"⟩, ⟨"", "Curve"⟩, ⟨"0.50", "Efficiency {-}"⟩]⟩, ⟨"Coil", [⟨"c", "Name"⟩]⟩] = .ok s ∧
    readText s.toList = [[("Fan".toList, []), ("My fan".toList, "Name".toList), ([], "Curve".toList), ("0.50".toList, "Efficiency {-}".toList)],
      [("Coil".toList, []), ("c".toList, "Name".toList)]] := ⟨_, rfl, by decide +kernel⟩

/-! ## C62: names and references -/

variable {name : Option String} {st : SystemType} {autosize normalize : Bool} {U : IdfUnit C K} {objs : List IObj}

/-- C62: every object has a name, and no two objects have the same. -/
theorem C62_names (h : idfObjects fmt name st autosize normalize U = .ok objs) : (∀ o ∈ objs, (nameOf o).isSome) ∧ (objs.map nameOf).Nodup := by
  refine ⟨fun o ho => ?_, idf_names_nodup h⟩
  have : nameOf o ∈ objs.map nameOf := List.mem_map_of_mem ho
  rw [idf_names h, namesOf, List.mem_map] at this
  obtain ⟨x, _, hx⟩ := this
  rw [← hx]
  rfl

/-- C62: every reference to a schedule, curve, table, table axis, fan or coil is the name of exactly one object of the file, of the right class. -/
theorem C62_references (h : idfObjects fmt name st autosize normalize U = .ok objs) : ReferencesResolved objs := by
  intro o ho f hf classes hr hv
  obtain ⟨c, hc, t, ht, hn, rfl⟩ := idf_fields h o ho f hf classes hr hv
  exact ⟨t, named_of_mem (idf_names_nodup h) ht hn, hc⟩

/-! ## C63: the air path -/

/-- The classes of the objects along the air path. -/
def pathClasses : SystemType → List String
  | .unitarySystem => ["Coil:Cooling:DX:VariableSpeed", "Coil:Heating:DX:VariableSpeed", "Fan:SystemModel"]
  | .pthp => ["Coil:Cooling:DX:VariableSpeed", "Coil:Heating:DX:VariableSpeed", "Fan:SystemModel", "Coil:Heating:Electric"]

/-- The class of the system object. -/
def systemClass : SystemType → String
  | .unitarySystem => "AirLoopHVAC:UnitarySystem"
  | .pthp => "ZoneHVAC:PackagedTerminalHeatPump"

/-- C63: for every system type the coils and fan form one connected air path from the inlet to the outlet node of the system, in the order cooling coil, heating coil, fan
(and supplemental coil); no other object of the file has air nodes, and no node is used twice as an inlet. -/
theorem C63_air_path (h : idfObjects fmt name st autosize normalize U = .ok objs) :
    ∃ system path inlet outlet, (objs.filter hasInlet).Perm (system :: path) ∧ system.cls = systemClass st ∧ path.map IObj.cls = pathClasses st ∧
      valueOf system "Air Inlet Node Name" = some inlet ∧ valueOf system "Air Outlet Node Name" = some outlet ∧ Connected inlet path outlet ∧
      (path.map fun o => valueOf o "Air Inlet Node Name").Nodup ∧ ∀ o ∈ path, valueOf o "Air Inlet Node Name" ≠ some outlet := by
  obtain ⟨system, fan, ccap, cs, hcap, on, tf, eir, hs, h1, h2, h3, h4, h5, h6, h7, h8, h9, rfl⟩ := idfObjects_ok h
  have hc := (speeds_forall h4 (fun _ => True) (fun o => hasInlet o = false) (by
    intro s _ x hx
    obtain ⟨_, _, _, _, _, _, _, _, _, hx⟩ := coolSpeed_ok hx
    exact ⟨fun _ _ => trivial, hasInlet_speedTables hx⟩)).2
  have hh := (speeds_forall h9 (fun _ => True) (fun o => hasInlet o = false) (by
    intro s _ x hx
    obtain ⟨_, _, _, _, _, _, _, hx⟩ := heatSpeed_ok hx
    exact ⟨fun _ _ => trivial, hasInlet_speedTables hx⟩)).2
  obtain ⟨_, _, _, pressure, flow, minRatio, power, eff, speeds, _, _, _, _, _, _, _, _, _, hfan⟩ := fanObject_ok h2
  generalize hS : prefixOf name = sys at *
  generalize hA : (⟨"Coil:Cooling:DX:VariableSpeed", coolHeader fmt sys autosize U ccap ++ (cs.map Prod.fst).flatten⟩ : IObj) = cool at *
  generalize hB : (⟨"Coil:Heating:DX:VariableSpeed", heatHeader fmt sys autosize U hcap on tf ++ (hs.map Prod.fst).flatten⟩ : IObj) = heat at *
  have ne : ∀ a b : String, a ≠ b → sys ++ a ≠ sys ++ b := fun a b hab e => hab ((String.append_right_inj _).1 e)
  have c1 : valueOf cool "Air Inlet Node Name" = some (sys ++ "Unitary Inlet Node") := by rw [← hA]; simp [valueOf, coolHeader]
  have c2 : valueOf cool "Air Outlet Node Name" = some (sys ++ "Cooling Coil Outlet Node") := by rw [← hA]; simp [valueOf, coolHeader]
  have b1 : valueOf heat "Air Inlet Node Name" = some (sys ++ "Cooling Coil Outlet Node") := by rw [← hB]; simp [valueOf, heatHeader]
  have b2 : valueOf heat "Air Outlet Node Name" = some (sys ++ "Heating Coil Outlet Node") := by rw [← hB]; simp [valueOf, heatHeader]
  have f1 : valueOf fan "Air Inlet Node Name" = some (sys ++ "Heating Coil Outlet Node") := by rw [hfan]; simp [valueOf, fanHeader]
  have f2 : valueOf fan "Air Outlet Node Name" = some (if st = .unitarySystem then sys ++ "Unitary Outlet Node" else sys ++ "Supply Fan Outlet Node") := by
    rw [hfan]; simp [valueOf, fanHeader]
  have f3 : fan.cls = "Fan:SystemModel" := by rw [hfan]
  have c3 : cool.cls = "Coil:Cooling:DX:VariableSpeed" := by rw [← hA]
  have b3 : heat.cls = "Coil:Heating:DX:VariableSpeed" := by rw [← hB]
  have hfilter : (system ++ (schedules sys ++ (fan :: (axes fmt sys U ++ (cool :: coolCurve fmt sys U :: ((cs.map Prod.snd).flatten ++
      (heat :: (heatCurves fmt sys U eir ++ (hs.map Prod.snd).flatten)))))))).filter hasInlet = system.filter hasInlet ++ [fan, cool, heat] := by
    simp only [List.filter_append, List.filter_cons, filter_none (hasInlet_schedules _), filter_none (hasInlet_axes _ _), filter_none hc, filter_none hh,
      filter_none (hasInlet_heatCurves _ _ _), hasInlet_coolCurve, show hasInlet fan = true by simp [hasInlet, f1], show hasInlet cool = true by simp [hasInlet, c1],
      show hasInlet heat = true by simp [hasInlet, b1]]
    simp
  rw [hfilter]
  cases st with
  | unitarySystem =>
    simp only [systemObjects, bind_eq_ok, pure_eq_ok, Except.ok.injEq] at h1
    obtain ⟨_, _, _, _, ratio, _, rfl⟩ := h1
    refine ⟨unitaryObject fmt sys ratio, [cool, heat, fan], sys ++ "Unitary Inlet Node", sys ++ "Unitary Outlet Node", ?_, rfl, ?_, ?_, ?_, ?_, ?_, ?_⟩
    · rw [show [unitaryObject fmt sys ratio].filter hasInlet = [unitaryObject fmt sys ratio] by simp [hasInlet, valueOf, unitaryObject]]
      refine List.Perm.cons _ ?_
      exact (List.Perm.swap cool fan [heat]).trans (List.Perm.cons _ (List.Perm.swap heat fan []))
    · simp [pathClasses, c3, b3, f3]
    · simp [valueOf, unitaryObject]
    · simp [valueOf, unitaryObject]
    · exact ⟨c1, _, c2, ne _ _ (by decide), b1, _, b2, ne _ _ (by decide), f1, _, f2, ne _ _ (by decide), rfl⟩
    · simp only [List.map_cons, List.map_nil, c1, b1, f1]
      simp [ne]
    · simp [c1, b1, f1, ne]
  | pthp =>
    simp only [systemObjects, Except.ok.injEq] at h1
    subst h1
    refine ⟨(pthpObjects fmt sys)[0]'(by simp [pthpObjects]), [cool, heat, fan, (pthpObjects fmt sys)[1]'(by simp [pthpObjects])], sys ++ "Unitary Inlet Node",
      sys ++ "Unitary Outlet Node", ?_, rfl, ?_, ?_, ?_, ?_, ?_, ?_⟩
    · rw [show (pthpObjects fmt sys).filter hasInlet = [(pthpObjects fmt sys)[0]'(by simp [pthpObjects]), (pthpObjects fmt sys)[1]'(by simp [pthpObjects])] by
        simp [hasInlet, valueOf, pthpObjects]]
      refine List.Perm.cons _ ?_
      generalize (pthpObjects fmt sys)[1]'(by simp [pthpObjects]) = supp
      refine (List.Perm.swap fan supp [cool, heat]).trans ?_
      refine ((List.Perm.swap cool supp [heat]).cons _).trans ?_
      refine (List.Perm.swap cool fan [supp, heat]).trans (List.Perm.cons _ ?_)
      refine ((List.Perm.swap heat supp []).cons _).trans ?_
      exact List.Perm.swap heat fan [supp]
    · simp [pathClasses, c3, b3, f3, pthpObjects]
    · simp [valueOf, pthpObjects]
    · simp [valueOf, pthpObjects]
    · exact ⟨c1, _, c2, ne _ _ (by decide), b1, _, b2, ne _ _ (by decide), f1, _, f2, ne _ _ (by decide), by simp [valueOf, pthpObjects], sys ++ "Unitary Outlet Node",
        by simp [valueOf, pthpObjects], ne _ _ (by decide), rfl⟩
    · have s1 : valueOf ((pthpObjects fmt sys)[1]'(by simp [pthpObjects])) "Air Inlet Node Name" = some (sys ++ "Supply Fan Outlet Node") := by simp [valueOf, pthpObjects]
      simp only [List.map_cons, List.map_nil, c1, b1, f1, s1]
      simp [ne]
    · have s1 : valueOf ((pthpObjects fmt sys)[1]'(by simp [pthpObjects])) "Air Inlet Node Name" = some (sys ++ "Supply Fan Outlet Node") := by simp [valueOf, pthpObjects]
      simp only [List.forall_mem_cons, c1, b1, f1, s1]
      simp [ne]

/-! ## C64: speeds -/

/-- The fields of a coil after its first `n`, cut into the groups of the speeds. -/
def speedGroups (coil : IObj) (n : Nat) (groups : List (List IField)) : Prop := coil.fields.drop n = groups.flatten

/-- C64: the cooling coil has one group of fields for each speed, after its 21 other fields. Group `k` of `n` holds what the unit has at speed `n - k` at its rating
condition, and names the tables of the unit at that speed. -/
theorem C64_cooling (h : idfObjects fmt name st autosize normalize U = .ok objs) :
    ∃ coil groups, coil ∈ objs ∧ coil.cls = "Coil:Cooling:DX:VariableSpeed" ∧ valueOf coil "Number of Speeds" = some (toString U.nCool) ∧ speedGroups coil 21 groups ∧
      groups.length = U.nCool ∧ ∀ k, 1 ≤ k → k ≤ U.nCool → ∃ g c cap cop shr capT capF eirT eirF, groups[k - 1]? = some g ∧
        (∀ f ∈ g, ∃ t, f.name = "Speed " ++ toString k ++ t) ∧
        U.coolCondition (U.nCool - k) none = .ok c ∧ U.coolCap (some c) = .ok cap ∧ U.coolCop c = .ok cop ∧ U.shr c = .ok shr ∧
        g.map IField.value = [fmt cap 1, fmt shr 3, fmt cop 3, fmt (U.ratedFlow c) 4, "", "", capT, capF, eirT, eirF] ∧
        SpeedTabulated fmt fToC objs normalize (fun x y => U.coolCondition (U.nCool - k) (some (x, y))) U.setRatio (fun c => U.coolCap (some c)) U.coolCop
          [50, 67, 80] [55, 82, 95, 125] [0.75, 1, 1.25] c cap cop capT capF eirT eirF := by
  have hn := idf_names_nodup h
  obtain ⟨system, fan, ccap, cs, hcap, on, tf, eir, hs, h1, h2, h3, h4, h5, h6, h7, h8, h9, e⟩ := idfObjects_ok h
  obtain ⟨hl, hr⟩ := reverse_loop h4
  have hax := idf_axes (fmt := fmt) (sys := prefixOf name) (U := U) (objs := objs) (fun o ho => by rw [e]; simp [ho]) hn
  refine ⟨⟨"Coil:Cooling:DX:VariableSpeed", coolHeader fmt (prefixOf name) autosize U ccap ++ (cs.map Prod.fst).flatten⟩, cs.map Prod.fst, by rw [e]; simp, rfl, ?_, ?_,
    by simp [hl], ?_⟩
  · simp [valueOf, coolHeader]
  · simp [speedGroups, coolHeader]
  · intro k hk1 hk2
    obtain ⟨b, hb, hb'⟩ := hr (k - 1) (by omega)
    rw [show U.nCool - 1 - (k - 1) = U.nCool - k by omega] at hb'
    obtain ⟨c, cap, cop, shr, e1, e2, e3, e4, e5, e6⟩ := coolSpeed_ok hb'
    rw [show U.nCool - (U.nCool - k) = k by omega] at e5 e6
    refine ⟨b.1, c, cap, cop, shr, prefixOf name ++ "Cooling CapfT " ++ toString k, prefixOf name ++ "Cooling CapfFF " ++ toString k, prefixOf name ++ "Cooling EIRfT " ++ toString k, prefixOf name ++ "Cooling EIRfFF " ++ toString k,
      by simp [hb], ?_, e1, e2, e3, e4, ?_, ?_⟩
    rotate_left
    · rw [e5]
      simp only [coolSpeedFields, List.map_cons, List.map_nil]
    · have := speedTables_right (objs := objs) (xa := independentVariable fmt (prefixOf name ++ "Cooling Indoor Wetbulb") "Temperature" (fToC 67) (coolIndoor.map fToC))
        (ya := independentVariable fmt (prefixOf name ++ "Cooling Outdoor Drybulb") "Temperature" (fToC 95) (coolOutdoor.map fToC))
        (fa := independentVariable fmt (prefixOf name ++ "Coil Flow Fraction") "Dimensionless" 1 flowFractions) e6 ?_ hn ?_ hax.2.2 ?_ ?_ ?_
      · simpa only [String.append_assoc, show ∀ s t : String, "Cooling" ++ (s ++ t) = ("Cooling" ++ s) ++ t from fun s t => (String.append_assoc).symm,
          show "Cooling" ++ " CapfT " = "Cooling CapfT " by decide, show "Cooling" ++ " CapfFF " = "Cooling CapfFF " by decide,
          show "Cooling" ++ " EIRfT " = "Cooling EIRfT " by decide, show "Cooling" ++ " EIRfFF " = "Cooling EIRfFF " by decide, coolIndoor, coolOutdoor, flowFractions] using this
      · intro o ho
        have : o ∈ (cs.map Prod.snd).flatten := List.mem_flatten.2 ⟨b.2, List.mem_map_of_mem (List.mem_of_getElem? hb), ho⟩
        rw [e]
        simp only [List.mem_append, List.mem_cons]
        tauto
      · rw [String.append_assoc, show "Cooling" ++ " fT List" = "Cooling fT List" by decide]
        exact hax.1
      · rw [tableValues_axis, List.map_map]; rfl
      · rw [tableValues_axis, List.map_map]; rfl
      · rw [tableValues_axis]
    · rw [e5]
      intro f hf
      simp only [coolSpeedFields, List.mem_cons, List.not_mem_nil, or_false] at hf
      rcases hf with rfl | rfl | rfl | rfl | rfl | rfl | rfl | rfl | rfl | rfl <;> exact ⟨_, rfl⟩

/-- C64: the heating coil has one group of fields for each speed, after its 18 other fields. Group `k` of `n` holds what the unit has at speed `n - k` at its rating
condition, and names the tables of the unit at that speed. -/
theorem C64_heating (h : idfObjects fmt name st autosize normalize U = .ok objs) :
    ∃ coil groups, coil ∈ objs ∧ coil.cls = "Coil:Heating:DX:VariableSpeed" ∧ valueOf coil "Number of Speeds" = some (toString U.nHeat) ∧ speedGroups coil 18 groups ∧
      groups.length = U.nHeat ∧ ∀ k, 1 ≤ k → k ≤ U.nHeat → ∃ g c cap cop capT capF eirT eirF, groups[k - 1]? = some g ∧
        (∀ f ∈ g, ∃ t, f.name = "Speed " ++ toString k ++ t) ∧
        U.heatCondition (U.nHeat - k) none = .ok c ∧ U.heatCap (some c) = .ok cap ∧ U.heatCop c = .ok cop ∧
        g.map IField.value = [fmt cap 2, fmt cop 3, fmt (U.ratedFlow c) 2, capT, capF, eirT, eirF] ∧
        SpeedTabulated fmt fToC objs normalize (fun x y => U.heatCondition (U.nHeat - k) (some (x, y))) U.setRatio (fun c => U.heatCap (some c)) U.heatCop
          [60, 70, 80] [toF U.off, 5, 17, 47, 60] [0.75, 1, 1.25] c cap cop capT capF eirT eirF := by
  have hn := idf_names_nodup h
  obtain ⟨system, fan, ccap, cs, hcap, on, tf, eir, hs, h1, h2, h3, h4, h5, h6, h7, h8, h9, e⟩ := idfObjects_ok h
  obtain ⟨hl, hr⟩ := reverse_loop h9
  have hax := idf_axes (fmt := fmt) (sys := prefixOf name) (U := U) (objs := objs) (fun o ho => by rw [e]; simp [ho]) hn
  refine ⟨⟨"Coil:Heating:DX:VariableSpeed", heatHeader fmt (prefixOf name) autosize U hcap on tf ++ (hs.map Prod.fst).flatten⟩, hs.map Prod.fst, by rw [e]; simp, rfl, ?_, ?_,
    by simp [hl], ?_⟩
  · simp [valueOf, heatHeader]
  · simp [speedGroups, heatHeader]
  · intro k hk1 hk2
    obtain ⟨b, hb, hb'⟩ := hr (k - 1) (by omega)
    rw [show U.nHeat - 1 - (k - 1) = U.nHeat - k by omega] at hb'
    obtain ⟨c, cap, cop, e1, e2, e3, e5, e6⟩ := heatSpeed_ok hb'
    rw [show U.nHeat - (U.nHeat - k) = k by omega] at e5 e6
    refine ⟨b.1, c, cap, cop, prefixOf name ++ "Heating CapfT " ++ toString k, prefixOf name ++ "Heating CapfFF " ++ toString k, prefixOf name ++ "Heating EIRfT " ++ toString k, prefixOf name ++ "Heating EIRfFF " ++ toString k,
      by simp [hb], ?_, e1, e2, e3, ?_, ?_⟩
    rotate_left
    · rw [e5]
      simp only [heatSpeedFields, List.map_cons, List.map_nil]
    · have := speedTables_right (objs := objs) (xa := independentVariable fmt (prefixOf name ++ "Heating Indoor Drybulb") "Temperature" (fToC 70) (heatIndoor.map fToC))
        (ya := independentVariable fmt (prefixOf name ++ "Heating Outdoor Drybulb") "Temperature" (fToC 47) ((heatOutdoor U).map fToC))
        (fa := independentVariable fmt (prefixOf name ++ "Coil Flow Fraction") "Dimensionless" 1 flowFractions) e6 ?_ hn ?_ hax.2.2 ?_ ?_ ?_
      · simpa only [String.append_assoc, show ∀ s t : String, "Heating" ++ (s ++ t) = ("Heating" ++ s) ++ t from fun s t => (String.append_assoc).symm,
          show "Heating" ++ " CapfT " = "Heating CapfT " by decide, show "Heating" ++ " CapfFF " = "Heating CapfFF " by decide,
          show "Heating" ++ " EIRfT " = "Heating EIRfT " by decide, show "Heating" ++ " EIRfFF " = "Heating EIRfFF " by decide, heatIndoor, heatOutdoor, flowFractions] using this
      · intro o ho
        have : o ∈ (hs.map Prod.snd).flatten := List.mem_flatten.2 ⟨b.2, List.mem_map_of_mem (List.mem_of_getElem? hb), ho⟩
        rw [e]
        simp only [List.mem_append, List.mem_cons]
        tauto
      · rw [String.append_assoc, show "Heating" ++ " fT List" = "Heating fT List" by decide]
        exact hax.2.1
      · rw [tableValues_axis, List.map_map]; rfl
      · rw [tableValues_axis, List.map_map]; rfl
      · rw [tableValues_axis]
    · rw [e5]
      intro f hf
      simp only [heatSpeedFields, List.mem_cons, List.not_mem_nil, or_false] at hf
      rcases hf with rfl | rfl | rfl | rfl | rfl | rfl | rfl <;> exact ⟨_, rfl⟩

/-- C64: the nominal speed level of the coils is the place of the full-load speed. -/
theorem C64_nominal (h : idfObjects fmt name st autosize normalize U = .ok objs) (hc : U.coolFull < U.nCool) (hh : U.heatFull < U.nHeat) :
    ∃ cool heat kc kh, cool ∈ objs ∧ heat ∈ objs ∧ cool.cls = "Coil:Cooling:DX:VariableSpeed" ∧ heat.cls = "Coil:Heating:DX:VariableSpeed" ∧
      valueOf cool "Nominal Speed Level" = some (toString (kc : Nat)) ∧ 1 ≤ kc ∧ kc ≤ U.nCool ∧ U.nCool - kc = U.coolFull ∧
      valueOf heat "Nominal Speed Level" = some (toString (kh : Nat)) ∧ 1 ≤ kh ∧ kh ≤ U.nHeat ∧ U.nHeat - kh = U.heatFull := by
  obtain ⟨system, fan, ccap, cs, hcap, on, tf, eir, hs, h1, h2, h3, h4, h5, h6, h7, h8, h9, e⟩ := idfObjects_ok h
  refine ⟨⟨"Coil:Cooling:DX:VariableSpeed", coolHeader fmt (prefixOf name) autosize U ccap ++ (cs.map Prod.fst).flatten⟩,
    ⟨"Coil:Heating:DX:VariableSpeed", heatHeader fmt (prefixOf name) autosize U hcap on tf ++ (hs.map Prod.fst).flatten⟩, U.nCool - U.coolFull, U.nHeat - U.heatFull,
    by rw [e]; simp, by rw [e]; simp, rfl, rfl, ?_, by omega, by omega, by omega, ?_, by omega, by omega, by omega⟩
  · rw [show (toString (U.nCool - U.coolFull) : String) = toString ((U.nCool : Int) - (U.coolFull : Int)) by
      rw [show (U.nCool : Int) - (U.coolFull : Int) = ((U.nCool - U.coolFull : Nat) : Int) by omega]; rfl]
    simp [valueOf, coolHeader]
  · rw [show (toString (U.nHeat - U.heatFull) : String) = toString ((U.nHeat : Int) - (U.heatFull : Int)) by
      rw [show (U.nHeat : Int) - (U.heatFull : Int) = ((U.nHeat - U.heatFull : Nat) : Int) by omega]; rfl]
    simp [valueOf, heatHeader]

/-! ## C84: table axes -/

section
variable [IsStrictOrderedRing K]

theorem fToC_lt {a b : K} : fToC a < fToC b ↔ a < b := by
  unfold fToC
  rw [toC, toC, sub_lt_sub_iff_right, frF_lt]

/-- C84: the values of every table axis increase strictly if the cut-out temperature is below 5 °F. -/
theorem C84_axes_increasing_partial (h : idfObjects fmt name st autosize normalize U = .ok objs) (hoff : U.off < frF 5) :
    ∀ a ∈ objs, a.cls = "Table:IndependentVariable" → ∃ xs : List K, tableValues a = xs.map (fun x => fmt x 2) ∧ xs.Pairwise (· < ·) := by
  obtain ⟨system, fan, ccap, cs, hcap, on, tf, eir, hs, h1, h2, h3, h4, h5, h6, h7, h8, h9, rfl⟩ := idfObjects_ok h
  have hc := (speeds_forall h4 (fun _ => True) (fun o => o.cls = "Table:Lookup") (by
    intro s _ x hx
    obtain ⟨_, _, _, _, _, _, _, _, _, hx⟩ := coolSpeed_ok hx
    obtain ⟨_, _, _, _, e⟩ := speedTables_ok hx
    exact ⟨fun _ _ => trivial, by rw [e]; simp [tableObj]⟩)).2
  have hh := (speeds_forall h9 (fun _ => True) (fun o => o.cls = "Table:Lookup") (by
    intro s _ x hx
    obtain ⟨_, _, _, _, _, _, _, hx⟩ := heatSpeed_ok hx
    obtain ⟨_, _, _, _, e⟩ := speedTables_ok hx
    exact ⟨fun _ _ => trivial, by rw [e]; simp [tableObj]⟩)).2
  have hfan : fan.cls = "Fan:SystemModel" := by
    obtain ⟨_, _, _, _, _, _, _, _, _, _, _, _, _, _, _, _, _, _, hf⟩ := fanObject_ok h2
    rw [hf]
  have hsys : ∀ o ∈ system, o.cls ≠ "Table:IndependentVariable" := by
    cases st with
    | unitarySystem =>
      simp only [systemObjects, bind_eq_ok, pure_eq_ok, Except.ok.injEq] at h1
      obtain ⟨_, _, _, _, _, _, rfl⟩ := h1
      simp [unitaryObject]
    | pthp =>
      simp only [systemObjects, Except.ok.injEq] at h1
      rw [← h1]
      simp [pthpObjects]
  have ax : ∀ (n u : String) (r : K) (l : List K), l.Pairwise (· < ·) →
      ∃ xs : List K, tableValues (independentVariable fmt n u r (l.map fToC)) = xs.map (fun x => fmt x 2) ∧ xs.Pairwise (· < ·) := by
    intro n u r l hl
    refine ⟨l.map fToC, tableValues_axis _ _ _ _, ?_⟩
    rw [List.pairwise_map]
    exact hl.imp fun hab => fToC_lt.2 hab
  intro a ha hcl
  simp only [List.mem_append, List.mem_cons] at ha
  rcases ha with ha | ha | rfl | ha | rfl | rfl | ha | rfl | ha | ha
  · exact absurd hcl (hsys a ha)
  · simp only [schedules, List.mem_cons, List.not_mem_nil, or_false] at ha
    rcases ha with rfl | rfl <;> simp at hcl
  · rw [hfan] at hcl; simp at hcl
  · simp only [axes, List.mem_cons, List.not_mem_nil, or_false] at ha
    rcases ha with rfl | rfl | rfl | rfl | rfl | rfl | rfl | rfl
    · exact ax _ _ _ _ (by simp only [coolOutdoor]; norm_num)
    · exact ax _ _ _ _ (by simp only [coolIndoor]; norm_num)
    · simp at hcl
    · exact ⟨_, tableValues_axis _ _ _ _, by simp only [flowFractions]; norm_num⟩
    · simp at hcl
    · refine ax _ _ _ _ ?_
      have : toF U.off < 5 := by rw [← toF_frF (5 : K)]; exact toF_lt.2 hoff
      simp only [heatOutdoor, List.pairwise_cons, List.mem_cons, List.not_mem_nil, or_false, forall_eq_or_imp, forall_eq]
      refine ⟨⟨this, by linarith, by linarith, by linarith⟩, ?_⟩
      norm_num
    · exact ax _ _ _ _ (by simp only [heatIndoor]; norm_num)
    · simp at hcl
  · simp at hcl
  · simp [coolCurve] at hcl
  · rw [hc a ha] at hcl; simp at hcl
  · simp at hcl
  · simp only [heatCurves, List.mem_cons, List.not_mem_nil, or_false] at ha
    rcases ha with rfl | rfl <;> simp at hcl
  · rw [hh a ha] at hcl; simp at hcl

/-- C84 is false of units whose compressor is cut out at 5 °F or above: the outdoor axis of every heating table then starts with a value that is not below the second. -/
theorem C84_axes_increasing_refuted (h : idfObjects fmt name st autosize normalize U = .ok objs) (hoff : frF 5 ≤ U.off) :
    ∃ a ∈ objs, a.cls = "Table:IndependentVariable" ∧ ∃ (x y : K) (rest : List K), tableValues a = (x :: y :: rest).map (fun x => fmt x 2) ∧ y ≤ x := by
  obtain ⟨system, fan, ccap, cs, hcap, on, tf, eir, hs, h1, h2, h3, h4, h5, h6, h7, h8, h9, e⟩ := idfObjects_ok h
  refine ⟨independentVariable fmt (prefixOf name ++ "Heating Outdoor Drybulb") "Temperature" (fToC 47) ((heatOutdoor U).map fToC), by rw [e]; simp [axes], rfl, fToC (toF U.off),
    fToC 5, [fToC 17, fToC 47, fToC 60], tableValues_axis _ _ _ _, ?_⟩
  have : 5 ≤ toF U.off := by rw [← toF_frF (5 : K)]; exact toF_le.2 hoff
  exact not_lt.1 fun hlt => absurd (fToC_lt.1 hlt) (not_lt.2 this)

end

/-! ## C85: normalised tables at the rating point -/

/-- The cell of a speed's table. -/
def Cell (objs : List IObj) (tableName : String) (i : Nat) (v : String) : Prop := ∃ t, named objs tableName = [t] ∧ (tableValues t)[i]? = some v

/-- C85: if the conditions made for 67 °F wet bulb and 95 °F outdoors give the speed's rated capacity and COP, the normalised cooling tables are one there. -/
theorem C85_cooling (h : idfObjects fmt name st autosize true U = .ok objs)
    (hr : ∀ s c c', U.coolCondition s (some (67, 95)) = .ok c → U.coolCondition s none = .ok c' → U.coolCap (some c) = U.coolCap (some c') ∧ U.coolCop c = U.coolCop c')
    (h0 : ∀ c, U.coolCap (some c) ≠ .ok 0) :
    ∃ coil groups, coil ∈ objs ∧ coil.cls = "Coil:Cooling:DX:VariableSpeed" ∧ speedGroups coil 21 groups ∧ groups.length = U.nCool ∧
      ∀ k < U.nCool, ∃ g capT eirT, groups[k]? = some g ∧ (g.map IField.value)[6]? = some capT ∧ (g.map IField.value)[8]? = some eirT ∧ Cell objs capT 6 (fmt 1 2) ∧ Cell objs eirT 6 (fmt 1 4) := by
  obtain ⟨coil, groups, h1, h2, h3, h4, h5, h6⟩ := C64_cooling h
  refine ⟨coil, groups, h1, h2, h4, h5, fun k hk => ?_⟩
  obtain ⟨g, c, cap, cop, shr, capT, capF, eirT, eirF, e1, _, e2, e3, e4, e5, e6, e7⟩ := h6 (k + 1) (by omega) (by omega)
  rw [Nat.add_sub_cancel] at e1
  refine ⟨g, capT, eirT, e1, by rw [e6]; rfl, by rw [e6]; rfl, ?_, ?_⟩
  · obtain ⟨t, t1, _, _, _, _, _, _, _, t2⟩ := e7.capT
    obtain ⟨s, t3, c', q, t4, t5, t6⟩ := t2 1 2 67 95 rfl rfl
    refine ⟨t, t1, ?_⟩
    have hq : (q : K) = cap := by
      rw [(hr _ _ _ t4 e2).1, e3] at t5
      exact (Except.ok.inj t5).symm
    subst hq
    have hne : q ≠ 0 := fun h => h0 c (h ▸ e3)
    rw [if_pos rfl, div_self hne] at t6
    rw [← t6]
    exact t3
  · obtain ⟨t, t1, _, _, _, _, _, _, _, t2⟩ := e7.eirT
    obtain ⟨s, t3, c', e, t4, t5, hne, t6⟩ := t2 1 2 67 95 rfl rfl
    refine ⟨t, t1, ?_⟩
    have he : (e : K) = cop := by
      rw [(hr _ _ _ t4 e2).2, e4] at t5
      exact (Except.ok.inj t5).symm
    subst he
    rw [if_pos rfl, div_self (one_div_ne_zero hne)] at t6
    rw [← t6]
    exact t3

/-- C85: the same for heating at 70 °F indoors and 47 °F outdoors. -/
theorem C85_heating (h : idfObjects fmt name st autosize true U = .ok objs)
    (hr : ∀ s c c', U.heatCondition s (some (70, 47)) = .ok c → U.heatCondition s none = .ok c' → U.heatCap (some c) = U.heatCap (some c') ∧ U.heatCop c = U.heatCop c')
    (h0 : ∀ c, U.heatCap (some c) ≠ .ok 0) :
    ∃ coil groups, coil ∈ objs ∧ coil.cls = "Coil:Heating:DX:VariableSpeed" ∧ speedGroups coil 18 groups ∧ groups.length = U.nHeat ∧
      ∀ k < U.nHeat, ∃ g capT eirT, groups[k]? = some g ∧ (g.map IField.value)[3]? = some capT ∧ (g.map IField.value)[5]? = some eirT ∧ Cell objs capT 8 (fmt 1 2) ∧ Cell objs eirT 8 (fmt 1 4) := by
  obtain ⟨coil, groups, h1, h2, h3, h4, h5, h6⟩ := C64_heating h
  refine ⟨coil, groups, h1, h2, h4, h5, fun k hk => ?_⟩
  obtain ⟨g, c, cap, cop, capT, capF, eirT, eirF, e1, _, e2, e3, e4, e6, e7⟩ := h6 (k + 1) (by omega) (by omega)
  rw [Nat.add_sub_cancel] at e1
  refine ⟨g, capT, eirT, e1, by rw [e6]; rfl, by rw [e6]; rfl, ?_, ?_⟩
  · obtain ⟨t, t1, _, _, _, _, _, _, _, t2⟩ := e7.capT
    obtain ⟨s, t3, c', q, t4, t5, t6⟩ := t2 1 3 70 47 rfl rfl
    refine ⟨t, t1, ?_⟩
    have hq : (q : K) = cap := by
      rw [(hr _ _ _ t4 e2).1, e3] at t5
      exact (Except.ok.inj t5).symm
    subst hq
    have hne : q ≠ 0 := fun h => h0 c (h ▸ e3)
    rw [if_pos rfl, div_self hne] at t6
    rw [← t6]
    exact t3
  · obtain ⟨t, t1, _, _, _, _, _, _, _, t2⟩ := e7.eirT
    obtain ⟨s, t3, c', e, t4, t5, hne, t6⟩ := t2 1 3 70 47 rfl rfl
    refine ⟨t, t1, ?_⟩
    have he : (e : K) = cop := by
      rw [(hr _ _ _ t4 e2).2, e4] at t5
      exact (Except.ok.inj t5).symm
    subst he
    rw [if_pos rfl, div_self (one_div_ne_zero hne)] at t6
    rw [← t6]
    exact t3

/-! ## C86: which units can be written -/

/-- The conditions of a speed at which the file asks for capacity and COP: the rating condition, the same with other airflows, and the points of the temperature tables. -/
inductive Asked (make : Option (K × K) → Py C) (setRatio : C → K → C) (indoor outdoor : List K) : C → Prop
  | rating {c : C} (h : make none = .ok c) : Asked make setRatio indoor outdoor c
  | flow {c : C} {r : K} (h : make none = .ok c) (hr : r ∈ (flowFractions : List K)) : Asked make setRatio indoor outdoor (setRatio c r)
  | table {c : C} {i o : K} (hi : i ∈ indoor) (ho : o ∈ outdoor) (h : make (some (i, o)) = .ok c) : Asked make setRatio indoor outdoor c

/-- The conditions of a speed can be made. -/
def Makes (make : Option (K × K) → Py C) (indoor outdoor : List K) : Prop :=
  (∃ c, make none = .ok c) ∧ ∀ i ∈ indoor, ∀ o ∈ outdoor, ∃ c, make (some (i, o)) = .ok c

/-- What a unit has to provide: its fan can be evaluated at its settings, its performance at the points of the file. -/
structure Writable (U : IdfUnit C K) (st : SystemType) : Prop where
  order : ∃ l, U.order = .ok l ∧ l ≠ []
  fan : ∀ l, U.order = .ok l → ∀ s ∈ l, (∃ x, U.pressure s = .ok x) ∧ (∃ x, U.airflow s = .ok x) ∧ (∃ x, U.power s = .ok x) ∧ ∃ x, U.efficiency s = .ok x
  ratios : ∀ l, U.order = .ok l → ∀ s ∈ l, ∀ t ∈ l, (∃ x, U.airflowRatio s t = .ok x) ∧ ∃ x, U.powerRatio s t = .ok x
  coolCondition : ∀ s < U.nCool, Makes (U.coolCondition s) coolIndoor coolOutdoor
  heatCondition : ∀ s < U.nHeat, Makes (U.heatCondition s) heatIndoor (heatOutdoor U)
  coolRated : ∃ q, U.coolCap none = .ok q ∧ q ≠ 0
  coolCap : ∀ s < U.nCool, ∀ c, Asked (U.coolCondition s) U.setRatio coolIndoor coolOutdoor c → ∃ q, U.coolCap (some c) = .ok q ∧ q ≠ 0
  coolCop : ∀ s < U.nCool, ∀ c, Asked (U.coolCondition s) U.setRatio coolIndoor coolOutdoor c → ∃ q, U.coolCop c = .ok q ∧ q ≠ 0
  shr : ∀ s < U.nCool, ∀ c, U.coolCondition s none = .ok c → ∃ q, U.shr c = .ok q
  heatRated : ∃ q, U.heatCap none = .ok q
  heatCap : ∀ s < U.nHeat, ∀ c, Asked (U.heatCondition s) U.setRatio heatIndoor (heatOutdoor U) c → ∃ q, U.heatCap (some c) = .ok q ∧ q ≠ 0
  heatCop : ∀ s < U.nHeat, ∀ c, Asked (U.heatCondition s) U.setRatio heatIndoor (heatOutdoor U) c → ∃ q, U.heatCop c = .ok q ∧ q ≠ 0
  intCap : st = .unitarySystem → ∃ q, U.intCap = .ok q
  timeFraction : U.defrost.control = .timed → ∃ x, U.timeFraction = .ok x
  cop60 : ∃ x, U.cop60 = .ok x ∧ x ≠ 0

/-- C86 is false of units built with a cut-in temperature: whatever the rest of the unit and the options, no file is written. -/
theorem C86_cut_in_refuted (supplied : K) (hon : U.on = DX.onTemperature (some supplied) U.off) :
    ∀ s, writeIdf fmt name st autosize normalize U ≠ .ok s := by
  intro s hs
  simp only [writeIdf, bind_eq_ok] at hs
  obtain ⟨objs, h, _⟩ := hs
  obtain ⟨_, _, _, _, _, on, _, _, _, _, _, _, _, _, h6, _⟩ := idfObjects_ok h
  rw [hon] at h6
  cases h6

theorem lookupTable_total {n l u : String} {vs : List K} {p : Nat} {r : Option K} (h : ∀ x, r = some x → x ≠ 0) : ∃ t, lookupTable fmt n l u vs p r = .ok t := by
  cases r with
  | none => exact ⟨_, by simp only [lookupTable, bind_ok, pure_eq_ok]; rfl⟩
  | some x =>
    obtain ⟨ys, hys⟩ := mapM_isOk (fun v => pdiv v x) vs fun v _ => ⟨v / x, pdiv_ok (h x rfl)⟩
    exact ⟨_, by simp only [lookupTable, hys, bind_ok, pure_eq_ok]; rfl⟩

theorem speedTables_total {sys mode : String} {setRatio : C → K → C} {make : Option (K × K) → Py C} {cap cop : C → Py K} {indoor outdoor : List K}
    {c0 : C} {q0 cop0 : K} {k : Nat} (h1 : Makes make indoor outdoor) (h0 : make none = .ok c0) (h2 : ∀ c, Asked make setRatio indoor outdoor c → ∃ q, cap c = .ok q ∧ q ≠ 0)
    (h3 : ∀ c, Asked make setRatio indoor outdoor c → ∃ q, cop c = .ok q ∧ q ≠ 0) (hq : q0 ≠ 0) (he : cop0 ≠ 0) :
    ∃ ts, speedTables fmt sys mode normalize setRatio make cap cop indoor outdoor c0 q0 cop0 k = .ok ts := by
  obtain ⟨ff, hff⟩ := mapM_isOk (fun (r : K) => (do
      let c := setRatio c0 r
      let q ← cap c
      let e ← cop c
      let eir ← pdiv 1 e
      return (q, eir) : Py (K × K))) (flowFractions : List K) (by
    intro r hr
    obtain ⟨q, hq, _⟩ := h2 (setRatio c0 r) (.flow h0 hr)
    obtain ⟨e, he, hne⟩ := h3 (setRatio c0 r) (.flow h0 hr)
    exact ⟨_, by simp only [hq, he, bind_ok, pdiv_ok hne, pure_eq_ok]; rfl⟩)
  obtain ⟨ft, hft⟩ := mapM_isOk (fun (x : K × K) => (do
      let c ← make (some x)
      let q ← cap c
      let e ← cop c
      let eir ← pdiv 1 e
      return (q, eir) : Py (K × K))) (indoor.flatMap fun (i : K) => outdoor.map fun (o : K) => (i, o)) (by
    rintro ⟨i, o⟩ hr
    obtain ⟨hi, ho⟩ : i ∈ indoor ∧ o ∈ outdoor := by simpa using hr
    obtain ⟨c, hc⟩ := h1.2 i hi o ho
    obtain ⟨q, hq, _⟩ := h2 c (.table hi ho hc)
    obtain ⟨e, he, hne⟩ := h3 c (.table hi ho hc)
    exact ⟨_, by simp only [hc, hq, he, bind_ok, pdiv_ok hne, pure_eq_ok]; rfl⟩)
  have hr : ∃ r0, (if normalize then (do let x ← pdiv 1 cop0; return some x : Py (Option K)) else .ok none) = .ok r0 ∧ ∀ x, r0 = some x → x ≠ 0 := by
    cases normalize with
    | true =>
      refine ⟨some (1 / cop0), by simp [pdiv_ok he, bind_ok, pure_eq_ok], ?_⟩
      intro x hx
      cases hx
      exact one_div_ne_zero he
    | false => exact ⟨none, by simp, by simp⟩
  obtain ⟨r0, hr0, hr1⟩ := hr
  have hq' : ∀ x, (if normalize then some q0 else none) = some x → x ≠ 0 := by
    intro x hx
    split at hx
    · cases hx; exact hq
    · cases hx
  unfold speedTables
  simp only [pure_eq_ok] at hff hft hr0 ⊢
  obtain ⟨t1, e1⟩ := lookupTable_total (fmt := fmt) (n := sys ++ mode ++ " CapfFF " ++ toString k) (l := sys ++ "fFF List") (u := "Dimensionless") (vs := ff.map Prod.fst) (p := 2) hq'
  obtain ⟨t2, e2⟩ := lookupTable_total (fmt := fmt) (n := sys ++ mode ++ " EIRfFF " ++ toString k) (l := sys ++ "fFF List") (u := "Dimensionless") (vs := ff.map Prod.snd) (p := 4) hr1
  obtain ⟨t3, e3⟩ := lookupTable_total (fmt := fmt) (n := sys ++ mode ++ " CapfT " ++ toString k) (l := sys ++ mode ++ " fT List") (u := "Dimensionless") (vs := ft.map Prod.fst) (p := 2) hq'
  obtain ⟨t4, e4⟩ := lookupTable_total (fmt := fmt) (n := sys ++ mode ++ " EIRfT " ++ toString k) (l := sys ++ mode ++ " fT List") (u := "Dimensionless") (vs := ft.map Prod.snd) (p := 4) hr1
  refine ⟨[t1, t2, t3, t4], ?_⟩
  rw [bind_eq_ok]
  refine ⟨ff, hff, ?_⟩
  rw [bind_eq_ok]
  refine ⟨t1, e1, ?_⟩
  cases normalize with
  | true =>
    simp only [if_true] at hr0 e1 e3 ⊢
    rw [hr0, bind_ok, bind_eq_ok]
    refine ⟨t2, e2, ?_⟩
    rw [bind_eq_ok]
    refine ⟨ft, hft, ?_⟩
    rw [e3, bind_ok, e4, bind_ok]
  | false =>
    simp only [Bool.false_eq_true, if_false] at hr0 e1 e3 ⊢
    rw [hr0, bind_ok, bind_eq_ok]
    refine ⟨t2, e2, ?_⟩
    rw [bind_eq_ok]
    refine ⟨ft, hft, ?_⟩
    rw [e3, bind_ok, e4, bind_ok]

theorem autoM_total {v : Py K} (h : ∃ x, v = .ok x) : ∃ s, autoM fmt autosize v = .ok s := by
  obtain ⟨x, rfl⟩ := h
  cases autosize
  · exact ⟨fmt x 2, rfl⟩
  · exact ⟨"Autosize", rfl⟩

theorem pyGetI_last (l : List Nat) (x : Nat) : pyGetI (l.concat x) (-1) = .ok x := by
  simp [pyGetI, pyIdx, pyGet, bind_ok]

theorem fanObject_total {sys : String} (hw : Writable U st) : ∃ f, fanObject fmt sys st autosize U = .ok f := by
  obtain ⟨order, ho, hne⟩ := hw.order
  obtain ⟨top, htop⟩ : ∃ top, pyGetI order (-1) = .ok top := by
    obtain ⟨l, x, rfl⟩ := List.eq_nil_or_concat order |>.resolve_left hne
    exact ⟨x, pyGetI_last l x⟩
  obtain ⟨bottom, hbot⟩ : ∃ b, pyGet order 0 = .ok b := by
    cases order with
    | nil => exact absurd rfl hne
    | cons a l => exact ⟨a, rfl⟩
  have htm : top ∈ order := by
    obtain ⟨l, x, rfl⟩ := List.eq_nil_or_concat order |>.resolve_left hne
    rw [pyGetI_last] at htop
    cases htop
    simp
  have hbm : bottom ∈ order := List.mem_of_getElem? (pyGet_eq_ok.1 hbot)
  obtain ⟨⟨pr, hpr⟩, hflow, hpow, ⟨ef, hef⟩⟩ := hw.fan _ ho top htm
  obtain ⟨fl, hfl⟩ := autoM_total (fmt := fmt) (autosize := autosize) hflow
  obtain ⟨po, hpo⟩ := autoM_total (fmt := fmt) (autosize := autosize) hpow
  obtain ⟨⟨mr, hmr⟩, _⟩ := hw.ratios _ ho bottom hbm top htm
  obtain ⟨sp, hsp⟩ := mapM_isOk (fun (x : Nat × Nat) => (do
      let f ← U.airflowRatio x.1 top
      let p ← U.powerRatio x.1 top
      return fanSpeedFields fmt (x.2 + 1) f p : Py (List IField))) order.zipIdx (by
    intro x hx
    obtain ⟨⟨a, ha⟩, b, hb⟩ := hw.ratios _ ho x.1 (List.fst_mem_of_mem_zipIdx hx) top htm
    exact ⟨_, by simp only [ha, hb, bind_ok, pure_eq_ok]; rfl⟩)
  unfold fanObject
  rw [ho, bind_ok, htop, bind_ok, hbot, bind_ok, hpr, bind_ok, hfl, bind_ok, hmr, bind_ok, hpo, bind_ok, hef, bind_ok]
  refine ⟨⟨"Fan:SystemModel", fanHeader fmt sys st U fl mr pr po ef ++ sp.flatten⟩, ?_⟩
  rw [bind_eq_ok]
  exact ⟨sp, hsp, rfl⟩

theorem speedLoop_total {f : Nat → Py (List IField × List IObj)} {n : Nat} (h : ∀ s < n, ∃ x, f s = .ok x) : ∃ r, (List.range n).reverse.mapM f = .ok r :=
  mapM_isOk f _ fun s hs => h s (by simpa using hs)

/-- C86: every unit without a supplied cut-in temperature whose fan and performance can be evaluated is written, whatever the options. -/
theorem C86_written (hw : Writable U st) (on : K) (hon : U.on = some on) : ∃ s, writeIdf fmt name st autosize normalize U = .ok s := by
  have hobj : ∃ objs, idfObjects fmt name st autosize normalize U = .ok objs := by
    obtain ⟨system, hsys⟩ : ∃ l, systemObjects fmt (prefixOf name) st U = .ok l := by
      cases st with
      | pthp => exact ⟨_, rfl⟩
      | unitarySystem =>
        obtain ⟨a, ha⟩ := hw.intCap rfl
        obtain ⟨b, hb, hne⟩ := hw.coolRated
        exact ⟨_, by simp only [systemObjects, ha, hb, bind_ok, pdiv_ok hne, pure_eq_ok]; rfl⟩
    obtain ⟨fan, hfan⟩ := fanObject_total (fmt := fmt) (autosize := autosize) (sys := prefixOf name) hw
    obtain ⟨qc, hqc, _⟩ := hw.coolRated
    obtain ⟨qh, hqh⟩ := hw.heatRated
    obtain ⟨cc, hcc⟩ := autoM_total (fmt := fmt) (autosize := autosize) ⟨qc, hqc⟩
    obtain ⟨hc, hhc⟩ := autoM_total (fmt := fmt) (autosize := autosize) ⟨qh, hqh⟩
    obtain ⟨cop, hcop, hne⟩ := hw.cop60
    obtain ⟨tf, htf⟩ : ∃ s, timeFractionField fmt U = .ok s := by
      unfold timeFractionField
      split
      · rename_i ht
        obtain ⟨x, hx⟩ := hw.timeFraction ht
        exact ⟨_, by simp only [hx, bind_ok, pure_eq_ok]; rfl⟩
      · exact ⟨"", rfl⟩
    obtain ⟨cs, hcs⟩ := speedLoop_total (f := coolSpeed fmt (prefixOf name) normalize U) (n := U.nCool) (by
      intro s hs
      obtain ⟨c, h1⟩ := (hw.coolCondition s hs).1
      obtain ⟨q, h2, hq⟩ := hw.coolCap s hs c (.rating h1)
      obtain ⟨e, h3, he⟩ := hw.coolCop s hs c (.rating h1)
      obtain ⟨r, h4⟩ := hw.shr s hs c h1
      obtain ⟨ts, h5⟩ := speedTables_total (fmt := fmt) (normalize := normalize) (sys := prefixOf name) (mode := "Cooling") (setRatio := U.setRatio) (indoor := coolIndoor)
        (outdoor := coolOutdoor) (c0 := c) (k := U.nCool - s) (hw.coolCondition s hs) h1 (hw.coolCap s hs) (hw.coolCop s hs) hq he
      exact ⟨_, by simp only [coolSpeed, h1, h2, h3, h4, h5, bind_ok, pure_eq_ok]; rfl⟩)
    obtain ⟨hs', hhs⟩ := speedLoop_total (f := heatSpeed fmt (prefixOf name) normalize U) (n := U.nHeat) (by
      intro s hs
      obtain ⟨c, h1⟩ := (hw.heatCondition s hs).1
      obtain ⟨q, h2, hq⟩ := hw.heatCap s hs c (.rating h1)
      obtain ⟨e, h3, he⟩ := hw.heatCop s hs c (.rating h1)
      obtain ⟨ts, h5⟩ := speedTables_total (fmt := fmt) (normalize := normalize) (sys := prefixOf name) (mode := "Heating") (setRatio := U.setRatio) (indoor := heatIndoor)
        (outdoor := heatOutdoor U) (c0 := c) (k := U.nHeat - s) (hw.heatCondition s hs) h1 (hw.heatCap s hs) (hw.heatCop s hs) hq he
      exact ⟨_, by simp only [heatSpeed, h1, h2, h3, h5, bind_ok, pure_eq_ok]; rfl⟩)
    exact ⟨_, by simp only [idfObjects, addCooling, addHeating, hsys, hfan, hcc, hcs, hhc, hon, pyAttr, htf, hcop, pdiv_ok hne, hhs, bind_ok, pure_eq_ok]; rfl⟩
  obtain ⟨objs, ho⟩ := hobj
  have hne : ∀ o ∈ objs, o.fields ≠ [] := by
    intro o hm h0
    have := (C62_names ho).1 o hm
    simp [nameOf, valueOf, h0] at this
  obtain ⟨ss, hss⟩ := mapM_isOk writeObject objs fun o hm => by
    cases hfs : o.fields with
    | nil => exact absurd hfs (hne o hm)
    | cons f l => exact ⟨_, by simp only [writeObject, hfs, spacing, bind_ok, pure_eq_ok]; rfl⟩
  exact ⟨_, by simp only [writeIdf, ho, writeObjects, hss, bind_ok, pure_eq_ok]; rfl⟩

/-- C61: for a system name without separators (or none) and numbers without separators, the text written for a unit reads back to exactly its objects; so C62–C64 hold of
the text. -/
theorem C61_file (hfmt : ∀ x n, Plain (fmt x n).toList)
    (hname : ∀ s, name = some s → s.toList ≠ [] ∧ (∀ c ∈ s.toList, c ≠ ',' ∧ c ≠ ';' ∧ c ≠ '!' ∧ c ≠ '\n') ∧ s.toList.head?.all (fun c => !isBlank c) = true)
    (s : String) (h : writeIdf fmt name st autosize normalize U = .ok s) :
    ∃ objs, idfObjects fmt name st autosize normalize U = .ok objs ∧
      readText s.toList = objs.map fun o => (o.cls.toList, []) :: o.fields.map fun f => (f.value.toList, f.name.toList) := by
  have hc : Clean fmt (prefixOf name) := by
    refine ⟨hfmt, ?_⟩
    cases name with
    | none => exact ⟨by simp [prefixOf], by simp [prefixOf]⟩
    | some t =>
      obtain ⟨h1, h2, h3⟩ := hname t rfl
      constructor
      · intro c hm
        simp only [prefixOf, String.toList_append, List.mem_append] at hm
        rcases hm with hm | hm
        · exact h2 c hm
        · exact (by decide : ∀ c ∈ " ".toList, c ≠ ',' ∧ c ≠ ';' ∧ c ≠ '!' ∧ c ≠ '\n') c hm
      · rw [prefixOf, String.toList_append]
        cases hl : t.toList with
        | nil => exact absurd hl h1
        | cons a l => rw [hl] at h3; simpa using h3
  simp only [writeIdf, bind_eq_ok] at h
  obtain ⟨objs, ho, hwr⟩ := h
  have hp := idf_plain hc ho
  have hne : ∀ o ∈ objs, o.fields ≠ [] := by
    intro o hm h0
    have := (C62_names ho).1 o hm
    simp [nameOf, valueOf, h0] at this
  obtain ⟨s', e1, e2⟩ := C61_round_trip objs hne (fun o hm => (hp o hm).1) (fun o hm f hf => (hp o hm).2 f hf)
  rw [hwr] at e1
  cases e1
  exact ⟨objs, ho, e2⟩

/-! ## C87: fan speeds -/

section
variable [IsStrictOrderedRing K]

/-- The speeds of the fan object. -/
theorem fan_pairs {sys : String} {fan : IObj} (h2 : fanObject fmt sys st autosize U = .ok fan)
    (hflow : ∀ s t, U.airflowRatio s t = (do let a ← U.airflow s; let b ← U.airflow t; pdiv a b))
    (hpow : ∀ s t, U.powerRatio s t = (do let a ← U.power s; let b ← U.power t; pdiv a b)) :
    ∃ order top ftop ptop pairs, fan.cls = "Fan:SystemModel" ∧ U.order = .ok order ∧ order.getLast? = some top ∧ U.airflow top = .ok ftop ∧ ftop ≠ 0 ∧
      U.power top = .ok ptop ∧ ptop ≠ 0 ∧ (fan.fields.drop 22).map IField.value = pairs.flatMap (fun p => [fmt p.1 2, fmt p.2 2]) ∧
      List.Forall₂ (fun setting p => ∃ a b, U.airflow setting = .ok a ∧ U.power setting = .ok b ∧ p = (a / ftop, b / ptop)) order pairs ∧
      pairs.getLast? = some (1, 1) := by
  obtain ⟨order, top, bottom, pressure, flow, minRatio, power, eff, speeds, o1, o2, o3, o4, o5, o6, o7, o8, o9, o10⟩ := fanObject_ok h2
  have hne : order ≠ [] := by
    rintro rfl
    simp [pyGet] at o3
  have hlast : order.getLast? = some top := by
    obtain ⟨l, x, rfl⟩ := List.eq_nil_or_concat order |>.resolve_left hne
    rw [pyGetI_last] at o2
    cases o2
    simp
  have htop : ∃ ftop ptop, U.airflow top = .ok ftop ∧ ftop ≠ 0 ∧ U.power top = .ok ptop ∧ ptop ≠ 0 := by
    obtain ⟨i, hi⟩ := List.getElem?_of_mem (List.mem_of_getLast? hlast)
    have hz : order.zipIdx[i]? = some (top, i) := by simp [List.getElem?_zipIdx, hi]
    obtain ⟨b, _, f, p, hf, hp, _⟩ := forall₂_get o9 hz
    rw [hflow] at hf
    rw [hpow] at hp
    simp only [bind_eq_ok, pdiv_eq_ok] at hf hp
    obtain ⟨_, _, x, hx, hx0, _⟩ := hf
    obtain ⟨_, _, y, hy, hy0, _⟩ := hp
    exact ⟨x, y, hx, hx0, hy, hy0⟩
  obtain ⟨ftop, ptop, t1, t2, t3, t4⟩ := htop
  have hpairs : ∀ (l : List Nat) (k : Nat) (sp : List (List IField)),
      List.Forall₂ (fun (x : Nat × Nat) (fs : List IField) => ∃ f p, U.airflowRatio x.1 top = .ok f ∧ U.powerRatio x.1 top = .ok p ∧ fs = fanSpeedFields fmt (x.2 + 1) f p)
        (l.zipIdx k) sp →
      ∃ pairs, sp.flatten.map IField.value = pairs.flatMap (fun p => [fmt p.1 2, fmt p.2 2]) ∧
        List.Forall₂ (fun setting (p : K × K) => ∃ a b, U.airflow setting = .ok a ∧ U.power setting = .ok b ∧ p = (a / ftop, b / ptop)) l pairs := by
    intro l
    induction l with
    | nil =>
      intro k sp hsp
      cases hsp
      exact ⟨[], rfl, .nil⟩
    | cons a l ih =>
      intro k sp hsp
      rw [List.zipIdx_cons] at hsp
      cases hsp with
      | cons hh ht =>
        obtain ⟨f, p, hf, hp, rfl⟩ := hh
        obtain ⟨pairs, e1, e2⟩ := ih _ _ ht
        rw [hflow] at hf
        rw [hpow] at hp
        simp only [t1, t3, bind_eq_ok, bind_ok, pdiv_eq_ok] at hf hp
        obtain ⟨x, hx, y, rfl, _, rfl⟩ := hf
        obtain ⟨z, hz, w, rfl, _, rfl⟩ := hp
        refine ⟨(x / _, z / _) :: pairs, ?_, .cons ⟨x, z, hx, hz, rfl⟩ e2⟩
        rw [List.flatten_cons, List.map_append, e1]
        rfl
  obtain ⟨pairs, p1, p2⟩ := hpairs order 0 speeds o9
  refine ⟨order, top, ftop, ptop, pairs, by rw [o10], o1, hlast, t1, t2, t3, t4, ?_, p2, ?_⟩
  · rw [o10, ← p1]
    simp [fanHeader]
  · have hl := p2.length_eq
    rw [List.getLast?_eq_getElem?] at hlast ⊢
    obtain ⟨b, hb, x, y, hx, hy, rfl⟩ := forall₂_get p2 hlast
    rw [t1] at hx
    rw [t3] at hy
    cases hx
    cases hy
    rw [← hl, hb, div_self t2, div_self t4]

/-- C87: the fan of the file has one pair of fields for each setting of the unit's fan, after 22 others. Pair `i` holds flow and power of the `i`-th setting in the fan's
order over those of the last, and the last pair is one and one. -/
theorem C87_fan (h : idfObjects fmt name st autosize normalize U = .ok objs)
    (hflow : ∀ s t, U.airflowRatio s t = (do let a ← U.airflow s; let b ← U.airflow t; pdiv a b))
    (hpow : ∀ s t, U.powerRatio s t = (do let a ← U.power s; let b ← U.power t; pdiv a b)) :
    ∃ fan order top ftop ptop pairs, fan ∈ objs ∧ fan.cls = "Fan:SystemModel" ∧ U.order = .ok order ∧ order.getLast? = some top ∧ U.airflow top = .ok ftop ∧ ftop ≠ 0 ∧
      U.power top = .ok ptop ∧ ptop ≠ 0 ∧ (fan.fields.drop 22).map IField.value = pairs.flatMap (fun p => [fmt p.1 2, fmt p.2 2]) ∧
      List.Forall₂ (fun setting p => ∃ a b, U.airflow setting = .ok a ∧ U.power setting = .ok b ∧ p = (a / ftop, b / ptop)) order pairs ∧
      pairs.getLast? = some (1, 1) := by
  obtain ⟨system, fan, ccap, cs, hcap, on, tf, eir, hs, h1, h2, h3, h4, h5, h6, h7, h8, h9, e⟩ := idfObjects_ok h
  obtain ⟨order, top, ftop, ptop, pairs, g⟩ := fan_pairs h2 hflow hpow
  exact ⟨fan, order, top, ftop, ptop, pairs, by rw [e]; simp, g⟩

/-- C87: if the settings are ordered by airflow, the flow fractions ascend and none exceeds one. -/
theorem C87_ascending (order : List Nat) (pairs : List (K × K)) (flow power : Nat → Py K) (ftop ptop : K) (h0 : 0 < ftop)
    (hp : List.Forall₂ (fun setting p => ∃ a b, flow setting = .ok a ∧ power setting = .ok b ∧ p = (a / ftop, b / ptop)) order pairs)
    (hs : order.Pairwise fun i j => ∀ x y, flow i = .ok x → flow j = .ok y → x ≤ y) : (pairs.map Prod.fst).Pairwise (· ≤ ·) := by
  induction hp with
  | nil => simp
  | @cons s p l ps hh ht ih =>
    obtain ⟨a, b, ha, hb, rfl⟩ := hh
    rw [List.pairwise_cons] at hs
    rw [List.map_cons, List.pairwise_cons]
    refine ⟨?_, ih hs.2⟩
    intro x hx
    obtain ⟨q, hq, rfl⟩ := List.mem_map.1 hx
    obtain ⟨i, hi⟩ := List.getElem?_of_mem hq
    obtain ⟨hlen, _⟩ := List.forall₂_iff_get.1 ht
    have hil : i < l.length := by have := (List.getElem?_eq_some_iff.1 hi).1; omega
    obtain ⟨q', hq', a', b', ha', hb', rfl⟩ := forall₂_get ht (List.getElem?_eq_getElem hil)
    rw [hi] at hq'
    cases hq'
    exact div_le_div_of_nonneg_right (hs.1 _ (List.getElem_mem hil) a a' ha ha') h0.le

end

/-! ## A concrete file -/

/-- Numbers as text, for the examples. -/
def sampleFmt (x : ℚ) (_ : Nat) : String := toString x.num ++ "/" ++ toString x.den

/-- A two-speed unit: conditions are (speed, temperatures, flow ratio). -/
def sampleIdf : IdfUnit (Nat × Option (ℚ × ℚ) × ℚ) ℚ where
  order := .ok [1, 0]
  fanSpeeds := 2
  pressure _ := .ok 100
  airflow s := .ok (if s = 0 then 1 / 2 else 1 / 4)
  power s := .ok (if s = 0 then 200 else 60)
  efficiency _ := .ok (1 / 4)
  airflowRatio s t := do pdiv (if s = 0 then 1 / 2 else 1 / 4) (if t = 0 then 1 / 2 else 1 / 4)
  powerRatio s t := do pdiv (if s = 0 then 200 else 60) (if t = 0 then 200 else 60)
  nCool := 2
  coolFull := 0
  nHeat := 2
  heatFull := 0
  coolCondition s p := .ok (s, p, 1)
  heatCondition s p := .ok (s, p, 1)
  setRatio c r := (c.1, c.2.1, r)
  ratedFlow c := if c.1 = 0 then 1 / 2 else 1 / 4
  coolCap c := .ok (match c with | none => 10000 | some c => if c.1 = 0 then 10000 else 6000)
  coolCop _ := .ok 4
  shr _ := .ok (3 / 4)
  heatCap c := .ok (match c with | none => 11000 | some c => if c.1 = 0 then 11000 else 7000)
  heatCop _ := .ok 3
  intCap := .ok 11000
  aFullFlow := 1 / 2
  h1FullFlow := 1 / 2
  cdCool := 1 / 10
  cdHeat := 1 / 10
  off := frF 0
  on := some (frF 0)
  crankcase := 0
  crankcaseSetpoint := frF 50
  defrost := ⟨0, .timed, .reverseCycle, frF 40, none, 5400, 720⟩
  timeFraction := .ok (1 / 10)
  cop60 := .ok 3

theorem sampleIdf_writable (st : SystemType) : Writable sampleIdf st where
  order := ⟨_, rfl, by simp⟩
  fan _ _ _ _ := ⟨⟨_, rfl⟩, ⟨_, rfl⟩, ⟨_, rfl⟩, ⟨_, rfl⟩⟩
  ratios _ _ s _ t _ := by
    refine ⟨⟨_, pdiv_ok ?_⟩, ⟨_, pdiv_ok ?_⟩⟩ <;> split <;> norm_num
  coolCondition _ _ := ⟨⟨_, rfl⟩, fun _ _ _ _ => ⟨_, rfl⟩⟩
  heatCondition _ _ := ⟨⟨_, rfl⟩, fun _ _ _ _ => ⟨_, rfl⟩⟩
  coolRated := ⟨_, rfl, by norm_num⟩
  coolCap _ _ c _ := ⟨_, rfl, by simp only; split <;> norm_num⟩
  coolCop _ _ _ _ := ⟨_, rfl, by norm_num⟩
  shr _ _ _ _ := ⟨_, rfl⟩
  heatRated := ⟨_, rfl⟩
  heatCap _ _ c _ := ⟨_, rfl, by simp only; split <;> norm_num⟩
  heatCop _ _ _ _ := ⟨_, rfl, by norm_num⟩
  intCap _ := ⟨_, rfl⟩
  timeFraction _ := ⟨_, rfl⟩
  cop60 := ⟨_, rfl, by norm_num⟩

/-- The hypotheses of C86 hold of the sample, and its file has 34 objects. -/
example : ∃ s, writeIdf sampleFmt (some "Main") .pthp true true sampleIdf = .ok s := C86_written (sampleIdf_writable _) _ rfl

example : (idfObjects sampleFmt (some "Main") .pthp true true sampleIdf).toOption.map
    (fun objs => (objs.length, (named objs "Main Cooling CapfT 2").length)) = some (34, 1) := by decide +kernel

/-- Its hypotheses for C84, C85 and C87. -/
example : sampleIdf.off < frF 5 ∧ (∀ s c c', sampleIdf.coolCondition s (some (67, 95)) = .ok c → sampleIdf.coolCondition s none = .ok c' →
    sampleIdf.coolCap (some c) = sampleIdf.coolCap (some c') ∧ sampleIdf.coolCop c = sampleIdf.coolCop c') := by
  refine ⟨frF_lt.2 (by norm_num), ?_⟩
  intro s c c' h1 h2
  cases h1
  cases h2
  exact ⟨rfl, rfl⟩

example : (∀ s t, sampleIdf.airflowRatio s t = (do let a ← sampleIdf.airflow s; let b ← sampleIdf.airflow t; pdiv a b)) ∧
    ∀ s t, sampleIdf.powerRatio s t = (do let a ← sampleIdf.power s; let b ← sampleIdf.power t; pdiv a b) := ⟨fun _ _ => rfl, fun _ _ => rfl⟩

end Resdx.Idf
