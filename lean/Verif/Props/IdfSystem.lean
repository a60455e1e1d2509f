import Verif.Props.IdfSettings

/-!
# C134: the system of an EnergyPlus file runs the unit and nothing else
-/

set_option linter.unusedSectionVars false
set_option linter.unusedSimpArgs false

namespace Resdx.Spec.Idf

open Resdx.Idf

/-- The object is a schedule with one value for the whole year. -/
def AllYear (o : IObj) (value : String) : Prop := o.cls = "Schedule:Compact" ∧ (o.fields.drop 2).map IField.value = ["Through: 12/31", "For: AllDays", "Until: 24:00", value]

/-- The system names, in its fields `part ++ " Name"` and `part ++ " Object Type"`, an object of the file and its class. -/
def HasPart (objs : List IObj) (system : IObj) (part cls : String) (o : IObj) : Prop :=
  valueOf system (part ++ " Object Type") = some cls ∧ o.cls = cls ∧ ∃ v, valueOf system (part ++ " Name") = some v ∧ named objs v = [o]

end Resdx.Spec.Idf

namespace Resdx.Idf

open Spec.Idf

variable {C K : Type} [Field K] [LinearOrder K] {fmt : K → Nat → String}
variable {name : Option String} {st : SystemType} {autosize normalize : Bool} {U : IdfUnit C K} {objs : List IObj}

/-- The labels of the outdoor airflow of a packaged terminal unit. -/
def outdoorAirLabels : List String := ["Cooling Outdoor Air Flow Rate {m3/s}", "Heating Outdoor Air Flow Rate {m3/s}", "No Load Outdoor Air Flow Rate {m3/s}"]

/-- The fields by which both system objects name their parts. -/
def SystemFields (sys : String) (o : IObj) : Prop :=
  (valueOf o "Supply Fan Object Type" = some "Fan:SystemModel" ∧ valueOf o "Supply Fan Name" = some (sys ++ "Supply Fan")) ∧
  (valueOf o "Cooling Coil Object Type" = some "Coil:Cooling:DX:VariableSpeed" ∧ valueOf o "Cooling Coil Name" = some (sys ++ "Cooling Coil")) ∧
  (valueOf o "Heating Coil Object Type" = some "Coil:Heating:DX:VariableSpeed" ∧ valueOf o "Heating Coil Name" = some (sys ++ "Heating Coil")) ∧
  valueOf o "Availability Schedule Name" = some (sys ++ "Schedule") ∧ valueOf o "Supply Air Fan Operating Mode Schedule Name" = some (sys ++ "Fan Mode Schedule")

theorem unitary_parts (sys : String) (ratio : K) : SystemFields sys (unitaryObject fmt sys ratio) := by
  refine ⟨⟨?_, ?_⟩, ⟨?_, ?_⟩, ⟨?_, ?_⟩, ?_, ?_⟩ <;> rfl

theorem pthp_parts (sys : String) : SystemFields sys ((pthpObjects fmt sys)[0]'(by simp [pthpObjects])) := by
  refine ⟨⟨?_, ?_⟩, ⟨?_, ?_⟩, ⟨?_, ?_⟩, ?_, ?_⟩ <;> rfl

theorem system_fields {sys : String} {system : List IObj} (h1 : systemObjects fmt sys st U = .ok system) :
    ∃ o l, system = o :: l ∧ o.cls = systemClass st ∧ SystemFields sys o := by
  cases st with
  | unitarySystem =>
    simp only [systemObjects, bind_eq_ok, pure_eq_ok, Except.ok.injEq] at h1
    obtain ⟨_, _, _, _, ratio, _, rfl⟩ := h1
    exact ⟨_, _, rfl, rfl, unitary_parts _ _⟩
  | pthp =>
    simp only [systemObjects, Except.ok.injEq] at h1
    subst h1
    exact ⟨_, _, rfl, rfl, pthp_parts _⟩

/-- C134: the first object of the file is the system; it and the fan are available all year, and the fan runs with the compressor (0, not continuously); the parts it
names are the fan and the two DX coils of the file, of the classes it gives. -/
theorem C134_system (h : idfObjects fmt name st autosize normalize U = .ok objs) :
    ∃ system fan cool heat available mode, objs.head? = some system ∧ system.cls = systemClass st ∧
      HasPart objs system "Supply Fan" "Fan:SystemModel" fan ∧ HasPart objs system "Cooling Coil" "Coil:Cooling:DX:VariableSpeed" cool ∧
      HasPart objs system "Heating Coil" "Coil:Heating:DX:VariableSpeed" heat ∧
      Refers objs system "Availability Schedule Name" available ∧ Refers objs fan "Availability Schedule Name" available ∧ AllYear available "1" ∧
      Refers objs system "Supply Air Fan Operating Mode Schedule Name" mode ∧ AllYear mode "0" := by
  have hn := idf_names_nodup h
  obtain ⟨system, fan, ccap, cs, hcap, on, tf, eir, hs, h1, h2, h3, h4, h5, h6, h7, h8, h9, e⟩ := idfObjects_ok h
  obtain ⟨_, _, _, pressure, flow, minRatio, power, eff, speeds, _, _, _, _, _, _, _, _, _, hfan⟩ := fanObject_ok h2
  have nf : named objs (prefixOf name ++ "Supply Fan") = [fan] := named_of_mem hn (by rw [e]; simp) (by rw [hfan]; simp [nameOf, valueOf, fanHeader])
  have nc : named objs (prefixOf name ++ "Cooling Coil") = [_] :=
    named_of_mem (o := ⟨"Coil:Cooling:DX:VariableSpeed", coolHeader fmt (prefixOf name) autosize U ccap ++ (cs.map Prod.fst).flatten⟩) hn (by rw [e]; simp) (by simp [nameOf, valueOf, coolHeader])
  have nh : named objs (prefixOf name ++ "Heating Coil") = [_] :=
    named_of_mem (o := ⟨"Coil:Heating:DX:VariableSpeed", heatHeader fmt (prefixOf name) autosize U hcap on tf ++ (hs.map Prod.fst).flatten⟩) hn (by rw [e]; simp)
      (by simp [nameOf, valueOf, heatHeader])
  have na : named objs (prefixOf name ++ "Schedule") = [_] :=
    named_of_mem (o := (schedules (prefixOf name))[0]'(by simp [schedules])) hn (by rw [e]; simp [schedules]) (by simp [nameOf, valueOf, schedules])
  have nm : named objs (prefixOf name ++ "Fan Mode Schedule") = [_] :=
    named_of_mem (o := (schedules (prefixOf name))[1]'(by simp [schedules])) hn (by rw [e]; simp [schedules]) (by simp [nameOf, valueOf, schedules])
  have ffan : fan.cls = "Fan:SystemModel" := by rw [hfan]
  have fa : Refers objs fan "Availability Schedule Name" _ := ⟨prefixOf name ++ "Schedule", by rw [hfan]; simp [valueOf, fanHeader], na⟩
  have y1 : AllYear ((schedules (prefixOf name))[0]'(by simp [schedules])) "1" := by simp [AllYear, schedules]
  have y0 : AllYear ((schedules (prefixOf name))[1]'(by simp [schedules])) "0" := by simp [AllYear, schedules]
  obtain ⟨o, l, rfl, ho, ⟨a1, a2⟩, ⟨b1, b2⟩, ⟨c1, c2⟩, d1, d2⟩ := system_fields h1
  exact ⟨o, fan, _, _, _, _, by rw [e]; rfl, ho, ⟨a1, ffan, _, a2, nf⟩, ⟨b1, rfl, _, b2, nc⟩, ⟨c1, rfl, _, c2, nh⟩, ⟨_, d1, na⟩, fa, y1, ⟨_, d2, nm⟩, y0⟩

/-- C134: a packaged terminal unit takes no outdoor air, and its supplemental heater has no capacity; the heater is one object of the file and available all year. -/
theorem C134_packaged (h : idfObjects fmt name .pthp autosize normalize U = .ok objs) :
    ∃ system supp available, objs.head? = some system ∧ (∀ l ∈ outdoorAirLabels, valueOf system l = some (fmt 0 2)) ∧
      HasPart objs system "Supplemental Heating Coil" "Coil:Heating:Electric" supp ∧ valueOf supp "Nominal Capacity" = some (fmt 0 2) ∧
      Refers objs supp "Availability Schedule Name" available ∧ AllYear available "1" := by
  have hn := idf_names_nodup h
  obtain ⟨system, fan, ccap, cs, hcap, on, tf, eir, hs, h1, h2, h3, h4, h5, h6, h7, h8, h9, e⟩ := idfObjects_ok h
  simp only [systemObjects, Except.ok.injEq] at h1
  subst h1
  have ns : named objs (prefixOf name ++ "Supp Heating Coil") = [_] :=
    named_of_mem (o := (pthpObjects fmt (prefixOf name))[1]'(by simp [pthpObjects])) hn (by rw [e]; simp [pthpObjects]) (by simp [nameOf, valueOf, pthpObjects])
  have na : named objs (prefixOf name ++ "Schedule") = [_] :=
    named_of_mem (o := (schedules (prefixOf name))[0]'(by simp [schedules])) hn (by rw [e]; simp [schedules]) (by simp [nameOf, valueOf, schedules])
  refine ⟨(pthpObjects fmt (prefixOf name))[0]'(by simp [pthpObjects]), _, _, by rw [e]; rfl, ?_, ⟨rfl, rfl, _, ?_, ns⟩, rfl, ⟨prefixOf name ++ "Schedule", rfl, na⟩, ⟨rfl, rfl⟩⟩
  · intro l hl
    simp only [outdoorAirLabels, List.mem_cons, List.not_mem_nil, or_false] at hl
    rcases hl with rfl | rfl | rfl <;> rfl
  · rfl

/-- C134: a unitary system names no supplemental heater, and its heating coil is sized by the ratio of the unit's integrated heating capacity
to its cooling capacity at the full rating conditions. -/
theorem C134_unitary (h : idfObjects fmt name .unitarySystem autosize normalize U = .ok objs) :
    ∃ system heat cool ratio, objs.head? = some system ∧ valueOf system "Supplemental Heating Coil Object Type" = some "" ∧ valueOf system "Supplemental Heating Coil Name" = some "" ∧
      U.intCap = .ok heat ∧ U.coolCap none = .ok cool ∧ cool ≠ 0 ∧ ratio * cool = heat ∧ valueOf system "DX Heating Coil Sizing Ratio" = some (fmt ratio 2) := by
  obtain ⟨system, fan, ccap, cs, hcap, on, tf, eir, hs, h1, h2, h3, h4, h5, h6, h7, h8, h9, e⟩ := idfObjects_ok h
  simp only [systemObjects, bind_eq_ok, pure_eq_ok, Except.ok.injEq] at h1
  obtain ⟨heat, k1, cool, k2, ratio, k3, rfl⟩ := h1
  obtain ⟨c0, rfl⟩ := (pdiv_eq_ok ..).1 k3
  exact ⟨unitaryObject fmt (prefixOf name) (heat / cool), heat, cool, _, by rw [e]; rfl, by simp [valueOf, unitaryObject], by simp [valueOf, unitaryObject], k1, k2, c0,
    div_mul_cancel₀ _ c0, by simp [valueOf, unitaryObject]⟩

/-- The sample unit can be written as either system. -/
example : (idfObjects sampleFmt (some "Main") .pthp true true sampleIdf).toOption.isSome ∧ (idfObjects sampleFmt none .unitarySystem false true sampleIdf).toOption.isSome := by decide +kernel

end Resdx.Idf
