import Verif.Model.Idf

/-! # Specification of EnergyPlus objects: names, references, air nodes and table positions (C62–C64)

Stated about any list of objects; nothing here depends on how the writer builds its list. -/

namespace Resdx.Spec.Idf

open Resdx.Idf

/-- The value of the first field of that name. -/
def valueOf (o : IObj) (label : String) : Option String := (o.fields.find? fun f => f.name = label).map IField.value

/-- The name of an object. -/
def nameOf (o : IObj) : Option String := valueOf o "Name"

/-- The objects of that name. -/
def named (objs : List IObj) (name : String) : List IObj := objs.filter fun o => nameOf o = some name

/-- A label ends with a text. -/
def endsWith (label tail : String) : Bool := tail.toList.isSuffixOf label.toList

/-- The classes of the objects a field refers to, by the name of the field: `none` if the field is no reference to another object of the file. Names of air or water
nodes and of external files are no references, and type limits of schedules belong to the rest of the building description. -/
def refersTo (label : String) : Option (List String) :=
  if endsWith label " Node Name" || endsWith label " File Name" || endsWith label " Type Limits Name" then none
  else if endsWith label " Schedule Name" then some ["Schedule:Compact"]
  else if endsWith label " Curve Name" then some ["Curve:Linear", "Curve:Biquadratic", "Table:Lookup"]
  else if endsWith label "Fan Name" then some ["Fan:SystemModel"]
  else if endsWith label "Cooling Coil Name" then some ["Coil:Cooling:DX:VariableSpeed"]
  else if endsWith label "Supplemental Heating Coil Name" then some ["Coil:Heating:Electric"]
  else if endsWith label "Heating Coil Name" then some ["Coil:Heating:DX:VariableSpeed"]
  else if endsWith label "Variable List Name" then some ["Table:IndependentVariableList"]
  else if endsWith label " Name" then some ["Table:IndependentVariable"]
  else none

/-- Every field that refers to another object and is not empty holds the name of exactly one object, which has the right class. -/
def ReferencesResolved (objs : List IObj) : Prop :=
  ∀ o ∈ objs, ∀ f ∈ o.fields, ∀ classes, refersTo f.name = some classes → f.value ≠ "" → ∃ t, named objs f.value = [t] ∧ t.cls ∈ classes

/-- Air flows from node `a` through the objects in order to node `b`. -/
def Connected : String → List IObj → String → Prop
  | a, [], b => a = b
  | a, o :: l, b => valueOf o "Air Inlet Node Name" = some a ∧ ∃ m, valueOf o "Air Outlet Node Name" = some m ∧ m ≠ a ∧ Connected m l b

/-- Whether air passes through an object. -/
def hasInlet (o : IObj) : Bool := (valueOf o "Air Inlet Node Name").isSome

/-- The number of the fields before the values of a table or table axis. -/
def tableHeader : Nat := 10

/-- The values of a table or axis: its fields after the header, in order. -/
def tableValues (o : IObj) : List String := (o.fields.drop tableHeader).map IField.value

/-- The axes of a table: the object its list field names and the objects named in that list, in order. -/
def AxesOf (objs : List IObj) (table : IObj) (axes : List IObj) : Prop :=
  ∃ listName list, valueOf table "Independent Variable List Name" = some listName ∧ named objs listName = [list] ∧ list.cls = "Table:IndependentVariableList" ∧
    List.Forall₂ (fun (f : IField) a => named objs f.value = [a] ∧ a.cls = "Table:IndependentVariable") list.fields.tail axes

/-- A one-dimensional table over the axis with values `xs`; `f x s` tells that `s` is the right value at `x`. -/
def Tabulates1 {K : Type} (objs : List IObj) (table : IObj) (axis : K → String) (xs : List K) (f : K → String → Prop) : Prop :=
  ∃ a, AxesOf objs table [a] ∧ tableValues a = xs.map axis ∧ (tableValues table).length = xs.length ∧
    ∀ (i : Nat) (x : K), xs[i]? = some x → ∃ s, (tableValues table)[i]? = some s ∧ f x s

/-- A two-dimensional table over axes with values `xs` and `ys`, the last axis varying fastest; `f x y s` tells that `s` is the right value at `x` and `y`. -/
def Tabulates2 {K : Type} (objs : List IObj) (table : IObj) (axis : K → String) (xs ys : List K) (f : K → K → String → Prop) : Prop :=
  ∃ a b, AxesOf objs table [a, b] ∧ tableValues a = xs.map axis ∧ tableValues b = ys.map axis ∧ (tableValues table).length = xs.length * ys.length ∧
    ∀ (i j : Nat) (x y : K), xs[i]? = some x → ys[j]? = some y → ∃ s, (tableValues table)[i * ys.length + j]? = some s ∧ f x y s

/-- The four tables of one speed, found by the names in its fields: capacity and input ratio over indoor and outdoor temperature and over the flow fraction, as the
unit has them at that speed, relative to the capacity `q0` and COP `e0` of the speed at its rating condition `c0` if normalised. -/
structure SpeedTabulated {C K : Type} [Field K] (fmt : K → Nat → String) (toAxis : K → K) (objs : List IObj) (normalize : Bool) (make : K → K → Py C) (setRatio : C → K → C)
    (cap cop : C → Py K) (inner outer flows : List K) (c0 : C) (q0 e0 : K) (capT capF eirT eirF : String) : Prop where
  capT : ∃ t, named objs capT = [t] ∧ t.cls = "Table:Lookup" ∧ Tabulates2 objs t (fun x => fmt (toAxis x) 2) inner outer fun x y s =>
    ∃ c q, make x y = .ok c ∧ cap c = .ok q ∧ s = fmt (if normalize then q / q0 else q) 2
  capF : ∃ t, named objs capF = [t] ∧ t.cls = "Table:Lookup" ∧ Tabulates1 objs t (fun x => fmt x 2) flows fun r s =>
    ∃ q, cap (setRatio c0 r) = .ok q ∧ s = fmt (if normalize then q / q0 else q) 2
  eirT : ∃ t, named objs eirT = [t] ∧ t.cls = "Table:Lookup" ∧ Tabulates2 objs t (fun x => fmt (toAxis x) 2) inner outer fun x y s =>
    ∃ c e, make x y = .ok c ∧ cop c = .ok e ∧ e ≠ 0 ∧ s = fmt (if normalize then (1 / e) / (1 / e0) else 1 / e) 4
  eirF : ∃ t, named objs eirF = [t] ∧ t.cls = "Table:Lookup" ∧ Tabulates1 objs t (fun x => fmt x 2) flows fun r s =>
    ∃ e, cop (setRatio c0 r) = .ok e ∧ e ≠ 0 ∧ s = fmt (if normalize then (1 / e) / (1 / e0) else 1 / e) 4

end Resdx.Spec.Idf
