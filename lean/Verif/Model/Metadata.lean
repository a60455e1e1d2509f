import Verif.Model.Rep205
import Verif.Model.BaseModel

/-!
# The metadata of an ASHRAE 205 representation

What `generate_205_representation` of a unit and of its fan write into the `metadata` of the four parts. The number formats and the time are parameters. The metadata objects are
state: a missing seed and a missing description of the fan are stored in them.
-/

namespace Resdx.Rep205

open Resdx.BaseModel (NumArg)

variable {K : Type}

/-- `FanMetadata`, resdx/fan.py:15-28, with its defaults. -/
structure FanMetadata where
  description : String := ""
  dataSource : String := "https://github.com/bigladder/resdx"
  notes : String := ""
  uuidSeed : Option Int := none
  dataVersion : Int := 1
  deriving DecidableEq

/-- `DXUnitMetadata`, resdx/dx_unit.py:97-111, with its defaults. -/
structure UnitMetadata where
  description : String := ""
  dataSource : String := "https://github.com/bigladder/resdx"
  notes : String := ""
  compressorType : String := ""
  uuidSeed : Option Int := none
  dataVersion : Int := 1
  deriving DecidableEq

/-- The `metadata` of one part, resdx/fan.py:251-261, 297-310 and resdx/dx_unit.py:1424-1434, 1551-1564; the entries that are the same in all parts (`data_model`,
`schema_version`, `disclaimer`) are left out. -/
structure Part where
  schema : String
  description : String
  id : String
  timestamp : String
  dataVersion : Int
  dataSource : String
  /-- `none`: no such key -/
  notes : Option String
  deriving DecidableEq

/-- The class tests of the description, resdx/fan.py:289-294. -/
inductive FanClass
  | psc | ecmFlow | other
  deriving DecidableEq

/-- What the description of a fan is made from, resdx/fan.py:269-283: design airflows, and efficacies and pressures that may be single numbers. -/
structure Described (K : Type) where
  kind : FanClass
  airflow : List K
  efficacy : NumArg K
  pressure : NumArg K

/-- `x[0] if type(x) is list else x`, resdx/fan.py:269-283. -/
def firstOrScalar : NumArg K → Py K
  | .num x => .ok x
  | .list l => pyGet l 0

/-- The number formats `:.0f`, `:.3f` and `:.2f` after conversion to cfm, W/cfm and inches of water, resdx/fan.py:286-288, 295; and the description of a coil,
resdx/dx_unit.py:1428. -/
structure Formats (K : Type) where
  airflow : K → String
  efficacy : K → String
  pressure : K → String

/-- The name of the class in the description, resdx/fan.py:289-294. -/
def className : FanClass → String
  | .psc => "Permanent Split Capacitor (PSC) fan"
  | .ecmFlow => "Electronically Commutated Motor (ECM) fan"
  | .other => "fan"

/-- The description text, resdx/fan.py:295. -/
def fanText (fmt : Formats K) (kind : FanClass) (a e p : K) : String :=
  fmt.airflow a ++ " cfm " ++ className kind ++ " (" ++ fmt.efficacy e ++ " W/cfm @ " ++ fmt.pressure p ++ " in. H2O)"

/-- The `notes` key, resdx/fan.py:309-310 and resdx/dx_unit.py:1563-1564. -/
def notesKey (notes : String) : Option String := if notes.length > 0 then some notes else none

/-- The metadata of the fan and of its motor written by `Fan.generate_205_representation`, resdx/fan.py:219-310. `before` is what is computed between the identifier and the description
(the order of the speeds and the power of the motor, lines 227-246) and `after` what is computed after it (the map, lines 312-383); both may raise. -/
def fanParts (fmt : Formats K) (H : Hashes) (now : String) (before after : Py Unit) (F : Described K) : PyM FanMetadata (Part × Part) := do
  let m ← PyM.get
  if m.uuidSeed = none then PyM.modify fun m => { m with uuidSeed := some H.fan }
  let seed ← pyNum (← PyM.get).uuidSeed
  let id := H.uuidOfInt seed
  let _ ← PyM.lift before
  let m ← PyM.get
  let motor : Part :=
    { schema := "RS0005"
      description := "Placeholder motor representation (performance characterized in parent RS0003 fan assembly)"
      id := H.uuidOfStr id, timestamp := now ++ "Z", dataVersion := m.dataVersion, dataSource := m.dataSource, notes := none }
  let a ← PyM.lift (pyGet F.airflow 0)
  let e ← PyM.lift (firstOrScalar F.efficacy)
  let p ← PyM.lift (firstOrScalar F.pressure)
  if m.description.length = 0 then PyM.modify fun m => { m with description := fanText fmt F.kind a e p }
  let m ← PyM.get
  let _ ← PyM.lift after
  return ({ schema := "RS0003", description := m.description, id, timestamp := now ++ "Z", dataVersion := m.dataVersion
            dataSource := m.dataSource, notes := notesKey m.notes }, motor)

/-- The metadata of the coil and of the whole, resdx/dx_unit.py:1424-1434 and 1551-1564: `coilText` is the description of the coil, lines 1420-1428. -/
def unitParts (H : Hashes) (now : String) (coilText : String) (m : UnitMetadata) (coil fan : String) : Part × Part :=
  ({ schema := "RS0002", description := m.description, id := H.uuidOfInt (H.pair coil fan), timestamp := now ++ "Z", dataVersion := m.dataVersion
     dataSource := m.dataSource, notes := notesKey m.notes },
   { schema := "RS0004", description := coilText, id := coil, timestamp := now ++ "Z", dataVersion := m.dataVersion, dataSource := m.dataSource, notes := none })

/-- What happens to a fan between representations: its attributes change (speeds are added or removed, resdx/fan.py:69-79), or a representation is generated. -/
inductive FanEvent (K : Type)
  | change (f : Described K → Described K)
  | represent (now : String) (before after : Py Unit)

/-- One event: the part written, if a representation was generated and did not raise. -/
def fanEvent (fmt : Formats K) (H : Hashes) : FanEvent K → Described K × FanMetadata → Option Part × (Described K × FanMetadata)
  | .change f, (F, m) => (none, (f F, m))
  | .represent now before after, (F, m) =>
    match fanParts fmt H now before after F m with
    | (.ok r, m') => (some r.1, (F, m'))
    | (.error _, m') => (none, (F, m'))

/-- A history: the parts written, and the state at the end. -/
def fanHistory (fmt : Formats K) (H : Hashes) : List (FanEvent K) → Described K × FanMetadata → List Part × (Described K × FanMetadata)
  | [], s => ([], s)
  | e :: es, s =>
    let (p, s) := fanEvent fmt H e s
    let (ps, s) := fanHistory fmt H es s
    (p.toList ++ ps, s)

end Resdx.Rep205
