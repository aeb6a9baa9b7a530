import Verif.Py.Int

/-!
# Tags (`pyown/tags`)

`Tag`, `Value`, `TagWithParameters`, `What`, `Where`, `Dimension` all store one validated string; a single structure
`Tag` carries it.  Which Python class an object has only matters for `.tag`, `.parameters` and `.with_parameter`,
which are given per class below.
-/

open Py

/-- Text held by a tag object (`pyown/tags/base.py:31-52`). -/
structure Tag where
  string : Str
  deriving DecidableEq, Repr

/-- `c in VALID_TAG_CHARS` for one character (`pyown/tags/base.py:13`, `:28`). -/
def validTagChar (c : Char) : Bool := cs!"0123456789#".contains c

/-- `is_valid_tag` (`pyown/tags/base.py:17-28`). -/
def isValidTag (s : Str) : Bool := s.all validTagChar

namespace Tag

/-- `Tag(string)` for a `str` (`pyown/tags/base.py:39-47`); also `What`, `Where`, `Dimension`, `Value`. -/
def ofStr (s : Str) : Except Err Tag :=
  if isValidTag s then .ok ⟨s⟩ else .error (.invalidTag s)

/-- `Tag(n)` for an `int` (`pyown/tags/base.py:39-47`). -/
def ofInt (n : Int) : Except Err Tag := do
  let s ← strInt n
  ofStr s

/-- `Tag.tag` (`pyown/tags/base.py:54-58`). -/
def plainTag (t : Tag) : Str := removePrefix t.string cs!"#"

/-- `TagWithParameters.tag` (`pyown/tags/base.py:99-103`): `split` never returns an empty list. -/
def tag (t : Tag) : Except Err Str := index (split1 '#' t.string) 0

/-- `TagWithParameters.parameters` (`pyown/tags/base.py:105-108`). -/
def parameters (t : Tag) : List Str := (split1 '#' t.string).drop 1

/-- `with_parameter` with a `str` argument (`pyown/tags/base.py:68-70`, `:110-112`), for classes whose constructor is `Tag.__init__`. -/
def withParameter (t : Tag) (p : Str) : Except Err Tag := ofStr (t.string ++ cs!"#" ++ p)

/-- `with_parameter` with an `int` argument.  `tags/base.py:68-70, 110-112`. -/
def withParameterInt (t : Tag) (p : Int) : Except Err Tag := do
  let s ← strInt p
  withParameter t s

end Tag

/-- Operands of `==` that involve tags: a tag, a `str`, or an `int`.  `tags/base.py:78-86`. -/
inductive TagLike where
  | tag (t : Tag)
  | str (s : Str)
  | int (n : Int)
  deriving DecidableEq, Repr

/-- Python `a == b` on these operands (`pyown/tags/base.py:78-86`): `Tag.__eq__` on the left, and the reflected
`Tag.__eq__` when the left operand is a `str` or an `int`. -/
def pyEq : TagLike → TagLike → Except Err Bool
  | .tag a, .tag b => .ok (a.string = b.string)
  | .tag a, .str b => .ok (a.string = b)
  | .str a, .tag b => .ok (b.string = a)
  | .tag a, .int n => (strInt n).map (fun s => decide (a.string = s))
  | .int n, .tag a => (strInt n).map (fun s => decide (a.string = s))
  | .str a, .str b => .ok (a = b)
  | .int a, .int b => .ok (a = b)
  | .str _, .int _ => .ok false
  | .int _, .str _ => .ok false

/-- Python `hash` (`pyown/tags/base.py:88-89`), for arbitrary hash functions of `str` and `int`. -/
def pyHash (hStr : Str → Int) (hInt : Int → Int) : TagLike → Int
  | .tag t => hStr t.string
  | .str s => hStr s
  | .int n => hInt n

/-! ## WHERE -/

/-- `WhereType` (`pyown/tags/where.py:8-24`). -/
inductive WhereType where
  | general | ambient | lightPoint | group | localBus
  deriving DecidableEq, Repr

/-- `s.startswith((p₁, p₂, …))`, used at `tags/where.py:48-52`. -/
def startsWithAny (s : Str) (ps : List Str) : Bool := ps.any (startsWith s)

/-- `Where.type` (`pyown/tags/where.py:34-59`). -/
def Where.type (w : Tag) : Except Err WhereType := do
  if w.string = cs!"0" then
    return .general
  else if [cs!"1", cs!"2", cs!"3", cs!"4", cs!"5", cs!"6", cs!"7", cs!"8", cs!"9"].contains w.string then
    return .ambient
  else if [cs!"00", cs!"100"].contains w.string then
    return .ambient
  else if startsWithAny w.string [cs!"00", cs!"10"] then
    return .lightPoint
  else if startsWithAny w.string [cs!"1", cs!"2", cs!"3", cs!"4", cs!"5", cs!"6", cs!"7", cs!"8", cs!"9"] then
    return .lightPoint
  else if startsWithAny w.string
      [cs!"01", cs!"02", cs!"03", cs!"04", cs!"05", cs!"06", cs!"07", cs!"08", cs!"09"] then
    return .lightPoint
  else if (← w.tag) = [] ∧ w.parameters.length = 1 then
    return .group
  else if (← w.tag) = [] ∧ w.parameters.length = 2 then
    return .localBus
  else
    throw .valueError

/-! ## WHO -/

/-- `Who` (`pyown/tags/who.py:45-66`). -/
inductive Who where
  | scene | lighting | automation | loadControl | thermoregulation | burglarAlarm | doorEntrySystem
  | videoDoorEntry | auxiliary | gateway | actuatorsLocks | cen1 | soundDiffusion1 | mh200nScene
  | energyManagement | soundDiffusion2 | lightingManagement | cen2 | automationDiagnostics
  | thermoregulationDiagnostics | deviceDiagnostics | energyDiagnostics
  deriving DecidableEq, Repr

namespace Who

/-- `str(who)`, the enum value (`pyown/tags/who.py:45-69`). -/
def code : Who → Str
  | scene => cs!"0"
  | lighting => cs!"1"
  | automation => cs!"2"
  | loadControl => cs!"3"
  | thermoregulation => cs!"4"
  | burglarAlarm => cs!"5"
  | doorEntrySystem => cs!"6"
  | videoDoorEntry => cs!"7"
  | auxiliary => cs!"8"
  | gateway => cs!"13"
  | actuatorsLocks => cs!"14"
  | cen1 => cs!"15"
  | soundDiffusion1 => cs!"16"
  | mh200nScene => cs!"17"
  | energyManagement => cs!"18"
  | soundDiffusion2 => cs!"22"
  | lightingManagement => cs!"24"
  | cen2 => cs!"25"
  | automationDiagnostics => cs!"1001"
  | thermoregulationDiagnostics => cs!"1004"
  | deviceDiagnostics => cs!"1013"
  | energyDiagnostics => cs!"1018"

/-- The members in definition order.  `tags/who.py:45-66`. -/
def all : List Who :=
  [scene, lighting, automation, loadControl, thermoregulation, burglarAlarm, doorEntrySystem,
   videoDoorEntry, auxiliary, gateway, actuatorsLocks, cen1, soundDiffusion1, mh200nScene,
   energyManagement, soundDiffusion2, lightingManagement, cen2, automationDiagnostics,
   thermoregulationDiagnostics, deviceDiagnostics, energyDiagnostics]

/-- `Who(s)`: enum lookup by value, `ValueError` when there is no such member (`pyown/tags/who.py:11`). -/
def ofStr (s : Str) : Except Err Who :=
  match all.find? (fun w => w.code == s) with
  | some w => .ok w
  | none => .error .valueError

/-- `who_map` (`pyown/tags/who.py:77-95`). -/
def map : List (Who × Str) :=
  [(scene, cs!"Scene"), (lighting, cs!"Lighting"), (automation, cs!"Automation"),
   (loadControl, cs!"Load control"), (thermoregulation, cs!"Thermoregulation"),
   (burglarAlarm, cs!"Burglar alarm"), (videoDoorEntry, cs!"Video door entry"),
   (gateway, cs!"Gateway management"), (cen1, cs!"CEN"), (soundDiffusion1, cs!"Sound diffusion 1"),
   (mh200nScene, cs!"MH200N Scene"), (energyManagement, cs!"Energy management"),
   (soundDiffusion2, cs!"Sound diffusion 2"), (cen2, cs!"CEN plus / scenarios plus / dry contacts"),
   (automationDiagnostics, cs!"Automation diagnostics"),
   (thermoregulationDiagnostics, cs!"Thermoregulation diagnostics"),
   (deviceDiagnostics, cs!"Device diagnostics")]

/-- `who.name` (`pyown/tags/who.py:71-74`). -/
def name (w : Who) : Except Err Str :=
  match map.lookup w with
  | some d => .ok d
  | none => .error .keyError

end Who
