import Verif.Model.Events

/-!
# Constructors of the items (`pyown/items/base.py:38-55` and the classes that override it)

Simplification: the client an item belongs to is not part of the result (it is in `Events.Obj`).
-/

open Py

namespace Construct

open Events (Cls Python)

/-- The argument `where: Where | str` (`items/base.py:38`). -/
inductive WhereArg where
  | tag (t : Tag)
  | text (s : Str)
  deriving DecidableEq, Repr

/-- The argument `who: Who | str` (`items/base.py:38`). -/
inductive WhoArg where
  | member (w : Who)
  | text (s : Str)
  deriving DecidableEq, Repr

/-- `_who` of the class (`lighting/base.py:120`, `automation.py:51`, `camera.py:135`, `gateway.py:95`, `energy.py:29`). -/
def classWho : Cls → Who
  | .light | .dimmer => .lighting
  | .automation => .automation
  | .camera => .videoDoorEntry
  | .gateway => .gateway
  | .energyManagement | .stopGo => .energyManagement

/-- `Where(where)` for a text, otherwise the tag itself (`items/base.py:48-50`). -/
def place : WhereArg → Except Err Tag
  | .tag t => .ok t
  | .text s => Tag.ofStr s

/-- `BaseItem.__init__` (`items/base.py:38-55`).  A member of `Who` is itself a `str`; `Who(who)` then gives it back. -/
def baseInit (cw : Who) (a : WhereArg) (o : Option WhoArg) : Except Err Item := do
  let w ← place a
  match o with
  | none => return ⟨cw, w⟩
  | some (.member m) => return ⟨m, w⟩
  | some (.text s) =>
    let m ← Who.ofStr s
    return ⟨m, w⟩

/-- `EnergyManagement.__init__` (`energy/energy.py:33-45`). -/
def energyInit (a : WhereArg) (o : Option WhoArg) : Except Err Item := do
  let i ← baseInit .energyManagement a o
  let _ ← EnergyManagement.getType i.wher
  return i

/-- `StopGo.__init__` (`energy/stop_go.py:19-32`); both kinds of `where` are formatted as their text. -/
def stopGoInit (a : WhereArg) (o : Option WhoArg) : Except Err Item := do
  let i ← energyInit a o
  let t ← EnergyManagement.getType i.wher
  if t ≠ .stopGo then .error (.invalidTag (cs!"Invalid tag for a Stop&Go item: " ++ i.wher.string))
  else return i

/-- Calling the class.  `Gateway` ignores its address and has no parameter `who` (`gateway.py:99-105`). -/
def new (c : Cls) (a : WhereArg) (o : Option WhoArg) : Except Err Item :=
  match c with
  | .energyManagement => energyInit a o
  | .stopGo => stopGoInit a o
  | .gateway =>
    match o with
    | none => .ok Gateway.item
    | some _ => .error .typeError
  | c => baseInit (classWho c) a o

/-- `item.who` (`items/base.py:68-72`): the `_who` of the class; from Python 3.13 on a method object, which is no `Who`. -/
def reportedWho : Python → Cls → Option Who
  | .upTo312, c => some (classWho c)
  | .from313, _ => none

end Construct
