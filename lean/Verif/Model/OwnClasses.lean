import Verif.Model.Events

/-!
# Item classes of a program (`pyown/client/client.py`, `pyown/items/utils.py`)

A program can derive classes from `BaseItem` or from the item classes of the library, give them a `_who` and a
`call_callbacks` of their own, and enter classes in `ITEM_TYPES`.  This is the body of `loop()` with such classes.

Simplifications, besides those of `Verif/Model/Events.lean`.
* The classes are defined, the entries made and the callbacks registered before `loop()` is called; the connection stays open.
* The constructor is the one of the class derived from.
* The dictionary `_items` is kept in two parts: the keys whose WHO the program has entered in `ITEM_TYPES`, and the others.
-/

open Py Events

namespace Own

/-- An item object: made by a factory of the library, or by one the program entered.  In the latter case `name` is the class
of the program, if it is one; numbers tell objects of the same constructor apart.  For a class derived from `BaseItem` the
field `cls` is `camera`: of the library's classes only `Gateway` and those for energy ask what an item is an instance of
(`gateway.py:466`, `energy.py:552`).  `items/base.py:38-56`. -/
inductive Thing where
  | lib (obj : Obj)
  | extra (name : Option Nat) (obj : Obj)
  deriving DecidableEq, Repr

/-- The object as the classes of the library see it.  `items/base.py:38-56`. -/
def Thing.obj : Thing → Obj
  | .lib o => o
  | .extra _ o => o

/-- A class of the program: a name, the class of the library it derives from (`none` for `BaseItem`), its `_who`, and what its
`call_callbacks` does.  `items/base.py:30-36`, `:87-102`. -/
structure Class where
  name : Nat
  parent : Option Cls
  who : Who
  calls : Thing → Msg → List Start × Except Err Unit

/-- What an entry of `ITEM_TYPES` can be.  `items/utils.py:12-18`. -/
inductive Factory where
  | lib (c : Cls)
  | own (c : Class)

/-- The program: its classes in the order of their definition, and the entries it makes, the last one first.
`items/base.py:30`, `items/utils.py:12-18`. -/
structure Program where
  classes : List Class
  types : List (Who × Factory)

/-- `factory(client, where)` (`client.py:73`, `items/base.py:38-56`): the item, its class for `isinstance`, and its class if it
is one of the program. -/
def Factory.make (wher : Tag) : Factory → Except Err (Option Nat × Cls × Item)
  | .lib c => (construct c wher).map fun i => (none, c, i)
  | .own c =>
    match c.parent with
    | none => .ok (some c.name, .camera, ⟨c.who, wher⟩)
    | some p => (construct p wher).map fun i => (some c.name, p, { i with who := c.who })

/-- `Client._items` (`client.py:53`). -/
structure Things where
  lib : Items
  extra : List ((Who × Str) × Thing)
  next : Nat

/-- `Client._items = {}`: `client.py:53`. -/
def Things.init : Things := ⟨.init, [], 0⟩

/-- `get_item` (`client.py:55-77`). -/
def getItem (P : Program) (client : Nat) (who : Who) (wher : Tag) (s : Things) : Except Err Thing × Things :=
  match P.types.lookup who with
  | none =>
    let (r, items) := Events.getItem client who wher s.lib
    (r.map .lib, { s with lib := items })
  | some f =>
    match s.extra.lookup (who, wher.string) with
    | some t => (.ok t, s)
    | none =>
      match f.make wher with
      | .error e => (.error e, s)
      | .ok (name, c, i) =>
        let t := Thing.extra name ⟨s.next, c, i, client⟩
        (.ok t, { s with extra := ((who, wher.string), t) :: s.extra, next := s.next + 1 })

/-- A task, with the class of the program that made it, if it is one.  `client.py:156`. -/
abbrev Told := Option Nat × Start

/-- `message.who == item_obj.who` for a class of the program (`client.py:154`, `items/base.py:68-72`). -/
def Class.matches (py : Python) (m : Msg) (c : Class) : Bool :=
  match py with
  | .upTo312 => m.who = some c.who
  | .from313 => false

/-- The part of the `for` loop of `_dispatch_callbacks` over the classes of the program (`client.py:153-171`). -/
def dispatchOwn (py : Python) (t : Thing) (m : Msg) : List Class → List Told
  | [] => []
  | c :: cs =>
    if c.matches py m then
      match c.calls t m with
      | (ts, .error _) => ts.map (some c.name, ·) ++ dispatchOwn py t m cs
      | (ts, .ok ()) => ts.map (some c.name, ·)
    else dispatchOwn py t m cs

/-- The `for` loop of `_dispatch_callbacks` (`client.py:153-171`), from the remaining classes of the library on.
`BaseItem.__subclasses__()` are the classes derived directly, in the order of definition. -/
def dispatchIn (P : Program) (py : Python) (call : Call) (r : Registry) (t : Thing) (m : Msg) : List Base → List Told
  | [] => dispatchOwn py t m (P.classes.filter fun c => c.parent = none)
  | b :: bs =>
    if whoMatches py m b then
      match b.callCallbacks call r t.obj m with
      | (ts, .error _) => ts.map (none, ·) ++ dispatchIn P py call r t m bs
      | (ts, .ok ()) => ts.map (none, ·)
    else dispatchIn P py call r t m bs

/-- `_dispatch_callbacks` (`client.py:145-171`). -/
def dispatch (P : Program) (py : Python) (call : Call) (r : Registry) (t : Thing) (m : Msg) : List Told :=
  dispatchIn P py call r t m subclasses

/-- The body of the `while` of `loop()` for one message (`client.py:124-143`). -/
def handle (P : Program) (py : Python) (call : Call) (client : Nat) (r : Registry) (s : Things) (m : Msg) :
    Except Err (List Told) × Things :=
  if m.type = .ack ∨ m.type = .nack then (.ok [], s)
  else if m.type = .generic then (.ok [], s)
  else
    match m.who, m.wher with
    | some who, some wher =>
      match getItem P client who wher s with
      | (.error .keyError, s') => (.ok [], s')
      | (.error e, s') => (.error e, s')
      | (.ok t, s') => (.ok (dispatch P py call r t m), s')
    | _, _ => (.ok [], s)

/-- `loop()` on the messages that come (`client.py:115-143`): the tasks made, the items afterwards, and the exception that
ended it, if one did. -/
def listen (P : Program) (py : Python) (call : Call) (client : Nat) (r : Registry) (s : Things) :
    List Msg → List Told × Things × Option Err
  | [] => ([], s, none)
  | m :: q =>
    match handle P py call client r s m with
    | (.error e, s') => ([], s', some e)
    | (.ok ts, s') =>
      let (us, s'', e) := listen P py call client r s' q
      (ts ++ us, s'', e)

end Own
