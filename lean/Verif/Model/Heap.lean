import Verif.Model.Messages

/-!
# Who holds the list of tags of a message

In the other modules a message is a value.  In Python it is an object that refers to its tags, and `GenericMessage` refers
to a `list`, which whoever else holds it can change.  Here a message is an object, and the lists are in a heap.  The tags
of the other classes are tuples of tags, which cannot be changed.

Simplification: the user does not touch attributes that begin with an underscore.
-/

open Py

namespace Heap

/-- A message object.  The fields of `messages/base.py:155-156` and of the other classes. -/
inductive Obj where
  /-- a message whose tags are a tuple (`normal.py:46-49`, `status.py:39-42`, `dimension.py:48-51`, `:95-108`) or which has
  constant tags (`ack.py`, `nack.py`) -/
  | fixed (m : Msg)
  /-- a `GenericMessage`, whose `_tags` is the list itself (`base.py:153-154`) -/
  | generic (r : Nat)
  deriving DecidableEq

/-- The list objects (which are referred to by their number), those of them the user refers to, and the messages.
`messages/base.py:87-165`. -/
structure State where
  lists : List (List Str)
  user : List Nat
  msgs : List Obj
  deriving DecidableEq

/-- What a program does with messages and lists.  `messages/base.py:87-183`. -/
inductive Op where
  /-- make a list -/
  | newList (ts : List Str)
  /-- change a list (`append`, item assignment, `clear`, ...) so that it holds `ts` -/
  | change (r : Nat) (ts : List Str)
  /-- `GenericMessage(r)` -/
  | build (r : Nat)
  /-- `GenericMessage.parse(r)` -/
  | parseList (r : Nat)
  /-- the constructor of another class, with a tuple of tags -/
  | make (m : Msg)
  /-- `parse_message(text)` -/
  | parse (text : Str)
  /-- `message.tags` of message `k` -/
  | tags (k : Nat)
  deriving DecidableEq

/-- A new message object for the value `m`; a list of tags is a new one that nobody else has.  `messages/base.py:155-156`. -/
def State.fresh (s : State) : Msg → State
  | .generic ts => { s with lists := s.lists ++ [ts], msgs := s.msgs ++ [.generic s.lists.length] }
  | m => { s with msgs := s.msgs ++ [.fixed m] }

/-- One operation.  An operation on a list the user does not hold, or that raises, changes nothing.
`messages/base.py:87-183`. -/
def State.step (s : State) : Op → State
  | .newList ts => { s with lists := s.lists ++ [ts], user := s.user ++ [s.lists.length] }
  | .change r ts => if r ∈ s.user then { s with lists := s.lists.set r ts } else s
  | .build r => if r ∈ s.user then { s with msgs := s.msgs ++ [.generic r] } else s
  | .parseList r =>
    -- `base.py:167-183`
    if r ∈ s.user then
      match Msg.checkTags (s.lists.getD r []) with
      | .ok () => { s with msgs := s.msgs ++ [.generic r] }
      | .error _ => s
    else s
  | .make m => s.fresh m
  | .parse text =>
    -- the list comes from `str.split` (`base.py:201-205`, `:222-223`)
    match parseMessage text with
    | .ok m => s.fresh m
    | .error _ => s
  | .tags k =>
    -- `copy.deepcopy` (`base.py:92-93`): a new list for a list, the same tuple for a tuple
    match s.msgs[k]? with
    | some (.generic r) => { s with lists := s.lists ++ [s.lists.getD r []], user := s.user ++ [s.lists.length] }
    | _ => s

/-- A history of the operations of `messages/base.py:87-183`. -/
def State.run (s : State) (ops : List Op) : State := ops.foldl State.step s

/-- Before anything happens.  `messages/base.py:186-220`. -/
def State.init : State := ⟨[], [], []⟩

/-- Message `k` as the value it stands for now.  `messages/base.py:87-165`. -/
def State.message (s : State) (k : Nat) : Option Msg :=
  match s.msgs[k]? with
  | some (.fixed m) => some m
  | some (.generic r) => some (.generic (s.lists.getD r []))
  | none => none

end Heap
