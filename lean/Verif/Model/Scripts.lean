import Verif.Model.Concurrent
import Mathlib.Data.Nat.Pairing

/-!
# Tasks that give several commands, one after the other

Several tasks share a client.  Each gives a sequence of commands: it awaits one, and gives the next when the one before has
returned; an exception ends the task.  (A callback with more than one command, or `asyncio.gather` of such functions.)  The parts
are those of `Verif/Model/Concurrent.lean`; a command that has returned lets its task run on without a break, up to the next
`await` that has to wait: `send_normal_message` (`items/base.py:200-213`) and `read_message` (`client/base.py:238-239`, with
`asyncio.timeout`, which makes no task of its own) have no other point of suspension.

The `j`-th command of task `k` is the request with number `Nat.pair k j` there.

Simplifications: those of `Verif/Model/Concurrent.lean`; a task awaits nothing but its commands.
-/

open Py

namespace Scripts

/-- The commands of each task. -/
abbrev Script := Nat → List Msg

/-- The requests.  `items/base.py:200-213`. -/
def prog (p : Script) (id : Nat) : Concurrent.Req := .command ((p id.unpair.1)[id.unpair.2]?.getD .ack)

/-- A request has returned without an exception.  `items/base.py:212-213`. -/
def returned (s : Concurrent.State) (id : Nat) : Bool :=
  s.finished.any fun x => x.1 == id && (match x.2 with | .ok _ => true | .error _ => false)

/-- Task `k` has run its `j`-th command up to a suspension or to its end, and goes on with the others if it can.
`items/base.py:200-213`. -/
def follow (p : Script) (k : Nat) : Nat → List Msg → Concurrent.State → Concurrent.State
  | _, [], s => s
  | j, _ :: rest, s =>
    if returned s (Nat.pair k j) then follow p k (j + 1) rest (s.step (prog p) (.start (Nat.pair k (j + 1)))) else s

/-- The command that task `k` awaits.  `protocol.py:130`. -/
def current (s : Concurrent.State) (k : Nat) : Option Nat := (s.waiting ++ s.woken).find? fun id => id.unpair.1 = k

/-- What can happen.  `protocol.py:93-95, 124-131`. -/
inductive Ev where
  /-- task `k` begins -/
  | start (k : Nat)
  /-- a message arrives -/
  | arrive (m : Msg)
  /-- the event loop runs the first of the tasks that were woken -/
  | resume
  /-- the timeout of the command that task `k` awaits expires (`client/base.py:238`) -/
  | expire (k : Nat)
  /-- task `k` is cancelled -/
  | cancel (k : Nat)

/-- One event.  `protocol.py:64-131`, `items/base.py:200-213`. -/
def step (p : Script) (s : Concurrent.State) : Ev → Concurrent.State
  | .start k =>
    match p k with
    | [] => s
    | _ :: rest => follow p k 0 rest (s.step (prog p) (.start (Nat.pair k 0)))
  | .arrive m => s.step (prog p) (.arrive m)
  | .resume =>
    match s.woken with
    | [] => s
    | id :: _ => follow p id.unpair.1 id.unpair.2 ((p id.unpair.1).drop (id.unpair.2 + 1)) (s.step (prog p) .resume)
  | .expire k =>
    match current s k with
    | none => s
    | some id => s.step (prog p) (.expire id)
  | .cancel k =>
    match current s k with
    | none => s
    | some id => s.step (prog p) (.cancel id)

/-- A history.  `protocol.py:64-131`. -/
def run (p : Script) (evs : List Ev) : Concurrent.State := evs.foldl (step p) .init

end Scripts
