import Verif.Model.Concurrent

/-!
# Requests under a lock

Tasks that share a client can take an `asyncio.Lock` around each of their requests (`async with lock: await light.turn_on()`), so
that no request begins while another is under way.  The lock is CPython's: `acquire` takes it at once if it is free and nobody
waits for it, and otherwise appends a future to the line; `release` completes the first future; its task takes the lock when the
event loop comes to it, and until then the future stays in the line, so that nobody can overtake it.  The requests are those of
`Verif/Model/Concurrent.lean`, with the simplifications stated there; the parts of the client that are used are
`items/base.py:200-302` and `protocol.py:93-131`.

Simplification: a task releases the lock as soon as its request has ended; it awaits nothing else under the lock.
-/

open Py

namespace Locked

/-- What can happen.  The task of a request does: `async with lock:` the request of `items/base.py:200-302`. -/
inductive Ev where
  /-- the task of request `id` asks for the lock -/
  | call (id : Nat)
  /-- a message arrives (`protocol.py:93-95`) -/
  | arrive (m : Msg)
  /-- the event loop runs the reader that was woken (`protocol.py:130`) -/
  | resume
  /-- the event loop runs the task that the lock was handed to -/
  | enter
  /-- the timeout of request `id` expires (`client/base.py:238`) -/
  | expire (id : Nat)
  /-- the task of request `id` is cancelled, in its request or while it waits for the lock -/
  | cancel (id : Nat)
  deriving DecidableEq

/-- The lock, and what happened on the connection so far (`items/base.py:200-302`, `protocol.py:93-131`). -/
structure State where
  /-- the history of the connection -/
  log : List Concurrent.Ev
  /-- the request whose task holds the lock -/
  holder : Option Nat
  /-- the requests whose tasks wait for the lock -/
  line : List Nat
  /-- the first of them has been handed the lock, and has not run yet -/
  granted : Bool

/-- The tasks and the queue of the connection.  `protocol.py:41, 124-131`. -/
def State.base (prog : Nat → Concurrent.Req) (s : State) : Concurrent.State := Concurrent.run prog s.log

/-- The end of `async with`: the lock is released when the request of its holder has ended.  After `items/base.py:200-302`. -/
def State.release (prog : Nat → Concurrent.Req) (s : State) : State :=
  match s.holder with
  | none => s
  | some id =>
    if id ∈ (s.base prog).waiting ∨ id ∈ (s.base prog).woken then s
    else { s with holder := none, granted := !s.line.isEmpty }

/-- Something happens on the connection.  `items/base.py:200-302`, `protocol.py:93-131`. -/
def State.happens (prog : Nat → Concurrent.Req) (s : State) (e : Concurrent.Ev) : State :=
  State.release prog { s with log := s.log ++ [e] }

/-- One event.  `items/base.py:200-302`, `protocol.py:93-131`. -/
def State.step (prog : Nat → Concurrent.Req) (s : State) : Ev → State
  | .call id =>
    if s.holder = none ∧ s.line = [] then State.happens prog { s with holder := some id } (.start id)
    else { s with line := s.line ++ [id] }
  | .arrive m => s.happens prog (.arrive m)
  | .resume => s.happens prog .resume
  | .enter =>
    match s.granted, s.line with
    | true, id :: rest => State.happens prog { s with holder := some id, line := rest, granted := false } (.start id)
    | _, _ => s
  | .expire id => s.happens prog (.expire id)
  | .cancel id =>
    if id ∈ s.line then
      if s.granted ∧ s.line.head? = some id then
        -- `acquire` hands the lock on when it is cancelled
        { s with line := s.line.erase id, granted := !(s.line.erase id).isEmpty }
      else { s with line := s.line.erase id }
    else s.happens prog (.cancel id)

/-- A new connection and a new lock.  `protocol.py:26-43`. -/
def State.init : State := ⟨[], none, [], false⟩

/-- A history.  `items/base.py:200-302`, `protocol.py:93-131`. -/
def run (prog : Nat → Concurrent.Req) (evs : List Ev) : State := evs.foldl (State.step prog) State.init

end Locked
