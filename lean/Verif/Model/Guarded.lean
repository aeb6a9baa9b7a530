import Verif.Model.Locked

/-!
# Requests under a lock, with a new connection after each that is given up

As in `Verif/Model/Locked.lean`, but a task whose request times out or is cancelled calls `client.start()` before it releases
the lock (`client/base.py:81-139`): that makes a new protocol object with a queue of its own (`protocol.py:26-43`), and what
still comes on the old connection goes to the queue of the old one, from which nobody reads.

Simplifications: those of `Verif/Model/Locked.lean`; `start()` is one step here, taken when the login has succeeded (if it
fails it is called again, if it is cancelled it goes on, as under `asyncio.shield`); the gateway sends nothing on a new command
session before it is asked.
-/

open Py

namespace Guarded

/-- What can happen.  `items/base.py:200-302`, `protocol.py:93-131`, `client/base.py:81-139`. -/
inductive Ev where
  /-- the task of request `id` asks for the lock -/
  | call (id : Nat)
  /-- a message arrives on the connection in use (`protocol.py:93-95`) -/
  | arrive (m : Msg)
  /-- a message arrives on the `k`-th of the old connections (`protocol.py:93-95`) -/
  | late (k : Nat) (m : Msg)
  /-- the event loop runs the reader that was woken (`protocol.py:130`) -/
  | resume
  /-- the event loop runs the task that the lock was handed to -/
  | enter
  /-- the timeout of request `id` expires (`client/base.py:238`) -/
  | expire (id : Nat)
  /-- the task of request `id` is cancelled, in its request or while it waits for the lock -/
  | cancel (id : Nat)
  /-- `start()` has returned (`client/base.py:81-139`) -/
  | restarted
  deriving DecidableEq

/-- The lock with the connection in use, the histories of the old connections, and whether `start()` is under way.
`protocol.py:26-43`, `client/base.py:81-139`. -/
structure State where
  lock : Locked.State
  old : List (List Concurrent.Ev)
  restarting : Bool

/-- The request of the holder of the lock is given up, by `e`; its task calls `start()`.  `client/base.py:81-139, 238`. -/
def State.giveUp (s : State) (e : Concurrent.Ev) : State :=
  ⟨{ s.lock with log := [] }, s.old ++ [s.lock.log ++ [e]], true⟩

/-- One event.  `items/base.py:200-302`, `protocol.py:93-131`, `client/base.py:81-139`. -/
def State.step (prog : Nat → Concurrent.Req) (s : State) : Ev → State
  | .call id => { s with lock := s.lock.step prog (.call id) }
  | .arrive m => if s.restarting then s else { s with lock := s.lock.step prog (.arrive m) }
  | .late k m => { s with old := s.old.modify k (· ++ [.arrive m]) }
  | .resume => if s.restarting then s else { s with lock := s.lock.step prog .resume }
  | .enter => { s with lock := s.lock.step prog .enter }
  | .expire id => if s.lock.holder = some id ∧ s.restarting = false then s.giveUp (.expire id) else s
  | .cancel id =>
    if id ∈ s.lock.line then { s with lock := s.lock.step prog (.cancel id) }
    else if s.lock.holder = some id ∧ s.restarting = false then s.giveUp (.cancel id) else s
  | .restarted =>
    if s.restarting then
      { s with lock := { s.lock with holder := none, granted := !s.lock.line.isEmpty }, restarting := false }
    else s

/-- A new connection and a new lock.  `protocol.py:26-43`. -/
def State.init : State := ⟨.init, [], false⟩

/-- A history.  `items/base.py:200-302`, `protocol.py:93-131`, `client/base.py:81-139`. -/
def run (prog : Nat → Concurrent.Req) (evs : List Ev) : State := evs.foldl (State.step prog) State.init

end Guarded
