import Verif.Model.Concurrent

/-!
# Requests and the end of the connection

Several requests on one client as in `Verif/Model/Concurrent.lean`, with congestion of the transport, the loss of the connection and
`close()`.

`close()` (`client/base.py:243-249`) closes the transport and forgets the protocol object; a task that is suspended in a read or
in `asyncio.sleep` keeps the object (`client/base.py:223`, `:239`) and goes on with it, but its next `read_message` raises `InvalidSession`
(`:235-236`).  `connection_lost` (`protocol.py:53-62`) resolves a future nobody waits for; the client goes on with the protocol
object it has.  What asyncio does: no data is received after the end of the connection or `transport.close()`; `transport.write` after the
end drops the data without an exception; `resume_writing` is not called any more after the end.

Simplifications: a command session; a transport that pauses and resumes in turn; `start()` is not called again.
-/

open Py

namespace Loss
open Concurrent (Req)

/-- The client, its protocol object and its transport.  `client/base.py:208-249`, `protocol.py:26-131`. -/
structure State where
  /-- the requests that wait for messages, and the queue (`protocol.py:41`) -/
  base : Concurrent.State
  /-- the lock of the protocol is held (`protocol.py:43`) -/
  paused : Bool
  /-- requests suspended before their write (`protocol.py:118-119`) -/
  sending : List Nat
  /-- `connection_lost` has been called (`protocol.py:53-62`) -/
  ended : Bool
  /-- `close()` has been called (`client/base.py:243-249`) -/
  closed : Bool
  /-- frames given to a transport that was neither lost nor closed, with the task (`protocol.py:121`) -/
  written : List (Nat × Msg)

/-- What can happen.  `client/base.py:208-249`, `protocol.py:53-131`. -/
inductive Ev where
  /-- task `id` begins its request -/
  | start (id : Nat)
  /-- the sleep of task `id` ends (`protocol.py:119`) -/
  | wake (id : Nat)
  /-- a message arrives -/
  | arrive (m : Msg)
  /-- the event loop runs the first of the tasks that were woken -/
  | resume
  /-- the timeout of task `id` expires (`client/base.py:238`) -/
  | expire (id : Nat)
  /-- task `id` is cancelled -/
  | cancel (id : Nat)
  /-- `pause_writing()` -/
  | pause
  /-- `resume_writing()` -/
  | unpause
  /-- `connection_lost(...)` -/
  | lost
  /-- `client.close()` -/
  | close
  deriving DecidableEq

/-- A request ends. -/
def State.finish (s : State) (id : Nat) (r : Except Err Unit) : State :=
  { s with base := { s.base with finished := s.base.finished ++ [(id, r)] } }

/-- `protocol.py:121` and the first read after it (`client/base.py:235-239`). -/
def State.write (prog : Nat → Req) (s : State) (id : Nat) : State :=
  let s := { s with written := if s.ended || s.closed then s.written else s.written ++ [(id, (prog id).msg)] }
  if s.closed then s.finish id (.error .invalidSession)
  else { s with base := s.base.step prog (.start id) }

/-- A task that was woken takes a message after `close()`, and cannot read another (`protocol.py:130`, `client/base.py:235-236`). -/
def State.takeOne (prog : Nat → Req) (s : State) : State :=
  match s.base.woken with
  | [] => s
  | id :: rest =>
    match s.base.queue with
    | [] => { s with base := { s.base with woken := rest, waiting := s.base.waiting ++ [id] } }
    | m :: q =>
      { s with base := { s.base with woken := rest, queue := q, got := s.base.got ++ [(id, m)] } }.finish id
        (if (prog id).want m then .error .invalidSession else Concurrent.verdict m)

/-- One event.  `client/base.py:208-249`, `protocol.py:53-131`. -/
def State.step (prog : Nat → Req) (s : State) : Ev → State
  | .start id =>
    if s.closed then s.finish id (.error .invalidSession)
    else if s.paused then { s with sending := s.sending ++ [id] }
    else s.write prog id
  | .wake id =>
    if id ∈ s.sending ∧ s.paused = false then State.write prog { s with sending := s.sending.erase id } id
    else s
  | .arrive m => if s.ended || s.closed then s else { s with base := s.base.step prog (.arrive m) }
  | .resume => if s.closed then s.takeOne prog else { s with base := s.base.step prog .resume }
  | .expire id => { s with base := s.base.step prog (.expire id) }
  | .cancel id =>
    if id ∈ s.sending then
      { s with sending := s.sending.erase id, base := { s.base with cancelled := s.base.cancelled ++ [id] } }
    else { s with base := s.base.step prog (.cancel id) }
  | .pause => if s.ended then s else { s with paused := true }
  | .unpause => if s.ended then s else { s with paused := false }
  | .lost => { s with ended := true }
  | .close => { s with closed := true }

/-- A new connection.  `protocol.py:26-43`. -/
def State.init : State := ⟨.init, false, [], false, false, []⟩

/-- What happens after a state.  `client/base.py:208-249`, `protocol.py:53-131`. -/
def State.run (prog : Nat → Req) (s : State) (evs : List Ev) : State := evs.foldl (State.step prog) s

/-- A history of the steps of `client/base.py:208-249`, `protocol.py:53-131`. -/
def run (prog : Nat → Req) (evs : List Ev) : State := State.init.run prog evs

end Loss
