import Verif.Model.Items

/-!
# Several requests at the same time on one client

Tasks that share a client share its connection and its receive queue.  A request of an item writes its frame
(`items/base.py:210-213`, `:221-236`, `:254-268`, `:284-287`) and then reads from the queue, and it can be suspended in
every read (`client/base.py:238-239`, `protocol.py:127`).  The queue is CPython's `asyncio.Queue`: `get` takes a message
at once if there is one and otherwise appends a future to the list of getters; `put_nowait` appends the message and
completes the first future; the task it belongs to runs later, when the event loop comes to it, and then tries again.

Simplifications: writing is not paused (see `SState` in `Verif/Model/Protocol.lean`), so that a request is not
suspended between its call and its first read; the consumer of a query does not await anything between two replies.
-/

open Py

namespace Concurrent

/-- A request: the frame to write, and the messages that it takes as replies before the one that ends it.
`items/base.py:200-302`. -/
structure Req where
  msg : Msg
  want : Msg → Bool

/-- A command (`items/base.py:200-213`, `:270-287`): the first message ends it. -/
def Req.command (m : Msg) : Req := ⟨m, fun _ => false⟩

/-- A status request (`items/base.py:215-236`). -/
def Req.status (i : Item) : Req := ⟨i.statusMessage, Msg.isNormal⟩

/-- A dimension request (`items/base.py:238-268`). -/
def Req.dimension (i : Item) (dim : Tag) : Req := ⟨i.requestMessage dim, Msg.isDimResp⟩

/-- How a request ends on a message that is not one of its replies (`items/base.py:125-136`, `:228-236`, `:260-268`). -/
def verdict (m : Msg) : Except Err Unit := if m.type = .ack then .ok () else .error .responseError

/-- The tasks and the queue.  `protocol.py:41, 124-131`. -/
structure State where
  /-- messages received and not yet taken (`protocol.py:41`) -/
  queue : List Msg
  /-- tasks whose future is in the list of getters -/
  waiting : List Nat
  /-- tasks whose future is completed and which the event loop has not run yet, in that order -/
  woken : List Nat
  /-- frames written, with the task -/
  sent : List (Nat × Msg)
  /-- messages taken from the queue, with the task -/
  got : List (Nat × Msg)
  /-- requests that ended -/
  finished : List (Nat × Except Err Unit)
  /-- requests whose task was cancelled -/
  cancelled : List Nat

/-- What can happen.  `protocol.py:93-95, 115-131`. -/
inductive Ev where
  /-- task `id` begins its request -/
  | start (id : Nat)
  /-- a message arrives -/
  | arrive (m : Msg)
  /-- the event loop runs the first of the tasks that were woken -/
  | resume
  /-- the timeout of task `id` expires (`client/base.py:238`) -/
  | expire (id : Nat)
  /-- task `id` is cancelled (`task.cancel()`), and the `CancelledError` is delivered; it can arrive in a read only -/
  | cancel (id : Nat)
  deriving DecidableEq

/-- `Queue.get` and the loop around it, up to the next suspension: what is taken, what remains, how it ended.
`protocol.py:130`, `items/base.py:200-302`. -/
def take (want : Msg → Bool) : List Msg → List Msg × List Msg × Option (Except Err Unit)
  | [] => ([], [], none)
  | m :: q =>
    if want m then (m :: (take want q).1, (take want q).2.1, (take want q).2.2)
    else ([m], q, some (verdict m))

/-- Task `id` reads, for a request that takes `want` as replies.  `protocol.py:124-131`. -/
def State.read (s : State) (want : Msg → Bool) (id : Nat) : State :=
  match take want s.queue with
  | (taken, rest, none) =>
    { s with queue := rest, got := s.got ++ taken.map (id, ·), waiting := s.waiting ++ [id] }
  | (taken, rest, some r) =>
    { s with queue := rest, got := s.got ++ taken.map (id, ·), finished := s.finished ++ [(id, r)] }

/-- `Queue._wakeup_next` on the getters.  Reached from `protocol.py:95` and `:130`. -/
def State.wakeup (s : State) : State :=
  match s.waiting with
  | [] => s
  | id :: rest => { s with waiting := rest, woken := s.woken ++ [id] }

/-- One event; `prog` is the request of each task.  `protocol.py:64-131`. -/
def State.step (prog : Nat → Req) (s : State) : Ev → State
  | .start id => State.read { s with sent := s.sent ++ [(id, (prog id).msg)] } (prog id).want id
  | .arrive m => State.wakeup { s with queue := s.queue ++ [m] }
  | .resume =>
    match s.woken with
    | [] => s
    | id :: rest => State.read { s with woken := rest } (prog id).want id
  | .expire id =>
    if id ∈ s.waiting then
      { s with waiting := s.waiting.erase id, finished := s.finished ++ [(id, .error .timeoutError)] }
    else if id ∈ s.woken then
      -- `Queue.get` hands the wake-up on when it is cancelled
      let s := { s with woken := s.woken.erase id, finished := s.finished ++ [(id, .error .timeoutError)] }
      if s.queue = [] then s else s.wakeup
    else s
  | .cancel id =>
    -- nothing on the way catches `CancelledError` (`items/base.py:200-304`, `client/base.py:238-239`)
    if id ∈ s.waiting then { s with waiting := s.waiting.erase id, cancelled := s.cancelled ++ [id] }
    else if id ∈ s.woken then
      let s := { s with woken := s.woken.erase id, cancelled := s.cancelled ++ [id] }
      if s.queue = [] then s else s.wakeup
    else s

/-- A new connection.  `protocol.py:26-43`. -/
def State.init : State := ⟨[], [], [], [], [], [], []⟩

/-- A history of the steps of `protocol.py:64-131`. -/
def run (prog : Nat → Req) (evs : List Ev) : State := evs.foldl (State.step prog) State.init

end Concurrent
