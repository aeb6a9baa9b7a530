import Verif.Model.Loops
import Verif.Model.Concurrent

/-!
# A program of rules on the event loop of `asyncio`

The program has two clients: one listens (`client.loop(client=…)`, `client.py:79-143`), the other one is for commands.  A
callback may give a command, at once, to an item of the second client, and await its answer.  Everything runs on one event
loop of `asyncio`, which keeps a list of handles that are ready, appends to it and runs the first (`BaseEventLoop._ready`,
`call_soon`, `_run_once`): the selector appends a handle for every socket with data; a future that is completed appends the
task that awaits it; `create_task` appends the new task.  (This is part of `asyncio`, trusted.)

Here the parts of the library are those of `Verif/Model/Loops.lean` and `Verif/Model/Concurrent.lean`; this file says in which
order the event loop runs them.

Simplifications.
* The selector may append between any two handles; in `asyncio` it does so between two rounds of `_run_once` only.
* No timeout expires, nothing is cancelled, writing is not paused, the connections do not break.
* A callback gives at most one command, before it awaits anything else, and nothing after it (but see `Verif/Model/Scripts.lean`).
* The tasks of `_check_task_result` (`client.py:173-178`), which only write to the log, are left out.
-/

open Py

namespace EventLoop

/-- What a socket delivers: a packet on the connection of the client that listens, or the messages of a well-formed packet on
the connection for commands.  `protocol.py:64-95`. -/
inductive Read where
  | listen (data : List UInt8)
  | answer (ms : List Msg)

/-- A handle in the list of those that are ready. -/
inductive Handle where
  /-- `_read_ready` of a transport, which calls `data_received` (`protocol.py:64-95`) -/
  | read (r : Read)
  /-- the task of `loop()`, woken in `read_message` (`client.py:118`) -/
  | loop
  /-- the task of the `k`-th call of a callback (`items/base.py:83-85`), which has not run yet -/
  | task (k : Nat)
  /-- the first of the tasks that were woken while they awaited the answer to a command (`protocol.py:130`) -/
  | reader

/-- What a program of rules does: the frame of the command that a callback gives when it is called for an address with these
arguments, if it gives one.  `items/base.py:83-85`, `:200-213`. -/
abbrev Rule := Events.Cb × Str × List Events.Arg → Option Msg

/-- The two clients and the list of ready handles.  `client.py:53`, `protocol.py:41`. -/
structure State where
  /-- the client that listens, with its `loop()` -/
  events : Events.Many
  /-- the commands on the other client -/
  requests : Concurrent.State
  ready : List Handle

/-- The command of a call of a callback.  `items/base.py:83-85`, `:200-213`. -/
def command (rule : Rule) (x : Events.Start) : Option Msg := rule (x.cb, x.item.item.wher.string, x.args)

/-- The command of the `k`-th call, as a request.  (A call without one makes no request.)  `items/base.py:200-213`. -/
def prog (rule : Rule) (calls : List Events.Start) (k : Nat) : Concurrent.Req :=
  .command ((calls[k]?.bind (command rule)).getD .ack)

/-- The handle of `loop()`.  `client.py:118`. -/
def Handle.isLoop : Handle → Bool
  | .loop => true
  | _ => false

/-- `loop()` is suspended in `read_message` (`client.py:118`). -/
def waits : Events.Loop → Bool
  | .called _ .waiting => true
  | _ => false

/-- `data_received` on the client that listens: it completes the future of `loop()`, unless that has been done and the task
has not run yet.  `protocol.py:64-95`, `client.py:118`. -/
def State.listen (call : Events.Call) (s : State) (d : List UInt8) : State :=
  let e := s.events.step .upTo312 call (.packet d)
  { s with
    events := e
    ready := if waits (e.loops 0) && !e.base.queue.isEmpty && !s.ready.any Handle.isLoop then s.ready ++ [.loop] else s.ready }

/-- `data_received` on the client for commands: every message may complete a future.  `protocol.py:93-95`. -/
def State.answer (rule : Rule) (s : State) : List Msg → State
  | [] => s
  | m :: ms =>
    let r := s.requests.step (prog rule s.events.base.trace) (.arrive m)
    State.answer rule { s with
      requests := r, ready := s.ready ++ List.replicate (r.woken.length - s.requests.woken.length) .reader } ms

/-- The event loop runs a handle that it has taken from the list.  `protocol.py:64-131`, `client.py:115-143`,
`items/base.py:83-85`. -/
def State.handle (call : Events.Call) (rule : Rule) (s : State) : Handle → State
  | .read (.listen d) => s.listen call d
  | .read (.answer ms) => s.answer rule ms
  | .loop =>
    let e := s.events.step .upTo312 call (.resume 0)
    let n := s.events.base.trace.length
    { s with events := e, ready := s.ready ++ (List.range' n (e.base.trace.length - n)).map .task }
  | .task k =>
    match (s.events.base.trace)[k]?.bind (command rule) with
    | none => s
    | some _ => { s with requests := s.requests.step (prog rule s.events.base.trace) (.start k) }
  | .reader => { s with requests := s.requests.step (prog rule s.events.base.trace) .resume }

/-- What can happen. -/
inductive Ev where
  /-- the selector finds data in a socket -/
  | select (r : Read)
  /-- the event loop runs the first handle -/
  | run

/-- One step of the event loop (`protocol.py:64-131`, `client.py:115-143`). -/
def State.step (call : Events.Call) (rule : Rule) (s : State) : Ev → State
  | .select r => { s with ready := s.ready ++ [.read r] }
  | .run =>
    match s.ready with
    | [] => s
    | h :: hs => State.handle call rule { s with ready := hs } h

/-- The callbacks are registered and `loop(client=…)` has run until it awaits its first message.
`client.py:79-118`. -/
def State.init (call : Events.Call) (rs : List (Events.Cls × Events.Method × Events.Cb)) (client : Nat) : State :=
  ⟨(Events.Many.init .event).run .upTo312 call ((rs.map fun r => .register r.1 r.2.1 r.2.2) ++ [.loop 0 client]), .init, []⟩

/-- A history of the program (`protocol.py:64-131`, `client.py:79-143`). -/
def run (call : Events.Call) (rule : Rule) (rs : List (Events.Cls × Events.Method × Events.Cb)) (client : Nat) (evs : List Ev) :
    State := evs.foldl (State.step call rule) (.init call rs client)

end EventLoop
