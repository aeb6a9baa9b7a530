import Verif.Model.Events

/-!
# Any number of `loop()` calls on one client, and their cancellation

`Model/Events.lean` has one task of `loop()`.  Here a client has any number of them, one after the other or at the same time,
and every one of them can be cancelled (`task.cancel()`, `asyncio.wait_for`, and so on).  Each runs by the very functions of
`Model/Events.lean`.

`loop()` (`pyown/client/client.py:79-143`) suspends in one place only, in `self._messages.get()`
(`pyown/protocol/protocol.py:130`, by `read_message`, `pyown/client/base.py:225-239`), so this is where a cancellation arrives.
`CancelledError` is a `BaseException`; the `except` of `client.py:119` does not catch it, and `asyncio.timeout(None)` has no
timer that would turn it into a `TimeoutError`.  `asyncio.Queue.get` takes a message only after it has been resumed without a
cancellation; when a cancelled waiter had been woken it wakes the next one instead.  (This is part of `asyncio`, trusted.)
-/

open Py

namespace Events

/-- One call of `loop()`: not made yet, made with that `client` and in that state, or cancelled.  `client.py:79-143`. -/
inductive Loop where
  | none
  | called (client : Nat) (task : Task)
  | cancelled
  deriving DecidableEq

/-- A client and its calls of `loop()`.  (Fields `task` and `client` of `base` are those of the loop that ran last.)
`client.py:53, 79-143`. -/
structure Many where
  base : State
  loops : Nat → Loop

/-- What can happen.  `client.py:79-143`. -/
inductive Act where
  /-- the transport delivers a packet -/
  | packet (data : List UInt8)
  /-- the connection breaks -/
  | lost
  /-- `client.close()` -/
  | close
  /-- `cls.method(cb)` -/
  | register (cls : Cls) (method : Method) (cb : Cb)
  /-- `client.get_item(who, where, client=…)` -/
  | getItem (who : Who) (wher : Tag) (client : Nat)
  /-- `loop(client=…)` is called for the `id`-th time and runs until it suspends or ends -/
  | loop (id : Nat) (client : Nat)
  /-- the `id`-th loop is resumed -/
  | resume (id : Nat)
  /-- the task of the `id`-th loop is cancelled, and the cancellation is delivered -/
  | cancel (id : Nat)

/-- `State.step` of a loop with this `client` in this state.  `client.py:115-143`. -/
def Many.turn (py : Python) (call : Call) (s : Many) (id client : Nat) (task : Task) (st : Step) : Many :=
  let b := { s.base with task := task, client := client }.step py call st
  { base := b, loops := Function.update s.loops id (.called client b.task) }

/-- One step (`client.py:79-143`, `protocol.py:64-95`, `base.py:243-249`). -/
def Many.step (py : Python) (call : Call) (s : Many) : Act → Many
  | .packet d => { s with base := s.base.step py call (.packet d) }
  | .lost => { s with base := s.base.step py call .lost }
  | .close => { s with base := s.base.step py call .close }
  | .register c m cb => { s with base := s.base.step py call (.register c m cb) }
  | .getItem who wher client => { s with base := s.base.step py call (.getItem who wher client) }
  | .loop id client =>
    match s.loops id with
    | .none => s.turn py call id client .none .loop
    | _ => s
  | .resume id =>
    match s.loops id with
    | .called client .waiting => s.turn py call id client .waiting .resume
    | _ => s
  | .cancel id =>
    match s.loops id with
    | .called _ .waiting => { s with loops := Function.update s.loops id .cancelled }
    | _ => s

/-- A history of the steps of `client.py:79-143`. -/
def Many.run (py : Python) (call : Call) (s : Many) (h : List Act) : Many := h.foldl (Many.step py call) s

/-- A connected client, nothing registered, `loop()` not called.  `client/base.py:81-139`, `client.py:53`. -/
def Many.init (session : Session) : Many := ⟨.init session 0, fun _ => .none⟩

end Events
