import Verif.Model.Messages

/-!
# The asyncio protocol (`pyown/protocol/protocol.py`)

Receiving is a function of the queue content.  The send side and the connection futures are labelled transition
systems whose labels are the calls made by the event loop.
-/

open Py

namespace Protocol

/-! ## Receiving -/

/-- `data.decode("ascii")` (`protocol.py:75`). -/
def decodeAscii (data : List UInt8) : Except Err Str :=
  if data.all (fun b => decide (b.toNat < 128)) then .ok (data.map (fun b => Char.ofNat b.toNat))
  else .error .unicodeError

/-- `[parse_message(msg + "##") for msg in pieces if msg]` (`protocol.py:82`). -/
def parsePieces : List Str → Except Err (List Msg)
  | [] => .ok []
  | p :: ps =>
    if p = [] then parsePieces ps
    else do
      let m ← parseMessage (p ++ cs!"##")
      let ms ← parsePieces ps
      return m :: ms

/-- The messages of a packet (`protocol.py:74-85`). -/
def packetMessages (data : List UInt8) : Except Err (List Msg) := do
  let text := strip (← decodeAscii data)
  parsePieces (split2 '#' '#' text)

/-- `data_received` (`protocol.py:64-95`): outcome and queue afterwards.  Logging is dropped. -/
def dataReceived (queue : List Msg) (data : List UInt8) : Except Err Unit × List Msg :=
  match packetMessages data with
  | .ok ms => (.ok (), queue ++ ms)
  | .error e => (.error e, queue)

/-- A sequence of packets, as the event loop delivers them.  An exception out of `data_received` is fatal for the
transport: asyncio (`selector_events.py`, `_read_ready__data_received`, `_fatal_error`, `_force_close`) reports it to the
exception handler (`client/base.py:260-275`), stops reading and closes the connection.  The later packets are lost. -/
def receiveAll (queue : List Msg) : List (List UInt8) → List Msg
  | [] => queue
  | d :: ds =>
    match dataReceived queue d with
    | (.ok _, q) => receiveAll q ds
    | (.error _, q) => q

/-! ## Reading -/

/-- State of the receive queue with its readers: `asyncio.Queue` (`protocol.py:41`, `:95`, `:130`). -/
structure QState where
  /-- whether the transport still delivers packets -/
  reading : Bool
  queue : List Msg
  /-- readers suspended in `queue.get()` -/
  waiting : List Nat
  /-- what each completed read returned, in order of completion -/
  returned : List (Nat × Msg)
  deriving DecidableEq

/-- What can happen to the queue.  `protocol.py:95, 130`. -/
inductive QEv where
  /-- `data_received(data)` -/
  | packet (data : List UInt8)
  /-- reader `r` calls `receive_messages()` and runs until it returns or suspends -/
  | read (r : Nat)
  /-- reader `r`, suspended in `get()`, is resumed (woken by a put, or spuriously) -/
  | resume (r : Nat)
  /-- reader `r` is cancelled, e.g. by `asyncio.timeout` (`client/base.py:238`) -/
  | cancel (r : Nat)
  deriving DecidableEq

/-- `Queue.get` from a running reader: `get_nowait` unless the queue is empty.  `protocol.py:130`. -/
def QState.get (s : QState) (r : Nat) : QState :=
  match s.queue with
  | [] => { s with waiting := s.waiting ++ [r] }
  | m :: q => { s with queue := q, returned := s.returned ++ [(r, m)] }

/-- One event.  `protocol.py:95, 130`. -/
def QState.step (s : QState) : QEv → QState
  | .packet d =>
    if s.reading then
      match dataReceived s.queue d with
      | (.ok _, q) => { s with queue := q }
      | (.error _, q) => { s with queue := q, reading := false }
    else s
  | .read r => s.get r
  | .resume r => if r ∈ s.waiting then QState.get { s with waiting := s.waiting.erase r } r else s
  | .cancel r => { s with waiting := s.waiting.erase r }

/-- A history of the steps of `protocol.py:95, 130`. -/
def QState.run (s : QState) (evs : List QEv) : QState := evs.foldl QState.step s

/-- A fresh protocol object (`protocol.py:41`). -/
def QState.init : QState := ⟨true, [], [], []⟩

/-! ## Sending -/

/-- What happens on the send side, as the transport sees it.  `protocol.py:97-122`. -/
inductive Act where
  | paused
  | resumed
  /-- `transport.write(data)` on behalf of call `id` -/
  | wrote (id : Nat) (data : List UInt8)
  deriving DecidableEq

/-- State of the send side: the lock used as a flag (`protocol.py:43`), the calls suspended in `asyncio.sleep`
(`:119`), and the trace. -/
structure SState where
  locked : Bool
  sleeping : List (Nat × List UInt8)
  trace : List Act
  /-- the event loop thread hangs in `Lock.acquire` (`:99`, a second pause without a resume) -/
  hung : Bool
  deriving DecidableEq

/-- What can happen on the send side.  `protocol.py:97-122`. -/
inductive SEv where
  /-- call number `id` of `send_message(msg)` starts to run -/
  | call (id : Nat) (msg : Msg)
  /-- the sleep of call `id` ends -/
  | wake (id : Nat)
  /-- the task of call `id` is cancelled while it sleeps -/
  | cancel (id : Nat)
  /-- `pause_writing()` -/
  | pause
  /-- `resume_writing()` -/
  | resume
  deriving DecidableEq

/-- The loop `while self._lock.locked(): sleep` then `write` (`protocol.py:118-121`), up to the next suspension. -/
def SState.attempt (s : SState) (id : Nat) (data : List UInt8) : SState :=
  if s.locked then { s with sleeping := s.sleeping ++ [(id, data)] }
  else { s with trace := s.trace ++ [.wrote id data] }

/-- One event; outcome of the callback and state afterwards.  Nothing runs once the thread hangs.  `protocol.py:97-122`. -/
def SState.step (s : SState) (e : SEv) : Except Err Unit × SState :=
  if s.hung then (.ok (), s)
  else
    match e with
    | .call id msg =>
      -- `data = msg.bytes` (`protocol.py:115`) may raise
      match msg.bytes with
      | .error e => (.error e, s)
      | .ok data => (.ok (), s.attempt id data)
    | .wake id =>
      match s.sleeping.find? (fun p => p.1 == id) with
      | none => (.ok (), s)
      | some p => (.ok (), SState.attempt { s with sleeping := s.sleeping.erase p } p.1 p.2)
    | .cancel id => (.ok (), { s with sleeping := s.sleeping.filter (fun p => p.1 != id) })
    | .pause =>
      -- `self._lock.acquire()` (`protocol.py:99`) blocks the thread when the lock is held
      if s.locked then (.ok (), { s with hung := true })
      else (.ok (), { s with locked := true, trace := s.trace ++ [.paused] })
    | .resume =>
      -- `self._lock.release()` (`protocol.py:104`) raises RuntimeError on an unlocked lock
      if s.locked then (.ok (), { s with locked := false, trace := s.trace ++ [.resumed] })
      else (.error .runtimeError, s)

/-- A history of the steps of `protocol.py:97-122`. -/
def SState.run (s : SState) (evs : List SEv) : SState := evs.foldl (fun s e => (s.step e).2) s

/-- A fresh protocol object (`protocol.py:43`). -/
def SState.init : SState := ⟨false, [], [], false⟩

/-! ## Connection futures -/

/-- `asyncio.Future` with result `α`.  `protocol.py:37-38`. -/
inductive Fut (α : Type) where
  | pending
  | result (a : α)
  | exception (e : Err)
  | cancelled
  deriving DecidableEq

/-- `future.set_result`: `InvalidStateError` unless pending.  `protocol.py:51, 60`. -/
def Fut.setResult {α : Type} (f : Fut α) (a : α) : Except Err (Fut α) :=
  match f with
  | .pending => .ok (.result a)
  | _ => .error .invalidStateError

/-- `future.set_exception`: `InvalidStateError` unless pending.  `protocol.py:62`. -/
def Fut.setException {α : Type} (f : Fut α) (e : Err) : Except Err (Fut α) :=
  match f with
  | .pending => .ok (.exception e)
  | _ => .error .invalidStateError

/-- Connection state: current transport and the two futures (`protocol.py:37-38`, `:50`). -/
structure CState where
  transport : Option Nat
  onStart : Fut Nat
  onEnd : Fut Unit
  deriving DecidableEq

/-- Calls made by the event loop.  `protocol.py:45-62`. -/
inductive CEv where
  /-- `connection_made(transport)`; `duplex` tells whether it is a `Transport` -/
  | made (t : Nat) (duplex : Bool)
  /-- `connection_lost(exc)` -/
  | lost (exc : Option Err)
  deriving DecidableEq

/-- `connection_made` (`protocol.py:45-51`) and `connection_lost` (`:53-62`). -/
def CState.step (s : CState) : CEv → Except Err Unit × CState
  | .made t duplex =>
    if duplex = false then (.error .typeError, s)
    else
      let s := { s with transport := some t }
      match s.onStart.setResult t with
      | .ok f => (.ok (), { s with onStart := f })
      | .error e => (.error e, s)
  | .lost none =>
    match s.onEnd.setResult () with
    | .ok f => (.ok (), { s with onEnd := f })
    | .error e => (.error e, s)
  | .lost (some exc) =>
    match s.onEnd.setException exc with
    | .ok f => (.ok (), { s with onEnd := f })
    | .error e => (.error e, s)

/-- A history with the outcome of each callback, of the calls of `protocol.py:45-62`. -/
def CState.run (s : CState) : List CEv → List (Except Err Unit) × CState
  | [] => ([], s)
  | e :: es =>
    let (r, s') := s.step e
    let (rs, s'') := s'.run es
    (r :: rs, s'')

/-- Fresh futures (`client/base.py:67-68`). -/
def CState.init : CState := ⟨none, .pending, .pending⟩

end Protocol
