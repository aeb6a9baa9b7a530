import Verif.Model.Protocol
import Verif.Model.Logs

/-!
# What the protocol and the event loop's exception handler log
(`pyown/protocol/protocol.py`, `pyown/client/base.py:260-275`)

The log calls of the functions of `Verif/Model/Protocol.lean`, given beside those functions.

Simplifications.
* Exceptions that are not the package's own carry no text here; what `str` makes of them is a parameter where texts matter.
* The address in the `repr` of the protocol object and of the transport is left out, and so is the stack printed on standard
  error for contexts with a task (`base.py:270-271`), which is no log record.
-/

open Py Protocol

/-! ## `repr` -/

/-- `self.__class__.__name__` (`messages/*.py`). -/
def Msg.className : Msg → Str
  | .ack => cs!"ACK"
  | .nack => cs!"NACK"
  | .normal .. => cs!"NormalMessage"
  | .status .. => cs!"StatusRequest"
  | .dimReq .. => cs!"DimensionRequest"
  | .dimWrite .. => cs!"DimensionWriting"
  | .dimResp .. => cs!"DimensionResponse"
  | .generic .. => cs!"GenericMessage"

/-- `repr(message)` (`messages/base.py:64-65`). -/
def Msg.repr (m : Msg) : Str := cs!"<" ++ m.className ++ cs!": " ++ join cs!"," m.tags ++ cs!">"

/-- `repr` of a list of messages, as in the f-string of `protocol.py:91`. -/
def Msg.listRepr (ms : List Msg) : Str := cs!"[" ++ join cs!", " (ms.map Msg.repr) ++ cs!"]"

namespace WireLogs

/-! ## Records -/

/-- A log call of the protocol or of the exception handler. -/
inductive Rec where
  /-- "Connection made" (`protocol.py:47`) -/
  | made
  /-- "Connection lost", "Connection lost with exception: ..." (`protocol.py:55-58`) -/
  | lost (exc : Option Err)
  /-- "Received data not ascii: ..." (`protocol.py:77`) -/
  | notAscii (data : List UInt8)
  /-- "Received invalid message: ..." (`protocol.py:84`) -/
  | invalid (e : Err)
  /-- "Received messages: ..." (`protocol.py:91`) -/
  | received (ms : List Msg)
  /-- "Paused writing" (`protocol.py:100`) -/
  | paused
  /-- "Resumed writing" (`protocol.py:105`) -/
  | resumed
  /-- "Sent message: ..." (`protocol.py:122`) -/
  | sent (text : Str)
  /-- "Exception occurred: ..." (`base.py:266`) -/
  | occurred (e : Err)
  /-- "Protocol error: ..." (`base.py:273`) -/
  | protocolError
  /-- "Transport error: ..." (`base.py:275`) -/
  | transportError
  deriving DecidableEq, Repr

/-- The method of `log` each is made with (the lines cited at `Rec`).  `protocol.py:47-122`, `base.py:266-275`. -/
def Rec.level : Rec → Logs.Level
  | made | lost _ => .info
  | notAscii _ | invalid _ => .warning
  | received _ | paused | resumed | sent _ => .debug
  | occurred _ | protocolError | transportError => .error

/-- `str(e)` of the package's own exceptions (`exceptions.py:66`, `:80`); `other` gives the rest. -/
def errText (other : Err → Str) : Err → Str
  | .invalidMessage m => cs!"Invalid message: " ++ m
  | .invalidTag t => cs!"Invalid tag: " ++ t
  | e => other e

/-- The text of a record (the lines cited at `Rec`), `message` being the message of the context (`base.py:263`). -/
def Rec.text (other : Err → Str) (message : Str) : Rec → Str
  | made => cs!"Connection made"
  | lost none => cs!"Connection lost"
  | lost (some e) => cs!"Connection lost with exception: " ++ errText other e
  | notAscii d => cs!"Received data not ascii: " ++ HmacAuth.hexdigest d
  | invalid e => cs!"Received invalid message: " ++ errText other e
  | received ms => cs!"Received messages: " ++ Msg.listRepr ms
  | paused => cs!"Paused writing"
  | resumed => cs!"Resumed writing"
  | sent t => cs!"Sent message: " ++ t
  | occurred e => cs!"Exception occurred: " ++ message ++ cs!" (" ++ errText other e ++ cs!")"
  | protocolError => cs!"Protocol error: "
  | transportError => cs!"Transport error: "

/-! ## The exception handler -/

/-- The entries of a context the handler looks at (`base.py:262-274`). -/
structure Context where
  exception : Option Err
  task : Bool
  protocol : Bool
  transport : Bool
  deriving DecidableEq, Repr

/-- `_exception_handler` (`base.py:260-275`). -/
def handler (c : Context) : List Rec :=
  match c.exception with
  | none => []
  | some e =>
    .occurred e ::
      (if c.task then [] else if c.protocol then [.protocolError] else if c.transport then [.transportError] else [])

/-! ## Receiving -/

/-- `except ParseError` (`protocol.py:83`): `InvalidMessage` and `InvalidTag` are subclasses (`exceptions.py:51`, `:69`). -/
def isParseError : Err → Bool
  | .invalidMessage _ | .invalidTag _ => true
  | _ => false

/-- The log of `data_received` (`protocol.py:64-95`), with the messages put into the queue or the exception raised. -/
def dataReceived (data : List UInt8) : Except Err (List Msg) × List Rec :=
  match decodeAscii data with
  | .error e => (.error e, [.notAscii data])
  | .ok text =>
    match parsePieces (split2 '#' '#' (strip text)) with
    | .error e => (.error e, if isParseError e then [.invalid e] else [])
    | .ok [] => (.ok [], [])
    | .ok ms => (.ok ms, [.received ms])

/-- What an exception out of `data_received` leads to: the transport reports it with itself and the protocol
(asyncio's `_fatal_error`; `base.py:260-275`), and closes the connection with it (`protocol.py:53-58`). -/
def fatal (e : Err) : List Rec := handler ⟨some e, false, true, true⟩ ++ [.lost (some e)]

/-- The log of a sequence of packets on one connection (`protocol.py:64-95`, as `Protocol.receiveAll`). -/
def receive : List (List UInt8) → List Rec
  | [] => []
  | d :: ds =>
    match dataReceived d with
    | (.ok _, l) => l ++ receive ds
    | (.error e, l) => l ++ fatal e

/-! ## Sending -/

/-- The send side with the messages under way (`protocol.py:43`, `:115-122`). -/
structure Sender where
  locked : Bool
  sleeping : List (Nat × Msg × List UInt8)
  hung : Bool
  deriving DecidableEq

/-- `protocol.py:118-122` up to the next suspension. -/
def Sender.attempt (s : Sender) (id : Nat) (msg : Msg) (data : List UInt8) : Sender × List Rec :=
  if s.locked then ({ s with sleeping := s.sleeping ++ [(id, msg, data)] }, [])
  else (s, [.sent msg.str])

/-- One event of the send side and its log (`protocol.py:97-122`; an exception out of `resume_writing` is reported by the
transport, asyncio's `_maybe_resume_protocol`). -/
def Sender.step (s : Sender) (e : SEv) : Sender × List Rec :=
  if s.hung then (s, [])
  else
    match e with
    | .call id msg =>
      match msg.bytes with
      | .error _ => (s, [])
      | .ok data => s.attempt id msg data
    | .wake id =>
      match s.sleeping.find? (fun p => p.1 == id) with
      | none => (s, [])
      | some p => Sender.attempt { s with sleeping := s.sleeping.erase p } p.1 p.2.1 p.2.2
    | .cancel id => ({ s with sleeping := s.sleeping.filter (fun p => p.1 != id) }, [])
    | .pause => if s.locked then ({ s with hung := true }, []) else ({ s with locked := true }, [.paused])
    | .resume =>
      if s.locked then ({ s with locked := false }, [.resumed])
      else (s, handler ⟨some .runtimeError, false, true, true⟩)

/-- The log of a history of the send side (`protocol.py:97-122`). -/
def Sender.run (s : Sender) : List SEv → List Rec
  | [] => []
  | e :: es => (s.step e).2 ++ (s.step e).1.run es

/-- A fresh protocol object (`protocol.py:43`). -/
def Sender.init : Sender := ⟨false, [], false⟩

/-! ## The event loop's exception handler -/

/-- What is called with a context: asyncio's default handler, one set by the program, or the one set by a client. -/
inductive Handler where
  | default
  | program (n : Nat)
  | pyown
  deriving DecidableEq, Repr

/-- What happens to the handler of an event loop, and what is reported to it. -/
inductive HEv where
  /-- `loop.set_exception_handler(...)` by the program -/
  | set (h : Option Nat)
  /-- `Client(...)` on this loop (`base.py:64-65`) -/
  | construct
  /-- `client.start()` (`base.py:81-139`) -/
  | start
  /-- `client.close()` (`base.py:243-249`) -/
  | close
  /-- `loop.call_exception_handler(context)` -/
  | report (c : Context)
  deriving DecidableEq, Repr

/-- The handler after an event.  `base.py:65` sets it; nothing sets it back. -/
def Handler.step (h : Handler) : HEv → Handler
  | .set none => .default
  | .set (some n) => .program n
  | .construct => .pyown
  | .start | .close | .report _ => h

/-- The handler after a history of an event loop (`base.py:65`). -/
def Handler.run (h : Handler) (evs : List HEv) : Handler := evs.foldl Handler.step h

/-- What becomes of a context. -/
inductive Told where
  /-- asyncio logs message, exception and all entries of the context at ERROR -/
  | asyncio (c : Context)
  /-- the program's handler `n` is called -/
  | program (n : Nat) (c : Context)
  /-- the records of the package's handler -/
  | pyown (l : List Rec)
  deriving DecidableEq, Repr

/-- `loop.call_exception_handler(context)`, with the handler of `base.py:260-275`. -/
def Handler.tell (h : Handler) (c : Context) : Told :=
  match h with
  | .default => .asyncio c
  | .program n => .program n c
  | .pyown => .pyown (handler c)

end WireLogs
