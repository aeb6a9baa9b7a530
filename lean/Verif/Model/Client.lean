import Verif.Model.OpenAuth
import Verif.Model.HmacAuth

/-!
# The client: connection, handshake, sending and reading (`pyown/client/base.py`)

Coroutines are functions on a `World`: what the gateway is going to say, the state of the client, and the trace of what
happened on the connection.  An exception is a value; the world it leaves behind is kept.

Simplifications.
* Time is not measured.  The gateway's side is a list of events; `silence` is a gap long enough for a pending
  `asyncio.timeout` to expire.  An empty list is a gateway that never says anything more.
* One coroutine runs at a time on the client (overlapping calls are the subject of `Verif/Model/Protocol.lean`).
* `transport.write` accepts the data (what happens to a write while paused is in `Verif/Model/Protocol.lean`).
-/

open Py HmacAuth

/-- `SessionType` (`client/session.py:20-22`). -/
inductive Session where
  | oldCommand | command | event
  deriving DecidableEq, Repr

/-- The enum values (`client/session.py:20-22`). -/
def Session.value : Session → Str
  | oldCommand => cs!"0"
  | command => cs!"9"
  | event => cs!"1"

/-- `SessionType.to_message` (`client/session.py:24-30`). -/
def Session.toMessage (s : Session) : Except Err Msg := Msg.parseGeneric [cs!"99", s.value]

/-- `AuthAlgorithm.to_message` (`auth/enum.py:21-27`): `GenericMessage(["98", str(self.value)])`.  The client does not call
it; a gateway would. -/
def HmacAuth.Alg.toMessage (a : Alg) : Except Err Msg := do return .generic [cs!"98", ← strInt a.value]

/-- What the gateway does next.  Read at `client/base.py:238-239`. -/
inductive InEv where
  /-- the next parsed message put in the receive queue -/
  | msg (m : Msg)
  /-- a gap longer than every timeout -/
  | silence
  deriving DecidableEq, Repr

/-- What happened on a client's connection.  `client/base.py:223, 239, 246`. -/
inductive CAct where
  | connected
  /-- `transport.write`, as the text whose ASCII bytes are written -/
  | sent (text : Str)
  /-- a message taken from the receive queue -/
  | got (m : Msg)
  /-- `transport.close()` -/
  | closed
  deriving DecidableEq, Repr

/-- The client and its surroundings.  The fields set at `client/base.py:56-68`. -/
structure World where
  /-- what successive `create_connection` calls will find: `none` is an `OSError` -/
  network : List (Option (List InEv))
  /-- `self._protocol is not None`; `_transport` is set and cleared together with it (`base.py:62`, `:89`, `:248-249`) -/
  started : Bool
  /-- what will arrive on the current connection -/
  inbox : List InEv
  trace : List CAct
  deriving DecidableEq

/-- The arguments of the constructor that matter (`base.py:36-68`), and the random bytes `create_key` will draw. -/
structure Config where
  password : Str
  session : Session
  lib : Lib
  token : Bytes

/-- A coroutine.  `async def` at `client/base.py:81-249`. -/
def M (α : Type) : Type := World → Except Err α × World

namespace M

/-- `return a` -/
def pure {α : Type} (a : α) : M α := fun w => (.ok a, w)

/-- `raise e` -/
def raise {α : Type} (e : Err) : M α := fun w => (.error e, w)

/-- Sequencing: an exception skips the rest. -/
def bind {α β : Type} (x : M α) (f : α → M β) : M β := fun w =>
  match x w with
  | (.ok a, w') => f a w'
  | (.error e, w') => (.error e, w')

instance : Monad M where
  pure := M.pure
  bind := M.bind

/-- A computation that does not touch the world. -/
def lift {α : Type} (x : Except Err α) : M α := fun w => (x, w)

end M

namespace Client
open M

/-- `is_cmd_session` (`base.py:70-79`). -/
def isCmdSession (s : Session) : Bool := s == .command || s == .oldCommand

/-- `create_connection` and the wait for `connection_made` (`base.py:88-101`).  On a later connection of the same client
`connection_made` raises because the future is already done (`protocol.py:51`), after it stored the transport; the event
loop only logs that and the await returns at once. -/
def connect : M Unit := fun w =>
  match w.network with
  | some inbox :: rest =>
    (.ok (), { w with network := rest, started := true, inbox := inbox, trace := w.trace ++ [.connected] })
  | none :: rest => (.error .timeoutError, { w with network := rest })
  | [] => (.error .timeoutError, w)

/-- `send_message` (`base.py:208-223`) with `OWNProtocol.send_message` (`protocol.py:115`, `:121`). -/
def sendMessage (cfg : Config) (m : Msg) (force : Bool) : M Unit := fun w =>
  if !isCmdSession cfg.session && !force then (.error .invalidSession, w)
  else if !w.started then (.error .invalidSession, w)
  else
    match m.bytes with
    | .error e => (.error e, w)
    | .ok _ => (.ok (), { w with trace := w.trace ++ [.sent m.str] })

/-- `read_message` with a timeout (`base.py:225-241`). -/
def readMessage : M Msg := fun w =>
  if !w.started then (.error .invalidSession, w)
  else
    match w.inbox with
    | [] => (.error .timeoutError, w)
    | .silence :: rest => (.error .timeoutError, { w with inbox := rest })
    | .msg m :: rest => (.ok m, { w with inbox := rest, trace := w.trace ++ [.got m] })

/-- `close` (`base.py:243-249`). -/
def close : M Unit := fun w =>
  (.ok (), { w with started := false, inbox := [], trace := if w.started then w.trace ++ [.closed] else w.trace })

/-- `_authenticate_open` (`base.py:141-153`). -/
def authenticateOpen (cfg : Config) (nonce : Str) : M Unit := do
  let enc ← lift (OpenAuth.ownCalcPassStr cfg.password nonce)
  sendMessage cfg (.generic [cs!"#" ++ enc]) true
  let resp ← readMessage
  if resp.type ≠ .ack then raise .invalidAuthentication
  else return ()

/-- `_authenticate_hmac` after the algorithm has been recognised (`base.py:170-206`). -/
def authenticateHmacWith (cfg : Config) (alg : Alg) : M Unit := do
  sendMessage cfg .ack true
  let resp ← readMessage
  let serverKey ← lift (index resp.tags 0)
  let clientKey ← lift (createKey cfg.lib cfg.token alg.value)
  let clientAuth ← lift (clientHmac cfg.lib serverKey clientKey cfg.password
    defaultClientIdentity defaultServerIdentity alg.value)
  let serverAuth ← lift (serverHmac cfg.lib serverKey clientKey cfg.password alg.value)
  let d1 ← lift (hexToDigits cfg.lib clientKey)
  let d2 ← lift (hexToDigits cfg.lib (hexdigest clientAuth))
  sendMessage cfg (.generic [d1, d2]) true
  let resp ← readMessage
  if resp.type = .nack then raise .invalidAuthentication
  else do
    let tag ← lift (index resp.tags 0)
    let digits ← lift (hexToDigits cfg.lib tag)
    let confirmation ← lift (fromHex digits)
    if compareHmac serverAuth confirmation = false then raise .invalidAuthentication
    else sendMessage cfg .ack true

/-- `_authenticate_hmac` (`base.py:155-206`). -/
def authenticateHmac (cfg : Config) (tag : Str) : M Unit :=
  match Alg.fromString tag with
  | .error _ => do
    sendMessage cfg .nack true
    raise .invalidAuthentication
  | .ok alg => authenticateHmacWith cfg alg

/-- `start` once the connection is up (`base.py:109-137`). -/
def handshake (cfg : Config) : M Unit := do
  let message ← readMessage
  if message.type ≠ .ack then raise .invalidAuthentication
  else do
    sendMessage cfg (← lift cfg.session.toMessage) true
    let resp ← readMessage
    if resp.type = .ack then return ()
    else if resp.tags.length = 1 then do
      authenticateOpen cfg (← lift (index resp.tags 0))
    else do
      let first ← lift (index resp.tags 0)
      if first = cs!"98" then do
        authenticateHmac cfg (← lift (index resp.tags 1))
      else raise .invalidAuthentication

/-- `start` (`base.py:81-139`). -/
def start (cfg : Config) : M Unit := do
  connect
  handshake cfg

end Client
