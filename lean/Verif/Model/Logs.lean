import Verif.Model.Client

/-!
# What the package logs while it connects (`pyown/client/base.py`, `pyown/protocol/protocol.py`)

`start` with its log calls.  A record is kept as what it says rather than as the text it is formatted to.

Simplifications.
* `data_received` logs a packet when it arrives, as the list of its messages (`protocol.py:91`).  Here a message is logged when
  the client takes it from the queue; messages that arrive and are never taken leave no record.
* On a later connection of the same client the event loop's handler logs that the future is already done (`base.py:266`);
  that record, which depends on nothing, is left out.
* The logger hands every record on; which levels are shown is the user's business.
-/

open Py HmacAuth

namespace Logs

/-- The levels used (`base.py:103-139`, `protocol.py:47-122`). -/
inductive Level where
  | debug | info | warning | error
  deriving DecidableEq, Repr

/-- A log call made while connecting. -/
inductive Record where
  /-- "Connection made" (`protocol.py:47`) -/
  | connectionMade
  /-- "Connection started" (`base.py:103`) -/
  | connectionStarted
  /-- "Starting handshake" (`base.py:115`) -/
  | startingHandshake
  /-- "Received messages: ..." (`protocol.py:91`) -/
  | received (m : Msg)
  /-- "Sent message: ..." (`protocol.py:122`) -/
  | sent (text : Str)
  /-- "No authentication required" (`base.py:126`) -/
  | noAuthentication
  /-- "Using open authentication" (`base.py:128`) -/
  | usingOpen
  /-- "Using hmac authentication" (`base.py:131`) -/
  | usingHmac
  /-- "Client ready" (`base.py:139`) -/
  | ready
  deriving DecidableEq, Repr

/-- The method of `log` each is made with (the lines cited at `Record`). -/
def Record.level : Record → Level
  | connectionStarted | startingHandshake | received _ | sent _ => .debug
  | connectionMade | noAuthentication | usingOpen | usingHmac | ready => .info

/-- A coroutine that logs: what it does to the world, and the records it leaves.  `async def` at `base.py:81-223`. -/
def L (α : Type) : Type := World → (Except Err α × World) × List Record

namespace L

/-- `return a` -/
def pure {α : Type} (a : α) : L α := fun w => ((.ok a, w), [])

/-- Sequencing: an exception skips the rest; records stay. -/
def bind {α β : Type} (x : L α) (f : α → L β) : L β := fun w =>
  match x w with
  | ((.ok a, w'), l) => ((f a w').1, l ++ (f a w').2)
  | ((.error e, w'), l) => ((.error e, w'), l)

instance : Monad L where
  pure := L.pure
  bind := L.bind

/-- A coroutine without log calls. -/
def quiet {α : Type} (x : M α) : L α := fun w => (x w, [])

/-- A log call. -/
def log (r : Record) : L Unit := fun w => ((.ok (), w), [r])

end L

open L

/-- `create_connection` and what `connection_made` logs (`base.py:88-103`, `protocol.py:47`). -/
def connect : L Unit := do
  quiet Client.connect
  log .connectionMade
  log .connectionStarted

/-- `send_message` (`base.py:208-223`, `protocol.py:115-122`). -/
def sendMessage (cfg : Config) (m : Msg) (force : Bool) : L Unit := do
  quiet (Client.sendMessage cfg m force)
  log (.sent m.str)

/-- `read_message` (`base.py:225-241`, `protocol.py:91`). -/
def readMessage : L Msg := do
  let m ← quiet Client.readMessage
  log (.received m)
  return m

/-- `_authenticate_open` (`base.py:141-153`). -/
def authenticateOpen (cfg : Config) (nonce : Str) : L Unit := do
  let enc ← quiet (M.lift (OpenAuth.ownCalcPassStr cfg.password nonce))
  sendMessage cfg (.generic [cs!"#" ++ enc]) true
  let resp ← readMessage
  if resp.type ≠ .ack then quiet (M.raise .invalidAuthentication)
  else return ()

/-- `_authenticate_hmac` after the algorithm has been recognised (`base.py:170-206`). -/
def authenticateHmacWith (cfg : Config) (alg : Alg) : L Unit := do
  sendMessage cfg .ack true
  let resp ← readMessage
  let serverKey ← quiet (M.lift (index resp.tags 0))
  let clientKey ← quiet (M.lift (createKey cfg.lib cfg.token alg.value))
  let clientAuth ← quiet (M.lift (clientHmac cfg.lib serverKey clientKey cfg.password
    defaultClientIdentity defaultServerIdentity alg.value))
  let serverAuth ← quiet (M.lift (serverHmac cfg.lib serverKey clientKey cfg.password alg.value))
  let d1 ← quiet (M.lift (hexToDigits cfg.lib clientKey))
  let d2 ← quiet (M.lift (hexToDigits cfg.lib (hexdigest clientAuth)))
  sendMessage cfg (.generic [d1, d2]) true
  let resp ← readMessage
  if resp.type = .nack then quiet (M.raise .invalidAuthentication)
  else do
    let tag ← quiet (M.lift (index resp.tags 0))
    let digits ← quiet (M.lift (hexToDigits cfg.lib tag))
    let confirmation ← quiet (M.lift (fromHex digits))
    if compareHmac serverAuth confirmation = false then quiet (M.raise .invalidAuthentication)
    else sendMessage cfg .ack true

/-- `_authenticate_hmac` (`base.py:155-206`). -/
def authenticateHmac (cfg : Config) (tag : Str) : L Unit :=
  match Alg.fromString tag with
  | .error _ => do
    sendMessage cfg .nack true
    quiet (M.raise .invalidAuthentication)
  | .ok alg => authenticateHmacWith cfg alg

/-- The choice of the authentication (`base.py:125-137`). -/
def authenticate (cfg : Config) (resp : Msg) : L Unit :=
  if resp.type = .ack then log .noAuthentication
  else if resp.tags.length = 1 then do
    log .usingOpen
    authenticateOpen cfg (← quiet (M.lift (index resp.tags 0)))
  else do
    let first ← quiet (M.lift (index resp.tags 0))
    if first = cs!"98" then do
      log .usingHmac
      authenticateHmac cfg (← quiet (M.lift (index resp.tags 1)))
    else quiet (M.raise .invalidAuthentication)

/-- `start` once the connection is up (`base.py:109-139`). -/
def handshake (cfg : Config) : L Unit := do
  let message ← readMessage
  if message.type ≠ .ack then quiet (M.raise .invalidAuthentication)
  else do
    log .startingHandshake
    sendMessage cfg (← quiet (M.lift cfg.session.toMessage)) true
    let resp ← readMessage
    authenticate cfg resp
    log .ready

/-- `start` (`base.py:81-139`). -/
def start (cfg : Config) : L Unit := do
  connect
  handshake cfg

/-- What calling `start` leaves in the log (`base.py:81-139`). -/
def records (cfg : Config) (w : World) : List Record := (start cfg w).2

/-- What a user sees who shows INFO and above: a logger set to INFO (`base.py:25`, `protocol.py:13`) drops the rest. -/
def shown (l : List Record) : List Record := l.filter (fun r => r.level ≠ .debug)

end Logs
