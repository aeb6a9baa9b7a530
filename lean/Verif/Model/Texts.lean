import Verif.Model.Items

/-!
# What exceptions say (`pyown/exceptions.py`, `pyown/client/base.py`, `pyown/items/base.py`)

`start`, commands and queries again, with `str` of the exceptions they raise.

Simplifications.
* A text is given for the exceptions the package raises itself and for `int(password)`.  Other exceptions of Python
  (`IndexError`, `asyncio.timeout`, `bytes.fromhex`, `int(text, 16)` on a tag of the gateway) have the text `none`, which says
  nothing about what they contain.
* For `int(password)` the text is given for passwords `repr` prints as they are and does not cut.
-/

open Py HmacAuth

/-- An exception with `str` of it. -/
structure Raised where
  err : Err
  text : Option Str
  deriving DecidableEq, Repr

namespace Texts

/-- `str(e)` where the exception itself makes it (`exceptions.py:66`, `:80`). -/
def own : Err → Option Str
  | .invalidMessage m => some (cs!"Invalid message: " ++ m)
  | .invalidTag t => some (cs!"Invalid tag: " ++ t)
  | _ => none

/-- A coroutine.  `async def` at `client/base.py:81-241` and `items/base.py:103-304`. -/
def X (α : Type) : Type := World → Except Raised α × World

namespace X

/-- `return a` -/
def pure {α : Type} (a : α) : X α := fun w => (.ok a, w)

/-- `raise e(text)` -/
def raise {α : Type} (e : Err) (text : Str) : X α := fun w => (.error ⟨e, some text⟩, w)

/-- Sequencing: an exception skips the rest. -/
def bind {α β : Type} (x : X α) (f : α → X β) : X β := fun w =>
  match x w with
  | (.ok a, w') => f a w'
  | (.error e, w') => (.error e, w')

instance : Monad X where
  pure := X.pure
  bind := X.bind

/-- A coroutine whose exceptions say what they say by themselves. -/
def plain {α : Type} (x : M α) : X α := fun w =>
  match x w with
  | (.ok a, w') => (.ok a, w')
  | (.error e, w') => (.error ⟨e, own e⟩, w')

end X

open X

/-! ## The client -/

/-- Characters that `repr` prints as they are inside single quotes: printable ASCII but the quote and the backslash.
Used for `int(password)` at `auth/open.py:21`. -/
def printsAsIs (c : Char) : Bool := 32 ≤ c.toNat && c.toNat ≤ 126 && c ≠ '\'' && c ≠ '\\'

/-- `str` of the `ValueError` of `int(s)`: `"invalid literal for int() with base %d: %.200R"` in CPython, where 200 characters
hold 198 of the text (`auth/open.py:21`). -/
def intText (s : Str) : Option Str :=
  if s.length ≤ 198 ∧ s.all printsAsIs then some (cs!"invalid literal for int() with base 10: '" ++ s ++ cs!"'") else none

/-- `own_calc_pass` of a text (`auth/open.py:4-66`). -/
def openAnswer (password nonce : Str) : X Str := fun w =>
  match pyInt password with
  | .error e => (.error ⟨e, intText password⟩, w)
  | .ok n => plain (M.lift (OpenAuth.ownCalcPass n nonce)) w

/-- `create_connection` (`client/base.py:88-101`). -/
def connect : X Unit := fun w =>
  match Client.connect w with
  | (.ok a, w') => (.ok a, w')
  | (.error e, w') => (.error ⟨e, some cs!"Could not connect to the server"⟩, w')

/-- `send_message` (`client/base.py:208-223`). -/
def sendMessage (cfg : Config) (m : Msg) (force : Bool) : X Unit := fun w =>
  if !Client.isCmdSession cfg.session && !force then
    (.error ⟨.invalidSession, some cs!"Cannot send messages in an event session"⟩, w)
  else if !w.started then (.error ⟨.invalidSession, some cs!"Client not started"⟩, w)
  else
    match m.bytes with
    | .error e => (.error ⟨e, own e⟩, w)
    | .ok _ => (.ok (), { w with trace := w.trace ++ [.sent m.str] })

/-- `read_message` (`client/base.py:225-241`). -/
def readMessage : X Msg := fun w =>
  if !w.started then (.error ⟨.invalidSession, some cs!"Client not started"⟩, w)
  else
    match w.inbox with
    | [] => (.error ⟨.timeoutError, none⟩, w)
    | .silence :: rest => (.error ⟨.timeoutError, none⟩, { w with inbox := rest })
    | .msg m :: rest => (.ok m, { w with inbox := rest, trace := w.trace ++ [.got m] })

/-- `_authenticate_open` (`client/base.py:141-153`). -/
def authenticateOpen (cfg : Config) (nonce : Str) : X Unit := do
  let enc ← openAnswer cfg.password nonce
  sendMessage cfg (.generic [cs!"#" ++ enc]) true
  let resp ← readMessage
  if resp.type ≠ .ack then raise .invalidAuthentication cs!"Invalid password"
  else return ()

/-- `_authenticate_hmac` after the algorithm has been recognised (`client/base.py:170-206`). -/
def authenticateHmacWith (cfg : Config) (alg : Alg) : X Unit := do
  sendMessage cfg .ack true
  let resp ← readMessage
  let serverKey ← plain (M.lift (index resp.tags 0))
  let clientKey ← plain (M.lift (createKey cfg.lib cfg.token alg.value))
  let clientAuth ← plain (M.lift (clientHmac cfg.lib serverKey clientKey cfg.password
    defaultClientIdentity defaultServerIdentity alg.value))
  let serverAuth ← plain (M.lift (serverHmac cfg.lib serverKey clientKey cfg.password alg.value))
  let d1 ← plain (M.lift (hexToDigits cfg.lib clientKey))
  let d2 ← plain (M.lift (hexToDigits cfg.lib (hexdigest clientAuth)))
  sendMessage cfg (.generic [d1, d2]) true
  let resp ← readMessage
  if resp.type = .nack then raise .invalidAuthentication cs!"Invalid password"
  else do
    let tag ← plain (M.lift (index resp.tags 0))
    let digits ← plain (M.lift (hexToDigits cfg.lib tag))
    let confirmation ← plain (M.lift (fromHex digits))
    if compareHmac serverAuth confirmation = false then raise .invalidAuthentication cs!"Invalid password"
    else sendMessage cfg .ack true

/-- `_authenticate_hmac` (`client/base.py:155-206`). -/
def authenticateHmac (cfg : Config) (tag : Str) : X Unit :=
  match Alg.fromString tag with
  | .error _ => do
    sendMessage cfg .nack true
    raise .invalidAuthentication cs!"Invalid hash algorithm"
  | .ok alg => authenticateHmacWith cfg alg

/-- `start` once the connection is up (`client/base.py:109-137`). -/
def handshake (cfg : Config) : X Unit := do
  let message ← readMessage
  if message.type ≠ .ack then raise .invalidAuthentication cs!"Expected ACK message"
  else do
    sendMessage cfg (← plain (M.lift cfg.session.toMessage)) true
    let resp ← readMessage
    if resp.type = .ack then return ()
    else if resp.tags.length = 1 then do
      authenticateOpen cfg (← plain (M.lift (index resp.tags 0)))
    else do
      let first ← plain (M.lift (index resp.tags 0))
      if first = cs!"98" then do
        authenticateHmac cfg (← plain (M.lift (index resp.tags 1)))
      else raise .invalidAuthentication cs!"Invalid authentication response"

/-- `start` (`client/base.py:81-139`). -/
def start (cfg : Config) : X Unit := do
  connect
  handshake cfg

/-! ## Items -/

/-- `_check_ack` (`items/base.py:125-136`). -/
def checkAck (resp : Msg) : X Unit :=
  if resp.type ≠ .ack then raise .responseError (cs!"Received " ++ resp.str ++ cs!" instead of ACK") else return ()

/-- `_check_nack` (`items/base.py:138-149`). -/
def checkNack (resp : Msg) : X Unit :=
  if resp.type = .nack then raise .responseError (cs!"Received " ++ resp.str ++ cs!" instead of NACK") else return ()

/-- Send and expect an ACK (`items/base.py:210-213`, `:284-287`). -/
def command (cfg : Config) (m : Msg) : X Unit := do
  sendMessage cfg m false
  let resp ← readMessage
  checkAck resp

/-- What the two generators call the replies they expect (`items/base.py:236`, `:266`). -/
inductive Kind where
  | normal | dimension
  deriving DecidableEq, Repr

/-- The class of the replies (`items/base.py:235`, `:265`). -/
def Kind.want : Kind → Msg → Bool
  | normal => Msg.isNormal
  | dimension => Msg.isDimResp

/-- Its name in the text (`items/base.py:236`, `:266`). -/
def Kind.name : Kind → Str
  | normal => cs!"a normal message"
  | dimension => cs!"a dimension response message"

/-- One round of the loop (`items/base.py:227-238`, `:257-268`). -/
def nextReply (k : Kind) : X (Option Msg) := do
  let resp ← readMessage
  checkNack resp
  if resp.type = .ack then return none
  else if !k.want resp then
    raise .responseError (cs!"Received " ++ resp.str ++ cs!" instead of " ++ k.name)
  else return some resp

/-- `async for message in …: body` (`items/base.py:227-238`, `:257-268`); `n` bounds the rounds, and the number of messages
to come is enough. -/
def drain {β : Type} (k : Kind) (body : Msg → Except Err (List β)) : Nat → World → (List β × Except Raised Unit) × World
  | 0, w => (([], .error ⟨.timeoutError, none⟩), w)
  | n + 1, w =>
    match nextReply k w with
    | (.error e, w') => (([], .error e), w')
    | (.ok none, w') => (([], .ok ()), w')
    | (.ok (some m), w') =>
      match body m with
      | .error e => (([], .error ⟨e, own e⟩), w')
      | .ok ys => ((ys ++ (drain k body n w').1.1, (drain k body n w').1.2), (drain k body n w').2)

/-- A whole query: the request, then the replies (`items/base.py:215-268`). -/
def stream {β : Type} (cfg : Config) (request : Msg) (k : Kind) (body : Msg → Except Err (List β)) (w : World) :
    (List β × Except Raised Unit) × World :=
  match sendMessage cfg request false w with
  | (.error e, w') => (([], .error e), w')
  | (.ok (), w') => drain k body (w'.inbox.length + 1) w'

/-- `_single_dim_req` (`items/base.py:290-304`). -/
def singleDimReq (cfg : Config) (i : Item) (dim : Tag) : X Msg := fun w =>
  match stream cfg (i.requestMessage dim) .dimension (fun m => .ok [m]) w with
  | ((_, .error e), w') => (.error e, w')
  | (([], .ok ()), w') => (.error ⟨.responseError, some cs!"The server did not respond with data."⟩, w')
  | ((m :: _, .ok ()), w') => (.ok m, w')

end Texts
