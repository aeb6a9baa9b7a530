import Verif.Model.Loops

/-!
# A client that is started again (`pyown/client/base.py:81-139`, `pyown/client/client.py:79-143`)

`start()` makes a new transport and a new protocol with a new queue (`client/base.py:89-97`, `protocol.py:41`).  The items
(`client.py:53`) and the callbacks (class attributes) stay.  A `loop()` that is suspended waits for the queue of the connection it
last read from (`client/base.py:237`); only after it has got a message does it look at `self._transport` and `self._protocol`
again (`client.py:115`, `:118`), and goes on with the new connection if there is one.

Simplifications: `start()` is one step, so no loop runs between its connecting and its end; what it leaves unread in the new
queue comes as packets after it (see C128).  A `start()` that fails before it is connected changes nothing, and one that fails
later leaves a connection, so it is a step, too.
-/

open Py

namespace Events

/-- A connection that the client has replaced: whether it is still open, and what was received and not read.
`client/base.py:89`, `protocol.py:41`. -/
structure Former where
  up : Bool
  queue : List Msg
  deriving DecidableEq

/-- A client, the connections it had before, and its calls of `loop()`, each with the number of the connection that it waits
for or ended on.  `base` is the client with its present connection, which has the number `former.length`.
`client/base.py:56-68`, `client.py:53, 79-143`. -/
structure Again where
  base : State
  former : List Former
  loops : Nat → Loop × Nat

/-- What can happen: an act with the present connection, or a former one delivers a packet or ends, or `start()` is called again.
`client/base.py:81-139`, `protocol.py:53-95`. -/
inductive Act' where
  | act (a : Act)
  | packet (k : Nat) (data : List UInt8)
  | lost (k : Nat)
  | start

/-- The `id`-th loop runs on the present connection.  `client.py:115-143`. -/
def Again.turn (s : Again) (id client : Nat) (b : State) : Again :=
  { s with base := b, loops := Function.update s.loops id (.called client b.task, s.former.length) }

/-- The `id`-th loop is resumed.  On the present connection it goes on as ever.  On a former one it takes one message, handles
it, and goes on with the present connection: as if that message had come first there.  `client.py:115-143`,
`client/base.py:233-238`. -/
def Again.resume (py : Python) (call : Call) (s : Again) (id : Nat) : Again :=
  match s.loops id with
  | (.called client .waiting, k) =>
    if k = s.former.length then
      s.turn id client ({ s.base with task := .waiting, client := client }.step py call .resume)
    else
      match s.former[k]? with
      | some ⟨up, m :: q⟩ =>
        { s with former := s.former.set k ⟨up, q⟩ }.turn id client
          (drain py call { s.base with task := .waiting, client := client } (m :: s.base.queue))
      | _ => s
  | _ => s

/-- One step.  `client.py:79-143`, `protocol.py:64-95`, `client/base.py:81-97, 243-249`. -/
def Again.step (py : Python) (call : Call) (s : Again) : Act' → Again
  | .act (.packet d) => { s with base := s.base.step py call (.packet d) }
  | .act .lost => { s with base := s.base.step py call .lost }
  | .act .close => { s with base := s.base.step py call .close }
  | .act (.register c m cb) => { s with base := s.base.step py call (.register c m cb) }
  | .act (.getItem who wher client) => { s with base := s.base.step py call (.getItem who wher client) }
  | .act (.loop id client) =>
    match s.loops id with
    | (.none, _) => s.turn id client ({ s.base with task := .none, client := client }.step py call .loop)
    | _ => s
  | .act (.resume id) => s.resume py call id
  | .act (.cancel id) =>
    match s.loops id with
    | (.called _ .waiting, k) => { s with loops := Function.update s.loops id (.cancelled, k) }
    | _ => s
  | .packet k d =>
    match s.former[k]? with
    | some ⟨true, q⟩ =>
      match Protocol.dataReceived q d with
      | (.ok _, q') => { s with former := s.former.set k ⟨true, q'⟩ }
      | (.error _, q') => { s with former := s.former.set k ⟨false, q'⟩ }
    | _ => s
  | .lost k =>
    match s.former[k]? with
    | some f => { s with former := s.former.set k { f with up := false } }
    | none => s
  | .start =>
    { s with
      base := { s.base with transport := .opened, queue := [] }
      former := s.former ++ [⟨s.base.transport = .opened, s.base.queue⟩] }

/-- A history of the steps of `client/base.py:81-139`, `client.py:79-143`. -/
def Again.run (py : Python) (call : Call) (s : Again) (h : List Act') : Again := h.foldl (Again.step py call) s

/-- A client that has been started once.  `client/base.py:81-139`, `client.py:53`. -/
def Again.init (session : Session) : Again := ⟨.init session 0, [], fun _ => (.none, 0)⟩

end Events
