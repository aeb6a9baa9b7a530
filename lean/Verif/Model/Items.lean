import Verif.Model.Client

/-!
# Items: commands and queries (`pyown/items/base.py`)

Simplifications: as in `Verif/Model/Client.lean`.  An asynchronous generator is modelled by its steps: `openStream` is
what happens up to the first read, `nextReply` is one round of its loop.  A consumer is any use of the steps; `drain` is
the consumer `async for message in …: body` which the getters are made of.
-/

open Py M

/-- An item: its WHO and WHERE (`items/base.py:38-55`); the client is the `Config` and `World` of the coroutine. -/
structure Item where
  who : Who
  wher : Tag
  deriving DecidableEq, Repr

namespace Msg

/-- `message.values` of a dimension message (`messages/dimension.py:83-87`); other messages have none. -/
def values : Msg → List Tag
  | dimWrite _ _ _ vs | dimResp _ _ _ vs => vs
  | _ => []

/-- `isinstance(m, NormalMessage)`: Used in `items/base.py:200-302`. -/
def isNormal : Msg → Bool
  | normal .. => true
  | _ => false

/-- `isinstance(m, DimensionResponse)` (`messages/dimension.py:111`). -/
def isDimResp : Msg → Bool
  | dimResp .. => true
  | _ => false

end Msg

namespace Item

/-- `create_normal_message` with a `str` (`base.py:151-163`): the members of the `What…` enums are `str` too. -/
def normalMessage (i : Item) (what : Str) : Except Err Msg := do
  let w ← Tag.ofStr what
  return .normal i.who w i.wher

/-- `create_normal_message` with a `What` (`base.py:151-163`). -/
def normalMessageTag (i : Item) (what : Tag) : Msg := .normal i.who what i.wher

/-- `create_status_message` (`base.py:165-171`). -/
def statusMessage (i : Item) : Msg := .status i.who i.wher

/-- `create_dimension_writing_message` (`base.py:173-190`). -/
def writingMessage (i : Item) (dim : Tag) (values : List Tag) : Msg := .dimWrite i.who i.wher dim values

/-- `create_dimension_request_message` (`base.py:192-198`). -/
def requestMessage (i : Item) (dim : Tag) : Msg := .dimReq i.who i.wher dim

/-- Send and expect an ACK (`base.py:210-213`, `:284-287` with `:125-136`). -/
def command (cfg : Config) (m : Msg) : M Unit := do
  Client.sendMessage cfg m false
  let resp ← Client.readMessage
  if resp.type ≠ .ack then raise .responseError
  else return ()

/-- `send_normal_message` with a `str` (`base.py:200-213`). -/
def sendNormal (cfg : Config) (i : Item) (what : Str) : M Unit := do
  let m ← lift (i.normalMessage what)
  command cfg m

/-- `send_normal_message` with a `What` (`base.py:200-213`). -/
def sendNormalTag (cfg : Config) (i : Item) (what : Tag) : M Unit := command cfg (i.normalMessageTag what)

/-- `send_dimension_writing` with a `str` (`base.py:270-287`). -/
def sendWriting (cfg : Config) (i : Item) (dim : Str) (values : List Tag) : M Unit := do
  let d ← lift (Tag.ofStr dim)
  command cfg (i.writingMessage d values)

/-- `send_dimension_writing` with a `Dimension` (`base.py:270-287`). -/
def sendWritingTag (cfg : Config) (i : Item) (dim : Tag) (values : List Tag) : M Unit :=
  command cfg (i.writingMessage dim values)

/-- One round of the loops of `send_status_request` and `send_dimension_request` (`base.py:227-238`, `:257-268`):
`none` when the ACK ends the generator. -/
def nextReply (want : Msg → Bool) : M (Option Msg) := do
  let resp ← Client.readMessage
  if resp.type = .nack then raise .responseError
  else if resp.type = .ack then return none
  else if !want resp then raise .responseError
  else return some resp

theorem nextReply_shrinks {want : Msg → Bool} {w w' : World} {m : Msg} (h : nextReply want w = (.ok (some m), w')) :
    w'.inbox.length < w.inbox.length := by
  unfold nextReply Client.readMessage at h
  simp only [Bind.bind, M.bind] at h
  split_ifs at h <;> try cases h
  rcases hi : w.inbox with _ | ⟨_ | _, r⟩ <;> rw [hi] at h <;> try cases h
  dsimp only at h
  split_ifs at h <;> cases h
  simp

/-- `async for message in …: body` (`base.py:227-238`, `:257-268` and the getters): the body yields some values or
raises, which abandons the generator. -/
def drain {β : Type} (want : Msg → Bool) (body : Msg → Except Err (List β)) (w : World) :
    (List β × Except Err Unit) × World :=
  match _h : nextReply want w with
  | (.error e, w') => (([], .error e), w')
  | (.ok none, w') => (([], .ok ()), w')
  | (.ok (some m), w') =>
    match body m with
    | .error e => (([], .error e), w')
    | .ok ys =>
      let r := drain want body w'
      ((ys ++ r.1.1, r.1.2), r.2)
termination_by w.inbox.length
decreasing_by exact nextReply_shrinks _h

/-- A whole generator: the request, then the replies.  `items/base.py:215-268`. -/
def stream {β : Type} (cfg : Config) (request : Msg) (want : Msg → Bool) (body : Msg → Except Err (List β)) (w : World) :
    (List β × Except Err Unit) × World :=
  match Client.sendMessage cfg request false w with
  | (.error e, w') => (([], .error e), w')
  | (.ok (), w') => drain want body w'

/-- `async for message in item.send_status_request(): body` (`base.py:215-238`). -/
def statusStream {β : Type} (cfg : Config) (i : Item) (body : Msg → Except Err (List β)) (w : World) :
    (List β × Except Err Unit) × World :=
  stream cfg i.statusMessage Msg.isNormal body w

/-- `async for message in item.send_dimension_request(dim): body` (`base.py:240-268`). -/
def dimStream {β : Type} (cfg : Config) (i : Item) (dim : Tag) (body : Msg → Except Err (List β)) (w : World) :
    (List β × Except Err Unit) × World :=
  stream cfg (i.requestMessage dim) Msg.isDimResp body w

/-- `_single_dim_req` (`base.py:290-304`). -/
def singleDimReq (cfg : Config) (i : Item) (dim : Tag) : M Msg := fun w =>
  match dimStream cfg i dim (fun m => .ok [m]) w with
  | ((_, .error e), w') => (.error e, w')
  | (([], .ok ()), w') => (.error .responseError, w')
  | ((m :: _, .ok ()), w') => (.ok m, w')

end Item
