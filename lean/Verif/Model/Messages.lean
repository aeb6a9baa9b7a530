import Verif.Model.Tags
import Verif.Py.Regex

/-!
# Messages (`pyown/messages`)
-/

open Py

/-- Message objects, one constructor per class (`pyown/messages/*.py`).  The type of a message
(`MessageType`) is determined by its class. -/
inductive Msg where
  /-- `ACK` (`ack.py:12-26`) -/
  | ack
  /-- `NACK` (`nack.py:12-26`) -/
  | nack
  /-- `NormalMessage` (`normal.py:12-34`) -/
  | normal (who : Who) (what : Tag) (wher : Tag)
  /-- `StatusRequest` (`status.py:10-22`) -/
  | status (who : Who) (wher : Tag)
  /-- `DimensionRequest` (`dimension.py:14-41`) -/
  | dimReq (who : Who) (wher : Tag) (dim : Tag)
  /-- `DimensionWriting` (`dimension.py:54-68`) -/
  | dimWrite (who : Who) (wher : Tag) (dim : Tag) (values : List Tag)
  /-- `DimensionResponse` (`dimension.py:111-120`) -/
  | dimResp (who : Who) (wher : Tag) (dim : Tag) (values : List Tag)
  /-- `GenericMessage` (`base.py:148-156`) -/
  | generic (tags : List Str)
  deriving DecidableEq, Repr

/-- `MessageType` (`base.py:22-32`). -/
inductive MsgType where
  | ack | nack | normal | statusRequest | dimensionRequest | dimensionWriting | dimensionResponse | generic
  deriving DecidableEq, Repr

namespace Msg

/-- `message.type` (`base.py:99-106` with the class attribute `_type` of each class). -/
def type : Msg → MsgType
  | ack => .ack
  | nack => .nack
  | normal .. => .normal
  | status .. => .statusRequest
  | dimReq .. => .dimensionRequest
  | dimWrite .. => .dimensionWriting
  | dimResp .. => .dimensionResponse
  | generic .. => .generic

/-- The texts of `message.tags` (`base.py:87-97`; `ack.py:21`, `nack.py:21`). -/
def tags : Msg → List Str
  | ack => [cs!"#", cs!"1"]
  | nack => [cs!"#", cs!"0"]
  | normal w a b => [w.code, a.string, b.string]
  | status w a => [w.code, a.string]
  | dimReq w a d => [w.code, a.string, d.string]
  | dimWrite w a d vs => w.code :: a.string :: d.string :: vs.map (·.string)
  | dimResp w a d vs => w.code :: a.string :: d.string :: vs.map (·.string)
  | generic ts => ts

/-- `message.who` (`base.py:137-140`, `normal.py:26-29`, `status.py:24-27`, `dimension.py:28-31`, `:70-73`). -/
def who : Msg → Option Who
  | normal w _ _ | status w _ | dimReq w _ _ | dimWrite w _ _ _ | dimResp w _ _ _ => some w
  | _ => none

/-- `message.where` (`base.py:142-145`, `normal.py:36-39`, `status.py:29-32`, `dimension.py:33-36`, `:75-78`). -/
def wher : Msg → Option Tag
  | normal _ _ a | status _ a | dimReq _ a _ | dimWrite _ a _ _ | dimResp _ a _ _ => some a
  | _ => none

/-- `str(message)`: the property `message` of each class
(`ack.py:34`, `nack.py:34`, `normal.py:44`, `status.py:37`, `dimension.py:46`, `:93`, `:125`, `base.py:165`). -/
def str : Msg → Str
  | ack => cs!"*#*1##"
  | nack => cs!"*#*0##"
  | normal w a b => cs!"*" ++ w.code ++ cs!"*" ++ a.string ++ cs!"*" ++ b.string ++ cs!"##"
  | status w a => cs!"*#" ++ w.code ++ cs!"*" ++ a.string ++ cs!"##"
  | dimReq w a d => cs!"*#" ++ w.code ++ cs!"*" ++ a.string ++ cs!"*" ++ d.string ++ cs!"##"
  | dimWrite w a d vs =>
    cs!"*#" ++ w.code ++ cs!"*" ++ a.string ++ cs!"*#" ++ d.string ++ cs!"*" ++
      join cs!"*" (vs.map (·.string)) ++ cs!"##"
  | dimResp w a d vs =>
    cs!"*#" ++ w.code ++ cs!"*" ++ a.string ++ cs!"*" ++ d.string ++ cs!"*" ++
      join cs!"*" (vs.map (·.string)) ++ cs!"##"
  | generic ts => cs!"*" ++ join cs!"*" ts ++ cs!"##"

/-- `s.encode("ascii")`: code points below 128 as bytes.  Used at `messages/base.py:127`. -/
def encodeAscii (s : Str) : Except Err (List UInt8) :=
  if s.all (fun c => decide (c.toNat < 128)) then .ok (s.map (fun c => c.toNat.toUInt8))
  else .error .unicodeError

/-- `message.bytes` (`base.py:120-127`). -/
def bytes (m : Msg) : Except Err (List UInt8) := encodeAscii m.str

/-- `a == b` on messages (`base.py:70-73`).  `isinstance(other, self.__class__)` holds when the classes agree or when
`self` is a `DimensionWriting` and `other` a `DimensionResponse`; then `_type` and `_tags` are compared.  The
comparison of tag tuples compares their texts (`tags/base.py:78-80`; enum members of `Who` likewise). -/
def pyEq (a b : Msg) : Bool :=
  let isInstance := match a, b with
    | ack, ack | nack, nack | normal .., normal .. | status .., status .. | dimReq .., dimReq ..
    | dimWrite .., dimWrite .. | dimWrite .., dimResp .. | dimResp .., dimResp .. | generic .., generic .. => true
    | _, _ => false
  isInstance && (a.type == b.type && a.tags == b.tags)

/-- `hash(message)` (`base.py:67-68`) for an arbitrary hash of the pair; the tag tuple of every class is hashable
except the list held by a `GenericMessage`, for which `hash` raises `TypeError`. -/
def pyHash (h : MsgType × List Str → Int) : Msg → Except Err Int
  | generic _ => .error .typeError
  | m => .ok (h (m.type, m.tags))

end Msg

/-! ## Regular expressions -/

namespace MsgRe
open Re

/-- `[0-9]`, in `messages/base.py:54`. -/
def digit : Re := cls isDigit
/-- `[0-9]*`, in `messages/base.py:54`. -/
def digits : Re := star digit
/-- `(?:#[0-9]*)*`, in `messages/base.py:54`. -/
def params : Re := star (seq (chr '#') digits)
/-- `[0-9]*(?:#[0-9]*)*`, in `messages/normal.py:21`. -/
def tagRe : Re := seq digits params
/-- `[0-9#]+`, in `messages/normal.py:21`, `dimension.py:23`, `status.py:19`. -/
def who : Re := plus (cls (fun c => isDigit c || c == '#'))
/-- `##`, in `messages/base.py:54`. -/
def suffix : Re := seq (chr '#') (chr '#')

/-- `^\*(?:([0-9]*)(?:#[0-9]*)*\*?)+##$` (`base.py:53-55`) -/
def generic : Re := seq (chr '*') (seq (plus (seq digits (seq params (opt (chr '*'))))) suffix)

/-- `^\*#\*1##$` (`ack.py:23`) -/
def ack : Re := seq (chr '*') (seq (chr '#') (seq (chr '*') (seq (chr '1') suffix)))

/-- `^\*#\*0##$` (`nack.py:23`) -/
def nack : Re := seq (chr '*') (seq (chr '#') (seq (chr '*') (seq (chr '0') suffix)))

/-- `^\*[0-9#]+\*[0-9]*(?:#[0-9]*)*\*[0-9]*(?:#[0-9]*)*##$` (`normal.py:21`) -/
def normal : Re :=
  seq (chr '*') (seq who (seq (chr '*') (seq tagRe (seq (chr '*') (seq tagRe suffix)))))

/-- `^\*#[0-9#]+\*[0-9]*(?:#[0-9]*)*##$` (`status.py:19`) -/
def status : Re := seq (chr '*') (seq (chr '#') (seq who (seq (chr '*') (seq tagRe suffix))))

/-- `^\*#[0-9#]+\*[0-9]*(?:#[0-9]*)*\*[0-9]*##$` (`dimension.py:23`) -/
def dimReq : Re :=
  seq (chr '*') (seq (chr '#') (seq who (seq (chr '*') (seq tagRe (seq (chr '*') (seq digits suffix))))))

/-- `(?:\*[0-9]*(?:#[0-9]*)*)*`, in `messages/dimension.py:64, 119`. -/
def values : Re := star (seq (chr '*') tagRe)

/-- `^\*#[0-9#]+\*[0-9]*(?:#[0-9]*)*\*#[0-9]*(?:\*[0-9]*(?:#[0-9]*)*)*##$` (`dimension.py:63-65`) -/
def dimWrite : Re :=
  seq (chr '*') (seq (chr '#') (seq who (seq (chr '*') (seq tagRe
    (seq (chr '*') (seq (chr '#') (seq digits (seq values suffix))))))))

/-- `^\*#[0-9#]+\*[0-9]*(?:#[0-9]*)*\*[0-9]*(?:#[0-9]*)*(?:\*[0-9]*(?:#[0-9]*)*)*##$` (`dimension.py:118-120`) -/
def dimResp : Re :=
  seq (chr '*') (seq (chr '#') (seq who (seq (chr '*') (seq tagRe
    (seq (chr '*') (seq tagRe (seq values suffix)))))))

end MsgRe

/-! ## Parsing -/

namespace Msg

/-- `ACK.parse` (`ack.py:36-46`). -/
def parseAck (tags : List Str) : Except Err Msg := do
  if (← index tags 0) ≠ cs!"#" then
    if (← index tags 1) ≠ cs!"1" then
      throw (.invalidMessage cs!"Invalid ACK message")
  return ack

/-- `NACK.parse` (`nack.py:36-46`); `InvalidMessage(tags)` stores the joined frame (`exceptions.py:60-62`). -/
def parseNack (tags : List Str) : Except Err Msg := do
  if (← index tags 0) ≠ cs!"#" then
    if (← index tags 1) ≠ cs!"0" then
      throw (.invalidMessage (cs!"*" ++ join cs!"*" tags ++ cs!"##"))
  return nack

/-- `NormalMessage.parse` (`normal.py:46-49`). -/
def parseNormal (tags : List Str) : Except Err Msg := do
  let w ← Who.ofStr (← index tags 0)
  let a ← Tag.ofStr (← index tags 1)
  let b ← Tag.ofStr (← index tags 2)
  return normal w a b

/-- `StatusRequest.parse` (`status.py:39-42`). -/
def parseStatus (tags : List Str) : Except Err Msg := do
  let w ← Who.ofStr (removePrefix (← index tags 0) cs!"#")
  let a ← Tag.ofStr (← index tags 1)
  return status w a

/-- `DimensionRequest.parse` (`dimension.py:48-51`). -/
def parseDimReq (tags : List Str) : Except Err Msg := do
  let w ← Who.ofStr (removePrefix (← index tags 0) cs!"#")
  let a ← Tag.ofStr (← index tags 1)
  let d ← Tag.ofStr (← index tags 2)
  return dimReq w a d

/-- The fields computed by `DimensionWriting.parse` (`dimension.py:95-108`), inherited by `DimensionResponse`. -/
def parseDimFields (tags : List Str) : Except Err (Who × Tag × Tag × List Tag) := do
  let vs ← (tags.drop 3).mapM Tag.ofStr
  let w ← Who.ofStr (removePrefix (← index tags 0) cs!"#")
  let a ← Tag.ofStr (← index tags 1)
  let d ← Tag.ofStr (removePrefix (← index tags 2) cs!"#")
  return (w, a, d, vs)

/-- `DimensionWriting.parse` (`dimension.py:95-108`). -/
def parseDimWrite (tags : List Str) : Except Err Msg := do
  let (w, a, d, vs) ← parseDimFields tags
  return dimWrite w a d vs

/-- `DimensionResponse.parse`, inherited (`dimension.py:95-108`, `:111`). -/
def parseDimResp (tags : List Str) : Except Err Msg := do
  let (w, a, d, vs) ← parseDimFields tags
  return dimResp w a d vs

/-- The loop of `GenericMessage.parse` (`base.py:179-181`). -/
def checkTags : List Str → Except Err Unit
  | [] => .ok ()
  | t :: ts => if isValidTag t then checkTags ts else .error (.invalidTag t)

/-- `GenericMessage.parse` (`base.py:167-183`). -/
def parseGeneric (tags : List Str) : Except Err Msg := do
  checkTags tags
  return generic tags

end Msg

/-- `BaseMessage.__subclasses__()` without `GenericMessage`: pattern and `parse` of each class, in the order in which
the classes are defined when `pyown.messages` is imported (`messages/__init__.py:1-6`). -/
def messageClasses : List (Re × (List Str → Except Err Msg)) :=
  [(MsgRe.ack, Msg.parseAck), (MsgRe.dimReq, Msg.parseDimReq), (MsgRe.dimWrite, Msg.parseDimWrite),
   (MsgRe.dimResp, Msg.parseDimResp), (MsgRe.nack, Msg.parseNack), (MsgRe.normal, Msg.parseNormal),
   (MsgRe.status, Msg.parseStatus)]

/-- The `for subclass …` loop with its default (`base.py:213-223`). -/
def tryClasses (message : Str) (tags : List Str) : List (Re × (List Str → Except Err Msg)) → Except Err Msg
  | [] => Msg.parseGeneric tags
  | (r, parse) :: rest => if r.pyMatch message then parse tags else tryClasses message tags rest

/-- `parse_message` (`base.py:186-223`). -/
def parseMessage (message : Str) : Except Err Msg :=
  if count2 '#' '#' message ≠ 1 then .error (.invalidMessage message)
  else
    let message := strip message
    let tags := split1 '*' (removeSuffix (removePrefix message cs!"*") cs!"##")
    if MsgRe.generic.pyMatch message = false then .error (.invalidMessage message)
    else tryClasses message tags messageClasses
