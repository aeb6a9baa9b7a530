import Verif.Model.Events
import Verif.Model.Logs

/-!
# What `loop()` logs (`pyown/client/client.py:117-171`)

The log calls of the functions of `Verif/Model/Events.lean`.  They are given beside those functions, not inside them: logging
changes nothing they compute.

Simplifications.
* What `_check_task_result` logs about callbacks that fail later is in `Verif/Model/Outcomes.lean`; what `data_received` logs
  about packets is left out.
* `read_message` raises none of the exceptions caught at `client.py:119`, so "Error reading message" is never logged.
-/

open Py Events

namespace LoopLogs

/-- A log call of `loop()` or `_dispatch_callbacks`. -/
inductive Note where
  /-- "Received an unknown message: ..." (`client.py:127`) -/
  | unknown (m : Msg)
  /-- "Received a message without who or where: ..." (`client.py:133`) -/
  | incomplete (m : Msg)
  /-- "Item type not supported, WHO=..., WHERE=..." (`client.py:140`) -/
  | unsupportedItem (who : Who) (wher : Tag)
  /-- "Message not supported ..." (`client.py:158`) -/
  | unsupportedMessage (text : Str)
  /-- "Tag not supported ..." (`client.py:160`) -/
  | unsupportedTag (tag : Str)
  /-- "There was an error in the callback: ..." (`client.py:162-166`) -/
  | callbackError (e : Err)
  /-- "Item not found for message ..." (`client.py:171`) -/
  | itemNotFound (m : Msg)
  deriving DecidableEq, Repr

/-- The method of `log` each is made with (the lines cited at `Note`).  `client.py:127-171`. -/
def Note.level : Note → Logs.Level
  | unknown _ | incomplete _ | unsupportedMessage _ | unsupportedTag _ | itemNotFound _ => .warning
  | unsupportedItem _ _ => .info
  | callbackError _ => .error

/-- The `except` clauses of `_dispatch_callbacks` (`client.py:157-166`). -/
def caught : Err → Note
  | .invalidMessage text => .unsupportedMessage text
  | .invalidTag tag => .unsupportedTag tag
  | e => .callbackError e

/-- The `for` loop of `_dispatch_callbacks` with its `else` (`client.py:153-171`): the `else` runs unless the loop was left by
`break`, which is in the `else` of the `try`. -/
def dispatchIn (py : Python) (call : Call) (r : Registry) (item : Obj) (m : Msg) : List Base → List Note
  | [] => [.itemNotFound m]
  | b :: bs =>
    if whoMatches py m b then
      match b.callCallbacks call r item m with
      | (_, .error e) => caught e :: dispatchIn py call r item m bs
      | (_, .ok ()) => []
    else dispatchIn py call r item m bs

/-- `_dispatch_callbacks` (`client.py:145-171`). -/
def dispatch (py : Python) (call : Call) (r : Registry) (item : Obj) (m : Msg) : List Note :=
  dispatchIn py call r item m subclasses

/-- The body of the `while` of `loop()` for one message (`client.py:124-143`). -/
def handle (py : Python) (call : Call) (client : Nat) (r : Registry) (s : Items) (m : Msg) : List Note :=
  if m.type = .ack ∨ m.type = .nack then []
  else if m.type = .generic then [.unknown m]
  else
    match m.who, m.wher with
    | some who, some wher =>
      match getItem client who wher s with
      | (.error .keyError, _) => [.unsupportedItem who wher]
      | (.error _, _) => []
      | (.ok o, _) => dispatch py call r o m
    | _, _ => [.incomplete m]

/-- The log of `Events.drain` (`client.py:115-143`). -/
def drain (py : Python) (call : Call) (s : State) : List Msg → List Note
  | [] => []
  | m :: q =>
    handle py call s.client s.registry s.items m ++
      match Events.handle py call s.client s.registry s.items m with
      | (.error _, _) => []
      | (.ok ts, items) =>
        match s.transport with
        | .opened => drain py call { s with queue := q, items := items, trace := s.trace ++ ts } q
        | _ => []

/-- The log of a step: only a run of `loop()` logs (`client.py:105-143`). -/
def step (py : Python) (call : Call) (s : State) : Step → List Note
  | .loop =>
    if s.task = .none ∧ s.session = .event ∧ s.transport = .opened then drain py call s s.queue else []
  | .resume => if s.task = .waiting ∧ s.queue ≠ [] then drain py call s s.queue else []
  | _ => []

/-- The log of a history of the steps of `client.py:79-171`. -/
def run (py : Python) (call : Call) (s : State) : List Step → List Note
  | [] => []
  | st :: h => step py call s st ++ run py call (s.step py call st) h

end LoopLogs
