import Verif.Model.Messages
import Verif.Py.Backtrack

/-!
# Cost of parsing
-/

open Py

/-- Character tests made by the loop over the classes (`base.py:213-220`). -/
def classTests (message : Str) : List (Re × (List Str → Except Err Msg)) → Nat
  | [] => 0
  | (r, _) :: rest =>
    if (r.search message).1 then (r.search message).2 else (r.search message).2 + classTests message rest

/-- Character tests made by the regular expressions in `parse_message` (`base.py:196-223`). -/
def parseTests (message : Str) : Nat :=
  if count2 '#' '#' message ≠ 1 then 0
  else
    let message := strip message
    if (MsgRe.generic.search message).1 = false then (MsgRe.generic.search message).2
    else (MsgRe.generic.search message).2 + classTests message messageClasses
