import Verif.Spec.Replies

/-!
# What a program that commands what it has read should do

For every value the query gives, one command; it goes on as long as the gateway says ACK.
-/

namespace Spec.Nested

/-- The outcome that the gateway's answers to the commands, in order, call for. -/
def calledFor : List Msg → Except Err Unit
  | [] => .ok ()
  | a :: answers => if a = .ack then calledFor answers else .error .responseError

/-- The frames of the commands that should be given: up to the first that is not acknowledged. -/
def given {β : Type} (frame : β → Str) : List β → List Msg → List Str
  | y :: ys, a :: answers => frame y :: if a = .ack then given frame ys answers else []
  | _, _ => []

/-- The frames written. -/
def written (acts : List CAct) : List Str := acts.filterMap fun
  | .sent s => some s
  | _ => none

end Spec.Nested
