import Verif.Model.Loss

/-! # What the end of a connection means to requests -/

namespace Spec.Loss
open _root_.Loss
open Concurrent (Req)

/-- The request of task `id` has reported success. -/
def Succeeded (s : State) (id : Nat) : Prop := (id, .ok ()) ∈ s.base.finished

/-- Its frame was written while the connection was there. -/
def Written (prog : Nat → Req) (s : State) (id : Nat) : Prop := (id, (prog id).msg) ∈ s.written

/-- The connection is over. -/
def Over (s : State) : Prop := s.ended = true ∨ s.closed = true

/-- The request of task `id` is under way: it waits for room to write, for a message, or for its turn. -/
def UnderWay (s : State) (id : Nat) : Prop := id ∈ s.sending ∨ id ∈ s.base.waiting ∨ id ∈ s.base.woken

/-- What can happen to requests on a connection that stays and is not congested (`Verif/Model/Concurrent.lean`). -/
def inLoss : Concurrent.Ev → Loss.Ev
  | .start id => .start id
  | .arrive m => .arrive m
  | .resume => .resume
  | .expire id => .expire id
  | .cancel id => .cancel id

end Spec.Loss
