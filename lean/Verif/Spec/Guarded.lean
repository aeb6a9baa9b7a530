import Verif.Model.Guarded
import Verif.Spec.Locked

/-!
# What requests under a lock may expect, if the client is started again after each that is given up
-/

namespace Spec.Guarded

open _root_.Guarded

/-- The requests that were called, in order. -/
def called (evs : List Ev) : List Nat := evs.filterMap fun | .call id => some id | _ => none

/-- The histories of all connections, in the order in which they were made. -/
def connections (s : State) : List (List Concurrent.Ev) := s.old ++ [s.lock.log]

/-- The requests written, on whatever connection, in order. -/
def written (prog : Nat → Concurrent.Req) (s : State) : List Nat :=
  (connections s).flatMap fun log => (Concurrent.run prog log).sent.map (·.1)

/-- The request has ended: it returned, raised or was cancelled. -/
def Ended (prog : Nat → Concurrent.Req) (s : State) (id : Nat) : Prop :=
  ∃ log ∈ connections s, id ∈ (Concurrent.run prog log).finished.map (·.1) ∨ id ∈ (Concurrent.run prog log).cancelled

/-- Nothing is left to happen: no task can run, no login is under way, and the gateway has given its answers to all that was
written on the connection in use. -/
def Settled (prog : Nat → Concurrent.Req) (answers : Nat → List Msg) (s : State) : Prop :=
  s.restarting = false ∧ Locked.AtRest prog answers s.lock

end Spec.Guarded
