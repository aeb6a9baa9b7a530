import Verif.Model.Locked
import Verif.Spec.Concurrent

/-!
# What requests under a lock may expect
-/

namespace Spec.Locked

open _root_.Locked

/-- The requests that were called, in order. -/
def calls (evs : List Ev) : List Nat := evs.filterMap fun | .call id => some id | _ => none

/-- No timeout expires and nothing is cancelled. -/
def Patient (evs : List Ev) : Prop := ∀ e ∈ evs, ∀ id, e ≠ .expire id ∧ e ≠ .cancel id

/-- The requests under way: written, and not ended. -/
def underWay (s : Concurrent.State) : List Nat := s.waiting ++ s.woken

/-- Every request that ended other than by a timeout got its own answer, all of it, and reports what it says. -/
def OwnInTime (answers : Nat → List Msg) (s : Concurrent.State) : Prop :=
  ∀ id r, (id, r) ∈ s.finished → r ≠ .error .timeoutError →
    Concurrent.takenBy s id = answers id ∧ r = if (answers id).getLast? = some .ack then .ok () else .error .responseError

/-- Nothing is left to happen: no task can run, and the gateway has given its answers to all that was written. -/
def AtRest (prog : Nat → Concurrent.Req) (answers : Nat → List Msg) (s : State) : Prop :=
  s.granted = false ∧ (s.base prog).woken = [] ∧
    Concurrent.arrivals s.log = ((s.base prog).sent.map (·.1)).flatMap answers

end Spec.Locked
