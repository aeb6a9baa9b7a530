import Verif.Model.Outcomes
import Verif.Spec.Events

/-!
# The specification of what becomes of callbacks

Written from the outside: which callbacks were started for an event, how they ended, what was logged.
-/

open Py

namespace Outcomes

/-- A client after a history. -/
def after (py : Events.Python) (call : Events.Call) (h : List Step) : State := State.init.run py call h

/-- How many callbacks were started in a history. -/
def count (py : Events.Python) (call : Events.Call) (h : List Step) : Nat := (after py call h).made.length

/-- What was logged about the tasks from number `a` up to number `b`, in the order of logging. -/
def logged (s : State) (a b : Nat) : List (Nat × Nat) := s.log.filter fun p => a ≤ p.1 ∧ p.1 < b

/-- The tasks among `ts` that raised an exception, with it. -/
def raisedAmong (ended : Nat → Option Outcome) : List Nat → List (Nat × Nat)
  | [] => []
  | t :: ts =>
    match ended t with
    | some (.raised e) => (t, e) :: raisedAmong ended ts
    | _ => raisedAmong ended ts

/-- The tasks from `a` up to `b` that raised an exception, with it, in order. -/
def raisedIn (s : State) (a b : Nat) : List (Nat × Nat) := raisedAmong s.ended (List.range' a (b - a))

/-- All tasks from `a` up to `b` have ended. -/
def AllEnded (s : State) (a b : Nat) : Prop := ∀ t, a ≤ t → t < b → s.ended t ≠ none

/-- The steps of a history that are messages handled by `loop()`. -/
def Step.isDispatch : Step → Bool
  | .dispatch .. => true
  | _ => false

/-- Whatever exception a callback raises, it is in the log once the event loop has run what is left to run. -/
def EveryErrorLogged (py : Events.Python) (call : Events.Call) : Prop :=
  ∀ h t e, (after py call h).ended t = some (.raised e) →
    ∃ ks : List Nat, (t, e) ∈ (after py call (h ++ ks.map .check)).log

/-- The same when all callbacks have ended. -/
def EveryErrorLoggedAtEnd (py : Events.Python) (call : Events.Call) : Prop :=
  ∀ h t e, AllEnded (after py call h) 0 (count py call h) → (after py call h).ended t = some (.raised e) →
    ∃ ks : List Nat, (t, e) ∈ (after py call (h ++ ks.map .check)).log

end Outcomes
