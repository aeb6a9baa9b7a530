import Verif.Model.Events

/-!
# What becomes of the callbacks: their bodies and `_check_task_result` (`pyown/client/client.py:145-178`)

`Model/Events.lean` ends where the task of a callback is made.  Here the tasks run and end, and the task made at
`client.py:167` gathers their results and logs the exceptions.

Simplifications.
* The body of a callback is not modelled: it ends some time, in some way, or never.
* Exceptions are numbered.  `SystemExit` and `KeyboardInterrupt`, which leave the event loop of `asyncio`, are not modelled.
* A dispatch for which the code makes no task of `_check_task_result` makes one without tasks here; it logs nothing.
* Of what is logged there are only the records of `client.py:178`.
-/

open Py

namespace Outcomes

open Events

/-- How the body of a callback ends; a cancellation is no `Exception`.  `client.py:175-177`. -/
inductive Outcome where
  | returned
  | raised (exc : Nat)
  | cancelled
  deriving DecidableEq, Repr

/-- The `for` loop of `_dispatch_callbacks` (`client.py:153-171`): the tasks that were made before an exception, which nobody
looks at any more, and those given to `_check_task_result`. -/
def dispatchIn (py : Python) (call : Call) (r : Registry) (item : Obj) (m : Msg) : List Base → List Start × List Start
  | [] => ([], [])
  | b :: bs =>
    if whoMatches py m b then
      match b.callCallbacks call r item m with
      | (ts, .error _) => (ts ++ (dispatchIn py call r item m bs).1, (dispatchIn py call r item m bs).2)
      | (ts, .ok ()) => ([], ts)
    else dispatchIn py call r item m bs

/-- `_dispatch_callbacks` (`client.py:145-171`). -/
def dispatch (py : Python) (call : Call) (r : Registry) (item : Obj) (m : Msg) : List Start × List Start :=
  dispatchIn py call r item m subclasses

/-- A task that runs `_check_task_result` (`client.py:167`, `:174-178`): the tasks it was given, and whether it has ended. -/
structure Check where
  tasks : List Nat
  ended : Bool

/-- The tasks of a client.  `client.py:145-178`. -/
structure State where
  /-- the tasks made for callbacks; the position is the number of the task -/
  made : List Start
  /-- how they ended -/
  ended : Nat → Option Outcome
  checks : List Check
  /-- the tasks and exceptions logged (`client.py:178`) -/
  log : List (Nat × Nat)

/-- No tasks.  `client/base.py:56-68`. -/
def State.init : State := ⟨[], fun _ => none, [], []⟩

/-- What can happen.  `client.py:143`, `:174-178`. -/
inductive Step where
  /-- `loop()` dispatches a message, with these registrations (`client.py:143`) -/
  | dispatch (r : Registry) (item : Obj) (m : Msg)
  /-- the body of a callback ends -/
  | ends (task : Nat) (how : Outcome)
  /-- the `k`-th task of `_check_task_result` is run by the event loop -/
  | check (k : Nat)

/-- The `if isinstance(r, Exception)` of `client.py:177`, for the result of one task. -/
def failure (ended : Nat → Option Outcome) (task : Nat) : Option (Nat × Nat) :=
  match ended task with
  | some (.raised e) => some (task, e)
  | _ => none

/-- One step.  `asyncio.gather(…, return_exceptions=True)` (`client.py:175`) is suspended until all its tasks have ended, and
gives their results in the order of its arguments. -/
def State.step (py : Python) (call : Call) (s : State) : Step → State
  | .dispatch r item m =>
    let ts := Outcomes.dispatch py call r item m
    { s with
      made := s.made ++ ts.1 ++ ts.2
      checks := s.checks ++ [⟨List.range' (s.made.length + ts.1.length) ts.2.length, false⟩] }
  | .ends task how =>
    if task < s.made.length ∧ s.ended task = none then { s with ended := Function.update s.ended task (some how) }
    else s
  | .check k =>
    match s.checks[k]? with
    | none => s
    | some c =>
      if c.ended = false ∧ ∀ task ∈ c.tasks, s.ended task ≠ none then
        { s with
          checks := s.checks.set k { c with ended := true }
          log := s.log ++ c.tasks.filterMap (failure s.ended) }
      else s

/-- A history of the steps of `client.py:143-178`. -/
def State.run (py : Python) (call : Call) (s : State) (h : List Step) : State := h.foldl (State.step py call) s

end Outcomes
