import Verif.Model.Scripts

/-!
# What tasks with several commands may expect
-/

namespace Spec.Scripts

open _root_.Scripts

/-- The tasks that were begun. -/
def starts (evs : List Ev) : List Nat := evs.filterMap fun | .start k => some k | _ => none

/-- The messages that arrived. -/
def arrivals (evs : List Ev) : List Msg := evs.filterMap fun | .arrive m => some m | _ => none

/-- The frames that task `k` has sent, in order. -/
def sentBy (s : Concurrent.State) (k : Nat) : List Msg := (s.sent.filter fun x => x.1.unpair.1 = k).map (·.2)

/-- How the commands of task `k` ended, in order. -/
def reportsTo (s : Concurrent.State) (k : Nat) : List (Except Err Unit) :=
  (s.finished.filter fun x => x.1.unpair.1 = k).map (·.2)

/-- A task in order: all its commands but the last one sent have returned, the next is sent at once when one returns, and an
exception is the end. -/
inductive Proceeds (script : List Msg) : List Msg → List (Except Err Unit) → Prop
  /-- it has not begun -/
  | before : Proceeds script [] []
  /-- it awaits its command number `m`, or was cancelled there -/
  | awaits (m : Nat) : m < script.length → Proceeds script (script.take (m + 1)) (List.replicate m (.ok ()))
  /-- its command number `m` raised -/
  | raised (m : Nat) (e : Err) : m < script.length →
    Proceeds script (script.take (m + 1)) (List.replicate m (.ok ()) ++ [.error e])
  /-- it has come to its end -/
  | done : Proceeds script script (List.replicate script.length (.ok ()))

/-- At every moment, what the gateway has said is a beginning of its answers to the commands sent so far, in order. -/
def InOrder (p : Script) (answer : Nat → Msg) (evs : List Ev) : Prop :=
  ∀ pre ∈ evs.inits, arrivals pre <+: (run p pre).sent.map fun x => answer x.1

/-- `P` holds whenever something arrives or a task begins. -/
def Whenever (p : Script) (P : Concurrent.State → Prop) (evs : List Ev) : Prop :=
  ∀ pre e, pre ++ [e] <+: evs → (match e with | .resume => False | _ => True) → P (run p pre)

/-- Every command that ended reports the answer to itself. -/
def Own (answer : Nat → Msg) (s : Concurrent.State) : Prop :=
  ∀ id r, (id, r) ∈ s.finished → r = if answer id = .ack then .ok () else .error .responseError

end Spec.Scripts
