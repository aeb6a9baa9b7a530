import Verif.Model.Concurrent

/-!
# What concurrent requests may expect

A gateway that answers the requests one after the other, in the order in which it receives them, and what it means that
every request gets its own answer.
-/

namespace Spec.Concurrent

open _root_.Concurrent

/-- The messages that arrived, in order. -/
def arrivals (evs : List Ev) : List Msg := evs.filterMap fun | .arrive m => some m | _ => none

/-- The requests that were begun, in order. -/
def starts (evs : List Ev) : List Nat := evs.filterMap fun | .start id => some id | _ => none

/-- At every moment, what the gateway has said is a beginning of its answers to the requests made so far, in order. -/
def InOrder (answers : Nat → List Msg) (evs : List Ev) : Prop :=
  ∀ pre ∈ evs.inits, arrivals pre <+: (starts pre).flatMap answers

/-- Every request is begun once, no timeout expires and nothing is cancelled. -/
def Calm (evs : List Ev) : Prop := (starts evs).Nodup ∧ ∀ e ∈ evs, ∀ id, e ≠ .expire id ∧ e ≠ .cancel id

/-- The event begins a request. -/
def begins : Ev → Bool
  | .start _ => true
  | _ => false

/-- `P` holds whenever a request begins. -/
def AtStart (prog : Nat → Req) (P : State → Prop) (evs : List Ev) : Prop :=
  ∀ k, (h : k < evs.length) → begins evs[k] = true → P (run prog (evs.take k))

/-- `asyncio` runs the tasks in the order in which they became ready: a request does not begin before the readers that
were woken have run. -/
def Fifo (s : State) : Prop := s.woken = []

/-- No request is under way. -/
def Alone (s : State) : Prop := s.woken = [] ∧ s.waiting = []

/-- A proper answer to a request: replies, and a message that ends it. -/
def Proper (r : Req) (answer : List Msg) : Prop :=
  ∃ replies last, answer = replies ++ [last] ∧ (∀ m ∈ replies, r.want m = true) ∧ r.want last = false

/-- What task `id` took from the queue. -/
def takenBy (s : State) (id : Nat) : List Msg := (s.got.filter (·.1 = id)).map (·.2)

/-- Every request that ended got its own answer, all of it, and reports what it says. -/
def Own (answers : Nat → List Msg) (s : State) : Prop :=
  ∀ id r, (id, r) ∈ s.finished →
    takenBy s id = answers id ∧ r = if (answers id).getLast? = some .ack then .ok () else .error .responseError

end Spec.Concurrent
