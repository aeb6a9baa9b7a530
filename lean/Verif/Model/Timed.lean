import Verif.Model.Items

/-!
# The clock: how long reads and calls take (`pyown/client/base.py:225-241`, `pyown/protocol/protocol.py:107-122`)

Time is counted in milliseconds.  What the gateway is going to say is the list of the messages it sends, each with the time at
which it is in the receive queue, in the order of arrival.

Simplifications.
* Only waiting takes time: between two waits a call takes none.
* A message that arrives at the very moment at which a timeout expires is too late; it stays in the queue.  (The
  callback of the timer cancels the task before it has run again, and `Queue.get` then leaves the message where it is.)
-/

open Py

namespace Timed

/-- Messages and their times of arrival.  `protocol.py:93-95`. -/
abbrev Arrivals := List (Nat × Msg)

/-- The client, its clock, and what is going to arrive on its connection.  `client/base.py:56-68`. -/
structure TWorld where
  now : Nat
  arrivals : Arrivals
  /-- as in `World` -/
  started : Bool
  trace : List CAct
  deriving DecidableEq

/-- `read_message(timeout)` (`client/base.py:225-241`); `none` is a call that never ends.  A message already in the queue is
returned at once, whatever the timeout: `Queue.get` does not suspend. -/
def read (timeout : Option Nat) (t : TWorld) : Option (Except Err Msg × TWorld) :=
  if !t.started then some (.error .invalidSession, t)
  else
    match t.arrivals, timeout with
    | [], none => none
    | [], some d => some (.error .timeoutError, { t with now := t.now + d })
    | (a, m) :: rest, none =>
      some (.ok m, { t with now := max t.now a, arrivals := rest, trace := t.trace ++ [.got m] })
    | (a, m) :: rest, some d =>
      if a ≤ t.now ∨ a < t.now + d then
        some (.ok m, { t with now := max t.now a, arrivals := rest, trace := t.trace ++ [.got m] })
      else some (.error .timeoutError, { t with now := t.now + d })

/-- The default timeout of `read_message`, and the one of `start` (`client/base.py:108`, `:225`). -/
def limit : Nat := 5000

/-- What calls of `read_message()` find which are made one right after the other, up to the first that times out.
`client/base.py:225-241`. -/
def inboxOf (now : Nat) : Arrivals → List InEv
  | [] => [.silence]
  | (a, m) :: rest => if a < now + limit then .msg m :: inboxOf (max now a) rest else [.silence]

/-- The time, and what is still to arrive, after `n` of these calls.  `client/base.py:225-241`. -/
def pass (now : Nat) (as : Arrivals) : Nat → Nat × Arrivals
  | 0 => (now, as)
  | n + 1 =>
    match as with
    | [] => (now + limit, [])
    | (a, m) :: rest => if a < now + limit then pass (max now a) rest n else (now + limit, (a, m) :: rest)

/-- A call on a clock.  The calls of the library do not go on reading after a read that timed out, so the events up to there are
all they can see; the clock stands where the last read ended.  The parameter is a coroutine (`M α`) or a generator
consumed to its end (`Gen β`).  Calls of `client/base.py:81-241` and of the items. -/
def call {ρ : Type} (f : World → ρ × World) (t : TWorld) : ρ × TWorld :=
  let inbox := inboxOf t.now t.arrivals
  let r := f ⟨[], t.started, inbox, t.trace⟩
  let p := pass t.now t.arrivals (inbox.length - r.2.inbox.length)
  (r.1, ⟨p.1, p.2, r.2.started, r.2.trace⟩)

/-! ## Sending -/

/-- `OWNProtocol.send_message(msg, delay)` called at `at_` (`protocol/protocol.py:107-122`): the time at which the message is
written when the lock is held at the times `locked`, looked at `fuel` times; `none` if it was held each time. -/
def writeTime (locked : Nat → Bool) (delay : Nat) (at_ : Nat) : Nat → Option Nat
  | 0 => none
  | fuel + 1 => if locked at_ then writeTime locked delay (at_ + delay) fuel else some at_

end Timed
