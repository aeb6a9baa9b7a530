import Verif.Model.Timed
import Verif.Spec.History

/-!
# Time (specification)
-/

open Timed

namespace Spec

/-- The time of the last of these arrivals, for somebody who waits for them from `now` on. -/
def lastAt (now : Nat) (as : Arrivals) : Nat := as.foldl (fun t p => max t p.1) now

/-- Never five seconds without a message, from `now` to the last of these. -/
def Steady : Nat → Arrivals → Prop
  | _, [] => True
  | now, (a, _) :: rest => a < now + 5000 ∧ Steady (max now a) rest

/-- No message within five seconds from `now`. -/
def Quiet (now : Nat) (as : Arrivals) : Prop := ∀ a m rest, as = (a, m) :: rest → now + 5000 ≤ a

/-- On a started client the call takes some of the messages that arrive, in order, and either it ends without waiting longer, or it
waits for a further one, does not get it, and raises `TimeoutError`; otherwise it does not raise `TimeoutError`.
`raised` is the exception the call ends with. -/
def Patient {ρ : Type} (raised : ρ → Option Err) (f : World → ρ × World) : Prop :=
  ∀ w, w.started = true → ∃ taken rest acts, w.inbox = taken.map InEv.msg ++ rest ∧
    (f w).2.trace = w.trace ++ acts ∧ gotten acts = taken ∧ (f w).2.started = true ∧
    ((f w).2.inbox = rest ∧ raised (f w).1 ≠ some .timeoutError ∨
      raised (f w).1 = some .timeoutError ∧ (∀ m r, rest ≠ .msg m :: r) ∧ (f w).2.inbox = rest.drop 1)

/-- The same on a clock.  The call lasts until the last message it takes, which are never five seconds apart, or, if then
nothing comes for five seconds, until these are over, and raises `TimeoutError` in this case only. -/
def Punctual {ρ : Type} (raised : ρ → Option Err) (f : World → ρ × World) : Prop :=
  ∀ t : TWorld, t.started = true → ∃ taken rest acts, t.arrivals = taken ++ rest ∧ Steady t.now taken ∧
    (call f t).2.trace = t.trace ++ acts ∧ gotten acts = taken.map (·.2) ∧ (call f t).2.started = true ∧
    (call f t).2.arrivals = rest ∧
    (raised (call f t).1 ≠ some .timeoutError ∧ (call f t).2.now = lastAt t.now taken ∨
      raised (call f t).1 = some .timeoutError ∧ Quiet (lastAt t.now taken) rest ∧
        (call f t).2.now = lastAt t.now taken + 5000)

/-- The exception of a coroutine. -/
def raisedBy {α : Type} : Except Err α → Option Err
  | .ok _ => none
  | .error e => some e

/-- The exception of a generator consumed to its end. -/
def raisedByGen {β : Type} (r : List β × Except Err Unit) : Option Err := raisedBy r.2

end Spec
