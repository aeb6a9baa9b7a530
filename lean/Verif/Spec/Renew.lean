import Verif.Spec.Retry
import Verif.Model.Timed

/-!
# Commands on several connections, and what each is told
-/

namespace Spec.Renew

open Timed

/-- On one connection each command is told the message that arrived for it, in order and within five seconds of being given; only the
last may have timed out, and then no message was there for it within five seconds. -/
inductive Kept : List (Nat × Except Err Unit) → Arrivals → Prop
  | done (as : Arrivals) : Kept [] as
  | answered (given : Nat) (os : List (Nat × Except Err Unit)) (a : Nat) (m : Msg) (as : Arrivals) : a < given + 5000 → Kept os as →
      Kept ((given, Spec.Retry.verdict m) :: os) ((a, m) :: as)
  | late (given : Nat) (as : Arrivals) : (∀ a m rest, as = (a, m) :: rest → given + 5000 ≤ a) →
      Kept [(given, .error .timeoutError)] as

end Spec.Renew
