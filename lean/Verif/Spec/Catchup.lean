import Verif.Spec.Retry

/-!
# Commands that are told their own answers, or nothing
-/

namespace Spec.Catchup

/-- The answer to an order arrives after the order was given, and at most `d` milliseconds after it has timed out. -/
def Within (d : Nat) (order : Nat × Except Err Unit) (answer : Nat × Msg) : Prop :=
  order.1 ≤ answer.1 ∧ answer.1 < order.1 + 5000 + d

/-- The order is told this answer if it arrived within five seconds, and that there was none otherwise. -/
def Own (order : Nat × Except Err Unit) (answer : Nat × Msg) : Prop :=
  order.2 = if answer.1 < order.1 + 5000 then Spec.Retry.verdict answer.2 else .error .timeoutError

end Spec.Catchup
