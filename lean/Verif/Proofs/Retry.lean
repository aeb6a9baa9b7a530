import Verif.Model.Retry
import Verif.Spec.Replies

namespace Retry

open Py Spec M

/-- What an attempt does if it is not answered in time. -/
theorem retry_step {cfg : Config} {cmd : M Unit} {f : Str} (hs : Sends cfg cmd f) (again : M Unit) (n : Nat) {w : World}
    (hw : Ready cfg w) {rest : List InEv} (ha : Answer w.inbox (.error .timeoutError) rest []) :
    attempts again cmd (n + 1) w = (do again; attempts again cmd n) (w.after rest [.sent f]) := by
  have h := (hs w).1 hw _ _ _ ha
  conv_lhs => unfold attempts
  rw [h]

/-- What an attempt does if it is answered. -/
theorem retry_end {cfg : Config} {cmd : M Unit} {f : Str} (hs : Sends cfg cmd f) (again : M Unit) (n : Nat) {w : World}
    (hw : Ready cfg w) {r : Except Err Unit} {rest : List InEv} {acts : List CAct} (ha : Answer w.inbox r rest acts)
    (hr : r ≠ .error .timeoutError ∨ n = 0) : attempts again cmd n w = (r, w.after rest (.sent f :: acts)) := by
  have h := (hs w).1 hw _ _ _ ha
  cases n with
  | zero => exact h
  | succ n =>
    have hr := hr.resolve_right (by simp)
    unfold attempts
    rw [h]
    split
    · rename_i heq
      cases heq
      exact absurd rfl hr
    · rfl

end Retry
