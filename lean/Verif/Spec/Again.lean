import Verif.Spec.Retry
import Verif.Spec.Toggle

/-!
# An order that is given again, in a house that others use
-/

open Py

namespace Spec

/-- A frame, and whose it is. -/
def Handled.frame (g : Handled) : Nat × Str := (g.client, g.text)

/-- Give an order; after a timeout give it again, up to `n` times. -/
def gives (c : Cmd) (t : Str) : Nat → Plan
  | 0 => .call (.order c t) fun _ => .stop
  | n + 1 => .call (.order c t) fun o =>
    match o with
    | .order (.error .timeoutError) => gives c t n
    | _ => .stop

/-- Programs in one house, each with its own client: the gateway carries out the frames `G` one at a time, and no call times out
but those of client `c`. -/
structure Sharing (cfg : Nat → Config) (w : Nat → World) (p : Nat → Plan) (h : House) (G : List Handled) (c : Nat) : Prop where
  sound : h.Sound
  ready : ∀ k, Ready (cfg k) (w k)
  chain : Chain h G
  served : ∀ k, ∃ acts, ((p k).run (cfg k) (w k)).2.trace = (w k).trace ++ acts ∧ ServedBy (G.filter (·.client = k)) acts
  fits : ∀ k, ∀ x ∈ ((p k).run (cfg k) (w k)).1, x.1.Fits h
  inTime : ∀ k ≠ c, ∀ x ∈ ((p k).run (cfg k) (w k)).1, ¬ x.2.late

end Spec
