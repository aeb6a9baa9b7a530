import Verif.Spec.Toggle

/-!
# A program that wants to know which lamps are on

The gateway reports the lamps that are switched to the event session; the program asks once, and keeps a table.
-/

open Py

namespace Spec

/-- The gateway reports, for the frames it carries out: at least the lamps that went on or off, each as it is then. -/
inductive Broadcasts : List Handled → List (Str × Bool) → Prop
  | nil : Broadcasts [] []
  | cons {g : Handled} {G : List Handled} {now later : List (Str × Bool)} :
      (∀ c ∈ now, c.2 = lit (g.after.lamp c.1)) →
      (∀ p ∈ g.before.lamps, lit (g.before.lamp p) ≠ lit (g.after.lamp p) → p ∈ now.map (·.1)) →
      Broadcasts G later → Broadcasts (g :: G) (now ++ later)

/-- A program that asks one question. -/
def asks (a : Str) : Plan := .call (.light a) fun _ => .stop

/-- What the answer says of a lamp. -/
def answered (ys : List (Tag × Bool)) (q : Str) : Option Bool := (ys.find? fun y => decide (y.1.string = q)).map (·.2)

end Spec
