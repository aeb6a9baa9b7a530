import Verif.Spec.Toggle

/-!
# Programs that want to know how several lamps are at one moment
-/

open Py

namespace Spec

/-- The house before, between and after the frames the gateway carries out. -/
def moments (h : House) (G : List Handled) : List House := h :: G.map (·.after)

/-- Ask lamps one after the other. -/
def asksEach : List Str → Plan
  | [] => .stop
  | t :: ts => .call (.light t) fun _ => asksEach ts

/-- The answers, if all lamps are asked at one moment. -/
def shows (m : House) (ts : List Str) : List (Deed × Outcome) :=
  ts.map fun t => (.light t, .light [(⟨t⟩, lit (m.lamp t))] (.ok ()))

end Spec
