import Verif.Spec.House

/-!
# Several programs in one house

Every program has a client, and a connection, of its own.  The gateway carries out the frames it gets one at a time, each with its
replies on the connection it came from.
-/

open Py

namespace Spec

/-- A program: what it does next may depend on everything it was told. -/
inductive Plan
  | stop
  | call (d : Deed) (next : Outcome → Plan)

/-- A program runs: its calls, with what they gave. -/
def Plan.run (cfg : Config) : Plan → World → List (Deed × Outcome) × World
  | .stop, w => ([], w)
  | .call d next, w =>
    let x := d.run cfg w
    let y := (next x.1).run cfg x.2
    ((d, x.1) :: y.1, y.2)

/-- The gateway carries out a frame that came from a client. -/
structure Handled where
  client : Nat
  before : House
  text : Str
  after : House
  replies : List Str

/-- What the gateway does, one frame after the other. -/
def Chain : House → List Handled → Prop
  | _, [] => True
  | h, g :: G => g.before = h ∧ h.Hears g.text g.after g.replies ∧ Chain g.after G

/-- A connection on which some frames were carried out: they are the first of those written, and at every moment the messages
received are the first of the replies to the frames written so far. -/
def ServedBy (G : List Handled) (acts : List CAct) : Prop :=
  G.map (·.text) <+: written acts ∧
  ∀ pre, pre <+: acts → ∃ said, said <+: ((G.take (written pre).length).map (·.replies)).flatten ∧
    List.Forall₂ (fun text m => parseMessage text = .ok m) said (gotten pre)

/-- Calls of programs, one after the other, each of which gives what the calls before it call for. -/
def Legal : House → List (Nat × Deed × Outcome) → Prop
  | _, [] => True
  | h, (_, d, o) :: L => o = d.expected h ∧ Legal (d.effect h) L

/-- What client `c` does in an order of all calls. -/
def ofClient (c : Nat) (L : List (Nat × Deed × Outcome)) : List (Deed × Outcome) := (L.filter (·.1 = c)).map (·.2)

/-- Programs take turns in a house: the calls, and what is left of the programs. -/
def turns : (Nat → Plan) → House → List Nat → List (Nat × Deed × Outcome) × (Nat → Plan)
  | ps, _, [] => ([], ps)
  | ps, h, c :: cs =>
    match ps c with
    | .stop => turns ps h cs
    | .call d next =>
      let x := turns (fun k => if k = c then next (d.expected h) else ps k) (d.effect h) cs
      ((c, d, d.expected h) :: x.1, x.2)

end Spec
