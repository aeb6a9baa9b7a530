import Verif.Spec.Handshake
import Verif.Spec.Replies
import Verif.Spec.Queries
import Verif.Model.Examples

/-!
# Whole conversations
-/

open Py

namespace Spec

/-- Frames written one after the other, each followed by its ACK. -/
def acknowledged (frames : List Str) : List CAct := frames.flatMap fun f => [.sent f, .got .ack]

/-- The next connection: `said` is the gateway's part of a successful handshake that does `acts`; then comes `tail`. -/
structure Opens (cfg : Config) (w : World) (acts : List CAct) (tail : List InEv) (net : List (Option (List InEv))) : Prop where
  said : ∃ said, w.network = some (said.map .msg ++ tail) :: net ∧ Handshake cfg said acts

/-- The world in which a conversation was held that is over, or not. -/
def conversed (w : World) (net : List (Option (List InEv))) (still : Bool) (rest : List InEv) (acts : List CAct) : World :=
  ⟨net, still, rest, w.trace ++ .connected :: acts⟩

/-- Questions that are all answered: each frame, the responses to it, and an ACK; the first response gives the line. -/
inductive Answered (cfg : Config) : List (M Examples.Line) → List InEv → List InEv → List Examples.Line → List CAct → Prop
  | nil (rest : List InEv) : Answered cfg [] rest rest [] []
  | cons {g : M Examples.Line} {text : Str} {decode : List Tag → Except Err Examples.Line} {first : Msg} {others : List Msg}
      {l : Examples.Line} {gs : List (M Examples.Line)} {inbox rest : List InEv} {ls : List Examples.Line} {acts : List CAct} :
      Asks cfg g text decode → (∀ m ∈ first :: others, DimReply m) → decode first.values = .ok l →
      Answered cfg gs inbox rest ls acts →
      Answered cfg (g :: gs) ((first :: others).map .msg ++ .msg .ack :: inbox) rest (l :: ls)
        (.sent text :: ((first :: others).map .got ++ .got .ack :: acts))

/-- What makes `custom_message_01` give up: silence, a refusal, or a reply without the ACK that belongs to it; and the messages
it took. -/
inductive GivesUp : List InEv → List Msg → Prop
  | nothing : GivesUp [] []
  | silent (rest : List InEv) : GivesUp (.silence :: rest) []
  | refused (rest : List InEv) : GivesUp (.msg .nack :: rest) [.nack]
  | alone (m : Msg) : m ≠ .nack → GivesUp [.msg m] [m]
  | unfinished (m : Msg) (rest : List InEv) : m ≠ .nack → GivesUp (.msg m :: .silence :: rest) [m]
  | other (m s : Msg) (rest : List InEv) : m ≠ .nack → s ≠ .ack → GivesUp (.msg m :: .msg s :: rest) [m, s]

/-- A response with a measure: the dimension is `DIM#month#day`, and there are two values at least. -/
inductive Measure : Tag → List Tag → Str → Str → Str → Str → Prop
  | mk (dim month day : Str) (more : Str) (t v : Tag) (vs : List Tag) : '#' ∉ dim → '#' ∉ month → '#' ∉ day →
      (more = [] ∨ ∃ x, more = '#' :: x) →
      Measure ⟨dim ++ '#' :: (month ++ '#' :: (day ++ more))⟩ (t :: v :: vs) month day t.string v.string

/-- What a message adds to the output of `custom_message_02`: a measure is shown, and what is neither a response nor the ACK
is passed over. -/
inductive Shown : Msg → List Examples.Line → Prop
  | measure (wo : Who) (we d : Tag) (vs : List Tag) (month day tag value : Str) : Measure d vs month day tag value →
      Shown (.dimResp wo we d vs) [.measure month day tag value]
  | other (m : Msg) : m ≠ .ack → ¬ DimReply m → Shown m []

/-- The end of the stream of `custom_message_02`: an ACK or silence. -/
inductive Ceases : List InEv → List InEv → List CAct → Prop
  | acknowledged (rest : List InEv) : Ceases (.msg .ack :: rest) rest [.got .ack]
  | silent (rest : List InEv) : Ceases (.silence :: rest) rest []
  | nothing : Ceases [] [] []

end Spec
