import Verif.Model.WireLogs
import Verif.Spec.Grammar

/-!
# What the log of the protocol says
-/

open Py

namespace Spec
open WireLogs (Rec)

/-- The messages a log says have been received, in order. -/
def journal : List Rec → List Msg
  | [] => []
  | .received ms :: l => ms ++ journal l
  | _ :: l => journal l

/-- What went over the wire, or held it up. -/
inductive Wire where
  | data (bytes : List UInt8)
  | paused
  | resumed
  deriving DecidableEq

/-- What a log says about the wire: the sent messages as ASCII, pauses and resumptions. -/
def wire : List Rec → List Wire
  | [] => []
  | .sent t :: l => .data (t.map fun c => c.toNat.toUInt8) :: wire l
  | .paused :: l => .paused :: wire l
  | .resumed :: l => .resumed :: wire l
  | _ :: l => wire l

/-- What the transport has seen, without the numbers of the calls. -/
def wired : Protocol.Act → Wire
  | .wrote _ d => .data d
  | .paused => .paused
  | .resumed => .resumed

/-- The text of the record holds the text `s`. -/
def Quotes (other : Err → Str) (message : Str) (r : Rec) (s : Str) : Prop :=
  ∃ u v, r.text other message = u ++ s ++ v

/-- The texts between the terminators of a packet, white space around the packet removed. -/
def Pieces (text : Str) (ps : List Str) : Prop :=
  strip text = join cs!"##" ps ∧ ∀ p ∈ ps, ¬ HasHH p

end Spec
