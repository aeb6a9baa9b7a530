import Verif.Model.Cost
import Verif.Model.Protocol

/-!
# Cost of receiving a packet
-/

open Py

/-- Character tests made by `[parse_message(msg + "##") for msg in pieces if msg]`: the first frame that does not parse is the
last one tried (`protocol.py:82`). -/
def pieceTests : List Str → Nat
  | [] => 0
  | p :: ps =>
    if p = [] then pieceTests ps
    else
      match parseMessage (p ++ cs!"##") with
      | .ok _ => parseTests (p ++ cs!"##") + pieceTests ps
      | .error _ => parseTests (p ++ cs!"##")

/-- Character tests made by the regular expressions in `data_received` (`protocol.py:74-85`). -/
def packetTests (data : List UInt8) : Nat :=
  match Protocol.decodeAscii data with
  | .ok t => pieceTests (split2 '#' '#' (strip t))
  | .error _ => 0
