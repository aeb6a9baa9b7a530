import Verif.Model.Protocol
import Verif.Model.Timed

/-!
# From bytes to bytes: the protocol below a client on a clock (`pyown/protocol/protocol.py:64-95`, `:107-122`)

What the gateway is going to write is a list of packets, each with the time at which `data_received` is called with it.
-/

open Py

namespace Socket

/-- Packets and the times at which they come.  `protocol.py:64`. -/
abbrev Packets := List (Nat × List UInt8)

/-- What comes out of the receive queue, and when (`protocol.py:64-95`): all messages of a packet are there when the packet is.
A packet that raises closes the connection (as in `Protocol.receiveAll`). -/
def arrivals : Packets → Timed.Arrivals
  | [] => []
  | (t, d) :: ps =>
    match Protocol.packetMessages d with
    | .ok ms => ms.map (fun m => (t, m)) ++ arrivals ps
    | .error _ => []

/-- A client that has just been connected, at the time `now` (`client/base.py:88-103`). -/
def client (now : Nat) (ps : Packets) : Timed.TWorld := ⟨now, arrivals ps, true, []⟩

/-- The bytes given to the transport (`protocol.py:115`, `:121`). -/
def bytesOut : List CAct → List UInt8
  | [] => []
  | .sent s :: acts => s.map (fun c => c.toNat.toUInt8) ++ bytesOut acts
  | _ :: acts => bytesOut acts

end Socket
