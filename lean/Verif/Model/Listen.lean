import Verif.Model.Loops
import Verif.Model.Socket

/-!
# From `start()` to `loop()` (`pyown/client/base.py:81-139`, `pyown/client/client.py:79-143`)

Both read from one queue, that of the protocol (`pyown/protocol/protocol.py:41`).
-/

open Py

namespace Socket

/-- The client after `start()`: the transport is open, no item is made, and what was received and not read is still in the
queue.  `client/base.py:81-139`, `protocol.py:41`, `:95`, `:130`. -/
def started (cfg : Config) (t : Timed.TWorld) : Events.Many :=
  ⟨{ Events.State.init cfg.session 0 with queue := t.arrivals.map (·.2) }, fun _ => .none⟩

end Socket
