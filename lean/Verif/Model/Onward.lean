import Verif.Model.Timed

/-!
# A program that goes on after a failed command

`for cmd, pause in plan: try: await cmd() except (TimeoutError, ResponseError): ... ; await asyncio.sleep(pause)`, on the clock of
`Verif.Model.Timed`.  The library leaves the connection open after a timeout (`client/base.py:225-241`), so the answer that did not
come in time is still put into the queue when it arrives (`protocol/protocol.py:64-96`).
-/

namespace Onward

open Timed

/-- The commands one after the other, each with a pause in milliseconds after it; for each, when it was given and how it ended
(`items/base.py:200-213`, `client/base.py:225-249`). -/
def onward : List (M Unit × Nat) → TWorld → List (Nat × Except Err Unit) × TWorld
  | [], t => ([], t)
  | (cmd, pause) :: plan, t =>
    let r := call cmd t
    let rs := onward plan { r.2 with now := r.2.now + pause }
    ((t.now, r.1) :: rs.1, rs.2)

end Onward
