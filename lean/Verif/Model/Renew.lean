import Verif.Model.Timed

/-!
# A program that connects again after a timeout

`try: await item.cmd() except TimeoutError: await client.close(); await client.start()`, for one command after the other, on the clock
of `Verif.Model.Timed`.  `start()` makes a new protocol with a new queue (`client/base.py:81-139`, `protocol/protocol.py:26-43`), so
what arrives later on the connection before is put into a queue nobody reads (`protocol/protocol.py:93-95`).  That the futures of the
client are done by then makes `connection_made` raise after it has set the transport (`protocol/protocol.py:45-51`), which the event
loop hands to a handler that writes it to the log (`client/base.py:261-275`); a new client in place of the old one behaves the same
(C82).

Simplification: `close()` and `start()` are one step, which takes some time and ends with the session open.
-/

namespace Renew

open Timed

/-- A command was given on the connection in use, at this time and with this outcome.  `items/base.py:200-213`. -/
def note (x : Nat × Except Err Unit) : List (List (Nat × Except Err Unit)) → List (List (Nat × Except Err Unit))
  | [] => [[x]]
  | os :: rest => (x :: os) :: rest

/-- The commands one after the other, each with a pause after it; after a `TimeoutError` the next of `conns` is opened: how long that
takes, and what arrives on it.  The program ends when there is none.  For each connection, when the commands on it were given and
how they ended (`items/base.py:200-213`, `client/base.py:81-139, 225-249`). -/
def renewing : List (M Unit × Nat) → List (Nat × Arrivals) → TWorld → List (List (Nat × Except Err Unit))
  | [], _, _ => [[]]
  | (cmd, pause) :: plan, conns, t =>
    match call cmd t with
    | (.error .timeoutError, u) =>
      match conns with
      | [] => [[(t.now, .error .timeoutError)]]
      | (d, as) :: conns =>
        [(t.now, .error .timeoutError)] :: renewing plan conns ⟨u.now + d + pause, as, true, u.trace⟩
    | (r, u) => note (t.now, r) (renewing plan conns { u with now := u.now + pause })

end Renew
