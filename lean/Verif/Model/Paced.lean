import Verif.Model.Timed

/-!
# Commands that are tried again after a pause

`for _ in range(n): try: return await cmd() except TimeoutError: await asyncio.sleep(pause)`, and a last `await cmd()`, on the clock
of `Verif.Model.Timed`.  The library has nothing for this; a command raises `TimeoutError` when five seconds pass without an answer
(`client/base.py:225-249`, `items/base.py:200-213`).  Messages that arrive in a pause are put into the queue
(`protocol/protocol.py:64-96`).
-/

namespace Paced

open Timed

/-- Up to `n + 1` attempts, with a pause in milliseconds after each that times out (`items/base.py:200-213`,
`client/base.py:225-249`). -/
def attempts (pause : Nat) (cmd : M Unit) : Nat → TWorld → Except Err Unit × TWorld
  | 0, t => call cmd t
  | n + 1, t =>
    match call cmd t with
    | (.error .timeoutError, u) => attempts pause cmd n { u with now := u.now + pause }
    | r => r

end Paced
