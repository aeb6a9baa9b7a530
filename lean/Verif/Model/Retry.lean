import Verif.Model.Client

/-!
# Commands that are tried again

`for _ in range(n): try: return await cmd() except TimeoutError: await again()`, and a last `await cmd()`.  The library has
nothing for this; a command raises `TimeoutError` when five seconds pass without an answer (`client/base.py:217-249`,
`items/base.py:200-213`).  `again` is nothing, or `client.start()` (`client/base.py:81-139`).
-/

namespace Retry

open M

/-- Up to `n + 1` attempts (`items/base.py:200-213`, `client/base.py:217-249`). -/
def attempts (again cmd : M Unit) : Nat → M Unit
  | 0 => cmd
  | n + 1 => fun w =>
    match cmd w with
    | (.error .timeoutError, w') => (do again; attempts again cmd n) w'
    | r => r

/-- On the same connection (`items/base.py:200-213`). -/
def plainly (cmd : M Unit) (n : Nat) : M Unit := attempts (return ()) cmd n

/-- With a new connection for each further attempt (`client/base.py:81-139`). -/
def anew (cfg : Config) (cmd : M Unit) (n : Nat) : M Unit := attempts (Client.start cfg) cmd n

end Retry
