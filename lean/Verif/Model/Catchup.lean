import Verif.Model.Timed

/-!
# A program that reads until nothing comes, after a timeout

`while True: try: await client.read_message(timeout=d) except TimeoutError: break`, after each command that raised `TimeoutError`,
on the clock of `Verif.Model.Timed`.  `read_message` is public (`client/base.py:225-241`), and takes what a command that timed out
(`items/base.py:200-213`) did not wait for.
-/

namespace Catchup

open Timed

/-- At most `n` calls of `read_message(timeout=d)`, up to the first that raises (`client/base.py:225-241`). -/
def reads (d : Nat) : Nat → TWorld → TWorld
  | 0, t => t
  | n + 1, t =>
    match read (some d) t with
    | some (.ok _, u) => reads d n u
    | some (.error _, u) => u
    | none => t

/-- As many as it takes: each call but the last takes a message (`client/base.py:225-241`). -/
def discard (d : Nat) (t : TWorld) : TWorld := reads d (t.arrivals.length + 1) t

/-- The commands one after the other, each with a pause after it; after a `TimeoutError` the program reads until nothing comes for
`d` milliseconds.  For each command, when it was given and how it ended (`items/base.py:200-213`, `client/base.py:225-249`). -/
def careful (d : Nat) : List (M Unit × Nat) → TWorld → List (Nat × Except Err Unit) × TWorld
  | [], t => ([], t)
  | (cmd, pause) :: plan, t =>
    let r := call cmd t
    let u := match r.1 with
      | .error .timeoutError => discard d r.2
      | _ => r.2
    let rs := careful d plan { u with now := u.now + pause }
    ((t.now, r.1) :: rs.1, rs.2)

end Catchup
