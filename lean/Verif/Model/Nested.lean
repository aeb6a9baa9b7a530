import Verif.Model.Examples
import Verif.Model.Queries

/-!
# Commands given while the replies of a query are being read

`async for where, on in group.get_status(): await act(where, on)`.  The generators of the library send their request and then
read one reply per round (`items/base.py:224-238`), so that the body of the caller's loop runs between two reads; the commands
of the body read from the same queue (`items/base.py:209-213`).
-/

namespace Nested

open M

/-- The caller's loop over the replies: one reply is read (`items/base.py:227-238`), the getter's body turns it into values
(`lighting/light.py:68-72`), and the caller's body `act` runs for each of them before the next reply is read.  The last test
is never false for the commands of the library, which only take from the queue; it makes the recursion well founded. -/
def rounds {β : Type} (want : Msg → Bool) (body : Msg → Except Err (List β)) (act : β → M Unit) (w : World) :
    Except Err Unit × World :=
  match _h : Item.nextReply want w with
  | (.error e, w') => (.error e, w')
  | (.ok none, w') => (.ok (), w')
  | (.ok (some m), w') =>
    match body m with
    | .error e => (.error e, w')
    | .ok ys =>
      match Examples.perform (ys.map act) w' with
      | (.error e, w'') => (.error e, w'')
      | (.ok (), w'') =>
        if _h' : w''.inbox.length ≤ w'.inbox.length then rounds want body act w''
        else (.error .timeoutError, w'')
termination_by w.inbox.length
decreasing_by exact Nat.lt_of_le_of_lt _h' (Item.nextReply_shrinks _h)

/-- `async for x in item.get_status(): await act(x)`: the request (`items/base.py:224-225`), then the loop. -/
def whileReading {β : Type} (cfg : Config) (i : Item) (body : Msg → Except Err (List β)) (act : β → M Unit) : M Unit := fun w =>
  match Client.sendMessage cfg i.statusMessage false w with
  | (.error e, w') => (.error e, w')
  | (.ok (), w') => rounds Msg.isNormal body act w'

/-- `xs = [x async for x in item.get_status()]`, and then `for x in xs: await act(x)`: the query is read to its end before the
first command (`items/base.py:215-238`, `:200-213`). -/
def afterReading {β : Type} (cfg : Config) (i : Item) (body : Msg → Except Err (List β)) (act : β → M Unit) : M Unit := fun w =>
  match Item.statusStream cfg i body w with
  | ((_, .error e), w') => (.error e, w')
  | ((ys, .ok ()), w') => Examples.perform (ys.map act) w'

end Nested
