import Verif.Model.Loops
import Verif.Spec.Events

/-! # What happens to the events a client receives, whatever its loops -/

open Py Events

namespace Spec

/-- The messages in the packets of a history, in order, until the connection ends. -/
def arrived : List Act → List Msg
  | [] => []
  | .packet d :: h =>
    match Protocol.packetMessages d with
    | .ok ms => ms ++ arrived h
    | .error _ => []
  | .lost :: _ => []
  | .close :: _ => []
  | _ :: h => arrived h

/-- The callbacks a history registers for `slot`, in order. -/
def enrolled (slot : Slot) : List Act → List Cb
  | [] => []
  | .register c m cb :: h => if slotOf c m = some slot then cb :: enrolled slot h else enrolled slot h
  | _ :: h => enrolled slot h

/-- An account of a history: which message was handled when, a moment being the history before it.  Every message received
is handled once or still in the queue, the moments follow the order of arrival, at each of them a loop is called or resumed,
and what was started is what the messages start with the callbacks registered at these moments. -/
structure Account (py : Python) (call : Call) (h : List Act) (s : State) (log : List (List Act × Msg)) : Prop where
  once : log.map (·.2) ++ s.queue = arrived h
  order : log.Pairwise fun a b => a.1 <+: b.1
  moment : ∀ e ∈ log, ∃ id, e.1 ++ [.resume id] <+: h ∨ ∃ client, e.1 ++ [.loop id client] <+: h
  trace : s.trace = log.flatMap fun e => begun py call (fun k => enrolled k e.1) s e.2
  /-- the items of the messages are known then, where there can be one -/
  items : ∀ e ∈ log, ∀ who wher, e.2.who = some who → e.2.wher = some wher → (classOf who.code).isSome →
    Placed who wher.string → (itemFor s e.2).isSome

/-- The `id`-th loop is suspended, waiting for a message. -/
def Suspended (s : Many) (id : Nat) : Prop := ∃ client, s.loops id = .called client .waiting

/-- The `id`-th call of `loop()` in this history was given that client. -/
def Runs (h : List Act) (id client : Nat) : Prop := ∃ h', h' ++ [.loop id client] <+: h ∧ ∀ c, .loop id c ∉ h'

/-- `a` is something done for `client` about the item `k`: a `get_item` naming the two, or a run of a loop of this client
(called by `a`, or called in `h` and resumed by `a`). -/
def DoneFor (h : List Act) (a : Act) (k : Who × Str) (client : Nat) : Prop :=
  (∃ wher, a = .getItem k.1 wher client ∧ wher.string = k.2) ∨
  ∃ id, Runs (h ++ [a]) id client ∧ (a = .loop id client ∨ a = .resume id)

/-- The acts of a history with one loop. -/
def single (client : Nat) : Step → Act
  | .packet d => .packet d
  | .lost => .lost
  | .close => .close
  | .register c m cb => .register c m cb
  | .getItem who wher cl => .getItem who wher cl
  | .loop => .loop 0 client
  | .resume => .resume 0

end Spec
