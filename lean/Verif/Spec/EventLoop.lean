import Verif.Model.EventLoop
import Verif.Spec.Events

/-!
# What a program of rules receives, and how the gateway answers it
-/

namespace Spec.EventLoop

open _root_.EventLoop

/-- The messages in a packet. -/
def messages (d : List UInt8) : List Msg :=
  match Protocol.packetMessages d with
  | .ok ms => ms
  | .error _ => []

/-- The messages received on the connection that listens, in order. -/
def heard (evs : List Ev) : List Msg := evs.flatMap fun | .select (.listen d) => messages d | _ => []

/-- The messages received on the connection for commands, in order. -/
def replies (evs : List Ev) : List Msg := evs.flatMap fun | .select (.answer ms) => ms | _ => []

/-- All packets on the connection that listens are well-formed, and energy events come from documented addresses. -/
def Sane (evs : List Ev) : Prop :=
  ∀ d, .select (.listen d) ∈ evs → ∃ ms, Protocol.packetMessages d = .ok ms ∧ ∀ m ∈ ms, Spec.Harmless m

/-- The commands sent, in order. -/
def commands (s : State) : List Msg := s.requests.sent.map (·.2)

/-- At every moment, what the gateway has said is a beginning of its answers to the commands sent so far, in order; `answer k`
is the one to the command of the `k`-th call. -/
def InOrder (history : List Ev → State) (answer : Nat → Msg) (evs : List Ev) : Prop :=
  ∀ pre, pre <+: evs → replies pre <+: (history pre).requests.sent.map fun x => answer x.1

/-- No callback is begun while a task that awaits an answer has been woken and has not run. -/
def Undisturbed (history : List Ev → State) (evs : List Ev) : Prop :=
  ∀ pre k hs, pre ++ [.run] <+: evs → (history pre).ready = .task k :: hs → (history pre).requests.woken = []

/-- What a command reports on this answer. -/
def report (m : Msg) : Except Err Unit := if m = .ack then .ok () else .error .responseError

end Spec.EventLoop
