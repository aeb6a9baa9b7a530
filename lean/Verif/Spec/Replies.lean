import Verif.Model.Client

/-!
# Reply streams

What a query sees: replies of one kind, and then an end.
-/

/-- The world after `acts` happened on the connection, with `rest` still to arrive. -/
def World.after (w : World) (rest : List InEv) (acts : List CAct) : World :=
  { w with inbox := rest, trace := w.trace ++ acts }

namespace Spec

/-- How the part of the inbox that follows the wanted replies looks, and what a query makes of it: the outcome, what is left
of the inbox, and what it takes from the queue. -/
inductive Ending (wanted : Msg → Prop) : List InEv → Except Err Unit → List InEv → List CAct → Prop
  | acknowledged (rest : List InEv) : Ending wanted (.msg .ack :: rest) (.ok ()) rest [.got .ack]
  | refused (m : Msg) (rest : List InEv) : m ≠ .ack → ¬ wanted m →
      Ending wanted (.msg m :: rest) (.error .responseError) rest [.got m]
  | silent (rest : List InEv) : Ending wanted (.silence :: rest) (.error .timeoutError) rest []
  | nothing : Ending wanted [] (.error .timeoutError) [] []

/-- The client is connected in a session that may send commands. -/
def Ready (cfg : Config) (w : World) : Prop := w.started = true ∧ cfg.session ≠ .event

/-- What a command makes of the inbox: every message is the end of the exchange. -/
abbrev Answer : List InEv → Except Err Unit → List InEv → List CAct → Prop := Ending (fun _ => False)

/-- A command that writes one frame, takes one reply and succeeds exactly on ACK; outside a connected command session it
raises `InvalidSession` and does nothing. -/
def Sends (cfg : Config) (command : M Unit) (text : Str) : Prop :=
  ∀ w, (Ready cfg w → ∀ r rest acts, Answer w.inbox r rest acts → command w = (r, w.after rest (.sent text :: acts))) ∧
    (¬ Ready cfg w → command w = (.error .invalidSession, w))

/-- A command that raises `e` in every state, and sends and reads nothing. -/
def Refuses (command : M Unit) (e : Err) : Prop := ∀ w, command w = (.error e, w)

end Spec
