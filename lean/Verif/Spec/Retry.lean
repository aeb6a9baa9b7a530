import Verif.Spec.Programs

/-!
# A gateway that is slow to answer
-/

open Py

namespace Spec.Retry

/-- The messages that arrive on a connection, in order, whenever they do. -/
def messages (inbox : List InEv) : List Msg := inbox.filterMap fun
  | .msg m => some m
  | .silence => none

/-- How often the frame was written. -/
def times (f : Str) (acts : List CAct) : Nat := acts.count (.sent f)

/-- A connection on which the login succeeds and the command is not answered in time: what the gateway says in the login, what
the client does for it, and what comes too late. -/
structure Slow (cfg : Config) where
  said : List Msg
  acts : List CAct
  late : List InEv
  login : Handshake cfg said acts

/-- What arrives on such a connection. -/
def Slow.arrives {cfg : Config} (s : Slow cfg) : Option (List InEv) := some (s.said.map .msg ++ .silence :: s.late)

/-- What a client does on it that writes the frame once. -/
def Slow.does {cfg : Config} (f : Str) (s : Slow cfg) : List CAct := .connected :: (s.acts ++ [.sent f])

/-- The answer of the gateway to a command, as its outcome. -/
def verdict (a : Msg) : Except Err Unit := if a = .ack then .ok () else .error .responseError

end Spec.Retry
