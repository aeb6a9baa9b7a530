import Verif.Model.Logs

/-!
# The log of a connection, from what happened on it
-/

open Py

namespace Spec
open Logs

/-- How a message is logged in passing. -/
def noted : CAct → Option Record
  | .got m => some (.received m)
  | .sent text => some (.sent text)
  | _ => none

/-- What a reader of the log learns of the traffic. -/
def learnt : Record → Option CAct
  | .received m => some (.got m)
  | .sent text => some (.sent text)
  | _ => none

/-- What the answer to the session request is announced as. -/
def announced (resp : Msg) : List Record :=
  if resp = .ack then [.noAuthentication]
  else if resp.tags.length = 1 then [.usingOpen]
  else if resp.tags.head? = some cs!"98" then [.usingHmac]
  else []

/-- The log of a call of `start`, from the traffic of the call and whether it returned. -/
def logOf : List CAct → Bool → List Record
  | .connected :: .got m :: .sent text :: .got resp :: more, returned =>
    [.connectionMade, .connectionStarted, .received m, .startingHandshake, .sent text, .received resp] ++ announced resp ++
      more.filterMap noted ++ (if returned then [.ready] else [])
  | [.connected, .got m, .sent text], _ =>
    [.connectionMade, .connectionStarted, .received m, .startingHandshake, .sent text]
  | [.connected, .got m], _ => [.connectionMade, .connectionStarted, .received m]
  | [.connected], _ => [.connectionMade, .connectionStarted]
  | _, _ => []

/-- What is shown at INFO and above, from what the gateway will say and whether `start` returned. -/
def shownOf : List (Option (List InEv)) → Bool → List Record
  | some (.msg .ack :: .msg resp :: _) :: _, returned =>
    [.connectionMade] ++ announced resp ++ (if returned then [.ready] else [])
  | some _ :: _, _ => [.connectionMade]
  | _, _ => []

end Spec
