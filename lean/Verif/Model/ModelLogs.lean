import Verif.Model.Events
import Verif.Model.Logs

/-!
# What is logged about the model of a gateway (`pyown/items/gateway/gateway.py:51-59`)

The log calls of `GatewayModel._missing_`, beside the functions of `Verif/Model/Gateway.lean` and `Verif/Model/Events.lean`.  The
result of `_missing_` is not kept by `enum`, so that it is called again for every answer.
-/

open Py

namespace ModelLogs
open M

/-- A log call of `_missing_`.  `items/gateway/gateway.py:57-58`. -/
inductive Rec where
  /-- "The gateway model ... was not found in the known models." (`:57`) -/
  | unknownModel (code : Str)
  /-- "Please, open an issue on GitHub, attach the logs and the model name." (`:58`) -/
  | pleaseReport
  deriving DecidableEq, Repr

/-- The method of `log` each is made with.  `items/gateway/gateway.py:57-58`. -/
def Rec.level : Rec → Logs.Level
  | unknownModel _ | pleaseReport => .warning

/-- The text of each.  `items/gateway/gateway.py:57-58`. -/
def Rec.text : Rec → Str
  | unknownModel code => cs!"The gateway model " ++ code ++ cs!" was not found in the known models."
  | pleaseReport => cs!"Please, open an issue on GitHub, attach the logs and the model name."

/-- `GatewayModel(s)` and what it logs (`items/gateway/gateway.py:41-59`). -/
def ofStr (s : Str) : GatewayModel × List Rec :=
  match GatewayModel.all.find? (fun m => m.code == s) with
  | some m => (m, [])
  | none => (.generic, [.unknownModel s, .pleaseReport])

/-- `get_model` and what it logs (`items/gateway/gateway.py:293-308`). -/
def getModel (cfg : Config) (message : Option Msg) : M (GatewayModel × List Rec) := do
  let resp ← Gateway.response cfg WhatGateway.deviceType message
  lift ((Gateway.valueAt resp.values 0).map ofStr)

/-- What `Gateway.call_callbacks` logs in this way about a message (`items/gateway/gateway.py:462-516`, `:494-495`). -/
def event (item : Events.Obj) : Msg → List Rec
  | .dimWrite _ _ dim vs | .dimResp _ _ dim vs =>
    if item.cls = .gateway ∧ dim.string = WhatGateway.deviceType then
      match Gateway.valueAt vs 0 with
      | .ok s => (ofStr s).2
      | .error _ => []
    else []
  | _ => []

end ModelLogs
