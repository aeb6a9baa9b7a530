import Verif.Model.ModelLogs

/-! # What a log tells about the model of a gateway -/

namespace Spec.ModelLogs

/-- The codes of the enumeration `GatewayModel` (`items/gateway/gateway.py:41-49`). -/
def known : List Str := [cs!"0", cs!"2", cs!"4", cs!"6", cs!"7", cs!"11", cs!"12", cs!"23", cs!"200"]

/-- The codes the documents list (`docs/original/who13.md:130-134`). -/
def documentedCodes : List Str := [cs!"6", cs!"7", cs!"11", cs!"13"]

/-- The two lines that tell of an unknown code, as somebody reads them. -/
def Told (code : Str) (l : List (Logs.Level × Str)) : Prop :=
  l = [(.warning, cs!"The gateway model " ++ code ++ cs!" was not found in the known models."),
    (.warning, cs!"Please, open an issue on GitHub, attach the logs and the model name.")]

/-- A log as it is read. -/
def shown (l : List _root_.ModelLogs.Rec) : List (Logs.Level × Str) := l.map fun r => (r.level, r.text)

end Spec.ModelLogs
