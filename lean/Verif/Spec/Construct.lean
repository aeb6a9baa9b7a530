import Verif.Model.Construct

/-!
# What an item is made for
-/

open Py Construct
open Events (Cls)

namespace Spec.Construct

/-- The WHO documented for each class. -/
def classCode : Cls → Str
  | .light | .dimmer => cs!"1"
  | .automation => cs!"2"
  | .camera => cs!"7"
  | .gateway => cs!"13"
  | .energyManagement | .stopGo => cs!"18"

/-- The WHO a program asked for. -/
def wanted (c : Cls) : Option WhoArg → Str
  | none => classCode c
  | some (.member m) => m.code
  | some (.text s) => s

/-- The address a program asked for. -/
def address : WhereArg → Str
  | .tag t => t.string
  | .text s => s

end Spec.Construct

namespace Spec

/-- A dimension message about this item and this dimension. -/
def OfRequest (i : Item) (dim : Tag) (m : Msg) : Prop := ∃ vs, m = .dimResp i.who i.wher dim vs

end Spec
