import Verif.Model.Events

/-!
# The texts of items and of the exceptions of `loop()` (`pyown/items/base.py:57-61`, `pyown/client/client.py:105-109`)
-/

open Py

namespace Events

/-- `self.__class__.__name__` (`items/lighting/light.py:11`, `dimmer.py:11`, `automation.py:48`, `camera.py:123`, `gateway.py:92`,
`energy.py:18`, `stop_go.py:16`). -/
def Cls.name : Cls → Str
  | .light => cs!"Light"
  | .dimmer => cs!"Dimmer"
  | .automation => cs!"Automation"
  | .camera => cs!"Camera"
  | .gateway => cs!"Gateway"
  | .energyManagement => cs!"EnergyManagement"
  | .stopGo => cs!"StopGo"

/-- `str(item)` (`items/base.py:60-61`). -/
def Obj.str (o : Obj) : Str := o.cls.name ++ cs!" at " ++ o.item.wher.string

/-- `repr(item)` (`items/base.py:57-58`). -/
def Obj.repr (o : Obj) : Str := o.cls.name ++ cs!"(where=" ++ o.item.wher.string ++ cs!")"

/-- The exception `loop()` begins with, and its text (`client.py:105-109`). -/
def State.refusal (s : State) : Option (Err × Str) :=
  if s.session ≠ .event then some (.invalidSession, cs!"Cannot run loop on a command session")
  else if s.transport = .gone then some (.invalidSession, cs!"Client is not connected")
  else none

end Events
