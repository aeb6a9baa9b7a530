import Verif.Model.Commands

/-!
# Queries of lights and automations

`items/lighting/base.py`, `light.py`, `dimmer.py` and `items/automation/automation.py`: asynchronous generators that
decode each reply of a status or dimension request.  Each is the whole generator, consumed to its end by `async for`.
-/

open Py M

/-- `int(message.values[k].tag)`: `Value.tag` drops one leading `#` (`tags/base.py:54-58`). -/
def intAt (vs : List Tag) (k : Nat) : Except Err Int := do
  let v ← index vs k
  pyInt v.plainTag

/-- A generator: the yielded values, how it ended, and the world after it.  `items/base.py:215-268`. -/
abbrev Gen (β : Type) := World → (List β × Except Err Unit) × World

namespace Light

/-- The body of `Light.get_status` (`lighting/light.py:69-72`): only ON and OFF yield something. -/
def statusBody : Msg → Except Err (List (Tag × Bool))
  | .normal _ what wher =>
    .ok (if what.string = WhatLight.on then [(wher, true)] else if what.string = WhatLight.off then [(wher, false)] else [])
  | _ => .error .attributeError

/-- `Light.get_status` (`lighting/light.py:62-72`). -/
def getStatus (cfg : Config) (i : Item) : Gen (Tag × Bool) := Item.statusStream cfg i statusBody

end Light

namespace Dimmer

/-- The body of `Dimmer.get_status` (`lighting/dimmer.py:126-127`). -/
def statusBody : Msg → Except Err (List (Tag × Int))
  | .normal _ what wher => do
    let t ← what.tag
    let n ← pyInt t
    return [(wher, n * 10)]
  | _ => .error .attributeError

/-- `Dimmer.get_status` (`lighting/dimmer.py:119-127`). -/
def getStatus (cfg : Config) (i : Item) : Gen (Tag × Int) := Item.statusStream cfg i statusBody

end Dimmer

namespace Automation

/-- The body of `Automation.get_status` (`automation/automation.py:76-77`); a member is represented by its value. -/
def statusBody : Msg → Except Err (List (Tag × Str))
  | .normal _ what wher => do
    let s ← WhatAutomation.ofStr what.string
    return [(wher, s)]
  | _ => .error .attributeError

/-- `Automation.get_status` (`automation/automation.py:67-77`). -/
def getStatus (cfg : Config) (i : Item) : Gen (Tag × Str) := Item.statusStream cfg i statusBody

end Automation

/-- `send_dimension_request(str)` consumed with a body: the text becomes a `Dimension` first (`items/base.py:249-252`). -/
def Item.dimStreamStr {β : Type} (cfg : Config) (i : Item) (dim : Str) (body : Msg → Except Err (List β)) : Gen β :=
  fun w =>
    match Tag.ofStr dim with
    | .error e => (([], .error e), w)
    | .ok d => Item.dimStream cfg i d body w

/-- One integer of each reply.  `lighting/base.py:204`, `dimmer.py:208`. -/
def oneInt : Msg → Except Err (List (Tag × Int))
  | .dimResp _ wher _ vs => do
    let a ← intAt vs 0
    return [(wher, a)]
  | _ => .error .attributeError

/-- Two integers of each reply.  `dimmer.py:179-180`. -/
def twoInts : Msg → Except Err (List (Tag × Int × Int))
  | .dimResp _ wher _ vs => do
    let a ← intAt vs 0
    let b ← intAt vs 1
    return [(wher, a, b)]
  | _ => .error .attributeError

/-- Three integers of each reply.  `lighting/base.py:191-193`, `dimmer.py:193-195`. -/
def threeInts : Msg → Except Err (List (Tag × Int × Int × Int))
  | .dimResp _ wher _ vs => do
    let a ← intAt vs 0
    let b ← intAt vs 1
    let c ← intAt vs 2
    return [(wher, a, b, c)]
  | _ => .error .attributeError

/-- `temporization_request` (`lighting/base.py:184-194`). -/
def BaseLight.temporizationRequest (cfg : Config) (i : Item) : Gen (Tag × Int × Int × Int) :=
  Item.dimStreamStr cfg i cs!"2" threeInts

/-- `request_working_time_lamp` (`lighting/base.py:196-204`). -/
def BaseLight.requestWorkingTimeLamp (cfg : Config) (i : Item) : Gen (Tag × Int) :=
  Item.dimStreamStr cfg i cs!"3" oneInt

/-- `request_current_brightness_speed` (`lighting/dimmer.py:168-181`). -/
def Dimmer.requestCurrentBrightnessSpeed (cfg : Config) (i : Item) : Gen (Tag × Int × Int) :=
  Item.dimStreamStr cfg i cs!"1" twoInts

/-- `request_current_hsv` (`lighting/dimmer.py:183-196`). -/
def Dimmer.requestCurrentHsv (cfg : Config) (i : Item) : Gen (Tag × Int × Int × Int) :=
  Item.dimStreamStr cfg i cs!"12" threeInts

/-- `request_current_white_temperature` (`lighting/dimmer.py:198-208`). -/
def Dimmer.requestCurrentWhiteTemperature (cfg : Config) (i : Item) : Gen (Tag × Int) :=
  Item.dimStreamStr cfg i cs!"14" oneInt
