import Verif.Model.Items

/-!
# Commands of the items (`pyown/items/lighting`, `automation`, `camera`, `energy`)

The members of the `What…` and `Dimension…` enums are `str` objects; the model uses their text.  Enum lookup by value and
`with_parameter` on a member are modelled, because they differ between the enums.
Simplification: `bool` arguments, which Python accepts for `int`, are not modelled.
Simplification: `datetime.now()` is a parameter.
-/

open Py M

namespace WhatLight

/-- `items/lighting/base.py:76` -/
def off : Str := cs!"0"

/-- `items/lighting/base.py:77` -/
def on : Str := cs!"1"

/-- `items/lighting/base.py:80` -/
def on20Percent : Str := cs!"2"

/-- `items/lighting/base.py:81` -/
def on30Percent : Str := cs!"3"

/-- `items/lighting/base.py:82` -/
def on40Percent : Str := cs!"4"

/-- `items/lighting/base.py:83` -/
def on50Percent : Str := cs!"5"

/-- `items/lighting/base.py:84` -/
def on60Percent : Str := cs!"6"

/-- `items/lighting/base.py:85` -/
def on70Percent : Str := cs!"7"

/-- `items/lighting/base.py:86` -/
def on80Percent : Str := cs!"8"

/-- `items/lighting/base.py:87` -/
def on90Percent : Str := cs!"9"

/-- `items/lighting/base.py:88` -/
def on100Percent : Str := cs!"10"

/-- `items/lighting/base.py:90` -/
def on1Min : Str := cs!"11"

/-- `items/lighting/base.py:91` -/
def on2Min : Str := cs!"12"

/-- `items/lighting/base.py:92` -/
def on3Min : Str := cs!"13"

/-- `items/lighting/base.py:93` -/
def on4Min : Str := cs!"14"

/-- `items/lighting/base.py:94` -/
def on5Min : Str := cs!"15"

/-- `items/lighting/base.py:95` -/
def on15Min : Str := cs!"16"

/-- `items/lighting/base.py:96` -/
def on30Min : Str := cs!"17"

/-- `items/lighting/base.py:97` -/
def on0_5Sec : Str := cs!"18"

/-- `items/lighting/base.py:99` -/
def blinking0_5Sec : Str := cs!"20"

/-- `items/lighting/base.py:100` -/
def blinking1_0Sec : Str := cs!"21"

/-- `items/lighting/base.py:101` -/
def blinking1_5Sec : Str := cs!"22"

/-- `items/lighting/base.py:102` -/
def blinking2_0Sec : Str := cs!"23"

/-- `items/lighting/base.py:103` -/
def blinking2_5Sec : Str := cs!"24"

/-- `items/lighting/base.py:104` -/
def blinking3_0Sec : Str := cs!"25"

/-- `items/lighting/base.py:105` -/
def blinking3_5Sec : Str := cs!"26"

/-- `items/lighting/base.py:106` -/
def blinking4_0Sec : Str := cs!"27"

/-- `items/lighting/base.py:107` -/
def blinking4_5Sec : Str := cs!"28"

/-- `items/lighting/base.py:108` -/
def blinking5_0Sec : Str := cs!"29"

/-- `items/lighting/base.py:111` -/
def up1Percent : Str := cs!"30"

/-- `items/lighting/base.py:112` -/
def down1Percent : Str := cs!"31"

/-- `items/lighting/base.py:114` -/
def commandTranslation : Str := cs!"1000"

/-- The values of the members (`lighting/base.py:76-114`). -/
def all : List Str :=
  [off, on, on20Percent, on30Percent, on40Percent, on50Percent, on60Percent, on70Percent, on80Percent, on90Percent, on100Percent, on1Min, on2Min, on3Min, on4Min, on5Min, on15Min, on30Min, on0_5Sec, blinking0_5Sec, blinking1_0Sec, blinking1_5Sec, blinking2_0Sec, blinking2_5Sec, blinking3_0Sec, blinking3_5Sec, blinking4_0Sec, blinking4_5Sec, blinking5_0Sec, up1Percent, down1Percent, commandTranslation]

/-- `WhatLight(s)`: lookup by value.  `items/lighting/base.py:36`. -/
def ofStr (s : Str) : Except Err Str := if all.contains s then .ok s else .error .valueError

end WhatLight

/-- `TagWithParameters.with_parameter` on a member (`tags/base.py:110-112`): `self.__class__` is the enum, so the text
is looked up among the members. -/
def WhatLight.withParameter (what : Str) (p : Int) : Except Err Str := do
  let s ← strInt p
  WhatLight.ofStr (what ++ cs!"#" ++ s)

namespace WhatAutomation

/-- `items/automation/automation.py:43` -/
def stop : Str := cs!"0"

/-- `items/automation/automation.py:44` -/
def up : Str := cs!"1"

/-- `items/automation/automation.py:45` -/
def down : Str := cs!"2"

/-- The values of the members (`automation/automation.py:43-45`). -/
def all : List Str :=
  [stop, up, down]

/-- `WhatAutomation(s)`: lookup by value.  `automation.py:34, 77`. -/
def ofStr (s : Str) : Except Err Str := if all.contains s then .ok s else .error .valueError

end WhatAutomation

namespace WhatCamera

/-- `items/camera/camera.py:69` -/
def receiveVideo : Str := cs!"0"

/-- `items/camera/camera.py:70` -/
def freeResources : Str := cs!"9"

/-- `items/camera/camera.py:71` -/
def zoomIn : Str := cs!"120"

/-- `items/camera/camera.py:72` -/
def zoomOut : Str := cs!"121"

/-- `items/camera/camera.py:73` -/
def increaseX : Str := cs!"130"

/-- `items/camera/camera.py:74` -/
def decreaseX : Str := cs!"131"

/-- `items/camera/camera.py:75` -/
def increaseY : Str := cs!"140"

/-- `items/camera/camera.py:76` -/
def decreaseY : Str := cs!"141"

/-- `items/camera/camera.py:77` -/
def increaseLuminosity : Str := cs!"150"

/-- `items/camera/camera.py:78` -/
def decreaseLuminosity : Str := cs!"151"

/-- `items/camera/camera.py:79` -/
def increaseContrast : Str := cs!"160"

/-- `items/camera/camera.py:80` -/
def decreaseContrast : Str := cs!"161"

/-- `items/camera/camera.py:81` -/
def increaseColor : Str := cs!"170"

/-- `items/camera/camera.py:82` -/
def decreaseColor : Str := cs!"171"

/-- `items/camera/camera.py:83` -/
def increaseQuality : Str := cs!"180"

/-- `items/camera/camera.py:84` -/
def decreaseQuality : Str := cs!"181"

/-- `items/camera/camera.py:85` -/
def displayDial11 : Str := cs!"311"

/-- `items/camera/camera.py:86` -/
def displayDial12 : Str := cs!"312"

/-- `items/camera/camera.py:87` -/
def displayDial13 : Str := cs!"313"

/-- `items/camera/camera.py:88` -/
def displayDial14 : Str := cs!"314"

/-- `items/camera/camera.py:89` -/
def displayDial21 : Str := cs!"321"

/-- `items/camera/camera.py:90` -/
def displayDial22 : Str := cs!"322"

/-- `items/camera/camera.py:91` -/
def displayDial23 : Str := cs!"323"

/-- `items/camera/camera.py:92` -/
def displayDial24 : Str := cs!"324"

/-- `items/camera/camera.py:93` -/
def displayDial31 : Str := cs!"331"

/-- `items/camera/camera.py:94` -/
def displayDial32 : Str := cs!"332"

/-- `items/camera/camera.py:95` -/
def displayDial33 : Str := cs!"333"

/-- `items/camera/camera.py:96` -/
def displayDial34 : Str := cs!"334"

/-- `items/camera/camera.py:97` -/
def displayDial41 : Str := cs!"341"

/-- `items/camera/camera.py:98` -/
def displayDial42 : Str := cs!"342"

/-- `items/camera/camera.py:99` -/
def displayDial43 : Str := cs!"343"

/-- `items/camera/camera.py:100` -/
def displayDial44 : Str := cs!"344"

/-- The values of the members (`camera/camera.py:69-100`). -/
def all : List Str :=
  [receiveVideo, freeResources, zoomIn, zoomOut, increaseX, decreaseX, increaseY, decreaseY, increaseLuminosity, decreaseLuminosity, increaseContrast, decreaseContrast, increaseColor, decreaseColor, increaseQuality, decreaseQuality, displayDial11, displayDial12, displayDial13, displayDial14, displayDial21, displayDial22, displayDial23, displayDial24, displayDial31, displayDial32, displayDial33, displayDial34, displayDial41, displayDial42, displayDial43, displayDial44]

/-- `WhatCamera(s)`: lookup by value.  `camera.py:31, 261`. -/
def ofStr (s : Str) : Except Err Str := if all.contains s then .ok s else .error .valueError

end WhatCamera

namespace DimensionEnergy

/-- `items/energy/enums.py:45` -/
def activePower : Str := cs!"113"

/-- `items/energy/enums.py:46` -/
def endAutomaticUpdateSize : Str := cs!"1200"

/-- `items/energy/enums.py:47` -/
def energyUnitTotalizer : Str := cs!"51"

/-- `items/energy/enums.py:48` -/
def energyUnitPerMonth : Str := cs!"52"

/-- `items/energy/enums.py:49` -/
def partialTotalizerCurrentMonth : Str := cs!"53"

/-- `items/energy/enums.py:50` -/
def partialTotalizerCurrentDay : Str := cs!"54"

/-- `items/energy/enums.py:51` -/
def actuatorsInfo : Str := cs!"71"

/-- `items/energy/enums.py:52` -/
def totalizers : Str := cs!"72"

/-- `items/energy/enums.py:53` -/
def differentialCurrentLevel : Str := cs!"73"

/-- `items/energy/enums.py:54` -/
def statusStopGoGeneral : Str := cs!"250"

/-- `items/energy/enums.py:55` -/
def statusStopGoOpenClose : Str := cs!"251"

/-- `items/energy/enums.py:56` -/
def statusStopGoFailureNoFailure : Str := cs!"252"

/-- `items/energy/enums.py:57` -/
def statusStopGoBlockNotBlock : Str := cs!"253"

/-- `items/energy/enums.py:58` -/
def statusStopGoOpenCcBetweenN : Str := cs!"254"

/-- `items/energy/enums.py:59` -/
def statusStopGoOpenedGroundFault : Str := cs!"255"

/-- `items/energy/enums.py:60` -/
def statusStopGoOpenVmax : Str := cs!"256"

/-- `items/energy/enums.py:61` -/
def statusStopGoSelfTestDisabled : Str := cs!"257"

/-- `items/energy/enums.py:62` -/
def statusStopGoAutomaticResetOff : Str := cs!"258"

/-- `items/energy/enums.py:63` -/
def statusStopGoCheckOff : Str := cs!"259"

/-- `items/energy/enums.py:64` -/
def statusStopGoWaitingForClosing : Str := cs!"260"

/-- `items/energy/enums.py:65` -/
def statusStopGoFirst24hOpening : Str := cs!"261"

/-- `items/energy/enums.py:66` -/
def statusStopGoPowerFailureDownstream : Str := cs!"262"

/-- `items/energy/enums.py:67` -/
def statusStopGoPowerFailureUpstream : Str := cs!"263"

/-- `items/energy/enums.py:68` -/
def dailyTotalizersHourly16bit : Str := cs!"511"

/-- `items/energy/enums.py:69` -/
def monthlyAverageHourly16bit : Str := cs!"512"

/-- `items/energy/enums.py:70` -/
def monthlyTotalizersCurrentYear32bit : Str := cs!"513"

/-- `items/energy/enums.py:71` -/
def monthlyTotalizersLastYear32bit : Str := cs!"514"

/-- The values of the members (`energy/enums.py:45-71`). -/
def all : List Str :=
  [activePower, endAutomaticUpdateSize, energyUnitTotalizer, energyUnitPerMonth, partialTotalizerCurrentMonth, partialTotalizerCurrentDay, actuatorsInfo, totalizers, differentialCurrentLevel, statusStopGoGeneral, statusStopGoOpenClose, statusStopGoFailureNoFailure, statusStopGoBlockNotBlock, statusStopGoOpenCcBetweenN, statusStopGoOpenedGroundFault, statusStopGoOpenVmax, statusStopGoSelfTestDisabled, statusStopGoAutomaticResetOff, statusStopGoCheckOff, statusStopGoWaitingForClosing, statusStopGoFirst24hOpening, statusStopGoPowerFailureDownstream, statusStopGoPowerFailureUpstream, dailyTotalizersHourly16bit, monthlyAverageHourly16bit, monthlyTotalizersCurrentYear32bit, monthlyTotalizersLastYear32bit]

/-- `DimensionEnergy(s)`: lookup by value.  `items/energy/enums.py:8`. -/
def ofStr (s : Str) : Except Err Str := if all.contains s then .ok s else .error .valueError

end DimensionEnergy

/-- `DimensionEnergy.with_parameter` (`energy/enums.py:74-76`). -/
def DimensionEnergy.withParameter (dim : Str) (p : Int) : Except Err Tag := do
  let s ← strInt p
  Tag.ofStr (dim ++ cs!"#" ++ s)

namespace WhatEnergy

/-- `items/energy/enums.py:97` -/
def autoResetOn : Str := cs!"26"

/-- `items/energy/enums.py:98` -/
def autoResetOff : Str := cs!"27"

/-- `items/energy/enums.py:99` -/
def sendDailyReport : Str := cs!"57"

/-- `items/energy/enums.py:100` -/
def sendMonthlyReport : Str := cs!"58"

/-- `items/energy/enums.py:101` -/
def sendYearlyReport : Str := cs!"59"

/-- `items/energy/enums.py:102` -/
def sendLastYearReport : Str := cs!"510"

/-- `items/energy/enums.py:103` -/
def enableActuator : Str := cs!"71"

/-- `items/energy/enums.py:104` -/
def forceActuatorOn : Str := cs!"73"

/-- `items/energy/enums.py:105` -/
def forceActuatorOff : Str := cs!"74"

/-- `items/energy/enums.py:106` -/
def resetReport : Str := cs!"75"

end WhatEnergy

/-- `WhatEnergy.with_parameter` (`energy/enums.py:109-111`). -/
def WhatEnergy.withParameter (what : Str) (p : Int) : Except Err Tag := do
  let s ← strInt p
  Tag.ofStr (what ++ cs!"#" ++ s)

namespace BaseLight

/-- `items/lighting/base.py:124-126` -/
def turnOn (cfg : Config) (i : Item) : M Unit := Item.sendNormal cfg i WhatLight.on

/-- `items/lighting/base.py:128-130` -/
def turnOff (cfg : Config) (i : Item) : M Unit := Item.sendNormal cfg i WhatLight.off

/-- `items/lighting/base.py:132-134` -/
def turnOn1Min (cfg : Config) (i : Item) : M Unit := Item.sendNormal cfg i WhatLight.on1Min

/-- `items/lighting/base.py:136-138` -/
def turnOn2Min (cfg : Config) (i : Item) : M Unit := Item.sendNormal cfg i WhatLight.on2Min

/-- `items/lighting/base.py:140-142` -/
def turnOn3Min (cfg : Config) (i : Item) : M Unit := Item.sendNormal cfg i WhatLight.on3Min

/-- `items/lighting/base.py:144-146` -/
def turnOn4Min (cfg : Config) (i : Item) : M Unit := Item.sendNormal cfg i WhatLight.on4Min

/-- `items/lighting/base.py:148-150` -/
def turnOn5Min (cfg : Config) (i : Item) : M Unit := Item.sendNormal cfg i WhatLight.on5Min

/-- `items/lighting/base.py:152-154` -/
def turnOn15Min (cfg : Config) (i : Item) : M Unit := Item.sendNormal cfg i WhatLight.on15Min

/-- `items/lighting/base.py:156-158` -/
def turnOn30Min (cfg : Config) (i : Item) : M Unit := Item.sendNormal cfg i WhatLight.on30Min

/-- `items/lighting/base.py:160-162` -/
def turnOn0_5Sec (cfg : Config) (i : Item) : M Unit := Item.sendNormal cfg i WhatLight.on0_5Sec

/-- `temporization_command` (`lighting/base.py:169-182`). -/
def temporizationCommand (cfg : Config) (i : Item) (hour minute second : Int) : M Unit := do
  if hour ≥ 24 ∨ minute ≥ 60 ∨ second ≥ 60 then raise .valueError
  else
    let h ← lift (Tag.ofInt hour)
    let m ← lift (Tag.ofInt minute)
    let s ← lift (Tag.ofInt second)
    Item.sendWriting cfg i cs!"2" [h, m, s]

end BaseLight

namespace Light

/-- `items/lighting/light.py:14-16` -/
def turnOn (cfg : Config) (i : Item) : M Unit := Item.sendNormal cfg i WhatLight.on

/-- `items/lighting/light.py:18-20` -/
def turnOff (cfg : Config) (i : Item) : M Unit := Item.sendNormal cfg i WhatLight.off

/-- `items/lighting/light.py:22-24` -/
def blink0_5Sec (cfg : Config) (i : Item) : M Unit := Item.sendNormal cfg i WhatLight.blinking0_5Sec

/-- `items/lighting/light.py:26-28` -/
def blink1_0Sec (cfg : Config) (i : Item) : M Unit := Item.sendNormal cfg i WhatLight.blinking1_0Sec

/-- `items/lighting/light.py:30-32` -/
def blink1_5Sec (cfg : Config) (i : Item) : M Unit := Item.sendNormal cfg i WhatLight.blinking1_5Sec

/-- `items/lighting/light.py:34-36` -/
def blink2_0Sec (cfg : Config) (i : Item) : M Unit := Item.sendNormal cfg i WhatLight.blinking2_0Sec

/-- `items/lighting/light.py:38-40` -/
def blink2_5Sec (cfg : Config) (i : Item) : M Unit := Item.sendNormal cfg i WhatLight.blinking2_5Sec

/-- `items/lighting/light.py:42-44` -/
def blink3_0Sec (cfg : Config) (i : Item) : M Unit := Item.sendNormal cfg i WhatLight.blinking3_0Sec

/-- `items/lighting/light.py:46-48` -/
def blink3_5Sec (cfg : Config) (i : Item) : M Unit := Item.sendNormal cfg i WhatLight.blinking3_5Sec

/-- `items/lighting/light.py:50-52` -/
def blink4_0Sec (cfg : Config) (i : Item) : M Unit := Item.sendNormal cfg i WhatLight.blinking4_0Sec

/-- `items/lighting/light.py:54-56` -/
def blink4_5Sec (cfg : Config) (i : Item) : M Unit := Item.sendNormal cfg i WhatLight.blinking4_5Sec

/-- `items/lighting/light.py:58-60` -/
def blink5_0Sec (cfg : Config) (i : Item) : M Unit := Item.sendNormal cfg i WhatLight.blinking5_0Sec

end Light

namespace Dimmer

/-- `items/lighting/dimmer.py:45-47` -/
def set20Percent (cfg : Config) (i : Item) : M Unit := Item.sendNormal cfg i WhatLight.on20Percent

/-- `items/lighting/dimmer.py:49-51` -/
def set30Percent (cfg : Config) (i : Item) : M Unit := Item.sendNormal cfg i WhatLight.on30Percent

/-- `items/lighting/dimmer.py:53-55` -/
def set40Percent (cfg : Config) (i : Item) : M Unit := Item.sendNormal cfg i WhatLight.on40Percent

/-- `items/lighting/dimmer.py:57-59` -/
def set50Percent (cfg : Config) (i : Item) : M Unit := Item.sendNormal cfg i WhatLight.on50Percent

/-- `items/lighting/dimmer.py:61-63` -/
def set60Percent (cfg : Config) (i : Item) : M Unit := Item.sendNormal cfg i WhatLight.on60Percent

/-- `items/lighting/dimmer.py:65-67` -/
def set70Percent (cfg : Config) (i : Item) : M Unit := Item.sendNormal cfg i WhatLight.on70Percent

/-- `items/lighting/dimmer.py:69-71` -/
def set80Percent (cfg : Config) (i : Item) : M Unit := Item.sendNormal cfg i WhatLight.on80Percent

/-- `items/lighting/dimmer.py:73-75` -/
def set90Percent (cfg : Config) (i : Item) : M Unit := Item.sendNormal cfg i WhatLight.on90Percent

/-- `items/lighting/dimmer.py:77-79` -/
def set100Percent (cfg : Config) (i : Item) : M Unit := Item.sendNormal cfg i WhatLight.on100Percent

/-- The optional parameter of a member.  `tags/base.py:68-70, 110-112`. -/
def param (what : Str) : Option Int → Except Err Str
  | none => .ok what
  | some p => WhatLight.withParameter what p

/-- `turn_on` (`lighting/dimmer.py:14-28`). -/
def turnOn (cfg : Config) (i : Item) (speed : Option Int) : M Unit := do
  if speed.any (fun s => s < 0 ∨ s > 255) then raise .valueError
  else
    let what ← lift (param WhatLight.on speed)
    Item.sendNormal cfg i what

/-- `turn_off` (`lighting/dimmer.py:30-43`). -/
def turnOff (cfg : Config) (i : Item) (speed : Option Int) : M Unit := do
  if speed.any (fun s => s < 0 ∨ s > 255) then raise .valueError
  else
    let what ← lift (param WhatLight.off speed)
    Item.sendNormal cfg i what

/-- `up_percent` (`lighting/dimmer.py:81-98`). -/
def upPercent (cfg : Config) (i : Item) (value speed : Option Int) : M Unit := do
  if value.any (fun v => v < 0 ∨ v > 100) then raise .valueError
  else
    let what ← lift (param WhatLight.up1Percent value)
    let what ← lift (param what speed)
    Item.sendNormal cfg i what

/-- `down_percent` (`lighting/dimmer.py:100-117`). -/
def downPercent (cfg : Config) (i : Item) (value speed : Option Int) : M Unit := do
  if value.any (fun v => v < 0 ∨ v > 100) then raise .valueError
  else
    let what ← lift (param WhatLight.down1Percent value)
    let what ← lift (param what speed)
    Item.sendNormal cfg i what

/-- `set_brightness_with_speed` with `int` arguments (`lighting/dimmer.py:129-136`). -/
def setBrightnessWithSpeed (cfg : Config) (i : Item) (brightness speed : Int) : M Unit := do
  let b ← lift (Tag.ofInt brightness)
  let s ← lift (Tag.ofInt speed)
  Item.sendWriting cfg i cs!"1" [b, s]

/-- `set_brightness_with_speed` with `str` arguments (`lighting/dimmer.py:129-136`). -/
def setBrightnessWithSpeedStr (cfg : Config) (i : Item) (brightness speed : Str) : M Unit := do
  let b ← lift (Tag.ofStr brightness)
  let s ← lift (Tag.ofStr speed)
  Item.sendWriting cfg i cs!"1" [b, s]

/-- `set_hsv` (`lighting/dimmer.py:138-155`). -/
def setHsv (cfg : Config) (i : Item) (hue saturation value : Int) : M Unit := do
  if hue < 0 ∨ hue > 359 then raise .valueError
  else if saturation < 0 ∨ saturation > 100 then raise .valueError
  else if value < 0 ∨ value > 100 then raise .valueError
  else
    let h ← lift (Tag.ofInt hue)
    let s ← lift (Tag.ofInt saturation)
    let v ← lift (Tag.ofInt value)
    Item.sendWriting cfg i cs!"12" [h, s, v]

/-- `set_white_temperature` (`lighting/dimmer.py:157-166`). -/
def setWhiteTemperature (cfg : Config) (i : Item) (temperature : Int) : M Unit := do
  if temperature < 1 ∨ temperature > 65534 then raise .valueError
  else
    let t ← lift (Tag.ofInt temperature)
    Item.sendWriting cfg i cs!"13" [t]

end Dimmer

namespace Automation

/-- `items/automation/automation.py:55-57` -/
def stop (cfg : Config) (i : Item) : M Unit := Item.sendNormal cfg i WhatAutomation.stop

/-- `items/automation/automation.py:59-61` -/
def up (cfg : Config) (i : Item) : M Unit := Item.sendNormal cfg i WhatAutomation.up

/-- `items/automation/automation.py:63-65` -/
def down (cfg : Config) (i : Item) : M Unit := Item.sendNormal cfg i WhatAutomation.down

end Automation

namespace Camera

/-- `_send_command_without_where` (`camera/camera.py:147-159`). -/
def sendWithoutWhere (cfg : Config) (i : Item) (what : Str) : M Unit := Item.command cfg (.generic [i.who.code, what])

/-- `items/camera/camera.py:139-145` -/
def receiveVideo (cfg : Config) (i : Item) : M Unit := Item.sendNormal cfg i WhatCamera.receiveVideo

/-- `items/camera/camera.py:161-167` -/
def freeResources (cfg : Config) (i : Item) : M Unit := sendWithoutWhere cfg i WhatCamera.freeResources

/-- `items/camera/camera.py:169-171` -/
def zoomIn (cfg : Config) (i : Item) : M Unit := sendWithoutWhere cfg i WhatCamera.zoomIn

/-- `items/camera/camera.py:173-175` -/
def zoomOut (cfg : Config) (i : Item) : M Unit := sendWithoutWhere cfg i WhatCamera.zoomOut

/-- `items/camera/camera.py:177-179` -/
def increaseXCoordinate (cfg : Config) (i : Item) : M Unit := sendWithoutWhere cfg i WhatCamera.increaseX

/-- `items/camera/camera.py:181-183` -/
def decreaseXCoordinate (cfg : Config) (i : Item) : M Unit := sendWithoutWhere cfg i WhatCamera.decreaseX

/-- `items/camera/camera.py:185-187` -/
def increaseYCoordinate (cfg : Config) (i : Item) : M Unit := sendWithoutWhere cfg i WhatCamera.increaseY

/-- `items/camera/camera.py:189-191` -/
def decreaseYCoordinate (cfg : Config) (i : Item) : M Unit := sendWithoutWhere cfg i WhatCamera.decreaseY

/-- `items/camera/camera.py:193-195` -/
def increaseLuminosity (cfg : Config) (i : Item) : M Unit := sendWithoutWhere cfg i WhatCamera.increaseLuminosity

/-- `items/camera/camera.py:197-199` -/
def decreaseLuminosity (cfg : Config) (i : Item) : M Unit := sendWithoutWhere cfg i WhatCamera.decreaseLuminosity

/-- `items/camera/camera.py:201-203` -/
def increaseContrast (cfg : Config) (i : Item) : M Unit := sendWithoutWhere cfg i WhatCamera.increaseContrast

/-- `items/camera/camera.py:205-207` -/
def decreaseContrast (cfg : Config) (i : Item) : M Unit := sendWithoutWhere cfg i WhatCamera.decreaseContrast

/-- `items/camera/camera.py:209-211` -/
def increaseColor (cfg : Config) (i : Item) : M Unit := sendWithoutWhere cfg i WhatCamera.increaseColor

/-- `items/camera/camera.py:213-215` -/
def decreaseColor (cfg : Config) (i : Item) : M Unit := sendWithoutWhere cfg i WhatCamera.decreaseColor

/-- `items/camera/camera.py:217-219` -/
def increaseQuality (cfg : Config) (i : Item) : M Unit := sendWithoutWhere cfg i WhatCamera.increaseQuality

/-- `items/camera/camera.py:221-223` -/
def decreaseQuality (cfg : Config) (i : Item) : M Unit := sendWithoutWhere cfg i WhatCamera.decreaseQuality

/-- `dial_map` (`camera/camera.py:103-120`). -/
def dialMap : List ((Int × Int) × Str) :=
  [((1, 1), WhatCamera.displayDial11), ((1, 2), WhatCamera.displayDial12), ((1, 3), WhatCamera.displayDial13),
   ((1, 4), WhatCamera.displayDial14), ((2, 1), WhatCamera.displayDial21), ((2, 2), WhatCamera.displayDial22),
   ((2, 3), WhatCamera.displayDial23), ((2, 4), WhatCamera.displayDial24), ((3, 1), WhatCamera.displayDial31),
   ((3, 2), WhatCamera.displayDial32), ((3, 3), WhatCamera.displayDial33), ((3, 4), WhatCamera.displayDial34),
   ((4, 1), WhatCamera.displayDial41), ((4, 2), WhatCamera.displayDial42), ((4, 3), WhatCamera.displayDial43),
   ((4, 4), WhatCamera.displayDial44)]

/-- `display_dial` (`camera/camera.py:225-238`); a missing key of the dict would be a `KeyError`. -/
def displayDial (cfg : Config) (i : Item) (x y : Int) : M Unit :=
  if ¬ (1 ≤ x ∧ x < 5) ∨ ¬ (1 ≤ y ∧ y < 5) then raise .valueError
  else
    match dialMap.lookup (x, y) with
    | some what => sendWithoutWhere cfg i what
    | none => raise .keyError

end Camera

namespace EnergyManagement

/-- `items/energy/energy.py:129-135` -/
def enableActuator (cfg : Config) (i : Item) : M Unit := Item.sendNormal cfg i WhatEnergy.enableActuator

/-- `items/energy/energy.py:151-157` -/
def forceActuatorOff (cfg : Config) (i : Item) : M Unit := Item.sendNormal cfg i WhatEnergy.forceActuatorOff

/-- `start_sending_daily_totalizers_hourly` (`energy/energy.py:69-85`); `now` is the day and month of `datetime.now()`. -/
def startSendingDailyTotalizersHourly (cfg : Config) (now : Int × Int) (i : Item) (day month : Option Int) : M Unit := do
  let what ← lift (WhatEnergy.withParameter WhatEnergy.sendDailyReport (day.getD now.1))
  let what ← lift (what.withParameterInt (month.getD now.2))
  Item.sendNormalTag cfg i what

/-- `start_sending_monthly_average_hourly` (`energy/energy.py:87-99`). -/
def startSendingMonthlyAverageHourly (cfg : Config) (now : Int × Int) (i : Item) (month : Option Int) : M Unit := do
  let what ← lift (WhatEnergy.withParameter WhatEnergy.sendMonthlyReport (month.getD now.2))
  Item.sendNormalTag cfg i what

/-- `start_sending_monthly_totalizers_current_year` (`energy/energy.py:101-113`). -/
def startSendingMonthlyTotalizersCurrentYear (cfg : Config) (now : Int × Int) (i : Item) (month : Option Int) : M Unit := do
  let what ← lift (WhatEnergy.withParameter WhatEnergy.sendYearlyReport (month.getD now.2))
  Item.sendNormalTag cfg i what

/-- `start_sending_monthly_totalizers_last_year` (`energy/energy.py:115-127`). -/
def startSendingMonthlyTotalizersLastYear (cfg : Config) (now : Int × Int) (i : Item) (month : Option Int) : M Unit := do
  let what ← lift (WhatEnergy.withParameter WhatEnergy.sendLastYearReport (month.getD now.2))
  Item.sendNormalTag cfg i what

/-- `force_actuator_on` (`energy/energy.py:137-149`). -/
def forceActuatorOn (cfg : Config) (i : Item) : Option Int → M Unit
  | none => Item.sendNormal cfg i WhatEnergy.forceActuatorOn
  | some time => do
    let what ← lift (WhatEnergy.withParameter WhatEnergy.forceActuatorOn time)
    Item.sendNormalTag cfg i what

/-- `reset_totalizers` (`energy/energy.py:159-168`). -/
def resetTotalizers (cfg : Config) (i : Item) (totN : Int) : M Unit := do
  let what ← lift (WhatEnergy.withParameter WhatEnergy.resetReport totN)
  Item.sendNormalTag cfg i what

/-- `start_sending_instant_power` (`energy/energy.py:170-186`). -/
def startSendingInstantPower (cfg : Config) (i : Item) (time powerType : Int) : M Unit := do
  let dim ← lift (DimensionEnergy.withParameter DimensionEnergy.endAutomaticUpdateSize powerType)
  let t ← lift (Tag.ofInt time)
  Item.sendWritingTag cfg i dim [t]

/-- `stop_sending_instant_power` (`energy/energy.py:188-203`). -/
def stopSendingInstantPower (cfg : Config) (i : Item) (powerType : Int) : M Unit := do
  let dim ← lift (DimensionEnergy.withParameter DimensionEnergy.endAutomaticUpdateSize powerType)
  let t ← lift (Tag.ofInt 0)
  Item.sendWritingTag cfg i dim [t]

end EnergyManagement

namespace StopGo

/-- `items/energy/stop_go.py:34-36` -/
def enableAutomaticReset (cfg : Config) (i : Item) : M Unit := Item.sendNormal cfg i WhatEnergy.autoResetOn

/-- `items/energy/stop_go.py:38-40` -/
def disableAutomaticReset (cfg : Config) (i : Item) : M Unit := Item.sendNormal cfg i WhatEnergy.autoResetOff

end StopGo

/-! ## The commands without arguments -/

/-- The commands a user can give without arguments, named by the class that defines them.
Lines as at `run`; the classes of `light.py`, `dimmer.py`, `automation.py`, `camera.py`. -/
inductive Cmd where
  | baseTurnOn
  | baseTurnOff
  | baseTurnOn1Min
  | baseTurnOn2Min
  | baseTurnOn3Min
  | baseTurnOn4Min
  | baseTurnOn5Min
  | baseTurnOn15Min
  | baseTurnOn30Min
  | baseTurnOn0_5Sec
  | lightTurnOn
  | lightTurnOff
  | lightBlink0_5Sec
  | lightBlink1_0Sec
  | lightBlink1_5Sec
  | lightBlink2_0Sec
  | lightBlink2_5Sec
  | lightBlink3_0Sec
  | lightBlink3_5Sec
  | lightBlink4_0Sec
  | lightBlink4_5Sec
  | lightBlink5_0Sec
  | dimmerSet20Percent
  | dimmerSet30Percent
  | dimmerSet40Percent
  | dimmerSet50Percent
  | dimmerSet60Percent
  | dimmerSet70Percent
  | dimmerSet80Percent
  | dimmerSet90Percent
  | dimmerSet100Percent
  | automationStop
  | automationUp
  | automationDown
  | cameraReceiveVideo
  | cameraFreeResources
  | cameraZoomIn
  | cameraZoomOut
  | cameraIncreaseXCoordinate
  | cameraDecreaseXCoordinate
  | cameraIncreaseYCoordinate
  | cameraDecreaseYCoordinate
  | cameraIncreaseLuminosity
  | cameraDecreaseLuminosity
  | cameraIncreaseContrast
  | cameraDecreaseContrast
  | cameraIncreaseColor
  | cameraDecreaseColor
  | cameraIncreaseQuality
  | cameraDecreaseQuality
  | energyEnableActuator
  | energyForceActuatorOff
  | stopGoEnableAutomaticReset
  | stopGoDisableAutomaticReset
  | dimmerTurnOn
  | dimmerTurnOff
  | dimmerUpPercent
  | dimmerDownPercent
  | energyForceActuatorOn

namespace Cmd

/-- The `WHO` of the class (`_who`: `items/lighting/base.py:120`, `items/automation/automation.py:51`,
`items/camera/camera.py:135`, `items/energy/energy.py:29`). -/
def who : Cmd → Who
  | baseTurnOn => .lighting
  | baseTurnOff => .lighting
  | baseTurnOn1Min => .lighting
  | baseTurnOn2Min => .lighting
  | baseTurnOn3Min => .lighting
  | baseTurnOn4Min => .lighting
  | baseTurnOn5Min => .lighting
  | baseTurnOn15Min => .lighting
  | baseTurnOn30Min => .lighting
  | baseTurnOn0_5Sec => .lighting
  | lightTurnOn => .lighting
  | lightTurnOff => .lighting
  | lightBlink0_5Sec => .lighting
  | lightBlink1_0Sec => .lighting
  | lightBlink1_5Sec => .lighting
  | lightBlink2_0Sec => .lighting
  | lightBlink2_5Sec => .lighting
  | lightBlink3_0Sec => .lighting
  | lightBlink3_5Sec => .lighting
  | lightBlink4_0Sec => .lighting
  | lightBlink4_5Sec => .lighting
  | lightBlink5_0Sec => .lighting
  | dimmerSet20Percent => .lighting
  | dimmerSet30Percent => .lighting
  | dimmerSet40Percent => .lighting
  | dimmerSet50Percent => .lighting
  | dimmerSet60Percent => .lighting
  | dimmerSet70Percent => .lighting
  | dimmerSet80Percent => .lighting
  | dimmerSet90Percent => .lighting
  | dimmerSet100Percent => .lighting
  | automationStop => .automation
  | automationUp => .automation
  | automationDown => .automation
  | cameraReceiveVideo => .videoDoorEntry
  | cameraFreeResources => .videoDoorEntry
  | cameraZoomIn => .videoDoorEntry
  | cameraZoomOut => .videoDoorEntry
  | cameraIncreaseXCoordinate => .videoDoorEntry
  | cameraDecreaseXCoordinate => .videoDoorEntry
  | cameraIncreaseYCoordinate => .videoDoorEntry
  | cameraDecreaseYCoordinate => .videoDoorEntry
  | cameraIncreaseLuminosity => .videoDoorEntry
  | cameraDecreaseLuminosity => .videoDoorEntry
  | cameraIncreaseContrast => .videoDoorEntry
  | cameraDecreaseContrast => .videoDoorEntry
  | cameraIncreaseColor => .videoDoorEntry
  | cameraDecreaseColor => .videoDoorEntry
  | cameraIncreaseQuality => .videoDoorEntry
  | cameraDecreaseQuality => .videoDoorEntry
  | energyEnableActuator => .energyManagement
  | energyForceActuatorOff => .energyManagement
  | stopGoEnableAutomaticReset => .energyManagement
  | stopGoDisableAutomaticReset => .energyManagement
  | dimmerTurnOn => .lighting
  | dimmerTurnOff => .lighting
  | dimmerUpPercent => .lighting
  | dimmerDownPercent => .lighting
  | energyForceActuatorOn => .energyManagement

/-- The method.  Each line cites its method of `light.py`, `automation.py`, `camera.py`. -/
def run (cfg : Config) (i : Item) : Cmd → M Unit
  | baseTurnOn => BaseLight.turnOn cfg i
  | baseTurnOff => BaseLight.turnOff cfg i
  | baseTurnOn1Min => BaseLight.turnOn1Min cfg i
  | baseTurnOn2Min => BaseLight.turnOn2Min cfg i
  | baseTurnOn3Min => BaseLight.turnOn3Min cfg i
  | baseTurnOn4Min => BaseLight.turnOn4Min cfg i
  | baseTurnOn5Min => BaseLight.turnOn5Min cfg i
  | baseTurnOn15Min => BaseLight.turnOn15Min cfg i
  | baseTurnOn30Min => BaseLight.turnOn30Min cfg i
  | baseTurnOn0_5Sec => BaseLight.turnOn0_5Sec cfg i
  | lightTurnOn => Light.turnOn cfg i
  | lightTurnOff => Light.turnOff cfg i
  | lightBlink0_5Sec => Light.blink0_5Sec cfg i
  | lightBlink1_0Sec => Light.blink1_0Sec cfg i
  | lightBlink1_5Sec => Light.blink1_5Sec cfg i
  | lightBlink2_0Sec => Light.blink2_0Sec cfg i
  | lightBlink2_5Sec => Light.blink2_5Sec cfg i
  | lightBlink3_0Sec => Light.blink3_0Sec cfg i
  | lightBlink3_5Sec => Light.blink3_5Sec cfg i
  | lightBlink4_0Sec => Light.blink4_0Sec cfg i
  | lightBlink4_5Sec => Light.blink4_5Sec cfg i
  | lightBlink5_0Sec => Light.blink5_0Sec cfg i
  | dimmerSet20Percent => Dimmer.set20Percent cfg i
  | dimmerSet30Percent => Dimmer.set30Percent cfg i
  | dimmerSet40Percent => Dimmer.set40Percent cfg i
  | dimmerSet50Percent => Dimmer.set50Percent cfg i
  | dimmerSet60Percent => Dimmer.set60Percent cfg i
  | dimmerSet70Percent => Dimmer.set70Percent cfg i
  | dimmerSet80Percent => Dimmer.set80Percent cfg i
  | dimmerSet90Percent => Dimmer.set90Percent cfg i
  | dimmerSet100Percent => Dimmer.set100Percent cfg i
  | automationStop => Automation.stop cfg i
  | automationUp => Automation.up cfg i
  | automationDown => Automation.down cfg i
  | cameraReceiveVideo => Camera.receiveVideo cfg i
  | cameraFreeResources => Camera.freeResources cfg i
  | cameraZoomIn => Camera.zoomIn cfg i
  | cameraZoomOut => Camera.zoomOut cfg i
  | cameraIncreaseXCoordinate => Camera.increaseXCoordinate cfg i
  | cameraDecreaseXCoordinate => Camera.decreaseXCoordinate cfg i
  | cameraIncreaseYCoordinate => Camera.increaseYCoordinate cfg i
  | cameraDecreaseYCoordinate => Camera.decreaseYCoordinate cfg i
  | cameraIncreaseLuminosity => Camera.increaseLuminosity cfg i
  | cameraDecreaseLuminosity => Camera.decreaseLuminosity cfg i
  | cameraIncreaseContrast => Camera.increaseContrast cfg i
  | cameraDecreaseContrast => Camera.decreaseContrast cfg i
  | cameraIncreaseColor => Camera.increaseColor cfg i
  | cameraDecreaseColor => Camera.decreaseColor cfg i
  | cameraIncreaseQuality => Camera.increaseQuality cfg i
  | cameraDecreaseQuality => Camera.decreaseQuality cfg i
  | energyEnableActuator => EnergyManagement.enableActuator cfg i
  | energyForceActuatorOff => EnergyManagement.forceActuatorOff cfg i
  | stopGoEnableAutomaticReset => StopGo.enableAutomaticReset cfg i
  | stopGoDisableAutomaticReset => StopGo.disableAutomaticReset cfg i
  | dimmerTurnOn => Dimmer.turnOn cfg i none
  | dimmerTurnOff => Dimmer.turnOff cfg i none
  | dimmerUpPercent => Dimmer.upPercent cfg i none none
  | dimmerDownPercent => Dimmer.downPercent cfg i none none
  | energyForceActuatorOn => EnergyManagement.forceActuatorOn cfg i none

end Cmd
