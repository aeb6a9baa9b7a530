import Verif.Model.Commands
import Verif.Spec.Frames
import Verif.Spec.Replies

/-!
# The documented command frames

Written from the tables of `docs/original/who1.md`, `who2.md`, `who7.md` and `who18.md`.
-/

open Py

namespace Spec

/-- What can be adjusted on a camera. -/
inductive Knob | zoom | x | y | luminosity | contrast | color | quality

/-- What a user wants to happen.  Durations are in milliseconds, levels in percent. -/
inductive Wish
  | off | on | level (percent : Nat) | timed (ms : Nat) | blink (ms : Nat) | brighter | darker
  | stop | up | down
  | video | freeResources | camera (knob : Knob) (increase : Bool)
  | resetOn | resetOff | enable | forceOn | forceOff

/-- `who1.md:37-67`, the `WHAT` of a light. -/
def lightWhat : Wish → Option Str
  | .off => some cs!"0"
  | .on => some cs!"1"
  | .level 20 => some cs!"2"
  | .level 30 => some cs!"3"
  | .level 40 => some cs!"4"
  | .level 50 => some cs!"5"
  | .level 60 => some cs!"6"
  | .level 70 => some cs!"7"
  | .level 80 => some cs!"8"
  | .level 90 => some cs!"9"
  | .level 100 => some cs!"10"
  | .timed 60000 => some cs!"11"
  | .timed 120000 => some cs!"12"
  | .timed 180000 => some cs!"13"
  | .timed 240000 => some cs!"14"
  | .timed 300000 => some cs!"15"
  | .timed 900000 => some cs!"16"
  | .timed 30000 => some cs!"17"
  | .timed 500 => some cs!"18"
  | .blink 500 => some cs!"20"
  | .blink 1000 => some cs!"21"
  | .blink 1500 => some cs!"22"
  | .blink 2000 => some cs!"23"
  | .blink 2500 => some cs!"24"
  | .blink 3000 => some cs!"25"
  | .blink 3500 => some cs!"26"
  | .blink 4000 => some cs!"27"
  | .blink 4500 => some cs!"28"
  | .blink 5000 => some cs!"29"
  | .brighter => some cs!"30"
  | .darker => some cs!"31"
  | _ => none

/-- `who7.md:22-38`, the `WHAT` of a camera adjustment. -/
def cameraWhat : Knob → Bool → Str
  | .zoom, true => cs!"120"
  | .zoom, false => cs!"121"
  | .x, true => cs!"130"
  | .x, false => cs!"131"
  | .y, true => cs!"140"
  | .y, false => cs!"141"
  | .luminosity, true => cs!"150"
  | .luminosity, false => cs!"151"
  | .contrast, true => cs!"160"
  | .contrast, false => cs!"161"
  | .color, true => cs!"170"
  | .color, false => cs!"171"
  | .quality, true => cs!"180"
  | .quality, false => cs!"181"

/-- The documented frame of a wish at an address; `none` if the documents have none. -/
def documented (wish : Wish) (wher : Str) : Option Str :=
  match wish with
  | .stop => some (frame [cs!"2", cs!"0", wher])
  | .up => some (frame [cs!"2", cs!"1", wher])
  | .down => some (frame [cs!"2", cs!"2", wher])
  | .video => some (frame [cs!"7", cs!"0", wher])
  | .freeResources => some (frame [cs!"7", cs!"9", []])
  | .camera knob increase => some (frame [cs!"7", cameraWhat knob increase])
  | .resetOn => some (frame [cs!"18", cs!"26", wher])
  | .resetOff => some (frame [cs!"18", cs!"27", wher])
  | .enable => some (frame [cs!"18", cs!"71", wher])
  | .forceOn => some (frame [cs!"18", cs!"73", wher])
  | .forceOff => some (frame [cs!"18", cs!"74", wher])
  | light => (lightWhat light).map fun what => frame [cs!"1", what, wher]

/-- What the name of a method promises. -/
def wish : Cmd → Wish
  | .baseTurnOn => .on
  | .baseTurnOff => .off
  | .baseTurnOn1Min => .timed 60000
  | .baseTurnOn2Min => .timed 120000
  | .baseTurnOn3Min => .timed 180000
  | .baseTurnOn4Min => .timed 240000
  | .baseTurnOn5Min => .timed 300000
  | .baseTurnOn15Min => .timed 900000
  | .baseTurnOn30Min => .timed 1800000
  | .baseTurnOn0_5Sec => .timed 500
  | .lightTurnOn => .on
  | .lightTurnOff => .off
  | .lightBlink0_5Sec => .blink 500
  | .lightBlink1_0Sec => .blink 1000
  | .lightBlink1_5Sec => .blink 1500
  | .lightBlink2_0Sec => .blink 2000
  | .lightBlink2_5Sec => .blink 2500
  | .lightBlink3_0Sec => .blink 3000
  | .lightBlink3_5Sec => .blink 3500
  | .lightBlink4_0Sec => .blink 4000
  | .lightBlink4_5Sec => .blink 4500
  | .lightBlink5_0Sec => .blink 5000
  | .dimmerSet20Percent => .level 20
  | .dimmerSet30Percent => .level 30
  | .dimmerSet40Percent => .level 40
  | .dimmerSet50Percent => .level 50
  | .dimmerSet60Percent => .level 60
  | .dimmerSet70Percent => .level 70
  | .dimmerSet80Percent => .level 80
  | .dimmerSet90Percent => .level 90
  | .dimmerSet100Percent => .level 100
  | .automationStop => .stop
  | .automationUp => .up
  | .automationDown => .down
  | .cameraReceiveVideo => .video
  | .cameraFreeResources => .freeResources
  | .cameraZoomIn => .camera .zoom true
  | .cameraZoomOut => .camera .zoom false
  | .cameraIncreaseXCoordinate => .camera .x true
  | .cameraDecreaseXCoordinate => .camera .x false
  | .cameraIncreaseYCoordinate => .camera .y true
  | .cameraDecreaseYCoordinate => .camera .y false
  | .cameraIncreaseLuminosity => .camera .luminosity true
  | .cameraDecreaseLuminosity => .camera .luminosity false
  | .cameraIncreaseContrast => .camera .contrast true
  | .cameraDecreaseContrast => .camera .contrast false
  | .cameraIncreaseColor => .camera .color true
  | .cameraDecreaseColor => .camera .color false
  | .cameraIncreaseQuality => .camera .quality true
  | .cameraDecreaseQuality => .camera .quality false
  | .energyEnableActuator => .enable
  | .energyForceActuatorOff => .forceOff
  | .stopGoEnableAutomaticReset => .resetOn
  | .stopGoDisableAutomaticReset => .resetOff
  | .dimmerTurnOn => .on
  | .dimmerTurnOff => .off
  | .dimmerUpPercent => .brighter
  | .dimmerDownPercent => .darker
  | .energyForceActuatorOn => .forceOn

end Spec
