import Verif.Spec.Events
import Verif.Spec.Replies

/-!
# Asking and listening

Many values can be asked for, and listened to.  Here they are listed, with the question, the callback, and the documented form of
the answer.
-/

open Py Events

namespace Spec

/-- What a program can both ask for and listen to. -/
inductive Topic where
  | lightStatus | dimmerStatus | automationStatus | temporization | brightness | hsv | whiteTemperature
  | time | date | ip | netmask | mac | model | firmware | uptime | datetime | kernel | distribution
  | power | energy | month | day | actuator | level | totalizer (n : Nat) | perMonth (year month : Nat)
  deriving DecidableEq

/-- What a call that returns one value tells, as the arguments of a callback would. -/
def oneAnswer {α : Type} (f : α → List Arg) (r : Except Err α × World) : List (List Arg) × Except Err Unit :=
  match r.1 with
  | .ok x => ([f x], .ok ())
  | .error e => ([], .error e)

/-- What a call that yields several values tells. -/
def answers {α : Type} (f : α → List Arg) (r : (List α × Except Err Unit) × World) : List (List Arg) × Except Err Unit :=
  (r.1.1.map f, r.1.2)

/-- Asking for it, at an address.  (The gateway has none.) -/
def Topic.ask (cfg : Config) (wher : Tag) (w : World) : Topic → List (List Arg) × Except Err Unit
  | .lightStatus => answers (fun x => [.bool x.2]) (Light.getStatus cfg ⟨.lighting, wher⟩ w)
  | .dimmerStatus => answers (fun x => [.int x.2]) (Dimmer.getStatus cfg ⟨.lighting, wher⟩ w)
  | .automationStatus => answers (fun x => [.automation x.2]) (Automation.getStatus cfg ⟨.automation, wher⟩ w)
  | .temporization =>
    answers (fun x => [.int x.2.1, .int x.2.2.1, .int x.2.2.2]) (BaseLight.temporizationRequest cfg ⟨.lighting, wher⟩ w)
  | .brightness => answers (fun x => [.int x.2.1, .int x.2.2]) (Dimmer.requestCurrentBrightnessSpeed cfg ⟨.lighting, wher⟩ w)
  | .hsv => answers (fun x => [.int x.2.1, .int x.2.2.1, .int x.2.2.2]) (Dimmer.requestCurrentHsv cfg ⟨.lighting, wher⟩ w)
  | .whiteTemperature => answers (fun x => [.int x.2]) (Dimmer.requestCurrentWhiteTemperature cfg ⟨.lighting, wher⟩ w)
  | .time => oneAnswer (fun x => [.time x]) (Gateway.getTime cfg none w)
  | .date => oneAnswer (fun x => [.date x]) (Gateway.getDate cfg none w)
  | .ip => oneAnswer (fun x => [.ip x]) (Gateway.getIp cfg none w)
  | .netmask => oneAnswer (fun x => [.str x]) (Gateway.getNetmask cfg none w)
  | .mac => oneAnswer (fun x => [.str x]) (Gateway.getMacaddress cfg none w)
  | .model => oneAnswer (fun x => [.str x.code]) (Gateway.getModel cfg none w)
  | .firmware => oneAnswer (fun x => [.str x]) (Gateway.getFirmware cfg none w)
  | .uptime => oneAnswer (fun x => [.timedelta x]) (Gateway.getUptime cfg none w)
  | .datetime => oneAnswer (fun x => [.datetime x]) (Gateway.getDateTime cfg none w)
  | .kernel => oneAnswer (fun x => [.str x]) (Gateway.getKernelVersion cfg none w)
  | .distribution => oneAnswer (fun x => [.str x]) (Gateway.getDistributionVersion cfg none w)
  | .power => oneAnswer (fun x => [.float x]) (EnergyManagement.getActivePower cfg ⟨.energyManagement, wher⟩ w)
  | .energy => oneAnswer (fun x => [.float x]) (EnergyManagement.getEnergyUnitTotalizer cfg ⟨.energyManagement, wher⟩ w)
  | .month => oneAnswer (fun x => [.float x]) (EnergyManagement.getPartialTotalizerCurrentMonth cfg ⟨.energyManagement, wher⟩ w)
  | .day => oneAnswer (fun x => [.float x]) (EnergyManagement.getPartialTotalizerCurrentDay cfg ⟨.energyManagement, wher⟩ w)
  | .actuator => oneAnswer (fun x => [.actuator x]) (EnergyManagement.getActuatorsInfo cfg ⟨.energyManagement, wher⟩ none w)
  | .level => oneAnswer (fun x => [.int x]) (EnergyManagement.getDifferentialCurrentLevel cfg ⟨.energyManagement, wher⟩ w)
  | .totalizer n =>
    oneAnswer (fun x => [.datetime x.1, .float x.2]) (EnergyManagement.getTotalizers cfg ⟨.energyManagement, wher⟩ n none w)
  | .perMonth y mo =>
    oneAnswer (fun x => [.int mo, .int y, .float x])
      (EnergyManagement.getEnergyUnitPerMonth cfg (0, 0) ⟨.energyManagement, wher⟩ (some mo) (some y) w)

/-- What the callback is registered for. -/
def Topic.slot : Topic → Slot
  | .lightStatus | .dimmerStatus => .lightStatus
  | .automationStatus => .automation
  | .temporization => .lightTemporization
  | .brightness => .lightLuminosity
  | .hsv => .lightHsv
  | .whiteTemperature => .lightWhite
  | .time => .gateway cs!"0"
  | .date => .gateway cs!"1"
  | .ip => .gateway cs!"10"
  | .netmask => .gateway cs!"11"
  | .mac => .gateway cs!"12"
  | .model => .gateway cs!"15"
  | .firmware => .gateway cs!"16"
  | .uptime => .gateway cs!"19"
  | .datetime => .gateway cs!"22"
  | .kernel => .gateway cs!"23"
  | .distribution => .gateway cs!"24"
  | .power => .energy cs!"113"
  | .energy => .energy cs!"51"
  | .month => .energy cs!"53"
  | .day => .energy cs!"54"
  | .actuator => .energy cs!"71"
  | .level => .energy cs!"73"
  | .totalizer _ => .energy cs!"72"
  | .perMonth _ _ => .energy cs!"52"

/-- The dimension in the documentation; none for what is told by a state. -/
def Topic.dimension : Topic → Option Str
  | .lightStatus | .dimmerStatus | .automationStatus => none
  | .temporization => some cs!"2"
  | .brightness => some cs!"1"
  | .hsv => some cs!"12"
  | .whiteTemperature => some cs!"14"
  | .time => some cs!"0"
  | .date => some cs!"1"
  | .ip => some cs!"10"
  | .netmask => some cs!"11"
  | .mac => some cs!"12"
  | .model => some cs!"15"
  | .firmware => some cs!"16"
  | .uptime => some cs!"19"
  | .datetime => some cs!"22"
  | .kernel => some cs!"23"
  | .distribution => some cs!"24"
  | .power => some cs!"113"
  | .energy => some cs!"51"
  | .month => some cs!"53"
  | .day => some cs!"54"
  | .actuator => some cs!"71"
  | .level => some cs!"73"
  | .totalizer n => some (cs!"72#" ++ natToStr n)
  | .perMonth y mo => some (cs!"52#" ++ natToStr y ++ '#' :: natToStr mo)

/-- The system it is about. -/
def Topic.who : Topic → Who
  | .lightStatus | .dimmerStatus | .temporization | .brightness | .hsv | .whiteTemperature => .lighting
  | .automationStatus => .automation
  | .time | .date | .ip | .netmask | .mac | .model | .firmware | .uptime | .datetime | .kernel | .distribution => .gateway
  | _ => .energyManagement

/-- The messages that tell it. -/
def Topic.Tells (t : Topic) (wher : Tag) (m : Msg) : Prop :=
  match t.dimension with
  | none => ∃ what, m = .normal t.who what wher
  | some d => ∃ vs, m = .dimResp t.who wher ⟨d⟩ vs

/-- Whoever listens is told a message as whoever asked is told by it: the same arguments, or nothing at all. -/
def Topic.Agrees (t : Topic) (cfg : Config) : Prop :=
  ∀ (wher : Tag) (m : Msg) (w : World), Placed t.who wher.string → t.Tells wher m → Clean m → Ready cfg w →
    w.inbox = [.msg m, .msg .ack] →
    (∀ args, (t.ask cfg wher w).1 = [args] → Delivers m t.slot args) ∧ ((t.ask cfg wher w).1 = [] → Ignored m)

end Spec
