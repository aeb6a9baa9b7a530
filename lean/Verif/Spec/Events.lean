import Verif.Model.Events
import Verif.Spec.Energy
import Verif.Spec.HexText

/-!
# Items, callbacks and events

Written from the docstrings of `get_item`, `loop`, the `on_…` methods and `register_callback`.
-/

open Py Events

namespace Spec

/-! ## Items -/

/-- The item classes by WHO, as text. -/
def classOf (who : Str) : Option Cls :=
  if who = cs!"1" then some .light
  else if who = cs!"2" then some .automation
  else if who = cs!"13" then some .gateway
  else if who = cs!"18" then some .energyManagement
  else none

/-- Addresses at which there can be an item: any, except that energy items have documented addresses. -/
def Placed (who : Who) (wher : Str) : Prop := who.code = cs!"18" → ∃ t, EnergyAddress wher t

/-- A message that is about no item. -/
def NoItem (m : Msg) : Prop :=
  m = .ack ∨ m = .nack ∨ (∃ ts, m = .generic ts) ∨ ∃ who, m.who = some who ∧ classOf who.code = none

/-- A message whose item, if it is about one, can exist. -/
def Harmless (m : Msg) : Prop := ∀ who wher, m.who = some who → m.wher = some wher → Placed who wher.string

/-! ## Registrations -/

/-- What a callback can be registered for. -/
inductive Slot where
  | lightStatus | lightTemporization | lightLuminosity | lightHsv | lightWhite | automation | camera
  | gateway (what : Str)
  | energy (dim : Str)
  deriving DecidableEq

/-- What `cls.method(cb)` registers `cb` for; nothing if the class has no such method. -/
def slotOf : Cls → Method → Option Slot
  | .light, .onStatusChange | .dimmer, .onStatusChange => some .lightStatus
  | .light, .onTemporizationChange | .dimmer, .onTemporizationChange => some .lightTemporization
  | .dimmer, .onLuminosityChange => some .lightLuminosity
  | .dimmer, .onHsvChange => some .lightHsv
  | .dimmer, .onWhiteTempChange => some .lightWhite
  | .automation, .onStatusChange => some .automation
  | .camera, .onStatusChange => some .camera
  | .gateway, .registerCallback what => some (.gateway what)
  | c, m =>
    if c = .energyManagement ∨ c = .stopGo then
      match m with
      | .onInstantPower => some (.energy cs!"113")
      | .onEnergyUnitTotalizer => some (.energy cs!"51")
      | .onEnergyUnitPerMonth => some (.energy cs!"52")
      | .onPartialTotalizerCurrentMonth => some (.energy cs!"53")
      | .onPartialTotalizerCurrentDay => some (.energy cs!"54")
      | .onActuatorsInfo => some (.energy cs!"71")
      | .onTotalizerSinceReset => some (.energy cs!"72")
      | .onDifferentialCurrentLevel => some (.energy cs!"73")
      | .onStopGoStatus => some (.energy cs!"250")
      | .onDailyTotalizersHourly => some (.energy cs!"511")
      | .onMonthlyAverageHourly => some (.energy cs!"512")
      | .onMonthlyTotalizersCurrentYear => some (.energy cs!"513")
      | .onMonthlyTotalizersLastYear => some (.energy cs!"514")
      | _ => none
    else none

/-- The callbacks a history registers for `slot`, in order. -/
def registered (slot : Slot) : List Step → List Cb
  | [] => []
  | .register c m cb :: h => if slotOf c m = some slot then cb :: registered slot h else registered slot h
  | _ :: h => registered slot h

/-- Classes that share their callbacks. -/
def family : Cls → Nat
  | .light | .dimmer => 1
  | .automation => 2
  | .camera => 7
  | .gateway => 13
  | .energyManagement | .stopGo => 18

/-! ## Histories -/

/-- The state of a client with session type `session`, connected and never used before, after a history. -/
def after (py : Python) (call : Call) (session : Session) (client : Nat) (h : List Step) : State :=
  (State.init session client).run py call h

/-- `loop()` waits for the next event, the connection is up, and `q` are the events received but not yet handled. -/
def Waiting (s : State) (q : List Msg) : Prop := s.task = .waiting ∧ s.transport = .opened ∧ s.queue = q

/-- The item for `m` after the state `s`. -/
def itemFor (s : State) (m : Msg) : Option Obj :=
  match m.who, m.wher with
  | some who, some wher => s.items.cache.lookup (who, wher.string)
  | _, _ => none

/-- Every call of a callback makes a task. -/
def AllStart (call : Call) : Prop := ∀ st, call st = .ok ()

/-- On Python up to 3.12: whenever `loop()` waits and `m` is the only event received, the next run of `loop()` starts the
callbacks registered for `slot`, each once, in the order of registration, with the item of `m` and `args`, and waits
again. -/
def Delivers (m : Msg) (slot : Slot) (args : List Arg) : Prop :=
  ∀ call session client h, AllStart call → Waiting (after .upTo312 call session client h) [m] →
    ∃ o, itemFor (after .upTo312 call session client (h ++ [.resume])) m = some o ∧
      (after .upTo312 call session client (h ++ [.resume])).trace =
        (after .upTo312 call session client h).trace ++ (registered slot h).map (fun cb => ⟨cb, o, args⟩) ∧
      Waiting (after .upTo312 call session client (h ++ [.resume])) []

/-- On every Python: whenever `loop()` waits and `m` is the only event received, the next run of `loop()` starts no callback
and waits again. -/
def Ignored (m : Msg) : Prop :=
  ∀ py call session client h, Waiting (after py call session client h) [m] →
    (after py call session client (h ++ [.resume])).trace = (after py call session client h).trace ∧
      Waiting (after py call session client (h ++ [.resume])) []

/-! ## Events -/

/-- The text before the first `#`. -/
def beforeHash : Str → Str
  | [] => []
  | c :: s => if c = '#' then [] else c :: beforeHash s

/-- Numbers as arguments. -/
def intArgs (r : Except Err (List Nat)) : Option (List Arg) :=
  match r with
  | .ok ns => some (ns.map fun n : Nat => Arg.int n)
  | .error _ => none

/-- A decoded value as arguments. -/
def valueArgs {α : Type} (f : α → List Arg) (r : Except Err α) : Option (List Arg) :=
  match r with
  | .ok a => some (f a)
  | .error _ => none

/-- What a gateway event is decoded to, by the getter for its dimension. -/
def gatewayValue (dim : Str) (vs : List Tag) : Option (List Arg) :=
  if dim = cs!"0" then valueArgs (fun t => [.time t]) (Gateway.decodeTime vs)
  else if dim = cs!"1" then valueArgs (fun t => [.date t]) (Gateway.decodeDate vs)
  else if dim = cs!"10" then valueArgs (fun t => [.ip t]) (Gateway.dotted vs >>= ipv4)
  else if dim = cs!"11" then valueArgs (fun s => s.map fun c => .str [c]) (Gateway.dotted vs)
  else if dim = cs!"12" then valueArgs (fun s => s.map fun c => .str [c]) (Gateway.decodeMac vs)
  else if dim = cs!"15" then
    valueArgs (fun m => (GatewayModel.code m).map fun c => .str [c]) ((Gateway.valueAt vs 0).map GatewayModel.ofStr)
  else if dim = cs!"19" then valueArgs (fun t => [.timedelta t]) (Gateway.decodeUptime vs)
  else if dim = cs!"22" then valueArgs (fun t => [.datetime t]) (Gateway.decodeDateTime vs)
  else if dim ∈ [cs!"16", cs!"23", cs!"24"] then valueArgs (fun s => s.map fun c => .str [c]) (Gateway.decodeVersion vs)
  else none

/-- The thirteen characters of a Stop&Go event, first to last, as the thirteen attributes. -/
def statusOfChars (bs : List Bool) : Option StopGoStatus :=
  match bs with
  | [b0, b1, b2, b3, b4, b5, b6, b7, b8, b9, b10, b11, b12] =>
    some ⟨b0, b1, b2, b3, b4, b5, b6, b7, b8, b9, b10, b11, b12⟩
  | _ => none

/-- What an energy event is decoded to. -/
def energyValue (dim : Str) (vs : List Tag) : Option (List Arg) :=
  if dim ∈ [cs!"113", cs!"51", cs!"53", cs!"54"] then valueArgs (fun x => [.float x]) (EnergyManagement.decodeFloat vs)
  else if dim = cs!"71" then valueArgs (fun x => [.actuator x]) (EnergyManagement.decodeActuator vs)
  else if dim = cs!"73" then valueArgs (fun x => [.int x]) (EnergyManagement.decodeLevel vs)
  else if dim = cs!"250" then
    match vs with
    | [] => none
    | v :: _ =>
      if 13 ≤ v.string.length ∧ Digits (v.string.take 13) then
        (statusOfChars ((v.string.take 13).map fun c => c ≠ '0')).map fun s => [.stopGo s]
      else none
  else none

/-- The event a message is: what it is called for and with which arguments, if any. -/
def firing : Msg → Option (Slot × List Arg)
  | .normal .lighting what _ => some (.lightStatus, [.bool (what.string = cs!"1")])
  | .dimResp .lighting _ dim vs =>
    if beforeHash dim.string = cs!"1" then (intArgs (numbers 3 vs)).map fun a => (.lightTemporization, a)
    else if beforeHash dim.string = cs!"8" then (intArgs (numbers 2 vs)).map fun a => (.lightLuminosity, a)
    else if beforeHash dim.string = cs!"12" then (intArgs (numbers 3 vs)).map fun a => (.lightHsv, a)
    else if beforeHash dim.string = cs!"13" then (intArgs (numbers 1 vs)).map fun a => (.lightWhite, a)
    else none
  | .normal .automation what _ =>
    if what.string ∈ [cs!"0", cs!"1", cs!"2"] then some (.automation, [.automation what.string]) else none
  | .dimResp .gateway _ dim vs => (gatewayValue dim.string vs).map fun a => (.gateway dim.string, a)
  | .dimWrite .gateway _ dim vs => (gatewayValue dim.string vs).map fun a => (.gateway dim.string, a)
  | .dimResp .energyManagement _ dim vs => (energyValue dim.string vs).map fun a => (.energy dim.string, a)
  | _ => none

/-- Messages whose tags hold digits and `#` only, as in every parsed message. -/
def Clean : Msg → Prop
  | .normal _ wa we => TagText wa.string ∧ TagText we.string
  | .status _ we => TagText we.string
  | .dimReq _ we d => TagText we.string ∧ TagText d.string
  | .dimWrite _ we d vs => TagText we.string ∧ TagText d.string ∧ ∀ v ∈ vs, TagText v.string
  | .dimResp _ we d vs => TagText we.string ∧ TagText d.string ∧ ∀ v ∈ vs, TagText v.string
  | _ => True

/-- The tasks started for `m` when its item is `o` and `regs` gives the registered callbacks: those before the first one
that raises. -/
def starts (call : Call) (regs : Slot → List Cb) (o : Obj) (m : Msg) : List Start :=
  match firing m with
  | none => []
  | some (slot, args) => ((regs slot).map fun cb => ⟨cb, o, args⟩).takeWhile fun st => call st == .ok ()

/-- The tasks started for `m`, whose item is to be found in `s`; none from Python 3.13 on. -/
def begun (py : Python) (call : Call) (regs : Slot → List Cb) (s : State) (m : Msg) : List Start :=
  match py, itemFor s m with
  | .upTo312, some o => starts call regs o m
  | _, _ => []

/-- The exception for an address at which there can be no item. -/
def placeError (wher : Str) : Err := if wher.head? = some '7' ∧ '#' ∉ wher then .indexError else .invalidTag wher

end Spec
