import Verif.Model.Gateway
import Verif.Model.Energy
import Verif.Model.Queries
import Verif.Model.Protocol

/-!
# Items, callbacks and the event loop (`pyown/client/client.py`, `call_callbacks` of the items)

Simplifications.
* Callbacks are numbered; what calling one does is a parameter (`Call`): either it raises at once, or a task is made.  Calling
  does not change the registrations, the items or the connection; a callback that wants to do so does it in its body, which
  runs later, as a step of its own (`Step`).
* The item classes are those of the library.  (Further subclasses of `BaseItem`: `Verif/Model/OwnClasses.lean`.)
* `asyncio.CancelledError` and the other exceptions that are not an `Exception` are not modelled, nor is logging.
* `loop()` is called at most once on the client.
-/

open Py

namespace Events

/-! ## Items -/

/-- The concrete item classes (`items/lighting/light.py:11`, `dimmer.py:11`, `automation.py:48`, `camera.py:123`,
`gateway.py:92`, `energy.py:18`, `stop_go.py:16`). -/
inductive Cls where
  | light | dimmer | automation | camera | gateway | energyManagement | stopGo
  deriving DecidableEq, Repr

/-- An item object: its identity, its class, its `_who` and `_where`, and the number of its client.
`items/base.py:46-55`. -/
structure Obj where
  id : Nat
  cls : Cls
  item : Item
  client : Nat
  deriving DecidableEq, Repr

/-- `ITEM_TYPES` (`items/utils.py:12-17`). -/
def itemTypes : List (Who × Cls) :=
  [(.lighting, .light), (.automation, .automation), (.gateway, .gateway), (.energyManagement, .energyManagement)]

/-- `factory(client, where)`: the `_who` and `_where` of the new item (`items/base.py:38-56`, `gateway.py:99-105`,
`energy.py:33-45`). -/
def construct (c : Cls) (wher : Tag) : Except Err Item :=
  match c with
  | .light => .ok ⟨.lighting, wher⟩
  | .dimmer => .ok ⟨.lighting, wher⟩
  | .automation => .ok ⟨.automation, wher⟩
  | .camera => .ok ⟨.videoDoorEntry, wher⟩
  | .gateway => .ok Gateway.item
  | .energyManagement => EnergyManagement.newTag wher
  | .stopGo => StopGo.newTag wher

/-- The items of a client: `_items` (`client.py:53`), and the identity the next object will have. -/
structure Items where
  cache : List ((Who × Str) × Obj)
  next : Nat
  deriving DecidableEq

/-- `Client._items = {}`: `client.py:53`. -/
def Items.init : Items := ⟨[], 0⟩

/-- `get_item` (`client.py:55-77`).  Keys are compared by their texts (`tags/base.py:78-89`). -/
def getItem (client : Nat) (who : Who) (wher : Tag) (s : Items) : Except Err Obj × Items :=
  match s.cache.lookup (who, wher.string) with
  | some o => (.ok o, s)
  | none =>
    match itemTypes.lookup who with
    | none => (.error .keyError, s)
    | some c =>
      match construct c wher with
      | .error e => (.error e, s)
      | .ok i =>
        let o : Obj := ⟨s.next, c, i, client⟩
        (.ok o, ⟨((who, wher.string), o) :: s.cache, s.next + 1⟩)

/-! ## Registration -/

/-- A callback.  `CoroutineCallback` (`items/base.py:21`). -/
abbrev Cb := Nat

/-- `LightEvents` (`lighting/base.py:18-33`). -/
inductive LightEvents where
  | statusChange | luminosityChange | lightTemporization | hsvChange | whiteTempChange
  deriving DecidableEq, Repr

/-- The `_event_callbacks` dictionaries, as functions that give the empty list for a missing key.  There is one for all
lights (`lighting/base.py:122`) and one for all energy items (`energy.py:31`): the subclasses inherit them. -/
structure Registry where
  /-- `BaseLight._event_callbacks` -/
  light : LightEvents → List Cb
  /-- `Automation._event_callbacks`, of which only the key `ALL` is used (`automation.py:53`, `:92`) -/
  automation : List Cb
  /-- `Camera._event_callbacks`, of which only the key `ALL` is used (`camera.py:137`, `:250`) -/
  camera : List Cb
  /-- `Gateway._event_callbacks` (`gateway.py:97`) -/
  gateway : Str → List Cb
  /-- `EnergyManagement._event_callbacks` (`energy.py:31`) -/
  energy : Str → List Cb

/-- Nothing registered.  `lighting/base.py:122`, `automation.py:53`, `camera.py:137`, `energy.py:31`, `gateway.py:97`. -/
def Registry.init : Registry := ⟨fun _ => [], [], [], fun _ => [], fun _ => []⟩

/-- `dict.setdefault(k, []).append(cb)`: `lighting/base.py:214`, `gateway.py:457-460`, and so on. -/
def addTo {κ : Type} [DecidableEq κ] (d : κ → List Cb) (k : κ) (cb : Cb) : κ → List Cb :=
  fun k' => if k' = k then d k ++ [cb] else d k'

/-- The methods that register a callback.
`lighting/base.py`, `dimmer.py`, `automation.py`, `camera.py`, `energy.py`, `gateway.py`, lines below. -/
inductive Method where
  /-- `BaseLight.on_status_change` (`lighting/base.py:206-214`), `Automation.on_status_change` (`automation.py:79-92`),
  `Camera.on_status_change` (`camera.py:240-250`) -/
  | onStatusChange
  /-- `lighting/base.py:216-226` -/
  | onTemporizationChange
  /-- `dimmer.py:210-220` -/
  | onLuminosityChange
  /-- `dimmer.py:222-230` -/
  | onHsvChange
  /-- `dimmer.py:232-240` -/
  | onWhiteTempChange
  /-- `Gateway.register_callback(what, …)` (`gateway.py:449-460`) -/
  | registerCallback (what : Str)
  /-- `energy.py:360-376` -/
  | onDailyTotalizersHourly
  /-- `energy.py:378-393` -/
  | onMonthlyAverageHourly
  /-- `energy.py:395-411` -/
  | onMonthlyTotalizersCurrentYear
  /-- `energy.py:413-429` -/
  | onMonthlyTotalizersLastYear
  /-- `energy.py:431-441` -/
  | onStopGoStatus
  /-- `energy.py:443-451` -/
  | onInstantPower
  /-- `energy.py:453-463` -/
  | onEnergyUnitTotalizer
  /-- `energy.py:465-475` -/
  | onEnergyUnitPerMonth
  /-- `energy.py:477-489` -/
  | onPartialTotalizerCurrentMonth
  /-- `energy.py:491-503` -/
  | onPartialTotalizerCurrentDay
  /-- `energy.py:505-515` -/
  | onActuatorsInfo
  /-- `energy.py:517-529` -/
  | onTotalizerSinceReset
  /-- `energy.py:531-543` -/
  | onDifferentialCurrentLevel
  deriving DecidableEq, Repr

/-- The key under which an energy method registers (lines as in `Method`).  `energy.py:358-543`. -/
def Method.energyKey : Method → Option Str
  | .onDailyTotalizersHourly => some DimensionEnergy.dailyTotalizersHourly16bit
  | .onMonthlyAverageHourly => some DimensionEnergy.monthlyAverageHourly16bit
  | .onMonthlyTotalizersCurrentYear => some DimensionEnergy.monthlyTotalizersCurrentYear32bit
  | .onMonthlyTotalizersLastYear => some DimensionEnergy.monthlyTotalizersLastYear32bit
  | .onStopGoStatus => some DimensionEnergy.statusStopGoGeneral
  | .onInstantPower => some DimensionEnergy.activePower
  | .onEnergyUnitTotalizer => some DimensionEnergy.energyUnitTotalizer
  | .onEnergyUnitPerMonth => some DimensionEnergy.energyUnitPerMonth
  | .onPartialTotalizerCurrentMonth => some DimensionEnergy.partialTotalizerCurrentMonth
  | .onPartialTotalizerCurrentDay => some DimensionEnergy.partialTotalizerCurrentDay
  | .onActuatorsInfo => some DimensionEnergy.actuatorsInfo
  | .onTotalizerSinceReset => some DimensionEnergy.totalizers
  | .onDifferentialCurrentLevel => some DimensionEnergy.differentialCurrentLevel
  | _ => none

/-- `cls.method(cb)`; a method the class does not have is an `AttributeError`.
`lighting/base.py:214`, `dimmer.py:220-240`, `automation.py:92`, `camera.py:250`, `energy.py:374-543`, `gateway.py:457-460`. -/
def register (c : Cls) (m : Method) (cb : Cb) (r : Registry) : Except Err Registry :=
  match c, m with
  | .light, .onStatusChange | .dimmer, .onStatusChange => .ok { r with light := addTo r.light .statusChange cb }
  | .light, .onTemporizationChange | .dimmer, .onTemporizationChange =>
    .ok { r with light := addTo r.light .lightTemporization cb }
  | .dimmer, .onLuminosityChange => .ok { r with light := addTo r.light .luminosityChange cb }
  | .dimmer, .onHsvChange => .ok { r with light := addTo r.light .hsvChange cb }
  | .dimmer, .onWhiteTempChange => .ok { r with light := addTo r.light .whiteTempChange cb }
  | .automation, .onStatusChange => .ok { r with automation := r.automation ++ [cb] }
  | .camera, .onStatusChange => .ok { r with camera := r.camera ++ [cb] }
  | .gateway, .registerCallback what => .ok { r with gateway := addTo r.gateway what cb }
  | .energyManagement, m | .stopGo, m =>
    match m.energyKey with
    | some k => .ok { r with energy := addTo r.energy k cb }
    | none => .error .attributeError
  | _, _ => .error .attributeError

/-! ## Calling the callbacks -/

/-- An argument passed to a callback, after the item.  `items/base.py:85`. -/
inductive Arg where
  | bool (b : Bool)
  | int (n : Int)
  | str (s : Str)
  | float (x : PyFloat)
  | automation (what : Str)
  | camera (what : Str)
  | message (m : Msg)
  | time (t : Time)
  | date (d : Date)
  | datetime (t : DateTime)
  /-- in seconds -/
  | timedelta (n : Int)
  | ip (n : Nat)
  | stopGo (s : StopGoStatus)
  | actuator (s : ActuatorStatus)
  deriving DecidableEq, Repr

/-- A task made for a callback: the callback and its arguments.  `items/base.py:85`. -/
structure Start where
  cb : Cb
  item : Obj
  args : List Arg
  deriving DecidableEq, Repr

/-- What `asyncio.create_task(func(item, *args))` does.  `items/base.py:85`. -/
abbrev Call := Start → Except Err Unit

/-- `_create_tasks(funcs, item, *args)` (`items/base.py:83-85`): the tasks made, and how it ended.  A list comprehension: an
exception ends it, the tasks made before stay. -/
def createTasks (call : Call) (funcs : List Cb) (item : Obj) (args : List Arg) : List Start × Except Err Unit :=
  match funcs with
  | [] => ([], .ok ())
  | f :: fs =>
    match call ⟨f, item, args⟩ with
    | .error e => ([], .error e)
    | .ok () =>
      let (ts, r) := createTasks call fs item args
      (⟨f, item, args⟩ :: ts, r)

/-- The event of a light message: the key and the arguments (`lighting/base.py:233-270`). -/
def lightEvent : Msg → Except Err (Option (LightEvents × List Arg))
  | .dimResp _ _ dim vs => do
    let t ← dim.tag
    if t = cs!"1" then
      let a ← intAt vs 0
      let b ← intAt vs 1
      let c ← intAt vs 2
      return some (.lightTemporization, [.int a, .int b, .int c])
    else if t = cs!"8" then
      let a ← intAt vs 0
      let b ← intAt vs 1
      return some (.luminosityChange, [.int a, .int b])
    else if t = cs!"12" then
      let a ← intAt vs 0
      let b ← intAt vs 1
      let c ← intAt vs 2
      return some (.hsvChange, [.int a, .int b, .int c])
    else if t = cs!"13" then
      let a ← intAt vs 0
      return some (.whiteTempChange, [.int a])
    else return none
  | .normal _ what _ => .ok (some (.statusChange, [.bool (what.string = WhatLight.on)]))
  | m => .error (.invalidMessage m.str)

/-- `BaseLight.call_callbacks` (`lighting/base.py:228-272`). -/
def lightCallbacks (call : Call) (r : Registry) (item : Obj) (m : Msg) : List Start × Except Err Unit :=
  match lightEvent m with
  | .error e => ([], .error e)
  | .ok none => ([], .ok ())
  | .ok (some (k, args)) => createTasks call (r.light k) item args

/-- The arguments of an automation event (`automation.py:99-106`). -/
def automationEvent : Msg → Except Err (List Arg)
  | .normal _ what _ => do
    let s ← WhatAutomation.ofStr what.string
    return [.automation s]
  | m => .error (.invalidMessage m.str)

/-- `Automation.call_callbacks` (`automation.py:94-108`). -/
def automationCallbacks (call : Call) (r : Registry) (item : Obj) (m : Msg) : List Start × Except Err Unit :=
  match automationEvent m with
  | .error e => ([], .error e)
  | .ok args => createTasks call r.automation item args

/-- The arguments of a camera event (`camera.py:257-265`). -/
def cameraEvent : Msg → Except Err (List Arg)
  | m@(.normal _ what _) => do
    let s ← WhatCamera.ofStr what.string
    return [.camera s, .message m]
  | m => .error (.invalidMessage m.str)

/-- `Camera.call_callbacks` (`camera.py:252-267`). -/
def cameraCallbacks (call : Call) (r : Registry) (item : Obj) (m : Msg) : List Start × Except Err Unit :=
  match cameraEvent m with
  | .error e => ([], .error e)
  | .ok args => createTasks call r.camera item args

/-- `*args` of a `str`: one argument per character (`gateway.py:509-510`). -/
def splat (s : Str) : List Arg := s.map fun c => .str [c]

/-- The value of a gateway event, ready to be passed on (`gateway.py:481-512`): a `str`, also a `GatewayModel`, is a
`Sequence` and is unpacked.  With a message, the getters of `Verif/Model/Gateway.lean` only decode it. -/
def gatewayArgs (what : Str) (vs : List Tag) : Except Err (Option (List Arg)) :=
  if what = WhatGateway.time then (Gateway.decodeTime vs).map fun t => some [.time t]
  else if what = WhatGateway.date then (Gateway.decodeDate vs).map fun d => some [.date d]
  else if what = WhatGateway.ipAddress then (Gateway.dotted vs >>= ipv4).map fun n => some [.ip n]
  else if what = WhatGateway.netMask then (Gateway.dotted vs).map fun s => some (splat s)
  else if what = WhatGateway.macAddress then (Gateway.decodeMac vs).map fun s => some (splat s)
  else if what = WhatGateway.deviceType then
    ((Gateway.valueAt vs 0).map GatewayModel.ofStr).map fun m => some (splat m.code)
  else if what = WhatGateway.firmwareVersion then (Gateway.decodeVersion vs).map fun s => some (splat s)
  else if what = WhatGateway.uptime then (Gateway.decodeUptime vs).map fun n => some [.timedelta n]
  else if what = WhatGateway.dateTime then (Gateway.decodeDateTime vs).map fun t => some [.datetime t]
  else if what = WhatGateway.kernelVersion then (Gateway.decodeVersion vs).map fun s => some (splat s)
  else if what = WhatGateway.distributionVersion then (Gateway.decodeVersion vs).map fun s => some (splat s)
  else .ok none

/-- The event of a gateway message (`gateway.py:470-514`); a writing is turned into a response first. -/
def gatewayEvent : Msg → Except Err (Option (Str × List Arg))
  | .dimWrite _ _ dim vs | .dimResp _ _ dim vs => do
    let what ← WhatGateway.ofStr dim.string
    let args ← gatewayArgs what vs
    return args.map fun a => (what, a)
  | _ => .error (.invalidMessage cs!"The message is not a DimensionResponse message.")

/-- `Gateway.call_callbacks` (`gateway.py:462-516`). -/
def gatewayCallbacks (call : Call) (r : Registry) (item : Obj) (m : Msg) : List Start × Except Err Unit :=
  if item.cls ≠ .gateway then ([], .error (.invalidMessage m.str))
  else
    match gatewayEvent m with
    | .error e => ([], .error e)
    | .ok none => ([], .ok ())
    | .ok (some (k, args)) => createTasks call (r.gateway k) item args

/-- The arguments of the events with a month in the dimension (`energy.py:563-582`). -/
def monthArgs (dim : Str) (vs : List Tag) : Except Err (List Arg) := do
  let p ← index (Tag.mk dim).parameters 0
  let month ← pyInt p
  let s ← EnergyManagement.textAt vs 0
  let a ← pyInt s
  let v ← EnergyManagement.textAt vs 1
  let x ← pyFloat v
  return [.int month, .int a, .float x]

/-- The status in a Stop&Go event (`energy.py:584-598`), in the order of evaluation. -/
def stopGoArgs (vs : List Tag) : Except Err StopGoStatus := do
  let b0 ← EnergyManagement.charInt vs 0
  let b1 ← EnergyManagement.charInt vs 1
  let b2 ← EnergyManagement.charInt vs 2
  let b3 ← EnergyManagement.charInt vs 3
  let b4 ← EnergyManagement.charInt vs 4
  let b5 ← EnergyManagement.charInt vs 5
  let b6 ← EnergyManagement.charInt vs 6
  let b7 ← EnergyManagement.charInt vs 7
  let b8 ← EnergyManagement.charInt vs 8
  let b9 ← EnergyManagement.charInt vs 9
  let b10 ← EnergyManagement.charInt vs 10
  let b11 ← EnergyManagement.charInt vs 11
  let b12 ← EnergyManagement.charInt vs 12
  return {
    isOpen := decide (b0 ≠ 0), failure := decide (b1 ≠ 0), block := decide (b2 ≠ 0), openCc := decide (b3 ≠ 0),
    openGroundFault := decide (b4 ≠ 0), openVmax := decide (b5 ≠ 0), selfTestOff := decide (b6 ≠ 0),
    autoResetOff := decide (b7 ≠ 0), checkOff := decide (b8 ≠ 0), waitingClosing := decide (b9 ≠ 0),
    first24hOpen := decide (b10 ≠ 0), powerFailDown := decide (b11 ≠ 0), powerFailUp := decide (b12 ≠ 0) }

/-- The arguments of an energy event (`energy.py:562-627`); `dim` is a member of `DimensionEnergy`. -/
def energyArgs (dim : Str) (vs : List Tag) : Except Err (Option (List Arg)) := do
  let t ← (Tag.mk dim).tag
  if t = DimensionEnergy.dailyTotalizersHourly16bit ∨ t = DimensionEnergy.monthlyAverageHourly16bit ∨
      t = DimensionEnergy.monthlyTotalizersCurrentYear32bit ∨ t = DimensionEnergy.monthlyTotalizersLastYear32bit then
    (monthArgs dim vs).map some
  else if t = DimensionEnergy.statusStopGoGeneral then (stopGoArgs vs).map fun s => some [.stopGo s]
  else if t = DimensionEnergy.actuatorsInfo then (EnergyManagement.decodeActuator vs).map fun s => some [.actuator s]
  else if t = DimensionEnergy.activePower then (EnergyManagement.decodeFloat vs).map fun x => some [.float x]
  else if t = DimensionEnergy.energyUnitTotalizer then (EnergyManagement.decodeFloat vs).map fun x => some [.float x]
  else if t = DimensionEnergy.energyUnitPerMonth then
    let p ← index (Tag.mk dim).parameters 1
    let month ← pyInt p
    let p ← index (Tag.mk dim).parameters 0
    let year ← pyInt p
    let x ← EnergyManagement.decodeFloat vs
    return some [.int month, .int year, .float x]
  else if t = DimensionEnergy.partialTotalizerCurrentMonth then
    (EnergyManagement.decodeFloat vs).map fun x => some [.float x]
  else if t = DimensionEnergy.partialTotalizerCurrentDay then
    (EnergyManagement.decodeFloat vs).map fun x => some [.float x]
  else if t = DimensionEnergy.totalizers then
    let p ← index (Tag.mk dim).parameters 0
    let _ ← pyInt p
    let (d, x) ← EnergyManagement.decodeTotalizers vs
    return some [.datetime d, .float x]
  else if t = DimensionEnergy.differentialCurrentLevel then
    (EnergyManagement.decodeLevel vs).map fun n => some [.int n]
  else return none

/-- The event of an energy message (`energy.py:548-627`). -/
def energyEvent : Msg → Except Err (Option (Str × List Arg))
  | .dimResp _ _ dim vs => do
    let d ← DimensionEnergy.ofStr dim.string
    let args ← energyArgs d vs
    return args.map fun a => (d, a)
  | _ => .error (.invalidMessage cs!"The message is not a DimensionResponse message.")

/-- `EnergyManagement.call_callbacks` (`energy.py:545-631`). -/
def energyCallbacks (call : Call) (r : Registry) (item : Obj) (m : Msg) : List Start × Except Err Unit :=
  if m.isDimResp = false then ([], .error (.invalidMessage cs!"The message is not a DimensionResponse message."))
  else if item.cls ≠ .energyManagement ∧ item.cls ≠ .stopGo then
    ([], .error (.invalidMessage cs!"The item is not an EnergyManagement instance."))
  else
    match energyEvent m with
    | .error e => ([], .error e)
    | .ok none => ([], .ok ())
    | .ok (some (k, args)) => createTasks call (r.energy k) item args

/-! ## Dispatching -/

/-- Python versions, as far as they matter: a `classmethod` around a `property` (`items/base.py:68-72`) gives the property's
value up to 3.12; from 3.13 on it gives a bound method object, which is equal to no tag. -/
inductive Python where
  | upTo312 | from313
  deriving DecidableEq, Repr

/-- The direct subclasses of `BaseItem`.  `client.py:153`. -/
inductive Base where
  | automation | camera | energyManagement | gateway | baseLight
  deriving DecidableEq, Repr

/-- `BaseItem.__subclasses__()`: in the order of `items/__init__.py:1-5`. -/
def subclasses : List Base := [.automation, .camera, .energyManagement, .gateway, .baseLight]

/-- `_who` of the class (`automation.py:51`, `camera.py:135`, `energy.py:29`, `gateway.py:95`, `lighting/base.py:120`). -/
def Base.who : Base → Who
  | .automation => .automation
  | .camera => .videoDoorEntry
  | .energyManagement => .energyManagement
  | .gateway => .gateway
  | .baseLight => .lighting

/-- `message.who == item_obj.who` (`client.py:154`, `items/base.py:68-72`). -/
def whoMatches (py : Python) (m : Msg) (b : Base) : Bool :=
  match py with
  | .upTo312 => m.who = some b.who
  | .from313 => false

/-- `item_obj.call_callbacks(item, message)`: `client.py:156`. -/
def Base.callCallbacks (call : Call) (r : Registry) (item : Obj) (m : Msg) : Base → List Start × Except Err Unit
  | .automation => automationCallbacks call r item m
  | .camera => cameraCallbacks call r item m
  | .energyManagement => energyCallbacks call r item m
  | .gateway => gatewayCallbacks call r item m
  | .baseLight => lightCallbacks call r item m

/-- The `for` loop of `_dispatch_callbacks` (`client.py:153-171`): the tasks made.  An exception is logged and the loop goes
on; success breaks it.  No exception gets out. -/
def dispatchIn (py : Python) (call : Call) (r : Registry) (item : Obj) (m : Msg) : List Base → List Start
  | [] => []
  | b :: bs =>
    if whoMatches py m b then
      match b.callCallbacks call r item m with
      | (ts, .error _) => ts ++ dispatchIn py call r item m bs
      | (ts, .ok ()) => ts
    else dispatchIn py call r item m bs

/-- `_dispatch_callbacks` (`client.py:145-171`). -/
def dispatch (py : Python) (call : Call) (r : Registry) (item : Obj) (m : Msg) : List Start :=
  dispatchIn py call r item m subclasses

/-! ## The loop -/

/-- The body of the `while` of `loop()` for one message (`client.py:124-143`): the tasks made, the items afterwards, and the
exception that leaves `loop()`, if any.  `client` is the argument of `loop()`, or the client itself (`client.py:111-112`). -/
def handle (py : Python) (call : Call) (client : Nat) (r : Registry) (s : Items) (m : Msg) :
    Except Err (List Start) × Items :=
  if m.type = .ack ∨ m.type = .nack then (.ok [], s)
  else if m.type = .generic then (.ok [], s)
  else
    match m.who, m.wher with
    | some who, some wher =>
      match getItem client who wher s with
      | (.error .keyError, s') => (.ok [], s')
      | (.error e, s') => (.error e, s')
      | (.ok o, s') => (.ok (dispatch py call r o m), s')
    | _, _ => (.ok [], s)

/-- `_transport`: open, `is_closing()`, or `None` after `close()` (`client/base.py:243-249`). -/
inductive Transport where
  | opened | closing | gone
  deriving DecidableEq, Repr

/-- The task that runs `loop()`.  `client.py:79-143`. -/
inductive Task where
  /-- not called yet -/
  | none
  /-- suspended in `read_message` (`client.py:118`) -/
  | waiting
  | returned
  | raised (e : Err)
  deriving DecidableEq, Repr

/-- The client with its event loop.  `client/base.py:56-68`, `client.py:53`. -/
structure State where
  session : Session
  transport : Transport
  queue : List Msg
  registry : Registry
  items : Items
  task : Task
  /-- the `client` argument of `loop()` -/
  client : Nat
  /-- tasks made for callbacks, in order -/
  trace : List Start

/-- A connected client (after `start()`), nothing registered.  `client/base.py:81-139`, `client.py:53`. -/
def State.init (session : Session) (client : Nat) : State :=
  ⟨session, .opened, [], .init, .init, .none, client, []⟩

/-- `loop()` takes messages from the queue until it suspends or ends (`client.py:115-143`).  It does not suspend while there
are messages; then it awaits `queue.get()` (`protocol.py:130`). -/
def drain (py : Python) (call : Call) (s : State) : List Msg → State
  | [] => { s with queue := [], task := .waiting }
  | m :: q =>
    match handle py call s.client s.registry s.items m with
    | (.error e, items) => { s with queue := q, items := items, task := .raised e }
    | (.ok ts, items) =>
      let s := { s with queue := q, items := items, trace := s.trace ++ ts }
      match s.transport with
      | .opened => drain py call s q
      | .closing => { s with task := .returned }
      | .gone => { s with task := .raised .attributeError }

/-- What can happen.  `protocol.py:53-95`, `client.py:79-143`, `client/base.py:243-249`. -/
inductive Step where
  /-- the transport delivers a packet -/
  | packet (data : List UInt8)
  /-- the connection breaks: end of file, reset, and so on -/
  | lost
  /-- `client.close()` -/
  | close
  /-- `cls.method(cb)` -/
  | register (cls : Cls) (method : Method) (cb : Cb)
  /-- `client.get_item(who, where, client=…)` -/
  | getItem (who : Who) (wher : Tag) (client : Nat)
  /-- `loop()` is called and runs until it suspends or ends -/
  | loop
  /-- the suspended task of `loop()` is resumed -/
  | resume
  deriving DecidableEq

/-- `loop()` up to its first suspension (`client.py:105-115`). -/
def State.start (py : Python) (call : Call) (s : State) : State :=
  if s.session ≠ .event then { s with task := .raised .invalidSession }
  else
    match s.transport with
    | .gone => { s with task := .raised .invalidSession }
    | .closing => { s with task := .returned }
    | .opened => drain py call s s.queue

/-- One step.  Packets are delivered while the transport is open; a packet that makes `data_received` raise closes it
(see `Protocol.receiveAll`).  `protocol.py:64-95`, `client.py:115-143`, `client/base.py:243-249`. -/
def State.step (py : Python) (call : Call) (s : State) : Step → State
  | .packet d =>
    if s.transport = .opened then
      match Protocol.dataReceived s.queue d with
      | (.ok _, q) => { s with queue := q }
      | (.error _, q) => { s with queue := q, transport := .closing }
    else s
  | .lost => if s.transport = .opened then { s with transport := .closing } else s
  | .close => { s with transport := .gone }
  | .register c m cb =>
    match Events.register c m cb s.registry with
    | .ok r => { s with registry := r }
    | .error _ => s
  | .getItem who wher client => { s with items := (Events.getItem client who wher s.items).2 }
  | .loop => if s.task = .none then s.start py call else s
  | .resume =>
    -- `get()` suspends again when the queue is empty
    if s.task = .waiting ∧ s.queue ≠ [] then drain py call s s.queue else s

/-- A history of the steps of `client.py:79-171`. -/
def State.run (py : Python) (call : Call) (s : State) (h : List Step) : State := h.foldl (State.step py call) s

end Events
