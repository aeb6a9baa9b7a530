import Verif.Model.Commands
import Verif.Py.Float
import Verif.Py.Calendar

/-!
# Energy items (`pyown/items/energy`)

Constructors, getters and status requests; the commands are in `Verif/Model/Commands.lean`.
-/

open Py M

/-- `TypeEnergy` (`energy/enums.py:114-125`). -/
inductive TypeEnergy where
  | stopGo | powerMeter | actuator
  deriving DecidableEq, Repr

/-- `s.isnumeric()` for tag text: not empty, and only digits.  Used at `energy.py:56-63`. -/
def isNumeric (s : Str) : Bool := s ≠ [] && s.all isDigit

/-- `ActuatorStatus` (`energy/dataclass.py:6-24`). -/
structure ActuatorStatus where
  disabled : Bool
  forcing : Bool
  threshold : Bool
  protection : Bool
  phase : Bool
  advanced : Bool
  deriving DecidableEq, Repr

/-- `StopGoStatus` (`energy/dataclass.py:27-58`). -/
structure StopGoStatus where
  isOpen : Option Bool := none
  failure : Option Bool := none
  block : Option Bool := none
  openCc : Option Bool := none
  openGroundFault : Option Bool := none
  openVmax : Option Bool := none
  selfTestOff : Option Bool := none
  autoResetOff : Option Bool := none
  checkOff : Option Bool := none
  waitingClosing : Option Bool := none
  first24hOpen : Option Bool := none
  powerFailDown : Option Bool := none
  powerFailUp : Option Bool := none
  deriving DecidableEq, Repr

namespace EnergyManagement

/-- `get_type` (`energy/energy.py:47-67`); `string[1:]` is `drop 1`. -/
def getType (w : Tag) : Except Err TypeEnergy := do
  if startsWith w.string cs!"1" && isNumeric (w.string.drop 1) then return .stopGo
  else if startsWith w.string cs!"5" && isNumeric (w.string.drop 1) then return .powerMeter
  else if startsWith w.string cs!"7" then
    let p ← index w.parameters 0
    if p = cs!"0" then
      let t ← w.tag
      if isNumeric (t.drop 1) then return .actuator
      else .error (.invalidTag w.string)
    else .error (.invalidTag w.string)
  else .error (.invalidTag w.string)

/-- `EnergyManagement(client, where)` with a `Where` (`energy/energy.py:33-45`). -/
def newTag (w : Tag) : Except Err Item := do
  let _ ← getType w
  return ⟨.energyManagement, w⟩

/-- `EnergyManagement(client, where)` with a `str` (`energy/energy.py:33-45`, `items/base.py:48-50`). -/
def new (s : Str) : Except Err Item := do
  let w ← Tag.ofStr s
  newTag w

/-- `message.values[k].string`, used at `energy.py:216-354, 565-624`, `stop_go.py:72`. -/
def textAt (vs : List Tag) (k : Nat) : Except Err Str := do
  let v ← index vs k
  return v.string

/-- `float(message.values[0].string)` (`energy/energy.py:216` and so on). -/
def decodeFloat (vs : List Tag) : Except Err PyFloat := do
  let s ← textAt vs 0
  pyFloat s

/-- The message to decode: the given one, or the first answer to a request (`energy/energy.py:301-302`, `:329-330`). -/
def response (cfg : Config) (i : Item) (dim : Except Err Tag) : Option Msg → M Msg
  | some m => return m
  | none => do
    let d ← lift dim
    Item.singleDimReq cfg i d

/-- `get_active_power` (`energy/energy.py:205-216`). -/
def getActivePower (cfg : Config) (i : Item) : M PyFloat := do
  let m ← response cfg i (Tag.ofStr DimensionEnergy.activePower) none
  lift (decodeFloat m.values)

/-- `get_energy_unit_totalizer` (`energy/energy.py:218-229`). -/
def getEnergyUnitTotalizer (cfg : Config) (i : Item) : M PyFloat := do
  let m ← response cfg i (Tag.ofStr DimensionEnergy.energyUnitTotalizer) none
  lift (decodeFloat m.values)

/-- `DimensionEnergy.ENERGY_UNIT_PER_MONTH.with_parameter(year).with_parameter(month)` (`energy/energy.py:254-256`). -/
def monthDimension (year month : Int) : Except Err Tag := do
  let d ← DimensionEnergy.withParameter DimensionEnergy.energyUnitPerMonth year
  d.withParameterInt month

/-- `get_energy_unit_per_month` (`energy/energy.py:231-258`); `now` is the year and the month of `datetime.now()`. -/
def getEnergyUnitPerMonth (cfg : Config) (now : Nat × Nat) (i : Item) (month year : Option Int) : M PyFloat := do
  let m ← response cfg i (monthDimension (year.getD (now.1 % 100 : Nat)) (month.getD now.2)) none
  lift (decodeFloat m.values)

/-- `get_partial_totalizer_current_month` (`energy/energy.py:260-273`). -/
def getPartialTotalizerCurrentMonth (cfg : Config) (i : Item) : M PyFloat := do
  let m ← response cfg i (Tag.ofStr DimensionEnergy.partialTotalizerCurrentMonth) none
  lift (decodeFloat m.values)

/-- `get_partial_totalizer_current_day` (`energy/energy.py:275-286`). -/
def getPartialTotalizerCurrentDay (cfg : Config) (i : Item) : M PyFloat := do
  let m ← response cfg i (Tag.ofStr DimensionEnergy.partialTotalizerCurrentDay) none
  lift (decodeFloat m.values)

/-- `int(message.values[0].string[k])` (`energy/energy.py:304-311`). -/
def charInt (vs : List Tag) (k : Nat) : Except Err Int := do
  let s ← textAt vs 0
  let c ← index s k
  pyInt [c]

/-- The status in `get_actuators_info` (`energy/energy.py:304-311`); arguments are evaluated in order. -/
def decodeActuator (vs : List Tag) : Except Err ActuatorStatus := do
  let a ← charInt vs 0
  let b ← charInt vs 1
  let c ← charInt vs 2
  let d ← charInt vs 3
  let e ← charInt vs 4
  let f ← charInt vs 5
  return ⟨a ≠ 0, b ≠ 0, c ≠ 0, d ≠ 0, e ≠ 0, !(f - 1 ≠ 0)⟩

/-- `get_actuators_info` (`energy/energy.py:288-311`). -/
def getActuatorsInfo (cfg : Config) (i : Item) (message : Option Msg) : M ActuatorStatus := do
  let m ← response cfg i (Tag.ofStr DimensionEnergy.actuatorsInfo) message
  lift (decodeActuator m.values)

/-- The result of `get_totalizers` (`energy/energy.py:332-339`). -/
def decodeTotalizers (vs : List Tag) : Except Err (DateTime × PyFloat) := do
  let energy ← decodeFloat vs
  let d ← textAt vs 1
  let m ← textAt vs 2
  let y ← textAt vs 3
  let h ← textAt vs 4
  let mi ← textAt vs 5
  let y ← pyInt y
  let m ← pyInt m
  let d ← pyInt d
  let h ← pyInt h
  let mi ← pyInt mi
  let t ← DateTime.newNaive y m d h mi
  return (t, energy)

/-- `get_totalizers` (`energy/energy.py:313-339`). -/
def getTotalizers (cfg : Config) (i : Item) (totN : Int) (message : Option Msg) : M (DateTime × PyFloat) := do
  let m ← response cfg i (DimensionEnergy.withParameter DimensionEnergy.totalizers totN) message
  lift (decodeTotalizers m.values)

/-- The result of `get_differential_current_level` (`energy/energy.py:354`). -/
def decodeLevel (vs : List Tag) : Except Err Int := do
  let s ← textAt vs 0
  pyInt s

/-- `get_differential_current_level` (`energy/energy.py:341-354`). -/
def getDifferentialCurrentLevel (cfg : Config) (i : Item) : M Int := do
  let m ← response cfg i (Tag.ofStr DimensionEnergy.differentialCurrentLevel) none
  lift (decodeLevel m.values)

end EnergyManagement

namespace StopGo

/-- `StopGo(client, where)` (`energy/stop_go.py:19-32`). -/
def newTag (w : Tag) : Except Err Item := do
  let i ← EnergyManagement.newTag w
  let t ← EnergyManagement.getType w
  if t ≠ .stopGo then .error (.invalidTag (cs!"Invalid tag for a Stop&Go item: " ++ w.string))
  else return i

/-- `StopGo(client, where)` with a `str` (`energy/stop_go.py:19-32`). -/
def new (s : Str) : Except Err Item := do
  let w ← Tag.ofStr s
  newTag w

/-- `bool(val & 2**k)` on Python integers.  `stop_go.py:80-92`. -/
def bitSet (val : Int) (k : Nat) : Bool := val / 2 ^ k % 2 = 1

/-- The assignments of one round of `request_status` (`energy/stop_go.py:77-121`), as updates of the status. -/
def update (dim : Str) (val : Int) : Option (StopGoStatus → StopGoStatus) :=
  if dim = DimensionEnergy.statusStopGoGeneral then
    some fun s =>
      { s with
        isOpen := bitSet val 0, failure := bitSet val 1, block := bitSet val 2, openCc := bitSet val 3,
        openGroundFault := bitSet val 4, openVmax := bitSet val 5, selfTestOff := bitSet val 6,
        autoResetOff := bitSet val 7, checkOff := bitSet val 8, waitingClosing := bitSet val 9,
        first24hOpen := bitSet val 10, powerFailDown := bitSet val 11, powerFailUp := bitSet val 12 }
  else if dim = DimensionEnergy.statusStopGoOpenClose then some fun s => { s with isOpen := decide (val ≠ 0) }
  else if dim = DimensionEnergy.statusStopGoFailureNoFailure then some fun s => { s with failure := decide (val ≠ 0) }
  else if dim = DimensionEnergy.statusStopGoBlockNotBlock then some fun s => { s with block := decide (val ≠ 0) }
  else if dim = DimensionEnergy.statusStopGoOpenCcBetweenN then some fun s => { s with openCc := decide (val ≠ 0) }
  else if dim = DimensionEnergy.statusStopGoOpenedGroundFault then
    some fun s => { s with openGroundFault := decide (val ≠ 0) }
  else if dim = DimensionEnergy.statusStopGoOpenVmax then some fun s => { s with openVmax := decide (val ≠ 0) }
  else if dim = DimensionEnergy.statusStopGoSelfTestDisabled then some fun s => { s with selfTestOff := decide (val ≠ 0) }
  else if dim = DimensionEnergy.statusStopGoAutomaticResetOff then
    some fun s => { s with autoResetOff := decide (val ≠ 0) }
  else if dim = DimensionEnergy.statusStopGoCheckOff then some fun s => { s with checkOff := decide (val ≠ 0) }
  else if dim = DimensionEnergy.statusStopGoWaitingForClosing then
    some fun s => { s with waitingClosing := decide (val ≠ 0) }
  else if dim = DimensionEnergy.statusStopGoFirst24hOpening then
    some fun s => { s with first24hOpen := decide (val ≠ 0) }
  else if dim = DimensionEnergy.statusStopGoPowerFailureDownstream then
    some fun s => { s with powerFailDown := decide (val ≠ 0) }
  else if dim = DimensionEnergy.statusStopGoPowerFailureUpstream then
    some fun s => { s with powerFailUp := decide (val ≠ 0) }
  else none

/-- The body of the loop of `request_status` (`energy/stop_go.py:67-121`). -/
def statusBody : Msg → Except Err (List (StopGoStatus → StopGoStatus))
  | m@(.dimResp _ _ dim vs) => do
    let s ← EnergyManagement.textAt vs 0
    let val ← pyInt s
    match update dim.string val with
    | some u => return [u]
    | none => .error (.invalidMessage m.str)
  | m => .error (.invalidMessage m.str)

/-- The status after a sequence of assignments.  `stop_go.py:80-92`. -/
def applyAll (us : List (StopGoStatus → StopGoStatus)) : StopGoStatus := us.foldl (fun s u => u s) {}

/-- `request_status(dim_req=dim)` (`energy/stop_go.py:42-123`). -/
def requestStatus (cfg : Config) (i : Item) (dim : Str) : M StopGoStatus := fun w =>
  match Tag.ofStr dim with
  | .error e => (.error e, w)
  | .ok d =>
    match Item.dimStream cfg i d statusBody w with
    | ((us, .ok ()), w') => (.ok (applyAll us), w')
    | ((_, .error e), w') => (.error e, w')

/-- `request_status(messages=…)` over messages that are already there (`energy/stop_go.py:62-123`). -/
def statusOf (ms : List Msg) : Except Err StopGoStatus := do
  let us ← ms.mapM statusBody
  return applyAll us.flatten

end StopGo
