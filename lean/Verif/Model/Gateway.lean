import Verif.Model.Items
import Verif.Py.Calendar

/-!
# The gateway item (`pyown/items/gateway/gateway.py`)

Line numbers refer to that file.  Every getter takes an optional message; without one it asks the gateway.
-/

open Py M

namespace WhatGateway

/-- `items/gateway/gateway.py:79` -/
def time : Str := cs!"0"
/-- `items/gateway/gateway.py:80` -/
def date : Str := cs!"1"
/-- `items/gateway/gateway.py:81` -/
def ipAddress : Str := cs!"10"
/-- `items/gateway/gateway.py:82` -/
def netMask : Str := cs!"11"
/-- `items/gateway/gateway.py:83` -/
def macAddress : Str := cs!"12"
/-- `items/gateway/gateway.py:84` -/
def deviceType : Str := cs!"15"
/-- `items/gateway/gateway.py:85` -/
def firmwareVersion : Str := cs!"16"
/-- `items/gateway/gateway.py:86` -/
def uptime : Str := cs!"19"
/-- `items/gateway/gateway.py:87` -/
def dateTime : Str := cs!"22"
/-- `items/gateway/gateway.py:88` -/
def kernelVersion : Str := cs!"23"
/-- `items/gateway/gateway.py:89` -/
def distributionVersion : Str := cs!"24"

/-- The values of the members (`items/gateway/gateway.py:79-89`). -/
def all : List Str :=
  [time, date, ipAddress, netMask, macAddress, deviceType, firmwareVersion, uptime, dateTime, kernelVersion,
   distributionVersion]

/-- `WhatGateway(s)`: `items/gateway/gateway.py:62, 478`. -/
def ofStr (s : Str) : Except Err Str := if all.contains s then .ok s else .error .valueError

end WhatGateway

/-- `GatewayModel` (`items/gateway/gateway.py:24-59`). -/
inductive GatewayModel where
  | generic | mhServer | mh200 | f452 | f452v | mhServer2 | h4684 | hl4684 | mh202
  deriving DecidableEq, Repr

namespace GatewayModel

/-- The value of a member (`items/gateway/gateway.py:41-49`). -/
def code : GatewayModel → Str
  | generic => cs!"0"
  | mhServer => cs!"2"
  | mh200 => cs!"4"
  | f452 => cs!"6"
  | f452v => cs!"7"
  | mhServer2 => cs!"11"
  | h4684 => cs!"12"
  | hl4684 => cs!"23"
  | mh202 => cs!"200"

/-- The members in order.  `items/gateway/gateway.py:41-49`. -/
def all : List GatewayModel := [generic, mhServer, mh200, f452, f452v, mhServer2, h4684, hl4684, mh202]

/-- `GatewayModel(s)`, with `_missing_` (`items/gateway/gateway.py:51-59`). -/
def ofStr (s : Str) : GatewayModel := (all.find? (fun m => m.code == s)).getD generic

end GatewayModel

namespace Gateway

/-- The item: the address is always empty (`items/gateway/gateway.py:99-105`). -/
def item : Item := ⟨.gateway, ⟨[]⟩⟩

/-- `f"{n:0wd}"` for a natural number.  `items/gateway/gateway.py:132, 172-174, 210-217, 395-401`. -/
def pad (w n : Nat) : Str := List.replicate (w - (natToStr n).length) '0' ++ natToStr n

/-- `_parse_own_timezone` (`items/gateway/gateway.py:107-118`). -/
def parseTz (t : Tag) : Except Err TzInfo := do
  match t.string with
  | [] => return .fixed 0
  | sign :: rest =>
    let hours ← pyInt (rest.take 2)
    TzInfo.new (if sign = '0' then hours * hourUs else -(hours * hourUs))

/-- `_tz_to_own_tz` (`items/gateway/gateway.py:120-133`). -/
def tzToOwn : Option TzInfo → Except Err Tag
  | none => .error .valueError
  | some .unknown => .error .valueError
  | some (.fixed off) =>
    let sign := if 0 ≤ off then cs!"0" else cs!"1"
    let seconds := (off % (24 * hourUs) / 1000000).toNat
    Tag.ofStr (sign ++ pad 3 (seconds / 3600))

/-- The message to decode: the given one, or the first answer to a request (`items/gateway/gateway.py:148-151` and so on). -/
def response (cfg : Config) (what : Str) : Option Msg → M Msg
  | some m => return m
  | none => do
    let dim ← lift (Tag.ofStr what)
    Item.singleDimReq cfg item dim

/-- `get_time` from the values of a message (`items/gateway/gateway.py:153-159`). -/
def decodeTime : List Tag → Except Err Time
  | [h, m, s, t] => do
    let h ← pyInt h.string
    let m ← pyInt m.string
    let s ← pyInt s.string
    let tz ← parseTz t
    Time.new h m s tz
  | _ => .error .valueError

/-- `get_time` (`items/gateway/gateway.py:135-159`). -/
def getTime (cfg : Config) (message : Option Msg) : M Time := do
  let resp ← response cfg WhatGateway.time message
  lift (decodeTime resp.values)

/-- The values `set_time` writes (`items/gateway/gateway.py:171-174`). -/
def encodeTime (t : Time) : Except Err (List Tag) := do
  let tz ← tzToOwn t.tz
  let h ← Tag.ofStr (pad 2 t.hour)
  let m ← Tag.ofStr (pad 2 t.minute)
  let s ← Tag.ofStr (pad 2 t.second)
  return [h, m, s, tz]

/-- `set_time` (`items/gateway/gateway.py:162-176`). -/
def setTime (cfg : Config) (t : Time) : M Unit := do
  let vs ← lift (encodeTime t)
  Item.sendWriting cfg item WhatGateway.time vs

/-- `get_date` from the values of a message (`items/gateway/gateway.py:193-202`). -/
def decodeDate : List Tag → Except Err Date
  | [_, d, m, a] => do
    let day ← pyInt d.string
    let month ← pyInt m.string
    let year ← pyInt a.string
    Date.new year month day
  | _ => .error .valueError

/-- `get_date` (`items/gateway/gateway.py:178-202`). -/
def getDate (cfg : Config) (message : Option Msg) : M Date := do
  let resp ← response cfg WhatGateway.date message
  lift (decodeDate resp.values)

/-- The values `set_date` writes (`items/gateway/gateway.py:210-217`). -/
def encodeDate (date : Date) : Except Err (List Tag) := do
  let d ← Tag.ofStr (pad 2 date.day)
  let m ← Tag.ofStr (pad 2 date.month)
  let a ← Tag.ofStr (natToStr date.year)
  let w ← Tag.ofStr (if date.weekday = 6 then cs!"00" else pad 2 (date.weekday + 1))
  return [w, d, m, a]

/-- `set_date` (`items/gateway/gateway.py:204-219`). -/
def setDate (cfg : Config) (date : Date) : M Unit := do
  let vs ← lift (encodeDate date)
  Item.sendWriting cfg item WhatGateway.date vs

/-- Four numbers with dots between them (`items/gateway/gateway.py:238-239`, `:260`). -/
def dotted : List Tag → Except Err Str
  | [a, b, c, d] => do
    let a ← strInt (← pyInt a.string)
    let b ← strInt (← pyInt b.string)
    let c ← strInt (← pyInt c.string)
    let d ← strInt (← pyInt d.string)
    return a ++ cs!"." ++ b ++ cs!"." ++ c ++ cs!"." ++ d
  | _ => .error .valueError

/-- `get_ip` (`items/gateway/gateway.py:221-241`). -/
def getIp (cfg : Config) (message : Option Msg) : M Nat := do
  let resp ← response cfg WhatGateway.ipAddress message
  lift (dotted resp.values >>= ipv4)

/-- `get_netmask` (`items/gateway/gateway.py:243-260`). -/
def getNetmask (cfg : Config) (message : Option Msg) : M Str := do
  let resp ← response cfg WhatGateway.netMask message
  lift (dotted resp.values)

/-- `get_macaddress` from the values of a message (`items/gateway/gateway.py:277-279`). -/
def decodeMac : List Tag → Except Err Str
  | [a, b, c, d, e, f] => .ok (join cs!":" [a.string, b.string, c.string, d.string, e.string, f.string])
  | _ => .error .valueError

/-- `get_macaddress` (`items/gateway/gateway.py:262-280`). -/
def getMacaddress (cfg : Config) (message : Option Msg) : M Str := do
  let resp ← response cfg WhatGateway.macAddress message
  lift (decodeMac resp.values)

/-- `get_netinfo` (`items/gateway/gateway.py:282-291`). -/
def getNetinfo (cfg : Config) : M (Nat × Nat) := do
  let ip ← getIp cfg none
  let netmask ← getNetmask cfg none
  lift (ipv4Network ip netmask)

/-- `resp.values[i].string`: `items/gateway/gateway.py:308-443`. -/
def valueAt (vs : List Tag) (i : Nat) : Except Err Str :=
  match vs[i]? with
  | some v => .ok v.string
  | none => .error .indexError

/-- `get_model` (`items/gateway/gateway.py:293-308`). -/
def getModel (cfg : Config) (message : Option Msg) : M GatewayModel := do
  let resp ← response cfg WhatGateway.deviceType message
  lift ((valueAt resp.values 0).map GatewayModel.ofStr)

/-- The three parts of a version (`items/gateway/gateway.py:325-329`, `:420-424`, `:441-445`). -/
def decodeVersion (vs : List Tag) : Except Err Str := do
  let v ← valueAt vs 0
  let r ← valueAt vs 1
  let b ← valueAt vs 2
  return v ++ cs!"." ++ r ++ cs!"." ++ b

/-- `get_firmware` (`items/gateway/gateway.py:310-329`). -/
def getFirmware (cfg : Config) (message : Option Msg) : M Str := do
  let resp ← response cfg WhatGateway.firmwareVersion message
  lift (decodeVersion resp.values)

/-- `get_uptime` from the values of a message (`items/gateway/gateway.py:346-352`), in seconds. -/
def decodeUptime (vs : List Tag) : Except Err Int := do
  let d ← pyInt (← valueAt vs 0)
  let h ← pyInt (← valueAt vs 1)
  let m ← pyInt (← valueAt vs 2)
  let s ← pyInt (← valueAt vs 3)
  timedeltaNew d h m s

/-- `get_uptime` (`items/gateway/gateway.py:331-352`). -/
def getUptime (cfg : Config) (message : Option Msg) : M Int := do
  let resp ← response cfg WhatGateway.uptime message
  lift (decodeUptime resp.values)

/-- `get_datetime` from the values of a message (`items/gateway/gateway.py:369-382`). -/
def decodeDateTime (vs : List Tag) : Except Err DateTime := do
  let h ← pyInt (← valueAt vs 0)
  let m ← pyInt (← valueAt vs 1)
  let s ← pyInt (← valueAt vs 2)
  let t ← valueAt vs 3
  let d ← pyInt (← valueAt vs 5)
  let mo ← pyInt (← valueAt vs 6)
  let y ← pyInt (← valueAt vs 7)
  let tz ← parseTz ⟨t⟩
  DateTime.new y mo d h m s tz

/-- `get_datetime` (`items/gateway/gateway.py:354-382`). -/
def getDateTime (cfg : Config) (message : Option Msg) : M DateTime := do
  let resp ← response cfg WhatGateway.dateTime message
  lift (decodeDateTime resp.values)

/-- The values `set_datetime` writes (`items/gateway/gateway.py:394-403`). -/
def encodeDateTime (t : DateTime) : Except Err (List Tag) := do
  let tz ← tzToOwn t.time.tz
  let h ← Tag.ofStr (pad 2 t.time.hour)
  let m ← Tag.ofStr (pad 2 t.time.minute)
  let s ← Tag.ofStr (pad 2 t.time.second)
  let d ← Tag.ofStr (pad 2 t.date.day)
  let mo ← Tag.ofStr (pad 2 t.date.month)
  let y ← Tag.ofStr (natToStr t.date.year)
  return [h, m, s, tz, d, mo, y]

/-- `set_datetime` (`items/gateway/gateway.py:385-403`). -/
def setDateTime (cfg : Config) (t : DateTime) : M Unit := do
  let vs ← lift (encodeDateTime t)
  Item.sendWriting cfg item WhatGateway.dateTime vs

/-- `get_kernel_version` (`items/gateway/gateway.py:405-424`). -/
def getKernelVersion (cfg : Config) (message : Option Msg) : M Str := do
  let resp ← response cfg WhatGateway.kernelVersion message
  lift (decodeVersion resp.values)

/-- `get_distribution_version` (`items/gateway/gateway.py:426-445`). -/
def getDistributionVersion (cfg : Config) (message : Option Msg) : M Str := do
  let resp ← response cfg WhatGateway.distributionVersion message
  lift (decodeVersion resp.values)

end Gateway
