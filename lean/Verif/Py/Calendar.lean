import Verif.Py.Int

/-!
# `datetime` and `ipaddress` of the standard library, as far as the library uses them

`datetime`: CPython's C implementation converts the arguments of the constructors to C `int` first (`OverflowError`), then
checks their ranges (`ValueError`).
A `tzinfo` object is represented by the result of `tzinfo.utcoffset(None)`, in microseconds.
`fold` is not modelled.
-/

namespace Py

/-- Conversion of an argument to C `int`. -/
def cInt (i : Int) : Except Err Int := if -2147483648 ≤ i ∧ i ≤ 2147483647 then .ok i else .error .overflowError

/-! ## Dates -/

/-- `_is_leap` -/
def isLeap (y : Nat) : Bool := y % 4 == 0 && (y % 100 != 0 || y % 400 == 0)

/-- `_days_in_month` -/
def daysInMonth (y m : Nat) : Nat :=
  if m = 2 ∧ isLeap y then 29 else ([0, 31, 28, 31, 30, 31, 30, 31, 31, 30, 31, 30, 31][m]?).getD 0

/-- `_days_before_year` -/
def daysBeforeYear (y : Nat) : Nat := (y - 1) * 365 + (y - 1) / 4 - (y - 1) / 100 + (y - 1) / 400

/-- `_days_before_month` -/
def daysBeforeMonth (y m : Nat) : Nat :=
  ([0, 0, 31, 59, 90, 120, 151, 181, 212, 243, 273, 304, 334][m]?).getD 0 + if m > 2 ∧ isLeap y then 1 else 0

/-- `datetime.date` -/
structure Date where
  year : Nat
  month : Nat
  day : Nat
  deriving DecidableEq, Repr

namespace Date

/-- `_check_date_fields` -/
def Valid (d : Date) : Prop :=
  1 ≤ d.year ∧ d.year ≤ 9999 ∧ 1 ≤ d.month ∧ d.month ≤ 12 ∧ 1 ≤ d.day ∧ d.day ≤ daysInMonth d.year d.month

instance (d : Date) : Decidable d.Valid := by unfold Valid; infer_instance

/-- `datetime.date(year, month, day)` -/
def new (y m d : Int) : Except Err Date := do
  let y ← cInt y
  let m ← cInt m
  let d ← cInt d
  if 0 ≤ y ∧ 0 ≤ m ∧ 0 ≤ d ∧ Valid ⟨y.toNat, m.toNat, d.toNat⟩ then .ok ⟨y.toNat, m.toNat, d.toNat⟩
  else .error .valueError

/-- `date.toordinal()` -/
def toOrdinal (d : Date) : Nat := daysBeforeYear d.year + daysBeforeMonth d.year d.month + d.day

/-- `date.weekday()`: Monday is 0. -/
def weekday (d : Date) : Nat := (d.toOrdinal + 6) % 7

end Date

/-! ## Times -/

/-- Microseconds of an hour. -/
def hourUs : Int := 3600000000

/-- `tzinfo.utcoffset(None)`: a fixed offset in microseconds, or `None`. -/
inductive TzInfo where
  | fixed (offset : Int)
  | unknown
  deriving DecidableEq, Repr

namespace TzInfo

/-- `datetime.timezone(timedelta)`: the offset must be strictly between -24 and 24 hours. -/
def new (offset : Int) : Except Err TzInfo :=
  if -24 * hourUs < offset ∧ offset < 24 * hourUs then .ok (.fixed offset) else .error .valueError

end TzInfo

/-- `datetime.time` -/
structure Time where
  hour : Nat
  minute : Nat
  second : Nat
  microsecond : Nat
  tz : Option TzInfo
  deriving DecidableEq, Repr

namespace Time

/-- `_check_time_fields` -/
def Valid (t : Time) : Prop := t.hour ≤ 23 ∧ t.minute ≤ 59 ∧ t.second ≤ 59 ∧ t.microsecond ≤ 999999

instance (t : Time) : Decidable t.Valid := by unfold Valid; infer_instance

/-- `datetime.time(hour, minute, second, tzinfo=tz)` -/
def new (h m s : Int) (tz : TzInfo) : Except Err Time := do
  let h ← cInt h
  let m ← cInt m
  let s ← cInt s
  if 0 ≤ h ∧ 0 ≤ m ∧ 0 ≤ s ∧ Valid ⟨h.toNat, m.toNat, s.toNat, 0, some tz⟩ then
    .ok ⟨h.toNat, m.toNat, s.toNat, 0, some tz⟩
  else .error .valueError

end Time

/-- `datetime.datetime`, as its date and its time with time zone. -/
structure DateTime where
  date : Date
  time : Time
  deriving DecidableEq, Repr

namespace DateTime

/-- `datetime.datetime(year, month, day, hour, minute, second, tzinfo=tz)` -/
def new (y mo d h m s : Int) (tz : TzInfo) : Except Err DateTime := do
  let y ← cInt y
  let mo ← cInt mo
  let d ← cInt d
  let h ← cInt h
  let m ← cInt m
  let s ← cInt s
  let date ← Date.new y mo d
  let time ← Time.new h m s tz
  return ⟨date, time⟩

/-- `datetime.datetime(year, month, day, hour, minute)`, without time zone. -/
def newNaive (y mo d h m : Int) : Except Err DateTime := do
  let y ← cInt y
  let mo ← cInt mo
  let d ← cInt d
  let h ← cInt h
  let m ← cInt m
  let date ← Date.new y mo d
  if 0 ≤ h ∧ 0 ≤ m ∧ Time.Valid ⟨h.toNat, m.toNat, 0, 0, none⟩ then .ok ⟨date, ⟨h.toNat, m.toNat, 0, 0, none⟩⟩
  else .error .valueError

end DateTime

/-- `datetime.timedelta(days=d, hours=h, minutes=m, seconds=s)` for non-negative arguments, as its total number of seconds;
`OverflowError` above 999999999 days. -/
def timedeltaNew (d h m s : Int) : Except Err Int :=
  let total := d * 86400 + h * 3600 + m * 60 + s
  if -999999999 * 86400 ≤ total ∧ total < 1000000000 * 86400 then .ok total else .error .overflowError

/-! ## IPv4 -/

/-- `IPv4Address._parse_octet`; `AddressValueError` is a `ValueError`. -/
def parseOctet (s : Str) : Except Err Nat :=
  if s = [] then .error .valueError
  else if ¬ s.all isDigit then .error .valueError
  else if s.length > 3 then .error .valueError
  else if s ≠ cs!"0" ∧ s.head? = some '0' then .error .valueError
  else if strVal s > 255 then .error .valueError
  else .ok (strVal s)

/-- `IPv4Address(str)`, as a number of 32 bits. -/
def ipv4 (s : Str) : Except Err Nat :=
  match split1 '.' s with
  | [a, b, c, d] => do
    let a ← parseOctet a
    let b ← parseOctet b
    let c ← parseOctet c
    let d ← parseOctet d
    return a * 2 ^ 24 + b * 2 ^ 16 + c * 2 ^ 8 + d
  | _ => .error .valueError

/-- `_count_righthand_zero_bits(n, bits)` -/
def rightZeros (n : Nat) : Nat → Nat
  | 0 => 0
  | bits + 1 => if n % 2 = 1 then 0 else rightZeros (n / 2) bits + 1

/-- `_prefix_from_ip_int` -/
def prefixFromInt (n : Nat) : Except Err Nat :=
  let zeros := rightZeros n 32
  let len := 32 - zeros
  if n / 2 ^ zeros = 2 ^ len - 1 then .ok len else .error .valueError

/-- `_make_netmask` for a text with dots: a net mask, or else a host mask; as the length of the prefix. -/
def makeNetmask (s : Str) : Except Err Nat := do
  let n ← ipv4 s
  match prefixFromInt n with
  | .ok len => .ok len
  | .error _ => prefixFromInt (2 ^ 32 - 1 - n)

/-- `IPv4Network(f"{ip}/{mask}", strict=False)`: network address and length of the prefix.  The text of the address is read
back to the address itself, which is not modelled. -/
def ipv4Network (ip : Nat) (mask : Str) : Except Err (Nat × Nat) := do
  let len ← makeNetmask mask
  return (ip &&& (2 ^ 32 - 2 ^ (32 - len)), len)

end Py
