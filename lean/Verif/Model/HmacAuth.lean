import Verif.Model.Messages

/-!
# HMAC authentication strings (`pyown/auth/hmac.py`, `pyown/auth/enum.py`)

The hash functions and `HMAC` are parameters: every theorem holds for whatever functions they are.
-/

open Py

/-- A Python `bytes` object.  `hmac.py:17-24`. -/
abbrev Bytes := List UInt8

namespace HmacAuth

/-- The standard library functions used, as parameters.  `hmac.py:1-3`. -/
structure Lib where
  /-- `hashlib.sha1(data).digest()` -/
  sha1 : Bytes → Bytes
  /-- `hashlib.sha256(data).digest()` -/
  sha256 : Bytes → Bytes
  /-- `hmac.HMAC(key=key, msg=msg, digestmod=h).digest()` -/
  hmac : (h : Bytes → Bytes) → (key : Bytes) → (msg : Bytes) → Bytes
  /-- Numeric value of a non-ASCII decimal digit (`unicodedata.decimal`), used by `int(c)` and `int(c, 16)`. -/
  decimal : Char → Option (Fin 10)

/-- `AuthAlgorithm` (`enum.py:18-19`). -/
inductive Alg where
  | sha1 | sha256
  deriving DecidableEq, Repr

/-- `AuthAlgorithm.from_string` (`enum.py:29-44`). -/
def Alg.fromString (s : Str) : Except Err Alg :=
  if s = cs!"1" then .ok .sha1 else if s = cs!"2" then .ok .sha256 else .error .valueError

/-- The `if hash_algorithm == …` cascade (`hmac.py:38-43`, `:74-79`, `:120-125`).  A member of an `IntEnum` compares equal
to its number, so the argument is the number: 1 for `SHA1`, 2 for `SHA256`. -/
def hashFunction (lib : Lib) (algorithm : Int) : Except Err (Bytes → Bytes) :=
  if algorithm = 1 then .ok lib.sha1 else if algorithm = 2 then .ok lib.sha256 else .error .valueError

/-- The number of an algorithm (`enum.py:18-19`). -/
def Alg.value : Alg → Int
  | sha1 => 1
  | sha256 => 2

/-- Lower case hexadecimal digit.  Used at `hmac.py:45, 127`. -/
def hexChar (n : Nat) : Char := if n < 10 then Char.ofNat (48 + n) else Char.ofNat (87 + n)

/-- `bytes.hex()`, `hash.hexdigest()`.  Used at `hmac.py:45, 81, 127`, `client/base.py:194`. -/
def hexdigest (b : Bytes) : Str := b.flatMap (fun x => [hexChar (x.toNat / 16), hexChar (x.toNat % 16)])

/-- `s.encode()`: UTF-8.  Simplification: Lean characters are Unicode scalar values, so lone surrogates, on which Python
raises `UnicodeEncodeError`, do not occur.  Used at `hmac.py:45-50, 81-86`. -/
def encode (s : Str) : Bytes := s.flatMap String.utf8EncodeChar

/-- `client_hmac` (`hmac.py:17-54`). -/
def clientHmac (lib : Lib) (serverKey clientKey password clientIdentity serverIdentity : Str) (algorithm : Int) :
    Except Err Bytes := do
  let h ← hashFunction lib algorithm
  let kab := hexdigest (h (encode password))
  let message := serverKey ++ clientKey ++ clientIdentity ++ serverIdentity ++ kab
  return lib.hmac h (encode serverKey) (encode message)

/-- The default identities (`hmac.py:21-22`). -/
def defaultClientIdentity : Str := cs!"736F70653E"
/-- See `defaultClientIdentity`.  `hmac.py:22`. -/
def defaultServerIdentity : Str := cs!"636F70653E"

/-- `server_hmac` (`hmac.py:57-90`). -/
def serverHmac (lib : Lib) (serverKey clientKey password : Str) (algorithm : Int) : Except Err Bytes := do
  let h ← hashFunction lib algorithm
  let kab := hexdigest (h (encode password))
  let message := clientKey ++ serverKey ++ kab
  return lib.hmac h (encode serverKey) (encode message)

/-- `compare_hmac` (`hmac.py:93-106`): the value of `compare_digest`; timing is not modelled. -/
def compareHmac (a b : Bytes) : Bool := a == b

/-- `create_key` (`hmac.py:109-127`); `token` is what `token_bytes(32)` returned. -/
def createKey (lib : Lib) (token : Bytes) (algorithm : Int) : Except Err Str := do
  let h ← hashFunction lib algorithm
  return hexdigest (h token)

/-- `int(c)` for a one-character string.  Used at `hmac.py:161`. -/
def intChar (lib : Lib) (c : Char) : Except Err Nat :=
  if isDigit c then .ok (digitVal c)
  else if c.toNat < 128 then .error .valueError
  else match lib.decimal c with
    | some d => .ok d.val
    | none => .error .valueError

/-- `int(c, 16)` for a one-character string.  Used at `hmac.py:143`. -/
def intChar16 (lib : Lib) (c : Char) : Except Err Nat :=
  if 'a' ≤ c ∧ c ≤ 'f' then .ok (c.toNat - 87)
  else if 'A' ≤ c ∧ c ≤ 'F' then .ok (c.toNat - 55)
  else intChar lib c

/-- The loop of `hex_to_digits` (`hmac.py:141-145`). -/
def hexToDigitsLoop (lib : Lib) (out : Str) : Str → Except Err Str
  | [] => .ok out
  | c :: s => do
    let value ← intChar16 lib c
    hexToDigitsLoop lib (out ++ natToStr (value / 10) ++ natToStr (value % 10)) s

/-- `hex_to_digits` (`hmac.py:130-145`). -/
def hexToDigits (lib : Lib) (s : Str) : Except Err Str := hexToDigitsLoop lib [] s

/-- `hex(value)[2:]` for `value < 256` (the values of `hmac.py:161` are at most 99). -/
def hexOf (value : Nat) : Str := if value < 16 then [hexChar value] else [hexChar (value / 16), hexChar (value % 16)]

/-- The loop of `digits_to_hex` (`hmac.py:159-163`): two characters per round, `IndexError` when the second is missing. -/
def digitsToHexLoop (lib : Lib) (out : Str) : Str → Except Err Str
  | [] => .ok out
  | [c] => do
    let _ ← intChar lib c
    throw .indexError
  | c :: d :: s => do
    let a ← intChar lib c
    let b ← intChar lib d
    digitsToHexLoop lib (out ++ hexOf (a * 10 + b)) s

/-- `digits_to_hex` (`hmac.py:148-163`). -/
def digitsToHex (lib : Lib) (s : Str) : Except Err Str := digitsToHexLoop lib [] s

/-- The value of a hexadecimal digit for `bytes.fromhex`.  Used at `client/base.py:203`. -/
def fromHexDigit (c : Char) : Option Nat :=
  if isDigit c then some (digitVal c)
  else if 'a' ≤ c ∧ c ≤ 'f' then some (c.toNat - 87)
  else if 'A' ≤ c ∧ c ≤ 'F' then some (c.toNat - 55)
  else none

/-- `bytes.fromhex(s)`: ASCII whitespace between bytes is skipped, `ValueError` otherwise.  Used at `client/base.py:203`. -/
def fromHex : Str → Except Err Bytes
  | [] => .ok []
  | c :: s =>
    if isIntSpace c then fromHex s
    else match s with
      | [] => .error .valueError
      | d :: t =>
        match fromHexDigit c, fromHexDigit d with
        | some a, some b => (fromHex t).map (fun r => (UInt8.ofNat (a * 16 + b)) :: r)
        | _, _ => .error .valueError

end HmacAuth
