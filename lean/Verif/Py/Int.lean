import Verif.Py.Str

/-!
# Python integers and their decimal text

`int(str)` is modelled for ASCII input: surrounding ASCII whitespace, an optional sign, decimal digits with single
underscores between digits, at most 4300 digits (`sys.int_info.default_max_str_digits`).
Simplification: non-ASCII decimal digits and non-ASCII whitespace, which CPython also accepts, are rejected here.
The only place where such text can reach `int` is the user's own password.
-/

namespace Py

/-- The character of a decimal digit. -/
def digitChar (d : Nat) : Char := Char.ofNat (48 + d)

/-- The value of a decimal digit character. -/
def digitVal (c : Char) : Nat := c.toNat - 48

/-- Decimal digits of `n`, most significant first; `fuel` only has to exceed the number of digits. -/
def natToStrAux : Nat → Nat → Str
  | 0, _ => []
  | fuel + 1, n => if n < 10 then [digitChar n] else natToStrAux fuel (n / 10) ++ [digitChar (n % 10)]

/-- `str(n)` for a natural number, without CPython's length limit. -/
def natToStr (n : Nat) : Str := natToStrAux (n + 1) n

/-- `str(i)` without CPython's length limit. -/
def intToStr : Int → Str
  | .ofNat n => natToStr n
  | .negSucc n => '-' :: natToStr (n + 1)

/-- `sys.get_int_max_str_digits()` default. -/
def maxStrDigits : Nat := 4300

/-- `str(i)`, `f"{i}"`: `ValueError` above the digit limit. -/
def strInt (i : Int) : Except Err Str :=
  if (natToStr i.natAbs).length ≤ maxStrDigits then .ok (intToStr i) else .error .valueError

/-- The number denoted by a string of decimal digits. -/
def strVal (s : Str) : Nat := s.foldl (fun a c => a * 10 + digitVal c) 0

/-- ASCII whitespace skipped by `int()`. -/
def isIntSpace (c : Char) : Bool :=
  let n := c.toNat
  (9 ≤ n && n ≤ 13) || n == 32

/-- Digits with single underscores between them; the flag says that a digit was just read. -/
def scanDigits : Bool → Str → Option Str
  | true, [] => some []
  | false, [] => none
  | b, c :: s =>
    if isDigit c then (scanDigits true s).map (c :: ·)
    else if b && c == '_' then scanDigits false s
    else none

/-- Unsigned part of `int(s)`. -/
def pyNat (s : Str) : Except Err Nat :=
  match scanDigits false s with
  | some ds => if ds.length ≤ maxStrDigits then .ok (strVal ds) else .error .valueError
  | none => .error .valueError

/-- `int(s)` for a string. -/
def pyInt (s : Str) : Except Err Int :=
  let t := ((s.dropWhile isIntSpace).reverse.dropWhile isIntSpace).reverse
  match t with
  | '-' :: r => (pyNat r).map (fun n => -(n : Int))
  | '+' :: r => (pyNat r).map (fun n => (n : Int))
  | r => (pyNat r).map (fun n => (n : Int))

end Py
