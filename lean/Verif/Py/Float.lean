import Verif.Py.Int

/-!
# `float(str)` for tag text

A tag only holds decimal digits and `#` (`pyown/tags/base.py:13`), so the text is a natural number or not a number.
CPython rounds it correctly to an IEEE 754 double: the nearest one, ties to the even significand, `inf` beyond the
largest.  Simplification: signs, points, exponents, underscores, surrounding blanks, `inf` and `nan`, which `float` also
accepts, cannot occur in tag text and are rejected here.
-/

namespace Py

/-- The doubles that natural numbers round to: they are natural numbers themselves, or infinite. -/
inductive PyFloat where
  | nat (n : Nat)
  | inf
  deriving DecidableEq, Repr

/-- Round to 53 significant bits, ties to even. -/
def roundDouble (n : Nat) : Nat :=
  if n < 2 ^ 53 then n
  else
    let s := Nat.log2 n - 52
    let q := n / 2 ^ s
    let r := n % 2 ^ s
    let q := if 2 * r < 2 ^ s then q else if 2 * r > 2 ^ s then q + 1 else if q % 2 = 0 then q else q + 1
    q * 2 ^ s

/-- The double nearest to a natural number. -/
def PyFloat.ofNat (n : Nat) : PyFloat := if roundDouble n < 2 ^ 1024 then .nat (roundDouble n) else .inf

/-- `float(s)` for tag text. -/
def pyFloat (s : Str) : Except Err PyFloat :=
  if s ≠ [] ∧ s.all isDigit then .ok (.ofNat (strVal s)) else .error .valueError

end Py
