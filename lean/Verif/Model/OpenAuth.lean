import Verif.Py.Int
import Mathlib.Data.Int.Bitwise

/-!
# The OPEN password algorithm (`pyown/auth/open.py`)

Python integers are `Int`; `&`, `|`, `~` are the two's complement operations of Mathlib (`Int.land`, `Int.lor`,
`Int.lnot`), `x << k` is `x * 2 ^ k` and `x >> k` is the floor division `x / 2 ^ k`.
-/

open Py

namespace OpenAuth

/-- The variables of the loop.  `open.py:16-18`. -/
structure State where
  start : Bool
  num1 : Int
  num2 : Int
  deriving DecidableEq

/-- The `if c == "1": … else: …` cascade (`open.py:31-58`): new `num1` and `num2` (every branch assigns `num1`, none reads it). -/
def cascade (c : Char) (num2 : Int) : Int × Int :=
  if c = '1' then (Int.land num2 0xFFFFFF80 / 2 ^ 7, num2 * 2 ^ 25)
  else if c = '2' then (Int.land num2 0xFFFFFFF0 / 2 ^ 4, num2 * 2 ^ 28)
  else if c = '3' then (Int.land num2 0xFFFFFFF8 / 2 ^ 3, num2 * 2 ^ 29)
  else if c = '4' then (num2 * 2 ^ 1, num2 / 2 ^ 31)
  else if c = '5' then (num2 * 2 ^ 5, num2 / 2 ^ 27)
  else if c = '6' then (num2 * 2 ^ 12, num2 / 2 ^ 20)
  else if c = '7' then
    (Int.lor (Int.lor (Int.land num2 0x0000FF00) (Int.land num2 0x000000FF * 2 ^ 24))
      (Int.land num2 0x00FF0000 / 2 ^ 16), Int.land num2 0xFF000000 / 2 ^ 8)
  else if c = '8' then
    (Int.lor (Int.land num2 0x0000FFFF * 2 ^ 16) (num2 / 2 ^ 24), Int.land num2 0x00FF0000 / 2 ^ 8)
  else if c = '9' then (Int.lnot num2, num2)
  else (num2, num2)

/-- One iteration (`open.py:27-64`). -/
def step (password : Int) (s : State) (c : Char) : State :=
  let num2 := if c ≠ '0' ∧ s.start then password else s.num2
  let start := if c ≠ '0' then false else s.start
  let (num1, num2) := cascade c num2
  let num1 := Int.land num1 0xFFFFFFFF
  let num2 := Int.land num2 0xFFFFFFFF
  let num1 := if c ≠ '0' ∧ c ≠ '9' then Int.lor num1 num2 else num1
  ⟨start, num1, num1⟩

/-- `own_calc_pass(password: int, nonce: str)` (`open.py:4-66`). -/
def ownCalcPass (password : Int) (nonce : Str) : Except Err Str :=
  strInt (nonce.foldl (step password) ⟨true, 0, 0⟩).num1

/-- `own_calc_pass(password: str, nonce: str)` (`open.py:20-21`). -/
def ownCalcPassStr (password : Str) (nonce : Str) : Except Err Str := do
  ownCalcPass (← pyInt password) nonce

/-- `own_calc_pass(password: int, nonce: int)` (`open.py:23-24`). -/
def ownCalcPassInt (password : Int) (nonce : Int) : Except Err Str := do
  ownCalcPass password (← strInt nonce)

end OpenAuth
