import Verif.Py.Str

/-!
# The OPEN password algorithm on a 32-bit register

Written from the description of the algorithm, with rotations and byte permutations of a `BitVec 32`; no masks, no shifts
on unbounded integers.
-/

open Py

namespace Spec.Open

/-- Byte `k` of the register, byte 0 being the least significant one. -/
def byte (r : BitVec 32) (k : Nat) : BitVec 8 := r.extractLsb' (8 * k) 8

/-- The register made of four bytes, most significant first. -/
def join (b3 b2 b1 b0 : BitVec 8) : BitVec 32 := b3 ++ b2 ++ b1 ++ b0

/-- What one character of the nonce does to the register. -/
def op (c : Char) (r : BitVec 32) : BitVec 32 :=
  if c = '1' then r.rotateRight 7
  else if c = '2' then r.rotateRight 4
  else if c = '3' then r.rotateRight 3
  else if c = '4' then r.rotateLeft 1
  else if c = '5' then r.rotateLeft 5
  else if c = '6' then r.rotateLeft 12
  else if c = '7' then join (byte r 0) (byte r 3) (byte r 1) (byte r 2)
  else if c = '8' then join (byte r 1) (byte r 0) (byte r 2) (byte r 3)
  else if c = '9' then ~~~r
  else r

/-- The answer: the password is loaded by the first non-`0` character, the register is 0 before. -/
def answer (password : BitVec 32) (nonce : Str) : BitVec 32 :=
  if ∃ c ∈ nonce, c ≠ '0' then nonce.foldl (fun r c => op c r) password else 0

/-- The effect of a character, undone. -/
def undo (c : Char) (r : BitVec 32) : BitVec 32 :=
  if c = '1' then r.rotateLeft 7
  else if c = '2' then r.rotateLeft 4
  else if c = '3' then r.rotateLeft 3
  else if c = '4' then r.rotateRight 1
  else if c = '5' then r.rotateRight 5
  else if c = '6' then r.rotateRight 12
  else if c = '7' then join (byte r 2) (byte r 0) (byte r 1) (byte r 3)
  else if c = '8' then join (byte r 0) (byte r 1) (byte r 3) (byte r 2)
  else if c = '9' then ~~~r
  else r

/-- The password, from the nonce and the answer. -/
def recover (nonce : Str) (ans : BitVec 32) : BitVec 32 := nonce.reverse.foldl (fun r c => undo c r) ans

end Spec.Open
