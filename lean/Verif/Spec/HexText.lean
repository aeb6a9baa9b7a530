import Verif.Spec.Numeral

/-!
# Hexadecimal text and its decimal transcription

`docs/original/hmac.md`: every byte is written as four decimal characters, two for each hexadecimal digit:
`0xff` becomes `1515`, `0x0a` becomes `0010`, `0x01` becomes `0001`.
-/

namespace Spec.Hex

/-- The digits in order of their value. -/
def lowerDigits : Str := cs!"0123456789abcdef"
/-- The digits in order of their value. -/
def upperDigits : Str := cs!"0123456789ABCDEF"
/-- The decimal transcription of the digits, in order of their value. -/
def pairs : List Str :=
  [cs!"00", cs!"01", cs!"02", cs!"03", cs!"04", cs!"05", cs!"06", cs!"07",
   cs!"08", cs!"09", cs!"10", cs!"11", cs!"12", cs!"13", cs!"14", cs!"15"]

/-- `c` is a hexadecimal digit of value `v`. -/
def Digit (c : Char) (v : Nat) : Prop := lowerDigits[v]? = some c ∨ upperDigits[v]? = some c

/-- `s` is hexadecimal text with the digit values `vs`. -/
inductive Text : Str → List Nat → Prop
  | nil : Text [] []
  | cons {c : Char} {v : Nat} {s : Str} {vs : List Nat} : Digit c v → Text s vs → Text (c :: s) (v :: vs)

/-- The lower case text of digit values below 16. -/
def lower (vs : List Nat) : Str := vs.map (fun v => lowerDigits.getD v '?')

/-- The decimal transcription of digit values below 16. -/
def transcription (vs : List Nat) : Str := vs.flatMap (fun v => pairs.getD v [])

/-- The numbers formed by the successive pairs of a digit string. -/
def pairValues : Str → List Nat
  | c :: d :: s => (10 * Spec.digit c + Spec.digit d) :: pairValues s
  | _ => []

end Spec.Hex
