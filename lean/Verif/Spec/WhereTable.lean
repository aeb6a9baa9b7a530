import Verif.Spec.Numeral

/-!
# WHERE table of WHO = 1 (specification)

`docs/original/who1.md:85-93`.
-/

namespace Spec

/-- What a documented address designates, with the local bus interface if there is one. -/
inductive Place where
  | general | area | group | point
  deriving DecidableEq, Repr

/-- `<Int>`: `01`–`09`, `10`–`15`. -/
def Interface (s : Str) : Prop :=
  s ∈ [cs!"01", cs!"02", cs!"03", cs!"04", cs!"05", cs!"06", cs!"07", cs!"08", cs!"09",
       cs!"10", cs!"11", cs!"12", cs!"13", cs!"14", cs!"15"]

/-- `1`–`9` -/
def NonZeroDigit (c : Char) : Prop := c ∈ cs!"123456789"

/-- `01`–`15` -/
def Pl2 (s : Str) : Prop := Interface s

/-- `10`–`15` -/
def Pl15 (s : Str) : Prop := s ∈ [cs!"10", cs!"11", cs!"12", cs!"13", cs!"14", cs!"15"]

/-- Addresses on the private riser. -/
inductive Riser : Str → Place → Prop
  | general : Riser cs!"0" .general
  | area00 : Riser cs!"00" .area
  | area (c) : NonZeroDigit c → Riser [c] .area
  | area100 : Riser cs!"100" .area
  | group (s n) : Numeral s n → 1 ≤ n → n ≤ 255 → Riser ('#' :: s) .group
  | point00 (p) : Pl2 p → Riser (cs!"00" ++ p) .point
  | pointAPL (a p) : NonZeroDigit a → NonZeroDigit p → Riser [a, p] .point
  | point10 (p) : Pl2 p → Riser (cs!"10" ++ p) .point
  | point0A (a p) : NonZeroDigit a → Pl15 p → Riser ('0' :: a :: p) .point

/-- Addresses on a local bus: a riser address followed by `#4#<Int>`. -/
def LocalBus (s : Str) : Prop := ∃ r i p, Riser r p ∧ Interface i ∧ s = r ++ cs!"#4#" ++ i

end Spec
