import Verif.Model.Tags

/-!
# Specification of OpenWebNet frames

Written from `docs/original/intro.md` (frame syntax): a frame is `*tag*tag*…*tag##`, a tag is made of digits and `#`.
Only character lists and the enumeration `Who` with its codes are used, none of the parsing machinery.
-/

namespace Spec

/-- Characters allowed in a tag. -/
def TagChar (c : Char) : Prop := c ∈ cs!"0123456789#"

/-- Text of a tag. -/
def TagText (s : Str) : Prop := ∀ c ∈ s, TagChar c

/-- Text made of decimal digits only. -/
def Digits (s : Str) : Prop := ∀ c ∈ s, c ∈ cs!"0123456789"

/-- `*t₁*t₂…*tₙ` without the terminator. -/
def body : List Str → Str
  | [] => []
  | t :: ts => '*' :: t ++ body ts

/-- The frame with tags `ts`: `*t₁*t₂…*tₙ##`. -/
def frame (ts : List Str) : Str := body ts ++ cs!"##"

/-- `s` contains `##` starting at some position. -/
def HasHH (s : Str) : Prop := ∃ u v, s = u ++ cs!"##" ++ v

/-- `s` contains exactly one terminator when terminators are recognised from the left without overlapping:
`s = u ## v`, the leftmost `##` ends `u`, and none starts in `v`. -/
def OneHH (s : Str) : Prop := ∃ u v, s = u ++ cs!"##" ++ v ∧ ¬ HasHH (u ++ cs!"#") ∧ ¬ HasHH v

/-- Whitespace on both sides of a text. -/
def Padded (ws : Char → Prop) (s m : Str) : Prop :=
  ∃ u v, (∀ c ∈ u, ws c) ∧ (∀ c ∈ v, ws c) ∧ m = u ++ s ++ v

end Spec
