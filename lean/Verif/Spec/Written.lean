import Verif.Spec.Numeral

/-! # Integers written as text (specification)

What Python's `int()` takes, for ASCII text: white space around, a sign, groups of digits separated by single underscores. -/

namespace Spec

/-- White space around a number: tab, line feed, vertical tab, form feed, carriage return, space. -/
def Blank (s : Str) : Prop := ∀ c ∈ s, c ∈ ['\t', '\n', '\x0b', '\x0c', '\r', ' ']

/-- `t` is one group of digits or several separated by single underscores; `ds` are all its digits. -/
inductive Spelled : Str → Str → Prop
  | group (g : Str) (hne : g ≠ []) (hg : Digits g) : Spelled g g
  | more (g t ds : Str) (hne : g ≠ []) (hg : Digits g) (ht : Spelled t ds) : Spelled (g ++ '_' :: t) (g ++ ds)

/-- The text `s` writes the integer `i` in at most 4300 digits. -/
def Writes (s : Str) (i : Int) : Prop :=
  ∃ pre sign body post ds, s = pre ++ (sign ++ body) ++ post ∧ Blank pre ∧ Blank post ∧ Spelled body ds ∧ ds.length ≤ 4300 ∧
    ((sign = [] ∨ sign = ['+']) ∧ i = value ds ∨ sign = ['-'] ∧ i = -(value ds : Int))

end Spec
