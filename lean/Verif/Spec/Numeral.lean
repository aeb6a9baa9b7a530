import Verif.Spec.Frames

/-! # Decimal numerals (specification) -/

namespace Spec

/-- Value of a decimal digit, by table. -/
def digit (c : Char) : Nat := (cs!"0123456789").idxOf c

/-- Number denoted by a text of digits, least significant digit last. -/
def value : Str → Nat
  | s => (s.reverse).foldr (fun c n => digit c + 10 * n) 0

/-- `s` is the canonical decimal numeral of `n`: digits, no superfluous leading zero. -/
def Numeral (s : Str) (n : Nat) : Prop :=
  s ≠ [] ∧ Digits s ∧ value s = n ∧ (s.head? = some '0' → s = cs!"0")

instance (s : Str) : Decidable (Digits s) := by unfold Digits; infer_instance

instance (s : Str) (n : Nat) : Decidable (Numeral s n) := by unfold Numeral; infer_instance

end Spec
