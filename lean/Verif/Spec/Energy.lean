import Verif.Model.Energy
import Verif.Spec.Queries

/-!
# Energy items

Written from `docs/original/who18.md` (addresses, status mask, actuator and totalizer replies) and IEEE 754.
-/

open Py

namespace Spec

/-- Addresses of energy items (`who18.md:20-28`): `1N` Stop&Go, `5N` power meters, `7N#0` actuators, where `N` is a number;
the actuator address may have more parameters. -/
inductive EnergyAddress : Str → TypeEnergy → Prop
  | stopGo (n : Str) : n ≠ [] → Digits n → EnergyAddress ('1' :: n) .stopGo
  | powerMeter (n : Str) : n ≠ [] → Digits n → EnergyAddress ('5' :: n) .powerMeter
  | actuator (n : Str) : n ≠ [] → Digits n → EnergyAddress ('7' :: n ++ cs!"#0") .actuator
  | actuatorMore (n more : Str) : n ≠ [] → Digits n → EnergyAddress ('7' :: n ++ cs!"#0#" ++ more) .actuator

/-- The thirteen attributes of a Stop&Go device in the order of the bits b1…b13 (`who18.md:238-271`). -/
def StopGoStatus.bit (s : StopGoStatus) : Nat → Option Bool
  | 0 => s.isOpen
  | 1 => s.failure
  | 2 => s.block
  | 3 => s.openCc
  | 4 => s.openGroundFault
  | 5 => s.openVmax
  | 6 => s.selfTestOff
  | 7 => s.autoResetOff
  | 8 => s.checkOff
  | 9 => s.waitingClosing
  | 10 => s.first24hOpen
  | 11 => s.powerFailDown
  | 12 => s.powerFailUp
  | _ => none

/-- A bit as text. -/
def bitText (b : Bool) : Str := if b then cs!"1" else cs!"0"

/-- The mask as text, `b13 b12 … b1` (`who18.md:235`). -/
def maskText (b : Nat → Bool) : Str := ((List.range 13).reverse.map fun k => bitText (b k)).flatten

/-- A Stop&Go reply: dimension `d` with the number `n` as its first value. -/
def StopGoReply (m : Msg) (p : Nat × Nat) : Prop :=
  ∃ wo we dim v vs, m = .dimResp wo we ⟨dim⟩ (⟨v⟩ :: vs) ∧ Numeral dim p.1 ∧ decimal v = some p.2

/-- What a sequence of replies says last about bit `k`: dimension 250 sends all bits of its number, dimension `251 + k`
sends bit `k` alone. -/
def latest (k : Nat) (replies : List (Nat × Nat)) : Option Bool :=
  match replies.reverse.find? (fun p => p.1 = 250 ∨ p.1 = 251 + k) with
  | none => none
  | some p => if p.1 = 250 then some (p.2.testBit k) else some (decide (p.2 ≠ 0))

/-- The documented answer to a request of the general status (`who18.md:226-232`), without the ACK. -/
def statusAnswer (we : Tag) (dims : Nat → Str) (b : Nat → Bool) : List Msg :=
  .dimResp .energyManagement we ⟨cs!"250"⟩ [⟨maskText b⟩] ::
    (List.range 13).map fun k => .dimResp .energyManagement we ⟨dims k⟩ [⟨bitText (b k)⟩]

/-- The doubles among the natural numbers, without a bound on the exponent. -/
def IsDouble (x : Nat) : Prop := ∃ m e, m < 2 ^ 53 ∧ x = m * 2 ^ e

/-- Distance. -/
def dist (a b : Nat) : Nat := (a - b) + (b - a)

/-- `x` is the double nearest to `n`; of two nearest ones, the one with an even significand. -/
def Nearest (n x : Nat) : Prop :=
  IsDouble x ∧ (∀ y, IsDouble y → dist n x ≤ dist n y) ∧
    ((∃ y, IsDouble y ∧ y ≠ x ∧ dist n y = dist n x) → ∃ m e, 2 ^ 52 ≤ m ∧ m < 2 ^ 53 ∧ x = m * 2 ^ e ∧ 2 ∣ m)

end Spec
