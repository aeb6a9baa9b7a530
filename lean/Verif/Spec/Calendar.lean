import Verif.Py.Calendar
import Verif.Spec.Numeral
import Verif.Spec.Replies
import Verif.Model.Items

/-!
# Calendar and clock (specification)
-/

open Py

namespace Spec

/-- Leap years of the Gregorian calendar. -/
def Leap (y : Nat) : Prop := (4 ∣ y ∧ ¬ 100 ∣ y) ∨ 400 ∣ y

instance (y : Nat) : Decidable (Leap y) := by unfold Leap; infer_instance

/-- Length of a month. -/
def monthLength (y m : Nat) : Nat :=
  if m = 2 then (if Leap y then 29 else 28) else if m = 4 ∨ m = 6 ∨ m = 9 ∨ m = 11 then 30 else 31

/-- A date of the proleptic Gregorian calendar. -/
def IsDate (d : Date) : Prop :=
  1 ≤ d.year ∧ 1 ≤ d.month ∧ d.month ≤ 12 ∧ 1 ≤ d.day ∧ d.day ≤ monthLength d.year d.month

/-- The day after. -/
def tomorrow (d : Date) : Date :=
  if d.day < monthLength d.year d.month then ⟨d.year, d.month, d.day + 1⟩
  else if d.month < 12 then ⟨d.year, d.month + 1, 1⟩
  else ⟨d.year + 1, 1, 1⟩

/-- Days of the week, Sunday is 0: 1 January 2000 was a Saturday, and the day after is the next day of the week. -/
inductive DayOfWeek : Date → Nat → Prop
  | anchor : DayOfWeek ⟨2000, 1, 1⟩ 6
  | forward {d k} : IsDate d → DayOfWeek d k → DayOfWeek (tomorrow d) ((k + 1) % 7)
  | backward {d k} : IsDate d → k < 7 → DayOfWeek (tomorrow d) ((k + 1) % 7) → DayOfWeek d k

/-- `s` is `n` in exactly two digits. -/
def TwoDigits (s : Str) (n : Nat) : Prop := s.length = 2 ∧ Digits s ∧ value s = n

instance (s : Str) (n : Nat) : Decidable (TwoDigits s n) := by unfold TwoDigits; infer_instance

/-- The number a text of digits denotes, within the length that Python converts. -/
def decimal (s : Str) : Option Nat := if s ≠ [] ∧ Digits s ∧ s.length ≤ 4300 then some (value s) else none

/-- A getter: a given message is decoded as it is; otherwise the request `text` is written, the responses up to the end of
the stream are consumed, and the first one is decoded. -/
def Reads {α : Type} (cfg : Config) (getter : Option Msg → M α) (text : Str) (decode : List Tag → Except Err α) : Prop :=
  (∀ m w, getter (some m) w = (decode m.values, w)) ∧
  ∀ w, (¬ Ready cfg w → getter none w = (.error .invalidSession, w)) ∧
    (Ready cfg w → ∀ (rs : List Msg) (tail : List InEv) (r : Except Err Unit) (rest : List InEv) (acts : List CAct),
      (∀ m ∈ rs, ∃ wo we d vs, m = .dimResp wo we d vs) → w.inbox = rs.map .msg ++ tail →
      Ending (fun m => ∃ wo we d vs, m = .dimResp wo we d vs) tail r rest acts →
      getter none w =
        (match r, rs with
          | .error e, _ => .error e
          | .ok (), [] => .error .responseError
          | .ok (), m :: _ => decode m.values,
         w.after rest (.sent text :: (rs.map .got ++ acts))))

/-- Two hexadecimal digits. -/
def hexPair (n : Nat) : Str := [(cs!"0123456789abcdef").getD (n / 16) '?', (cs!"0123456789abcdef").getD (n % 16) '?']

end Spec
