import Verif.Spec.Retry

/-!
# What the commands of a program are told, one after the other
-/

namespace Spec.Onward

/-- What a command is told that takes this message, or none in time. -/
def told : Option Msg → Except Err Unit
  | some m => Spec.Retry.verdict m
  | none => .error .timeoutError

/-- The messages that are taken, in order. -/
def taken : List (Option Msg) → List Msg
  | [] => []
  | some m :: os => m :: taken os
  | none :: os => taken os

/-- What is written and read: each frame, and the message taken after it. -/
def record : List Str → List (Option Msg) → List CAct
  | f :: fs, some m :: os => .sent f :: .got m :: record fs os
  | f :: fs, none :: os => .sent f :: record fs os
  | _, _ => []

/-- A message that arrives after the order was given, and before five seconds have passed. -/
def InTime (order : Nat × Except Err Unit) (answer : Nat × Msg) : Prop :=
  order.1 ≤ answer.1 ∧ answer.1 < order.1 + 5000

/-- How many of these commands timed out. -/
def timeouts : List (Except Err Unit) → Nat
  | [] => 0
  | .error .timeoutError :: rs => timeouts rs + 1
  | _ :: rs => timeouts rs

end Spec.Onward
