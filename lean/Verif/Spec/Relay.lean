import Verif.Spec.House
import Verif.Spec.Loops
import Verif.Props.Protocol

/-!
# Orders that are passed on

Written from `docs/original/intro.md`: on an event session the gateway sends what happens in the house, among it the orders
that are given, as the frames that give them.
-/

open Py Events

namespace Spec

/-- The history of a listener to whom exactly these frames are passed on, in order, one or more (or none) at a time, while it
calls, resumes and cancels loops and gets items as it likes. -/
inductive Relays : List Act → List Str → Prop
  | done : Relays [] []
  | packet {h : List Act} {rest : List Str} (texts : List Str) :
      Relays h rest → Relays (.packet (asciiBytes texts.flatten) :: h) (texts ++ rest)
  | loop {h : List Act} {texts : List Str} (id client : Nat) : Relays h texts → Relays (.loop id client :: h) texts
  | resume {h : List Act} {texts : List Str} (id : Nat) : Relays h texts → Relays (.resume id :: h) texts
  | cancel {h : List Act} {texts : List Str} (id : Nat) : Relays h texts → Relays (.cancel id :: h) texts
  | getItem {h : List Act} {texts : List Str} (who : Who) (wher : Tag) (client : Nat) :
      Relays h texts → Relays (.getItem who wher client :: h) texts

/-- What an order to a light or a shutter says about its state: which callbacks should be told, and what.  (An order to make a
light brighter or darker does not say it.) -/
def news : Wish → Option (Slot × Arg)
  | .off => some (.lightStatus, .bool false)
  | .on => some (.lightStatus, .bool true)
  | .level _ => some (.lightStatus, .bool true)
  | .timed _ => some (.lightStatus, .bool true)
  | .blink _ => some (.lightStatus, .bool true)
  | .stop => some (.automation, .automation cs!"0")
  | .up => some (.automation, .automation cs!"1")
  | .down => some (.automation, .automation cs!"2")
  | _ => none

/-- What the callbacks `regs` should be told of an order to `target`. -/
def reported (tell : Wish → Option (Slot × Arg)) (regs : Slot → List Cb) (c : Cmd) (target : Str) :
    List (Cb × Str × List Arg) :=
  match tell (wish c) with
  | some (slot, a) => (regs slot).map fun cb => (cb, target, [a])
  | none => []

/-- Orders to lights and shutters that the documents know. -/
def Domestic (c : Cmd) : Prop := (c.who = .lighting ∨ c.who = .automation) ∧ c ≠ .baseTurnOn30Min

/-- Orders that switch a light on or off, or move or stop a shutter. -/
def Simple (w : Wish) : Prop := w = .on ∨ w = .off ∨ Motion w

end Spec
