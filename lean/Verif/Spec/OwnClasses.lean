import Verif.Model.OwnClasses

/-!
# Specification of item classes of a program
-/

open Py Events

namespace Spec.Own

open _root_.Own

/-- WHOs for which the library has no item class. -/
def Foreign (w : Who) : Prop :=
  w ≠ .lighting ∧ w ≠ .automation ∧ w ≠ .gateway ∧ w ≠ .energyManagement ∧ w ≠ .videoDoorEntry

/-- Factories whose constructor takes every address: all but the energy classes and the classes derived from them. -/
def Plain : Factory → Prop
  | .lib c => c ≠ .energyManagement ∧ c ≠ .stopGo
  | .own c => c.parent ≠ some .energyManagement ∧ c.parent ≠ some .stopGo

/-- The item of class `c` at an address, of a given client. -/
def ItemAt (c : Own.Class) (client : Nat) (a : Str) (t : Thing) : Prop :=
  ∃ o, t = .extra (some c.name) o ∧ o.item = ⟨c.who, ⟨a⟩⟩ ∧ o.client = client

/-- The tasks made by the class called `n`, or by the library's classes for `none`, in order. -/
def madeBy (n : Option Nat) (ts : List Told) : List Start := (ts.filter fun t => t.1 = n).map (·.2)

/-- What class `c` makes of a message, if it is one of its WHO. -/
def makes (c : Own.Class) (item : Str → Thing) (m : Msg) : List Start :=
  match m.who, m.wher with
  | some w, some a => if w = c.who then (c.calls (item a.string) m).1 else []
  | _, _ => []

end Spec.Own
