import Verif.Spec.Loops

/-! # What a client remembers -/

open Py Events

namespace Spec

/-- The address of a message, if it has one. -/
def address (m : Msg) : Option (Who × Str) :=
  match m.who, m.wher with
  | some who, some wher => some (who, wher.string)
  | _, _ => none

/-- The addresses `get_item` is asked for in a history. -/
def asked : List Act → List (Who × Str)
  | [] => []
  | .getItem who wher _ :: h => (who, wher.string) :: asked h
  | _ :: h => asked h

/-- The addresses that occur in a history: asked for, or in an event received. -/
def mentioned (h : List Act) : List (Who × Str) := asked h ++ (arrived h).filterMap address

/-- There can be an item at this address. -/
def Addressable (k : Who × Str) : Prop := (classOf k.1.code).isSome ∧ Placed k.1 k.2

/-- An item the program can have got from the client: kept under an address (so that `get_item` returns it), or given to a
callback. -/
def Got (s : State) (o : Obj) : Prop := (∃ k, s.items.cache.lookup k = some o) ∨ ∃ st ∈ s.trace, st.item = o

end Spec
