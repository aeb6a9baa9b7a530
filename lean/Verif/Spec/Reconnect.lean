import Verif.Model.Reconnect
import Verif.Spec.Loops

/-! # Listening again after the connection has ended -/

open Py Events

namespace Spec

/-- No loop waits for a connection that is open or has left something: what was waited for has ended. -/
def Ended (s : Again) : Prop :=
  ∀ id client k, s.loops id = (.called client .waiting, k) →
    (k = s.former.length → s.base.transport ≠ .opened ∧ s.base.queue = []) ∧
    ∀ f, s.former[k]? = some f → f.up = false ∧ f.queue = []

/-- The acts of a history that concern the present connection, the items and the callbacks. -/
def acts (h : List Act') : List Act := h.filterMap fun | .act a => some a | _ => none

/-- An act that prepares a new client: a callback is registered or an item asked for. -/
def Prepares (a : Act) : Prop := (∃ c m cb, a = .register c m cb) ∨ ∃ who wher client, a = .getItem who wher client

/-- The registrations of a history. -/
def registrations (h : List Act) : List Act := h.filter fun | .register .. => true | _ => false

/-- The `id`-th loop is called in the history. -/
def Calls (h : List Act) (id : Nat) : Prop := ∃ client, .loop id client ∈ h

end Spec
