import Verif.Model.Events

/-!
# Several clients in one process

The callbacks are kept in class attributes (`_event_callbacks`: `items/lighting/base.py:122`, `automation/automation.py:53`,
`gateway/gateway.py:97`, `energy/energy.py:31`, `camera/camera.py:137`), so all clients of a process share them.  The
connection, the receive queue, the items and the event loop belong to one client (`client/base.py:54-68`, `client/client.py:53`,
`protocol.py:41`).  Each client runs by the very functions of `Model/Events.lean`.
-/

open Py

namespace Events

/-- The clients of a process.  (The field `registry` of the states in `one` is not used.)
Fields of `client.py:53`, class attributes `_event_callbacks` as in `Registry`; `client.py:30-53`. -/
structure Clients where
  registry : Registry
  one : Nat → State

/-- What client `k` sees.  `client.py:30-53`. -/
def Clients.view (s : Clients) (k : Nat) : State := { s.one k with registry := s.registry }

/-- A step of client `k`.  (`cls.method(cb)` is a class method; which client it is attributed to makes no difference.)
`client.py:79-171`. -/
def Clients.step (py : Python) (call : Call) (s : Clients) (e : Nat × Step) : Clients :=
  let t := (s.view e.1).step py call e.2
  { registry := t.registry, one := Function.update s.one e.1 t }

/-- A history of the steps of `client.py:79-171`. -/
def Clients.run (py : Python) (call : Call) (s : Clients) (h : List (Nat × Step)) : Clients :=
  h.foldl (Clients.step py call) s

/-- Connected clients, client `k` with session type `session k` and `loop(client=target k)`.  `client.py:30-53, 79-112`. -/
def Clients.init (session : Nat → Session) (target : Nat → Nat) : Clients :=
  ⟨.init, fun k => .init (session k) (target k)⟩

end Events
