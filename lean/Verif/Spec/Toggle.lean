import Verif.Spec.Shared

/-!
# Programs that switch a lamp to what it is not

The program asks the lamp whether it is on (`items/lighting/light.py:62-72`) and then turns it off or on
(`items/lighting/light.py:14-20`).
-/

open Py

namespace Spec

/-- Ask the lamp, and switch it to the opposite of what it says; then go on with `rest`. -/
def toggleThen (t : Str) (rest : Plan) : Plan :=
  .call (.light t) fun o =>
    match o with
    | .light [(_, true)] (.ok ()) => .call (.order .lightTurnOff t) fun _ => rest
    | .light [(_, false)] (.ok ()) => .call (.order .lightTurnOn t) fun _ => rest
    | _ => .stop

/-- Do so `n` times. -/
def toggles (t : Str) : Nat → Plan
  | 0 => .stop
  | n + 1 => toggleThen t (toggles t n)

/-- The house when the gateway has carried out all frames. -/
def ending : House → List Handled → House
  | h, [] => h
  | _, g :: G => ending g.after G

/-- `t` is the address of one lamp, which is no dimmer. -/
def OneLamp (h : House) (t : Str) : Prop := Address t ∧ h.lampsAt t = [t] ∧ h.dimmer t = false

/-- Any number of programs, each with its own client, in one house: the gateway carries out the frames `G` one at a time, and no
call times out. -/
structure Together (cfg : Nat → Config) (w : Nat → World) (p : Nat → Plan) (h : House) (G : List Handled) : Prop where
  sound : h.Sound
  ready : ∀ c, Ready (cfg c) (w c)
  chain : Chain h G
  served : ∀ c, ∃ acts, ((p c).run (cfg c) (w c)).2.trace = (w c).trace ++ acts ∧ ServedBy (G.filter (·.client = c)) acts
  fits : ∀ c, ∀ x ∈ ((p c).run (cfg c) (w c)).1, x.1.Fits h
  inTime : ∀ c, ∀ x ∈ ((p c).run (cfg c) (w c)).1, ¬ x.2.late

/-- A call that switches no lamp at `t`. -/
def LeavesAlone (h : House) (t : Str) : Deed → Prop
  | .order _ a => h.reach a t = false
  | _ => True

end Spec
