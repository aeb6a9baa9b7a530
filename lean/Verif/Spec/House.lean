import Verif.Spec.Commands
import Verif.Spec.Queries
import Verif.Model.Queries
import Verif.Model.Messages
import Verif.Spec.History

/-!
# A house with lamps, dimmers and shutters behind a gateway

Written from `docs/original/who1.md` and `who2.md`: an order is acknowledged and changes the devices its address reaches; a
status request is answered by one frame per device and an ACK.
-/

open Py

namespace Spec

/-- An address that can stand at the end of a frame. -/
def Address (a : Str) : Prop := TagText a ∧ ¬ HasHH a ∧ a.getLast? ≠ some '#'

/-- States of a lamp. -/
def Lamp (w : Wish) : Prop := w = .off ∨ w = .on ∨ ∃ n, 2 ≤ n ∧ n ≤ 10 ∧ w = .level (10 * n)

/-- States of a shutter. -/
def Motion (w : Wish) : Prop := w = .stop ∨ w = .up ∨ w = .down

/-- A house: which device an address reaches, the addresses of the devices, which lamps are dimmers, and the state of each
device. -/
structure House where
  reach : Str → Str → Bool
  lamps : List Str
  shutters : List Str
  dimmer : Str → Bool
  lamp : Str → Wish
  shutter : Str → Wish

namespace House

/-- Dimmers are off or at a level, other lamps are off or on. -/
structure Sound (h : House) : Prop where
  lamps : ∀ p ∈ h.lamps, Address p
  shutters : ∀ p ∈ h.shutters, Address p
  lamp : ∀ p, Lamp (h.lamp p)
  dimmer : ∀ p, h.dimmer p = true → h.lamp p ≠ .on
  plain : ∀ p, h.dimmer p = false → h.lamp p = .on ∨ h.lamp p = .off
  shutter : ∀ p, Motion (h.shutter p)

/-- What becomes of a lamp: a dimmer that is turned on goes to full level, a lamp that is no dimmer knows no levels. -/
def settle : Bool → Wish → Wish
  | true, .on => .level 100
  | false, .level _ => .on
  | _, w => w

/-- The house after an order to an address. -/
def does (h : House) (wish : Wish) (target : Str) : House :=
  match wish with
  | .stop | .up | .down => { h with shutter := fun p => if h.reach target p then wish else h.shutter p }
  | _ => { h with lamp := fun p => if h.reach target p then settle (h.dimmer p) wish else h.lamp p }

/-- The lamps an address reaches. -/
def lampsAt (h : House) (target : Str) : List Str := h.lamps.filter (h.reach target)

/-- The shutters an address reaches. -/
def shuttersAt (h : House) (target : Str) : List Str := h.shutters.filter (h.reach target)

/-- `Hears h text h' replies`: the house `h` receives the frame `text`, becomes `h'` and sends `replies`.  The frame that
reports a state is the frame that asks for it. -/
inductive Hears (h : House) : Str → House → List Str → Prop
  | order {wish : Wish} {target text : Str} (hw : Lamp wish ∨ Motion wish) (ha : Address target)
      (ht : documented wish target = some text) : Hears h text (h.does wish target) [cs!"*#*1##"]
  | lamps {target : Str} (ha : Address target) :
      Hears h (frame [cs!"#1", target]) h
        ((h.lampsAt target).filterMap (fun p => documented (h.lamp p) p) ++ [cs!"*#*1##"])
  | shutters {target : Str} (ha : Address target) :
      Hears h (frame [cs!"#2", target]) h
        ((h.shuttersAt target).filterMap (fun p => documented (h.shutter p) p) ++ [cs!"*#*1##"])

/-- The house after it gotten some frames, and all it replied. -/
inductive Lives (h : House) : List Str → House → List Str → Prop
  | start : Lives h [] h []
  | next {texts replies more : List Str} {text : Str} {h' h'' : House} :
      Lives h texts h' replies → Hears h' text h'' more → Lives h (texts ++ [text]) h'' (replies ++ more)

end House

/-- The history of a connection to the house: at every moment the messages received are the first of the replies to the
frames written so far. -/
def Serves (h : House) (acts : List CAct) : Prop :=
  ∀ pre, pre <+: acts → ∃ h' replies said, h.Lives (written pre) h' replies ∧ said <+: replies ∧
    List.Forall₂ (fun text m => parseMessage text = .ok m) said (gotten pre)

/-- What a user of the library does with the devices of the house. -/
inductive Deed
  | order (c : Cmd) (target : Str)
  | light (target : Str)
  | dimmer (target : Str)
  | automation (target : Str)

/-- What a call gives: the exception or normal end, and the values yielded. -/
inductive Outcome
  | order (r : Except Err Unit)
  | light (ys : List (Tag × Bool)) (r : Except Err Unit)
  | dimmer (ys : List (Tag × Int)) (r : Except Err Unit)
  | automation (ys : List (Tag × Str)) (r : Except Err Unit)

/-- The call timed out. -/
def Outcome.late : Outcome → Prop
  | .order r | .light _ r | .dimmer _ r | .automation _ r => r = .error .timeoutError

/-- One call. -/
def Deed.run (cfg : Config) : Deed → World → Outcome × World
  | .order c target, w => let x := c.run cfg ⟨c.who, ⟨target⟩⟩ w; (.order x.1, x.2)
  | .light target, w => let x := Light.getStatus cfg ⟨.lighting, ⟨target⟩⟩ w; (.light x.1.1 x.1.2, x.2)
  | .dimmer target, w => let x := Dimmer.getStatus cfg ⟨.lighting, ⟨target⟩⟩ w; (.dimmer x.1.1 x.1.2, x.2)
  | .automation target, w => let x := Automation.getStatus cfg ⟨.automation, ⟨target⟩⟩ w; (.automation x.1.1 x.1.2, x.2)

/-- A program: calls one after the other. -/
def Deed.runs (cfg : Config) : List Deed → World → List Outcome × World
  | [], w => ([], w)
  | c :: cs, w => let x := c.run cfg w; let y := Deed.runs cfg cs x.2; (x.1 :: y.1, y.2)

/-- The call makes sense in the house: orders are states of a device, dimmers are asked as dimmers and other lamps as lights. -/
def Deed.Fits (h : House) : Deed → Prop
  | .order c target => (Lamp (wish c) ∨ Motion (wish c)) ∧ Address target
  | .light target => Address target ∧ ∀ p ∈ h.lampsAt target, h.dimmer p = false
  | .dimmer target => Address target ∧ ∀ p ∈ h.lampsAt target, h.dimmer p = true
  | .automation target => Address target

/-- The level of a dimmer, in percent. -/
def percent : Wish → Int
  | .level n => n
  | _ => 0

/-- Whether a lamp is on. -/
def lit : Wish → Bool
  | .on => true
  | _ => false

/-- The state of a shutter as the library names it. -/
def motion : Wish → Str
  | .up => cs!"1"
  | .down => cs!"2"
  | _ => cs!"0"

/-- What a call should give in a house. -/
def Deed.expected (h : House) : Deed → Outcome
  | .order _ _ => .order (.ok ())
  | .light target => .light ((h.lampsAt target).map fun p => (⟨p⟩, lit (h.lamp p))) (.ok ())
  | .dimmer target => .dimmer ((h.lampsAt target).map fun p => (⟨p⟩, percent (h.lamp p))) (.ok ())
  | .automation target => .automation ((h.shuttersAt target).map fun p => (⟨p⟩, motion (h.shutter p))) (.ok ())

/-- What a call does to a house. -/
def Deed.effect (h : House) : Deed → House
  | .order c target => h.does (wish c) target
  | _ => h

/-- What a program should give in a house. -/
def Deed.expecteds : House → List Deed → List Outcome
  | _, [] => []
  | h, c :: cs => c.expected h :: Deed.expecteds (c.effect h) cs

end Spec
