import Verif.Model.LoopLogs
import Verif.Spec.Events

/-!
# What the log of `loop()` says about the events
-/

open Py Events

namespace Spec
open LoopLogs (Note)

/-- What a client with session type `session`, connected and never used before, logs in a history. -/
def notes (py : Python) (call : Call) (session : Session) (client : Nat) (h : List Step) : List Note :=
  LoopLogs.run py call (State.init session client) h

/-- Events with a meaning nobody can ask for: further dimensions of lights, and the energy dimensions 1200 and 251 to 263. -/
def Muted : Msg → Prop
  | .dimResp .lighting _ dim _ => beforeHash dim.string ∉ [cs!"1", cs!"8", cs!"12", cs!"13"]
  | .dimResp .energyManagement _ dim _ =>
    dim.string ∈ [cs!"1200", cs!"251", cs!"252", cs!"253", cs!"254", cs!"255", cs!"256", cs!"257", cs!"258", cs!"259",
      cs!"260", cs!"261", cs!"262", cs!"263"]
  | _ => False

/-- Every callback registered for the event `m` of the item `o` gets its task. -/
def Served (call : Call) (regs : Slot → List Cb) (o : Obj) (m : Msg) : Prop :=
  ∃ slot args, firing m = some (slot, args) ∧ ∀ cb ∈ regs slot, call ⟨cb, o, args⟩ = .ok ()

/-- Messages of a form the item of their WHO says nothing by. -/
def WrongForm : Msg → Prop
  | .normal who _ _ => who ≠ .lighting ∧ who ≠ .automation
  | .dimResp who _ _ _ => who ≠ .lighting ∧ who ≠ .gateway ∧ who ≠ .energyManagement
  | .dimWrite who _ _ _ => who ≠ .gateway
  | _ => True

/-- Calling the callbacks one after the other fails with `e`. -/
def FailsWith (call : Call) (cbs : List Cb) (o : Obj) (args : List Arg) (e : Err) : Prop :=
  ∃ pre cb post, cbs = pre ++ cb :: post ∧ (∀ c ∈ pre, call ⟨c, o, args⟩ = .ok ()) ∧ call ⟨cb, o, args⟩ = .error e

/-- How an exception is reported. -/
inductive Tells : Err → Note → Prop
  | message (text : Str) : Tells (.invalidMessage text) (.unsupportedMessage text)
  | tag (text : Str) : Tells (.invalidTag text) (.unsupportedTag text)
  | other (e : Err) (h1 : ∀ text, e ≠ .invalidMessage text) (h2 : ∀ text, e ≠ .invalidTag text) : Tells e (.callbackError e)

/-- What is logged about a message whose item, if any, is to be found in `s`. -/
inductive Noted (py : Python) (call : Call) (regs : Slot → List Cb) (s : State) (m : Msg) : List Note → Prop
  | signal (h : m = .ack ∨ m = .nack) : Noted py call regs s m []
  | unknown (h : ∃ ts, m = .generic ts) : Noted py call regs s m [.unknown m]
  | unsupported (who : Who) (wher : Tag) (h1 : m.who = some who) (h2 : m.wher = some wher) (h : classOf who.code = none) :
    Noted py call regs s m [.unsupportedItem who wher]
  | undispatched (o : Obj) (h : itemFor s m = some o) (hp : py = .from313) : Noted py call regs s m [.itemNotFound m]
  | served (o : Obj) (h : itemFor s m = some o) (hp : py = .upTo312) (hs : Served call regs o m) : Noted py call regs s m []
  | muted (o : Obj) (h : itemFor s m = some o) (hp : py = .upTo312) (hs : Muted m) : Noted py call regs s m []
  | failed (o : Obj) (e : Err) (n : Note) (h : itemFor s m = some o) (hp : py = .upTo312) (h1 : ¬ Served call regs o m)
      (h2 : ¬ Muted m) (hn : Tells e n) (hf : WrongForm m → ∃ text, e = .invalidMessage text)
      (hc : ∀ slot args, firing m = some (slot, args) → FailsWith call (regs slot) o args e) :
    Noted py call regs s m [n, .itemNotFound m]

end Spec
