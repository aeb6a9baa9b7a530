import Verif.Proofs.Origin
import Verif.Props.Events

/-! # Where the calls of callbacks come from: C47, and whose items they get: C85 -/

open Py Spec Events

namespace Spec

/-- The WHO and the WHERE of a frame, by its tags. -/
inductive About : List Str → Who → Str → Prop
  /-- `*WHO*WHAT*WHERE##` -/
  | plain {w : Who} {a b : Str} : About [w.code, a, b] w b
  /-- `*#WHO*WHERE…##` -/
  | hash {w : Who} {a : Str} {rest : List Str} : About (('#' :: w.code) :: a :: rest) w a

/-- The address of an item made for WHERE: a gateway has none. -/
def placeOf (c : Cls) (wher : Str) : Str := if c = .gateway then [] else wher

end Spec

theorem frameOf_about {ts : List Str} {m : Msg} {who : Who} {wher : Tag} (h : FrameOf ts m) (h1 : m.who = some who)
    (h2 : m.wher = some wher) : About ts who wher.string := by
  cases h <;> simp only [Msg.who, Msg.wher, Option.some.injEq, reduceCtorEq] at h1 h2
  · subst h1 h2; exact .plain
  all_goals (subst h1 h2; exact .hash)

theorem itemTypes_cases {who : Who} {c : Cls} (h : itemTypes.lookup who = some c) :
    who = .lighting ∧ c = .light ∨ who = .automation ∧ c = .automation ∨ who = .gateway ∧ c = .gateway ∨
      who = .energyManagement ∧ c = .energyManagement := by
  have := mem_of_lookup h
  simpa [itemTypes] using this

theorem construct_place {c : Cls} {wher : Tag} {i : Item} (h : construct c wher = .ok i) {who : Who}
    (hw : itemTypes.lookup who = some c) : i.who = who ∧ i.wher.string = placeOf c wher.string := by
  rcases itemTypes_cases hw with ⟨rfl, rfl⟩ | ⟨rfl, rfl⟩ | ⟨rfl, rfl⟩ | ⟨rfl, rfl⟩ <;> simp only [construct] at h
  · cases h; exact ⟨rfl, rfl⟩
  · cases h; exact ⟨rfl, rfl⟩
  · cases h; exact ⟨rfl, rfl⟩
  · unfold EnergyManagement.newTag at h
    rcases hg : EnergyManagement.getType wher with e | t
    · rw [hg] at h; cases h
    · rw [hg] at h; cases h; exact ⟨rfl, rfl⟩

/-- C47: nothing is started out of nothing.  For every callback that is started, in any history, some packet received before
contains a frame; the callback was registered for the event which that frame is, gets the values in the frame, and gets the
item with the WHO and the WHERE of the frame. -/
theorem C47_origin (py : Python) (call : Call) (session : Session) (client : Nat) (h : List Step) :
    ∀ x ∈ (after py call session client h).trace, ∃ d ts m slot who wher, Step.packet d ∈ h ∧ body ts <:+: textOf d ∧
      FrameOf ts m ∧ firing m = some (slot, x.args) ∧ x.cb ∈ registered slot h ∧ About ts who wher ∧
      classOf who.code = some x.item.cls ∧ x.item.item.who = who ∧ x.item.item.wher.string = placeOf x.item.cls wher := by
  intro x hx
  have hi := (after_inv py call session client h).items
  obtain ⟨ts, m, ⟨d, hd, hf, hb⟩, slot, who, wher, a, b, c, e, f⟩ := (after_origin py call session client h).trace x hx
  obtain ⟨h1, h2⟩ := hi.made _ _ f
  obtain ⟨h3, h4⟩ := construct_place h2 h1
  exact ⟨d, ts, m, slot, who, wher.string, hd, hb, hf, a, b, frameOf_about hf c e, by rw [← itemTypes_lookup]; exact h1, h3, h4⟩

/-! ## C85: whose items -/

/-- C85: the item handed to a callback is bound to the client of `loop()`, unless an earlier `get_item` for the
same WHO and WHERE named its client. -/
theorem C85_callback (py : Python) (call : Call) (session : Session) (client : Nat) (h : List Step) :
    ∀ x ∈ (after py call session client h).trace, x.item.client = client ∨
      ∃ wher, Step.getItem x.item.item.who wher x.item.client ∈ h ∧
        x.item.item.wher.string = placeOf x.item.cls wher.string := by
  intro x hx
  have ho := after_origin py call session client h
  have hi := (after_inv py call session client h).items
  obtain ⟨_, _, _, slot, who, wher, _, _, _, _, f⟩ := ho.trace x hx
  obtain ⟨h1, h2⟩ := hi.made _ _ f
  obtain ⟨h3, h4⟩ := construct_place h2 h1
  rcases ho.cache _ _ f with h | ⟨w, hw, h⟩
  · exact .inl h
  · exact .inr ⟨w, by rw [h3]; exact h, by rw [h4, hw]⟩

/-- C85: so without calls of `get_item` for other clients, callbacks get items of the client of `loop()`. -/
theorem C85_one_client (py : Python) (call : Call) (session : Session) (client : Nat) (h : List Step)
    (hh : ∀ who wher c, Step.getItem who wher c ∈ h → c = client) :
    ∀ x ∈ (after py call session client h).trace, x.item.client = client := fun x hx =>
  (C85_callback py call session client h x hx).elim id fun ⟨_, hw, _⟩ => hh _ _ _ hw

/-- C85: `get_item` gives an item of the client it is given, unless an earlier `get_item` for the same WHO and
WHERE named another, or an event of that item was handled before. -/
theorem C85_get (py : Python) (call : Call) (session : Session) (client c : Nat) (h : List Step) (who : Who) (wher : Tag)
    (o : Obj) (i : Items) (hg : getItem c who wher (after py call session client h).items = (.ok o, i)) :
    o.client = c ∨ o.client = client ∨ ∃ w, w.string = wher.string ∧ Step.getItem who w o.client ∈ h := by
  rcases getItem_cases c who wher (after py call session client h).items with
    ⟨o', hl, e⟩ | ⟨_, _, e⟩ | ⟨_, _, _, _, _, e⟩ | ⟨cl, it, hl, ht, hco, e⟩
  · rw [e] at hg; cases hg
    exact .inr ((after_origin py call session client h).cache _ _ hl)
  · rw [e] at hg; cases hg
  · rw [e] at hg; cases hg
  · rw [e] at hg; cases hg; exact .inl rfl

/-- The hypothesis of `C85_one_client` is met, with a callback that is started. -/
example : let h := [Step.getItem .lighting ⟨cs!"12"⟩ 0, .register .light .onStatusChange 7, .loop,
      .packet (cs!"*1*1*12##".map fun c => c.toNat.toUInt8), .resume]
    (∀ who wher c, Step.getItem who wher c ∈ h → c = 0) ∧
      (after .upTo312 (fun _ => .ok ()) .event 0 h).trace.map (·.item.client) = [0] := by
  refine ⟨?_, by decide +kernel⟩
  intro who wher c hm
  simp at hm
  exact hm.2.2

/-- An item asked for before with another client keeps that client. -/
example : (after .upTo312 (fun _ => .ok ()) .event 0 [Step.getItem .lighting ⟨cs!"12"⟩ 5, .register .light .onStatusChange 7,
    .loop, .packet (cs!"*1*1*12##".map fun c => c.toNat.toUInt8), .resume]).trace.map (·.item.client) = [5] := by
  decide +kernel
