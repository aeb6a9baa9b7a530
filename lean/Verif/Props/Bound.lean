import Verif.Proofs.Bound
import Verif.Props.Loops
import Verif.Props.Origin

/-! # C85 for any number of loops -/

open Py Spec Events

/-- C85: the same for any number of loops, of different clients, cancelled or not.  The item handed to a callback was not
known before some act of the history; this act is a `get_item` for its WHO and WHERE naming its client, or the run of a loop of its
client. -/
theorem C85_many (py : Python) (call : Call) (session : Session) (h : List Act) :
    ∀ x ∈ ((Many.init session).run py call h).base.trace, ∃ h' a wher, h' ++ [a] <+: h ∧
      x.item.item.wher.string = placeOf x.item.cls wher ∧
      ((Many.init session).run py call h').base.items.cache.lookup (x.item.item.who, wher) = none ∧
      ((Many.init session).run py call (h' ++ [a])).base.items.cache.lookup (x.item.item.who, wher) = some x.item ∧
      DoneFor h' a (x.item.item.who, wher) x.item.client := by
  intro x hx
  obtain ⟨log, kp⟩ := many_kept py call session h
  rw [kp.trace _ kp.inv.items (Keeps.refl _)] at hx
  obtain ⟨e, _, hx⟩ := List.mem_flatMap.1 hx
  obtain ⟨⟨who, wher⟩, hl⟩ := begunIn_item hx
  obtain ⟨h1, h2⟩ := kp.inv.items.made _ _ hl
  obtain ⟨h3, h4⟩ := construct_place h2 h1
  obtain ⟨h', a, b1, b2, b3, b4⟩ := many_born py call session h _ _ hl
  exact ⟨h', a, wher, b1, h4, by rw [h3]; exact b2, by rw [h3]; exact b3, by rw [h3]; exact b4⟩

/-- C85: so when all loops and all calls of `get_item` are for one client, callbacks get items of this client. -/
theorem C85_many_one_client (py : Python) (call : Call) (session : Session) (h : List Act) (client : Nat)
    (h1 : ∀ id c, Act.loop id c ∈ h → c = client) (h2 : ∀ who wher c, Act.getItem who wher c ∈ h → c = client) :
    ∀ x ∈ ((Many.init session).run py call h).base.trace, x.item.client = client := by
  intro x hx
  obtain ⟨h', a, wher, hp, _, _, _, ⟨w, rfl, _⟩ | ⟨id, ⟨p, hr, _⟩, _⟩⟩ := C85_many py call session h x hx
  · exact h2 _ _ _ (hp.subset (List.mem_append_right _ (List.mem_singleton_self _)))
  · exact h1 _ _ ((hr.trans hp).subset (List.mem_append_right _ (List.mem_singleton_self _)))

/-- Two loops of different clients, a third client given to `get_item`: each item has the client it was first needed for. -/
example : ((Many.init .event).run .upTo312 allStart
      [.getItem .lighting ⟨cs!"13"⟩ 9, .register .light .onStatusChange 7, .loop 0 4, .packet (bytes "*1*1*11##"), .resume 0,
       .packet (bytes "*1*0*12##"), .cancel 0, .loop 1 5, .packet (bytes "*1*1*13##*1*0*11##"), .resume 1]).base.trace.map
        (fun x => (x.item.item.wher.string, x.item.client)) =
      [(cs!"11", 4), (cs!"12", 5), (cs!"13", 9), (cs!"11", 4)] := by decide +kernel

/-- Non-vacuity of `C85_many_one_client`. -/
example : let h := [Act.register .light .onStatusChange 7, .loop 0 4, .packet (bytes "*1*1*11##"), .cancel 0, .loop 1 4]
    (∀ id c, Act.loop id c ∈ h → c = 4) ∧ (∀ who wher c, Act.getItem who wher c ∈ h → c = 4) ∧
    ((Many.init .event).run .upTo312 allStart h).base.trace.map (·.item.client) = [4] := by
  refine ⟨?_, ?_, by decide +kernel⟩
  · intro id c hm; simp at hm; rcases hm with h | h <;> exact h.2
  · intro who wher c hm; simp at hm
