import Verif.Proofs.Heap

/-! # Properties of message objects: C81 -/

open Py Heap

/-! ## C81: messages do not change

The full claim: once a message object exists, nothing the program does changes what it says. -/

/-- C81 is false: a `GenericMessage` goes on using the list it was given (directly or through `GenericMessage.parse`), and
says something else when that list is changed; it may even stop being a frame. -/
theorem C81_immutable_refuted :
    ¬ ∀ (before after : List Op) (k : Nat) (m : Msg), (State.init.run before).message k = some m →
      ((State.init.run before).run after).message k = some m := by
  intro h
  have := h [.newList [cs!"98", cs!"2"], .parseList 0] [.change 0 [cs!"98", cs!"2##*1"]] 0 (.generic [cs!"98", cs!"2"])
    (by decide)
  revert this
  decide

/-- C81, what holds: a message that came from `parse_message`, or from a constructor given a tuple, says the same for ever,
whatever the program does with the lists it holds, those returned by `tags` included. -/
theorem C81_immutable_partial (before after : List Op) (op : Op) (m : Msg)
    (hop : (∃ text, op = .parse text ∧ parseMessage text = .ok m) ∨ op = .make m) :
    let s := State.init.run before
    s.message s.msgs.length = none ∧ ((s.step op).run after).message s.msgs.length = some m := by
  intro s
  have hs : s.step op = s.fresh m := by
    rcases hop with ⟨text, rfl, h⟩ | rfl
    · simp only [State.step, h]
    · rfl
  refine ⟨by simp [State.message], ?_⟩
  rw [hs]
  exact Safe.run after (fresh_safe (Bounded.run before Bounded.init) m)

/-- C81: `tags` gives a list of its own, with the tags of the message at that moment: changing it changes no message. -/
theorem C81_tags_copy (before : List Op) (k : Nat) (ts new : List Str)
    (hk : (State.init.run before).message k = some (.generic ts)) :
    let s := (State.init.run before).step (.tags k)
    let r := (State.init.run before).lists.length
    r ∈ s.user ∧ s.lists[r]? = some ts ∧ ∀ j, (s.step (.change r new)).message j = (State.init.run before).message j := by
  have hb := Bounded.run before Bounded.init
  rw [tags_step hb hk]
  exact ⟨by simp, by simp, change_copy hb ts new⟩

/-- The hypotheses are met, and the copy does differ from the message after the change. -/
example : (State.init.run [.parse cs!"*98*2##", .tags 0, .change 1 []]).message 0 = some (.generic [cs!"98", cs!"2"]) := by
  decide

example : (State.init.run [.newList [cs!"98", cs!"2"], .build 0, .change 0 []]).message 0 = some (.generic []) := by
  decide
