import Verif.Proofs.Loop
import Verif.Props.Energy
import Verif.Props.Gateway

/-!
# Properties of items, callbacks and the event loop (C44–C53, C64, C72, C77–C79)
-/

open Py Spec Events

/-! ## C44: items -/

/-- C44: after a successful `get_item`, whatever happens then, `get_item` with the same texts gives the same object, for any
client argument. -/
theorem C44_same (py : Python) (call : Call) (session : Session) (client : Nat) (h h' : List Step) (c c' : Nat)
    (who who' : Who) (wher wher' : Tag) (o : Obj) (i : Items)
    (hg : getItem c who wher (after py call session client h).items = (.ok o, i)) (hk : who'.code = who.code)
    (hs : wher'.string = wher.string) :
    getItem c' who' wher' (after py call session client (h ++ .getItem who wher c :: h')).items =
      (.ok o, (after py call session client (h ++ .getItem who wher c :: h')).items) := by
  apply getItem_cached
  rw [code_inj hk, hs]
  have hi := after_inv py call session client (h ++ [.getItem who wher c])
  have hl : (after py call session client (h ++ [.getItem who wher c])).items.cache.lookup (who, wher.string) = some o := by
    rw [after_append]
    change (getItem c who wher (after py call session client h).items).2.cache.lookup _ = _
    rw [hg]; exact getItem_lookup hg
  have := (run_inv (py := py) (call := call) hi h').2 _ _ hl
  rw [← after_append, List.append_assoc] at this
  exact this

/-- C44: two successful calls, at any two times, give the same object exactly when WHO and WHERE are equal as texts. -/
theorem C44_distinct (py : Python) (call : Call) (session : Session) (client : Nat) (h h' : List Step) (c c' : Nat)
    (who who' : Who) (wher wher' : Tag) (o o' : Obj) (i i' : Items)
    (hg : getItem c who wher (after py call session client h).items = (.ok o, i))
    (hg' : getItem c' who' wher' (after py call session client (h ++ .getItem who wher c :: h')).items = (.ok o', i')) :
    (o.id = o'.id ↔ who.code = who'.code ∧ wher.string = wher'.string) ∧ (o.id = o'.id → o = o') := by
  have key : o.id = o'.id → who.code = who'.code ∧ wher.string = wher'.string := by
    intro hid
    have hi := after_inv py call session client (h ++ .getItem who wher c :: h')
    have h1 := C44_same py call session client h h' c c' who who wher wher o i hg rfl rfl
    have ok := getItem_ok (client := c') (who := who') (wher := wher') hi.items
    have l1 := getItem_keeps c' who' wher' _ _ _ (getItem_lookup h1)
    have l2 := getItem_lookup hg'
    rw [hg'] at ok l1
    have := ok.inj _ _ _ _ l1 l2 hid
    simp only [Prod.mk.injEq] at this
    rw [this.1, this.2]; exact ⟨rfl, rfl⟩
  have same : who.code = who'.code ∧ wher.string = wher'.string → o = o' := by
    rintro ⟨a, b⟩
    have := C44_same py call session client h h' c c' who who' wher wher' o i hg a.symm b.symm
    rw [hg'] at this
    cases this; rfl
  exact ⟨⟨key, fun h => congrArg Obj.id (same h)⟩, fun h => same (key h)⟩

/-- C44: the object has the class for its WHO. -/
theorem C44_class (py : Python) (call : Call) (session : Session) (client : Nat) (h : List Step) (c : Nat) (who : Who)
    (wher : Tag) (o : Obj) (i : Items) (hg : getItem c who wher (after py call session client h).items = (.ok o, i)) :
    classOf who.code = some o.cls := by
  have ok := getItem_ok (client := c) (who := who) (wher := wher) (after_inv py call session client h).items
  rw [hg] at ok
  have := (ok.made _ _ (getItem_lookup hg)).1
  rwa [itemTypes_lookup] at this

/-- C44: a call that raises changes no item. -/
theorem C44_failure (c : Nat) (who : Who) (wher : Tag) (s i : Items) (e : Err)
    (hg : getItem c who wher s = (.error e, i)) : i = s := by
  rcases getItem_cases c who wher s with ⟨o, hl, h⟩ | ⟨_, _, h⟩ | ⟨_, _, _, _, _, h⟩ | ⟨_, i, hl, ht, hc, h⟩
  · rw [h] at hg; cases hg
  · rw [h] at hg; cases hg; rfl
  · rw [h] at hg; cases hg; rfl
  · rw [h] at hg; cases hg

/-- C44: a call succeeds exactly for a WHO that has a class and an address at which there can be an item; otherwise it raises
`KeyError` for a WHO without a class, and the constructor's exception for an address. -/
theorem C44_success (py : Python) (call : Call) (session : Session) (client : Nat) (h : List Step) (c : Nat) (who : Who)
    (wher : Tag) :
    (classOf who.code = none → (getItem c who wher (after py call session client h).items).1 = .error .keyError) ∧
      ((∃ o, (getItem c who wher (after py call session client h).items).1 = .ok o) ↔
        (∃ k, classOf who.code = some k) ∧ Placed who wher.string) ∧
      (∀ k, classOf who.code = some k → ¬ Placed who wher.string →
        (getItem c who wher (after py call session client h).items).1 = .error (placeError wher.string)) := by
  have hi := (after_inv py call session client h).items
  generalize (after py call session client h).items = s at hi
  have hct : itemTypes.lookup who = classOf who.code := itemTypes_lookup who
  rcases getItem_cases c who wher s with ⟨o, hl, h⟩ | ⟨_, ht, h⟩ | ⟨k, e, _, ht, hc, h⟩ | ⟨k, i, hl, ht, hc, h⟩
  · obtain ⟨a, b⟩ := hi.made _ _ hl
    have hp := (construct_iff a).1 ⟨_, b⟩
    rw [hct] at a
    rw [h, a]
    exact ⟨fun h => (by cases h), ⟨fun _ => ⟨⟨_, rfl⟩, hp⟩, fun _ => ⟨_, rfl⟩⟩, fun _ _ hn => absurd hp hn⟩
  · rw [hct] at ht
    rw [h, ht]
    refine ⟨fun _ => rfl, ⟨?_, ?_⟩, ?_⟩
    · rintro ⟨_, h⟩; cases h
    · rintro ⟨⟨_, h⟩, _⟩; cases h
    · intro _ h; cases h
  · have hn : ¬ Placed who wher.string := by
      rw [← construct_iff ht]; rintro ⟨i, hi⟩; rw [hi] at hc; cases hc
    have he := (construct_error ht hc).2
    rw [hct] at ht
    rw [h, ht]
    refine ⟨fun h => (by cases h), ⟨?_, ?_⟩, ?_⟩
    · rintro ⟨_, h⟩; cases h
    · rintro ⟨_, h⟩; exact absurd h hn
    · intro _ _ _; rw [he]; rfl
  · have hp := (construct_iff ht).1 ⟨_, hc⟩
    rw [hct] at ht
    rw [h, ht]
    exact ⟨fun h => (by cases h), ⟨fun _ => ⟨⟨_, rfl⟩, hp⟩, fun _ => ⟨_, rfl⟩⟩, fun _ _ hn => absurd hp hn⟩

example : ((getItem 0 .lighting ⟨cs!"12"⟩ .init).1, (getItem 1 .lighting ⟨cs!"12"⟩ (getItem 0 .lighting ⟨cs!"12"⟩ .init).2).1,
    (getItem 1 .lighting ⟨cs!"012"⟩ (getItem 0 .lighting ⟨cs!"12"⟩ .init).2).1) =
    (.ok ⟨0, .light, ⟨.lighting, ⟨cs!"12"⟩⟩, 0⟩, .ok ⟨0, .light, ⟨.lighting, ⟨cs!"12"⟩⟩, 0⟩,
      .ok ⟨1, .light, ⟨.lighting, ⟨cs!"012"⟩⟩, 1⟩) := by decide +kernel

/-! ## C45: skipped events -/

/-- C45: an event about no item, alone, changes nothing but the queue. -/
theorem C45_skipped (py : Python) (call : Call) (session : Session) (client : Nat) (h : List Step) (m : Msg) (hm : NoItem m)
    (hw : Waiting (after py call session client h) [m]) :
    after py call session client (h ++ [.resume]) = { after py call session client h with queue := [] } := by
  rw [after_append]
  change (after py call session client h).step py call .resume = _
  have hi := (after_inv py call session client h).items
  generalize after py call session client h = s at hw hi
  obtain ⟨h1, h2, h3⟩ := hw
  unfold State.step
  dsimp only
  rw [if_pos ⟨h1, by rw [h3]; simp⟩, h3, drain_cons h2 (handle_noItem hi hm)]
  obtain ⟨se, t, sq, r, it, ta, cl, tr⟩ := s
  dsimp only at h1
  subst h1
  simp [drain]

/-- C45: an event about no item makes no difference for those received with it, as long as those before it do not end the
loop. -/
theorem C45_between (py : Python) (call : Call) (s : State) (hi : Inv s) (m : Msg) (hm : NoItem m) (pre post : List Msg)
    (hh : ∀ x ∈ pre, Harmless x) (hw : Waiting s (pre ++ m :: post)) :
    s.step py call .resume = drain py call s (pre ++ post) := by
  obtain ⟨h1, h2, h3⟩ := hw
  unfold State.step
  dsimp only
  rw [if_pos ⟨h1, by rw [h3]; simp⟩, h3]
  obtain ⟨i, ts, g1, g2, g3, g4⟩ := drain_harmless py call pre s h2 hi.items
    (fun x hx => hi.queue x (by rw [h3]; simp [hx])) hh
  rw [g4, g4, drain_cons (by exact h2) (handle_noItem (by exact g1) hm)]
  simp

example : NoItem (.normal .videoDoorEntry ⟨cs!"0"⟩ ⟨cs!"4000"⟩) := .inr (.inr (.inr ⟨_, rfl, rfl⟩))

/-! ## C46: messages that end the loop -/

/-- Calling any callback makes a task. -/
def allStart : Call := fun _ => .ok ()

/-- The bytes of a text. -/
def bytes (s : String) : List UInt8 := s.toUTF8.toList

/-- C46 is false: an event from an energy device with an undocumented address ends `loop()` with an exception. -/
theorem C46_refuted :
    (after .upTo312 allStart .event 0 [.loop, .packet (bytes "*#18*9*113*5##"), .resume]).task =
      .raised (.invalidTag cs!"9") ∧
    (after .upTo312 allStart .event 0 [.loop, .packet (bytes "*#18*71*113*5##"), .resume]).task = .raised .indexError := by
  constructor <;> decide +kernel

/-- C46 as far as it holds: the loop goes on exactly when every event is about an item that can exist. -/
theorem C46_iff_partial (py : Python) (call : Call) (session : Session) (client : Nat) (h : List Step) (q : List Msg)
    (hw : Waiting (after py call session client h) q) :
    (Waiting (after py call session client (h ++ [.resume])) [] ↔ ∀ m ∈ q, Harmless m) ∧
    ∀ pre m post, q = pre ++ m :: post → (∀ x ∈ pre, Harmless x) → ¬ Harmless m →
      ∃ wher, m.wher = some wher ∧
        (after py call session client (h ++ [.resume])).task = .raised (placeError wher.string) ∧
        (after py call session client (h ++ [.resume])).queue = post := by
  have hi := after_inv py call session client h
  rw [after_append]
  change (Waiting ((after py call session client h).step py call .resume) [] ↔ _) ∧ ∀ pre m post, _ → _ → _ →
    ∃ wher, _ ∧ ((after py call session client h).step py call .resume).task = _ ∧
      ((after py call session client h).step py call .resume).queue = _
  generalize after py call session client h = s at hw hi
  have h2 : ∀ pre m post, q = pre ++ m :: post → (∀ x ∈ pre, Harmless x) → ¬ Harmless m →
      ∃ wher, m.wher = some wher ∧ (s.step py call .resume).task = .raised (placeError wher.string) ∧
        (s.step py call .resume).queue = post := by
    rintro pre m post rfl ha hb
    exact resume_raises hi hw ha hb
  refine ⟨⟨fun h1 => ?_, fun hh => (resume_harmless hi hw hh).1⟩, h2⟩
  by_contra hc
  have split : ∀ q : List Msg, (¬ ∀ m ∈ q, Harmless m) → ∃ pre m post, q = pre ++ m :: post ∧ (∀ x ∈ pre, Harmless x) ∧
      ¬ Harmless m := by
    intro q
    induction q with
    | nil => intro h; simp at h
    | cons m q ih =>
      intro h
      by_cases hm : Harmless m
      · obtain ⟨pre, m', post, rfl, a, b⟩ := ih (fun hq => h (by
          intro x hx
          rcases List.mem_cons.1 hx with rfl | hx
          exacts [hm, hq x hx]))
        refine ⟨m :: pre, m', post, rfl, ?_, b⟩
        intro x hx
        rcases List.mem_cons.1 hx with rfl | hx
        exacts [hm, a x hx]
      · exact ⟨[], m, q, rfl, by simp, hm⟩
  obtain ⟨pre, m, post, e, a, b⟩ := split q hc
  obtain ⟨wher, _, h3, _⟩ := h2 pre m post e a b
  rw [h1.1] at h3
  cases h3

/-- C46: once `loop()` has ended, no later event starts a callback. -/
theorem C46_ended (py : Python) (call : Call) (s : State) (h1 : s.task ≠ .none) (h2 : s.task ≠ .waiting) (h : List Step) :
    (s.run py call h).task = s.task ∧ (s.run py call h).trace = s.trace := by
  induction h generalizing s with
  | nil => exact ⟨rfl, rfl⟩
  | cons st h ih =>
    have key : (s.step py call st).task = s.task ∧ (s.step py call st).trace = s.trace := by
      cases st with
      | packet d =>
        unfold State.step; dsimp only
        split
        · split <;> exact ⟨rfl, rfl⟩
        · exact ⟨rfl, rfl⟩
      | lost => unfold State.step; dsimp only; split <;> exact ⟨rfl, rfl⟩
      | close => exact ⟨rfl, rfl⟩
      | register c m cb => unfold State.step; dsimp only; split <;> exact ⟨rfl, rfl⟩
      | getItem => exact ⟨rfl, rfl⟩
      | loop => unfold State.step; dsimp only; rw [if_neg h1]; exact ⟨rfl, rfl⟩
      | resume => unfold State.step; dsimp only; rw [if_neg (by tauto)]; exact ⟨rfl, rfl⟩
    obtain ⟨a, b⟩ := ih (s.step py call st) (by rw [key.1]; exact h1) (by rw [key.1]; exact h2)
    exact ⟨a.trans key.1, b.trans key.2⟩

/-! ## C47, C49: what is started -/

/-- C49: on every Python, whatever the callbacks do: a run of the waiting loop over events whose items can exist starts, for
each event, what that event starts by itself, and the loop waits again.  An event that cannot be decoded starts nothing; a
callback that raises ends the list of its own event only. -/
theorem C49_isolated (py : Python) (call : Call) (session : Session) (client : Nat) (h : List Step) (q : List Msg)
    (hw : Waiting (after py call session client h) q) (hh : ∀ m ∈ q, Harmless m) :
    Waiting (after py call session client (h ++ [.resume])) [] ∧
    (after py call session client (h ++ [.resume])).trace =
      (after py call session client h).trace ++
        q.flatMap (begun py call (fun k => registered k h) (after py call session client (h ++ [.resume]))) := by
  have hi := after_inv py call session client h
  have hr : slotCbs (after py call session client h).registry = fun k => registered k h :=
    funext fun k => after_registry py call session client h k
  have := resume_harmless (py := py) (call := call) hi hw hh
  rw [hr] at this
  rw [after_append]
  exact this

/-- C49: leaving out an event changes nothing for the events around it. -/
theorem C49_without (py : Python) (call : Call) (session : Session) (client : Nat) (h : List Step) (pre post : List Msg)
    (m : Msg) (hw : Waiting (after py call session client h) (pre ++ m :: post))
    (hh : ∀ x ∈ pre ++ m :: post, Harmless x) :
    ∃ begin : Msg → List Start, (after py call session client (h ++ [.resume])).trace =
        (after py call session client h).trace ++ pre.flatMap begin ++ begin m ++ post.flatMap begin ∧
      (firing m = none → begin m = []) ∧
      begin = begun py call (fun k => registered k h) (after py call session client (h ++ [.resume])) := by
  refine ⟨_, ?_, ?_, rfl⟩
  · rw [(C49_isolated py call session client h _ hw hh).2]
    simp [List.flatMap_append, List.flatMap_cons]
  · intro hf
    unfold begun starts
    split
    · rw [hf]
    · rfl

/-- C47 as far as it holds: on Python up to 3.12, if every callback can be called, a run of the loop over events whose items
can exist starts for each event exactly the callbacks registered for it, each once, in the order of registration, with the
item of the event and the decoded values. -/
theorem C47_partial (call : Call) (session : Session) (client : Nat) (h : List Step) (q : List Msg) (hc : AllStart call)
    (hw : Waiting (after .upTo312 call session client h) q) (hh : ∀ m ∈ q, Harmless m) :
    (after .upTo312 call session client (h ++ [.resume])).trace =
      (after .upTo312 call session client h).trace ++ q.flatMap fun m =>
        match itemFor (after .upTo312 call session client (h ++ [.resume])) m, firing m with
        | some o, some (slot, args) => (registered slot h).map fun cb => ⟨cb, o, args⟩
        | _, _ => [] := by
  rw [(C49_isolated .upTo312 call session client h q hw hh).2]
  generalize after .upTo312 call session client (h ++ [.resume]) = s'
  congr 2
  funext m
  unfold begun
  cases itemFor s' m with
  | none => rfl
  | some o =>
    dsimp only
    unfold starts
    rcases firing m with _ | ⟨slot, args⟩
    · rfl
    · dsimp only
      rw [List.takeWhile_eq_self_iff]
      intro st _
      rw [hc st]; rfl

/-- C47: the same for the events received before `loop()` is called. -/
theorem C47_first_partial (py : Python) (call : Call) (session : Session) (client : Nat) (h : List Step)
    (h0 : (after py call session client h).task = .none) (h1 : (after py call session client h).session = .event)
    (h2 : (after py call session client h).transport = .opened)
    (hh : ∀ m ∈ (after py call session client h).queue, Harmless m) :
    Waiting (after py call session client (h ++ [.loop])) [] ∧
    (after py call session client (h ++ [.loop])).trace =
      (after py call session client h).trace ++ (after py call session client h).queue.flatMap
        (begun py call (fun k => registered k h) (after py call session client (h ++ [.loop]))) := by
  have hi := after_inv py call session client h
  have hr : slotCbs (after py call session client h).registry = fun k => registered k h :=
    funext fun k => after_registry py call session client h k
  have := loop_harmless (py := py) (call := call) hi h0 h1 h2 hh
  rw [hr] at this
  rw [after_append]
  exact this

/-- C47: nothing else starts a callback. -/
theorem C47_only_events (py : Python) (call : Call) (s : State) (st : Step) (h1 : st ≠ .loop) (h2 : st ≠ .resume) :
    (s.step py call st).trace = s.trace := by
  cases st with
  | packet d =>
    unfold State.step; dsimp only
    split
    · split <;> rfl
    · rfl
  | lost => unfold State.step; dsimp only; split <;> rfl
  | close => rfl
  | register c m cb => unfold State.step; dsimp only; split <;> rfl
  | getItem => rfl
  | loop => exact absurd rfl h1
  | resume => exact absurd rfl h2

/-- C47: whatever is started was registered before, for the event that an actual message is, and gets an item of the class of
the message. -/
theorem C47_sound (py : Python) (call : Call) (session : Session) (client : Nat) (h : List Step) :
    ∀ x ∈ (after py call session client h).trace, ∃ m slot, firing m = some (slot, x.args) ∧ x.cb ∈ registered slot h ∧
      ∃ who, m.who = some who ∧ classOf who.code = some x.item.cls := by
  intro x hx
  obtain ⟨_, m, slot, _, a, b, c⟩ := after_mem py call session client h x hx
  exact ⟨m, slot, a, b, c⟩

/-- C47 is false: from Python 3.13 on, no callback is ever started, for any history. -/
theorem C47_refuted (call : Call) (session : Session) (client : Nat) (h : List Step) :
    (after .from313 call session client h).trace = [] := by
  rcases ht : (after .from313 call session client h).trace with _ | ⟨x, xs⟩
  · rfl
  · obtain ⟨e, _⟩ := after_mem .from313 call session client h x (by rw [ht]; simp)
    cases e

/-- A light, on two versions. -/
example : (after .upTo312 allStart .event 0
      [.register .light .onStatusChange 7, .loop, .packet (bytes "*1*1*12##"), .resume]).trace =
        [⟨7, ⟨0, .light, ⟨.lighting, ⟨cs!"12"⟩⟩, 0⟩, [.bool true]⟩] ∧
    (after .from313 allStart .event 0
      [.register .light .onStatusChange 7, .loop, .packet (bytes "*1*1*12##"), .resume]).trace = [] := by
  constructor <;> decide +kernel

/-! ## C48: callbacks do not interfere -/

/-- C48: registering for one event does not change what other events start. -/
theorem C48_registration (py : Python) (call : Call) (session : Session) (client : Nat) (h : List Step) (q : List Msg)
    (hw : Waiting (after py call session client h) q) (hh : ∀ m ∈ q, Harmless m) (c : Cls) (mt : Method) (cb : Cb)
    (hne : ∀ m ∈ q, ∀ slot args, firing m = some (slot, args) → slotOf c mt ≠ some slot) :
    (after py call session client (h ++ [.register c mt cb, .resume])).trace =
      (after py call session client (h ++ [.resume])).trace := by
  have h1 : after py call session client (h ++ [.register c mt cb, .resume]) =
      after py call session client ((h ++ [.register c mt cb]) ++ [.resume]) := by simp
  have hw' : Waiting (after py call session client (h ++ [.register c mt cb])) q := by
    rw [after_append]
    change Waiting ((after py call session client h).step py call (.register c mt cb)) q
    unfold State.step
    dsimp only
    split <;> exact hw
  rw [h1, (C49_isolated py call session client _ q hw' hh).2, (C49_isolated py call session client h q hw hh).2]
  have ht : (after py call session client (h ++ [.register c mt cb])).trace = (after py call session client h).trace := by
    rw [after_append]
    exact C47_only_events py call _ (.register c mt cb) (by simp) (by simp)
  rw [ht]
  congr 1
  have hitems : (after py call session client (h ++ [.register c mt cb] ++ [.resume])).items =
      (after py call session client (h ++ [.resume])).items := by
    rw [after_append, after_append, after_append]
    change (((after py call session client h).step py call (.register c mt cb)).step py call .resume).items =
      ((after py call session client h).step py call .resume).items
    have hi := after_inv py call session client h
    generalize after py call session client h = s at hw hi
    have hs : (s.step py call (.register c mt cb)).items = s.items ∧ (s.step py call (.register c mt cb)).client = s.client ∧
        (s.step py call (.register c mt cb)).transport = s.transport ∧
        (s.step py call (.register c mt cb)).queue = s.queue ∧ (s.step py call (.register c mt cb)).task = s.task := by
      unfold State.step
      dsimp only
      split <;> exact ⟨rfl, rfl, rfl, rfl, rfl⟩
    generalize s.step py call (.register c mt cb) = s' at hs
    obtain ⟨a, b, c, d, e⟩ := hs
    unfold State.step
    dsimp only
    rw [d, e]
    split
    · exact drain_items py call _ _ _ a b c
    · exact a
  have hb : ∀ m ∈ q, begun py call (fun k => registered k (h ++ [.register c mt cb]))
        (after py call session client (h ++ [.register c mt cb] ++ [.resume])) m =
      begun py call (fun k => registered k h) (after py call session client (h ++ [.resume])) m := by
    intro m hm
    have hit : itemFor (after py call session client (h ++ [.register c mt cb] ++ [.resume])) m =
        itemFor (after py call session client (h ++ [.resume])) m := by
      unfold itemFor; rw [hitems]
    unfold begun
    rw [hit]
    cases py with
    | from313 => rfl
    | upTo312 =>
      cases itemFor (after .upTo312 call session client (h ++ [.resume])) m with
      | none => rfl
      | some o =>
        dsimp only
        unfold starts
        rcases hf : firing m with _ | ⟨slot, args⟩
        · rfl
        · dsimp only
          rw [registered_append]
          have := hne m hm slot args hf
          simp [registered, this]
  clear hw hw' ht hh hne h1 hitems
  induction q with
  | nil => rfl
  | cons m q ih =>
    rw [List.flatMap_cons, List.flatMap_cons, hb m (by simp), ih fun x hx => hb x (by simp [hx])]

/-- C48 as far as it holds: a callback is only ever called with items of a class that shares its callbacks with the class it
was registered on. -/
theorem C48_family_partial (py : Python) (call : Call) (session : Session) (client : Nat) (h : List Step) :
    ∀ x ∈ (after py call session client h).trace,
      ∃ c m, Step.register c m x.cb ∈ h ∧ family c = family x.item.cls := by
  intro x hx
  obtain ⟨_, m, slot, _, hf, hcb, who, hw, hc⟩ := after_mem py call session client h x hx
  obtain ⟨c, mt, h1, h2⟩ := mem_registered hcb
  refine ⟨c, mt, h1, ?_⟩
  rw [← slotOf_family h2]
  rcases firing_family hf with ⟨e, g⟩ | ⟨e, g⟩ | ⟨e, g⟩ | ⟨e, g⟩ <;> rw [e] at hw <;> cases hw <;> rw [g] <;>
    generalize x.item.cls = k at hc <;> revert hc <;> cases k <;> decide

/-- C48 is false for the subclasses: a callback registered on `Dimmer` is called with a `Light`, one registered on `StopGo`
with an `EnergyManagement`. -/
theorem C48_class_refuted :
    (after .upTo312 allStart .event 0
      [.register .dimmer .onStatusChange 7, .loop, .packet (bytes "*1*1*12##"), .resume]).trace =
        [⟨7, ⟨0, .light, ⟨.lighting, ⟨cs!"12"⟩⟩, 0⟩, [.bool true]⟩] ∧
    (after .upTo312 allStart .event 0
      [.register .stopGo .onInstantPower 7, .loop, .packet (bytes "*#18*51*113*5##"), .resume]).trace =
        [⟨7, ⟨0, .energyManagement, ⟨.energyManagement, ⟨cs!"51"⟩⟩, 0⟩, [.float (.nat 5)]⟩] := by
  constructor <;> decide +kernel

/-! ## C77: a callback that raises -/

/-- C77 is false: when calling a callback raises at once, the callbacks registered after it are not called. -/
theorem C77_refuted :
    (after .upTo312 (fun st => if st.cb = 7 then .error .typeError else .ok ()) .event 0
      [.register .light .onStatusChange 6, .register .light .onStatusChange 7, .register .light .onStatusChange 8, .loop,
       .packet (bytes "*1*1*12##"), .resume]).trace =
        [⟨6, ⟨0, .light, ⟨.lighting, ⟨cs!"12"⟩⟩, 0⟩, [.bool true]⟩] := by decide +kernel

/-- C77 as far as it holds: for any event the callbacks up to the first one that raises are started, so all if none does. -/
theorem C77_prefix_partial (call : Call) (regs : Slot → List Cb) (o : Obj) (m : Msg) (slot : Slot) (args : List Arg)
    (hf : firing m = some (slot, args)) (pre post : List Cb) (hr : regs slot = pre ++ post)
    (h1 : ∀ cb ∈ pre, call ⟨cb, o, args⟩ = .ok ())
    (h2 : ∀ cb cbs, post = cb :: cbs → call ⟨cb, o, args⟩ ≠ .ok ()) :
    starts call regs o m = pre.map fun cb => ⟨cb, o, args⟩ := by
  unfold starts
  rw [hf]
  dsimp only
  rw [hr, List.map_append, List.takeWhile_append_of_pos]
  · rcases post with _ | ⟨cb, cbs⟩
    · simp
    · simp [h2 cb cbs rfl]
  · intro st hst
    obtain ⟨cb, hcb, rfl⟩ := List.mem_map.1 hst
    rw [h1 cb hcb]; rfl

/-! ## C72: light status -/

/-- C72 as far as it holds: a light status event calls the callbacks with `True` for WHAT 1 and `False` for any other WHAT. -/
theorem C72_status_partial (what wher : Tag) :
    Delivers (.normal .lighting what wher) .lightStatus [.bool (what.string = cs!"1")] :=
  delivers_of rfl rfl rfl rfl (placed_other (by decide))

/-- C72 is false: a dimmer switched to 50 % is reported as off. -/
theorem C72_dimmed_refuted (wher : Tag) : Delivers (.normal .lighting ⟨cs!"5"⟩ wher) .lightStatus [.bool false] :=
  C72_status_partial ⟨cs!"5"⟩ wher

/-! ## C50: light dimension events -/

/-- C50 as far as it holds: HSV events (dimension 12) reach their callbacks, with the three numbers. -/
theorem C50_hsv_partial (wher : Tag) (x y z : Str) (a b c : Nat) (hx : decimal (bare x) = some a)
    (hy : decimal (bare y) = some b) (hz : decimal (bare z) = some c) (vs : List Tag) :
    Delivers (.dimResp .lighting wher ⟨cs!"12"⟩ (⟨x⟩ :: ⟨y⟩ :: ⟨z⟩ :: vs)) .lightHsv [.int a, .int b, .int c] := by
  refine delivers_of (who := .lighting) ?_ rfl rfl rfl (placed_other (by decide))
  have : numbers 3 (⟨x⟩ :: ⟨y⟩ :: ⟨z⟩ :: vs) = .ok [a, b, c] := by simp [numbers, hx, hy, hz, Except.map]
  change Option.map _ (intArgs (numbers 3 (⟨x⟩ :: ⟨y⟩ :: ⟨z⟩ :: vs))) = _
  rw [this]
  rfl

/-- C50 is false for temporization (dimension 2) and white temperature (dimension 14): these events start nothing, whatever
their values and on every Python. -/
theorem C50_never_refuted (wher : Tag) (vs : List Tag) :
    Ignored (.dimResp .lighting wher ⟨cs!"2"⟩ vs) ∧ Ignored (.dimResp .lighting wher ⟨cs!"14"⟩ vs) :=
  ⟨ignored_of rfl (harmless_other rfl (by decide)), ignored_of rfl (harmless_other rfl (by decide))⟩

/-- C50 is false for luminosity (dimension 1, two values): the event starts nothing. -/
theorem C50_luminosity_refuted (wher x y : Tag) : Ignored (.dimResp .lighting wher ⟨cs!"1"⟩ [x, y]) := by
  refine ignored_of ?_ (harmless_other rfl (by decide))
  change Option.map _ (intArgs (numbers 3 [x, y])) = _
  simp only [numbers]
  cases decimal (bare x.string) <;> cases decimal (bare y.string) <;> rfl

/-- C50: the events that do reach these callbacks are of other dimensions: 1 with three values for temporization, 8 (lamp
working time) for luminosity, 13 for white temperature. -/
theorem C50_wrong_refuted (wher : Tag) (x y z : Str) (a b c : Nat) (hx : decimal (bare x) = some a)
    (hy : decimal (bare y) = some b) (hz : decimal (bare z) = some c) :
    Delivers (.dimResp .lighting wher ⟨cs!"1"⟩ [⟨x⟩, ⟨y⟩, ⟨z⟩]) .lightTemporization [.int a, .int b, .int c] ∧
    Delivers (.dimResp .lighting wher ⟨cs!"8"⟩ [⟨x⟩, ⟨y⟩]) .lightLuminosity [.int a, .int b] ∧
    Delivers (.dimResp .lighting wher ⟨cs!"13"⟩ [⟨x⟩]) .lightWhite [.int a] := by
  refine ⟨delivers_of (who := .lighting) ?_ rfl rfl rfl (placed_other (by decide)),
    delivers_of (who := .lighting) ?_ rfl rfl rfl (placed_other (by decide)),
    delivers_of (who := .lighting) ?_ rfl rfl rfl (placed_other (by decide))⟩
  · change Option.map _ (intArgs (numbers 3 [⟨x⟩, ⟨y⟩, ⟨z⟩])) = _
    rw [show numbers 3 [⟨x⟩, ⟨y⟩, ⟨z⟩] = .ok [a, b, c] by simp [numbers, hx, hy, hz, Except.map]]
    rfl
  · change Option.map _ (intArgs (numbers 2 [⟨x⟩, ⟨y⟩])) = _
    rw [show numbers 2 [⟨x⟩, ⟨y⟩] = .ok [a, b] by simp [numbers, hx, hy, Except.map]]
    rfl
  · change Option.map _ (intArgs (numbers 1 [⟨x⟩])) = _
    rw [show numbers 1 [⟨x⟩] = .ok [a] by simp [numbers, hx, Except.map]]
    rfl

/-- The documented luminosity event with a callback registered for it; and an HSV event. -/
example : (after .upTo312 allStart .event 0
      [.register .dimmer .onLuminosityChange 7, .register .dimmer .onHsvChange 8, .loop,
       .packet (bytes "*#1*12*1*150*100##*#1*12*12*359*100*50##"), .resume]).trace =
    [⟨8, ⟨0, .light, ⟨.lighting, ⟨cs!"12"⟩⟩, 0⟩, [.int 359, .int 100, .int 50]⟩] := by decide +kernel

/-! ## C51: energy events -/

/-- C51 as far as it holds: the four events with one energy or power value reach their callbacks with the double nearest to
the transmitted number. -/
theorem C51_float_partial (wher : Tag) (t : TypeEnergy) (ha : EnergyAddress wher.string t) (dim v : Str) (vs : List Tag)
    (hd : dim ∈ [cs!"113", cs!"51", cs!"53", cs!"54"]) (hne : v ≠ []) (hv : Digits v) :
    ∃ x, Nearest (value v) x ∧ (value v < 2 ^ 53 → x = value v) ∧
      Delivers (.dimResp .energyManagement wher ⟨dim⟩ (⟨v⟩ :: vs)) (.energy dim)
        [.float (if x < 2 ^ 1024 then .nat x else .inf)] := by
  obtain ⟨x, h1, h2, h3⟩ := (C73_float vs v).2.1 hne hv
  refine ⟨x, h1, h2, delivers_of (who := .energyManagement) ?_ rfl rfl rfl (placed_energy.2 ⟨t, ha⟩)⟩
  have : energyValue dim (⟨v⟩ :: vs) = some [.float (if x < 2 ^ 1024 then .nat x else .inf)] := by
    unfold energyValue
    rw [if_pos hd, h3]
    rfl
  change (energyValue dim (⟨v⟩ :: vs)).map _ = _
  rw [this]
  rfl

/-- C51: the differential current level reaches its callbacks. -/
theorem C51_level_partial (wher : Tag) (t : TypeEnergy) (ha : EnergyAddress wher.string t) (v : Str) (vs : List Tag) (n : Nat)
    (hv : TagText v) (hn : decimal v = some n) :
    Delivers (.dimResp .energyManagement wher ⟨cs!"73"⟩ (⟨v⟩ :: vs)) (.energy cs!"73") [.int n] := by
  refine delivers_of (who := .energyManagement) ?_ rfl rfl rfl (placed_energy.2 ⟨t, ha⟩)
  have : energyValue cs!"73" (⟨v⟩ :: vs) = valueArgs (fun x => [.int x]) (EnergyManagement.decodeLevel (⟨v⟩ :: vs)) := rfl
  change (energyValue cs!"73" (⟨v⟩ :: vs)).map _ = _
  have hl : EnergyManagement.decodeLevel (⟨v⟩ :: vs) = .ok (n : Int) := by
    change pyInt v = _
    rw [pyInt_decimal hv, hn]
  rw [this, hl]
  rfl

/-- C51: an actuator event reaches its callbacks if its first value has six digits. -/
theorem C51_actuator_partial (wher : Tag) (t : TypeEnergy) (ha : EnergyAddress wher.string t) (a b c d e f : Char)
    (rest : Str) (vs : List Tag) (hd : Digits [a, b, c, d, e, f]) :
    Delivers (.dimResp .energyManagement wher ⟨cs!"71"⟩ (⟨a :: b :: c :: d :: e :: f :: rest⟩ :: vs)) (.energy cs!"71")
      [.actuator ⟨digit a ≠ 0, digit b ≠ 0, digit c ≠ 0, digit d ≠ 0, digit e ≠ 0, digit f = 1⟩] := by
  refine delivers_of (who := .energyManagement) ?_ rfl rfl rfl (placed_energy.2 ⟨t, ha⟩)
  let m : Msg := .dimResp .energyManagement wher ⟨cs!"71"⟩ (⟨a :: b :: c :: d :: e :: f :: rest⟩ :: vs)
  have h := ((C66_positions ⟨[], .event, ⟨id, id, fun _ k _ => k, fun _ => none⟩, []⟩ ⟨.energyManagement, wher⟩ m ⟨[], true, [], []⟩).2 _ _ rfl).1
    a b c d e f rest rfl hd
  have h' := Energy.given ⟨[], .event, ⟨id, id, fun _ k _ => k, fun _ => none⟩, []⟩ ⟨.energyManagement, wher⟩ (Tag.ofStr DimensionEnergy.actuatorsInfo) m
    EnergyManagement.decodeActuator ⟨[], true, [], []⟩
  have he : EnergyManagement.decodeActuator m.values =
      .ok ⟨digit a ≠ 0, digit b ≠ 0, digit c ≠ 0, digit d ≠ 0, digit e ≠ 0, digit f = 1⟩ := by
    have : EnergyManagement.getActuatorsInfo ⟨[], .event, ⟨id, id, fun _ k _ => k, fun _ => none⟩, []⟩ ⟨.energyManagement, wher⟩ (some m) ⟨[], true, [], []⟩ =
      (EnergyManagement.decodeActuator m.values, ⟨[], true, [], []⟩) := h'
    rw [this] at h
    exact congrArg Prod.fst h
  have : energyValue cs!"71" m.values = valueArgs (fun x => [.actuator x]) (EnergyManagement.decodeActuator m.values) := rfl
  change (energyValue cs!"71" m.values).map _ = _
  rw [this, he]
  rfl

/-- C51 is false: an event whose dimension has parameters — all documented hourly, daily and monthly totals, and the
totalizers since reset — starts nothing, whatever its values and on every Python. -/
theorem C51_parameters_refuted (wher : Tag) (t : TypeEnergy) (ha : EnergyAddress wher.string t) (dim : Str) (hd : '#' ∈ dim)
    (vs : List Tag) : Ignored (.dimResp .energyManagement wher ⟨dim⟩ vs) := by
  refine ignored_of ?_ ?_
  · have hn : dim ∉ DimensionEnergy.all := by
      have : ∀ d ∈ DimensionEnergy.all, '#' ∉ d := by decide +kernel
      exact fun h => this dim h hd
    change (energyValue dim vs).map _ = none
    rw [energyValue_none hn]
    rfl
  · intro who wher' h1 h2
    cases h1; cases h2
    exact placed_energy.2 ⟨t, ha⟩

/-- C51 is false: a callback registered only for these totals is never called, in any history. -/
theorem C51_never_refuted (py : Python) (call : Call) (session : Session) (client : Nat) (h : List Step) (cb : Cb)
    (hcb : ∀ c m, Step.register c m cb ∈ h → m ∈ [.onDailyTotalizersHourly, .onMonthlyAverageHourly,
      .onMonthlyTotalizersCurrentYear, .onMonthlyTotalizersLastYear, .onEnergyUnitPerMonth, .onTotalizerSinceReset]) :
    ∀ x ∈ (after py call session client h).trace, x.cb ≠ cb := by
  rintro x hx rfl
  obtain ⟨_, m, slot, _, hf, hr, _⟩ := after_mem py call session client h x hx
  obtain ⟨c, mt, h1, h2⟩ := mem_registered hr
  have hslot : ∃ d, slot = .energy d ∧ d ∈ [cs!"511", cs!"512", cs!"513", cs!"514", cs!"52", cs!"72"] := by
    have := hcb c mt h1
    simp only [List.mem_cons, List.not_mem_nil, or_false] at this
    rcases this with rfl | rfl | rfl | rfl | rfl | rfl <;> cases c <;> simp [slotOf] at h2 <;> subst h2 <;>
      exact ⟨_, rfl, by simp⟩
  obtain ⟨d, rfl, hd⟩ := hslot
  unfold firing at hf
  split at hf
  · cases hf
  · split_ifs at hf <;> simp [Option.map_eq_some_iff] at hf
  · split_ifs at hf; cases hf
  · simp [Option.map_eq_some_iff] at hf
  · simp [Option.map_eq_some_iff] at hf
  · simp only [Option.map_eq_some_iff, Prod.mk.injEq, Slot.energy.injEq] at hf
    obtain ⟨a, h1, h2, _⟩ := hf
    rw [h2] at h1
    simp only [List.mem_cons, List.not_mem_nil, or_false] at hd
    rcases hd with rfl | rfl | rfl | rfl | rfl | rfl <;> cases h1
  · cases hf

/-- The documented event for the totals of a day, with a callback registered. -/
example : (after .upTo312 allStart .event 0
      [.register .energyManagement .onDailyTotalizersHourly 7, .register .energyManagement .onInstantPower 8, .loop,
       .packet (bytes "*#18*51*511#1#2*1*25##*#18*51*113*250##"), .resume]).trace =
    [⟨8, ⟨0, .energyManagement, ⟨.energyManagement, ⟨cs!"51"⟩⟩, 0⟩, [.float (.nat 250)]⟩] := by decide +kernel

/-! ## C52: gateway events -/

/-- C52 as far as it holds: an event for the time, the date, the date and time, the IP address or the uptime calls the
callbacks with the value the getter gives for the message. -/
theorem C52_value_partial (cfg : Config) (w : World) (wher : Tag) (vs : List Tag) :
    (∀ x, Gateway.getTime cfg (some (.dimResp .gateway wher ⟨cs!"0"⟩ vs)) w = (.ok x, w) →
      Delivers (.dimResp .gateway wher ⟨cs!"0"⟩ vs) (.gateway cs!"0") [.time x]) ∧
    (∀ x, Gateway.getDate cfg (some (.dimResp .gateway wher ⟨cs!"1"⟩ vs)) w = (.ok x, w) →
      Delivers (.dimResp .gateway wher ⟨cs!"1"⟩ vs) (.gateway cs!"1") [.date x]) ∧
    (∀ x, Gateway.getDateTime cfg (some (.dimResp .gateway wher ⟨cs!"22"⟩ vs)) w = (.ok x, w) →
      Delivers (.dimResp .gateway wher ⟨cs!"22"⟩ vs) (.gateway cs!"22") [.datetime x]) ∧
    (∀ x, Gateway.getIp cfg (some (.dimResp .gateway wher ⟨cs!"10"⟩ vs)) w = (.ok x, w) →
      Delivers (.dimResp .gateway wher ⟨cs!"10"⟩ vs) (.gateway cs!"10") [.ip x]) ∧
    (∀ x, Gateway.getUptime cfg (some (.dimResp .gateway wher ⟨cs!"19"⟩ vs)) w = (.ok x, w) →
      Delivers (.dimResp .gateway wher ⟨cs!"19"⟩ vs) (.gateway cs!"19") [.timedelta x]) := by
  have place : Placed .gateway wher.string := placed_other (by decide)
  refine ⟨fun x h => ?_, fun x h => ?_, fun x h => ?_, fun x h => ?_, fun x h => ?_⟩
  · have h : Gateway.decodeTime vs = .ok x := congrArg Prod.fst h
    refine delivers_of (who := .gateway) ?_ rfl rfl rfl place
    change (valueArgs (fun t => [Arg.time t]) (Gateway.decodeTime vs)).map _ = _
    rw [h]; rfl
  · have h : Gateway.decodeDate vs = .ok x := congrArg Prod.fst h
    refine delivers_of (who := .gateway) ?_ rfl rfl rfl place
    change (valueArgs (fun t => [Arg.date t]) (Gateway.decodeDate vs)).map _ = _
    rw [h]; rfl
  · have h : Gateway.decodeDateTime vs = .ok x := congrArg Prod.fst h
    refine delivers_of (who := .gateway) ?_ rfl rfl rfl place
    change (valueArgs (fun t => [Arg.datetime t]) (Gateway.decodeDateTime vs)).map _ = _
    rw [h]; rfl
  · have h : (Gateway.dotted vs >>= ipv4) = .ok x := congrArg Prod.fst h
    refine delivers_of (who := .gateway) ?_ rfl rfl rfl place
    change (valueArgs (fun t => [Arg.ip t]) (Gateway.dotted vs >>= ipv4)).map _ = _
    rw [h]; rfl
  · have h : Gateway.decodeUptime vs = .ok x := congrArg Prod.fst h
    refine delivers_of (who := .gateway) ?_ rfl rfl rfl place
    change (valueArgs (fun t => [Arg.timedelta t]) (Gateway.decodeUptime vs)).map _ = _
    rw [h]; rfl

/-- C52 is false for the values that are texts: netmask, MAC address, model, firmware, kernel and distribution version.  The
callback gets the characters of the text as so many arguments. -/
theorem C52_text_refuted (cfg : Config) (w : World) (wher : Tag) (vs : List Tag) :
    (∀ s, Gateway.getNetmask cfg (some (.dimResp .gateway wher ⟨cs!"11"⟩ vs)) w = (.ok s, w) →
      Delivers (.dimResp .gateway wher ⟨cs!"11"⟩ vs) (.gateway cs!"11") (s.map fun c => .str [c])) ∧
    (∀ s, Gateway.getMacaddress cfg (some (.dimResp .gateway wher ⟨cs!"12"⟩ vs)) w = (.ok s, w) →
      Delivers (.dimResp .gateway wher ⟨cs!"12"⟩ vs) (.gateway cs!"12") (s.map fun c => .str [c])) ∧
    (∀ x, Gateway.getModel cfg (some (.dimResp .gateway wher ⟨cs!"15"⟩ vs)) w = (.ok x, w) →
      Delivers (.dimResp .gateway wher ⟨cs!"15"⟩ vs) (.gateway cs!"15") (x.code.map fun c => .str [c])) ∧
    (∀ s, Gateway.getFirmware cfg (some (.dimResp .gateway wher ⟨cs!"16"⟩ vs)) w = (.ok s, w) →
      Delivers (.dimResp .gateway wher ⟨cs!"16"⟩ vs) (.gateway cs!"16") (s.map fun c => .str [c])) ∧
    (∀ s, Gateway.getKernelVersion cfg (some (.dimResp .gateway wher ⟨cs!"23"⟩ vs)) w = (.ok s, w) →
      Delivers (.dimResp .gateway wher ⟨cs!"23"⟩ vs) (.gateway cs!"23") (s.map fun c => .str [c])) ∧
    (∀ s, Gateway.getDistributionVersion cfg (some (.dimResp .gateway wher ⟨cs!"24"⟩ vs)) w = (.ok s, w) →
      Delivers (.dimResp .gateway wher ⟨cs!"24"⟩ vs) (.gateway cs!"24") (s.map fun c => .str [c])) := by
  have place : Placed .gateway wher.string := placed_other (by decide)
  refine ⟨fun x h => ?_, fun x h => ?_, fun x h => ?_, fun x h => ?_, fun x h => ?_, fun x h => ?_⟩
  · have h : Gateway.dotted vs = .ok x := congrArg Prod.fst h
    refine delivers_of (who := .gateway) ?_ rfl rfl rfl place
    change (valueArgs (fun s => s.map fun c => Arg.str [c]) (Gateway.dotted vs)).map _ = _
    rw [h]; rfl
  · have h : Gateway.decodeMac vs = .ok x := congrArg Prod.fst h
    refine delivers_of (who := .gateway) ?_ rfl rfl rfl place
    change (valueArgs (fun s => s.map fun c => Arg.str [c]) (Gateway.decodeMac vs)).map _ = _
    rw [h]; rfl
  · have h : (Gateway.valueAt vs 0).map GatewayModel.ofStr = .ok x := congrArg Prod.fst h
    refine delivers_of (who := .gateway) ?_ rfl rfl rfl place
    change (valueArgs (fun m => (GatewayModel.code m).map fun c => Arg.str [c])
      ((Gateway.valueAt vs 0).map GatewayModel.ofStr)).map _ = _
    rw [h]; rfl
  · have h : Gateway.decodeVersion vs = .ok x := congrArg Prod.fst h
    refine delivers_of (who := .gateway) ?_ rfl rfl rfl place
    change (valueArgs (fun s => s.map fun c => Arg.str [c]) (Gateway.decodeVersion vs)).map _ = _
    rw [h]; rfl
  · have h : Gateway.decodeVersion vs = .ok x := congrArg Prod.fst h
    refine delivers_of (who := .gateway) ?_ rfl rfl rfl place
    change (valueArgs (fun s => s.map fun c => Arg.str [c]) (Gateway.decodeVersion vs)).map _ = _
    rw [h]; rfl
  · have h : Gateway.decodeVersion vs = .ok x := congrArg Prod.fst h
    refine delivers_of (who := .gateway) ?_ rfl rfl rfl place
    change (valueArgs (fun s => s.map fun c => Arg.str [c]) (Gateway.decodeVersion vs)).map _ = _
    rw [h]; rfl

/-- The documented firmware event. -/
example : (after .upTo312 allStart .event 0
      [.register .gateway (.registerCallback cs!"16") 7, .loop, .packet (bytes "*#13**16*1*2*3##"), .resume]).trace =
    [⟨7, ⟨0, .gateway, ⟨.gateway, ⟨[]⟩⟩, 0⟩, [.str cs!"1", .str cs!".", .str cs!"2", .str cs!".", .str cs!"3"]⟩] := by
  decide +kernel

/-! ## C53: end of the loop -/

/-- A task that waits on an empty queue while the connection is gone waits for ever. -/
theorem stuck (py : Python) (call : Call) (s : State) (hw : s.task = .waiting) (ht : s.transport ≠ .opened)
    (hq : s.queue = []) (h : List Step) :
    (s.run py call h).task = .waiting ∧ (s.run py call h).transport ≠ .opened ∧ (s.run py call h).queue = [] := by
  induction h generalizing s with
  | nil => exact ⟨hw, ht, hq⟩
  | cons st h ih =>
    have : (s.step py call st).task = .waiting ∧ (s.step py call st).transport ≠ .opened ∧
        (s.step py call st).queue = [] := by
      cases st with
      | packet d => unfold State.step; dsimp only; rw [if_neg ht]; exact ⟨hw, ht, hq⟩
      | lost => unfold State.step; dsimp only; rw [if_neg ht]; exact ⟨hw, ht, hq⟩
      | close => exact ⟨hw, (fun hc => nomatch hc), hq⟩
      | register c m cb =>
        unfold State.step; dsimp only
        split
        · exact ⟨hw, ht, hq⟩
        · exact ⟨hw, ht, hq⟩
      | getItem who wher client => exact ⟨hw, ht, hq⟩
      | loop => unfold State.step; dsimp only; rw [if_neg (by rw [hw]; decide)]; exact ⟨hw, ht, hq⟩
      | resume => unfold State.step; dsimp only; rw [if_neg (fun x => x.2 hq)]; exact ⟨hw, ht, hq⟩
    exact ih _ this.1 this.2.1 this.2.2

/-- C53 is false: if `loop()` waits for a message when the connection breaks, when `close()` is called or when a packet that
cannot be parsed arrives, it waits for ever, whatever happens later. -/
theorem C53_refuted (py : Python) (call : Call) (session : Session) (client : Nat) (h h' : List Step) (st : Step)
    (hw : Waiting (after py call session client h) [])
    (hs : st = .lost ∨ st = .close ∨ ∃ d e, st = .packet d ∧ Protocol.packetMessages d = .error e) :
    (after py call session client (h ++ st :: h')).task = .waiting := by
  have hrun : after py call session client (h ++ st :: h') =
      ((after py call session client h).step py call st).run py call h' := by
    rw [after_append]; rfl
  rw [hrun]
  generalize after py call session client h = s at hw
  obtain ⟨h1, h2, h3⟩ := hw
  have : (s.step py call st).task = .waiting ∧ (s.step py call st).transport ≠ .opened ∧
      (s.step py call st).queue = [] := by
    rcases hs with rfl | rfl | ⟨d, e, rfl, hd⟩
    · unfold State.step; dsimp only; rw [if_pos h2]; exact ⟨h1, (fun hc => nomatch hc), h3⟩
    · exact ⟨h1, (fun hc => nomatch hc), h3⟩
    · unfold State.step Protocol.dataReceived; dsimp only; rw [if_pos h2, hd]
      exact ⟨h1, (fun hc => nomatch hc), h3⟩
  exact (stuck py call _ this.1 this.2.1 this.2.2 h').1

/-- The three ways, on a fresh event client. -/
example : Waiting (after .upTo312 allStart .event 0 [.loop]) [] ∧
    (∃ e, Protocol.packetMessages (bytes "garbage##") = .error e) ∧
    (after .upTo312 allStart .event 0 [.loop, .lost, .resume]).task = .waiting ∧
    (after .upTo312 allStart .event 0 [.loop, .close, .resume]).task = .waiting ∧
    (after .upTo312 allStart .event 0 [.loop, .packet (bytes "garbage##"), .packet (bytes "*1*1*12##"), .resume]).task =
      .waiting := by
  refine ⟨⟨?_, ?_, ?_⟩, ?_, ?_, ?_, ?_⟩
  · decide +kernel
  · decide +kernel
  · decide +kernel
  · exact ⟨.invalidMessage cs!"garbage##", by decide +kernel⟩
  · decide +kernel
  · decide +kernel
  · decide +kernel

/-- C53 as far as it holds: `loop()` ends after the connection broke exactly if a message was received before and not handled
yet; it handles the first such message and drops the others. -/
theorem C53_pending_partial (py : Python) (call : Call) (session : Session) (client : Nat) (h : List Step)
    (hw : (after py call session client h).task = .waiting)
    (ht : (after py call session client h).transport = .closing) :
    ((∃ h', (after py call session client (h ++ h')).task ≠ .waiting) ↔ (after py call session client h).queue ≠ []) ∧
    ∀ m q, (after py call session client h).queue = m :: q → Harmless m →
      (after py call session client (h ++ [.resume])).task = .returned ∧
      (after py call session client (h ++ [.resume])).queue = q ∧
      (after py call session client (h ++ [.resume])).trace = (after py call session client h).trace ++
        begun py call (fun k => registered k h) (after py call session client (h ++ [.resume])) m := by
  have hreg := after_registry py call session client h
  have hinv := after_inv py call session client h
  simp only [after_append]
  generalize after py call session client h = s at *
  have hres : s.queue ≠ [] → s.run py call [.resume] = drain py call s s.queue := by
    intro hq
    change s.step py call .resume = _
    unfold State.step; dsimp only; rw [if_pos ⟨hw, hq⟩]
  refine ⟨⟨?_, ?_⟩, ?_⟩
  · rintro ⟨h', hh'⟩ hq
    exact hh' (stuck py call s hw (by rw [ht]; decide) hq h').1
  · intro hq
    refine ⟨[.resume], ?_⟩
    rw [hres hq]
    rcases hs : s.queue with _ | ⟨m, q⟩
    · exact absurd hs hq
    · rw [drain]
      split
      · exact fun hc => nomatch hc
      · dsimp only
        rw [ht]
        exact fun hc => nomatch hc
  · intro m q hq hm
    rw [hres (by rw [hq]; simp), hq]
    obtain ⟨ts, i, g1, g2, g3, g4⟩ := handle_harmless py call s.client s.registry s.items m hinv.items
      (hinv.queue m (by rw [hq]; simp)) hm
    rw [drain, g1]
    dsimp only
    rw [ht]
    refine ⟨rfl, rfl, ?_⟩
    change s.trace ++ ts = _
    rw [begun_eq, g4 i g2 (Keeps.refl _), show slotCbs s.registry = fun k => registered k h from funext hreg]

/-- C53 is false: if `close()` is called while a harmless message waits, `loop()` handles that message and then raises
`AttributeError` to its caller. -/
theorem C53_close_refuted (py : Python) (call : Call) (session : Session) (client : Nat) (h : List Step) (m : Msg)
    (q : List Msg) (hw : (after py call session client h).task = .waiting)
    (hq : (after py call session client h).queue = m :: q) (hm : Harmless m) :
    (after py call session client (h ++ [.close, .resume])).task = .raised .attributeError := by
  have hinv := after_inv py call session client h
  rw [after_append]
  generalize after py call session client h = s at *
  change ((s.step py call .close).step py call .resume).task = _
  change (State.step py call { s with transport := .gone } .resume).task = _
  unfold State.step; dsimp only
  rw [if_pos ⟨hw, by rw [hq]; simp⟩, hq]
  obtain ⟨ts, i, g1, g2, g3, g4⟩ := handle_harmless py call s.client s.registry s.items m hinv.items
    (hinv.queue m (by rw [hq]; simp)) hm
  rw [drain]
  dsimp only
  rw [g1]

example : (after .upTo312 allStart .event 0 [.loop, .packet (bytes "*1*1*11##*1*0*11##"), .lost, .resume]).task = .returned ∧
    (after .upTo312 allStart .event 0 [.loop, .packet (bytes "*1*1*11##*1*0*11##"), .lost, .resume]).queue.length = 1 ∧
    (after .upTo312 allStart .event 0 [.loop, .packet (bytes "*1*1*11##"), .close, .resume]).task = .raised .attributeError := by
  decide +kernel

/-! ## C64: Stop&Go events -/

/-- C64 as far as it holds: a status event with the documented mask reaches its callbacks; attribute number `k` has the value
of bit `12 - k`, that is, the mask is read from the wrong end. -/
theorem C64_partial (wher : Tag) (t : TypeEnergy) (ha : EnergyAddress wher.string t) (b : Nat → Bool) (vs : List Tag) :
    ∃ s : StopGoStatus, (∀ k < 13, s.bit k = some (b (12 - k))) ∧
      Delivers (.dimResp .energyManagement wher ⟨cs!"250"⟩ (⟨maskText b⟩ :: vs)) (.energy cs!"250") [.stopGo s] := by
  have hb : ∀ x, bitText x = [if x then '1' else '0'] := by intro x; cases x <;> rfl
  have hm : maskText b = [if b 12 then '1' else '0', if b 11 then '1' else '0', if b 10 then '1' else '0',
      if b 9 then '1' else '0', if b 8 then '1' else '0', if b 7 then '1' else '0', if b 6 then '1' else '0',
      if b 5 then '1' else '0', if b 4 then '1' else '0', if b 3 then '1' else '0', if b 2 then '1' else '0',
      if b 1 then '1' else '0', if b 0 then '1' else '0'] := by
    simp [maskText, hb, List.range_succ]
  have hc : ∀ x : Bool, decide ((if x then '1' else '0') ≠ '0') = x := by decide
  have hd : ∀ x : Bool, Digits [if x then '1' else '0'] := by decide
  refine ⟨⟨b 12, b 11, b 10, b 9, b 8, b 7, b 6, b 5, b 4, b 3, b 2, b 1, b 0⟩, ?_, ?_⟩
  · intro k hk
    interval_cases k <;> rfl
  · refine delivers_of (who := .energyManagement) ?_ rfl rfl rfl (placed_energy.2 ⟨t, ha⟩)
    have he : energyValue cs!"250" (⟨maskText b⟩ :: vs) =
        if 13 ≤ (maskText b).length ∧ Digits ((maskText b).take 13) then
          (statusOfChars (((maskText b).take 13).map fun c => c ≠ '0')).map fun s => [.stopGo s]
        else none := rfl
    have hdig : Digits (maskText b) := by
      intro c hc
      rw [hm] at hc
      simp only [List.mem_cons, List.not_mem_nil, or_false] at hc
      rcases hc with rfl | rfl | rfl | rfl | rfl | rfl | rfl | rfl | rfl | rfl | rfl | rfl | rfl <;>
        exact hd _ _ (List.mem_singleton.2 rfl)
    have hl : (maskText b).length = 13 := by rw [hm]; rfl
    change (energyValue cs!"250" (⟨maskText b⟩ :: vs)).map _ = _
    rw [he, List.take_of_length_le (by omega), if_pos ⟨by omega, hdig⟩, hm]
    simp only [List.map_cons, List.map_nil, hc]
    rfl

/-- C64 is false: the callback is called with the documented status exactly for the masks that read the same from both
ends. -/
theorem C64_refuted (wher : Tag) (t : TypeEnergy) (ha : EnergyAddress wher.string t) (b : Nat → Bool) (vs : List Tag) :
    ∃ s : StopGoStatus,
      Delivers (.dimResp .energyManagement wher ⟨cs!"250"⟩ (⟨maskText b⟩ :: vs)) (.energy cs!"250") [.stopGo s] ∧
      ((∀ k < 13, s.bit k = some (b k)) ↔ ∀ k < 13, b k = b (12 - k)) := by
  obtain ⟨s, hs, hd⟩ := C64_partial wher t ha b vs
  refine ⟨s, hd, ?_, ?_⟩
  · intro h k hk
    have := (h k hk).symm.trans (hs k hk)
    simpa using this
  · intro h k hk
    rw [hs k hk, h k hk]

/-- A breaker that is only open (bit 0) is reported as closed and powered down. -/
example : (after .upTo312 allStart .event 0
      [.register .energyManagement .onStopGoStatus 7, .loop, .packet (bytes "*#18*71#0*250*0000000000001##"), .resume]).trace =
    [⟨7, ⟨0, .energyManagement, ⟨.energyManagement, ⟨cs!"71#0"⟩⟩, 0⟩,
      [.stopGo ⟨some false, some false, some false, some false, some false, some false, some false, some false, some false,
        some false, some false, some false, some true⟩]⟩] := by decide +kernel

/-! ## C78: when the loop may be started -/

/-- C78: `loop()` on a client that has no event session or is closed raises `InvalidSession` and handles nothing. -/
theorem C78_invalid (py : Python) (call : Call) (s : State) (h0 : s.task = .none)
    (h : s.session ≠ .event ∨ s.transport = .gone) :
    s.step py call .loop = { s with task := .raised .invalidSession } := by
  unfold State.step; dsimp only; rw [if_pos h0]
  unfold State.start
  by_cases hs : s.session ≠ .event
  · rw [if_pos hs]
  · rw [if_neg hs, h.resolve_left hs]

/-- C78: `loop()` on an event session whose connection broke returns at once. -/
theorem C78_lost (py : Python) (call : Call) (s : State) (h0 : s.task = .none) (h1 : s.session = .event)
    (h2 : s.transport = .closing) : s.step py call .loop = { s with task := .returned } := by
  unfold State.step; dsimp only; rw [if_pos h0]
  unfold State.start
  rw [if_neg (by rw [h1]; decide), h2]

/-- C78: `loop()` on a connected event session does not raise `InvalidSession` and, if every message received is harmless,
handles all of them and waits for more. -/
theorem C78_waits (py : Python) (call : Call) (session : Session) (client : Nat) (h : List Step)
    (h0 : (after py call session client h).task = .none) (h1 : (after py call session client h).session = .event)
    (h2 : (after py call session client h).transport = .opened)
    (hh : ∀ m ∈ (after py call session client h).queue, Harmless m) :
    Waiting (after py call session client (h ++ [.loop])) [] := by
  rw [after_append]
  exact (loop_harmless (after_inv py call session client h) h0 h1 h2 hh).1

/-! ## C79: cameras -/

/-- C79 is false: no event about a camera (WHO 7) starts anything. -/
theorem C79_refuted (m : Msg) (hm : m.who = some .videoDoorEntry) : Ignored m := by
  refine ignored_of ?_ (harmless_other hm (by decide))
  rcases hf : firing m with _ | ⟨slot, args⟩
  · rfl
  · exfalso
    rcases firing_family hf with h | h | h | h <;> rw [hm] at h <;> exact nomatch h.1

/-- C79 is false: a callback registered only with `Camera.on_status_change` is never called, in any history. -/
theorem C79_never_refuted (py : Python) (call : Call) (session : Session) (client : Nat) (h : List Step) (cb : Cb)
    (hcb : ∀ c m, Step.register c m cb ∈ h → c = .camera) :
    ∀ x ∈ (after py call session client h).trace, x.cb ≠ cb := by
  rintro x hx rfl
  obtain ⟨_, m, slot, _, hf, hr, _⟩ := after_mem py call session client h x hx
  obtain ⟨c, mt, h1, h2⟩ := mem_registered hr
  obtain rfl := hcb c mt h1
  have h3 := slotOf_family h2
  rcases firing_family hf with h | h | h | h <;> rw [h3] at h <;> exact nomatch h.2

/-- A camera event between two light events, with a callback registered. -/
example : (after .upTo312 allStart .event 0
      [.register .camera .onStatusChange 7, .register .light .onStatusChange 8, .loop,
       .packet (bytes "*1*1*11##*7*0*4000##*1*0*11##"), .resume]).trace =
    [⟨8, ⟨0, .light, ⟨.lighting, ⟨cs!"11"⟩⟩, 0⟩, [.bool true]⟩, ⟨8, ⟨0, .light, ⟨.lighting, ⟨cs!"11"⟩⟩, 0⟩, [.bool false]⟩] := by
  decide +kernel
