import Verif.Proofs.Reconnect
import Verif.Props.Loops

/-! # C130: a client that is started again goes on listening -/

open Py Spec Events

namespace Events

theorem prepares_arrived {g : List Act} (hg : ∀ a ∈ g, Prepares a) (h : List Act) : arrived (g ++ h) = arrived h := by
  induction g with
  | nil => rfl
  | cons a g ih =>
    have := ih fun b hb => hg b (List.mem_cons_of_mem _ hb)
    rcases hg a List.mem_cons_self with ⟨_, _, _, rfl⟩ | ⟨_, _, _, rfl⟩ <;> exact this

theorem enrolled_registrations (k : Slot) (h : List Act) : enrolled k (registrations h) = enrolled k h := by
  induction h with
  | nil => rfl
  | cons a h ih =>
    cases a with
    | register c m cb =>
      change (if slotOf c m = some k then cb :: enrolled k (registrations h) else enrolled k (registrations h)) =
        if slotOf c m = some k then cb :: enrolled k h else enrolled k h
      rw [ih]
    | _ => exact ih

/-- An act of a loop comes after those that prepare. -/
theorem after_prepares {g h e : List Act} {a : Act} (hg : ∀ a ∈ g, Prepares a) (ha : ¬ Prepares a) (he : e ++ [a] <+: g ++ h) :
    ∃ e', e = g ++ e' ∧ e' ++ [a] <+: h := by
  have hp : e <+: g ++ h := (List.prefix_append e [a]).trans he
  rcases List.prefix_or_prefix_of_prefix hp (List.prefix_append g h) with hp | ⟨e', rfl⟩
  · obtain ⟨r, rfl⟩ := hp
    rw [List.append_assoc, List.prefix_append_right_inj] at he
    cases r with
    | nil => exact ⟨[], by simp, by simpa using he⟩
    | cons b r =>
      rw [List.cons_append, List.cons_prefix_cons] at he
      exact absurd (hg b (by simp)) (he.1 ▸ ha)
  · exact ⟨e', rfl, by rwa [List.append_assoc, List.prefix_append_right_inj] at he⟩

theorem many_keeps_step (py : Python) (call : Call) {m : Many} (h : Inv m.base) (a : Act) :
    Keeps m.base.items (m.step py call a).base.items := by
  cases a with
  | packet d => exact step_keeps (py := py) (call := call) h (.packet d)
  | lost => exact step_keeps (py := py) (call := call) h .lost
  | close => exact step_keeps (py := py) (call := call) h .close
  | register c me cb => exact step_keeps (py := py) (call := call) h (.register c me cb)
  | getItem who wher client => exact step_keeps (py := py) (call := call) h (.getItem who wher client)
  | loop id client =>
    simp only [Many.step]
    rcases m.loops id with _ | _ | _
    · exact step_keeps (py := py) (call := call) (inv_congr (s' := { m.base with task := .none, client := client }) h rfl rfl) .loop
    · exact Keeps.refl _
    · exact Keeps.refl _
  | resume id =>
    simp only [Many.step]
    rcases m.loops id with _ | ⟨c, _ | _ | _ | _⟩ | _ <;> try exact Keeps.refl _
    exact step_keeps (py := py) (call := call) (inv_congr (s' := { m.base with task := .waiting, client := c }) h rfl rfl) .resume
  | cancel id =>
    simp only [Many.step]
    rcases m.loops id with _ | ⟨c, _ | _ | _ | _⟩ | _ <;> exact Keeps.refl _

theorem many_keeps (py : Python) (call : Call) (session : Session) (h h' : List Act) :
    Keeps ((Many.init session).run py call h).base.items ((Many.init session).run py call (h ++ h')).base.items := by
  induction h' generalizing h with
  | nil => rw [List.append_nil]; exact Keeps.refl _
  | cons a h' ih =>
    have := ih (h ++ [a])
    rw [List.append_assoc] at this
    refine Keeps.trans ?_ this
    obtain ⟨_, k⟩ := many_kept py call session h
    rw [many_run_append]
    exact many_keeps_step py call k.inv a

theorem many_quiet_queue (py : Python) (call : Call) {m : Many} (hn : ∀ id, m.loops id = .none) (g : List Act)
    (hc : ∀ id, ¬ Calls g id) :
    (m.run py call g).base.queue = if m.base.transport = .opened then m.base.queue ++ arrived g else m.base.queue := by
  induction g generalizing m with
  | nil => simp [Many.run, arrived]
  | cons a g ih =>
    have hc' : ∀ id, ¬ Calls g id := fun id ⟨c, h⟩ => hc id ⟨c, List.mem_cons_of_mem _ h⟩
    have hn' : ∀ id, (m.step py call a).loops id = .none :=
      (many_quiet py call hn [a] fun id ⟨c, h⟩ => hc id ⟨c, by simp_all⟩).2
    change ((m.step py call a).run py call g).base.queue = _
    rw [ih hn' hc']
    cases a with
    | packet d =>
      simp only [Many.step, State.step, arrived]
      by_cases ht : m.base.transport = .opened
      · obtain ⟨x, hx⟩ : ∃ x, Protocol.packetMessages d = x := ⟨_, rfl⟩
        cases x <;> simp [Protocol.dataReceived, hx, ht]
      · simp [ht]
    | lost => simp only [Many.step, State.step, arrived]; by_cases ht : m.base.transport = .opened <;> simp [ht]
    | close => simp [Many.step, State.step, arrived]
    | register c me cb =>
      obtain ⟨x, hx⟩ : ∃ x, Events.register c me cb m.base.registry = x := ⟨_, rfl⟩
      cases x <;> simp [Many.step, State.step, arrived, hx]
    | getItem => rfl
    | loop id client => exact absurd ⟨client, List.mem_cons_self⟩ (hc id)
    | resume id => simp only [Many.step, hn id, arrived]
    | cancel id => simp only [Many.step, hn id, arrived]

end Events

/-- C130, without the loops that waited: start a client again after what it waited for has ended, and with the loops called then
it goes on like a new client that has the same items and callbacks.  (`g` fetches the items and registers the callbacks.) -/
theorem C130_as_new_partial (py : Python) (call : Call) (session : Session) (h : List Act')
    (he : Ended ((Again.init session).run py call h)) :
    ∃ g : List Act, (∀ a ∈ g, Prepares a) ∧ registrations g = registrations (acts h) ∧
      ((Many.init session).run py call g).base.items = ((Again.init session).run py call h).base.items ∧
      ∀ h', Act'.start ∉ h' → (∀ id, Calls (acts h') id → ¬ Calls (acts h) id) →
        let t := (Again.init session).run py call (h ++ .start :: h')
        let m := (Many.init session).run py call (g ++ acts h')
        t.base.trace = ((Again.init session).run py call h).base.trace ++ m.base.trace ∧ t.base.items = m.base.items ∧
        t.base.registry = m.base.registry ∧ t.base.queue = m.base.queue ∧ t.base.transport = m.base.transport ∧
        ∀ id, ¬ Calls (acts h) id → (t.loops id).1 = m.loops id := by
  obtain ⟨g, g1, g2, g3⟩ := prepared_run py call (s := .init session) (m := .init session)
    ⟨rfl, rfl, rfl, rfl, rfl, rfl, fun _ => rfl⟩ h
  refine ⟨g, g1, g2, g3.items, fun h' hs hl => ?_⟩
  have sim := (sim_start py call g3 (known_init py call session h) he).run py call h' hs hl
  intro t m
  have ht : t = (((Again.init session).run py call h).step py call .start).run py call h' := again_run_append ..
  have hm : m = ((Many.init session).run py call g).run py call (acts h') := many_run_append ..
  rw [ht, hm]
  have hb := sim.base
  unfold Like at hb
  rw [hb]
  exact ⟨rfl, rfl, rfl, rfl, rfl, fun id hi => (sim.mine id hi).1⟩

/-- C130, without the loops that waited: every message of the new connection is handled exactly once, in the order of arrival, or
is still in the queue, and nothing else is handled; the callbacks registered before and since are begun for it; and the items are
the same objects as before. -/
theorem C130_account_partial (py : Python) (call : Call) (session : Session) (h h' : List Act')
    (he : Ended ((Again.init session).run py call h)) (hs : Act'.start ∉ h')
    (hl : ∀ id, Calls (acts h') id → ¬ Calls (acts h) id) :
    let s := (Again.init session).run py call h
    let t := (Again.init session).run py call (h ++ .start :: h')
    (∀ k o, s.base.items.cache.lookup k = some o → t.base.items.cache.lookup k = some o) ∧
    ∃ log : List (List Act × Msg), log.map (·.2) ++ t.base.queue = arrived (acts h') ∧
      (log.Pairwise fun a b => a.1 <+: b.1) ∧
      (∀ e ∈ log, ∃ id, e.1 ++ [.resume id] <+: acts h' ∨ ∃ client, e.1 ++ [.loop id client] <+: acts h') ∧
      t.base.trace = s.base.trace ++ log.flatMap fun e => begun py call (fun k => enrolled k (acts h ++ e.1)) t.base e.2 := by
  intro s t
  obtain ⟨g, g1, g2, g3, g4⟩ := C130_as_new_partial py call session h he
  obtain ⟨e1, e2, -, e4, -⟩ := g4 h' hs hl
  refine ⟨?_, ?_⟩
  · rw [e2, ← g3]
    exact many_keeps py call session g (acts h')
  obtain ⟨log, acc⟩ := C90_once py call session (g ++ acts h')
  have hmom : ∀ e ∈ log, ∃ e', e.1 = g ++ e' ∧
      ∃ id, e' ++ [.resume id] <+: acts h' ∨ ∃ client, e' ++ [.loop id client] <+: acts h' := by
    intro e hm
    obtain ⟨id, hp | ⟨client, hp⟩⟩ := acc.moment e hm
    · obtain ⟨e', a, b⟩ := after_prepares g1 (by rintro (⟨_, _, _, h⟩ | ⟨_, _, _, h⟩) <;> cases h) hp
      exact ⟨e', a, id, .inl b⟩
    · obtain ⟨e', a, b⟩ := after_prepares g1 (by rintro (⟨_, _, _, h⟩ | ⟨_, _, _, h⟩) <;> cases h) hp
      exact ⟨e', a, id, .inr ⟨client, b⟩⟩
  have hdrop : ∀ e ∈ log, e.1 = g ++ e.1.drop g.length := by
    intro e hm
    obtain ⟨e', a, _⟩ := hmom e hm
    rw [a, List.drop_left]
  refine ⟨log.map fun e => (e.1.drop g.length, e.2), ?_, ?_, ?_, ?_⟩
  · rw [List.map_map, e4]
    exact acc.once.trans (prepares_arrived g1 _)
  · rw [List.pairwise_map]
    refine acc.order.imp_of_mem ?_
    intro a b ha hb hp
    rw [hdrop a ha, hdrop b hb, List.prefix_append_right_inj] at hp
    simpa using hp
  · intro e hm
    obtain ⟨e0, h0, rfl⟩ := List.mem_map.1 hm
    obtain ⟨e', a, b⟩ := hmom e0 h0
    simp only [a, List.drop_left]
    exact b
  · rw [e1, acc.trace, List.flatMap_map]
    congr 1
    refine List.flatMap_congr fun e hm => ?_
    have hreg : (fun k => enrolled k e.1) = fun k => enrolled k (acts h ++ e.1.drop g.length) := by
      funext k
      rw [hdrop e hm, enrolled_append, enrolled_append, List.drop_left, ← enrolled_registrations k g, g2,
        enrolled_registrations]
    dsimp only
    rw [hreg]
    unfold begun itemFor
    rw [e2]

/-- C130, the loops that waited: until `loop()` is called again, nothing is begun after the new start, whatever arrives; every
message stays in the queue. -/
theorem C130_quiet (py : Python) (call : Call) (session : Session) (h h' : List Act')
    (he : Ended ((Again.init session).run py call h)) (hs : Act'.start ∉ h') (hl : ∀ id, ¬ Calls (acts h') id) :
    ((Again.init session).run py call (h ++ .start :: h')).base.trace = ((Again.init session).run py call h).base.trace ∧
    ((Again.init session).run py call (h ++ .start :: h')).base.queue = arrived (acts h') := by
  obtain ⟨g, g1, -, -, g4⟩ := C130_as_new_partial py call session h he
  obtain ⟨e1, -, -, e4, -⟩ := g4 h' hs fun id hc => absurd hc (hl id)
  have hc : ∀ id, ¬ Calls (g ++ acts h') id := by
    rintro id ⟨client, hm⟩
    rcases List.mem_append.1 hm with hm | hm
    · rcases g1 _ hm with ⟨_, _, _, h⟩ | ⟨_, _, _, h⟩ <;> cases h
    · exact hl id ⟨client, hm⟩
  have hq := many_quiet py call (m := .init session) (fun _ => rfl) (g ++ acts h') hc
  have hq' := many_quiet_queue py call (m := .init session) (fun _ => rfl) (g ++ acts h') hc
  refine ⟨?_, ?_⟩
  · rw [e1, hq.1]; exact List.append_nil _
  · rw [e4, hq', prepares_arrived g1]; rfl

/-- C130: it is not so that a loop that waits goes on when its client is started again. -/
theorem C130_waiting_refuted :
    ¬ ∀ (session : Session) (h : List Act') (id client k : Nat) (d : List UInt8) (ms : List Msg),
      ((Again.init session).run .upTo312 allStart h).loops id = (.called client .waiting, k) →
      Protocol.packetMessages d = .ok ms → (∀ m ∈ ms, m.who.isSome ∧ m.wher.isSome) →
      ((Again.init session).run .upTo312 allStart (h ++ [.start, .act (.packet d), .act (.resume id)])).base.queue = [] := by
  intro hall
  have := hall .event [.act (.loop 0 0), .act .lost] 0 0 0 (bytes "*1*1*11##") [.normal .lighting ⟨cs!"1"⟩ ⟨cs!"11"⟩]
    (by decide +kernel) (by decide +kernel) (by simp [Msg.who, Msg.wher])
  exact absurd this (by decide +kernel)

/-- C130: what a former connection has received and nobody waits for is never handled, whatever happens. -/
theorem C130_abandoned (py : Python) (call : Call) (s : Again) (k : Nat) (f : Former) (hf : s.former[k]? = some f)
    (hn : ∀ id client, s.loops id ≠ (.called client .waiting, k)) (h : List Act') :
    ∃ f', (s.run py call h).former[k]? = some f' ∧ f.queue <+: f'.queue ∧
      ∀ id client, (s.run py call h).loops id ≠ (.called client .waiting, k) := by
  have l := left_run py call (s := s) (k := k) (q := f.queue) ⟨hn, f, hf, List.prefix_refl _⟩ h
  obtain ⟨f', h1, h2⟩ := l.there
  exact ⟨f', h1, h2, l.nobody⟩

/-- C130: a loop that waited for a former connection which still delivers takes one message from there and goes on with the
present connection.  If it was the only one, the rest is never handled, whatever happens. -/
theorem C130_switch (py : Python) (call : Call) (s : Again) (id client k : Nat) (up : Bool) (m : Msg) (q : List Msg)
    (hl : s.loops id = (.called client .waiting, k)) (hf : s.former[k]? = some ⟨up, m :: q⟩)
    (hn : ∀ i c, s.loops i = (.called c .waiting, k) → i = id) (h : List Act') :
    ∃ f', (s.run py call (.act (.resume id) :: h)).former[k]? = some f' ∧ q <+: f'.queue := by
  have hlt : k < s.former.length := (List.getElem?_eq_some_iff.1 hf).1
  have hr : s.step py call (.act (.resume id)) = { s with former := s.former.set k ⟨up, q⟩ }.turn id client
      (drain py call { s.base with task := .waiting, client := client } (m :: s.base.queue)) := by
    simp only [Again.step, Again.resume, hl, hf, if_neg (Nat.ne_of_lt hlt)]
  have l : Left (s.step py call (.act (.resume id))) k q := by
    rw [hr]
    refine ⟨fun i c => ?_, ⟨up, q⟩, List.getElem?_set_self hlt, List.prefix_refl _⟩
    by_cases hi : i = id
    · subst hi
      simp only [Again.turn, Function.update_self, List.length_set]
      intro e
      simp only [Prod.mk.injEq] at e
      omega
    · simp only [Again.turn, Function.update_of_ne hi]
      exact fun e => hi (hn i c e)
  exact (left_run py call l h).there

/-- C130: a client that is started once is that of C90. -/
theorem C130_once (py : Python) (call : Call) (session : Session) (h : List Act) :
    let t := (Again.init session).run py call (h.map .act)
    let m := (Many.init session).run py call h
    t.base.trace = m.base.trace ∧ t.base.items = m.base.items ∧ t.base.registry = m.base.registry ∧
    t.base.queue = m.base.queue ∧ t.base.transport = m.base.transport ∧ ∀ id, (t.loops id).1 = m.loops id := by
  have sim : Sim [] (fun _ => True) (.init session) (.init session) :=
    ⟨rfl, fun _ _ => ⟨rfl, fun _ => rfl⟩, fun id hi => absurd trivial hi⟩
  have sim := sim.run py call (h.map .act) (by simp) fun _ _ => trivial
  have ha : acts (h.map .act) = h := by
    unfold acts
    rw [List.filterMap_map]
    exact List.filterMap_some
  rw [ha] at sim
  have hb := sim.base
  unfold Like at hb
  intro t m
  rw [show t.base = _ from hb]
  exact ⟨rfl, rfl, rfl, rfl, rfl, fun id => (sim.mine id trivial).1⟩

theorem Events.ended_example : Ended ((Again.init .event).run .upTo312 allStart
    [.act (.register .light .onStatusChange 7), .act (.loop 0 4), .act (.packet (bytes "*1*1*11##")), .act (.resume 0), .act .lost]) := by
  intro id client k hl
  have hk := ((known_init .upTo312 allStart .event _).called id).1 (by rw [hl]; simp)
  obtain ⟨c', hc⟩ := hk
  have hc : Act.loop id c' ∈ [Act.register .light .onStatusChange 7, .loop 0 4, .packet (bytes "*1*1*11##"), .resume 0, .lost] := hc
  simp only [List.mem_cons, reduceCtorEq, Act.loop.injEq, List.not_mem_nil, or_false, false_or] at hc
  obtain ⟨rfl, -⟩ := hc
  refine ⟨fun _ => ⟨by decide +kernel, by decide +kernel⟩, fun f hf => ?_⟩
  rw [show Again.former _ = [] by decide +kernel] at hf
  simp at hf

/-- Non-vacuity: a light is heard of, the connection breaks while the loop waits, the client is started again, the loop is resumed
and called again.  The callback registered before the break gets the item of before the break. -/
example : let h : List Act' := [.act (.register .light .onStatusChange 7), .act (.loop 0 4), .act (.packet (bytes "*1*1*11##")),
      .act (.resume 0), .act .lost]
    let h' : List Act' := [.act (.resume 0), .act (.packet (bytes "*1*0*11##")), .act (.resume 0), .act (.loop 1 4)]
    Ended ((Again.init .event).run .upTo312 allStart h) ∧ Act'.start ∉ h' ∧
    (∀ id, Calls (acts h') id → ¬ Calls (acts h) id) ∧
    (((Again.init .event).run .upTo312 allStart (h ++ .start :: h')).base.trace.map fun x => (x.cb, x.item.id, x.args)) =
      [(7, 0, [.bool true]), (7, 0, [.bool false])] := by
  intro h h'
  refine ⟨ended_example, by simp [h'], ?_, by decide +kernel⟩
  · rintro id ⟨c, hc⟩ ⟨c', hc'⟩
    have hc : Act.loop id c ∈ [Act.resume 0, .packet (bytes "*1*0*11##"), .resume 0, .loop 1 4] := hc
    have hc' : Act.loop id c' ∈ [Act.register .light .onStatusChange 7, .loop 0 4, .packet (bytes "*1*1*11##"), .resume 0, .lost] := hc'
    simp only [List.mem_cons, reduceCtorEq, Act.loop.injEq, List.not_mem_nil, or_false, false_or] at hc hc'
    omega

/-- Non-vacuity of `C130_quiet`: the same without the new loop. -/
example : let h : List Act' := [.act (.register .light .onStatusChange 7), .act (.loop 0 4), .act (.packet (bytes "*1*1*11##")),
      .act (.resume 0), .act .lost]
    let h' : List Act' := [.act (.packet (bytes "*1*0*11##")), .act (.resume 0)]
    Ended ((Again.init .event).run .upTo312 allStart h) ∧ Act'.start ∉ h' ∧ (∀ id, ¬ Calls (acts h') id) ∧
    ((Again.init .event).run .upTo312 allStart (h ++ .start :: h')).base.queue = [.normal .lighting ⟨cs!"0"⟩ ⟨cs!"11"⟩] := by
  intro h h'
  refine ⟨ended_example, by simp [h'], ?_, by decide +kernel⟩
  rintro id ⟨c, hc⟩
  have hc : Act.loop id c ∈ [Act.packet (bytes "*1*0*11##"), .resume 0] := hc
  simp at hc

/-- Non-vacuity of `C130_switch` and `C130_abandoned`: a client started twice, the first connection still delivers.  The loop that
waited there takes one message of it and leaves the other. -/
example : let h : List Act' := [.act (.register .light .onStatusChange 7), .act (.loop 0 4), .start,
      .packet 0 (bytes "*1*1*11##*1*0*11##"), .act (.packet (bytes "*1*1*12##"))]
    let s := (Again.init .event).run .upTo312 allStart h
    s.loops 0 = (.called 4 .waiting, 0) ∧
    s.former[0]? = some ⟨true, [.normal .lighting ⟨cs!"1"⟩ ⟨cs!"11"⟩, .normal .lighting ⟨cs!"0"⟩ ⟨cs!"11"⟩]⟩ ∧
    (∀ i c, s.loops i = (.called c .waiting, 0) → i = 0) ∧
    ((s.run .upTo312 allStart [.act (.resume 0), .act (.resume 0)]).base.trace.map fun x => (x.cb, x.item.item.wher.string, x.args)) =
      [(7, cs!"11", [.bool true]), (7, cs!"12", [.bool true])] ∧
    (s.run .upTo312 allStart [.act (.resume 0), .act (.resume 0)]).loops 0 = (.called 4 .waiting, 1) ∧
    (s.run .upTo312 allStart [.act (.resume 0), .act (.resume 0)]).former[0]? =
      some ⟨true, [.normal .lighting ⟨cs!"0"⟩ ⟨cs!"11"⟩]⟩ := by
  intro h s
  refine ⟨by decide +kernel, by decide +kernel, ?_, by decide +kernel, by decide +kernel, by decide +kernel⟩
  intro i c hl
  have hk := ((known_init .upTo312 allStart .event h).called i).1 (by
    rw [show ((Again.init .event).run .upTo312 allStart h).loops i = _ from hl]; simp)
  obtain ⟨c', hc⟩ := hk
  have hc : Act.loop i c' ∈ [Act.register .light .onStatusChange 7, .loop 0 4, .packet (bytes "*1*1*12##")] := hc
  simp only [List.mem_cons, reduceCtorEq, Act.loop.injEq, List.not_mem_nil, or_false, false_or] at hc
  exact hc.1
