import Verif.Spec.Loops
import Verif.Proofs.Loop
import Mathlib.Data.List.Induction

/-! # Lemmas about any number of loops -/

open Py Spec

namespace Events

/-- One message that raises starts nothing, whatever the items later. -/
theorem unplaced_begun {m : Msg} {who : Who} {wher : Tag} (py : Python) (call : Call) (regs : Slot → List Cb)
    {i : Items} (hi : ItemsOk i) (h1 : m.who = some who) (h2 : m.wher = some wher) (h3 : ¬ Placed who wher.string) :
    begunIn py call regs i m = [] := by
  unfold begunIn
  rw [h1, h2]
  cases py with
  | from313 => rfl
  | upTo312 =>
    dsimp only
    rcases hl : i.cache.lookup (who, wher.string) with _ | o
    · rfl
    · obtain ⟨a, b⟩ := hi.made _ _ hl
      exact absurd ((construct_iff a).1 ⟨_, b⟩) h3

/-- The item of `m`, if there can be one, is known. -/
def Found (i : Items) (m : Msg) : Prop :=
  ∀ who wher c, m.who = some who → m.wher = some wher → classOf who.code = some c → Placed who wher.string →
    ∃ o, i.cache.lookup (who, wher.string) = some o

theorem Found.keep {i i' : Items} {m : Msg} (h : Found i m) (hk : Keeps i i') : Found i' m := by
  intro who wher c h1 h2 h3 h4
  obtain ⟨o, ho⟩ := h who wher c h1 h2 h3 h4
  exact ⟨o, hk _ _ ho⟩

theorem handle_found (py : Python) (call : Call) (client : Nat) (r : Registry) (s : Items) (m : Msg) :
    Found (handle py call client r s m).2 m := by
  intro who wher c h1 h2 h3 h4
  obtain ⟨o, he, hd⟩ := handle_placed (py := py) (call := call) (client := client) (r := r) (s := s) h1 h2 h3 h4
  rw [hd]
  exact ⟨o, getItem_lookup he⟩

/-- What a run of a loop takes from the queue, and what that starts. -/
theorem drain_log (py : Python) (call : Call) (q : List Msg) (s : State) (hok : ItemsOk s.items) (hc : ∀ m ∈ q, Clean m) :
    ∃ done, q = done ++ (drain py call s q).queue ∧ (∀ i', ItemsOk i' → Keeps (drain py call s q).items i' →
      (drain py call s q).trace = s.trace ++ done.flatMap (begunIn py call (slotCbs s.registry) i')) ∧
      ∀ m ∈ done, Found (drain py call s q).items m := by
  induction q generalizing s with
  | nil => exact ⟨[], rfl, fun i' _ _ => by simp [drain], by simp⟩
  | cons m q ih =>
    by_cases hh : Harmless m
    · obtain ⟨ts, i, h1, h2, h3, h4⟩ :=
        handle_harmless py call s.client s.registry s.items m hok (hc m (by simp)) hh
      have hf := handle_found py call s.client s.registry s.items m
      rw [h1] at hf
      rw [drain, h1]
      dsimp only
      cases ht : s.transport with
      | opened =>
        obtain ⟨done, g1, g2, g3⟩ := ih { s with queue := q, items := i, trace := s.trace ++ ts, transport := .opened } h2
          (fun m' h => hc m' (by simp [h]))
        have hk := (drain_frame py call q { s with queue := q, items := i, trace := s.trace ++ ts, transport := .opened } h2).2.1
        dsimp only
        refine ⟨m :: done, by rw [List.cons_append, ← g1], fun i' hi' hk' => ?_, fun x hx => ?_⟩
        · rw [g2 i' hi' hk', List.flatMap_cons, h4 i' hi' (hk.trans hk')]
          simp
        · rcases List.mem_cons.1 hx with rfl | hx
          exacts [hf.keep hk, g3 x hx]
      | closing => exact ⟨[m], rfl, fun i' hi' hk => by simp [h4 i' hi' hk], by simpa using hf⟩
      | gone => exact ⟨[m], rfl, fun i' hi' hk => by simp [h4 i' hi' hk], by simpa using hf⟩
    · obtain ⟨wher, a, b, c⟩ := not_harmless hh
      rw [drain, handle_unplaced hok a b c]
      refine ⟨[m], rfl, fun i' hi' _ => by simp [unplaced_begun py call _ hi' a b c], ?_⟩
      simp only [List.mem_singleton, forall_eq]
      intro who wher' cl h1 h2 _ h4
      rw [a] at h1; rw [b] at h2; cases h1; cases h2
      exact absurd h4 c

/-- One step that is not a packet: what it takes from the queue, and what that starts. -/
theorem step_log {py : Python} {call : Call} {s : State} (h : Inv s) (st : Step) (hp : ∀ d, st ≠ .packet d) :
    ∃ done, s.queue = done ++ (s.step py call st).queue ∧ (∀ i', ItemsOk i' → Keeps (s.step py call st).items i' →
      (s.step py call st).trace = s.trace ++ done.flatMap (begunIn py call (slotCbs s.registry) i')) ∧
      (done ≠ [] → st = .loop ∨ st = .resume) ∧ ∀ m ∈ done, Found (s.step py call st).items m := by
  have none : (s.step py call st).queue = s.queue → (s.step py call st).trace = s.trace →
      ∃ done, s.queue = done ++ (s.step py call st).queue ∧ (∀ i', ItemsOk i' → Keeps (s.step py call st).items i' →
      (s.step py call st).trace = s.trace ++ done.flatMap (begunIn py call (slotCbs s.registry) i')) ∧
      (done ≠ [] → st = .loop ∨ st = .resume) ∧ ∀ m ∈ done, Found (s.step py call st).items m :=
    fun a b => ⟨[], by rw [a]; rfl, fun _ _ _ => by simp [b], by simp, by simp⟩
  have some : (st = .loop ∨ st = .resume) → s.step py call st = drain py call s s.queue →
      ∃ done, s.queue = done ++ (s.step py call st).queue ∧ (∀ i', ItemsOk i' → Keeps (s.step py call st).items i' →
      (s.step py call st).trace = s.trace ++ done.flatMap (begunIn py call (slotCbs s.registry) i')) ∧
      (done ≠ [] → st = .loop ∨ st = .resume) ∧ ∀ m ∈ done, Found (s.step py call st).items m := by
    intro a b
    rw [b]
    obtain ⟨done, g1, g2, g3⟩ := drain_log py call s.queue s h.items h.queue
    exact ⟨done, g1, g2, fun _ => a, g3⟩
  cases st with
  | packet d => exact absurd rfl (hp d)
  | lost => apply none <;> (unfold State.step; dsimp only; split <;> rfl)
  | close => exact none rfl rfl
  | register => apply none <;> (unfold State.step; dsimp only; split <;> rfl)
  | getItem => exact none rfl rfl
  | loop =>
    by_cases h0 : s.task = .none
    · by_cases h1 : s.session = .event
      · by_cases h2 : s.transport = .opened
        · refine some (.inl rfl) ?_
          unfold State.step State.start; dsimp only; rw [if_pos h0, if_neg (by simp [h1]), h2]
        · apply none <;> (unfold State.step State.start; dsimp only; rw [if_pos h0, if_neg (by simp [h1])]; split <;> first | rfl | contradiction)
      · apply none <;> (unfold State.step State.start; dsimp only; rw [if_pos h0, if_pos h1])
    · apply none <;> (unfold State.step; dsimp only; rw [if_neg h0])
  | resume =>
    by_cases h0 : s.task = .waiting ∧ s.queue ≠ []
    · refine some (.inr rfl) ?_
      unfold State.step; dsimp only; rw [if_pos h0]
    · apply none <;> (unfold State.step; dsimp only; rw [if_neg h0])

/-! ## Histories -/

theorem many_append (py : Python) (call : Call) (s : Many) (h h' : List Act) :
    s.run py call (h ++ h') = (s.run py call h).run py call h' := List.foldl_append ..

/-- The transport is open exactly until the connection ends. -/
def Up : List Act → Bool
  | [] => true
  | .packet d :: h =>
    match Protocol.packetMessages d with
    | .ok _ => Up h
    | .error _ => false
  | .lost :: _ => false
  | .close :: _ => false
  | _ :: h => Up h

theorem arrived_append (h h' : List Act) : arrived (h ++ h') = arrived h ++ if Up h then arrived h' else [] := by
  induction h with
  | nil => simp [arrived, Up]
  | cons a h ih =>
    cases a with
    | packet d =>
      rcases hp : Protocol.packetMessages d with e | ms
      · simp [arrived, Up, hp]
      · simp only [List.cons_append, arrived, Up, hp, List.append_assoc]
        rw [ih]
    | lost => simp [arrived, Up]
    | close => simp [arrived, Up]
    | _ => simp only [List.cons_append, arrived]; exact ih

theorem up_append (h h' : List Act) : Up (h ++ h') = (Up h && Up h') := by
  induction h with
  | nil => simp [Up]
  | cons a h ih =>
    cases a with
    | packet d =>
      simp only [List.cons_append, Up]
      split
      · exact ih
      · simp
    | lost => simp [Up]
    | close => simp [Up]
    | _ => simpa only [List.cons_append, Up] using ih

theorem enrolled_append (k : Slot) (h h' : List Act) : enrolled k (h ++ h') = enrolled k h ++ enrolled k h' := by
  induction h with
  | nil => rfl
  | cons st h ih =>
    cases st with
    | register c m cb =>
      simp only [List.cons_append, enrolled]
      split
      · rw [ih]; rfl
      · exact ih
    | _ => simpa only [List.cons_append, enrolled] using ih

/-- What holds after every history. -/
structure Kept (py : Python) (call : Call) (h : List Act) (s : State) (log : List (List Act × Msg)) : Prop where
  inv : Inv s
  up : s.transport = .opened ↔ Up h
  registry : ∀ k, slotCbs s.registry k = enrolled k h
  once : log.map (·.2) ++ s.queue = arrived h
  order : log.Pairwise fun a b => a.1 <+: b.1
  moment : ∀ e ∈ log, ∃ id, e.1 ++ [.resume id] <+: h ∨ ∃ client, e.1 ++ [.loop id client] <+: h
  trace : ∀ i', ItemsOk i' → Keeps s.items i' →
    s.trace = log.flatMap fun e => begunIn py call (fun k => enrolled k e.1) i' e.2
  found : ∀ e ∈ log, Found s.items e.2

theorem inv_congr {s s' : State} (h : Inv s) (h1 : s'.items = s.items) (h2 : s'.queue = s.queue) : Inv s' :=
  ⟨by rw [h1]; exact h.items, by rw [h2]; exact h.queue⟩

theorem step_transport {py : Python} {call : Call} {s : State} (h : Inv s) {st : Step} (hs : st = .loop ∨ st = .resume) :
    (s.step py call st).transport = s.transport := by
  have hd := (drain_frame py call s.queue s h.items).2.2.2.2.1
  rcases hs with rfl | rfl
  · unfold State.step State.start; dsimp only
    split
    · split
      · rfl
      · split
        · rfl
        · rfl
        · exact hd
    · rfl
  · unfold State.step; dsimp only
    split
    · exact hd
    · rfl

/-- A step of the base that is not a packet. -/
theorem Kept.step {py : Python} {call : Call} {h : List Act} {s : State} {log : List (List Act × Msg)}
    (k : Kept py call h s log) (a : Act) (st : Step) (client : Nat) (task : Task) (hp : ∀ d, st ≠ .packet d)
    (hup : ({ s with client := client, task := task }.step py call st).transport = .opened ↔ Up (h ++ [a]))
    (hreg : ∀ x, registered x [st] = enrolled x [a]) (harr : arrived [a] = [])
    (hm : st = .loop ∨ st = .resume → ∃ id, a = .resume id ∨ ∃ client, a = .loop id client) :
    ∃ log', Kept py call (h ++ [a]) ({ s with client := client, task := task }.step py call st) log' := by
  have hi : Inv { s with client := client, task := task } := inv_congr k.inv rfl rfl
  obtain ⟨done, g1, g2, g3, g4⟩ := step_log (py := py) (call := call) hi st hp
  have keeps := step_keeps (py := py) (call := call) hi st
  refine ⟨log ++ done.map fun m => (h, m), step_inv hi st, hup, fun x => ?_, ?_, ?_, ?_, ?_, ?_⟩
  · rw [step_registry hi st x, hreg, enrolled_append]
    congr 1
    exact k.registry x
  · rw [arrived_append, harr]
    simp only [List.map_append, List.map_map, Function.comp_def, List.map_id', List.append_assoc]
    rw [← g1]
    simpa using k.once
  · rw [List.pairwise_append]
    refine ⟨k.order, ?_, ?_⟩
    · rw [List.pairwise_map]
      exact List.pairwise_of_forall fun _ _ => List.prefix_refl _
    · intro e he e' he'
      obtain ⟨m, _, rfl⟩ := List.mem_map.1 he'
      obtain ⟨id, hc | ⟨c, hc⟩⟩ := k.moment e he
      · exact (List.prefix_append _ _).trans hc
      · exact (List.prefix_append _ _).trans hc
  · intro e he
    rcases List.mem_append.1 he with he | he
    · obtain ⟨id, hc | ⟨c, hc⟩⟩ := k.moment e he
      · exact ⟨id, .inl (hc.trans (List.prefix_append _ _))⟩
      · exact ⟨id, .inr ⟨c, hc.trans (List.prefix_append _ _)⟩⟩
    · obtain ⟨m, hmem, rfl⟩ := List.mem_map.1 he
      obtain ⟨id, rfl | ⟨c, rfl⟩⟩ := hm (g3 (List.ne_nil_of_mem hmem))
      · exact ⟨id, .inl (List.prefix_refl _)⟩
      · exact ⟨id, .inr ⟨c, List.prefix_refl _⟩⟩
  · intro i' hi' hk
    rw [g2 i' hi' hk, List.flatMap_append, List.flatMap_map]
    have := k.trace i' hi' (keeps.trans hk)
    change s.trace ++ _ = _
    rw [this]
    congr 2
    have : slotCbs s.registry = fun x => enrolled x h := funext k.registry
    dsimp only
    rw [this]
  · intro e he
    rcases List.mem_append.1 he with he | he
    · exact (k.found e he).keep keeps
    · obtain ⟨m, hmem, rfl⟩ := List.mem_map.1 he
      exact g4 m hmem

/-- A packet. -/
theorem Kept.packet {py : Python} {call : Call} {h : List Act} {s : State} {log : List (List Act × Msg)}
    (k : Kept py call h s log) (d : List UInt8) :
    Kept py call (h ++ [.packet d]) (s.step py call (.packet d)) log := by
  have hi := step_inv (py := py) (call := call) k.inv (.packet d)
  have hr := fun x => step_registry (py := py) (call := call) k.inv (.packet d) x
  have hm : ∀ e ∈ log, ∃ id, e.1 ++ [.resume id] <+: h ++ [.packet d] ∨
      ∃ client, e.1 ++ [.loop id client] <+: h ++ [.packet d] := by
    intro e he
    obtain ⟨id, hc | ⟨c, hc⟩⟩ := k.moment e he
    · exact ⟨id, .inl (hc.trans (List.prefix_append _ _))⟩
    · exact ⟨id, .inr ⟨c, hc.trans (List.prefix_append _ _)⟩⟩
  have hr' : ∀ x, slotCbs (s.step py call (.packet d)).registry x = enrolled x (h ++ [.packet d]) := by
    intro x
    rw [hr, enrolled_append, k.registry]
    rfl
  have ha := arrived_append h [.packet d]
  have hu := up_append h [.packet d]
  unfold State.step Protocol.dataReceived at hi hr' ⊢
  dsimp only at hi hr' ⊢
  by_cases ho : s.transport = .opened
  · rw [if_pos ho] at hi hr' ⊢
    have hup := k.up.1 ho
    rw [hup] at hu
    rw [if_pos hup] at ha
    simp only [arrived, Up] at ha hu
    rcases hp : Protocol.packetMessages d with e | ms
    · rw [hp] at ha hu hi hr'
      dsimp only at ha hu hi hr' ⊢
      refine ⟨hi, ?_, hr', ?_, k.order, hm, k.trace, k.found⟩
      · rw [hu]; simp
      · rw [ha, List.append_nil]; exact k.once
    · rw [hp] at ha hu hi hr'
      dsimp only at ha hu hi hr' ⊢
      refine ⟨hi, ?_, hr', ?_, k.order, hm, k.trace, k.found⟩
      · rw [hu]; simp [ho]
      · rw [ha, ← k.once, List.append_nil, List.append_assoc]
  · rw [if_neg ho] at hi hr' ⊢
    have hup : Up h = false := by
      rcases hb : Up h with _ | _
      · rfl
      · exact absurd (k.up.2 hb) ho
    rw [hup] at hu ha
    refine ⟨hi, ?_, hr', ?_, k.order, hm, k.trace, k.found⟩
    · rw [hu]; simp [ho]
    · rw [ha]; simpa using k.once

/-- A step that changes neither the client nor anything else. -/
theorem Kept.idle {py : Python} {call : Call} {h : List Act} {s : State} {log : List (List Act × Msg)}
    (k : Kept py call h s log) (a : Act) (hup : Up [a] = true) (hreg : ∀ x, enrolled x [a] = []) (harr : arrived [a] = []) :
    Kept py call (h ++ [a]) s log := by
  refine ⟨k.inv, ?_, fun x => ?_, ?_, k.order, ?_, k.trace, k.found⟩
  · rw [up_append, hup, Bool.and_true]; exact k.up
  · rw [enrolled_append, hreg, List.append_nil]; exact k.registry x
  · rw [arrived_append, harr]; simpa using k.once
  · intro e he
    obtain ⟨id, hc | ⟨c, hc⟩⟩ := k.moment e he
    · exact ⟨id, .inl (hc.trans (List.prefix_append _ _))⟩
    · exact ⟨id, .inr ⟨c, hc.trans (List.prefix_append _ _)⟩⟩

theorem many_kept (py : Python) (call : Call) (session : Session) (h : List Act) :
    ∃ log, Kept py call h ((Many.init session).run py call h).base log := by
  induction h using List.reverseRecOn with
  | nil =>
    refine ⟨[], inv_init session 0, ?_, fun k => ?_, rfl, List.Pairwise.nil, by simp, fun _ _ _ => rfl, by simp⟩
    · simp [Many.run, Many.init, State.init, Up]
    · cases k <;> rfl
  | append_singleton h a ih =>
    obtain ⟨log, k⟩ := ih
    rw [many_append]
    generalize (Many.init session).run py call h = m at k
    change ∃ log, Kept py call (h ++ [a]) (m.step py call a).base log
    cases a with
    | packet d => exact ⟨log, k.packet d⟩
    | lost =>
      refine k.step .lost .lost m.base.client m.base.task (by simp) ?_ (fun _ => rfl) rfl (by simp)
      rw [up_append]
      unfold State.step; dsimp only
      split
      · simp [Up]
      · rename_i ho; simp [Up, ho]
    | close =>
      refine k.step .close .close m.base.client m.base.task (by simp) ?_ (fun _ => rfl) rfl (by simp)
      rw [up_append]
      simp [State.step, Up]
    | register c mt cb =>
      refine k.step (.register c mt cb) (.register c mt cb) m.base.client m.base.task (by simp) ?_ (fun _ => rfl) rfl (by simp)
      rw [up_append]
      have : ∀ s : State, (s.step py call (.register c mt cb)).transport = s.transport := by
        intro s; unfold State.step; dsimp only; split <;> rfl
      rw [this]
      simpa [Up] using k.up
    | getItem who wher cl =>
      refine k.step (.getItem who wher cl) (.getItem who wher cl) m.base.client m.base.task (by simp) ?_ (fun _ => rfl) rfl (by simp)
      rw [up_append]
      simpa [Up, State.step] using k.up
    | loop id client =>
      unfold Many.step; dsimp only
      split
      · refine k.step (.loop id client) .loop client .none (by simp) ?_ (fun _ => rfl) rfl (fun _ => ⟨id, .inr ⟨client, rfl⟩⟩)
        rw [up_append, step_transport (s := { m.base with client := client, task := .none }) (inv_congr k.inv rfl rfl)
          (.inl rfl)]
        simpa [Up] using k.up
      · exact ⟨log, k.idle _ rfl (fun _ => rfl) rfl⟩
    | resume id =>
      unfold Many.step; dsimp only
      split
      · rename_i client _
        refine k.step (.resume id) .resume client .waiting (by simp) ?_ (fun _ => rfl) rfl (fun _ => ⟨id, .inl rfl⟩)
        rw [up_append, step_transport (s := { m.base with client := client, task := .waiting }) (inv_congr k.inv rfl rfl)
          (.inr rfl)]
        simpa [Up] using k.up
      · exact ⟨log, k.idle _ rfl (fun _ => rfl) rfl⟩
    | cancel id =>
      refine ⟨log, ?_⟩
      have := k.idle (.cancel id) rfl (fun _ => rfl) rfl
      unfold Many.step; dsimp only
      split <;> exact this

/-! ## What never changes -/

theorem step_session_client {py : Python} {call : Call} {s : State} (h : Inv s) (st : Step) :
    (s.step py call st).session = s.session ∧ (s.step py call st).client = s.client := by
  obtain ⟨_, _, _, d1, _, d2, _⟩ := drain_frame py call s.queue s h.items
  cases st with
  | packet d =>
    unfold State.step; dsimp only
    split
    · split <;> exact ⟨rfl, rfl⟩
    · exact ⟨rfl, rfl⟩
  | lost => unfold State.step; dsimp only; split <;> exact ⟨rfl, rfl⟩
  | close => exact ⟨rfl, rfl⟩
  | register => unfold State.step; dsimp only; split <;> exact ⟨rfl, rfl⟩
  | getItem => exact ⟨rfl, rfl⟩
  | loop =>
    unfold State.step State.start; dsimp only
    split
    · split
      · exact ⟨rfl, rfl⟩
      · split
        · exact ⟨rfl, rfl⟩
        · exact ⟨rfl, rfl⟩
        · exact ⟨d1, d2⟩
    · exact ⟨rfl, rfl⟩
  | resume =>
    unfold State.step; dsimp only
    split
    · exact ⟨d1, d2⟩
    · exact ⟨rfl, rfl⟩

theorem many_session (py : Python) (call : Call) (session : Session) (h : List Act) :
    ((Many.init session).run py call h).base.session = session := by
  induction h using List.reverseRecOn with
  | nil => rfl
  | append_singleton h a ih =>
    obtain ⟨_, k⟩ := many_kept py call session h
    rw [many_append]
    generalize (Many.init session).run py call h = m at ih k
    change (m.step py call a).base.session = session
    cases a with
    | loop id client =>
      unfold Many.step; dsimp only
      split
      · exact (step_session_client (s := { m.base with task := .none, client := client }) (inv_congr k.inv rfl rfl) .loop).1.trans ih
      · exact ih
    | resume id =>
      unfold Many.step; dsimp only
      split
      · rename_i client _
        exact (step_session_client (s := { m.base with task := .waiting, client := client }) (inv_congr k.inv rfl rfl) .resume).1.trans ih
      · exact ih
    | cancel id => unfold Many.step; dsimp only; split <;> exact ih
    | packet d => exact (step_session_client k.inv _).1.trans ih
    | lost => exact (step_session_client k.inv _).1.trans ih
    | close => exact (step_session_client k.inv _).1.trans ih
    | register c mt cb => exact (step_session_client k.inv _).1.trans ih
    | getItem who wher cl => exact (step_session_client k.inv _).1.trans ih

/-- The `client` argument matters to the loop only. -/
theorem step_client (py : Python) (call : Call) (s : State) (client : Nat) (st : Step) (h1 : st ≠ .loop) (h2 : st ≠ .resume) :
    { s.step py call st with client := client } = { s with client := client }.step py call st ∧
    (s.step py call st).task = s.task := by
  cases st with
  | packet d =>
    unfold State.step; dsimp only
    split
    · rcases Protocol.dataReceived s.queue d with ⟨_ | _, _⟩ <;> exact ⟨rfl, rfl⟩
    · exact ⟨rfl, rfl⟩
  | lost => unfold State.step; dsimp only; split <;> exact ⟨rfl, rfl⟩
  | close => exact ⟨rfl, rfl⟩
  | register c m cb =>
    unfold State.step; dsimp only
    rcases Events.register c m cb s.registry with _ | _ <;> exact ⟨rfl, rfl⟩
  | getItem => exact ⟨rfl, rfl⟩
  | loop => exact absurd rfl h1
  | resume => exact absurd rfl h2

theorem start_task {py : Python} {call : Call} {q : List Msg} {s : State} : (drain py call s q).task ≠ .none := by
  induction q generalizing s with
  | nil => simp [drain]
  | cons m q ih =>
    rw [drain]
    rcases handle py call s.client s.registry s.items m with ⟨e | ts, i⟩
    · simp
    · dsimp only
      cases s.transport with
      | opened => exact ih
      | closing => simp
      | gone => simp

theorem loop_task {py : Python} {call : Call} {s : State} : (s.step py call .loop).task ≠ .none := by
  unfold State.step State.start; dsimp only
  split
  · split
    · simp
    · split
      · simp
      · simp
      · exact start_task
  · assumption

end Events
