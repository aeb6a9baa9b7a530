import Verif.Proofs.EventLoop
import Verif.Props.Listeners

/-! # C131: a program of rules

A client listens, its callbacks give commands to items of another client, and both share the event loop of `asyncio`.  The full
claim: every event of the house gives its commands, once, in the order of the events, and every command reports the answer of
the gateway to itself. -/

open Py Spec Events EventLoop Spec.EventLoop

namespace EventLoop

/-- The callbacks that a program registers for a slot. -/
abbrev registeredFor (rs : List (Cls × Method × Cb)) (slot : Slot) : List Cb :=
  (rs.filter fun r => slotOf r.1 r.2.1 = some slot).map (·.2.2)

theorem command_calls (rule : Rule) (t : List Start) :
    t.filterMap (command rule) = (t.map fun x => (x.cb, x.item.item.wher.string, x.args)).filterMap rule := by
  rw [List.filterMap_map]
  rfl

/-- The calls of the callbacks so far. -/
theorem calls_prefix {call : Call} (hc : AllStart call) {rs : List (Cls × Method × Cb)} {client : Nat} {h : List Act} {e : Many}
    (k : Hears call rs client h e) :
    calls e.base <+: (arrived h).flatMap (told (registeredFor rs)) ∧
      (e.base.queue = [] → calls e.base = (arrived h).flatMap (told (registeredFor rs))) := by
  have key : ∀ (h : List Act) (e : Many), Hears call rs client h e → e.base.queue = [] →
      calls e.base = (arrived h).flatMap (told (registeredFor rs)) := by
    intro h e k hq
    have hrun : e = (Many.init .event).run .upTo312 call (setup rs ++ (.loop 0 client :: h)) := k.run
    rw [hrun] at hq ⊢
    refine C104_listener_partial call hc .event rs (.loop 0 client :: h) ?_ ?_ hq
    · intro a ha
      rcases List.mem_cons.1 ha with rfl | ha
      · trivial
      · rcases k.acts a ha with ⟨d, rfl⟩ | rfl <;> trivial
    · exact k.fine
  refine ⟨?_, key h e k⟩
  obtain ⟨k1, k2, k3⟩ := hears_resume k
  have := key _ _ k1 k3
  rw [k2] at this
  rw [← this]
  obtain ⟨ts, hts⟩ := resume_trace .upTo312 call e
  exact ⟨ts.map fun x => (x.cb, x.item.item.wher.string, x.args), by unfold calls; rw [← hts, List.map_append]⟩

end EventLoop

/-- C131, what holds of the commands: at every moment the commands sent are a beginning of those that the rules give for the
events received, in the order of the events (and of the registrations); and when the event loop has nothing left to do they are
all of them.  (On Python up to 3.12, for well-formed packets, with energy events from documented addresses; the answers of the
gateway do not matter.) -/
theorem C131_commands (call : Call) (hc : AllStart call) (rule : Rule) (rs : List (Cls × Method × Cb)) (client : Nat)
    (evs : List Ev) (hs : Sane evs) :
    commands (run call rule rs client evs) <+: ((heard evs).flatMap (told (registeredFor rs))).filterMap rule ∧
      ((run call rule rs client evs).ready = [] →
        commands (run call rule rs client evs) = ((heard evs).flatMap (told (registeredFor rs))).filterMap rule) := by
  obtain ⟨h, r, n, k⟩ := sound (call := call) (rule := rule) (rs := rs) (client := client) hs
  generalize run call rule rs client evs = s at k
  obtain ⟨c1, c2⟩ := calls_prefix hc k.hears
  have hf := Concurrent.fair (prog rule s.events.base.trace) (prog_want _ _) r k.calm
  rw [← k.requests] at hf
  have hcmd : commands s = ((calls s.events.base).take n).filterMap rule := by
    unfold commands
    rw [hf.sent, List.map_map, k.began]
    refine (busy_frames rule s.events.base.trace k.le).trans ?_
    rw [command_calls, List.map_take]
    rfl
  constructor
  · rw [hcmd]
    refine List.IsPrefix.filterMap _ ?_
    refine (List.take_prefix _ _).trans (c1.trans ?_)
    rw [← k.input, List.flatMap_append]
    exact List.prefix_append _ _
  · intro hr
    have h1 : s.events.base.queue = [] := by
      rcases k.woke with hq | hq
      · exact hq
      · rw [hr] at hq; cases hq
    have h2 := k.tasks
    rw [hr] at h2
    have h3 : s.events.base.trace.length - n = 0 := by
      by_contra hne
      obtain ⟨w, hw⟩ := Nat.exists_eq_succ_of_ne_zero hne
      rw [hw] at h2
      cases h2
    have h4 := k.input
    rw [hr] at h4
    have h4 : arrived h ++ [] = heard evs := h4
    rw [List.append_nil] at h4
    rw [hcmd, List.take_of_length_le (by simp only [calls, List.length_map]; omega), c2 h1, h4]

/-- C131: after whatever the sockets have delivered, the event loop comes to rest. -/
theorem C131_rest (call : Call) (rule : Rule) (rs : List (Cls × Method × Cb)) (client : Nat) (evs : List Ev) :
    ∃ n, (run call rule rs client (evs ++ List.replicate n .run)).ready = [] := by
  have key : ∀ (a b c : Nat) (s : EventLoop.State),
      s.ready.countP (fun x => match x with | .read _ => true | _ => false) = a → s.ready.countP Handle.isLoop = b →
      s.ready.length = c → ∃ n, ((List.replicate n Ev.run).foldl (EventLoop.State.step call rule) s).ready = [] := by
    intro a
    induction a using Nat.strong_induction_on with
    | _ a iha =>
    intro b
    induction b using Nat.strong_induction_on with
    | _ b ihb =>
    intro c
    induction c using Nat.strong_induction_on with
    | _ c ihc =>
    intro s ha hb hl
    rcases hr : s.ready with _ | ⟨x, hs⟩
    · exact ⟨0, hr⟩
    · have hstep : s.step call rule .run = EventLoop.State.handle call rule { s with ready := hs } x := by
        simp only [EventLoop.State.step, hr]
      have go : (∃ n, ((List.replicate n Ev.run).foldl (EventLoop.State.step call rule) (s.step call rule .run)).ready = []) →
          ∃ n, ((List.replicate n Ev.run).foldl (EventLoop.State.step call rule) s).ready = [] :=
        fun ⟨n, hn⟩ => ⟨n + 1, hn⟩
      refine go ?_
      rw [hr] at ha hb hl
      cases x with
      | read rd =>
        refine iha _ ?_ _ _ _ rfl rfl rfl
        rw [hstep, ← ha, List.countP_cons_of_pos rfl]
        refine Nat.lt_succ_of_le ?_
        cases rd with
        | listen d =>
          simp only [EventLoop.State.handle, EventLoop.State.listen]
          split
          · simp [List.countP_append]
          · exact le_refl _
        | answer ms =>
          simp only [EventLoop.State.handle]
          rw [answer_eq]
          simp [List.countP_append, List.countP_replicate]
      | loop =>
        have h1 : (s.step call rule .run).ready.countP (fun x => match x with | .read _ => true | _ => false) = a := by
          rw [hstep, ← ha, List.countP_cons_of_neg (by simp)]
          simp only [EventLoop.State.handle, List.countP_append, List.countP_map]
          simp [Function.comp_def]
        refine ihb _ ?_ _ _ h1 rfl rfl
        rw [hstep, ← hb, List.countP_cons_of_pos rfl]
        simp only [EventLoop.State.handle, List.countP_append, List.countP_map]
        simp [Function.comp_def, Handle.isLoop]
      | task k =>
        have hre : (s.step call rule .run).ready = hs := by
          rw [hstep]
          simp only [EventLoop.State.handle]
          split <;> rfl
        refine ihc _ ?_ _ ?_ ?_ rfl
        · rw [hre, ← hl]; exact Nat.lt_succ_self _
        · rw [hre, ← ha, List.countP_cons_of_neg (by simp)]
        · rw [hre, ← hb, List.countP_cons_of_neg (by simp [Handle.isLoop])]
      | reader =>
        have hre : (s.step call rule .run).ready = hs := by rw [hstep]; rfl
        refine ihc _ ?_ _ ?_ ?_ rfl
        · rw [hre, ← hl]; exact Nat.lt_succ_self _
        · rw [hre, ← ha, List.countP_cons_of_neg (by simp)]
        · rw [hre, ← hb, List.countP_cons_of_neg (by simp [Handle.isLoop])]
  obtain ⟨n, hn⟩ := key _ _ _ (run call rule rs client evs) rfl rfl rfl
  exact ⟨n, by unfold EventLoop.run; rw [List.foldl_append]; exact hn⟩

/-- C131: the reports of the commands, in the order in which they are made, are those of the answers in the order of their
arrival; no command reports twice; and when as many answers have come as commands were sent, and the event loop is at rest, every
command has reported. -/
theorem C131_reports (call : Call) (rule : Rule) (rs : List (Cls × Method × Cb)) (client : Nat) (evs : List Ev) (hs : Sane evs) :
    let s := run call rule rs client evs
    s.requests.finished.map (·.2) <+: (replies evs).map report ∧ (s.requests.finished.map (·.1)).Nodup ∧
      (∀ x ∈ s.requests.finished, x.1 ∈ s.requests.sent.map (·.1)) ∧
      (s.ready = [] → s.requests.sent.length ≤ (replies evs).length →
        ∀ x ∈ s.requests.sent, x.1 ∈ s.requests.finished.map (·.1)) := by
  obtain ⟨h, r, n, k⟩ := sound (call := call) (rule := rule) (rs := rs) (client := client) hs
  dsimp only
  generalize run call rule rs client evs = s at k
  have hf := Concurrent.fair (prog rule s.events.base.trace) (prog_want _ _) r k.calm
  rw [← k.requests] at hf
  have hnd : (Spec.Concurrent.starts r).Nodup := by
    rw [k.began]
    exact List.nodup_range.sublist List.filter_sublist
  have hfin : s.requests.finished.map (·.1) = s.requests.got.map (·.1) := by
    rw [hf.ends, List.map_map]; rfl
  have hsent : s.requests.sent.map (·.1) = Spec.Concurrent.starts r := by
    rw [hf.sent, List.map_map]; exact List.map_id _
  have hperm := hf.who
  refine ⟨?_, ?_, ?_, ?_⟩
  · rw [← k.answers, ← hf.fifo, hf.ends, List.map_map, List.map_append, List.map_append, List.map_map]
    have : (s.requests.got.map ((fun x : Nat × Except Err Unit => x.2) ∘ fun p => (p.1, Concurrent.verdict p.2))) =
        s.requests.got.map (report ∘ fun x => x.2) := by
      refine List.map_congr_left fun p _ => ?_
      simp [Concurrent.verdict_eq, report]
    rw [this, List.append_assoc]
    exact List.prefix_append _ _
  · rw [hfin]
    have := hperm.symm.nodup hnd
    rw [List.append_assoc] at this
    exact (List.nodup_append.1 this).1
  · intro x hx
    rw [hsent, ← hperm.mem_iff, List.append_assoc]
    refine List.mem_append_left _ ?_
    rw [← hfin]
    exact List.mem_map_of_mem hx
  · intro hr hle x hx
    have hw : s.requests.woken = [] := by
      have := k.readers
      rw [hr] at this
      exact List.length_eq_zero_iff.1 this.symm
    have ha : Spec.Concurrent.arrivals r = replies evs := by
      have := k.answers
      rw [hr] at this
      rw [← this]
      exact (List.append_nil _).symm
    have hlen := hperm.length_eq
    have hlen' := congrArg List.length hf.fifo
    have hsl : s.requests.sent.length = (Spec.Concurrent.starts r).length := by rw [← hsent, List.length_map]
    rw [hw, List.append_nil, List.length_append, List.length_map] at hlen
    rw [List.length_append, List.length_map, ha] at hlen'
    have hwait : s.requests.waiting = [] := by
      by_contra hne
      have := hf.live hne
      rw [hw] at this
      have h0 : 0 < s.requests.waiting.length := List.length_pos_iff.2 hne
      simp only [List.length_nil] at this
      omega
    rw [hw, hwait, List.append_nil, List.append_nil] at hperm
    rw [hfin, hperm.mem_iff, ← hsent]
    exact List.mem_map_of_mem hx

/-- C131: with a gateway that acknowledges everything, every report is a success. -/
theorem C131_acknowledged (call : Call) (rule : Rule) (rs : List (Cls × Method × Cb)) (client : Nat) (evs : List Ev) (hs : Sane evs)
    (ha : ∀ m ∈ replies evs, m = .ack) : ∀ x ∈ (run call rule rs client evs).requests.finished, x.2 = .ok () := by
  intro x hx
  have := (C131_reports call rule rs client evs hs).1.subset (List.mem_map_of_mem hx)
  obtain ⟨m, hm, he⟩ := List.mem_map.1 this
  rw [← he, ha m hm]
  rfl

/-- The full claim on the reports: whatever the schedule, with a gateway that answers the commands one after the other, every
command reports the answer to itself. -/
def C131_full : Prop :=
  ∀ (call : Call) (rule : Rule) (rs : List (Cls × Method × Cb)) (client : Nat) (answer : Nat → Msg) (evs : List Ev), AllStart call →
    Sane evs → Spec.EventLoop.InOrder (run call rule rs client) answer evs →
    ∀ x ∈ (run call rule rs client evs).requests.finished, x.2 = report (answer x.1)

namespace C131

/-- When light 11 is switched on, so is light 21; when light 12 is switched on, so is light 22. -/
def rule : Rule
  | (7, w, [.bool true]) =>
    if w = cs!"11" then some (.normal .lighting ⟨cs!"1"⟩ ⟨cs!"21"⟩)
    else if w = cs!"12" then some (.normal .lighting ⟨cs!"1"⟩ ⟨cs!"22"⟩)
    else none
  | _ => none

/-- The gateway refuses the first command and acknowledges the others. -/
def answer (k : Nat) : Msg := if k = 0 then .nack else .ack

/-- Light 11 is switched on; while the first command awaits its answer, light 12 is switched on.  The refusal arrives after
`loop()` was woken for the second event and before it has run, so that the second callback begins before the first goes on. -/
def evs : List Ev :=
  [.select (.listen (bytes "*1*1*11##")), .run, .run, .run,
   .select (.listen (bytes "*1*1*12##")), .run, .select (.answer [.nack]), .run, .run, .run, .run, .select (.answer [.ack]), .run, .run]

end C131

namespace C131

theorem sane : Sane evs := by
  intro d hd
  have : d = bytes "*1*1*11##" ∨ d = bytes "*1*1*12##" := by simpa [evs] using hd
  have h1 : Protocol.packetMessages (bytes "*1*1*11##") = .ok [.normal .lighting ⟨cs!"1"⟩ ⟨cs!"11"⟩] := by decide +kernel
  have h2 : Protocol.packetMessages (bytes "*1*1*12##") = .ok [.normal .lighting ⟨cs!"1"⟩ ⟨cs!"12"⟩] := by decide +kernel
  rcases this with rfl | rfl
  · refine ⟨_, h1, fun m hm => ?_⟩
    rw [List.mem_singleton.1 hm]
    exact harmless_other rfl (by decide)
  · refine ⟨_, h2, fun m hm => ?_⟩
    rw [List.mem_singleton.1 hm]
    exact harmless_other rfl (by decide)

theorem inOrder : Spec.EventLoop.InOrder (run allStart rule [(.light, .onStatusChange, 7)] 1) answer evs := by
  have : ∀ pre ∈ evs.inits, replies pre <+:
      (run allStart rule [(.light, .onStatusChange, 7)] 1 pre).requests.sent.map fun x => answer x.1 := by decide +kernel
  exact fun pre hp => this pre ((List.mem_inits _ _).2 hp)

end C131

/-- C131 is false for the reports: a callback that begins while the answer to an earlier command is in the queue takes that
answer.  The refused command reports success, and the other one reports the refusal. -/
theorem C131_own_refuted : ¬ C131_full := by
  intro h
  have := h allStart C131.rule [(.light, .onStatusChange, 7)] 1 C131.answer C131.evs (fun _ => rfl) C131.sane C131.inOrder
    (1, .error .responseError) (by decide +kernel)
  revert this
  decide

namespace EventLoop

theorem atStart_congr {p p' : Nat → Concurrent.Req} (hp : ∀ id, (p id).want = fun _ => false)
    (hp' : ∀ id, (p' id).want = fun _ => false) {evs : List Concurrent.Ev} (h : ∀ id ∈ Spec.Concurrent.starts evs, p id = p' id)
    {P : Concurrent.State → Prop} (ha : Spec.Concurrent.AtStart p P evs) : Spec.Concurrent.AtStart p' P evs := by
  intro k hk hb
  rw [← Concurrent.run_congr hp hp' (evs := evs.take k) fun id hid => h id
    (((List.take_sublist k evs).filterMap _).subset hid)]
  exact ha k hk hb

theorem atStart_append {p : Nat → Concurrent.Req} {P : Concurrent.State → Prop} {evs evs' : List Concurrent.Ev}
    (ha : Spec.Concurrent.AtStart p P evs) (h : ∀ e ∈ evs', Spec.Concurrent.begins e = false) :
    Spec.Concurrent.AtStart p P (evs ++ evs') := by
  intro k hk hb
  by_cases hlt : k < evs.length
  · rw [List.getElem_append_left hlt] at hb
    rw [List.take_append_of_le_length hlt.le]
    exact ha k hlt hb
  · rw [List.getElem_append_right (by omega)] at hb
    rw [h _ (List.getElem_mem _)] at hb
    cases hb

theorem atStart_start {p : Nat → Concurrent.Req} {P : Concurrent.State → Prop} {evs : List Concurrent.Ev} {id : Nat}
    (ha : Spec.Concurrent.AtStart p P evs) (h : P (Concurrent.run p evs)) : Spec.Concurrent.AtStart p P (evs ++ [.start id]) := by
  intro k hk hb
  by_cases hlt : k < evs.length
  · rw [List.getElem_append_left hlt] at hb
    rw [List.take_append_of_le_length hlt.le]
    exact ha k hlt hb
  · have : k = evs.length := by simp at hk; omega
    subst this
    rw [List.take_left]
    exact h

/-- In an undisturbed history, no command begins while a reader is woken. -/
theorem sound_undisturbed {call : Call} {rule : Rule} {rs : List (Cls × Method × Cb)} {client : Nat} {evs : List Ev} (hs : Sane evs)
    (hu : Spec.EventLoop.Undisturbed (run call rule rs client) evs) :
    ∃ h r n, Sound call rule rs client evs (run call rule rs client evs) h r n ∧
      Spec.Concurrent.AtStart (prog rule (run call rule rs client evs).events.base.trace) Spec.Concurrent.Fifo r := by
  induction evs using List.reverseRecOn with
  | nil => exact ⟨_, _, _, sound_init call rule rs client, fun k hk => by simp at hk⟩
  | append_singleton evs e ih =>
    obtain ⟨h, r, n, k, ha⟩ := ih (fun d hd => hs d (List.mem_append_left _ hd))
      fun pre j hs hp => hu pre j hs (hp.trans (List.prefix_append _ _))
    have hu' := hu evs
    rw [run_snoc]
    generalize run call rule rs client evs = s at k ha hu'
    have hlt : ∀ id ∈ Spec.Concurrent.starts r, id < s.events.base.trace.length := by
      rw [k.began]
      intro id hid
      exact (List.mem_range.1 (List.mem_filter.1 hid).1).trans_le k.le
    cases e with
    | run =>
      rcases hr : s.ready with _ | ⟨x, hs⟩
      · exact ⟨h, r, n, by simpa [State.step, hr] using sound_run k, by simpa [State.step, hr] using ha⟩
      · obtain ⟨h', r', n', k'', hcase⟩ := sound_handle hr (sound_run k)
        have hstep : s.step call rule .run = State.handle call rule { s with ready := hs } x := by simp only [State.step, hr]
        rw [hstep]
        refine ⟨h', r', n', k'', ?_⟩
        obtain ⟨ts, hts⟩ := handle_trace call rule { s with ready := hs } x
        have hts : s.events.base.trace ++ ts = (State.handle call rule { s with ready := hs } x).events.base.trace := hts
        rw [← hts]
        have hp : ∀ id ∈ Spec.Concurrent.starts r, prog rule s.events.base.trace id = prog rule (s.events.base.trace ++ ts) id :=
          fun id hid => (prog_append _ _ _ (hlt id hid)).symm
        have hb := atStart_congr (prog_want _ _) (prog_want _ _) hp ha
        rcases hcase with rfl | ⟨ms, rfl⟩ | rfl | ⟨rfl, rfl, rfl⟩
        · exact hb
        · refine atStart_append hb fun e he => ?_
          obtain ⟨m, _, rfl⟩ := List.mem_map.1 he
          rfl
        · refine atStart_append hb fun e he => ?_
          rw [List.mem_singleton.1 he]
          rfl
        · refine atStart_start hb ?_
          unfold Spec.Concurrent.Fifo
          rw [← Concurrent.run_congr (prog_want _ _) (prog_want _ _) hp, ← k.requests]
          exact hu' n hs (List.prefix_refl _) hr
    | select rd => exact ⟨h, r, n, sound_select hs k, ha⟩

end EventLoop

/-- C131, what holds of the reports: when no callback begins while a task that awaits an answer is woken, every command that
ended reports the answer of the gateway to itself, whatever the number of commands under way. -/
theorem C131_own_partial (call : Call) (rule : Rule) (rs : List (Cls × Method × Cb)) (client : Nat) (answer : Nat → Msg)
    (evs : List Ev) (hs : Sane evs) (ho : Spec.EventLoop.InOrder (run call rule rs client) answer evs)
    (hu : Spec.EventLoop.Undisturbed (run call rule rs client) evs) :
    ∀ x ∈ (run call rule rs client evs).requests.finished, x.2 = report (answer x.1) := by
  obtain ⟨h, r, n, k, ha⟩ := sound_undisturbed hs hu
  have ho := ho evs (List.prefix_refl _)
  generalize run call rule rs client evs = s at k ha ho
  have hf := Concurrent.fair (prog rule s.events.base.trace) (prog_want _ _) r k.calm
  have hnd : (Spec.Concurrent.starts r).Nodup := by
    rw [k.began]
    exact List.nodup_range.sublist List.filter_sublist
  have hi := Concurrent.cmdInv (prog rule s.events.base.trace) (prog_want _ _) r ⟨hnd, k.calm⟩ ha
  rw [← k.requests] at hi hf
  have hfst : s.requests.got.map (·.1) <+: Spec.Concurrent.starts r := by
    rw [← hi.order, List.append_assoc]
    exact List.prefix_append _ _
  have hsnd : s.requests.got.map (·.2) <+: (Spec.Concurrent.starts r).map answer := by
    rw [← k.answers, ← hi.fifo, List.append_assoc, hf.sent, List.map_map] at ho
    exact (List.prefix_append _ _).trans ho
  intro x hx
  rw [hi.ends] at hx
  obtain ⟨p, hp, rfl⟩ := List.mem_map.1 hx
  have := Concurrent.paired _ _ hfst hsnd p hp
  simp [Concurrent.verdict_eq, report, this]

/-- The hypotheses of `C131_commands` and `C131_reports` are met by the history above: both commands are sent, both report. -/
example : Sane C131.evs ∧ (run allStart C131.rule [(.light, .onStatusChange, 7)] 1 C131.evs).ready.length = 0 ∧
    commands (run allStart C131.rule [(.light, .onStatusChange, 7)] 1 C131.evs) =
      [.normal .lighting ⟨cs!"1"⟩ ⟨cs!"21"⟩, .normal .lighting ⟨cs!"1"⟩ ⟨cs!"22"⟩] ∧
    (run allStart C131.rule [(.light, .onStatusChange, 7)] 1 C131.evs).requests.finished =
      [(1, .error .responseError), (0, .ok ())] :=
  ⟨C131.sane, by decide +kernel, by decide +kernel, by decide +kernel⟩

namespace C131

/-- The same events; the answers come after both commands have been sent. -/
def calm : List Ev :=
  [.select (.listen (bytes "*1*1*11##")), .run, .run, .run, .select (.listen (bytes "*1*1*12##")), .run, .run, .run,
   .select (.answer [.nack, .ack]), .run, .run, .run]

/-- What decides `Undisturbed`. -/
def quiet (s : EventLoop.State) : Bool :=
  match s.ready with
  | .task _ :: _ => s.requests.woken.isEmpty
  | _ => true

end C131

/-- The hypotheses of `C131_own_partial` are met with two commands under way at the same time; each reports its own answer. -/
example : Sane C131.calm ∧
    Spec.EventLoop.InOrder (run allStart C131.rule [(.light, .onStatusChange, 7)] 1) C131.answer C131.calm ∧
    Spec.EventLoop.Undisturbed (run allStart C131.rule [(.light, .onStatusChange, 7)] 1) C131.calm ∧
    (run allStart C131.rule [(.light, .onStatusChange, 7)] 1 C131.calm).requests.finished =
      [(0, .error .responseError), (1, .ok ())] := by
  refine ⟨fun d hd => C131.sane d ?_, ?_, ?_, by decide +kernel⟩
  · have : d = bytes "*1*1*11##" ∨ d = bytes "*1*1*12##" := by simpa [C131.calm] using hd
    simpa [C131.evs] using this
  · have : ∀ pre ∈ C131.calm.inits, replies pre <+:
        (run allStart C131.rule [(.light, .onStatusChange, 7)] 1 pre).requests.sent.map fun x => C131.answer x.1 := by decide +kernel
    exact fun pre hp => this pre ((List.mem_inits _ _).2 hp)
  · have : ∀ pre ∈ C131.calm.inits, C131.quiet (run allStart C131.rule [(.light, .onStatusChange, 7)] 1 pre) = true := by decide +kernel
    intro pre k hs hp hr
    have := this pre ((List.mem_inits _ _).2 ((List.prefix_append _ _).trans hp))
    unfold C131.quiet at this
    rw [hr] at this
    exact List.isEmpty_iff.1 this

/-- Two callbacks for one event: the commands follow the order of registration. -/
example : let rule : Rule := fun x => some (.normal .lighting ⟨cs!"1"⟩ ⟨if x.1 = 7 then cs!"21" else cs!"22"⟩)
    commands (run allStart rule [(.light, .onStatusChange, 8), (.light, .onStatusChange, 7)] 1
      [.select (.listen (bytes "*1*1*11##")), .run, .run, .run, .run]) =
      [.normal .lighting ⟨cs!"1"⟩ ⟨cs!"22"⟩, .normal .lighting ⟨cs!"1"⟩ ⟨cs!"21"⟩] := by decide +kernel
