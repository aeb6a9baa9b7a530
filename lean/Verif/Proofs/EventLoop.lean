import Verif.Spec.EventLoop
import Verif.Proofs.Concurrent
import Verif.Proofs.Loops

/-! # Lemmas on programs of rules -/

open Py

namespace Concurrent
open Spec.Concurrent

/-- What holds of commands in any schedule. -/
structure Fair (prog : Nat → Req) (evs : List Ev) (s : State) : Prop where
  sent : s.sent = (starts evs).map fun k => (k, (prog k).msg)
  fifo : s.got.map (·.2) ++ s.queue = arrivals evs
  ends : s.finished = s.got.map fun p => (p.1, verdict p.2)
  who : (s.got.map (·.1) ++ s.woken ++ s.waiting).Perm (starts evs)
  live : s.waiting ≠ [] → s.queue.length ≤ s.woken.length

/-- No timeout, no cancellation. -/
def Undisturbed (evs : List Ev) : Prop := ∀ e ∈ evs, ∀ id, e ≠ .expire id ∧ e ≠ .cancel id

theorem fair (prog : Nat → Req) (hp : ∀ id, (prog id).want = fun _ => false) (evs : List Ev) (hc : Undisturbed evs) :
    Fair prog evs (run prog evs) := by
  induction evs using List.reverseRecOn with
  | nil => exact ⟨rfl, rfl, rfl, List.Perm.refl _, fun h => absurd rfl h⟩
  | append_singleton evs e ih =>
    have hi := ih fun e he => hc e (List.mem_append_left _ he)
    rw [run_append]
    generalize run prog evs = s at hi
    obtain ⟨queue, waiting, woken, sent, got, finished, cancelled⟩ := s
    obtain ⟨h0, h1, h2, h3, h4⟩ := hi
    simp only at h0 h1 h2 h3 h4
    cases e with
    | expire id => exact absurd rfl (hc _ (by simp) id).1
    | cancel id => exact absurd rfl (hc _ (by simp) id).2
    | start id =>
      have hs : starts (evs ++ [.start id]) = starts evs ++ [id] := by simp [starts]
      have ha : arrivals (evs ++ [.start id]) = arrivals evs := by simp [arrivals]
      cases queue with
      | nil =>
        refine ⟨?_, ?_, ?_, ?_, ?_⟩
        · simp [State.step, State.read, hp, take, h0, hs]
        · simpa [State.step, State.read, hp, take, ha] using h1
        · simpa [State.step, State.read, hp, take] using h2
        · simp only [State.step, State.read, hp, take, hs, List.map_nil, List.append_nil]
          rw [← List.append_assoc]
          exact h3.append_right _
        · simp [State.step, State.read, hp, take]
      | cons m q =>
        refine ⟨?_, ?_, ?_, ?_, ?_⟩
        · simp [State.step, State.read, hp, take, h0, hs]
        · simpa [State.step, State.read, hp, take, ha] using h1
        · simp [State.step, State.read, hp, take, h2]
        · simp only [State.step, State.read, hp, take, hs, Bool.false_eq_true, if_false, List.map_append, List.map_cons, List.map_nil]
          refine List.Perm.trans ?_ (h3.append_right [id])
          rw [List.append_assoc, List.append_assoc, List.append_assoc, List.append_assoc]
          refine List.Perm.append_left _ ?_
          rw [← List.append_assoc woken]
          exact List.perm_append_comm
        · intro hw
          have := h4 (by simpa [State.step, State.read, hp, take] using hw)
          simp only [State.step, State.read, hp, take, Bool.false_eq_true, if_false]
          simp only [List.length_cons] at this
          omega
    | arrive m =>
      have hs : starts (evs ++ [.arrive m]) = starts evs := by simp [starts]
      have ha : arrivals (evs ++ [.arrive m]) = arrivals evs ++ [m] := by simp [arrivals]
      cases waiting with
      | nil =>
        refine ⟨?_, ?_, ?_, ?_, ?_⟩
        · simp [State.step, State.wakeup, h0, hs]
        · simp [State.step, State.wakeup, ha, ← h1]
        · simp [State.step, State.wakeup, h2]
        · simpa [State.step, State.wakeup, hs] using h3
        · simp [State.step, State.wakeup]
      | cons w ws =>
        have := h4 (by simp)
        refine ⟨?_, ?_, ?_, ?_, ?_⟩
        · simp [State.step, State.wakeup, h0, hs]
        · simp [State.step, State.wakeup, ha, ← h1]
        · simp [State.step, State.wakeup, h2]
        · simpa [State.step, State.wakeup, hs] using h3
        · intro _
          simp [State.step, State.wakeup]
          omega
    | resume =>
      have hs : starts (evs ++ [.resume]) = starts evs := by simp [starts]
      have ha : arrivals (evs ++ [.resume]) = arrivals evs := by simp [arrivals]
      cases woken with
      | nil => exact ⟨by simpa [State.step, hs] using h0, by simpa [State.step, ha] using h1, by simpa [State.step] using h2,
          by simpa [State.step, hs] using h3, by simpa [State.step] using h4⟩
      | cons w ws =>
        cases queue with
        | nil =>
          refine ⟨?_, ?_, ?_, ?_, ?_⟩
          · simpa [State.step, State.read, hp, take, hs] using h0
          · simpa [State.step, State.read, hp, take, ha] using h1
          · simpa [State.step, State.read, hp, take] using h2
          · simp only [State.step, State.read, hp, take, hs, List.map_nil, List.append_nil]
            refine List.Perm.trans ?_ h3
            rw [List.append_assoc, List.append_assoc]
            refine List.Perm.append_left _ ?_
            rw [← List.append_assoc]
            exact List.perm_append_comm
          · simp [State.step, State.read, hp, take]
        | cons m q =>
          refine ⟨?_, ?_, ?_, ?_, ?_⟩
          · simpa [State.step, State.read, hp, take, hs] using h0
          · simpa [State.step, State.read, hp, take, ha] using h1
          · simp [State.step, State.read, hp, take, h2]
          · simpa [State.step, State.read, hp, take, hs] using h3
          · intro hw
            have := h4 (by simpa [State.step, State.read, hp, take] using hw)
            simp only [State.step, State.read, hp, take, Bool.false_eq_true, if_false]
            simp only [List.length_cons] at this
            omega

/-- Only the requests that were begun matter. -/
theorem run_congr {p p' : Nat → Req} (hp : ∀ id, (p id).want = fun _ => false) (hp' : ∀ id, (p' id).want = fun _ => false)
    {evs : List Ev} (h : ∀ id ∈ starts evs, p id = p' id) : run p evs = run p' evs := by
  induction evs using List.reverseRecOn with
  | nil => rfl
  | append_singleton evs e ih =>
    rw [run_append, run_append, ih fun id hi => h id (by simp only [starts, List.filterMap_append]; exact List.mem_append_left _ hi)]
    cases e with
    | start id => simp only [State.step, h id (by simp [starts])]
    | resume => simp only [State.step, hp, hp']
    | _ => rfl

theorem arrive_woken (p : Nat → Req) (s : State) (m : Msg) : s.woken.length ≤ (s.step p (.arrive m)).woken.length := by
  obtain ⟨queue, waiting, woken, sent, got, finished, cancelled⟩ := s
  cases waiting <;> simp [State.step, State.wakeup]

theorem arrives_woken (p : Nat → Req) (s : State) (ms : List Msg) :
    s.woken.length ≤ ((ms.map Ev.arrive).foldl (State.step p) s).woken.length := by
  induction ms generalizing s with
  | nil => exact le_refl _
  | cons m ms ih => exact (arrive_woken p s m).trans (ih _)

end Concurrent

namespace EventLoop
open Spec Events Spec.EventLoop

/-- The messages of the packets that the event loop has yet to read, on the connection that listens. -/
def toHear (hs : List Handle) : List Msg := hs.flatMap fun | .read (.listen d) => messages d | _ => []

/-- The same on the connection for commands. -/
def toReply (hs : List Handle) : List Msg := hs.flatMap fun | .read (.answer ms) => ms | _ => []

/-- The callbacks that are yet to begin. -/
def toBegin (hs : List Handle) : List Nat := hs.filterMap fun | .task k => some k | _ => none

/-- The readers that are yet to run. -/
def toRead (hs : List Handle) : List Unit := hs.filterMap fun | .reader => some () | _ => none

theorem toHear_append (a b : List Handle) : toHear (a ++ b) = toHear a ++ toHear b := List.flatMap_append ..
theorem toReply_append (a b : List Handle) : toReply (a ++ b) = toReply a ++ toReply b := List.flatMap_append ..
theorem toBegin_append (a b : List Handle) : toBegin (a ++ b) = toBegin a ++ toBegin b := List.filterMap_append ..
theorem toRead_append (a b : List Handle) : toRead (a ++ b) = toRead a ++ toRead b := List.filterMap_append ..

theorem toHear_readers (n : Nat) : toHear (List.replicate n .reader) = [] := by
  induction n with
  | zero => rfl
  | succ n ih => exact ih
theorem toReply_readers (n : Nat) : toReply (List.replicate n .reader) = [] := by
  induction n with
  | zero => rfl
  | succ n ih => exact ih
theorem toBegin_readers (n : Nat) : toBegin (List.replicate n .reader) = [] := by
  induction n with
  | zero => rfl
  | succ n ih => exact ih
theorem toRead_readers (n : Nat) : (toRead (List.replicate n .reader)).length = n := by
  induction n with
  | zero => rfl
  | succ n ih => exact congrArg Nat.succ ih
theorem any_readers (n : Nat) : (List.replicate n Handle.reader).any Handle.isLoop = false := by
  induction n with
  | zero => rfl
  | succ n ih => exact ih

theorem toHear_tasks (l : List Nat) : toHear (l.map .task) = [] := by
  induction l with
  | nil => rfl
  | cons k l ih => exact ih
theorem toReply_tasks (l : List Nat) : toReply (l.map .task) = [] := by
  induction l with
  | nil => rfl
  | cons k l ih => exact ih
theorem toBegin_tasks (l : List Nat) : toBegin (l.map .task) = l := by
  induction l with
  | nil => rfl
  | cons k l ih => exact congrArg (k :: ·) ih
theorem toRead_tasks (l : List Nat) : toRead (l.map .task) = [] := by
  induction l with
  | nil => rfl
  | cons k l ih => exact ih
theorem any_tasks (l : List Nat) : (l.map Handle.task).any Handle.isLoop = false := by
  induction l with
  | nil => rfl
  | cons k l ih => exact ih

/-- The arrival of several messages at once. -/
theorem answer_eq (rule : Rule) (s : State) (ms : List Msg) :
    s.answer rule ms =
      { s with
        requests := (ms.map .arrive).foldl (Concurrent.State.step (prog rule s.events.base.trace)) s.requests
        ready := s.ready ++ List.replicate
          (((ms.map Concurrent.Ev.arrive).foldl (Concurrent.State.step (prog rule s.events.base.trace)) s.requests).woken.length -
            s.requests.woken.length) .reader } := by
  induction ms generalizing s with
  | nil => simp [State.answer]
  | cons m ms ih =>
    rw [State.answer, ih]
    simp only [List.map_cons, List.foldl_cons, List.append_assoc, ← List.replicate_add]
    have h1 := Concurrent.arrive_woken (prog rule s.events.base.trace) s.requests m
    have h2 := Concurrent.arrives_woken (prog rule s.events.base.trace)
      (s.requests.step (prog rule s.events.base.trace) (.arrive m)) ms
    congr 3
    omega

theorem prog_want (rule : Rule) (t : List Start) (k : Nat) : (prog rule t k).want = fun _ => false := rfl

theorem prog_append (rule : Rule) (t t' : List Start) {k : Nat} (h : k < t.length) : prog rule (t ++ t') k = prog rule t k := by
  unfold prog
  rw [List.getElem?_append_left h]

/-- The calls with a command, among the first `n`. -/
def busy (rule : Rule) (t : List Start) (n : Nat) : List Nat :=
  (List.range n).filter fun k => (t[k]?.bind (command rule)).isSome

theorem busy_append (rule : Rule) (t t' : List Start) {n : Nat} (h : n ≤ t.length) : busy rule (t ++ t') n = busy rule t n := by
  unfold busy
  refine List.filter_congr fun k hk => ?_
  rw [List.getElem?_append_left (by have := List.mem_range.1 hk; omega)]

theorem busy_succ (rule : Rule) (t : List Start) (n : Nat) :
    busy rule t (n + 1) = busy rule t n ++ if (t[n]?.bind (command rule)).isSome then [n] else [] := by
  unfold busy
  rw [List.range_succ, List.filter_append]
  by_cases h : (t[n]?.bind (command rule)).isSome
  · simp [h]
  · simp [h]

/-- The frames of the first `n` calls. -/
theorem busy_frames (rule : Rule) (t : List Start) {n : Nat} (h : n ≤ t.length) :
    (busy rule t n).map (fun k => (prog rule t k).msg) = (t.take n).filterMap (command rule) := by
  induction n with
  | zero => rfl
  | succ n ih =>
    have hn : n < t.length := h
    rw [busy_succ, List.map_append, ih (by omega), List.take_succ, List.filterMap_append]
    congr 1
    rw [List.getElem?_eq_getElem hn]
    dsimp only [Option.bind_some, Option.toList]
    obtain ⟨o, hc⟩ : ∃ o, command rule t[n] = o := ⟨_, rfl⟩
    cases o
    · simp [hc]
    · simp [hc, prog, List.getElem?_eq_getElem hn, Concurrent.Req.command]

theorem drain_trace (py : Python) (call : Call) (q : List Msg) (s : Events.State) : s.trace <+: (drain py call s q).trace := by
  induction q generalizing s with
  | nil => exact List.prefix_refl _
  | cons m q ih =>
    unfold drain
    split
    · exact List.prefix_refl _
    · dsimp only
      split
      · exact (List.prefix_append s.trace _).trans (ih { s with queue := q, items := _, trace := s.trace ++ _ })
      · exact List.prefix_append _ _
      · exact List.prefix_append _ _

theorem resume_trace (py : Python) (call : Call) (s : Many) : s.base.trace <+: (s.step py call (.resume 0)).base.trace := by
  unfold Many.step
  dsimp only
  split
  · rename_i c _
    unfold Many.turn Events.State.step
    dsimp only
    split
    · exact drain_trace py call _ { s.base with task := .waiting, client := c }
    · exact List.prefix_refl _
  · exact List.prefix_refl _

/-- What the client that listens has done. -/
def did (rs : List (Cls × Method × Cb)) (client : Nat) (h : List Act) : List Act :=
  (rs.map fun r => .register r.1 r.2.1 r.2.2) ++ (.loop 0 client :: h)

theorem did_append (rs : List (Cls × Method × Cb)) (client : Nat) (h h' : List Act) :
    did rs client (h ++ h') = did rs client h ++ h' := by simp [did]

theorem did_arrived (rs : List (Cls × Method × Cb)) (client : Nat) (h : List Act) : arrived (did rs client h) = arrived h := by
  unfold did
  induction rs with
  | nil => rfl
  | cons r rs ih => exact ih

theorem did_up (rs : List (Cls × Method × Cb)) (client : Nat) (h : List Act) : Up (did rs client h) = Up h := by
  unfold did
  induction rs with
  | nil => rfl
  | cons r rs ih => exact ih

/-- The client that listens: `h` is what it did after `loop()` was called. -/
structure Hears (call : Call) (rs : List (Cls × Method × Cb)) (client : Nat) (h : List Act) (e : Many) : Prop where
  run : e = (Many.init .event).run .upTo312 call (did rs client h)
  acts : ∀ a ∈ h, (∃ d, a = .packet d) ∨ a = .resume 0
  up : Up h = true
  mind : e.loops 0 = .called client .waiting
  fine : ∀ m ∈ arrived h, Harmless m

theorem hears_packet {call : Call} {rs : List (Cls × Method × Cb)} {client : Nat} {h : List Act} {e : Many}
    (k : Hears call rs client h e) {d : List UInt8} {ms : List Msg} (hd : Protocol.packetMessages d = .ok ms)
    (hf : ∀ m ∈ ms, Harmless m) :
    Hears call rs client (h ++ [.packet d]) (e.step .upTo312 call (.packet d)) ∧
      arrived (h ++ [.packet d]) = arrived h ++ ms ∧ (e.step .upTo312 call (.packet d)).base.trace = e.base.trace ∧
      (e.step .upTo312 call (.packet d)).base.queue = e.base.queue ++ ms := by
  have ha : arrived (h ++ [.packet d]) = arrived h ++ ms := by
    rw [arrived_append, if_pos k.up]
    simp [arrived, hd]
  have hup : Up (h ++ [.packet d]) = true := by
    have : ∀ h : List Act, Up h = true → Up (h ++ [.packet d]) = true := by
      intro h
      induction h with
      | nil => simp [Up, hd]
      | cons a h ih =>
        cases a with
        | packet d' =>
          rcases hp : Protocol.packetMessages d' with _ | _
          · simp [Up, hp]
          · simpa [Up, hp] using ih
        | lost => simp [Up]
        | close => simp [Up]
        | register => simpa [Up] using ih
        | getItem => simpa [Up] using ih
        | loop => simpa [Up] using ih
        | resume => simpa [Up] using ih
        | cancel => simpa [Up] using ih
    exact this h k.up
  have ho : e.base.transport = .opened := by
    obtain ⟨log, kk⟩ := many_kept .upTo312 call .event (did rs client h)
    rw [k.run]
    exact kk.up.2 (by rw [did_up]; exact k.up)
  have hdr : Protocol.dataReceived e.base.queue d = (.ok (), e.base.queue ++ ms) := by
    unfold Protocol.dataReceived
    rw [hd]
  refine ⟨⟨?_, ?_, hup, ?_, ?_⟩, ha, ?_, ?_⟩
  · rw [did_append, many_append, ← k.run]
    rfl
  · intro a hm
    rcases List.mem_append.1 hm with hm | hm
    · exact k.acts a hm
    · exact Or.inl ⟨d, by simpa using hm⟩
  · exact k.mind
  · rw [ha]
    intro m hm
    rcases List.mem_append.1 hm with hm | hm
    · exact k.fine m hm
    · exact hf m hm
  · simp [Many.step, Events.State.step, ho, hdr]
  · simp [Many.step, Events.State.step, ho, hdr]

theorem up_resume (h : List Act) (i : Nat) : Up (h ++ [.resume i]) = Up h := by
  induction h with
  | nil => rfl
  | cons a h ih =>
    cases a with
    | packet d =>
      rcases hp : Protocol.packetMessages d with _ | _
      · simp [Up, hp]
      · simpa [Up, hp] using ih
    | lost => rfl
    | close => rfl
    | _ => simpa [Up] using ih

theorem hears_inv {call : Call} {rs : List (Cls × Method × Cb)} {client : Nat} {h : List Act} {e : Many}
    (k : Hears call rs client h e) : Inv e.base ∧ e.base.transport = .opened ∧ ∃ log, log ++ e.base.queue = arrived h := by
  obtain ⟨log, kk⟩ := many_kept .upTo312 call .event (did rs client h)
  rw [← k.run] at kk
  exact ⟨kk.inv, kk.up.2 (by rw [did_up]; exact k.up), _, by rw [kk.once, did_arrived]⟩

theorem hears_resume {call : Call} {rs : List (Cls × Method × Cb)} {client : Nat} {h : List Act} {e : Many}
    (k : Hears call rs client h e) :
    Hears call rs client (h ++ [.resume 0]) (e.step .upTo312 call (.resume 0)) ∧
      arrived (h ++ [.resume 0]) = arrived h ∧ (e.step .upTo312 call (.resume 0)).base.queue = [] := by
  obtain ⟨hi, ho, log, hl⟩ := hears_inv k
  have ha : arrived (h ++ [.resume 0]) = arrived h := by rw [arrived_append]; simp [arrived]
  have hw := resume_harmless (py := .upTo312) (call := call)
    (s := { e.base with task := .waiting, client := client }) (q := e.base.queue) ⟨hi.items, hi.queue⟩
    ⟨rfl, ho, rfl⟩ fun m hm => k.fine m (by rw [← hl]; exact List.mem_append_right _ hm)
  have hs : e.step .upTo312 call (.resume 0) = e.turn .upTo312 call 0 client .waiting .resume := by
    simp only [Many.step, k.mind]
  refine ⟨⟨?_, ?_, ?_, ?_, ?_⟩, ha, ?_⟩
  · rw [did_append, many_append, ← k.run]
    rfl
  · intro a hm
    rcases List.mem_append.1 hm with hm | hm
    · exact k.acts a hm
    · exact Or.inr (by simpa using hm)
  · rw [up_resume]; exact k.up
  · rw [hs]
    simp [Many.turn, hw.1.1]
  · rw [ha]; exact k.fine
  · rw [hs]
    exact hw.1.2.2

/-- What holds after every history: `h` is what the client that listens did, `r` what happened to the commands, `n` is the
number of callbacks that have begun. -/
structure Sound (call : Call) (rule : Rule) (rs : List (Cls × Method × Cb)) (client : Nat) (evs : List Ev) (s : State)
    (h : List Act) (r : List Concurrent.Ev) (n : Nat) : Prop where
  hears : Hears call rs client h s.events
  input : arrived h ++ toHear s.ready = heard evs
  sane : ∀ d, .read (.listen d) ∈ s.ready → ∃ ms, Protocol.packetMessages d = .ok ms ∧ ∀ m ∈ ms, Harmless m
  woke : s.events.base.queue = [] ∨ s.ready.any Handle.isLoop = true
  requests : s.requests = Concurrent.run (prog rule s.events.base.trace) r
  calm : Concurrent.Undisturbed r
  began : Spec.Concurrent.starts r = busy rule s.events.base.trace n
  le : n ≤ s.events.base.trace.length
  tasks : toBegin s.ready = List.range' n (s.events.base.trace.length - n)
  answers : Spec.Concurrent.arrivals r ++ toReply s.ready = replies evs
  readers : (toRead s.ready).length = s.requests.woken.length

/-- The handle `x` has been taken from the list, and what it stands for is still to be done. -/
theorem sound_handle {call : Call} {rule : Rule} {rs : List (Cls × Method × Cb)} {client : Nat} {evs : List Ev} {s : State}
    {h : List Act} {r : List Concurrent.Ev} {n : Nat} {x : Handle} {hs : List Handle} (hr : s.ready = x :: hs)
    (k : Sound call rule rs client evs s h r n) :
    ∃ h' r' n', Sound call rule rs client evs (State.handle call rule { s with ready := hs } x) h' r' n' ∧
      (r' = r ∨ (∃ ms : List Msg, r' = r ++ ms.map .arrive) ∨ r' = r ++ [.resume] ∨
        (r' = r ++ [.start n] ∧ x = .task n ∧ n' = n + 1)) := by
  obtain ⟨e, q, ready⟩ := s
  dsimp only at hr
  subst hr
  obtain ⟨hears, input, sane, woke, requests, calm, began, le, tasks, answers, readers⟩ := k
  dsimp only at hears input sane woke requests calm began le tasks answers readers
  have sane' : ∀ d, .read (.listen d) ∈ hs → ∃ ms, Protocol.packetMessages d = .ok ms ∧ ∀ m ∈ ms, Harmless m :=
    fun d hd => sane d (List.mem_cons_of_mem _ hd)
  cases x with
  | read rd =>
    cases rd with
    | listen d =>
      obtain ⟨ms, hd, hf⟩ := sane d List.mem_cons_self
      obtain ⟨k1, k2, k3, k4⟩ := hears_packet hears hd hf
      refine ⟨h ++ [.packet d], r, n, ?_, Or.inl rfl⟩
      have hm : messages d = ms := by unfold messages; rw [hd]
      simp only [State.handle, State.listen]
      generalize e.step .upTo312 call (.packet d) = e' at k1 k3 k4
      have hpre : ∃ l, (if waits (e'.loops 0) && !e'.base.queue.isEmpty && !hs.any Handle.isLoop then hs ++ [.loop] else hs) =
          hs ++ l ∧ (l = [] ∨ l = [.loop]) := by
        split
        · exact ⟨_, rfl, Or.inr rfl⟩
        · exact ⟨[], by simp, Or.inl rfl⟩
      have hwoke : e'.base.queue = [] ∨
          (if waits (e'.loops 0) && !e'.base.queue.isEmpty && !hs.any Handle.isLoop then hs ++ [.loop] else hs).any Handle.isLoop = true := by
        by_cases hq : e'.base.queue = []
        · exact Or.inl hq
        · right
          rw [k1.mind]
          by_cases ha : hs.any Handle.isLoop
          · simp [ha]
          · have hq' : e'.base.queue.isEmpty = false := by simpa [List.isEmpty_iff] using hq
            simp [waits, ha, hq', Handle.isLoop]
      obtain ⟨l, hl, hl'⟩ := hpre
      rw [hl] at hwoke ⊢
      have l1 : toHear l = [] := by rcases hl' with rfl | rfl <;> rfl
      have l2 : toReply l = [] := by rcases hl' with rfl | rfl <;> rfl
      have l3 : toBegin l = [] := by rcases hl' with rfl | rfl <;> rfl
      have l4 : toRead l = [] := by rcases hl' with rfl | rfl <;> rfl
      refine ⟨k1, ?_, ?_, hwoke, ?_, calm, ?_, ?_, ?_, ?_, ?_⟩
      · dsimp only
        rw [k2, toHear_append, l1, List.append_nil, ← input, List.append_assoc, ← hm]
        rfl
      · intro d' hd'
        dsimp only at hd'
        rcases List.mem_append.1 hd' with hd' | hd'
        · exact sane' d' hd'
        · rcases hl' with rfl | rfl <;> simp at hd'
      · dsimp only; rw [k3]; exact requests
      · dsimp only; rw [k3]; exact began
      · dsimp only; rw [k3]; exact le
      · dsimp only; rw [k3, toBegin_append, l3, List.append_nil]; exact tasks
      · dsimp only; rw [toReply_append, l2, List.append_nil]; exact answers
      · dsimp only; rw [toRead_append, l4, List.append_nil]; exact readers
    | answer ms =>
      refine ⟨h, r ++ ms.map .arrive, n, ?_, Or.inr (Or.inl ⟨ms, rfl⟩)⟩
      have hq : (ms.map Concurrent.Ev.arrive).foldl (Concurrent.State.step (prog rule e.base.trace)) q =
          Concurrent.run (prog rule e.base.trace) (r ++ ms.map .arrive) := by
        unfold Concurrent.run
        rw [List.foldl_append, requests]
        rfl
      have hle := Concurrent.arrives_woken (prog rule e.base.trace) q ms
      simp only [State.handle]
      rw [answer_eq]
      dsimp only
      rw [hq] at hle ⊢
      refine ⟨hears, ?_, ?_, ?_, rfl, ?_, ?_, le, ?_, ?_, ?_⟩
      · dsimp only; rw [toHear_append, toHear_readers, List.append_nil]; exact input
      · intro d' hd'
        rcases List.mem_append.1 hd' with hd' | hd'
        · exact sane' d' hd'
        · cases List.eq_of_mem_replicate hd'
      · dsimp only
        rw [List.any_append, any_readers, Bool.or_false]
        exact woke
      · intro e he
        rcases List.mem_append.1 he with he | he
        · exact calm e he
        · obtain ⟨m, _, rfl⟩ := List.mem_map.1 he
          intro id
          exact ⟨by simp, by simp⟩
      · rw [← began]
        unfold Spec.Concurrent.starts
        rw [List.filterMap_append, List.filterMap_map]
        simp [Function.comp_def]
      · dsimp only; rw [toBegin_append, toBegin_readers, List.append_nil]; exact tasks
      · dsimp only; rw [toReply_append, toReply_readers, List.append_nil, ← answers]
        unfold Spec.Concurrent.arrivals
        rw [List.filterMap_append, List.filterMap_map]
        simp [Function.comp_def, toReply]
      · dsimp only
        rw [toRead_append, List.length_append, toRead_readers]
        have : (toRead hs).length = q.woken.length := readers
        omega
  | loop =>
    obtain ⟨k1, k2, k3⟩ := hears_resume hears
    have kt := resume_trace .upTo312 call e
    refine ⟨h ++ [.resume 0], r, n, ?_, Or.inl rfl⟩
    simp only [State.handle]
    generalize e.step .upTo312 call (.resume 0) = e' at k1 k3 kt
    obtain ⟨ts, hts⟩ := kt
    have hb : ∀ id ∈ Spec.Concurrent.starts r, id < e.base.trace.length := by
      rw [began]
      intro id hid
      have := List.mem_range.1 (List.mem_filter.1 hid).1
      omega
    have hq : q = Concurrent.run (prog rule e'.base.trace) r := by
      rw [requests]
      refine Concurrent.run_congr (prog_want _ _) (prog_want _ _) fun id hid => ?_
      rw [← hts, prog_append _ _ _ (hb id hid)]
    refine ⟨k1, ?_, ?_, Or.inl k3, hq, calm, ?_, ?_, ?_, ?_, ?_⟩
    · dsimp only; rw [k2, toHear_append, toHear_tasks, List.append_nil]; exact input
    · intro d' hd'
      rcases List.mem_append.1 hd' with hd' | hd'
      · exact sane' d' hd'
      · obtain ⟨_, _, h⟩ := List.mem_map.1 hd'
        cases h
    · dsimp only; rw [began, ← hts, busy_append _ _ _ le]
    · dsimp only; rw [← hts, List.length_append]; omega
    · dsimp only
      rw [toBegin_append, toBegin_tasks]
      have : toBegin hs = List.range' n (e.base.trace.length - n) := tasks
      have hlen : e'.base.trace.length = e.base.trace.length + ts.length := by rw [← hts, List.length_append]
      rw [this, hlen]
      have h1 : e.base.trace.length + ts.length - n = (e.base.trace.length - n) + ts.length := by omega
      have h2 : e.base.trace.length + ts.length - e.base.trace.length = ts.length := by omega
      have h3 : n + 1 * (e.base.trace.length - n) = e.base.trace.length := by omega
      rw [h1, h2, ← List.range'_append (step := 1), h3]
    · dsimp only; rw [toReply_append, toReply_tasks, List.append_nil]; exact answers
    · dsimp only; rw [toRead_append, toRead_tasks, List.append_nil]; exact readers
  | task j =>
    have hne : e.base.trace.length - n ≠ 0 := by
      intro h0
      rw [h0] at tasks
      cases tasks
    obtain ⟨w, hw⟩ := Nat.exists_eq_succ_of_ne_zero hne
    rw [hw] at tasks
    have hj : j = n ∧ toBegin hs = List.range' (n + 1) w := by
      have : j :: toBegin hs = n :: List.range' (n + 1) w := tasks
      injection this with h1 h2
      exact ⟨h1, h2⟩
    obtain ⟨rfl, htl⟩ := hj
    have hlt : j < e.base.trace.length := by omega
    have hw' : w = e.base.trace.length - (j + 1) := by omega
    rw [hw'] at htl
    simp only [State.handle]
    obtain ⟨o, ho⟩ : ∃ o, (e.base.trace)[j]?.bind (command rule) = o := ⟨_, rfl⟩
    rw [ho]
    cases o with
    | none =>
      refine ⟨h, r, j + 1, ⟨hears, input, sane', woke, requests, calm, ?_, hlt, htl, answers, readers⟩, Or.inl rfl⟩
      dsimp only
      rw [began, busy_succ, ho]
      simp
    | some m =>
      refine ⟨h, r ++ [.start j], j + 1, ⟨hears, input, sane', woke, ?_, ?_, ?_, hlt, htl, ?_, ?_⟩,
        Or.inr (Or.inr (Or.inr ⟨rfl, trivial, rfl⟩))⟩
      · dsimp only; rw [Concurrent.run_append, requests]
      · intro e he
        rcases List.mem_append.1 he with he | he
        · exact calm e he
        · rw [List.mem_singleton.1 he]
          intro id
          exact ⟨by simp, by simp⟩
      · dsimp only
        rw [busy_succ, ho, ← began]
        simp [Spec.Concurrent.starts]
      · dsimp only
        rw [← answers]
        simp [Spec.Concurrent.arrivals, toReply]
      · dsimp only
        rw [show (toRead hs).length = q.woken.length from readers]
        simp only [Concurrent.State.step, Concurrent.State.read, prog_want]
        split <;> rfl
  | reader =>
    simp only [State.handle]
    refine ⟨h, r ++ [.resume], n, ⟨hears, input, sane', woke, ?_, ?_, ?_, le, tasks, ?_, ?_⟩, Or.inr (Or.inr (Or.inl rfl))⟩
    · dsimp only; rw [Concurrent.run_append, requests]
    · intro e he
      rcases List.mem_append.1 he with he | he
      · exact calm e he
      · rw [List.mem_singleton.1 he]
        intro id
        exact ⟨by simp, by simp⟩
    · rw [← began]
      simp [Spec.Concurrent.starts]
    · dsimp only
      rw [← answers]
      simp [Spec.Concurrent.arrivals, toReply]
    · dsimp only
      have hl : (toRead hs).length + 1 = q.woken.length := readers
      obtain ⟨w, ws, hw⟩ : ∃ w ws, q.woken = w :: ws := by
        cases hq : q.woken with
        | nil => rw [hq] at hl; cases hl
        | cons w ws => exact ⟨w, ws, rfl⟩
      rw [hw] at hl
      have : (q.step (prog rule e.base.trace) .resume).woken = ws := by
        simp only [Concurrent.State.step, hw, Concurrent.State.read, prog_want]
        split <;> rfl
      rw [this]
      simpa using hl

theorem run_snoc (call : Call) (rule : Rule) (rs : List (Cls × Method × Cb)) (client : Nat) (evs : List Ev) (e : Ev) :
    run call rule rs client (evs ++ [e]) = (run call rule rs client evs).step call rule e := by
  unfold run
  rw [List.foldl_append]
  rfl

theorem sound_init (call : Call) (rule : Rule) (rs : List (Cls × Method × Cb)) (client : Nat) :
    Sound call rule rs client [] (.init call rs client) [] [] 0 := by
  have hreg : ∀ (rs : List (Cls × Method × Cb)) (m : Many),
      (m.run .upTo312 call (rs.map fun r => .register r.1 r.2.1 r.2.2)).loops = m.loops ∧
      (m.run .upTo312 call (rs.map fun r => .register r.1 r.2.1 r.2.2)).base.session = m.base.session ∧
      (m.run .upTo312 call (rs.map fun r => .register r.1 r.2.1 r.2.2)).base.transport = m.base.transport ∧
      (m.run .upTo312 call (rs.map fun r => .register r.1 r.2.1 r.2.2)).base.queue = m.base.queue ∧
      (m.run .upTo312 call (rs.map fun r => .register r.1 r.2.1 r.2.2)).base.trace = m.base.trace := by
    intro rs
    induction rs with
    | nil => exact fun m => ⟨rfl, rfl, rfl, rfl, rfl⟩
    | cons r rs ih =>
      intro m
      have h1 : (m.step .upTo312 call (.register r.1 r.2.1 r.2.2)).base.session = m.base.session ∧
          (m.step .upTo312 call (.register r.1 r.2.1 r.2.2)).base.transport = m.base.transport ∧
          (m.step .upTo312 call (.register r.1 r.2.1 r.2.2)).base.queue = m.base.queue ∧
          (m.step .upTo312 call (.register r.1 r.2.1 r.2.2)).base.trace = m.base.trace := by
        simp only [Many.step, Events.State.step]
        split <;> exact ⟨rfl, rfl, rfl, rfl⟩
      obtain ⟨g1, g2, g3, g4, g5⟩ := ih (m.step .upTo312 call (.register r.1 r.2.1 r.2.2))
      exact ⟨g1, g2.trans h1.1, g3.trans h1.2.1, g4.trans h1.2.2.1, g5.trans h1.2.2.2⟩
  obtain ⟨g1, g2, g3, g4, g5⟩ := hreg rs (Many.init .event)
  have hl : ∀ m : Many, m.loops 0 = .none → m.base.session = .event → m.base.transport = .opened → m.base.queue = [] →
      (m.step .upTo312 call (.loop 0 client)).loops 0 = .called client .waiting ∧
      (m.step .upTo312 call (.loop 0 client)).base.queue = [] ∧
      (m.step .upTo312 call (.loop 0 client)).base.trace = m.base.trace := by
    intro m h1 h2 h3 h4
    simp [Many.step, h1, Many.turn, Events.State.step, Events.State.start, h2, h3, h4, drain]
  obtain ⟨l1, l2, l3⟩ := hl ((Many.init .event).run .upTo312 call (rs.map fun r => .register r.1 r.2.1 r.2.2))
    (by rw [g1]; rfl) (by rw [g2]; rfl) (by rw [g3]; rfl) (by rw [g4]; rfl)
  rw [g5] at l3
  have he : (State.init call rs client).events = ((Many.init .event).run .upTo312 call
      (rs.map fun r => .register r.1 r.2.1 r.2.2)).step .upTo312 call (.loop 0 client) := many_append _ _ _ _ _
  rw [← he] at l1 l2 l3
  have ht : (State.init call rs client).events.base.trace = [] := l3
  refine ⟨⟨rfl, by simp, rfl, l1, by simp [arrived]⟩, rfl, by simp [State.init], Or.inl l2, rfl, by simp [Concurrent.Undisturbed], rfl,
    Nat.zero_le _, ?_, rfl, rfl⟩
  rw [ht]
  rfl

theorem sound_run {call : Call} {rule : Rule} {rs : List (Cls × Method × Cb)} {client : Nat} {evs : List Ev} {s : State}
    {h : List Act} {r : List Concurrent.Ev} {n : Nat} (k : Sound call rule rs client evs s h r n) :
    Sound call rule rs client (evs ++ [.run]) s h r n := by
  obtain ⟨k1, k2, k3, k4, k5, k6, k7, k8, k9, k10, k11⟩ := k
  exact ⟨k1, by rw [k2]; simp [heard], k3, k4, k5, k6, k7, k8, k9, by rw [k10]; simp [replies], k11⟩

theorem sound_select {call : Call} {rule : Rule} {rs : List (Cls × Method × Cb)} {client : Nat} {evs : List Ev} {s : State}
    {h : List Act} {r : List Concurrent.Ev} {n : Nat} {rd : Read} (hs : Sane (evs ++ [.select rd]))
    (k : Sound call rule rs client evs s h r n) :
    Sound call rule rs client (evs ++ [.select rd]) (s.step call rule (.select rd)) h r n := by
  obtain ⟨k1, k2, k3, k4, k5, k6, k7, k8, k9, k10, k11⟩ := k
  refine ⟨k1, ?_, ?_, ?_, k5, k6, k7, k8, ?_, ?_, ?_⟩
  · simp only [State.step]
    rw [toHear_append, ← List.append_assoc, k2]
    unfold heard
    rw [List.flatMap_append]
    cases rd <;> simp [toHear]
  · intro d hd
    rcases List.mem_append.1 hd with hd | hd
    · exact k3 d hd
    · have : rd = .listen d := by
        have := List.mem_singleton.1 hd
        injection this with this
        exact this.symm
      exact hs d (by rw [this]; simp)
  · simp only [State.step]
    rw [List.any_append]
    rcases k4 with k4 | k4
    · exact Or.inl k4
    · exact Or.inr (by rw [k4]; rfl)
  · simp only [State.step]
    rw [toBegin_append]
    simpa [toBegin] using k9
  · simp only [State.step]
    rw [toReply_append, ← List.append_assoc, k10]
    unfold replies
    rw [List.flatMap_append]
    cases rd <;> simp [toReply]
  · simp only [State.step]
    rw [toRead_append]
    simpa [toRead] using k11

/-- What holds after every history of well-formed packets. -/
theorem sound {call : Call} {rule : Rule} {rs : List (Cls × Method × Cb)} {client : Nat} {evs : List Ev} (hs : Sane evs) :
    ∃ h r n, Sound call rule rs client evs (run call rule rs client evs) h r n := by
  induction evs using List.reverseRecOn with
  | nil => exact ⟨_, _, _, sound_init call rule rs client⟩
  | append_singleton evs e ih =>
    obtain ⟨h, r, n, k⟩ := ih fun d hd => hs d (List.mem_append_left _ hd)
    rw [run_snoc]
    generalize run call rule rs client evs = s at k
    cases e with
    | run =>
      rcases hr : s.ready with _ | ⟨x, hs⟩
      · exact ⟨h, r, n, by simpa [State.step, hr] using sound_run k⟩
      · obtain ⟨h', r', n', k'', _⟩ := sound_handle hr (sound_run k)
        exact ⟨h', r', n', by simpa [State.step, hr] using k''⟩
    | select rd => exact ⟨h, r, n, sound_select hs k⟩

theorem handle_trace (call : Call) (rule : Rule) (s : State) (x : Handle) :
    s.events.base.trace <+: (s.handle call rule x).events.base.trace := by
  cases x with
  | read rd =>
    cases rd with
    | listen d =>
      simp only [State.handle, State.listen, Many.step, Events.State.step]
      split
      · split <;> exact List.prefix_refl _
      · exact List.prefix_refl _
    | answer ms =>
      simp only [State.handle]
      rw [answer_eq]
  | loop => exact resume_trace .upTo312 call s.events
  | task k =>
    simp only [State.handle]
    split <;> exact List.prefix_refl _
  | reader => exact List.prefix_refl _

end EventLoop
