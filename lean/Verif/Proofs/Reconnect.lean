import Verif.Spec.Reconnect
import Verif.Proofs.Loops

/-! # Lemmas about a client that is started again -/

open Py Spec

namespace Events

/-- The same client with something that happened before. -/
def State.pre (old : List Start) (s : State) : State := { s with trace := old ++ s.trace }

theorem drain_pre (py : Python) (call : Call) (old : List Start) (q : List Msg) (s : State) :
    drain py call (s.pre old) q = (drain py call s q).pre old := by
  induction q generalizing s with
  | nil => rfl
  | cons m q ih =>
    rw [drain, drain]
    simp only [State.pre]
    rcases handle py call s.client s.registry s.items m with ⟨e | ts, i⟩
    · rfl
    · dsimp only
      cases s.transport with
      | opened =>
        dsimp only
        have := ih { s with queue := q, items := i, transport := .opened, trace := s.trace ++ ts }
        simpa only [State.pre, List.append_assoc] using this
      | closing => simp [State.pre, List.append_assoc]
      | gone => simp [State.pre, List.append_assoc]

theorem start_pre (py : Python) (call : Call) (old : List Start) (s : State) :
    (s.pre old).start py call = (s.start py call).pre old := by
  obtain ⟨se, tr, q, re, it, ta, cl, tc⟩ := s
  cases se <;> cases tr <;>
    first | exact drain_pre py call old q ⟨_, .opened, q, re, it, ta, cl, tc⟩ | rfl

theorem step_pre (py : Python) (call : Call) (old : List Start) (s : State) (st : Step) :
    (s.pre old).step py call st = (s.step py call st).pre old := by
  cases st with
  | packet d =>
    simp only [State.step, State.pre]
    rcases Protocol.dataReceived s.queue d with ⟨_ | _, q⟩ <;> by_cases h : s.transport = .opened <;> simp [h]
  | lost => simp only [State.step, State.pre]; by_cases h : s.transport = .opened <;> simp [h]
  | close => rfl
  | register c m cb =>
    simp only [State.step, State.pre]
    rcases Events.register c m cb s.registry with _ | _ <;> rfl
  | getItem => rfl
  | loop =>
    unfold State.step
    change (if s.task = .none then (s.pre old).start py call else s.pre old) = _
    dsimp only
    split
    · exact start_pre py call old s
    · rfl
  | resume =>
    unfold State.step
    change (if s.task = .waiting ∧ s.queue ≠ [] then drain py call (s.pre old) s.queue else s.pre old) = _
    dsimp only
    split
    · exact drain_pre py call old _ _
    · rfl

/-- The same clients, up to the ghost fields. -/
def Like (b b' : State) : Prop := b = { b' with task := b.task, client := b.client }

theorem Like.set {b b' : State} (h : Like b b') (t : Task) (c : Nat) :
    { b with task := t, client := c } = { b' with task := t, client := c } := by
  unfold Like at h; rw [h]

theorem like_of_eq {b b' : State} (h : b = b') : Like b b' := by subst h; rfl

/-- Steps other than those of a loop do not look at the ghost fields. -/
theorem like_step (py : Python) (call : Call) {b b' : State} (h : Like b b') {st : Step}
    (hs : st ≠ .loop ∧ st ≠ .resume) : Like (b.step py call st) (b'.step py call st) := by
  unfold Like at h
  rw [h]
  cases st with
  | packet d =>
    simp only [State.step, Like]
    rcases Protocol.dataReceived b'.queue d with ⟨_ | _, q⟩ <;> by_cases h : b'.transport = .opened <;> simp [h]
  | lost => simp only [State.step, Like]; by_cases h : b'.transport = .opened <;> simp [h]
  | close => rfl
  | register c m cb =>
    simp only [State.step, Like]
    rcases Events.register c m cb b'.registry with _ | _ <;> rfl
  | getItem => rfl
  | loop => exact absurd rfl hs.1
  | resume => exact absurd rfl hs.2

/-! ## What was there before is gone -/

/-- The `id`-th loop has ended, or waits for a former connection from which nothing comes any more. -/
def Stale (s : Again) (id : Nat) : Prop :=
  (s.loops id).1 ≠ .none ∧ ∀ client k, s.loops id = (.called client .waiting, k) → k < s.former.length ∧
    ∀ f, s.former[k]? = some f → f.up = false ∧ f.queue = []

/-- `t` is the new client `m` after `old` happened; the loops in `fresh` are those of `m`, the others are stale. -/
structure Sim (old : List Start) (fresh : Nat → Prop) (t : Again) (m : Many) : Prop where
  base : Like t.base (m.base.pre old)
  mine : ∀ id, fresh id → (t.loops id).1 = m.loops id ∧ (m.loops id ≠ .none → (t.loops id).2 = t.former.length)
  stale : ∀ id, ¬ fresh id → Stale t id ∧ m.loops id = .none

theorem Sim.other {old : List Start} {fresh : Nat → Prop} {t : Again} {m : Many} (h : Sim old fresh t m) (py : Python)
    (call : Call) {st : Step} (hs : st ≠ .loop ∧ st ≠ .resume) :
    Sim old fresh { t with base := t.base.step py call st } { m with base := m.base.step py call st } :=
  ⟨by
    have := like_step py call h.base hs
    rw [step_pre] at this
    exact this, h.mine, h.stale⟩

theorem Sim.turn {old : List Start} {fresh : Nat → Prop} {t : Again} {m : Many} (h : Sim old fresh t m) (py : Python)
    (call : Call) {id : Nat} (hi : fresh id) (client : Nat) (task : Task) (st : Step) :
    Sim old fresh (t.turn id client ({ t.base with task := task, client := client }.step py call st))
      (m.turn py call id client task st) := by
  have e : { t.base with task := task, client := client }.step py call st =
      ({ m.base with task := task, client := client }.step py call st).pre old := by
    rw [h.base.set, ← step_pre]; rfl
  refine ⟨?_, ?_, ?_⟩
  · exact like_of_eq e
  · intro j hj
    by_cases hji : j = id
    · subst hji
      simp only [Again.turn, Many.turn, Function.update_self]
      rw [e]
      exact ⟨rfl, fun _ => trivial⟩
    · simp only [Again.turn, Many.turn, Function.update_of_ne hji]
      exact h.mine j hj
  · intro j hj
    have hji : j ≠ id := fun e => hj (e ▸ hi)
    obtain ⟨a, b⟩ := h.stale j hj
    simp only [Stale, Again.turn, Many.turn, Function.update_of_ne hji]
    exact ⟨a, b⟩

/-- Former connections may still do something, as long as it does not concern the loops. -/
theorem Sim.former {old : List Start} {fresh : Nat → Prop} {t : Again} {m : Many} (h : Sim old fresh t m) {fs : List Former}
    (hl : fs.length = t.former.length)
    (hf : ∀ (k : Nat) (f : Former), t.former[k]? = some f → f.up = false ∧ f.queue = [] → ∀ f' : Former, fs[k]? = some f' → f'.up = false ∧ f'.queue = []) :
    Sim old fresh { t with former := fs } m := by
  refine ⟨h.base, fun id hi => ⟨(h.mine id hi).1, fun hn => ?_⟩, fun id hi => ⟨⟨(h.stale id hi).1.1, ?_⟩, (h.stale id hi).2⟩⟩
  · rw [(h.mine id hi).2 hn]; exact hl.symm
  · intro client k hk
    obtain ⟨a, b⟩ := (h.stale id hi).1.2 client k hk
    refine ⟨by rw [hl]; exact a, fun f' hf' => ?_⟩
    have hs : t.former[k]? = some t.former[k] := List.getElem?_eq_getElem a
    exact hf k _ hs (b _ hs) f' hf'

theorem Sim.step {old : List Start} {fresh : Nat → Prop} {t : Again} {m : Many} (h : Sim old fresh t m) (py : Python)
    (call : Call) (a : Act') (hs : a ≠ .start) (hl : ∀ id client, a = .act (.loop id client) → fresh id) :
    Sim old fresh (t.step py call a) ((acts [a]).foldl (Many.step py call) m) := by
  cases a with
  | act a =>
    change Sim old fresh _ (m.step py call a)
    cases a with
    | packet d => exact h.other py call (by simp)
    | lost => exact h.other py call (by simp)
    | close => exact h.other py call (by simp)
    | register => exact h.other py call (by simp)
    | getItem => exact h.other py call (by simp)
    | loop id client =>
      have hi := hl id client rfl
      obtain ⟨h1, h2⟩ := h.mine id hi
      unfold Again.step Many.step
      dsimp only
      rcases ht : t.loops id with ⟨l, k⟩
      rw [ht] at h1
      dsimp only at h1
      subst h1
      rcases hm : m.loops id with _ | ⟨c, ta⟩ | _
      · exact h.turn py call hi client .none .loop
      · exact h
      · exact h
    | resume id =>
      unfold Again.step Again.resume Many.step
      dsimp only
      by_cases hi : fresh id
      · obtain ⟨h1, h2⟩ := h.mine id hi
        rcases ht : t.loops id with ⟨l, k⟩
        rw [ht] at h1 h2
        dsimp only at h1 h2
        subst h1
        rcases hm : m.loops id with _ | ⟨c, _ | _ | _ | _⟩ | _ <;> try exact h
        dsimp only
        rw [hm] at h2
        rw [if_pos (h2 (by simp))]
        exact h.turn py call hi c .waiting .resume
      · obtain ⟨⟨h1, h2⟩, h3⟩ := h.stale id hi
        rw [h3]
        rcases ht : t.loops id with ⟨_ | ⟨c, _ | _ | _ | _⟩ | _, k⟩ <;> try exact h
        dsimp only
        obtain ⟨a, b⟩ := h2 c k ht
        rw [if_neg (by omega)]
        have hs : t.former[k]? = some t.former[k] := List.getElem?_eq_getElem a
        have hq := (b _ hs).2
        rw [hs]
        rcases hf : t.former[k] with ⟨up, q⟩
        rw [hf] at hq
        dsimp only at hq
        subst hq
        exact h
    | cancel id =>
      unfold Again.step Many.step
      dsimp only
      by_cases hi : fresh id
      · obtain ⟨h1, h2⟩ := h.mine id hi
        rcases ht : t.loops id with ⟨l, k⟩
        rw [ht] at h1 h2
        dsimp only at h1 h2
        subst h1
        rcases hm : m.loops id with _ | ⟨c, _ | _ | _ | _⟩ | _ <;> try exact h
        dsimp only
        refine ⟨h.base, fun j hj => ?_, fun j hj => ?_⟩
        · by_cases hji : j = id
          · subst hji
            rw [hm] at h2
            simp only [Function.update_self]
            exact ⟨trivial, fun _ => h2 (by simp)⟩
          · simp only [Function.update_of_ne hji]; exact h.mine j hj
        · have hji : j ≠ id := fun e => hj (e ▸ hi)
          simp only [Stale, Function.update_of_ne hji]; exact h.stale j hj
      · obtain ⟨⟨h1, h2⟩, h3⟩ := h.stale id hi
        rw [h3]
        rcases ht : t.loops id with ⟨_ | ⟨c, _ | _ | _ | _⟩ | _, k⟩ <;> try exact h
        dsimp only
        refine ⟨h.base, fun j hj => ?_, fun j hj => ?_⟩
        · have hji : j ≠ id := fun e => hi (e ▸ hj)
          simp only [Function.update_of_ne hji]; exact h.mine j hj
        · by_cases hji : j = id
          · subst hji
            simp only [Stale, Function.update_self]
            exact ⟨⟨by simp, by simp⟩, h3⟩
          · simp only [Stale, Function.update_of_ne hji]; exact h.stale j hj
  | packet k d =>
    change Sim old fresh _ m
    unfold Again.step
    dsimp only
    rcases hk : t.former[k]? with _ | ⟨_ | _, q⟩ <;> try exact h
    dsimp only
    have key : ∀ g : Former, Sim old fresh { t with former := t.former.set k g } m := by
      intro g
      refine h.former (by simp) ?_
      intro j f hj hd f' hf'
      by_cases hjk : k = j
      · subst hjk; rw [hk] at hj; cases hj; simp at hd
      · rw [List.getElem?_set_ne hjk, hj] at hf'; cases hf'; exact hd
    rcases Protocol.dataReceived q d with ⟨_ | _, q'⟩
    · exact key _
    · exact key _
  | lost k =>
    change Sim old fresh _ m
    unfold Again.step
    dsimp only
    rcases hk : t.former[k]? with _ | g
    · exact h
    · refine h.former (by simp) ?_
      intro j f hj hd f' hf'
      by_cases hjk : k = j
      · subst hjk
        rw [hk] at hj; cases hj
        have hlt : k < t.former.length := (List.getElem?_eq_some_iff.1 hk).1
        rw [List.getElem?_set_self hlt] at hf'; cases hf'
        exact ⟨rfl, hd.2⟩
      · rw [List.getElem?_set_ne hjk, hj] at hf'; cases hf'; exact hd
  | start => exact absurd rfl hs

theorem acts_cons (a : Act') (h : List Act') : acts (a :: h) = acts [a] ++ acts h := by
  cases a <;> simp [acts]

theorem acts_append (h h' : List Act') : acts (h ++ h') = acts h ++ acts h' := List.filterMap_append ..

theorem Sim.run {old : List Start} {fresh : Nat → Prop} {t : Again} {m : Many} (h : Sim old fresh t m) (py : Python)
    (call : Call) (h' : List Act') (hs : Act'.start ∉ h') (hl : ∀ id, Calls (acts h') id → fresh id) :
    Sim old fresh (t.run py call h') (m.run py call (acts h')) := by
  induction h' generalizing t m with
  | nil => exact h
  | cons a h' ih =>
    rw [acts_cons]
    unfold Again.run Many.run
    rw [List.foldl_cons, List.foldl_append]
    refine ih (h.step py call a (fun e => hs (by simp [e])) ?_) (fun e => hs (by simp [e])) ?_
    · intro id client e
      exact hl id ⟨client, by subst e; simp [acts]⟩
    · rintro id ⟨client, hm⟩
      exact hl id ⟨client, by rw [acts_cons]; exact List.mem_append_right _ hm⟩

/-! ## What is kept -/

theorem drain_prepares (py : Python) (call : Call) (q : List Msg) (s : State) :
    ∃ g : List (Who × Tag × Nat), (drain py call s q).items = g.foldl (fun i x => (getItem x.2.2 x.1 x.2.1 i).2) s.items ∧
      (drain py call s q).registry = s.registry ∧ (drain py call s q).session = s.session := by
  induction q generalizing s with
  | nil => exact ⟨[], rfl, rfl, rfl⟩
  | cons m q ih =>
    have one : ∃ g : List (Who × Tag × Nat), (handle py call s.client s.registry s.items m).2 =
        g.foldl (fun i x => (getItem x.2.2 x.1 x.2.1 i).2) s.items := by
      rcases handle_items py call s.client s.registry s.items m with e | ⟨who, wher, e⟩
      · exact ⟨[], e⟩
      · exact ⟨[(who, wher, s.client)], e⟩
    obtain ⟨g, hg⟩ := one
    rw [drain]
    rcases hh : handle py call s.client s.registry s.items m with ⟨e | ts, i⟩
    · rw [hh] at hg; exact ⟨g, hg, rfl, rfl⟩
    · rw [hh] at hg
      dsimp only at hg ⊢
      cases s.transport with
      | opened =>
        obtain ⟨g', h1, h2⟩ := ih { s with queue := q, items := i, transport := .opened, trace := s.trace ++ ts }
        refine ⟨g ++ g', ?_, h2⟩
        rw [List.foldl_append, ← hg]; exact h1
      | closing => exact ⟨g, hg, rfl, rfl⟩
      | gone => exact ⟨g, hg, rfl, rfl⟩

/-- `m` is a new client with the items and callbacks of `s`. -/
structure Prepared (s : Again) (m : Many) : Prop where
  items : m.base.items = s.base.items
  registry : m.base.registry = s.base.registry
  session : m.base.session = s.base.session
  transport : m.base.transport = .opened
  queue : m.base.queue = []
  trace : m.base.trace = []
  loops : ∀ id, m.loops id = .none

theorem many_run_append (py : Python) (call : Call) (m : Many) (g g' : List Act) :
    m.run py call (g ++ g') = (m.run py call g).run py call g' := List.foldl_append ..

theorem again_run_append (py : Python) (call : Call) (s : Again) (h h' : List Act') :
    s.run py call (h ++ h') = (s.run py call h).run py call h' := List.foldl_append ..

/-- Asking for items prepares. -/
theorem prepared_items (py : Python) (call : Call) {s s' : Again} {m : Many} (h : Prepared s m) (g : List (Who × Tag × Nat))
    (hi : s'.base.items = g.foldl (fun i x => (getItem x.2.2 x.1 x.2.1 i).2) s.base.items)
    (hr : s'.base.registry = s.base.registry) (hs : s'.base.session = s.base.session) :
    ∃ g : List Act, (∀ a ∈ g, Prepares a) ∧ registrations g = [] ∧ Prepared s' (m.run py call g) := by
  refine ⟨g.map fun x => .getItem x.1 x.2.1 x.2.2, ?_, ?_, ?_⟩
  · intro a ha
    obtain ⟨x, _, rfl⟩ := List.mem_map.1 ha
    exact .inr ⟨_, _, _, rfl⟩
  · unfold registrations
    rw [List.filter_eq_nil_iff]
    intro a ha
    obtain ⟨x, _, rfl⟩ := List.mem_map.1 ha
    simp
  · induction g generalizing m s with
    | nil => exact ⟨h.items.trans hi.symm, h.registry.trans hr.symm, h.session.trans hs.symm, h.transport, h.queue, h.trace, h.loops⟩
    | cons x g ih =>
      exact ih (s := { s with base := { s.base with items := (getItem x.2.2 x.1 x.2.1 s.base.items).2 } })
        (m := m.step py call (.getItem x.1 x.2.1 x.2.2))
        ⟨by simp only [Many.step, State.step, h.items], h.registry, h.session, h.transport, h.queue, h.trace, h.loops⟩ hi hr hs

theorem prepared_step (py : Python) (call : Call) {s : Again} {m : Many} (h : Prepared s m) (a : Act') :
    ∃ g : List Act, (∀ a ∈ g, Prepares a) ∧ registrations g = registrations (acts [a]) ∧
      Prepared (s.step py call a) (m.run py call g) := by
  have same : ∀ s' : Again, s'.base.items = s.base.items → s'.base.registry = s.base.registry →
      s'.base.session = s.base.session →
      ∃ g : List Act, (∀ a ∈ g, Prepares a) ∧ registrations g = [] ∧ Prepared s' (m.run py call g) :=
    fun s' e1 e2 e3 => prepared_items py call h [] e1 e2 e3
  have drained : ∀ (s' : Again) (b : State) (q : List Msg), s'.base = drain py call b q → b.items = s.base.items →
      b.registry = s.base.registry → b.session = s.base.session →
      ∃ g : List Act, (∀ a ∈ g, Prepares a) ∧ registrations g = [] ∧ Prepared s' (m.run py call g) := by
    intro s' b q e e1 e2 e3
    obtain ⟨g, h1, h2, h3⟩ := drain_prepares py call q b
    refine prepared_items py call h g ?_ ?_ ?_
    · rw [e, h1, e1]
    · rw [e, h2, e2]
    · rw [e, h3, e3]
  cases a with
  | act a =>
    cases a with
    | packet d =>
      refine same _ ?_ ?_ ?_ <;> simp only [Again.step, State.step] <;> split <;>
        first | rfl | (rcases Protocol.dataReceived s.base.queue d with ⟨_ | _, q⟩ <;> rfl)
    | lost => refine same _ ?_ ?_ ?_ <;> simp only [Again.step, State.step] <;> split <;> rfl
    | close => exact same _ rfl rfl rfl
    | register c me cb =>
      refine ⟨[.register c me cb], ?_, rfl, ?_⟩
      · intro a ha
        rw [List.mem_singleton] at ha
        exact .inl ⟨_, _, _, ha⟩
      · change Prepared (s.step py call (.act (.register c me cb))) (m.step py call (.register c me cb))
        simp only [Again.step, Many.step, State.step]
        rw [h.registry]
        rcases Events.register c me cb s.base.registry with _ | r
        · exact ⟨h.items, h.registry, h.session, h.transport, h.queue, h.trace, h.loops⟩
        · exact ⟨h.items, rfl, h.session, h.transport, h.queue, h.trace, h.loops⟩
    | getItem who wher client => exact prepared_items py call h [(who, wher, client)] rfl rfl rfl
    | loop id client =>
      simp only [Again.step]
      rcases s.loops id with ⟨_ | ⟨c, t⟩ | _, k⟩
      · dsimp only [Again.turn]
        simp only [State.step, if_true, State.start]
        by_cases hs : s.base.session ≠ .event
        · simp only [if_pos hs]; exact same _ rfl rfl rfl
        · simp only [if_neg hs]
          rcases ht : s.base.transport with _ | _ | _
          all_goals dsimp only
          · exact drained _ _ _ rfl rfl rfl rfl
          · exact same _ rfl rfl rfl
          · exact same _ rfl rfl rfl
      · exact same _ rfl rfl rfl
      · exact same _ rfl rfl rfl
    | resume id =>
      simp only [Again.step, Again.resume]
      rcases s.loops id with ⟨_ | ⟨c, _ | _ | _ | _⟩ | _, k⟩ <;> try exact same _ rfl rfl rfl
      dsimp only
      split
      · simp only [State.step]
        split
        · exact drained _ _ _ rfl rfl rfl rfl
        · exact same _ rfl rfl rfl
      · rcases s.former[k]? with _ | ⟨up, _ | ⟨mm, q⟩⟩
        · exact same _ rfl rfl rfl
        · exact same _ rfl rfl rfl
        · exact drained _ _ _ rfl rfl rfl rfl
    | cancel id =>
      simp only [Again.step]
      rcases s.loops id with ⟨_ | ⟨c, _ | _ | _ | _⟩ | _, k⟩ <;> exact same _ rfl rfl rfl
  | packet k d =>
    simp only [Again.step]
    rcases s.former[k]? with _ | ⟨_ | _, q⟩ <;> try exact same _ rfl rfl rfl
    dsimp only
    rcases Protocol.dataReceived q d with ⟨_ | _, q'⟩ <;> exact same _ rfl rfl rfl
  | lost k =>
    simp only [Again.step]
    rcases s.former[k]? with _ | _ <;> exact same _ rfl rfl rfl
  | start => exact same _ rfl rfl rfl

theorem prepared_run (py : Python) (call : Call) {s : Again} {m : Many} (h : Prepared s m) (as : List Act') :
    ∃ g : List Act, (∀ a ∈ g, Prepares a) ∧ registrations g = registrations (acts as) ∧
      Prepared (s.run py call as) (m.run py call g) := by
  induction as generalizing s m with
  | nil => exact ⟨[], by simp, rfl, h⟩
  | cons a as ih =>
    obtain ⟨g, h1, h2, h3⟩ := prepared_step py call h a
    obtain ⟨g', h1', h2', h3'⟩ := ih h3
    refine ⟨g ++ g', ?_, ?_, ?_⟩
    · intro b hb
      rcases List.mem_append.1 hb with hb | hb
      · exact h1 b hb
      · exact h1' b hb
    · rw [acts_cons]
      unfold registrations at *
      rw [List.filter_append, List.filter_append, h2, h2']
    · rw [many_run_append]; exact h3'

/-! ## Which connection a loop waits for -/

/-- A loop is known when it has been called, and waits for a connection there is. -/
structure Known (s : Again) (called : Nat → Prop) : Prop where
  called : ∀ id, (s.loops id).1 ≠ .none ↔ called id
  number : ∀ id, (s.loops id).1 ≠ .none → (s.loops id).2 ≤ s.former.length

theorem known_step (py : Python) (call : Call) {s : Again} {p : Nat → Prop} (h : Known s p) (a : Act') :
    Known (s.step py call a) fun id => p id ∨ Calls (acts [a]) id := by
  have calls : ∀ b : Act', (∀ id client, b ≠ .act (.loop id client)) → ∀ id, ¬ Calls (acts [b]) id := by
    rintro b hb id ⟨client, hm⟩
    cases b with
    | act b =>
      have hm : Act.loop id client ∈ [b] := hm
      exact hb id client (by rw [List.mem_singleton.1 hm])
    | _ => simp [acts] at hm
  have same : ∀ s' : Again, s'.loops = s.loops → s.former.length ≤ s'.former.length → (∀ id client, a ≠ .act (.loop id client)) →
      Known s' fun id => p id ∨ Calls (acts [a]) id := by
    intro s' e1 e2 e3
    refine ⟨fun id => ?_, fun id hi => ?_⟩
    · rw [e1, h.called]; exact ⟨.inl, fun x => x.resolve_right (calls a e3 id)⟩
    · rw [e1] at hi ⊢; exact (h.number id hi).trans e2
  have set : ∀ (s' : Again) (i : Nat) (l : Loop) (k : Nat), s'.loops = Function.update s.loops i (l, k) → l ≠ .none →
      s'.former.length = s.former.length → k ≤ s.former.length → (∀ id, p id ∨ Calls (acts [a]) id ↔ p id ∨ id = i) →
      Known s' fun id => p id ∨ Calls (acts [a]) id := by
    intro s' i l k e1 e2 e3 e4 e5
    refine ⟨fun id => ?_, fun id hi => ?_⟩
    · rw [e5, e1]
      by_cases hid : id = i
      · subst hid; simp [e2]
      · simp only [Function.update_of_ne hid, hid, or_false]; exact h.called id
    · rw [e1] at hi ⊢
      rw [e3]
      by_cases hid : id = i
      · subst hid; simpa using e4
      · simp only [Function.update_of_ne hid] at hi ⊢; exact h.number id hi
  cases a with
  | act a =>
    cases a with
    | packet d => exact same _ rfl le_rfl (by simp)
    | lost => exact same _ rfl le_rfl (by simp)
    | close => exact same _ rfl le_rfl (by simp)
    | register => exact same _ rfl le_rfl (by simp)
    | getItem => exact same _ rfl le_rfl (by simp)
    | loop i client =>
      have e5 : ∀ id, p id ∨ Calls (acts [.act (.loop i client)]) id ↔ p id ∨ id = i := by
        intro id
        refine or_congr_right ⟨?_, ?_⟩
        · rintro ⟨c, hc⟩
          have hc : Act.loop id c ∈ [Act.loop i client] := hc
          rw [List.mem_singleton, Act.loop.injEq] at hc
          exact hc.1
        · rintro rfl; exact ⟨client, by simp [acts]⟩
      simp only [Again.step]
      rcases hl : s.loops i with ⟨l, k⟩
      have known : l ≠ .none → Known s fun id => p id ∨ Calls (acts [.act (.loop i client)]) id := by
        intro hne
        have hp : p i := (h.called i).1 (by rw [hl]; exact hne)
        refine ⟨fun id => ?_, h.number⟩
        rw [e5, h.called]
        exact ⟨.inl, fun x => x.elim (fun y => y) fun e => e ▸ hp⟩
      cases l with
      | none => exact set _ i _ _ rfl (by simp) rfl le_rfl e5
      | called => exact known (by simp)
      | cancelled => exact known (by simp)
    | resume i =>
      simp only [Again.step, Again.resume]
      rcases hl : s.loops i with ⟨_ | ⟨c, _ | _ | _ | _⟩ | _, k⟩ <;> try exact same _ rfl le_rfl (by simp)
      have hp : p i := (h.called i).1 (by rw [hl]; simp)
      have e5 : ∀ id, p id ∨ Calls (acts [.act (.resume i)]) id ↔ p id ∨ id = i := by
        intro id
        exact ⟨fun x => .inl (x.resolve_right (calls _ (by simp) id)), fun x => .inl (x.elim (fun y => y) fun e => e ▸ hp)⟩
      dsimp only
      split
      · exact set _ i _ _ rfl (by simp) rfl le_rfl e5
      · rcases s.former[k]? with _ | ⟨up, _ | ⟨mm, q⟩⟩
        · exact same _ rfl le_rfl (by simp)
        · exact same _ rfl le_rfl (by simp)
        · exact set _ i _ _ rfl (by simp) (by simp [Again.turn]) (by simp) e5
    | cancel i =>
      simp only [Again.step]
      rcases hl : s.loops i with ⟨_ | ⟨c, _ | _ | _ | _⟩ | _, k⟩ <;> try exact same _ rfl le_rfl (by simp)
      have hp : p i := (h.called i).1 (by rw [hl]; simp)
      have e5 : ∀ id, p id ∨ Calls (acts [.act (.cancel i)]) id ↔ p id ∨ id = i := by
        intro id
        exact ⟨fun x => .inl (x.resolve_right (calls _ (by simp) id)), fun x => .inl (x.elim (fun y => y) fun e => e ▸ hp)⟩
      have := h.number i (by rw [hl]; simp)
      rw [hl] at this
      exact set _ i _ _ rfl (by simp) rfl this e5
  | packet k d =>
    simp only [Again.step]
    rcases s.former[k]? with _ | ⟨_ | _, q⟩ <;> try exact same _ rfl le_rfl (by simp)
    dsimp only
    rcases Protocol.dataReceived q d with ⟨_ | _, q'⟩ <;> exact same _ rfl (by simp) (by simp)
  | lost k =>
    simp only [Again.step]
    rcases s.former[k]? with _ | _ <;> exact same _ rfl (by simp) (by simp)
  | start => exact same _ rfl (by simp [Again.step]) (by simp)

theorem known_run (py : Python) (call : Call) {s : Again} {p : Nat → Prop} (h : Known s p) (as : List Act') :
    Known (s.run py call as) fun id => p id ∨ Calls (acts as) id := by
  induction as generalizing s p with
  | nil =>
    refine ⟨fun id => ?_, h.number⟩
    change (s.loops id).1 ≠ .none ↔ _
    rw [h.called]
    exact ⟨.inl, fun x => x.elim (fun y => y) fun ⟨c, hc⟩ => by simp [acts] at hc⟩
  | cons a as ih =>
    have := ih (known_step py call h a)
    refine ⟨fun id => ?_, this.number⟩
    change ((Again.run py call (s.step py call a) as).loops id).1 ≠ .none ↔ _
    rw [this.called, acts_cons a as]
    simp only [Calls, List.mem_append, exists_or, or_assoc]

theorem known_init (py : Python) (call : Call) (session : Session) (h : List Act') :
    Known ((Again.init session).run py call h) (Calls (acts h)) := by
  have := known_run py call (s := .init session) (p := fun _ => False) ⟨fun id => by simp [Again.init], fun id => by simp [Again.init]⟩ h
  simpa only [false_or] using this

/-! ## The start -/

theorem sim_start (py : Python) (call : Call) {s : Again} {m : Many} {p : Nat → Prop} (hp : Prepared s m) (hk : Known s p)
    (he : Ended s) : Sim s.base.trace (fun id => ¬ p id) (s.step py call .start) m := by
  refine ⟨?_, fun id hi => ?_, fun id hi => ⟨⟨?_, fun client k hl => ?_⟩, hp.loops id⟩⟩
  · simp only [Again.step, Like, State.pre, hp.items, hp.registry, hp.session, hp.transport, hp.queue, hp.trace,
      List.append_nil]
  · have : (s.loops id).1 = .none := by
      by_contra hn
      exact hi ((hk.called id).1 hn)
    exact ⟨this.trans (hp.loops id).symm, fun hn => absurd (hp.loops id) hn⟩
  · exact (hk.called id).2 (not_not.1 hi)
  · change s.loops id = _ at hl
    have hn := hk.number id (by rw [hl]; simp)
    rw [hl] at hn
    obtain ⟨a, b⟩ := he id client k hl
    simp only [Again.step, List.length_append, List.length_singleton]
    refine ⟨by dsimp only at hn; omega, fun f hf => ?_⟩
    rcases lt_or_eq_of_le hn with hn | hn
    · rw [List.getElem?_append_left hn] at hf
      exact b f hf
    · dsimp only at hn
      subst hn
      rw [List.getElem?_concat_length] at hf
      cases hf
      obtain ⟨a1, a2⟩ := a rfl
      exact ⟨by simpa using a1, a2⟩

/-! ## Nobody listens -/

theorem many_quiet (py : Python) (call : Call) {m : Many} (hn : ∀ id, m.loops id = .none) (g : List Act)
    (hc : ∀ id, ¬ Calls g id) : (m.run py call g).base.trace = m.base.trace ∧ ∀ id, (m.run py call g).loops id = .none := by
  induction g generalizing m with
  | nil => exact ⟨rfl, hn⟩
  | cons a g ih =>
    have hc' : ∀ id, ¬ Calls g id := fun id ⟨c, h⟩ => hc id ⟨c, List.mem_cons_of_mem _ h⟩
    have step : (m.step py call a).base.trace = m.base.trace ∧ ∀ id, (m.step py call a).loops id = .none := by
      cases a with
      | packet d =>
        refine ⟨?_, hn⟩
        simp only [Many.step, State.step]; split
        · rcases Protocol.dataReceived m.base.queue d with ⟨_ | _, q⟩ <;> rfl
        · rfl
      | lost => refine ⟨?_, hn⟩; simp only [Many.step, State.step]; split <;> rfl
      | close => exact ⟨rfl, hn⟩
      | register c me cb =>
        refine ⟨?_, hn⟩
        simp only [Many.step, State.step]
        rcases Events.register c me cb m.base.registry with _ | _ <;> rfl
      | getItem => exact ⟨rfl, hn⟩
      | loop id client => exact absurd ⟨client, List.mem_cons_self⟩ (hc id)
      | resume id => simp only [Many.step, hn id]; exact ⟨trivial, hn⟩
      | cancel id => simp only [Many.step, hn id]; exact ⟨trivial, hn⟩
    obtain ⟨h1, h2⟩ := ih step.2 hc'
    exact ⟨h1.trans step.1, h2⟩

/-! ## A connection that nobody waits for -/

/-- Nobody waits for the former connection `k`, which has these messages. -/
structure Left (s : Again) (k : Nat) (q : List Msg) : Prop where
  nobody : ∀ id client, s.loops id ≠ (.called client .waiting, k)
  there : ∃ f, s.former[k]? = some f ∧ q <+: f.queue

theorem left_lt {s : Again} {k : Nat} {q : List Msg} (h : Left s k q) : k < s.former.length := by
  obtain ⟨f, hf, _⟩ := h.there
  exact (List.getElem?_eq_some_iff.1 hf).1

theorem dataReceived_prefix (q : List Msg) (d : List UInt8) : q <+: (Protocol.dataReceived q d).2 := by
  unfold Protocol.dataReceived
  rcases Protocol.packetMessages d with _ | ms
  · exact List.prefix_refl _
  · exact List.prefix_append _ _

theorem left_step (py : Python) (call : Call) {s : Again} {k : Nat} {q : List Msg} (h : Left s k q) (a : Act') :
    Left (s.step py call a) k q := by
  have hlt := left_lt h
  have same : ∀ s' : Again, s'.loops = s.loops → s'.former = s.former → Left s' k q := by
    intro s' e1 e2
    exact ⟨by rw [e1]; exact h.nobody, by rw [e2]; exact h.there⟩
  have former : ∀ (s' : Again) (i : Nat) (f g : Former), s.former[i]? = some f → f.queue <+: g.queue → s'.loops = s.loops →
      s'.former = s.former.set i g → Left s' k q := by
    intro s' i f g hi hq e1 e2
    refine ⟨by rw [e1]; exact h.nobody, ?_⟩
    rw [e2]
    obtain ⟨f', hf', hp⟩ := h.there
    by_cases hik : i = k
    · subst hik
      rw [hi] at hf'; cases hf'
      exact ⟨g, List.getElem?_set_self hlt, hp.trans hq⟩
    · exact ⟨f', by rw [List.getElem?_set_ne hik]; exact hf', hp⟩
  have turn : ∀ (s' : Again) (i : Nat) (l : Loop × Nat), s'.loops = Function.update s.loops i l → l.2 = s.former.length →
      s'.former[k]? = s.former[k]? → Left s' k q := by
    intro s' i l e1 e2 e3
    refine ⟨?_, by rw [e3]; exact h.there⟩
    intro id client
    rw [e1]
    by_cases hid : id = i
    · subst hid
      rw [Function.update_self]
      intro e
      rw [e] at e2
      dsimp only at e2
      omega
    · rw [Function.update_of_ne hid]; exact h.nobody id client
  cases a with
  | act a =>
    cases a with
    | packet d => exact same _ rfl rfl
    | lost => exact same _ rfl rfl
    | close => exact same _ rfl rfl
    | register => exact same _ rfl rfl
    | getItem => exact same _ rfl rfl
    | loop i client =>
      simp only [Again.step]
      rcases s.loops i with ⟨_ | ⟨c, t⟩ | _, j⟩
      · exact turn _ i _ rfl rfl rfl
      · exact same _ rfl rfl
      · exact same _ rfl rfl
    | resume i =>
      simp only [Again.step, Again.resume]
      rcases hl : s.loops i with ⟨_ | ⟨c, _ | _ | _ | _⟩ | _, j⟩ <;> try exact same _ rfl rfl
      dsimp only
      have hjk : j ≠ k := fun e => h.nobody i c (by rw [hl, e])
      split
      · exact turn _ i _ rfl rfl rfl
      · rcases s.former[j]? with _ | ⟨up, _ | ⟨mm, q'⟩⟩
        · exact same _ rfl rfl
        · exact same _ rfl rfl
        · dsimp only
          refine turn _ i _ rfl ?_ ?_
          · simp
          · exact List.getElem?_set_ne hjk
    | cancel i =>
      simp only [Again.step]
      rcases hl : s.loops i with ⟨_ | ⟨c, _ | _ | _ | _⟩ | _, j⟩ <;> try exact same _ rfl rfl
      dsimp only
      refine ⟨?_, h.there⟩
      intro id client
      by_cases hid : id = i
      · subst hid; simp
      · simp only [Function.update_of_ne hid]; exact h.nobody id client
  | packet i d =>
    simp only [Again.step]
    rcases hi : s.former[i]? with _ | ⟨_ | _, q'⟩ <;> try exact same _ rfl rfl
    dsimp only
    have hp := dataReceived_prefix q' d
    rcases he : Protocol.dataReceived q' d with ⟨_ | _, q''⟩ <;> rw [he] at hp <;> exact former _ i _ _ hi hp rfl rfl
  | lost i =>
    simp only [Again.step]
    rcases hi : s.former[i]? with _ | f
    · exact same _ rfl rfl
    · exact former _ i f ⟨false, f.queue⟩ hi (List.prefix_refl _) rfl rfl
  | start =>
    refine ⟨h.nobody, ?_⟩
    obtain ⟨f, hf, hp⟩ := h.there
    exact ⟨f, by simp only [Again.step]; rw [List.getElem?_append_left hlt]; exact hf, hp⟩

theorem left_run (py : Python) (call : Call) {s : Again} {k : Nat} {q : List Msg} (h : Left s k q) (as : List Act') :
    Left (s.run py call as) k q := by
  induction as generalizing s with
  | nil => exact h
  | cons a as ih => exact ih (left_step py call h a)

end Events
