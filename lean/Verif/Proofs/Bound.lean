import Verif.Proofs.Loops
import Verif.Proofs.Origin

/-! # Whose items there are, whatever the loops (for C85) -/

open Py Spec Events

theorem getItem_new {c : Nat} {who : Who} {wher : Tag} {s : Items} {k : Who × Str} {o : Obj} (h0 : s.cache.lookup k = none)
    (h1 : (getItem c who wher s).2.cache.lookup k = some o) : k = (who, wher.string) ∧ o.client = c := by
  rcases getItem_cases c who wher s with ⟨_, _, e⟩ | ⟨_, _, e⟩ | ⟨_, _, _, _, _, e⟩ | ⟨cl, i, hl, ht, hco, e⟩
  · rw [e, h0] at h1; cases h1
  · rw [e, h0] at h1; cases h1
  · rw [e, h0] at h1; cases h1
  · rw [e] at h1
    simp only [lookup_new] at h1
    split at h1
    · rename_i he; cases h1; exact ⟨he, rfl⟩
    · rw [h0] at h1; cases h1

theorem drain_new (py : Python) (call : Call) (q : List Msg) (s : State) (k : Who × Str) (o : Obj)
    (h0 : s.items.cache.lookup k = none) (h1 : (drain py call s q).items.cache.lookup k = some o) (hok : ItemsOk s.items) :
    o.client = s.client := by
  induction q generalizing s with
  | nil => rw [drain] at h1; rw [h0] at h1; cases h1
  | cons m q ih =>
    have hi : ItemsOk (handle py call s.client s.registry s.items m).2 := by
      rcases handle_items py call s.client s.registry s.items m with e | ⟨who, wher, e⟩
      · rw [e]; exact hok
      · rw [e]; exact getItem_ok hok
    have key : ∀ o', (handle py call s.client s.registry s.items m).2.cache.lookup k = some o' → o'.client = s.client := by
      intro o' h
      rcases handle_items py call s.client s.registry s.items m with e | ⟨who, wher, e⟩
      · rw [e, h0] at h; cases h
      · rw [e] at h; exact (getItem_new h0 h).2
    rw [drain] at h1
    rcases hh : handle py call s.client s.registry s.items m with ⟨e | ts, i⟩
    · rw [hh] at h1 key; exact key o h1
    · rw [hh] at h1 key hi
      dsimp only at h1 key hi
      cases ht : s.transport with
      | opened =>
        rw [ht] at h1
        dsimp only at h1
        rcases hn : i.cache.lookup k with _ | o'
        · exact ih { s with queue := q, items := i, trace := s.trace ++ ts, transport := .opened } hn h1 hi
        · have := (drain_frame py call q { s with queue := q, items := i, trace := s.trace ++ ts, transport := .opened } hi).2.1
            k o' hn
          rw [this] at h1; cases h1; exact key _ hn
      | closing => rw [ht] at h1; exact key o h1
      | gone => rw [ht] at h1; exact key o h1

theorem step_new {py : Python} {call : Call} {s : State} (hok : ItemsOk s.items) {st : Step} {k : Who × Str} {o : Obj}
    (h0 : s.items.cache.lookup k = none) (h1 : (s.step py call st).items.cache.lookup k = some o) :
    (∃ wher, st = .getItem k.1 wher o.client ∧ wher.string = k.2) ∨ ((st = .loop ∨ st = .resume) ∧ o.client = s.client) := by
  have old : (s.step py call st).items = s.items → False := fun e => by rw [e, h0] at h1; cases h1
  cases st with
  | packet d => exact (old (by unfold State.step; dsimp only; split; · split <;> rfl
                               · rfl)).elim
  | lost => exact (old (by unfold State.step; dsimp only; split <;> rfl)).elim
  | close => exact (old rfl).elim
  | register c m cb => exact (old (by unfold State.step; dsimp only; split <;> rfl)).elim
  | getItem who wher c =>
    obtain ⟨rfl, rfl⟩ := getItem_new h0 h1
    exact .inl ⟨wher, rfl, rfl⟩
  | loop =>
    refine .inr ⟨.inl rfl, ?_⟩
    rcases step_cases py call s .loop with e | ⟨_, _, e | ⟨who, wher, c, e⟩⟩
    · rw [e] at h1; exact drain_new py call _ _ _ _ h0 h1 hok
    · exact (old e).elim
    · unfold State.step State.start at old h1; dsimp only at old h1
      split at h1
      · split at h1
        · rw [h0] at h1; cases h1
        · split at h1
          · rw [h0] at h1; cases h1
          · rw [h0] at h1; cases h1
          · exact drain_new py call _ _ _ _ h0 h1 hok
      · rw [h0] at h1; cases h1
  | resume =>
    refine .inr ⟨.inr rfl, ?_⟩
    unfold State.step at h1; dsimp only at h1
    split at h1
    · exact drain_new py call _ _ _ _ h0 h1 hok
    · rw [h0] at h1; cases h1

theorem Spec.Runs.mono {h : List Act} {id client : Nat} (hr : Runs h id client) (h' : List Act) : Runs (h ++ h') id client := by
  obtain ⟨p, a, b⟩ := hr
  exact ⟨p, a.trans (List.prefix_append _ _), b⟩

/-- What the state of a loop says about the history. -/
def LoopOf (h : List Act) (id : Nat) : Loop → Prop
  | .none => ∀ c, .loop id c ∉ h
  | .called client _ => Runs h id client
  | .cancelled => True

theorem many_loops (py : Python) (call : Call) (session : Session) (h : List Act) :
    ∀ id, LoopOf h id (((Many.init session).run py call h).loops id) := by
  induction h using List.reverseRecOn with
  | nil => intro id c; simp
  | append_singleton h a ih =>
    rw [many_append]
    generalize (Many.init session).run py call h = m at ih
    change ∀ id, LoopOf (h ++ [a]) id ((m.step py call a).loops id)
    have mono : ∀ id, (∀ c, a ≠ .loop id c) → LoopOf (h ++ [a]) id (m.loops id) := by
      intro id ha
      have := ih id
      generalize m.loops id = l at this
      cases l with
      | none => intro c hc
                rcases List.mem_append.1 hc with hc | hc
                · exact this c hc
                · exact ha c (List.mem_singleton.1 hc).symm
      | called client t => exact Runs.mono this _
      | cancelled => trivial
    intro id
    cases a with
    | packet d => exact mono id (by simp)
    | lost => exact mono id (by simp)
    | close => exact mono id (by simp)
    | register c mt cb => exact mono id (by simp)
    | getItem who wher c => exact mono id (by simp)
    | loop j c =>
      by_cases e : id = j
      · subst e
        have hj := ih id
        unfold Many.step; dsimp only
        split
        · rename_i hn
          rw [hn] at hj
          unfold Many.turn; dsimp only
          rw [Function.update_self]
          exact ⟨h, List.prefix_refl _, hj⟩
        · rename_i hn
          generalize m.loops id = l at hj hn
          cases l with
          | none => exact absurd rfl hn
          | called c' t => exact Runs.mono hj _
          | cancelled => trivial
      · unfold Many.step; dsimp only
        have := mono id (by intro c' h'; cases h'; exact e rfl)
        split
        · unfold Many.turn; dsimp only; rwa [Function.update_of_ne e]
        · exact this
    | resume j =>
      have this := mono id (by simp)
      unfold Many.step; dsimp only
      split
      · rename_i c hj
        unfold Many.turn; dsimp only
        by_cases e : id = j
        · subst e; rw [hj] at this; rw [Function.update_self]; exact this
        · rwa [Function.update_of_ne e]
      · exact this
    | cancel j =>
      have this := mono id (by simp)
      unfold Many.step; dsimp only
      split
      · by_cases e : id = j
        · subst e; dsimp only; rw [Function.update_self]; trivial
        · dsimp only; rwa [Function.update_of_ne e]
      · exact this

/-- How an item came about. -/
theorem many_born (py : Python) (call : Call) (session : Session) (h : List Act) (k : Who × Str) (o : Obj)
    (hl : ((Many.init session).run py call h).base.items.cache.lookup k = some o) :
    ∃ h' a, h' ++ [a] <+: h ∧ ((Many.init session).run py call h').base.items.cache.lookup k = none ∧
      ((Many.init session).run py call (h' ++ [a])).base.items.cache.lookup k = some o ∧ DoneFor h' a k o.client := by
  induction h using List.reverseRecOn with
  | nil => simp [Many.run, Many.init, State.init, Items.init] at hl
  | append_singleton h a ih =>
    obtain ⟨_, kp⟩ := many_kept py call session h
    have lo := many_loops py call session h
    rcases h0 : ((Many.init session).run py call h).base.items.cache.lookup k with _ | o'
    · refine ⟨h, a, List.prefix_refl _, h0, hl, ?_⟩
      rw [many_append] at hl
      generalize (Many.init session).run py call h = m at h0 hl kp lo
      change (m.step py call a).base.items.cache.lookup k = some o at hl
      have hok := kp.inv.items
      have old : (m.step py call a).base.items = m.base.items → False := fun e => by rw [e, h0] at hl; cases hl
      have plain : ∀ st, (m.step py call a).base = m.base.step py call st → st ≠ .loop → st ≠ .resume →
          ∃ wher, st = .getItem k.1 wher o.client ∧ wher.string = k.2 := by
        intro st e h1 h2
        rw [e] at hl
        rcases step_new hok h0 hl with h | ⟨h | h, _⟩
        · exact h
        · exact absurd h h1
        · exact absurd h h2
      cases a with
      | packet d => obtain ⟨_, h, _⟩ := plain (.packet d) rfl (by simp) (by simp); cases h
      | lost => obtain ⟨_, h, _⟩ := plain .lost rfl (by simp) (by simp); cases h
      | close => obtain ⟨_, h, _⟩ := plain .close rfl (by simp) (by simp); cases h
      | register c mt cb => obtain ⟨_, h, _⟩ := plain (.register c mt cb) rfl (by simp) (by simp); cases h
      | getItem who wher c =>
        obtain ⟨w, h, h'⟩ := plain (.getItem who wher c) rfl (by simp) (by simp)
        cases h
        exact .inl ⟨_, rfl, h'⟩
      | loop id c =>
        have lo := lo id
        unfold Many.step at old hl; dsimp only at old hl
        split at hl
        · rename_i hn
          rw [hn] at lo
          unfold Many.turn at hl; dsimp only at hl
          rcases step_new (s := { m.base with task := .none, client := c }) hok h0 hl with ⟨_, h, _⟩ | ⟨_, hc⟩
          · cases h
          · change o.client = c at hc
            subst hc
            exact .inr ⟨id, ⟨h, List.prefix_refl _, lo⟩, .inl rfl⟩
        · rw [h0] at hl; cases hl
      | resume id =>
        have lo := lo id
        unfold Many.step at old hl; dsimp only at old hl
        split at hl
        · rename_i c hn
          rw [hn] at lo
          unfold Many.turn at hl; dsimp only at hl
          rcases step_new (s := { m.base with task := .waiting, client := c }) hok h0 hl with ⟨_, h, _⟩ | ⟨_, hc⟩
          · cases h
          · change o.client = c at hc
            subst hc
            exact .inr ⟨id, Runs.mono lo _, .inr rfl⟩
        · rw [h0] at hl; cases hl
      | cancel id =>
        refine (old ?_).elim
        unfold Many.step; dsimp only
        split <;> rfl
    · have keeps : Keeps ((Many.init session).run py call h).base.items
          ((Many.init session).run py call (h ++ [a])).base.items := by
        rw [many_append]
        generalize (Many.init session).run py call h = m at kp
        change Keeps m.base.items (m.step py call a).base.items
        have st : ∀ st, Keeps m.base.items (m.base.step py call st).items := fun st => step_keeps kp.inv st
        cases a with
        | packet d => exact st _
        | lost => exact st _
        | close => exact st _
        | register => exact st _
        | getItem => exact st _
        | loop id c =>
          unfold Many.step; dsimp only
          split
          · exact step_keeps (s := { m.base with task := .none, client := c }) (inv_congr kp.inv rfl rfl) .loop
          · exact Keeps.refl _
        | resume id =>
          unfold Many.step; dsimp only
          split
          · rename_i c _
            exact step_keeps (s := { m.base with task := .waiting, client := c }) (inv_congr kp.inv rfl rfl) .resume
          · exact Keeps.refl _
        | cancel id =>
          unfold Many.step; dsimp only
          split <;> exact Keeps.refl _
      have := keeps _ _ h0
      rw [this] at hl; cases hl
      obtain ⟨h', b, p, r⟩ := ih h0
      exact ⟨h', b, p.trans (List.prefix_append _ _), r⟩

/-- What a message starts gets the item of the message. -/
theorem begunIn_item {py : Python} {call : Call} {regs : Slot → List Cb} {i : Items} {m : Msg} {x : Start}
    (hx : x ∈ begunIn py call regs i m) : ∃ k, i.cache.lookup k = some x.item := by
  unfold begunIn at hx
  rcases hw : m.who with _ | who
  · rw [hw] at hx; cases py <;> simp at hx
  rcases hl : m.wher with _ | wher
  · rw [hw, hl] at hx; cases py <;> simp at hx
  rw [hw, hl] at hx
  cases py with
  | from313 => simp at hx
  | upTo312 =>
    dsimp only at hx
    rcases ho : i.cache.lookup (who, wher.string) with _ | o
    · rw [ho] at hx; simp at hx
    rw [ho] at hx
    dsimp only at hx
    unfold starts at hx
    rcases hf : firing m with _ | ⟨slot, args⟩
    · rw [hf] at hx; simp at hx
    rw [hf] at hx
    have hx := (List.takeWhile_prefix _).subset hx
    obtain ⟨cb, hcb, rfl⟩ := List.mem_map.1 hx
    exact ⟨_, ho⟩
