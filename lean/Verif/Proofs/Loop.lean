import Verif.Proofs.Firing

/-! # Lemmas about the event loop -/

open Py Spec

namespace Events

/-! ## Received messages -/

theorem parse_clean {s : Str} {m : Msg} (h : parseMessage s = .ok m) : Clean m := by
  obtain ⟨ts, hf, hr⟩ := (parseMessage_ok_iff s m).mp h
  have ht := hf.2.1
  have tags : ∀ vs : List Str, (∀ t ∈ vs, TagText t) → ∀ v ∈ vs.map Tag.mk, TagText v.string := by
    intro vs h v hv
    obtain ⟨t, h1, rfl⟩ := List.mem_map.1 hv
    exact h t h1
  cases hr with
  | ack => trivial
  | nack => trivial
  | generic => trivial
  | normal => exact ⟨ht _ (by simp), ht _ (by simp)⟩
  | status => exact ht _ (by simp)
  | dimReq => exact ⟨ht _ (by simp), ht _ (by simp)⟩
  | dimWrite =>
    exact ⟨ht _ (by simp), TagText.cons_hash.1 (ht ('#' :: _) (by simp)), tags _ fun t h => ht t (by simp [h])⟩
  | dimResp => exact ⟨ht _ (by simp), ht _ (by simp), tags _ fun t h => ht t (by simp [h])⟩
  | dimRespHash =>
    exact ⟨ht _ (by simp), TagText.cons_hash.1 (ht ('#' :: _) (by simp)), tags _ fun t h => ht t (by simp [h])⟩

theorem pieces_clean {ps : List Str} {ms : List Msg} (h : Protocol.parsePieces ps = .ok ms) : ∀ m ∈ ms, Clean m := by
  induction ps generalizing ms with
  | nil => cases h; simp
  | cons p ps ih =>
    unfold Protocol.parsePieces at h
    split at h
    · exact ih h
    · rcases h1 : parseMessage (p ++ cs!"##") with e | m1
      · rw [h1] at h; cases h
      · rcases h2 : Protocol.parsePieces ps with e | ms1
        · rw [h1, h2] at h; cases h
        · rw [h1, h2] at h; cases h
          intro m hm
          rcases List.mem_cons.1 hm with rfl | hm
          · exact parse_clean h1
          · exact ih h2 m hm

theorem packet_clean {d : List UInt8} {ms : List Msg} (h : Protocol.packetMessages d = .ok ms) : ∀ m ∈ ms, Clean m := by
  unfold Protocol.packetMessages at h
  rcases h1 : Protocol.decodeAscii d with e | t
  · rw [h1] at h; cases h
  · rw [h1] at h; exact pieces_clean h

theorem received_clean {q : List Msg} {d : List UInt8} (h : ∀ m ∈ q, Clean m) :
    ∀ m ∈ (Protocol.dataReceived q d).2, Clean m := by
  unfold Protocol.dataReceived
  rcases h1 : Protocol.packetMessages d with e | ms
  · exact h
  · intro m hm
    rcases List.mem_append.1 hm with hm | hm
    · exact h m hm
    · exact packet_clean h1 m hm

/-! ## Handling one message -/

theorem who_wher (m : Msg) : m.who = none ∧ m.wher = none ∧ (m = .ack ∨ m = .nack ∨ ∃ ts, m = .generic ts) ∨
    ∃ who wher, m.who = some who ∧ m.wher = some wher ∧ m.type ≠ .ack ∧ m.type ≠ .nack ∧ m.type ≠ .generic := by
  cases m with
  | ack => exact .inl ⟨rfl, rfl, .inl rfl⟩
  | nack => exact .inl ⟨rfl, rfl, .inr (.inl rfl)⟩
  | generic ts => exact .inl ⟨rfl, rfl, .inr (.inr ⟨ts, rfl⟩)⟩
  | normal | status | dimReq | dimWrite | dimResp =>
    exact .inr ⟨_, _, rfl, rfl, by simp [Msg.type], by simp [Msg.type], by simp [Msg.type]⟩

theorem handle_item {py : Python} {call : Call} {client : Nat} {r : Registry} {s : Items} {m : Msg} {who : Who} {wher : Tag}
    (h1 : m.who = some who) (h2 : m.wher = some wher) :
    handle py call client r s m = match getItem client who wher s with
      | (.error .keyError, s') => (.ok [], s')
      | (.error e, s') => (.error e, s')
      | (.ok o, s') => (.ok (dispatch py call r o m), s') := by
  rcases who_wher m with ⟨h, _⟩ | ⟨_, _, _, _, a, b, c⟩
  · rw [h] at h1; cases h1
  · unfold handle
    rw [if_neg (by tauto), if_neg c, h1, h2]
    dsimp only
    rcases getItem client who wher s with ⟨e | o, s'⟩
    · cases e <;> rfl
    · rfl

theorem handle_items (py : Python) (call : Call) (client : Nat) (r : Registry) (s : Items) (m : Msg) :
    (handle py call client r s m).2 = s ∨
      ∃ who wher, (handle py call client r s m).2 = (getItem client who wher s).2 := by
  rcases who_wher m with ⟨h, h', _⟩ | ⟨who, wher, h, h', _⟩
  · left
    unfold handle
    rw [h, h']
    split
    · rfl
    · split <;> rfl
  · right
    refine ⟨who, wher, ?_⟩
    rw [handle_item h h']
    split <;> simp_all

/-- A message about no item. -/
theorem handle_noItem {py : Python} {call : Call} {client : Nat} {r : Registry} {s : Items} {m : Msg} (hok : ItemsOk s)
    (h : NoItem m) : handle py call client r s m = (.ok [], s) := by
  rcases h with rfl | rfl | ⟨ts, rfl⟩ | ⟨who, h1, h2⟩
  · rfl
  · rfl
  · rfl
  · rcases who_wher m with ⟨h, _⟩ | ⟨who', wher, h1', h3, _⟩
    · rw [h] at h1; cases h1
    · rw [h1'] at h1; cases h1
      rw [handle_item h1' h3]
      rw [← itemTypes_lookup] at h2
      rcases getItem_cases client who wher s with ⟨o, hl, e⟩ | ⟨_, _, e⟩ | ⟨c, _, _, ht, _, e⟩ | ⟨c, i, hl, ht, hc, e⟩
      · have := (hok.made _ _ hl).1
        rw [h2] at this; cases this
      · rw [e]
      · rw [h2] at ht; cases ht
      · rw [h2] at ht; cases ht

/-- A message about an item that can exist. -/
theorem handle_placed {py : Python} {call : Call} {client : Nat} {r : Registry} {s : Items} {m : Msg} {who : Who}
    {wher : Tag} {c : Cls} (h1 : m.who = some who) (h2 : m.wher = some wher) (h3 : classOf who.code = some c)
    (h4 : Placed who wher.string) :
    ∃ o, getItem client who wher s = (.ok o, (getItem client who wher s).2) ∧
      handle py call client r s m = (.ok (dispatch py call r o m), (getItem client who wher s).2) := by
  rw [← itemTypes_lookup] at h3
  rw [handle_item h1 h2]
  rcases getItem_cases client who wher s with ⟨o, hl, e⟩ | ⟨_, ht, e⟩ | ⟨c', _, _, ht, hc, e⟩ | ⟨c', i, hl, ht, hc, e⟩
  · rw [e]; exact ⟨o, rfl, rfl⟩
  · rw [h3] at ht; cases ht
  · obtain ⟨i, hi⟩ := (construct_iff ht).2 h4
    rw [hi] at hc; cases hc
  · rw [e]; exact ⟨_, rfl, rfl⟩

/-- A message about an item that cannot exist. -/
theorem handle_unplaced {py : Python} {call : Call} {client : Nat} {r : Registry} {s : Items} {m : Msg} {who : Who}
    {wher : Tag} (hok : ItemsOk s) (h1 : m.who = some who) (h2 : m.wher = some wher) (h4 : ¬ Placed who wher.string) :
    handle py call client r s m = (.error (placeError wher.string), s) := by
  have hw : who = .energyManagement := by
    by_contra hc; exact h4 (placed_other hc)
  have h3 : itemTypes.lookup who = some .energyManagement := by subst hw; decide
  rw [handle_item h1 h2]
  rcases getItem_cases client who wher s with ⟨o, hl, e⟩ | ⟨_, ht, e⟩ | ⟨c', e', _, ht, hc, e⟩ | ⟨c', i, hl, ht, hc, e⟩
  · obtain ⟨a, b⟩ := hok.made _ _ hl
    exact absurd ((construct_iff a).1 ⟨_, b⟩) h4
  · rw [h3] at ht; cases ht
  · rw [e]
    have := (construct_error ht hc).2
    rw [show placeError wher.string = e' from this.symm]
    split
    · rename_i heq
      cases heq
      exfalso
      split at this <;> cases this
    · rename_i heq; cases heq; rfl
    · rename_i heq; cases heq
  · exact absurd ((construct_iff ht).1 ⟨_, hc⟩) h4

theorem not_harmless {m : Msg} (h : ¬ Harmless m) : ∃ wher, m.who = some .energyManagement ∧ m.wher = some wher ∧
    ¬ Placed .energyManagement wher.string := by
  unfold Harmless at h
  push Not at h
  obtain ⟨who, wher, h1, h2, h3⟩ := h
  have : who = .energyManagement := by
    by_contra hc; exact h3 (placed_other hc)
  subst this
  exact ⟨wher, h1, h2, h3⟩

/-! ## Runs of the loop -/

theorem drain_queue (py : Python) (call : Call) (s : State) (x q : List Msg) :
    drain py call { s with queue := x } q = drain py call s q := by cases q <;> rfl

theorem drain_cons {py : Python} {call : Call} {s : State} {m : Msg} {q : List Msg} {ts : List Start} {i : Items}
    (ho : s.transport = .opened) (h : handle py call s.client s.registry s.items m = (.ok ts, i)) :
    drain py call s (m :: q) = drain py call { s with items := i, trace := s.trace ++ ts } q := by
  obtain ⟨se, t, sq, r, it, ta, cl, tr⟩ := s
  dsimp only at ho h
  subst ho
  rw [drain]
  dsimp only
  rw [h]
  exact drain_queue py call ⟨se, .opened, sq, r, i, ta, cl, tr ++ ts⟩ q q

/-- What never changes in a run of the loop. -/
theorem drain_frame (py : Python) (call : Call) (q : List Msg) (s : State) (hok : ItemsOk s.items) :
    ItemsOk (drain py call s q).items ∧ Keeps s.items (drain py call s q).items ∧
    (drain py call s q).registry = s.registry ∧ (drain py call s q).session = s.session ∧
    (drain py call s q).transport = s.transport ∧ (drain py call s q).client = s.client ∧
    ∃ done, q = done ++ (drain py call s q).queue := by
  induction q generalizing s with
  | nil => exact ⟨hok, Keeps.refl _, rfl, rfl, rfl, rfl, [], rfl⟩
  | cons m q ih =>
    have hi : ItemsOk (handle py call s.client s.registry s.items m).2 ∧
        Keeps s.items (handle py call s.client s.registry s.items m).2 := by
      rcases handle_items py call s.client s.registry s.items m with e | ⟨who, wher, e⟩
      · rw [e]; exact ⟨hok, Keeps.refl _⟩
      · rw [e]; exact ⟨getItem_ok hok, getItem_keeps _ _ _ _⟩
    rw [drain]
    rcases hh : handle py call s.client s.registry s.items m with ⟨e | ts, i⟩
    · rw [hh] at hi
      exact ⟨hi.1, hi.2, rfl, rfl, rfl, rfl, [m], rfl⟩
    · rw [hh] at hi
      dsimp only
      cases ht : s.transport with
      | opened =>
        obtain ⟨a, b, c, d, e, f, done, g⟩ := ih { s with queue := q, items := i, trace := s.trace ++ ts, transport := .opened } hi.1
        dsimp only
        exact ⟨a, hi.2.trans b, c, d, e, f, m :: done, by rw [List.cons_append, ← g]⟩
      | closing => exact ⟨hi.1, hi.2, rfl, rfl, rfl, rfl, [m], rfl⟩
      | gone => exact ⟨hi.1, hi.2, rfl, rfl, rfl, rfl, [m], rfl⟩

/-- The tasks started for `m` with the items `i`. -/
def begunIn (py : Python) (call : Call) (regs : Slot → List Cb) (i : Items) (m : Msg) : List Start :=
  match py, m.who, m.wher with
  | .upTo312, some who, some wher =>
    match i.cache.lookup (who, wher.string) with
    | some o => starts call regs o m
    | none => []
  | _, _, _ => []

theorem begun_eq (py : Python) (call : Call) (regs : Slot → List Cb) (s : State) (m : Msg) :
    begun py call regs s m = begunIn py call regs s.items m := by
  unfold begun begunIn itemFor
  cases py with
  | from313 => rfl
  | upTo312 =>
    rcases m.who with _ | who
    · rfl
    · rcases m.wher with _ | wher
      · rfl
      · dsimp only
        rcases s.items.cache.lookup (who, wher.string) with _ | o <;> rfl

/-- One harmless message. -/
theorem handle_harmless (py : Python) (call : Call) (client : Nat) (r : Registry) (s : Items) (m : Msg) (hok : ItemsOk s)
    (hc : Clean m) (hh : Harmless m) :
    ∃ ts i, handle py call client r s m = (.ok ts, i) ∧ ItemsOk i ∧ Keeps s i ∧
      ∀ i', ItemsOk i' → Keeps i i' → ts = begunIn py call (slotCbs r) i' m := by
  by_cases hn : NoItem m
  · refine ⟨[], s, handle_noItem hok hn, hok, Keeps.refl _, fun i' hi' _ => ?_⟩
    rcases hn with rfl | rfl | ⟨ts, rfl⟩ | ⟨who, h1, h2⟩
    · cases py <;> rfl
    · cases py <;> rfl
    · cases py <;> rfl
    · unfold begunIn
      rw [h1]
      cases py with
      | from313 => rfl
      | upTo312 =>
        rcases m.wher with _ | wher
        · rfl
        · dsimp only
          rcases hl : i'.cache.lookup (who, wher.string) with _ | o
          · rfl
          · have := (hi'.made _ _ hl).1
            rw [← itemTypes_lookup] at h2
            rw [h2] at this; cases this
  · rcases who_wher m with ⟨_, _, h⟩ | ⟨who, wher, h1, h2, _⟩
    · exact absurd (by rcases h with h | h | h; exacts [.inl h, .inr (.inl h), .inr (.inr (.inl h))]) hn
    · rcases h3 : classOf who.code with _ | c
      · exact absurd (.inr (.inr (.inr ⟨who, h1, h3⟩))) hn
      · obtain ⟨o, he, hd⟩ := handle_placed (py := py) (call := call) (client := client) (r := r) (s := s) h1 h2 h3
          (hh who wher h1 h2)
        refine ⟨_, _, hd, getItem_ok hok, getItem_keeps _ _ _ _, fun i' hi' hk => ?_⟩
        have hl := hk _ _ (getItem_lookup he)
        unfold begunIn
        rw [h1, h2]
        cases py with
        | from313 => exact dispatch_from313 _ _ _ _
        | upTo312 =>
          dsimp only
          rw [hl]
          exact dispatch_starts call r o m who hc h1 (hi'.made _ _ hl).1

/-- A run over harmless messages. -/
theorem drain_harmless (py : Python) (call : Call) (q : List Msg) (s : State) (ho : s.transport = .opened)
    (hok : ItemsOk s.items) (hc : ∀ m ∈ q, Clean m) (hh : ∀ m ∈ q, Harmless m) :
    ∃ i ts, ItemsOk i ∧ Keeps s.items i ∧
      (∀ i', ItemsOk i' → Keeps i i' → ts = q.flatMap (begunIn py call (slotCbs s.registry) i')) ∧
      ∀ rest, drain py call s (q ++ rest) = drain py call { s with items := i, trace := s.trace ++ ts } rest := by
  induction q generalizing s with
  | nil => exact ⟨s.items, [], hok, Keeps.refl _, fun _ _ _ => rfl, fun rest => by simp⟩
  | cons m q ih =>
    obtain ⟨ts, i, h1, h2, h3, h4⟩ := handle_harmless py call s.client s.registry s.items m hok (hc m (by simp)) (hh m (by simp))
    obtain ⟨j, us, g1, g2, g3, g4⟩ := ih { s with items := i, trace := s.trace ++ ts } ho h2
      (fun m' h => hc m' (by simp [h])) (fun m' h => hh m' (by simp [h]))
    refine ⟨j, ts ++ us, g1, h3.trans g2, fun i' hi' hk => ?_, fun rest => ?_⟩
    · rw [List.flatMap_cons, ← h4 i' hi' (g2.trans hk), ← g3 i' hi' hk]
    · rw [List.cons_append, drain_cons ho h1, g4 rest]
      simp

/-! ## Reachable states -/

/-- What is true in every reachable state. -/
structure Inv (s : State) : Prop where
  items : ItemsOk s.items
  queue : ∀ m ∈ s.queue, Clean m

theorem inv_init (session : Session) (client : Nat) : Inv (State.init session client) :=
  ⟨itemsOk_init, by simp [State.init]⟩

theorem drain_inv {py : Python} {call : Call} {s : State} (h : Inv s) : Inv (drain py call s s.queue) := by
  obtain ⟨a, _, _, _, _, _, done, g⟩ := drain_frame py call s.queue s h.items
  refine ⟨a, fun m hm => h.queue m ?_⟩
  rw [g]; exact List.mem_append_right _ hm

/-- The cases of a step. -/
theorem step_cases (py : Python) (call : Call) (s : State) (st : Step) :
    s.step py call st = drain py call s s.queue ∨
    ((s.step py call st).trace = s.trace ∧
      ((s.step py call st).queue = s.queue ∨ ∃ d, (s.step py call st).queue = (Protocol.dataReceived s.queue d).2) ∧
      ((s.step py call st).items = s.items ∨
        ∃ who wher client, (s.step py call st).items = (getItem client who wher s.items).2)) := by
  cases st with
  | packet d =>
    right
    unfold State.step
    dsimp only
    split
    · split
      · rename_i h; exact ⟨rfl, .inr ⟨d, by rw [h]⟩, .inl rfl⟩
      · rename_i h; exact ⟨rfl, .inr ⟨d, by rw [h]⟩, .inl rfl⟩
    · exact ⟨rfl, .inl rfl, .inl rfl⟩
  | lost => right; unfold State.step; dsimp only; split <;> exact ⟨rfl, .inl rfl, .inl rfl⟩
  | close => right; exact ⟨rfl, .inl rfl, .inl rfl⟩
  | register c m cb => right; unfold State.step; dsimp only; split <;> exact ⟨rfl, .inl rfl, .inl rfl⟩
  | getItem who wher client => right; exact ⟨rfl, .inl rfl, .inr ⟨who, wher, client, rfl⟩⟩
  | loop =>
    unfold State.step State.start
    dsimp only
    split
    · split
      · right; exact ⟨rfl, .inl rfl, .inl rfl⟩
      · split
        · right; exact ⟨rfl, .inl rfl, .inl rfl⟩
        · right; exact ⟨rfl, .inl rfl, .inl rfl⟩
        · left; rfl
    · right; exact ⟨rfl, .inl rfl, .inl rfl⟩
  | resume =>
    unfold State.step
    dsimp only
    split
    · left; rfl
    · right; exact ⟨rfl, .inl rfl, .inl rfl⟩

theorem step_inv {py : Python} {call : Call} {s : State} (h : Inv s) (st : Step) : Inv (s.step py call st) := by
  rcases step_cases py call s st with e | ⟨_, hq, hi⟩
  · rw [e]; exact drain_inv h
  · refine ⟨?_, ?_⟩
    · rcases hi with e | ⟨_, _, _, e⟩
      · rw [e]; exact h.items
      · rw [e]; exact getItem_ok h.items
    · rcases hq with e | ⟨d, e⟩
      · rw [e]; exact h.queue
      · rw [e]; exact received_clean h.queue

theorem step_keeps {py : Python} {call : Call} {s : State} (h : Inv s) (st : Step) :
    Keeps s.items (s.step py call st).items := by
  rcases step_cases py call s st with e | ⟨_, _, hi⟩
  · rw [e]; exact (drain_frame py call s.queue s h.items).2.1
  · rcases hi with e | ⟨_, _, _, e⟩
    · rw [e]; exact Keeps.refl _
    · rw [e]; exact getItem_keeps _ _ _ _

theorem run_inv {py : Python} {call : Call} {s : State} (h : Inv s) (sts : List Step) :
    Inv (s.run py call sts) ∧ Keeps s.items (s.run py call sts).items := by
  induction sts generalizing s with
  | nil => exact ⟨h, Keeps.refl _⟩
  | cons st sts ih =>
    obtain ⟨a, b⟩ := ih (s := s.step py call st) (step_inv h st)
    exact ⟨a, (step_keeps h st).trans b⟩

theorem after_inv (py : Python) (call : Call) (session : Session) (client : Nat) (h : List Step) :
    Inv (after py call session client h) := (run_inv (inv_init session client) h).1

theorem after_append (py : Python) (call : Call) (session : Session) (client : Nat) (h h' : List Step) :
    after py call session client (h ++ h') = (after py call session client h).run py call h' := by
  unfold after State.run; rw [List.foldl_append]

theorem registered_append (k : Slot) (h h' : List Step) : registered k (h ++ h') = registered k h ++ registered k h' := by
  induction h with
  | nil => rfl
  | cons st h ih =>
    cases st with
    | register c m cb =>
      simp only [List.cons_append, registered]
      split
      · rw [ih]; rfl
      · exact ih
    | _ => simpa only [List.cons_append, registered] using ih

theorem step_registry {py : Python} {call : Call} {s : State} (h : Inv s) (st : Step) (k : Slot) :
    slotCbs (s.step py call st).registry k = slotCbs s.registry k ++ registered k [st] := by
  have keep : (s.step py call st).registry = s.registry → registered k [st] = [] →
      slotCbs (s.step py call st).registry k = slotCbs s.registry k ++ registered k [st] := by
    intro a b; rw [a, b, List.append_nil]
  have hd := (drain_frame py call s.queue s h.items).2.2.1
  cases st with
  | register c m cb =>
    unfold State.step
    dsimp only
    have := register_slot c m cb s.registry
    split
    · rename_i r' he
      rw [he] at this
      obtain ⟨k', h1, h2⟩ := this
      dsimp only
      rw [h2 k]
      simp only [registered, h1, Option.some.injEq]
      by_cases hk : k = k'
      · simp [hk]
      · rw [if_neg hk, if_neg (fun e => hk e.symm), List.append_nil]
    · rename_i e he
      rw [he] at this
      simp [registered, this]
  | packet d =>
    refine keep ?_ rfl
    unfold State.step; dsimp only
    split
    · split <;> rfl
    · rfl
  | lost => refine keep ?_ rfl; unfold State.step; dsimp only; split <;> rfl
  | close => exact keep rfl rfl
  | getItem => exact keep rfl rfl
  | loop =>
    refine keep ?_ rfl
    unfold State.step State.start; dsimp only
    split
    · split
      · rfl
      · split
        · rfl
        · rfl
        · exact hd
    · rfl
  | resume =>
    refine keep ?_ rfl
    unfold State.step; dsimp only
    split
    · exact hd
    · rfl

/-- The registry holds what was registered. -/
theorem after_registry (py : Python) (call : Call) (session : Session) (client : Nat) (h : List Step) (k : Slot) :
    slotCbs (after py call session client h).registry k = registered k h := by
  have gen : ∀ h s, Inv s → slotCbs (s.run py call h).registry k = slotCbs s.registry k ++ registered k h := by
    intro h
    induction h with
    | nil => intro s _; simp [State.run, registered]
    | cons st h ih =>
      intro s hs
      change slotCbs ((s.step py call st).run py call h).registry k = _
      rw [ih _ (step_inv hs st), step_registry hs st k, List.append_assoc, ← registered_append]
      rfl
  have := gen h _ (inv_init session client)
  rw [show (State.init session client).registry = Registry.init from rfl] at this
  rw [after, this]
  cases k <;> rfl

/-- A run of the waiting loop over harmless messages. -/
theorem resume_harmless {py : Python} {call : Call} {s : State} {q : List Msg} (hi : Inv s) (hw : Waiting s q)
    (hh : ∀ m ∈ q, Harmless m) :
    Waiting (s.step py call .resume) [] ∧
      (s.step py call .resume).trace = s.trace ++ q.flatMap (begun py call (slotCbs s.registry) (s.step py call .resume)) := by
  obtain ⟨h1, h2, rfl⟩ := hw
  by_cases hq : s.queue = []
  · have : s.step py call .resume = s := by
      unfold State.step; dsimp only; rw [if_neg (by tauto)]
    rw [this]
    exact ⟨⟨h1, h2, hq⟩, by rw [hq]; simp⟩
  · have : s.step py call .resume = drain py call s s.queue := by
      unfold State.step; dsimp only; rw [if_pos ⟨h1, hq⟩]
    rw [this]
    obtain ⟨i, ts, g1, g2, g3, g4⟩ := drain_harmless py call s.queue s h2 hi.items hi.queue hh
    have g4 := g4 []
    rw [List.append_nil] at g4
    rw [g4]
    refine ⟨⟨rfl, h2, rfl⟩, ?_⟩
    have : ∀ s', begun py call (slotCbs s.registry) s' = begunIn py call (slotCbs s.registry) s'.items :=
      fun s' => funext fun m => begun_eq _ _ _ _ _
    rw [this]
    change s.trace ++ ts = _
    rw [g3 i g1 (Keeps.refl _)]
    rfl

/-- The first run of the loop over harmless messages. -/
theorem loop_harmless {py : Python} {call : Call} {s : State} (hi : Inv s) (h0 : s.task = .none) (h1 : s.session = .event)
    (h2 : s.transport = .opened) (hh : ∀ m ∈ s.queue, Harmless m) :
    Waiting (s.step py call .loop) [] ∧
      (s.step py call .loop).trace = s.trace ++ s.queue.flatMap (begun py call (slotCbs s.registry) (s.step py call .loop)) := by
  have : s.step py call .loop = drain py call s s.queue := by
    unfold State.step State.start; dsimp only; rw [if_pos h0, if_neg (by simp [h1]), h2]
  rw [this]
  obtain ⟨i, ts, g1, g2, g3, g4⟩ := drain_harmless py call s.queue s h2 hi.items hi.queue hh
  have g4 := g4 []
  rw [List.append_nil] at g4
  rw [g4]
  refine ⟨⟨rfl, h2, rfl⟩, ?_⟩
  have : ∀ s', begun py call (slotCbs s.registry) s' = begunIn py call (slotCbs s.registry) s'.items :=
    fun s' => funext fun m => begun_eq _ _ _ _ _
  rw [this]
  change s.trace ++ ts = _
  rw [g3 i g1 (Keeps.refl _)]
  rfl

/-- A run of the waiting loop up to a message that raises. -/
theorem resume_raises {py : Python} {call : Call} {s : State} {pre post : List Msg} {m : Msg} (hi : Inv s)
    (hw : Waiting s (pre ++ m :: post)) (hh : ∀ x ∈ pre, Harmless x) (hm : ¬ Harmless m) :
    ∃ wher, m.wher = some wher ∧ (s.step py call .resume).task = .raised (placeError wher.string) ∧
      (s.step py call .resume).queue = post := by
  obtain ⟨h1, h2, hq⟩ := hw
  have : s.step py call .resume = drain py call s s.queue := by
    unfold State.step; dsimp only; rw [if_pos ⟨h1, by rw [hq]; simp⟩]
  rw [this, hq]
  obtain ⟨i, ts, g1, g2, g3, g4⟩ := drain_harmless py call pre s h2 hi.items
    (fun x hx => hi.queue x (by rw [hq]; simp [hx])) hh
  rw [g4]
  obtain ⟨wher, a, b, c⟩ := not_harmless hm
  refine ⟨wher, b, ?_⟩
  rw [drain]
  rw [show handle py call _ _ _ m = _ from handle_unplaced (s := i) g1 a b c]
  exact ⟨rfl, rfl⟩

/-- Where the tasks of a run come from. -/
theorem drain_mem (py : Python) (call : Call) (q : List Msg) (s : State) (hok : ItemsOk s.items) (hc : ∀ m ∈ q, Clean m) :
    ∀ x ∈ (drain py call s q).trace, x ∈ s.trace ∨
      py = .upTo312 ∧ ∃ m slot, Clean m ∧ firing m = some (slot, x.args) ∧ x.cb ∈ slotCbs s.registry slot ∧
        ∃ who, m.who = some who ∧ classOf who.code = some x.item.cls := by
  induction q generalizing s with
  | nil => exact fun x hx => .inl hx
  | cons m q ih =>
    have hi : ItemsOk (handle py call s.client s.registry s.items m).2 := by
      rcases handle_items py call s.client s.registry s.items m with e | ⟨who, wher, e⟩
      · rw [e]; exact hok
      · rw [e]; exact getItem_ok hok
    have hts : ∀ ts i, handle py call s.client s.registry s.items m = (.ok ts, i) → ∀ x ∈ ts,
        py = .upTo312 ∧ ∃ m slot, Clean m ∧ firing m = some (slot, x.args) ∧ x.cb ∈ slotCbs s.registry slot ∧
          ∃ who, m.who = some who ∧ classOf who.code = some x.item.cls := by
      intro ts i hh x hx
      by_cases hm : Harmless m
      · obtain ⟨ts', i', e, h1, h2, h3⟩ := handle_harmless py call s.client s.registry s.items m hok (hc m (by simp)) hm
        rw [e] at hh; cases hh
        rw [h3 i h1 (Keeps.refl _)] at hx
        unfold begunIn at hx
        rcases hw : m.who with _ | who
        · rw [hw] at hx; cases py <;> simp at hx
        rcases hl : m.wher with _ | wher
        · rw [hw, hl] at hx; cases py <;> simp at hx
        rw [hw, hl] at hx
        cases py with
        | from313 => simp at hx
        | upTo312 =>
          refine ⟨rfl, m, ?_⟩
          dsimp only at hx
          rcases ho : i.cache.lookup (who, wher.string) with _ | o
          · rw [ho] at hx; simp at hx
          rw [ho] at hx
          dsimp only at hx
          unfold starts at hx
          rcases hf : firing m with _ | ⟨slot, args⟩
          · rw [hf] at hx; simp at hx
          rw [hf] at hx
          have hx := (List.takeWhile_prefix _).subset hx
          obtain ⟨cb, hcb, rfl⟩ := List.mem_map.1 hx
          refine ⟨slot, hc m (by simp), rfl, hcb, who, hw, ?_⟩
          rw [← itemTypes_lookup]
          exact (h1.made _ _ ho).1
      · obtain ⟨wher, a, b, c⟩ := not_harmless hm
        rw [handle_unplaced hok a b c] at hh
        cases hh
    intro x hx
    rw [drain] at hx
    rcases hh : handle py call s.client s.registry s.items m with ⟨e | ts, i⟩
    · rw [hh] at hx; exact .inl hx
    · rw [hh] at hx hi
      have hts := hts ts i hh
      dsimp only at hx
      cases ht : s.transport with
      | opened =>
        rw [ht] at hx
        rcases ih { s with queue := q, items := i, trace := s.trace ++ ts, transport := .opened } hi
          (fun m' h => hc m' (by simp [h])) x hx with h | h
        · rcases List.mem_append.1 h with h | h
          · exact .inl h
          · exact .inr (hts x h)
        · exact .inr h
      | closing =>
        rw [ht] at hx
        rcases List.mem_append.1 hx with h | h
        · exact .inl h
        · exact .inr (hts x h)
      | gone =>
        rw [ht] at hx
        rcases List.mem_append.1 hx with h | h
        · exact .inl h
        · exact .inr (hts x h)

/-- Where every task comes from. -/
theorem after_mem (py : Python) (call : Call) (session : Session) (client : Nat) (h : List Step) :
    ∀ x ∈ (after py call session client h).trace,
      py = .upTo312 ∧ ∃ m slot, Clean m ∧ firing m = some (slot, x.args) ∧ x.cb ∈ registered slot h ∧
        ∃ who, m.who = some who ∧ classOf who.code = some x.item.cls := by
  induction h using List.reverseRecOn with
  | nil => intro x hx; simp [after, State.run, State.init] at hx
  | append_singleton h st ih =>
    intro x hx
    rw [after_append] at hx
    change x ∈ ((after py call session client h).step py call st).trace at hx
    have old : x ∈ (after py call session client h).trace →
        py = .upTo312 ∧ ∃ m slot, Clean m ∧ firing m = some (slot, x.args) ∧ x.cb ∈ registered slot (h ++ [st]) ∧
          ∃ who, m.who = some who ∧ classOf who.code = some x.item.cls := by
      intro hx
      obtain ⟨a, m, slot, b, c, d, e⟩ := ih x hx
      exact ⟨a, m, slot, b, c, by rw [registered_append]; exact List.mem_append_left _ d, e⟩
    have hi := after_inv py call session client h
    rcases step_cases py call (after py call session client h) st with e | ⟨e, _⟩
    · rw [e] at hx
      rcases drain_mem py call _ _ hi.items hi.queue x hx with hx | ⟨a, m, slot, b, c, d, e⟩
      · exact old hx
      · rw [after_registry] at d
        exact ⟨a, m, slot, b, c, by rw [registered_append]; exact List.mem_append_left _ d, e⟩
    · rw [e] at hx; exact old hx

theorem mem_registered {slot : Slot} {h : List Step} {cb : Cb} (hm : cb ∈ registered slot h) :
    ∃ c m, Step.register c m cb ∈ h ∧ slotOf c m = some slot := by
  induction h with
  | nil => simp [registered] at hm
  | cons st h ih =>
    have old : cb ∈ registered slot h → ∃ c m, Step.register c m cb ∈ st :: h ∧ slotOf c m = some slot := by
      intro hm
      obtain ⟨c, m, a, b⟩ := ih hm
      exact ⟨c, m, List.mem_cons_of_mem _ a, b⟩
    cases st with
    | register c m cb' =>
      simp only [registered] at hm
      split at hm
      · rename_i hs
        rcases List.mem_cons.1 hm with rfl | hm
        · exact ⟨c, m, by simp, hs⟩
        · exact old hm
      · exact old hm
    | _ => exact old hm

/-- The items do not depend on the registrations. -/
theorem drain_items (py : Python) (call : Call) (q : List Msg) (s s' : State) (h1 : s.items = s'.items)
    (h2 : s.client = s'.client) (h3 : s.transport = s'.transport) :
    (drain py call s q).items = (drain py call s' q).items := by
  have hr : ∀ (r r' : Registry) (c : Nat) (i : Items) (m : Msg),
      (handle py call c r i m).2 = (handle py call c r' i m).2 ∧
      ((∃ e, (handle py call c r i m).1 = .error e) ↔ ∃ e, (handle py call c r' i m).1 = .error e) := by
    intro r r' c i m
    rcases who_wher m with ⟨_, _, rfl | rfl | ⟨ts, rfl⟩⟩ | ⟨who, wher, a, b, _⟩
    · exact ⟨rfl, by simp [handle, Msg.type]⟩
    · exact ⟨rfl, by simp [handle, Msg.type]⟩
    · exact ⟨rfl, by simp [handle, Msg.type]⟩
    · rw [handle_item a b, handle_item a b]
      rcases getItem c who wher i with ⟨e | o, i'⟩
      · cases e <;> exact ⟨rfl, Iff.rfl⟩
      · exact ⟨rfl, by simp⟩
  induction q generalizing s s' with
  | nil => exact h1
  | cons m q ih =>
    obtain ⟨e1, e2⟩ := hr s.registry s'.registry s'.client s'.items m
    rw [drain, drain, h1, h2]
    rcases hh : handle py call s'.client s.registry s'.items m with ⟨e | ts, i⟩
    · rw [hh] at e1 e2
      obtain ⟨e', he'⟩ := e2.1 ⟨e, rfl⟩
      rcases hh' : handle py call s'.client s'.registry s'.items m with ⟨e'' | ts', i'⟩
      · rw [hh'] at e1; exact e1
      · rw [hh'] at he'; cases he'
    · rw [hh] at e1 e2
      rcases hh' : handle py call s'.client s'.registry s'.items m with ⟨e'' | ts', i'⟩
      · rw [hh'] at e2
        obtain ⟨_, h⟩ := e2.2 ⟨_, rfl⟩
        cases h
      · rw [hh'] at e1
        dsimp only at e1 ⊢
        rw [h3]
        cases ht : s'.transport with
        | opened => exact ih _ _ e1 rfl rfl
        | closing => exact e1
        | gone => exact e1

/-- One event, alone. -/
theorem delivers_of {m : Msg} {slot : Slot} {args : List Arg} {who : Who} {wher : Tag} {c : Cls}
    (hf : firing m = some (slot, args)) (h1 : m.who = some who) (h2 : m.wher = some wher) (h3 : classOf who.code = some c)
    (h4 : Placed who wher.string) : Delivers m slot args := by
  intro call session client h hc hw
  have hi := after_inv .upTo312 call session client h
  have hr := after_registry .upTo312 call session client h slot
  rw [after_append]
  change ∃ o, itemFor ((after .upTo312 call session client h).step .upTo312 call .resume) m = some o ∧
    ((after .upTo312 call session client h).step .upTo312 call .resume).trace = _ ∧
      Waiting ((after .upTo312 call session client h).step .upTo312 call .resume) []
  generalize after .upTo312 call session client h = s at hw hi hr
  obtain ⟨w1, w2, w3⟩ := hw
  obtain ⟨o, he, hd⟩ := handle_placed (py := .upTo312) (call := call) (client := s.client) (r := s.registry) (s := s.items)
    h1 h2 h3 h4
  have hs : s.step .upTo312 call .resume = { s with
      queue := [], items := (getItem s.client who wher s.items).2,
      trace := s.trace ++ dispatch .upTo312 call s.registry o m } := by
    unfold State.step
    dsimp only
    rw [if_pos ⟨w1, by rw [w3]; simp⟩, w3, drain_cons w2 hd]
    simp [drain, w1]
  have hl := getItem_lookup he
  refine ⟨o, ?_, ?_, ?_⟩
  · rw [hs]; unfold itemFor; rw [h1, h2]; exact hl
  · rw [hs]
    dsimp only
    rw [dispatch_starts call s.registry o m who (hi.queue m (by rw [w3]; simp)) h1 ((getItem_ok hi.items).made _ _ hl).1]
    unfold starts
    rw [hf]
    dsimp only
    rw [hr]
    congr 1
    rw [List.takeWhile_eq_self_iff]
    intro st _
    rw [hc st]; rfl
  · rw [hs]; exact ⟨w1, w2, rfl⟩

/-- An event that starts nothing. -/
theorem ignored_of {m : Msg} (hf : firing m = none) (hh : Harmless m) : Ignored m := by
  intro py call session client h hw
  have hi := after_inv py call session client h
  have := resume_harmless (py := py) (call := call) hi hw (by simpa using hh)
  rw [after_append]
  change ((after py call session client h).step py call .resume).trace = _ ∧
    Waiting ((after py call session client h).step py call .resume) []
  refine ⟨?_, this.1⟩
  rw [this.2]
  simp only [List.flatMap_cons, List.flatMap_nil, List.append_nil]
  have : begun py call (slotCbs (after py call session client h).registry)
      ((after py call session client h).step py call .resume) m = [] := by
    unfold begun
    split
    · unfold starts; rw [hf]
    · rfl
  rw [this, List.append_nil]

theorem harmless_other {m : Msg} {who : Who} (h : m.who = some who) (hw : who ≠ .energyManagement) : Harmless m := by
  intro who' wher h1 h2
  rw [h] at h1; cases h1
  exact placed_other hw

/-- The family of a slot. -/
def slotFamily : Slot → Nat
  | .lightStatus | .lightTemporization | .lightLuminosity | .lightHsv | .lightWhite => 1
  | .automation => 2
  | .camera => 7
  | .gateway _ => 13
  | .energy _ => 18

theorem slotOf_family {c : Cls} {m : Method} {slot : Slot} (h : slotOf c m = some slot) : slotFamily slot = family c := by
  cases c <;> cases m <;> simp [slotOf] at h <;> subst h <;> rfl

theorem firing_family {m : Msg} {slot : Slot} {args : List Arg} (hf : firing m = some (slot, args)) :
    m.who = some .lighting ∧ slotFamily slot = 1 ∨ m.who = some .automation ∧ slotFamily slot = 2 ∨
      m.who = some .gateway ∧ slotFamily slot = 13 ∨ m.who = some .energyManagement ∧ slotFamily slot = 18 := by
  unfold firing at hf
  split at hf
  · simp only [Option.some.injEq, Prod.mk.injEq] at hf
    obtain ⟨rfl, _⟩ := hf
    exact .inl ⟨rfl, rfl⟩
  · left
    refine ⟨rfl, ?_⟩
    split_ifs at hf <;> simp only [Option.map_eq_some_iff, Prod.mk.injEq] at hf <;> obtain ⟨_, _, rfl, _⟩ := hf <;> rfl
  · split_ifs at hf
    simp only [Option.some.injEq, Prod.mk.injEq] at hf
    obtain ⟨rfl, _⟩ := hf
    exact .inr (.inl ⟨rfl, rfl⟩)
  · simp only [Option.map_eq_some_iff, Prod.mk.injEq] at hf
    obtain ⟨_, _, rfl, _⟩ := hf
    exact .inr (.inr (.inl ⟨rfl, rfl⟩))
  · simp only [Option.map_eq_some_iff, Prod.mk.injEq] at hf
    obtain ⟨_, _, rfl, _⟩ := hf
    exact .inr (.inr (.inl ⟨rfl, rfl⟩))
  · simp only [Option.map_eq_some_iff, Prod.mk.injEq] at hf
    obtain ⟨_, _, rfl, _⟩ := hf
    exact .inr (.inr (.inr ⟨rfl, rfl⟩))
  · cases hf

end Events
