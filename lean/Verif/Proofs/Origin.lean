import Verif.Proofs.Loop
import Mathlib.Data.List.Infix

/-! # Where the starts of callbacks come from (for C47, C85) -/

open Py Spec Events

/-! ## Pieces of a packet -/

theorem split2_infix {a b : Char} (s : Str) : ∃ p ps, split2 a b s = p :: ps ∧ p <+: s ∧ ∀ q ∈ ps, q <:+: s := by
  fun_induction split2 a b s with
  | case1 => exact ⟨[], [], rfl, List.prefix_rfl, by simp⟩
  | case2 c => exact ⟨[c], [], rfl, List.prefix_rfl, by simp⟩
  | case3 c d s h ih =>
    obtain ⟨p, ps, h1, h2, h3⟩ := ih
    refine ⟨[], split2 a b s, rfl, List.nil_prefix, fun q hq => ?_⟩
    have : q <:+: s := by
      rw [h1] at hq
      rcases List.mem_cons.1 hq with rfl | hq
      · exact h2.isInfix
      · exact h3 q hq
    exact this.trans ((List.suffix_cons _ _).trans (List.suffix_cons _ _)).isInfix
  | case4 c d s h ih =>
    obtain ⟨p, ps, h1, h2, h3⟩ := ih
    refine ⟨c :: p, ps, by rw [h1]; rfl, (List.prefix_cons_inj c).2 h2, fun q hq => ?_⟩
    exact (h3 q hq).trans (List.suffix_cons _ _).isInfix

theorem mem_split2_infix {a b : Char} {s q : Str} (h : q ∈ split2 a b s) : q <:+: s := by
  obtain ⟨p, ps, h1, h2, h3⟩ := split2_infix (a := a) (b := b) s
  rw [h1] at h
  rcases List.mem_cons.1 h with rfl | h
  · exact h2.isInfix
  · exact h3 q h

theorem strip_infix (s : Str) : strip s <:+: s := by
  obtain ⟨u, v, _, _, e⟩ := exists_ws_strip s
  exact ⟨u, v, e.symm⟩

theorem piece_frame {p : Str} {m : Msg} (h : parseMessage (p ++ cs!"##") = .ok m) :
    ∃ ts, FrameOf ts m ∧ body ts <:+: p := by
  obtain ⟨ts, ⟨_, _, ⟨u, v, hu, hv, e⟩, _⟩, hf⟩ := (parseMessage_ok_iff _ _).1 h
  refine ⟨ts, hf, ?_⟩
  rcases List.eq_nil_or_concat v with rfl | ⟨v', c, rfl⟩
  · rw [List.append_nil, frame, ← List.append_assoc] at e
    have := List.append_cancel_right e
    exact ⟨u, [], by rw [this]; simp⟩
  · have h1 : (p ++ cs!"##").getLast? = some '#' := by simp
    rw [e] at h1
    simp at h1
    have := hv c (by simp)
    rw [h1] at this
    exact absurd this (by decide)

theorem pieces_frames {ps : List Str} {ms : List Msg} (h : Protocol.parsePieces ps = .ok ms) :
    ∀ m ∈ ms, ∃ p ∈ ps, ∃ ts, FrameOf ts m ∧ body ts <:+: p := by
  induction ps generalizing ms with
  | nil => cases h; simp
  | cons p ps ih =>
    unfold Protocol.parsePieces at h
    split at h
    · intro m hm
      obtain ⟨q, hq, h⟩ := ih h m hm
      exact ⟨q, by simp [hq], h⟩
    · rcases h1 : parseMessage (p ++ cs!"##") with e | m1
      · rw [h1] at h; cases h
      · rcases h2 : Protocol.parsePieces ps with e | ms1
        · rw [h1, h2] at h; cases h
        · rw [h1, h2] at h; cases h
          intro m hm
          rcases List.mem_cons.1 hm with rfl | hm
          · exact ⟨p, by simp, piece_frame h1⟩
          · obtain ⟨q, hq, h⟩ := ih h2 m hm
            exact ⟨q, by simp [hq], h⟩

namespace Spec

/-- The characters of a packet. -/
def textOf (d : List UInt8) : Str := d.map fun b => Char.ofNat b.toNat

/-- The packet `d` contains a frame with tags `ts` (or the beginning of one, up to its terminator) that stands for `m`. -/
def Carries (d : List UInt8) (ts : List Str) (m : Msg) : Prop := FrameOf ts m ∧ body ts <:+: textOf d

/-- A packet of the history contains a frame with tags `ts` that stands for `m`. -/
def Heard (h : List Step) (ts : List Str) (m : Msg) : Prop := ∃ d, Step.packet d ∈ h ∧ Carries d ts m

end Spec

theorem packet_carries {d : List UInt8} {ms : List Msg} (h : Protocol.packetMessages d = .ok ms) :
    ∀ m ∈ ms, ∃ ts, Carries d ts m := by
  unfold Protocol.packetMessages at h
  rcases h1 : Protocol.decodeAscii d with e | t
  · rw [h1] at h; cases h
  · rw [h1] at h
    have ht : t = textOf d := by
      unfold Protocol.decodeAscii at h1
      split at h1
      · cases h1; rfl
      · cases h1
    intro m hm
    obtain ⟨p, hp, ts, hf, hb⟩ := pieces_frames h m hm
    exact ⟨ts, hf, ht ▸ hb.trans ((mem_split2_infix hp).trans (strip_infix t))⟩

/-! ## A run of the loop -/

/-- Why a client holds an item: it is the client of `loop()`, or it was given to `get_item`. -/
def Bound (client : Nat) (h : List Step) (k : Who × Str) (o : Obj) : Prop :=
  o.client = client ∨ ∃ wher, wher.string = k.2 ∧ Step.getItem k.1 wher o.client ∈ h

/-- Every item is bound. -/
def CacheB (client : Nat) (h : List Step) (s : Items) : Prop := ∀ k o, s.cache.lookup k = some o → Bound client h k o

theorem getItem_bound {client : Nat} {h : List Step} {s : Items} (hs : CacheB client h s) (c : Nat) (who : Who) (wher : Tag)
    (hc : c = client ∨ Step.getItem who wher c ∈ h) : CacheB client h (getItem c who wher s).2 := by
  rcases getItem_cases c who wher s with ⟨o, _, e⟩ | ⟨_, _, e⟩ | ⟨_, _, _, _, _, e⟩ | ⟨cl, i, hl, ht, hco, e⟩
  · rw [e]; exact hs
  · rw [e]; exact hs
  · rw [e]; exact hs
  · rw [e]
    intro k o hk
    simp only [lookup_new] at hk
    split at hk
    · rename_i he
      cases hk; subst he
      exact hc.imp id fun h => ⟨wher, rfl, h⟩
    · exact hs k o hk

theorem drain_bound (py : Python) (call : Call) (h : List Step) (q : List Msg) (s : State)
    (hs : CacheB s.client h s.items) : CacheB s.client h (drain py call s q).items := by
  induction q generalizing s with
  | nil => exact hs
  | cons m q ih =>
    have hi : CacheB s.client h (handle py call s.client s.registry s.items m).2 := by
      rcases handle_items py call s.client s.registry s.items m with e | ⟨who, wher, e⟩
      · rw [e]; exact hs
      · rw [e]; exact getItem_bound hs _ _ _ (.inl rfl)
    rw [drain]
    rcases hh : handle py call s.client s.registry s.items m with ⟨e | ts, i⟩
    · rw [hh] at hi; exact hi
    · rw [hh] at hi
      dsimp only
      cases ht : s.transport with
      | opened => exact ih { s with queue := q, items := i, trace := s.trace ++ ts, transport := .opened } hi
      | closing => exact hi
      | gone => exact hi

/-- `x` was started for `m`, with an item of `i`. -/
def For (i : Items) (regs : Slot → List Cb) (m : Msg) (x : Start) : Prop :=
  ∃ slot who wher, firing m = some (slot, x.args) ∧ x.cb ∈ regs slot ∧ m.who = some who ∧ m.wher = some wher ∧
    i.cache.lookup (who, wher.string) = some x.item

theorem drain_for (py : Python) (call : Call) (q : List Msg) (s : State) (hok : ItemsOk s.items) (hc : ∀ m ∈ q, Clean m) :
    ∀ x ∈ (drain py call s q).trace, x ∈ s.trace ∨
      ∃ m ∈ q, For (drain py call s q).items (slotCbs s.registry) m x := by
  induction q generalizing s with
  | nil => exact fun x hx => .inl hx
  | cons m q ih =>
    have hi : ItemsOk (handle py call s.client s.registry s.items m).2 := by
      rcases handle_items py call s.client s.registry s.items m with e | ⟨who, wher, e⟩
      · rw [e]; exact hok
      · rw [e]; exact getItem_ok hok
    have hts : ∀ ts i, handle py call s.client s.registry s.items m = (.ok ts, i) → ∀ i', Keeps i i' → ∀ x ∈ ts,
        For i' (slotCbs s.registry) m x := by
      intro ts i hh i' hk x hx
      by_cases hm : Harmless m
      · obtain ⟨ts', i'', e, h1, h2, h3⟩ := handle_harmless py call s.client s.registry s.items m hok (hc m (by simp)) hm
        rw [e] at hh; cases hh
        rw [h3 i h1 (Keeps.refl _)] at hx
        unfold begunIn at hx
        rcases hw : m.who with _ | who
        · rw [hw] at hx; cases py <;> simp at hx
        rcases hl : m.wher with _ | wher
        · rw [hw, hl] at hx; cases py <;> simp at hx
        rw [hw, hl] at hx
        cases py with
        | from313 => simp at hx
        | upTo312 =>
          dsimp only at hx
          rcases ho : i.cache.lookup (who, wher.string) with _ | o
          · rw [ho] at hx; simp at hx
          rw [ho] at hx
          dsimp only at hx
          unfold starts at hx
          rcases hf : firing m with _ | ⟨slot, args⟩
          · rw [hf] at hx; simp at hx
          rw [hf] at hx
          have hx := (List.takeWhile_prefix _).subset hx
          obtain ⟨cb, hcb, rfl⟩ := List.mem_map.1 hx
          exact ⟨slot, who, wher, hf, hcb, hw, hl, hk _ _ ho⟩
      · obtain ⟨wher, a, b, c⟩ := not_harmless hm
        rw [handle_unplaced hok a b c] at hh
        cases hh
    intro x hx
    rw [drain] at hx ⊢
    rcases hh : handle py call s.client s.registry s.items m with ⟨e | ts, i⟩
    · rw [hh] at hx; exact .inl hx
    · rw [hh] at hx hi
      have hts := hts ts i hh
      dsimp only at hx ⊢
      cases ht : s.transport with
      | opened =>
        rw [ht] at hx
        have hk := (drain_frame py call q { s with queue := q, items := i, trace := s.trace ++ ts, transport := .opened } hi).2.1
        rcases ih { s with queue := q, items := i, trace := s.trace ++ ts, transport := .opened } hi
          (fun m' h => hc m' (by simp [h])) x hx with h | ⟨m', hm', h⟩
        · rcases List.mem_append.1 h with h | h
          · exact .inl h
          · exact .inr ⟨m, by simp, hts _ hk x h⟩
        · exact .inr ⟨m', by simp [hm'], h⟩
      | closing =>
        rw [ht] at hx
        rcases List.mem_append.1 hx with h | h
        · exact .inl h
        · exact .inr ⟨m, by simp, hts _ (Keeps.refl _) x h⟩
      | gone =>
        rw [ht] at hx
        rcases List.mem_append.1 hx with h | h
        · exact .inl h
        · exact .inr ⟨m, by simp, hts _ (Keeps.refl _) x h⟩

/-! ## Histories -/

/-- What is true after a history. -/
structure Origin (client : Nat) (h : List Step) (s : State) : Prop where
  own : s.client = client
  queue : ∀ m ∈ s.queue, ∃ ts, Heard h ts m
  cache : CacheB client h s.items
  trace : ∀ x ∈ s.trace, ∃ ts m, Heard h ts m ∧ For s.items (fun k => registered k h) m x

theorem Spec.Heard.mono {h h' : List Step} {ts : List Str} {m : Msg} (hh : Heard h ts m) (hs : h ⊆ h') : Heard h' ts m := by
  obtain ⟨d, a, b⟩ := hh
  exact ⟨d, hs a, b⟩

theorem Bound.mono {client : Nat} {h h' : List Step} {k : Who × Str} {o : Obj} (hb : Bound client h k o) (hs : h ⊆ h') :
    Bound client h' k o := hb.imp id fun ⟨w, a, b⟩ => ⟨w, a, hs b⟩

theorem For.mono {i i' : Items} {regs regs' : Slot → List Cb} {m : Msg} {x : Start} (hf : For i regs m x) (hk : Keeps i i')
    (hr : ∀ k, regs k ⊆ regs' k) : For i' regs' m x := by
  obtain ⟨slot, who, wher, a, b, c, d, e⟩ := hf
  exact ⟨slot, who, wher, a, hr _ b, c, d, hk _ _ e⟩

theorem step_client (py : Python) (call : Call) (s : State) (st : Step) (hok : ItemsOk s.items) :
    (s.step py call st).client = s.client := by
  have hd := (drain_frame py call s.queue s hok).2.2.2.2.2.1
  cases st with
  | packet d => unfold State.step; dsimp only; split; · split <;> rfl
                · rfl
  | lost => unfold State.step; dsimp only; split <;> rfl
  | close => rfl
  | register c m cb => unfold State.step; dsimp only; split <;> rfl
  | getItem => rfl
  | loop =>
    unfold State.step State.start; dsimp only
    split
    · split
      · rfl
      · split
        · rfl
        · rfl
        · exact hd
    · rfl
  | resume =>
    unfold State.step; dsimp only
    split
    · exact hd
    · rfl

theorem step_queue (py : Python) (call : Call) (s : State) (st : Step) (hok : ItemsOk s.items) :
    ∀ m ∈ (s.step py call st).queue, m ∈ s.queue ∨ ∃ d ts, st = .packet d ∧ Carries d ts m := by
  obtain ⟨done, hd⟩ := (drain_frame py call s.queue s hok).2.2.2.2.2.2
  have hd : ∀ m ∈ (drain py call s s.queue).queue, m ∈ s.queue := fun m hm => by
    rw [hd]; exact List.mem_append_right _ hm
  intro m hm
  cases st with
  | packet d =>
    unfold State.step at hm; dsimp only at hm
    have key : m ∈ (Protocol.dataReceived s.queue d).2 → m ∈ s.queue ∨ ∃ d' ts, Step.packet d = .packet d' ∧ Carries d' ts m := by
      unfold Protocol.dataReceived
      rcases h1 : Protocol.packetMessages d with e | ms
      · exact .inl
      · intro hm
        rcases List.mem_append.1 hm with hm | hm
        · exact .inl hm
        · obtain ⟨ts, h⟩ := packet_carries h1 m hm
          exact .inr ⟨d, ts, rfl, h⟩
    split at hm
    · split at hm <;> rename_i h <;> (rw [h] at key; exact key hm)
    · exact .inl hm
  | lost => left; unfold State.step at hm; dsimp only at hm; split at hm <;> exact hm
  | close => exact .inl hm
  | register c m cb => left; unfold State.step at hm; dsimp only at hm; split at hm <;> exact hm
  | getItem => exact .inl hm
  | loop =>
    left
    unfold State.step State.start at hm; dsimp only at hm
    split at hm
    · split at hm
      · exact hm
      · split at hm
        · exact hm
        · exact hm
        · exact hd m hm
    · exact hm
  | resume =>
    left
    unfold State.step at hm; dsimp only at hm
    split at hm
    · exact hd m hm
    · exact hm

theorem step_bound (py : Python) (call : Call) (s : State) (st : Step) (h : List Step) (hc : CacheB s.client h s.items) :
    CacheB s.client (h ++ [st]) (s.step py call st).items := by
  have hc : CacheB s.client (h ++ [st]) s.items := fun k o hk => (hc k o hk).mono (by simp)
  have hd := drain_bound py call (h ++ [st]) s.queue s hc
  cases st with
  | packet d => unfold State.step; dsimp only; split; · split <;> exact hc
                · exact hc
  | lost => unfold State.step; dsimp only; split <;> exact hc
  | close => exact hc
  | register c m cb => unfold State.step; dsimp only; split <;> exact hc
  | getItem who wher c => exact getItem_bound hc _ _ _ (.inr (by simp))
  | loop =>
    unfold State.step State.start; dsimp only
    split
    · split
      · exact hc
      · split
        · exact hc
        · exact hc
        · exact hd
    · exact hc
  | resume =>
    unfold State.step; dsimp only
    split
    · exact hd
    · exact hc

theorem after_origin (py : Python) (call : Call) (session : Session) (client : Nat) (h : List Step) :
    Origin client h (after py call session client h) := by
  induction h using List.reverseRecOn with
  | nil => exact ⟨rfl, by simp [after, State.run, State.init], by simp [CacheB, after, State.run, State.init, Items.init],
      by simp [after, State.run, State.init]⟩
  | append_singleton h st ih =>
    have hi := after_inv py call session client h
    have hreg := after_registry py call session client h
    rw [after_append]
    change Origin client (h ++ [st]) ((after py call session client h).step py call st)
    generalize after py call session client h = s at ih hi hreg
    have sub : h ⊆ h ++ [st] := by simp
    have hsub : ∀ k, registered k h ⊆ registered k (h ++ [st]) := fun k => by rw [registered_append]; simp
    refine ⟨by rw [step_client _ _ _ _ hi.items, ih.own], ?_, ?_, ?_⟩
    · intro m hm
      rcases step_queue py call s st hi.items m hm with h1 | ⟨d, ts, rfl, h1⟩
      · obtain ⟨ts, h1⟩ := ih.queue m h1
        exact ⟨ts, h1.mono sub⟩
      · exact ⟨ts, d, by simp, h1⟩
    · have := step_bound py call s st h (by rw [ih.own]; exact ih.cache)
      rwa [ih.own] at this
    · intro x hx
      have old : x ∈ s.trace → ∃ ts m, Heard (h ++ [st]) ts m ∧ For (s.step py call st).items (fun k => registered k (h ++ [st])) m x := by
        intro hx
        obtain ⟨ts, m, a, b⟩ := ih.trace x hx
        exact ⟨ts, m, a.mono sub, b.mono (step_keeps hi st) hsub⟩
      rcases step_cases py call s st with e | ⟨e, _⟩
      · rw [e] at hx
        rcases drain_for py call _ _ hi.items hi.queue x hx with hx | ⟨m, hm, hf⟩
        · exact old hx
        · obtain ⟨ts, h1⟩ := ih.queue m hm
          refine ⟨ts, m, h1.mono sub, ?_⟩
          rw [e]
          exact hf.mono (Keeps.refl _) fun k => by rw [hreg]; exact hsub k
      · rw [e] at hx; exact old hx
