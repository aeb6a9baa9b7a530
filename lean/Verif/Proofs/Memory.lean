import Verif.Spec.Memory
import Verif.Proofs.Loops

/-! # Lemmas about what a client remembers -/

open Py Spec

namespace Events

/-- The keys of the items, each once, all of them in `P`; the identities are used up one by one. -/
structure Stored (P : Who × Str → Prop) (i : Items) : Prop where
  keys : ∀ p ∈ i.cache, P p.1
  nodup : (i.cache.map (·.1)).Nodup
  count : i.next = i.cache.length

theorem Stored.mono {P Q : Who × Str → Prop} {i : Items} (h : Stored P i) (hpq : ∀ k, P k → Q k) : Stored Q i :=
  ⟨fun p hp => hpq _ (h.keys p hp), h.nodup, h.count⟩

theorem lookup_none {κ α : Type} [BEq κ] [LawfulBEq κ] {l : List (κ × α)} {k : κ} (h : l.lookup k = none) : k ∉ l.map (·.1) := by
  induction l with
  | nil => simp
  | cons p l ih =>
    rw [List.lookup_cons] at h
    split at h
    · cases h
    · rename_i hk
      have hk : k ≠ p.1 := by simpa using hk
      simpa [hk] using ih h

theorem mem_lookup {κ α : Type} [BEq κ] [LawfulBEq κ] {l : List (κ × α)} (hn : (l.map (·.1)).Nodup) {k : κ} {a : α}
    (h : (k, a) ∈ l) : l.lookup k = some a := by
  induction l with
  | nil => simp at h
  | cons p l ih =>
    rw [List.map_cons, List.nodup_cons] at hn
    rw [List.lookup_cons]
    rcases List.mem_cons.1 h with rfl | h
    · simp
    · have : k ≠ p.1 := by
        rintro rfl
        exact hn.1 (List.mem_map_of_mem (f := (·.1)) h)
      rw [beq_eq_false_iff_ne.2 this]
      exact ih hn.2 h

theorem getItem_stored {P : Who × Str → Prop} {client : Nat} {who : Who} {wher : Tag} {i : Items} (h : Stored P i)
    (hp : P (who, wher.string)) : Stored P (getItem client who wher i).2 := by
  rcases getItem_cases client who wher i with ⟨o, _, e⟩ | ⟨_, _, e⟩ | ⟨c, _, _, _, _, e⟩ | ⟨c, it, hl, ht, hc, e⟩
  · rw [e]; exact h
  · rw [e]; exact h
  · rw [e]; exact h
  · rw [e]
    refine ⟨?_, ?_, by simp [h.count]⟩
    · intro p hp'
      rcases List.mem_cons.1 hp' with rfl | hp'
      exacts [hp, h.keys p hp']
    · rw [List.map_cons, List.nodup_cons]
      exact ⟨lookup_none hl, h.nodup⟩

theorem handle_stored {P : Who × Str → Prop} (py : Python) (call : Call) (client : Nat) (r : Registry) {i : Items} {m : Msg}
    (h : Stored P i) (hm : ∀ k, address m = some k → P k) : Stored P (handle py call client r i m).2 := by
  unfold handle
  split
  · exact h
  · split
    · exact h
    · split
      · rename_i who wher h1 h2
        have := getItem_stored (client := client) h (hm (who, wher.string) (by unfold address; rw [h1, h2]))
        split <;> (rename_i he; rw [he] at this; exact this)
      · exact h

theorem drain_stored {P : Who × Str → Prop} (py : Python) (call : Call) (q : List Msg) (s : State) (h : Stored P s.items)
    (hq : ∀ m ∈ q, ∀ k, address m = some k → P k) : Stored P (drain py call s q).items := by
  induction q generalizing s with
  | nil => exact h
  | cons m q ih =>
    have := handle_stored py call s.client s.registry h (hq m (by simp))
    rw [drain]
    split
    · rename_i he; rw [he] at this; exact this
    · rename_i he
      rw [he] at this
      dsimp only
      split
      · exact ih _ this fun m hm => hq m (by simp [hm])
      · exact this
      · exact this

theorem step_stored {P : Who × Str → Prop} (py : Python) (call : Call) (s : State) (st : Step) (h : Stored P s.items)
    (hq : ∀ m ∈ s.queue, ∀ k, address m = some k → P k)
    (hst : ∀ who wher client, st = .getItem who wher client → P (who, wher.string)) : Stored P (s.step py call st).items := by
  have hd := drain_stored py call s.queue s h hq
  cases st with
  | packet d => unfold State.step; dsimp only; split <;> [(split <;> exact h); exact h]
  | lost => unfold State.step; dsimp only; split <;> exact h
  | close => exact h
  | register => unfold State.step; dsimp only; split <;> exact h
  | getItem who wher client => exact getItem_stored h (hst who wher client rfl)
  | loop =>
    unfold State.step State.start; dsimp only
    split
    · split
      · exact h
      · split
        · exact h
        · exact h
        · exact hd
    · exact h
  | resume => unfold State.step; dsimp only; split <;> assumption

theorem asked_append (h h' : List Act) : asked (h ++ h') = asked h ++ asked h' := by
  induction h with
  | nil => rfl
  | cons a h ih => cases a <;> simp [asked, ih]

theorem mentioned_mono {h : List Act} {a : Act} {k : Who × Str} (hk : k ∈ mentioned h) : k ∈ mentioned (h ++ [a]) := by
  unfold mentioned at *
  rw [asked_append, arrived_append]
  simp only [List.filterMap_append, List.mem_append] at *
  tauto

/-- After every history the items are those of addresses in it, one each. -/
theorem many_stored (py : Python) (call : Call) (session : Session) (h : List Act) :
    Stored (· ∈ mentioned h) ((Many.init session).run py call h).base.items := by
  induction h using List.reverseRecOn with
  | nil => exact ⟨by simp [Many.run, Many.init, State.init, Items.init], by simp [Many.run, Many.init, State.init, Items.init],
      rfl⟩
  | append_singleton h a ih =>
    obtain ⟨log, k⟩ := many_kept py call session h
    rw [many_append]
    generalize (Many.init session).run py call h = m at k ih
    have ih' := ih.mono (Q := (· ∈ mentioned (h ++ [a]))) fun k hk => mentioned_mono hk
    have hq : ∀ x ∈ m.base.queue, ∀ key, address x = some key → key ∈ mentioned (h ++ [a]) := by
      intro x hx key hkey
      apply mentioned_mono
      unfold mentioned
      refine List.mem_append_right _ (List.mem_filterMap.2 ⟨x, ?_, hkey⟩)
      rw [← k.once]
      exact List.mem_append_right _ hx
    change Stored _ (m.step py call a).base.items
    have turn : ∀ id client task st, (∀ who wher client, st ≠ .getItem who wher client) →
        Stored (· ∈ mentioned (h ++ [a])) (m.turn py call id client task st).base.items := by
      intro id client task st hst
      unfold Many.turn
      exact step_stored py call { m.base with task := task, client := client } st ih' hq fun _ _ _ e => absurd e (hst _ _ _)
    cases a with
    | packet d => exact step_stored py call m.base (.packet d) ih' hq (by simp)
    | lost => exact step_stored py call m.base .lost ih' hq (by simp)
    | close => exact step_stored py call m.base .close ih' hq (by simp)
    | register c me cb => exact step_stored py call m.base (.register c me cb) ih' hq (by simp)
    | getItem who wher client =>
      refine step_stored py call m.base (.getItem who wher client) ih' hq ?_
      rintro _ _ _ ⟨⟩
      unfold mentioned
      rw [asked_append]
      simp [asked]
    | loop id client => unfold Many.step; dsimp only; split <;> [exact turn _ _ _ _ (by simp); exact ih']
    | resume id => unfold Many.step; dsimp only; split <;> [exact turn _ _ _ _ (by simp); exact ih']
    | cancel id => unfold Many.step; dsimp only; split <;> exact ih'

/-- An item asked for is kept, if there can be one. -/
theorem asked_kept (py : Python) (call : Call) (session : Session) (h : List Act) {k : Who × Str} (hk : k ∈ asked h)
    (ha : Addressable k) : ∃ o, ((Many.init session).run py call h).base.items.cache.lookup k = some o := by
  induction h using List.reverseRecOn with
  | nil => simp [asked] at hk
  | append_singleton h a ih =>
    obtain ⟨log, kept⟩ := many_kept py call session h
    rw [many_append]
    generalize (Many.init session).run py call h = m at kept ih
    change ∃ o, (m.step py call a).base.items.cache.lookup k = some o
    have step : ∀ (t : Task) (c : Nat) (st : Step),
        Keeps m.base.items ({ m.base with task := t, client := c }.step py call st).items :=
      fun t c st => step_keeps (py := py) (call := call)
        (inv_congr (s' := { m.base with task := t, client := c }) kept.inv rfl rfl) st
    have keeps : Keeps m.base.items (m.step py call a).base.items := by
      cases a with
      | packet d => exact step m.base.task m.base.client (.packet d)
      | lost => exact step m.base.task m.base.client .lost
      | close => exact step m.base.task m.base.client .close
      | register c me cb => exact step m.base.task m.base.client (.register c me cb)
      | getItem who wher client => exact step m.base.task m.base.client (.getItem who wher client)
      | loop id client => unfold Many.step; dsimp only; split <;> [exact step _ _ _; exact Keeps.refl _]
      | resume id => unfold Many.step; dsimp only; split <;> [exact step _ _ _; exact Keeps.refl _]
      | cancel id => unfold Many.step; dsimp only; split <;> exact Keeps.refl _
    rw [asked_append, List.mem_append] at hk
    rcases hk with hk | hk
    · obtain ⟨o, ho⟩ := ih hk
      exact ⟨o, keeps _ _ ho⟩
    · cases a with
      | getItem who wher client =>
        simp only [asked, List.mem_singleton] at hk
        subst hk
        have hs : (m.step py call (.getItem who wher client)).base.items = (getItem client who wher m.base.items).2 := rfl
        rw [hs]
        obtain ⟨h1, h2⟩ := ha
        obtain ⟨c, hc⟩ := Option.isSome_iff_exists.1 h1
        rw [← itemTypes_lookup] at hc
        obtain ⟨i, hi⟩ := (construct_iff (wher := wher) hc).2 h2
        rcases getItem_cases client who wher m.base.items with ⟨o, hl, e⟩ | ⟨_, ht, e⟩ | ⟨c', _, _, ht, hcon, e⟩ | ⟨c', it, hl, ht, hcon, e⟩
        · exact ⟨o, by rw [e]; exact hl⟩
        · rw [hc] at ht; cases ht
        · rw [hc] at ht; cases ht; rw [hi] at hcon; cases hcon
        · exact ⟨_, by rw [e]; simp; rfl⟩
      | _ => simp [asked] at hk

/-- A run of a loop that suspends leaves nothing in the queue. -/
theorem drain_waiting (py : Python) (call : Call) (q : List Msg) (s : State) (h : (drain py call s q).task = .waiting) :
    (drain py call s q).queue = [] := by
  induction q generalizing s with
  | nil => rfl
  | cons m q ih =>
    rw [drain] at h ⊢
    split at h
    · cases h
    · rename_i he
      dsimp only at h ⊢
      cases ht : s.transport <;> simp only [ht] at h ⊢
      · exact ih _ h
      · cases h
      · cases h

end Events
