import Verif.Proofs.Memory
import Verif.Props.Loops
import Mathlib.Data.List.Dedup
import Mathlib.Data.List.Perm.Subperm

/-! # C126: what a client remembers -/

open Py Spec Events

/-- C126: whatever happened, the client keeps items only for addresses that occurred, in an event or in a call of `get_item`,
and at which there can be an item. -/
theorem C126_only (py : Python) (call : Call) (session : Session) (h : List Act) (k : Who × Str) (o : Obj)
    (hk : ((Many.init session).run py call h).base.items.cache.lookup k = some o) : k ∈ mentioned h ∧ Addressable k := by
  obtain ⟨log, kept⟩ := many_kept py call session h
  refine ⟨(many_stored py call session h).keys _ (mem_of_lookup (by convert hk)), ?_⟩
  obtain ⟨h1, h2⟩ := kept.inv.items.made _ _ hk
  exact ⟨by rw [← itemTypes_lookup, h1]; rfl, (construct_iff (wher := ⟨k.2⟩) h1).1 ⟨_, h2⟩⟩

/-- C126: once every event received has been handled, these are exactly the addresses for which the client keeps an item. -/
theorem C126_exact (py : Python) (call : Call) (session : Session) (h : List Act)
    (hq : ((Many.init session).run py call h).base.queue = []) (k : Who × Str) :
    (∃ o, ((Many.init session).run py call h).base.items.cache.lookup k = some o) ↔ k ∈ mentioned h ∧ Addressable k := by
  constructor
  · rintro ⟨o, ho⟩
    exact C126_only py call session h k o ho
  · rintro ⟨h1, h2⟩
    rcases List.mem_append.1 h1 with h1 | h1
    · exact asked_kept py call session h h1 h2
    · obtain ⟨m, hm, ha⟩ := List.mem_filterMap.1 h1
      obtain ⟨log, kept⟩ := many_kept py call session h
      have ho := kept.once
      rw [hq, List.append_nil] at ho
      rw [← ho] at hm
      obtain ⟨e, he, rfl⟩ := List.mem_map.1 hm
      unfold address at ha
      split at ha
      · rename_i who wher e1 e2
        cases ha
        obtain ⟨c, hc⟩ := Option.isSome_iff_exists.1 h2.1
        exact kept.found e he who wher c e1 e2 hc h2.2
      · cases ha

/-- C126: the items a program can get from a client, by `get_item` and in callbacks, are at most as many as the different
addresses that occurred, however many events there were. -/
theorem C126_bound (py : Python) (call : Call) (session : Session) (h : List Act) (objs : List Obj) (hn : objs.Nodup)
    (hg : ∀ o ∈ objs, Got ((Many.init session).run py call h).base o) : objs.length ≤ (mentioned h).dedup.length := by
  obtain ⟨log, kept⟩ := many_kept py call session h
  have st := many_stored py call session h
  generalize (Many.init session).run py call h = s at kept st hg
  have key : ∀ o ∈ objs, ∃ k, s.base.items.cache.lookup k = some o := by
    intro o ho
    rcases hg o ho with hk | ⟨st, hst, rfl⟩
    · exact hk
    · rw [kept.trace _ kept.inv.items (Keeps.refl _)] at hst
      obtain ⟨e, _, he⟩ := List.mem_flatMap.1 hst
      unfold begunIn at he
      split at he
      · rename_i who wher e1 e2
        split at he
        · rename_i o hl
          refine ⟨_, hl.trans ?_⟩
          unfold starts at he
          split at he
          · simp at he
          · have := (List.takeWhile_sublist _).subset he
            obtain ⟨cb, _, rfl⟩ := List.mem_map.1 this
            rfl
        · simp at he
      · simp at he
  have : Nonempty (Who × Str) := ⟨(.lighting, [])⟩
  choose! f hf using key
  have hm : (objs.map f).Nodup := by
    refine List.Nodup.map_on (fun a ha b hb e => ?_) hn
    have h1 := hf a ha
    rw [e, hf b hb] at h1
    exact (Option.some.inj h1).symm
  have hs : objs.map f ⊆ (mentioned h).dedup := by
    intro k hk
    obtain ⟨o, ho, rfl⟩ := List.mem_map.1 hk
    rw [List.mem_dedup]
    exact st.keys _ (mem_of_lookup (by convert hf o ho))
  simpa using (List.subperm_of_subset hm hs).length_le

/-- C126: a loop that has run and waits again has left no event behind. -/
theorem C126_queue_partial (py : Python) (call : Call) (s : Many) (id : Nat) :
    (Suspended (s.step py call (.resume id)) id → (s.step py call (.resume id)).base.queue = []) ∧
    ∀ client, s.loops id = .none → Suspended (s.step py call (.loop id client)) id →
      (s.step py call (.loop id client)).base.queue = [] := by
  constructor
  · rintro ⟨c, hc⟩
    unfold Many.step at hc ⊢
    dsimp only at hc ⊢
    split at hc
    · rename_i client hl
      unfold Many.turn at hc ⊢
      simp only [Function.update_self, Loop.called.injEq] at hc
      have h2 := hc.2
      unfold State.step at h2 ⊢
      dsimp only at h2 ⊢
      split at h2
      · rename_i h0
        rw [if_pos h0]
        exact drain_waiting _ _ _ _ h2
      · rename_i h0
        rw [if_neg h0]
        by_contra h3
        exact h0 ⟨rfl, h3⟩
    · rename_i hl
      exact absurd hc (hl _)
  · rintro client h0 ⟨c, hc⟩
    unfold Many.step at hc ⊢
    dsimp only at hc ⊢
    rw [h0] at hc ⊢
    unfold Many.turn at hc ⊢
    simp only [Function.update_self, Loop.called.injEq] at hc
    have h2 := hc.2
    unfold State.step State.start at h2 ⊢
    dsimp only at h2 ⊢
    rw [if_pos rfl] at h2 ⊢
    split at h2
    · cases h2
    · rename_i hs
      rw [if_neg hs]
      split at h2
      · cases h2
      · cases h2
      · rename_i ht
        simp only [ht] at h2 ⊢
        exact drain_waiting _ _ _ _ h2

theorem pile (py : Python) (call : Call) (s : Many) (ho : s.base.transport = .opened) (n : Nat) :
    (s.run py call (List.replicate n (.packet (bytes "*1*1*12##")))).base.queue =
      s.base.queue ++ List.replicate n (.normal .lighting ⟨cs!"1"⟩ ⟨cs!"12"⟩) ∧
    (s.run py call (List.replicate n (.packet (bytes "*1*1*12##")))).loops = s.loops ∧
    (s.run py call (List.replicate n (.packet (bytes "*1*1*12##")))).base.transport = .opened := by
  induction n generalizing s with
  | zero => exact ⟨by simp [Many.run], rfl, ho⟩
  | succ n ih =>
    rw [List.replicate_succ, List.replicate_succ]
    have hp : Protocol.packetMessages (bytes "*1*1*12##") = .ok [.normal .lighting ⟨cs!"1"⟩ ⟨cs!"12"⟩] := by decide +kernel
    have hs : s.step py call (.packet (bytes "*1*1*12##")) =
        { s with base := { s.base with queue := s.base.queue ++ [.normal .lighting ⟨cs!"1"⟩ ⟨cs!"12"⟩] } } := by
      unfold Many.step State.step Protocol.dataReceived
      dsimp only
      rw [if_pos ho, hp]
    obtain ⟨a, b, c⟩ := ih (s.step py call (.packet (bytes "*1*1*12##"))) (by rw [hs]; exact ho)
    change ((s.step py call (.packet (bytes "*1*1*12##"))).run py call _).base.queue = _ ∧
      ((s.step py call (.packet (bytes "*1*1*12##"))).run py call _).loops = _ ∧
      ((s.step py call (.packet (bytes "*1*1*12##"))).run py call _).base.transport = _
    refine ⟨?_, ?_, c⟩
    · rw [a, hs]; simp
    · rw [b, hs]

/-- A meter at an address that is not documented. -/
def strangeMeter : Msg := .dimResp .energyManagement ⟨cs!"99"⟩ ⟨cs!"113"⟩ [⟨cs!"5"⟩]

/-- C126 is refuted for the events: after an event has ended the loop, the connection stays open and every further event is
kept, with no bound, although all of them are about one light. -/
theorem C126_queue_refuted (py : Python) (call : Call) (n : Nat) :
    let h : List Act := [.loop 0 0, .packet (bytes "*#18*99*113*5##"), .resume 0] ++
      List.replicate n (.packet (bytes "*1*1*12##"))
    let s := (Many.init .event).run py call h
    (∃ e, s.loops 0 = .called 0 (.raised e)) ∧ s.base.transport = .opened ∧ s.base.queue.length = n ∧
      (mentioned h).dedup.length ≤ 2 := by
  intro h s
  have hp : Protocol.packetMessages (bytes "*#18*99*113*5##") = .ok [strangeMeter] := by decide +kernel
  have hl : Protocol.packetMessages (bytes "*1*1*12##") = .ok [.normal .lighting ⟨cs!"1"⟩ ⟨cs!"12"⟩] := by decide +kernel
  have hu : ¬ Placed .energyManagement cs!"99" := by
    rw [placed_energy]
    rintro ⟨t, ht⟩
    cases ht
  have he := handle_unplaced (py := py) (call := call) (client := 0) (r := .init) (m := strangeMeter)
    (wher := ⟨cs!"99"⟩) itemsOk_init rfl rfl hu
  have hs0 : ((Many.init .event).run py call [.loop 0 0, .packet (bytes "*#18*99*113*5##"), .resume 0]).base =
      { State.init .event 0 with task := .raised (placeError cs!"99") } ∧
      ((Many.init .event).run py call [.loop 0 0, .packet (bytes "*#18*99*113*5##"), .resume 0]).loops 0 =
        .called 0 (.raised (placeError cs!"99")) := by
    simp [Many.run, Many.step, Many.init, Many.turn, State.step, State.start, State.init, drain, Protocol.dataReceived, hp, he]
  have hs : s = ((Many.init .event).run py call [.loop 0 0, .packet (bytes "*#18*99*113*5##"), .resume 0]).run py call
      (List.replicate n (.packet (bytes "*1*1*12##"))) := many_append ..
  obtain ⟨a, b, c⟩ := pile py call _ (by rw [hs0.1]; rfl) n
  rw [hs]
  refine ⟨⟨_, by rw [b]; exact hs0.2⟩, c, by rw [a, hs0.1]; simp [State.init], ?_⟩
  have hsub : (mentioned h).dedup ⊆ [(.energyManagement, cs!"99"), (.lighting, cs!"12")] := by
    intro k hk
    rw [List.mem_dedup] at hk
    have hr : ∀ n, asked (List.replicate n (.packet (bytes "*1*1*12##"))) = [] := by
      intro n
      induction n with
      | zero => rfl
      | succ n ih => exact ih
    have ha : ∀ n, ∀ m ∈ arrived (List.replicate n (.packet (bytes "*1*1*12##"))),
        m = .normal .lighting ⟨cs!"1"⟩ ⟨cs!"12"⟩ := by
      intro n
      induction n with
      | zero => simp [arrived]
      | succ n ih =>
        intro m hm
        rw [List.replicate_succ, arrived, hl] at hm
        rcases List.mem_append.1 hm with hm | hm
        · simpa using hm
        · exact ih m hm
    rcases List.mem_append.1 hk with hk | hk
    · rw [asked_append, hr] at hk
      simp [asked] at hk
    · obtain ⟨m, hm, e⟩ := List.mem_filterMap.1 hk
      have : m = strangeMeter ∨ m = .normal .lighting ⟨cs!"1"⟩ ⟨cs!"12"⟩ := by
        simp only [h, List.cons_append, List.nil_append, arrived, hp] at hm
        rcases List.mem_cons.1 hm with hm | hm
        · exact .inl hm
        · exact .inr (ha n m (by simpa using hm))
      rcases this with rfl | rfl
      · have : k = (.energyManagement, cs!"99") := (Option.some.inj e).symm
        simp [this]
      · have : k = (.lighting, cs!"12") := (Option.some.inj e).symm
        simp [this]
  exact (List.subperm_of_subset (List.nodup_dedup _) hsub).length_le

/-- A house with two lights: ten events, two items. -/
example :
    let h : List Act := [.getItem .lighting ⟨cs!"11"⟩ 0, .loop 0 0] ++ (List.replicate 5 [.packet (bytes "*1*1*11##*1*0*12##"), .resume 0]).flatten
    let s := ((Many.init .event).run .upTo312 allStart h).base
    s.queue = [] ∧ s.items.next = 2 ∧ (mentioned h).dedup.length = 2 ∧ (mentioned h).length = 11 := by
  decide +kernel
